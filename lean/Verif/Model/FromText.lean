import Verif.Model.NumText
import Verif.Model.Law

/-!
# Building a law from text

Models src/parse_from_text.rs and `parse_text` of src/lib.rs. The lines that are still to be read
(`Peekable<Iter<LineContents>>`) are a list. Loops that use up a line each time take the number of
lines as fuel, which is never the reason why they end. The loop of `parse_body` may fail to
terminate, so the number of its iterations is a parameter. `println!` is left out.
-/

namespace JLaw

variable {L : Lvl}

/-! ## Kinds of lines -/

/-- `LineContents` of src/parse_from_text.rs 901-937. -/
inductive TextLine
  | caption (s : List Char)
  | part (n : ArticleNumber) (s : List Char)
  | chapter (n : ArticleNumber) (s : List Char)
  | section_ (n : ArticleNumber) (s : List Char)
  | subsection (n : ArticleNumber) (s : List Char)
  | division (n : ArticleNumber) (s : List Char)
  | article (n : ArticleNumber) (s : List Char)
  | paragraph (n : ArticleNumber) (s : List Char)
  | item (n : ItemNumber) (s : List Char)
  | suppl (lawNum : Option (List Char))
  | text (s : List Char)
  deriving DecidableEq, Repr

/-- `re_caption`, src/parse_from_text.rs 942. -/
def reCaption : Re := .seqs [
  .ch '（', .cap "caption" (.plus (.cls fun c => c != '）')), .ch '）', .eos]

/-- `re_suppl_provision`, src/parse_from_text.rs 944. -/
def reSuppl : Re := .seqs [
  .ch '附', .star (.cls fun c => c == '　' || isSpace c), .ch '則',
  .star (.cls fun c => c == '　' || isSpace c),
  .opt (.seqs [.ch '（', .cap "law_num" (.plus (.cls fun c => c != '\n')), .ch '）']),
  .star (.cls fun c => c != '（' && c != '）'),
  .eos]

/-- The choice by the unit in the heading, src/parse_from_text.rs 950-964. -/
def lineOfNumber (s : List Char) (n : ArticleNumber) (text : List Char) : TextLine :=
  if s.contains '編' then .part n text
  else if s.contains '章' then .chapter n text
  else if s.contains '節' then .section_ n text
  else if s.contains '款' then .subsection n text
  else if s.contains '目' then .division n text
  else if s.contains '条' then .article n text
  else .paragraph n text

/-- `parse_line_contents`, src/parse_from_text.rs 939-977. -/
def parseLineContents (E : Ext) (line : List Char) : Res TextLine :=
  match reCaption.captures (trim line) with
  | some caps => (Res.unwrap (caps.name "caption")).bind fun s => .ok (.caption s)
  | none =>
    match splitNumber (trim line) with
    | some (s, text) =>
      (parseArticleNumber E s).bind fun o =>
      match o with
      | some n => .ok (lineOfNumber s n text)
      | none =>
        (parseItemNumber E s).bind fun o =>
        match o with
        | some n => .ok (.item n text)
        | none => .ok (.text (trim line))
    | none =>
      match reSuppl.captures (trim line) with
      | some caps => .ok (.suppl (caps.name "law_num"))
      | none => .ok (.text (trim line))

/-! ## Articles and what is in them -/

/-- `text.trim() == "削除" || text.trim() == "（削除）"`, e.g. src/parse_from_text.rs 13. -/
def isDeleted (s : List Char) : Bool :=
  trim s == ['削', '除'] || trim s == ['（', '削', '除', '）']

/-- `text_to_sentence`, src/parse_from_text.rs 731-739. -/
def textToSentence (num : Usize) (s : List Char) : Sentence L :=
  ⟨[.string (String.ofList s)], some num, none, none, .vertical⟩

/-- The loops over `LineContents::Text`, e.g. src/parse_from_text.rs 241-244. -/
def takeTexts : List TextLine → List (List Char) × List TextLine
  | .text s :: r => (s :: (takeTexts r).1, (takeTexts r).2)
  | ls => ([], ls)

/-- `sentence_text.iter().enumerate().map(..)`, e.g. src/parse_from_text.rs 245-249; `i` is the
index of the first of them. -/
def sentencesFrom (i : Nat) : List (List Char) → List (Sentence L)
  | [] => []
  | s :: r => textToSentence (asUsize (i + 1)) s :: sentencesFrom (i + 1) r

/-- The structure built for an item or subitem, e.g. src/parse_from_text.rs 265-279. -/
def builtItem {γ : Type} (n : ItemNumber) (text : List Char) (texts : List (List Char))
    (children : List γ) : ItemOf L γ where
  title := none
  sentence := .sentence (sentencesFrom 0 (text :: texts))
  children := children
  struct_list := []
  num := some (ArticleNumber.fromItemNumber n)
  delete := isDeleted text
  hide := false

/-- A reader for items one level deeper: the pattern one level up, the pattern of the level. -/
abbrev SubReader (γ : Type) :=
  ItemPattern → ItemPattern → List TextLine → Res (List γ × List TextLine)

/-- The `if let` before the structure is built, e.g. src/parse_from_text.rs 315-319: items with
another pattern are one level deeper. -/
def goDeeper {γ : Type} (deeper : SubReader γ) (parent now : ItemPattern)
    (ls : List TextLine) : Res (List γ × List TextLine) :=
  match ls with
  | .item m _ :: _ =>
    if m.pattern ≠ now ∧ m.pattern ≠ parent then deeper now m.pattern ls else .ok ([], ls)
  | _ => .ok ([], ls)

/-- The loop of `parse_subitem1` to `parse_subitem10`, e.g. src/parse_from_text.rs 303-338; the items
are returned in order instead of being pushed on `v`. `unreachable!()` is a panic. -/
def subitemLoop {γ : Type} (deeper : SubReader γ) (parent now : ItemPattern) :
    Nat → List TextLine → Res (List (ItemOf L γ) × List TextLine)
  | fuel + 1, .item n text :: r =>
    if n.pattern = parent then .ok ([], .item n text :: r)
    else if n.pattern = now then
      (goDeeper deeper parent now (takeTexts r).2).bind fun c =>
      (subitemLoop deeper parent now fuel c.2).bind fun v =>
      .ok (builtItem n text (takeTexts r).1 c.1 :: v.1, v.2)
    else .panic
  | _, ls => .ok ([], ls)

/-- One of `parse_subitem1` to `parse_subitem10`. Source: src/parse_from_text.rs 298-340, 342-384,
386-428, 430-472, 474-516, 518-560, 562-604, 606-648, 650-692, 694-729. -/
def parseSubitem {γ : Type} (deeper : SubReader γ) : SubReader (ItemOf L γ) :=
  fun parent now ls => subitemLoop deeper parent now ls.length ls

/-- `Subitem10` has no children: the lines stay where they are. Source: src/parse_from_text.rs
694-729. -/
def noDeeper : SubReader Empty := fun _ _ ls => .ok ([], ls)

/-- `parse_subitem10`, src/parse_from_text.rs 694-729. -/
def parseSubitem10 : SubReader (Subitem10 L) := parseSubitem noDeeper
/-- `parse_subitem9`, src/parse_from_text.rs 650-692. -/
def parseSubitem9 : SubReader (Subitem9 L) := parseSubitem parseSubitem10
/-- `parse_subitem8`, src/parse_from_text.rs 606-648. -/
def parseSubitem8 : SubReader (Subitem8 L) := parseSubitem parseSubitem9
/-- `parse_subitem7`, src/parse_from_text.rs 562-604. -/
def parseSubitem7 : SubReader (Subitem7 L) := parseSubitem parseSubitem8
/-- `parse_subitem6`, src/parse_from_text.rs 518-560. -/
def parseSubitem6 : SubReader (Subitem6 L) := parseSubitem parseSubitem7
/-- `parse_subitem5`, src/parse_from_text.rs 474-516. -/
def parseSubitem5 : SubReader (Subitem5 L) := parseSubitem parseSubitem6
/-- `parse_subitem4`, src/parse_from_text.rs 430-472. -/
def parseSubitem4 : SubReader (Subitem4 L) := parseSubitem parseSubitem5
/-- `parse_subitem3`, src/parse_from_text.rs 386-428. -/
def parseSubitem3 : SubReader (Subitem3 L) := parseSubitem parseSubitem4
/-- `parse_subitem2`, src/parse_from_text.rs 342-384. -/
def parseSubitem2 : SubReader (Subitem2 L) := parseSubitem parseSubitem3
/-- `parse_subitem1`, src/parse_from_text.rs 298-340. -/
def parseSubitem1 : SubReader (Subitem1 L) := parseSubitem parseSubitem2

/-- The `if let` of `parse_paragraph`, src/parse_from_text.rs 259-264. -/
def goSubitem1 (now : ItemPattern) (ls : List TextLine) :
    Res (List (Subitem1 L) × List TextLine) :=
  match ls with
  | .item m _ :: _ => if m.pattern ≠ now then parseSubitem1 now m.pattern ls else .ok ([], ls)
  | _ => .ok ([], ls)

/-- The loop over items in `parse_paragraph`, src/parse_from_text.rs 251-281. -/
def itemLoop : Nat → List TextLine → Res (List (Item L) × List TextLine)
  | fuel + 1, .item n text :: r =>
    (goSubitem1 n.pattern (takeTexts r).2).bind fun c =>
    (itemLoop fuel c.2).bind fun v =>
    .ok (builtItem n text (takeTexts r).1 c.1 :: v.1, v.2)
  | _, ls => .ok ([], ls)

/-- `parse_paragraph`, src/parse_from_text.rs 235-296. -/
def parseParagraph (n : ArticleNumber) (text : List Char) (ls : List TextLine) :
    Res (Paragraph L × List TextLine) :=
  (itemLoop (takeTexts ls).2.length (takeTexts ls).2).bind fun c =>
  .ok ({
    caption := none
    paragraph_num := Text.new
    amend_provision := []
    class_ := []
    sentence := sentencesFrom 0 (text :: (takeTexts ls).1)
    struct_list := []
    children := c.1
    num := n
    old_style := false
    old_num := false
    hide := false }, c.2)

/-- The loop over paragraphs in `parse_article`, src/parse_from_text.rs 218-222. -/
def paragraphLoop : Nat → List TextLine → Res (List (Paragraph L) × List TextLine)
  | fuel + 1, .paragraph n text :: r =>
    (parseParagraph n text r).bind fun p =>
    (paragraphLoop fuel p.2).bind fun v => .ok (p.1 :: v.1, v.2)
  | _, ls => .ok ([], ls)

/-- `parse_article`, src/parse_from_text.rs 206-233. -/
def parseArticle (caption : Option (List Char)) (n : ArticleNumber) (text : List Char)
    (ls : List TextLine) : Res (Article L × List TextLine) :=
  (match ArticleNumber.fromNumStr "1" with
    | .ok one => Res.ok one
    | _ => .panic).bind fun one =>
  (parseParagraph one text ls).bind fun p =>
  (paragraphLoop p.2.length p.2).bind fun v =>
  .ok ({
    caption := caption.map fun s => ⟨Text.fromValue (String.ofList s), none⟩
    title := Text.fromValue ""
    paragraph := p.1 :: v.1
    suppl_note := none
    num := n
    delete := isDeleted text
    hide := false }, v.2)

/-! ## Divisions and what is above them -/

/-- The `loop` of `parse_part`, `parse_chapter`, `parse_section`, `parse_subsection` and
`parse_division`, e.g. src/parse_from_text.rs 17-38; the children are returned in order instead of
being pushed. `sub` is the arm for the headings one level lower. -/
def unitLoop {γ : Type} (ofArticle : Article L → γ)
    (sub : TextLine → Option (List TextLine → Res (γ × List TextLine))) :
    Nat → Option (List Char) → List TextLine → Res (List γ × List TextLine)
  | fuel + 1, caption, l :: r =>
    match l with
    | .caption c => unitLoop ofArticle sub fuel (some c) r
    | .article n text =>
      (parseArticle caption n text r).bind fun a =>
      (unitLoop ofArticle sub fuel none a.2).bind fun v => .ok (ofArticle a.1 :: v.1, v.2)
    | l =>
      match sub l with
      | some f =>
        (f r).bind fun x =>
        (unitLoop ofArticle sub fuel none x.2).bind fun v => .ok (x.1 :: v.1, v.2)
      | none => .ok ([], l :: r)
  | _, _, ls => .ok ([], ls)

/-- A reader for a unit with a heading. Source: src/parse_from_text.rs 7-46, 48-87, 89-128, 130-169,
171-204. -/
def parseUnit {γ : Type} (ofArticle : Article L → γ)
    (sub : TextLine → Option (List TextLine → Res (γ × List TextLine)))
    (n : ArticleNumber) (title : List Char) (ls : List TextLine) :
    Res (HierOf L γ × List TextLine) :=
  (unitLoop ofArticle sub ls.length none ls).bind fun v =>
  .ok ({
    title := Text.fromValue (String.ofList title)
    children := v.1
    num := n
    delete := isDeleted title
    hide := false }, v.2)

/-- `parse_division`, src/parse_from_text.rs 171-204. -/
def parseDivision : ArticleNumber → List Char → List TextLine → Res (Division L × List TextLine) :=
  parseUnit id fun _ => none

/-- The arm of `parse_subsection` for divisions, src/parse_from_text.rs 153-158. -/
def subsectionArm : TextLine → Option (List TextLine → Res (SubsectionContents L × List TextLine))
  | .division n t => some fun ls => (parseDivision n t ls).bind fun x => .ok (.division x.1, x.2)
  | _ => none
/-- `parse_subsection`, src/parse_from_text.rs 130-169. -/
def parseSubsection :
    ArticleNumber → List Char → List TextLine → Res (Subsection L × List TextLine) :=
  parseUnit .article subsectionArm

/-- The arm of `parse_section` for subsections, src/parse_from_text.rs 112-117. -/
def sectionArm : TextLine → Option (List TextLine → Res (SectionContents L × List TextLine))
  | .subsection n t =>
    some fun ls => (parseSubsection n t ls).bind fun x => .ok (.subsection x.1, x.2)
  | _ => none
/-- `parse_section`, src/parse_from_text.rs 89-128. -/
def parseSection : ArticleNumber → List Char → List TextLine → Res (Section L × List TextLine) :=
  parseUnit .article sectionArm

/-- The arm of `parse_chapter` for sections, src/parse_from_text.rs 71-76. -/
def chapterArm : TextLine → Option (List TextLine → Res (ChapterContents L × List TextLine))
  | .section_ n t => some fun ls => (parseSection n t ls).bind fun x => .ok (.section_ x.1, x.2)
  | _ => none
/-- `parse_chapter`, src/parse_from_text.rs 48-87. -/
def parseChapter : ArticleNumber → List Char → List TextLine → Res (Chapter L × List TextLine) :=
  parseUnit .article chapterArm

/-- The arm of `parse_part` for chapters, src/parse_from_text.rs 30-35. -/
def partArm : TextLine → Option (List TextLine → Res (PartContents L × List TextLine))
  | .chapter n t => some fun ls => (parseChapter n t ls).bind fun x => .ok (.chapter x.1, x.2)
  | _ => none
/-- `parse_part`, src/parse_from_text.rs 7-46. -/
def parsePart : ArticleNumber → List Char → List TextLine → Res (Part L × List TextLine) :=
  parseUnit .article partArm

/-! ## The body -/

/-- Variables of the loop in `parse_body`, src/parse_from_text.rs 747-754. -/
structure BodySt (L : Lvl) where
  preamble : List (List Char) := []
  is_preamble : Bool := true
  main : List (MainProvisionContents L) := []
  suppl : List (SupplProvision L) := []
  suppl_children : List (SupplProvisionChildrenElement L) := []
  suppl_law_num : Option (Option (List Char)) := none
  caption : Option (List Char) := none

/-- The `if let` that finishes a supplementary provision, src/parse_from_text.rs 811-821 and
866-876. -/
def finishSuppl (s : BodySt L) : List (SupplProvision L) :=
  match s.suppl_law_num with
  | some n =>
    if s.suppl_children.isEmpty then s.suppl
    else s.suppl ++ [⟨Text.fromValue "附則", s.suppl_children, none, n.map String.ofList, none⟩]
  | none => s.suppl

/-- One iteration of the loop in `parse_body`, src/parse_from_text.rs 757-827: `none` stands for
leaving the loop. A text after the preamble and a supplementary provision do not use up a line. -/
def bodyStep (s : BodySt L) (ls : List TextLine) : Res (Option (BodySt L × List TextLine)) :=
  match ls with
  | .part n t :: r =>
    (parsePart n t r).bind fun x =>
    .ok (some ({ s with main := s.main ++ [.part x.1], caption := none, is_preamble := false }, x.2))
  | .chapter n t :: r =>
    (parseChapter n t r).bind fun x =>
    if s.suppl_law_num.isSome then
      .ok (some ({ s with suppl_children := s.suppl_children ++ [.chapter x.1], caption := none,
                          is_preamble := false }, x.2))
    else
      .ok (some ({ s with main := s.main ++ [.chapter x.1], caption := none, is_preamble := false },
        x.2))
  | .section_ n t :: r =>
    (parseSection n t r).bind fun x =>
    .ok (some ({ s with main := s.main ++ [.section_ x.1], caption := none, is_preamble := false },
      x.2))
  | .caption c :: r => .ok (some ({ s with caption := some c, is_preamble := false }, r))
  | .article n t :: r =>
    (parseArticle s.caption n t r).bind fun x =>
    if s.suppl_law_num.isSome then
      .ok (some ({ s with suppl_children := s.suppl_children ++ [.article x.1], caption := none,
                          is_preamble := false }, x.2))
    else
      .ok (some ({ s with main := s.main ++ [.article x.1], caption := none, is_preamble := false },
        x.2))
  | .text t :: r =>
    if s.is_preamble then .ok (some ({ s with preamble := s.preamble ++ [t] }, r))
    else .ok (some (s, ls))
  | .suppl n :: _ =>
    .ok (some ({ s with suppl := finishSuppl s, suppl_law_num := some n, suppl_children := [] }, ls))
  | _ => .ok none

/-- The loop in `parse_body` for at most `fuel` iterations; `none` when it has not been left by
then. Source: src/parse_from_text.rs 757-827. -/
def bodyLoop : Nat → BodySt L → List TextLine → Res (Option (BodySt L))
  | 0, _, _ => .ok none
  | fuel + 1, s, ls =>
    (bodyStep s ls).bind fun o =>
    match o with
    | some (s', ls') => bodyLoop fuel s' ls'
    | none => .ok (some s)

/-- The paragraphs of the preamble, src/parse_from_text.rs 832-856; `i` is the index of the first. -/
def preambleFrom (i : Nat) : List (List Char) → List (Paragraph L)
  | [] => []
  | s :: r => {
      caption := none
      paragraph_num := Text.new
      amend_provision := []
      class_ := []
      sentence := [textToSentence 0 s]
      struct_list := []
      children := []
      num := ⟨asUsize i, [], []⟩
      old_style := false
      old_num := false
      hide := false } :: preambleFrom (i + 1) r

/-- The end of `parse_body`, src/parse_from_text.rs 829-898. -/
def finishBody (title : List Char) (s : BodySt L) : LawBody L where
  law_title := some ⟨none, none, none, Text.fromValue (String.ofList title)⟩
  enact_statement := []
  subject := none
  toc := none
  preamble := if s.preamble.isEmpty then none else some ⟨preambleFrom 0 s.preamble⟩
  main_provision := ⟨s.main, none⟩
  suppl_provision := finishSuppl s
  appdx_table := []
  appdx_note := []
  appdx_style := []
  appdx := []
  appdx_fig := []
  appdx_format := []

/-- `line.strip_suffix('\r')`, or the line. -/
def stripCR (s : List Char) : List Char :=
  if s.getLast? = some '\r' then s.dropLast else s

/-- `str::lines` on the pieces between line feeds: an empty last piece is no line, and a carriage
return before a line feed is part of the line ending. -/
def linesOf : List (List Char) → List (List Char)
  | [] => []
  | [s] => if s.isEmpty then [] else [s]
  | s :: r => stripCR s :: linesOf r

/-- `str::lines`. -/
def strLines (s : List Char) : List (List Char) := linesOf (splitC '\n' s)

/-- The first loop of `parse_body`, src/parse_from_text.rs 742-746. -/
def readLines (E : Ext) (text : List Char) : Res (List TextLine) :=
  mapRes (fun line => parseLineContents E (trim line)) (strLines text)

/-- `parse_body`, src/parse_from_text.rs 741-899, with at most `fuel` iterations of its main loop. -/
def parseBody (E : Ext) (fuel : Nat) (title text : List Char) : Res (Option (LawBody L)) :=
  (readLines E text).bind fun ls =>
  (bodyLoop fuel {} ls).bind fun o => .ok (o.map (finishBody title))

/-! ## `parse_text` -/

/-- What the crate `koyomi` computes: the name of the era of a date given by year, month and day;
 the outer option is `Date::from_ymd(..)`, the inner one `era(..)`. -/
abbrev Calendar := Int → Nat → Nat → Option (Option String)

/-- The `match` on the name of the era, src/lib.rs 90-97; other names are `unreachable!()`. -/
def eraOfName : String → Res Era
  | "明治" => .ok .meiji
  | "大正" => .ok .taisho
  | "昭和" => .ok .showa
  | "平成" => .ok .heisei
  | "令和" => .ok .reiwa
  | _ => .panic

/-- `n as u32` for a `usize`. -/
def asU32 (n : Usize) : Nat := n.val % 4294967296

/-- `parse_text`, src/lib.rs 72-110, with at most `fuel` iterations of the main loop. -/
def parseText (E : Ext) (cal : Calendar) (fuel : Nat) (text : List Char) (year : Usize)
    (month day : Option Usize) (lawType : LawType) (lang : Lang) (num : Option ArticleNumber)
    (lawNum : String) (title : List Char) : Res (Option (Law L)) :=
  (Res.unwrap (cal (asI32 year) (asU32 (month.getD 1)) (asU32 (day.getD 1)))).bind fun d =>
  (Res.unwrap d).bind fun name =>
  (eraOfName name).bind fun era =>
  (parseBody E fuel title text).bind fun o =>
  .ok (o.map fun body => ⟨era, year, num, month, day, lawType, lang, lawNum, body⟩)

end JLaw
