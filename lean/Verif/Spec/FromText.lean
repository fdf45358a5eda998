import Verif.Model.FromText
import Verif.Spec.NumText

/-!
# What a text means

A description of the law built from the lines of a text, line by line, that does not mention the
readers of src/parse_from_text.rs: which lines fit, where each of them belongs, and which pieces of
the document it contributes.
-/

namespace JLaw.Spec

variable {L : Lvl}

/-- Units with a heading of their own. -/
inductive Kind
  | part | chapter | section_ | subsection | division
  deriving DecidableEq, Repr

/-- The order of the units from the outside to the inside. -/
def Kind.rank : Kind → Nat
  | .part => 0
  | .chapter => 1
  | .section_ => 2
  | .subsection => 3
  | .division => 4

/-- The unit in which a unit may lie. -/
def Kind.parent : Kind → Option Kind
  | .part => none
  | .chapter => some .part
  | .section_ => some .chapter
  | .subsection => some .section_
  | .division => some .subsection

/-- Where a heading belongs when the units `path` are open, the outermost first: into the unit that
is next above it if that is open, else directly into the law. The result are the open units after
the heading. -/
def place (path : List Kind) (k : Kind) : List Kind :=
  match k.parent with
  | none => [k]
  | some p => if p ∈ path then path.takeWhile (fun x => x.rank ≤ p.rank) ++ [k] else [k]

/-- The patterns of the open items after an item with pattern `p`, the innermost first. The same
pattern as before is the same level, the pattern one level up closes a level, and every other pattern
opens a level, even the pattern of a level further up. -/
def nest (p : ItemPattern) : List ItemPattern → List ItemPattern
  | [] => [p]
  | [q] => if p = q then [q] else [p, q]
  | q :: q' :: r => if p = q then q :: q' :: r else if p = q' then q' :: r else p :: q :: q' :: r

/-- What the next line can belong to. -/
inductive Place
  /-- nothing but `n` lines of preamble so far -/
  | preamble (n : Nat)
  /-- after a heading or a caption -/
  | heading
  /-- in an article, with the patterns of the open items and the number of sentences of the innermost
  paragraph or item so far -/
  | article (items : List ItemPattern) (sentences : Nat)
  deriving DecidableEq, Repr

/-- State between two lines: the open units and the place. -/
structure State where
  path : List Kind
  place : Place
  deriving DecidableEq, Repr

/-- State at the start. -/
def start : State := ⟨[], .preamble 0⟩

/-- The kind of a heading. -/
def kindOf : TextLine → Option Kind
  | .part _ _ => some .part
  | .chapter _ _ => some .chapter
  | .section_ _ _ => some .section_
  | .subsection _ _ => some .subsection
  | .division _ _ => some .division
  | _ => none

/-- State after a line that fits; `none` when the line is out of place. -/
def next (q : State) : TextLine → Option State
  | .caption _ => some ⟨q.path, .heading⟩
  | .part _ _ => some ⟨place q.path .part, .heading⟩
  | .chapter _ _ => some ⟨place q.path .chapter, .heading⟩
  | .section_ _ _ => some ⟨place q.path .section_, .heading⟩
  | .subsection _ _ =>
    if .section_ ∈ q.path then some ⟨place q.path .subsection, .heading⟩ else none
  | .division _ _ =>
    if .subsection ∈ q.path then some ⟨place q.path .division, .heading⟩ else none
  | .article _ _ => some ⟨q.path, .article [] 1⟩
  | .paragraph _ _ =>
    match q.place with
    | .article _ _ => some ⟨q.path, .article [] 1⟩
    | _ => none
  | .item n _ =>
    match q.place with
    | .article items _ => some ⟨q.path, .article (nest n.pattern items) 1⟩
    | _ => none
  | .text _ =>
    match q.place with
    | .preamble n => some ⟨q.path, .preamble (n + 1)⟩
    | .article items n => some ⟨q.path, .article items (n + 1)⟩
    | .heading => none
  | .suppl _ => none

/-- A piece of a document. -/
inductive Piece (L : Lvl)
  /-- the heading of a unit, with the units it lies in and the unit itself -/
  | heading (path : List Kind) (num : ArticleNumber) (title : Text L) (deleted : Prop)
  /-- the caption of the article that follows -/
  | caption (text : Text L)
  /-- the begin of an article, with the units it lies in -/
  | article (path : List Kind) (num : ArticleNumber) (deleted : Prop)
  /-- the begin of a paragraph -/
  | paragraph (num : ArticleNumber)
  /-- the begin of an item at a depth counted from 1 -/
  | item (depth : Nat) (num : Option ArticleNumber) (deleted : Prop)
  /-- a sentence with its number -/
  | sentence (num : Option Usize) (contents : List (SentenceElement L))

/-- The text without the blanks around it is 削除 or （削除）. -/
def SaysDeleted (s : List Char) : Prop :=
  ∃ a b, (∀ c ∈ a, c ∈ blanks) ∧ (∀ c ∈ b, c ∈ blanks) ∧
    (s = a ++ "削除".toList ++ b ∨ s = a ++ "（削除）".toList ++ b)

/-- Plain text. -/
def plainText (s : List Char) : Text L := ⟨[.text (String.ofList s)]⟩

/-- A sentence with a number. -/
def saying (n : Nat) (s : List Char) : Piece L :=
  .sentence (some (asUsize n)) [.string (String.ofList s)]

/-- The heading of a unit. -/
def headed (path : List Kind) (n : ArticleNumber) (s : List Char) : Piece L :=
  .heading path n (plainText s) (SaysDeleted s)

/-- A line is followed by an article. -/
def beforeArticle : List TextLine → Bool
  | .article _ _ :: _ => true
  | _ => false

/-- The pieces that a line contributes which leads to the state `q`. -/
def contributes (q : State) (following : List TextLine) : TextLine → List (Piece L)
  | .caption s => if beforeArticle following then [.caption (plainText s)] else []
  | .part n s => [headed q.path n s]
  | .chapter n s => [headed q.path n s]
  | .section_ n s => [headed q.path n s]
  | .subsection n s => [headed q.path n s]
  | .division n s => [headed q.path n s]
  | .article n s => [.article q.path n (SaysDeleted s), .paragraph ⟨1, [], []⟩, saying 1 s]
  | .paragraph n s => [.paragraph n, saying 1 s]
  | .item n s =>
    match q.place with
    | .article items _ =>
      [.item items.length (some ⟨n.base_number, n.eda_numbers, n.range_end_numbers⟩)
        (SaysDeleted s), saying 1 s]
    | _ => []
  | .text s =>
    match q.place with
    | .preamble n => [.paragraph ⟨asUsize (n - 1), [], []⟩, saying 0 s]
    | .article _ n => [saying n s]
    | _ => []
  | .suppl _ => []

/-- The pieces of the lines up to the first one that is out of place. -/
def meaning (q : State) : List TextLine → List (Piece L)
  | [] => []
  | l :: r =>
    match next q l with
    | some q' => contributes q' r l ++ meaning q' r
    | none => []

/-- The lines from the first one that is out of place. -/
def leftOver (q : State) : List TextLine → List TextLine
  | [] => []
  | l :: r =>
    match next q l with
    | some q' => leftOver q' r
    | none => l :: r

/-- An item lies deeper than the schema allows: below an item there are ten levels. -/
def TooDeep (ps : List (Piece L)) : Prop := ∃ d n b, Piece.item d n b ∈ ps ∧ 11 < d

/-! ## The pieces of a law -/

/-- A sentence. -/
def sentencePiece (s : Sentence L) : Piece L := .sentence s.num s.contents

/-- An item or a subitem. -/
def itemPieces {γ : Type} (children : γ → List (Piece L)) (depth : Nat) (x : ItemOf L γ) :
    List (Piece L) :=
  .item depth x.num (x.delete = true) ::
    (match x.sentence with
      | .sentence l => l.map sentencePiece
      | _ => []) ++ x.children.flatMap children

def subitem10 : Subitem10 L → List (Piece L) := itemPieces Empty.elim 11
def subitem9 : Subitem9 L → List (Piece L) := itemPieces subitem10 10
def subitem8 : Subitem8 L → List (Piece L) := itemPieces subitem9 9
def subitem7 : Subitem7 L → List (Piece L) := itemPieces subitem8 8
def subitem6 : Subitem6 L → List (Piece L) := itemPieces subitem7 7
def subitem5 : Subitem5 L → List (Piece L) := itemPieces subitem6 6
def subitem4 : Subitem4 L → List (Piece L) := itemPieces subitem5 5
def subitem3 : Subitem3 L → List (Piece L) := itemPieces subitem4 4
def subitem2 : Subitem2 L → List (Piece L) := itemPieces subitem3 3
def subitem1 : Subitem1 L → List (Piece L) := itemPieces subitem2 2
def item : Item L → List (Piece L) := itemPieces subitem1 1

def paragraph (x : Paragraph L) : List (Piece L) :=
  .paragraph x.num :: x.sentence.map sentencePiece ++ x.children.flatMap item

def article (path : List Kind) (x : Article L) : List (Piece L) :=
  x.caption.toList.map (fun c => .caption c.text) ++
    .article path x.num (x.delete = true) :: x.paragraph.flatMap paragraph

/-- A unit with a heading. -/
def unit {γ : Type} (children : List Kind → γ → List (Piece L)) (path : List Kind)
    (x : HierOf L γ) : List (Piece L) :=
  .heading path x.num x.title (x.delete = true) :: x.children.flatMap (children path)

def division : List Kind → Division L → List (Piece L) := unit article
def subsectionChild (path : List Kind) : SubsectionContents L → List (Piece L)
  | .article a => article path a
  | .division d => division (path ++ [.division]) d
def subsection : List Kind → Subsection L → List (Piece L) := unit subsectionChild
def sectionChild (path : List Kind) : SectionContents L → List (Piece L)
  | .article a => article path a
  | .subsection d => subsection (path ++ [.subsection]) d
  | .division d => division (path ++ [.division]) d
def section_ : List Kind → Section L → List (Piece L) := unit sectionChild
def chapterChild (path : List Kind) : ChapterContents L → List (Piece L)
  | .article a => article path a
  | .section_ d => section_ (path ++ [.section_]) d
def chapter : List Kind → Chapter L → List (Piece L) := unit chapterChild
def partChild (path : List Kind) : PartContents L → List (Piece L)
  | .article a => article path a
  | .chapter d => chapter (path ++ [.chapter]) d
def part : List Kind → Part L → List (Piece L) := unit partChild

def mainChild : MainProvisionContents L → List (Piece L)
  | .part x => part [.part] x
  | .chapter x => chapter [.chapter] x
  | .section_ x => section_ [.section_] x
  | .article a => article [] a
  | .paragraph p => paragraph p

/-- The preamble and the main provision, in document order. -/
def document (x : LawBody L) : List (Piece L) :=
  (x.preamble.toList.flatMap fun p => p.children.flatMap paragraph) ++
    x.main_provision.children.flatMap mainChild

/-! ## Views of the lines and of the pieces -/

/-- The lines before the first one that is out of place. -/
def used (q : State) : List TextLine → List TextLine
  | [] => []
  | l :: r =>
    match next q l with
    | some q' => l :: used q' r
    | none => []

/-- The texts of the lines, without captions that no article follows. -/
def lineTexts : List TextLine → List (Text L)
  | [] => []
  | l :: r =>
    (match l with
      | .caption s => if beforeArticle r then [plainText s] else []
      | .part _ s | .chapter _ s | .section_ _ s | .subsection _ s | .division _ s | .article _ s
      | .paragraph _ s | .item _ s | .text s => [plainText s]
      | .suppl _ => []) ++ lineTexts r

/-- The texts of a document. -/
def pieceTexts : List (Piece L) → List (Text L)
  | [] => []
  | x :: r =>
    (match x with
      | .heading _ _ t _ => [t]
      | .caption t => [t]
      | .sentence _ c => [⟨c.filterMap fun e =>
          match e with
          | .string s => some (.text s)
          | _ => none⟩]
      | _ => []) ++ pieceTexts r

/-- The articles announced by lines, each with the caption directly before it. -/
def captioned : Option (Text L) → List TextLine → List (Option (Text L) × ArticleNumber)
  | _, [] => []
  | c, l :: r =>
    match l with
    | .caption s => captioned (some (plainText s)) r
    | .article n _ => (c, n) :: captioned none r
    | _ => captioned none r

/-- The articles of a document, each with its caption. -/
def articlesWith : Option (Text L) → List (Piece L) → List (Option (Text L) × ArticleNumber)
  | _, [] => []
  | c, x :: r =>
    match x with
    | .caption t => articlesWith (some t) r
    | .article _ n _ => (c, n) :: articlesWith none r
    | _ => articlesWith none r

/-- The number of a heading, an article or a paragraph. -/
def numberOf : TextLine → Option ArticleNumber
  | .part n _ | .chapter n _ | .section_ n _ | .subsection n _ | .division n _ | .article n _
  | .paragraph n _ => some n
  | _ => none

/-- Whether the units announced by lines are called deleted. -/
def lineDeletions (ls : List TextLine) : List Prop :=
  ls.filterMap fun l =>
    match l with
    | .part _ s | .chapter _ s | .section_ _ s | .subsection _ s | .division _ s | .article _ s
    | .item _ s => some (SaysDeleted s)
    | _ => none

/-- Whether the units of a document are marked as deleted. -/
def pieceDeletions (ps : List (Piece L)) : List Prop :=
  ps.filterMap fun x =>
    match x with
    | .heading _ _ _ d => some d
    | .article _ _ d => some d
    | .item _ _ d => some d
    | _ => none

/-- A piece is a sentence. -/
def Piece.isSentence : Piece L → Bool
  | .sentence _ _ => true
  | _ => false

/-- A piece is the begin of a unit or of an article. -/
def Piece.isUnit : Piece L → Bool
  | .heading _ _ _ _ => true
  | .article _ _ _ => true
  | _ => false

/-- A piece is the begin of a paragraph. -/
def Piece.isParagraph : Piece L → Bool
  | .paragraph _ => true
  | _ => false

/-- The number of sentences at the end. -/
def run (ps : List (Piece L)) : Nat := (ps.reverse.takeWhile Piece.isSentence).length

end JLaw.Spec
