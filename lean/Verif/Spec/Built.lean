import Verif.Spec.FromText

/-!
# Laws that can be built from text

The shape of the laws that src/parse_from_text.rs can build, said without its readers: which fields
are filled, how sentences and paragraphs are numbered, and which units and items can follow each
other.
-/

namespace JLaw.Spec

variable {L : Lvl}

/-! ## Sentences -/

/-- A sentence made from the line `s`. -/
def Said (n : Nat) (s : List Char) (x : Sentence L) : Prop :=
  x = ⟨[.string (String.ofList s)], some (asUsize n), none, none, .vertical⟩

/-- The line from which a sentence was made. -/
def sentenceText (x : Sentence L) : List Char :=
  match x.contents with
  | [.string s] => s.toList
  | _ => []

/-- Sentences made from lines, the first of which is `s`, numbered from 1. -/
def SaidAll (s : List Char) (l : List (Sentence L)) : Prop :=
  l.head?.map sentenceText = some s ∧ ∀ i x, l[i]? = some x → Said (i + 1) (sentenceText x) x

/-! ## Items -/

/-- How many levels are open below an item when the last of its descendants has been written. -/
def openBelow {γ : Type} (below : γ → Nat) (x : ItemOf L γ) : Nat :=
  match x.children.getLast? with
  | some y => below y + 1
  | none => 0

/-- An item that is followed by another one of the same level leaves at most one level open. -/
def ClosesOne {α : Type} (below : α → Nat) (l : List α) : Prop :=
  ∀ a x y b, l = a ++ x :: y :: b → below x ≤ 1

/-- An item built from lines; `child` and `below` are the same for its children. -/
structure ItemBuilt {γ : Type} (child : γ → Prop) (below : γ → Nat) (x : ItemOf L γ) : Prop where
  title : x.title = none
  struct_list : x.struct_list = []
  hide : x.hide = false
  num : ∃ n, x.num = some n
  sentence : ∃ l s, x.sentence = .sentence l ∧ SaidAll s l ∧ (x.delete = true ↔ SaysDeleted s)
  children : ∀ y ∈ x.children, child y
  order : ClosesOne below x.children

def subitem10Below : Subitem10 L → Nat := openBelow Empty.elim
def subitem9Below : Subitem9 L → Nat := openBelow subitem10Below
def subitem8Below : Subitem8 L → Nat := openBelow subitem9Below
def subitem7Below : Subitem7 L → Nat := openBelow subitem8Below
def subitem6Below : Subitem6 L → Nat := openBelow subitem7Below
def subitem5Below : Subitem5 L → Nat := openBelow subitem6Below
def subitem4Below : Subitem4 L → Nat := openBelow subitem5Below
def subitem3Below : Subitem3 L → Nat := openBelow subitem4Below
def subitem2Below : Subitem2 L → Nat := openBelow subitem3Below
def subitem1Below : Subitem1 L → Nat := openBelow subitem2Below
def itemBelow : Item L → Nat := openBelow subitem1Below

def Subitem10Built : Subitem10 L → Prop := ItemBuilt (fun _ => True) Empty.elim
def Subitem9Built : Subitem9 L → Prop := ItemBuilt Subitem10Built subitem10Below
def Subitem8Built : Subitem8 L → Prop := ItemBuilt Subitem9Built subitem9Below
def Subitem7Built : Subitem7 L → Prop := ItemBuilt Subitem8Built subitem8Below
def Subitem6Built : Subitem6 L → Prop := ItemBuilt Subitem7Built subitem7Below
def Subitem5Built : Subitem5 L → Prop := ItemBuilt Subitem6Built subitem6Below
def Subitem4Built : Subitem4 L → Prop := ItemBuilt Subitem5Built subitem5Below
def Subitem3Built : Subitem3 L → Prop := ItemBuilt Subitem4Built subitem4Below
def Subitem2Built : Subitem2 L → Prop := ItemBuilt Subitem3Built subitem3Below
def Subitem1Built : Subitem1 L → Prop := ItemBuilt Subitem2Built subitem2Below
def ItemsBuilt : Item L → Prop := ItemBuilt Subitem1Built subitem1Below

/-! ## Paragraphs and articles -/

/-- A paragraph built from lines, the first of which is `s`. -/
structure ParagraphBuilt (s : List Char) (x : Paragraph L) : Prop where
  caption : x.caption = none
  paragraph_num : x.paragraph_num = ⟨[]⟩
  amend_provision : x.amend_provision = []
  class_ : x.class_ = []
  struct_list : x.struct_list = []
  old_style : x.old_style = false
  old_num : x.old_num = false
  hide : x.hide = false
  sentence : SaidAll s x.sentence
  children : ∀ y ∈ x.children, ItemsBuilt y
  order : ClosesOne itemBelow x.children

/-- An article built from lines. -/
structure ArticleBuilt (x : Article L) : Prop where
  caption : x.caption = none ∨ ∃ s, x.caption = some ⟨plainText s, none⟩
  title : x.title = plainText []
  suppl_note : x.suppl_note = none
  hide : x.hide = false
  paragraph : ∃ p r s, x.paragraph = p :: r ∧ p.num = ⟨1, [], []⟩ ∧ ParagraphBuilt s p ∧
    (x.delete = true ↔ SaysDeleted s) ∧ ∀ q ∈ r, ∃ s, ParagraphBuilt s q

/-! ## Units -/

/-- Nothing of the kind comes after something that is not of the kind. -/
def First {α : Type} (kind : α → Prop) (l : List α) : Prop :=
  ∀ a x y b, l = a ++ x :: y :: b → kind y → kind x

/-- A unit with a heading built from lines. -/
structure UnitBuilt {γ : Type} (child isArticle : γ → Prop) (x : HierOf L γ) : Prop where
  title : ∃ s, x.title = plainText s ∧ (x.delete = true ↔ SaysDeleted s)
  hide : x.hide = false
  children : ∀ y ∈ x.children, child y
  order : First isArticle x.children

def DivisionBuilt : Division L → Prop := UnitBuilt ArticleBuilt fun _ => True
def SubsectionBuilt : Subsection L → Prop :=
  UnitBuilt (fun | .article a => ArticleBuilt a | .division d => DivisionBuilt d)
    (fun | .article _ => True | _ => False)
def SectionBuilt : Section L → Prop :=
  UnitBuilt (fun | .article a => ArticleBuilt a | .subsection d => SubsectionBuilt d | _ => False)
    (fun | .article _ => True | _ => False)
def ChapterBuilt : Chapter L → Prop :=
  UnitBuilt (fun | .article a => ArticleBuilt a | .section_ d => SectionBuilt d)
    (fun | .article _ => True | _ => False)
def PartBuilt : Part L → Prop :=
  UnitBuilt (fun | .article a => ArticleBuilt a | .chapter d => ChapterBuilt d)
    (fun | .article _ => True | _ => False)

/-- A child of the main provision built from lines. -/
def MainBuilt : MainProvisionContents L → Prop
  | .part x => PartBuilt x
  | .chapter x => ChapterBuilt x
  | .section_ x => SectionBuilt x
  | .article x => ArticleBuilt x
  | .paragraph _ => False

/-- The second can come directly after the first in the main provision: an article only after an
article, a chapter not after a part, a section not after a chapter, nor after a part with chapters. -/
def MayFollow : MainProvisionContents L → MainProvisionContents L → Prop
  | .article _, _ => True
  | _, .article _ => False
  | .part _, .chapter _ => False
  | .part x, .section_ _ => ∀ c ∈ x.children, ∃ a, c = .article a
  | .chapter _, .section_ _ => False
  | _, _ => True

/-! ## The body -/

/-- The `i`-th paragraph of a preamble built from lines. -/
def PreambleParagraph (i : Nat) (x : Paragraph L) : Prop :=
  ∃ s y, Said 0 s y ∧
    x = ⟨none, ⟨[]⟩, [], [], [y], [], [], ⟨asUsize i, [], []⟩, false, false, false⟩

/-- A body built from lines. -/
structure BodyBuilt (title : List Char) (x : LawBody L) : Prop where
  law_title : x.law_title = some ⟨none, none, none, plainText title⟩
  enact_statement : x.enact_statement = []
  subject : x.subject = none
  toc : x.toc = none
  preamble : ∀ p, x.preamble = some p →
    p.children ≠ [] ∧ ∀ i y, p.children[i]? = some y → PreambleParagraph i y
  extract : x.main_provision.extract = none
  children : ∀ y ∈ x.main_provision.children, MainBuilt y
  order : ∀ a y z b, x.main_provision.children = a ++ y :: z :: b → MayFollow y z
  suppl_provision : x.suppl_provision = []
  appdx_table : x.appdx_table = []
  appdx_note : x.appdx_note = []
  appdx_style : x.appdx_style = []
  appdx : x.appdx = []
  appdx_fig : x.appdx_fig = []
  appdx_format : x.appdx_format = []

/-! ## The lines of a law -/

section Lines

-- `H d n` is the heading with the number `n` for an item of depth `d`.
variable (H : Nat → ArticleNumber → ItemNumber)

/-- The lines of sentences, the first of which stands in the line `head`. -/
def sentenceLines (head : List Char → TextLine) : List (Sentence L) → List TextLine
  | [] => []
  | x :: r => head (sentenceText x) :: r.map fun y => .text (sentenceText y)

/-- The lines of an item of depth `d`. -/
def itemLines {γ : Type} (child : γ → List TextLine) (d : Nat) (x : ItemOf L γ) : List TextLine :=
  sentenceLines (.item (H d (x.num.getD ⟨0, [], []⟩)))
      (match x.sentence with
        | .sentence l => l
        | _ => []) ++ x.children.flatMap child

def subitem10Lines : Subitem10 L → List TextLine := itemLines H Empty.elim 11
def subitem9Lines : Subitem9 L → List TextLine := itemLines H (subitem10Lines H) 10
def subitem8Lines : Subitem8 L → List TextLine := itemLines H (subitem9Lines H) 9
def subitem7Lines : Subitem7 L → List TextLine := itemLines H (subitem8Lines H) 8
def subitem6Lines : Subitem6 L → List TextLine := itemLines H (subitem7Lines H) 7
def subitem5Lines : Subitem5 L → List TextLine := itemLines H (subitem6Lines H) 6
def subitem4Lines : Subitem4 L → List TextLine := itemLines H (subitem5Lines H) 5
def subitem3Lines : Subitem3 L → List TextLine := itemLines H (subitem4Lines H) 4
def subitem2Lines : Subitem2 L → List TextLine := itemLines H (subitem3Lines H) 3
def subitem1Lines : Subitem1 L → List TextLine := itemLines H (subitem2Lines H) 2
def itemsLines : Item L → List TextLine := itemLines H (subitem1Lines H) 1

/-- The lines of a paragraph, the first of which starts with `head`. -/
def paragraphLines (head : List Char → TextLine) (x : Paragraph L) : List TextLine :=
  sentenceLines head x.sentence ++ x.children.flatMap (itemsLines H)

/-- The plain string of a text made from a string. -/
def textChars (x : Text L) : List Char :=
  match x.contents with
  | [.text s] => s.toList
  | _ => []

/-- The lines of an article. -/
def articleLines (x : Article L) : List TextLine :=
  x.caption.toList.map (fun c => .caption (textChars c.text)) ++
    match x.paragraph with
    | [] => []
    | p :: r => paragraphLines H (.article x.num) p ++
      r.flatMap fun q => paragraphLines H (.paragraph q.num) q

/-- The lines of a unit with a heading. -/
def unitLines {γ : Type} (head : ArticleNumber → List Char → TextLine) (child : γ → List TextLine)
    (x : HierOf L γ) : List TextLine :=
  head x.num (textChars x.title) :: x.children.flatMap child

def divisionLines : Division L → List TextLine := unitLines .division (articleLines H)
def subsectionLines : Subsection L → List TextLine :=
  unitLines .subsection fun | .article a => articleLines H a | .division d => divisionLines H d
def sectionLines : Section L → List TextLine :=
  unitLines .section_ fun
    | .article a => articleLines H a
    | .subsection d => subsectionLines H d
    | .division d => divisionLines H d
def chapterLines : Chapter L → List TextLine :=
  unitLines .chapter fun | .article a => articleLines H a | .section_ d => sectionLines H d
def partLines : Part L → List TextLine :=
  unitLines .part fun | .article a => articleLines H a | .chapter d => chapterLines H d

def mainLines : MainProvisionContents L → List TextLine
  | .part x => partLines H x
  | .chapter x => chapterLines H x
  | .section_ x => sectionLines H x
  | .article x => articleLines H x
  | .paragraph x => paragraphLines H (.paragraph x.num) x

/-- The lines of a law. -/
def bodyLines (x : LawBody L) : List TextLine :=
  (x.preamble.toList.flatMap fun p => p.children.flatMap fun y => sentenceLines .text y.sentence) ++
    x.main_provision.children.flatMap (mainLines H)

end Lines

end JLaw.Spec
