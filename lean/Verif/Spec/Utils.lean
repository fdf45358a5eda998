import Verif.Model.Law

/-!
# What the lists of articles, the plain text and the generated tables of contents should hold

The units of a provision are laid out as trees and read off in document order, each together with
the units around it. Nothing here uses the functions of src/utils.rs.
-/

namespace JLaw

variable {L : Lvl}

/-! ## Trees in document order -/

/-- A tree with labels. -/
inductive Rose (α : Type) where
  | node (label : α) (children : List (Rose α))

mutual
/-- All labels of a tree in document order, each with the labels around it from the outside in. -/
def Rose.walk {α : Type} (around : List α) : Rose α → List (List α × α)
  | .node a c => (around, a) :: walkAll (around ++ [a]) c
/-- The same for trees side by side. -/
def Rose.walkAll {α : Type} (around : List α) : List (Rose α) → List (List α × α)
  | [] => []
  | t :: ts => walk around t ++ walkAll around ts
end

/-! ## Units of a provision -/

/-- The kinds of units. -/
inductive Kind
  | part | chapter | section_ | subsection | division | article
  deriving DecidableEq, Repr

/-- A unit without what it holds. -/
inductive UnitHead (L : Lvl)
  | part (num : ArticleNumber) (title : Text L)
  | chapter (num : ArticleNumber) (title : Text L)
  | section_ (num : ArticleNumber) (title : Text L)
  | subsection (num : ArticleNumber) (title : Text L)
  | division (num : ArticleNumber) (title : Text L)
  | article (a : Article L)

/-- Kind of a unit. -/
def UnitHead.kind : UnitHead L → Kind
  | .part .. => .part
  | .chapter .. => .chapter
  | .section_ .. => .section_
  | .subsection .. => .subsection
  | .division .. => .division
  | .article .. => .article

/-- Number of a unit. -/
def UnitHead.num : UnitHead L → ArticleNumber
  | .part n _ | .chapter n _ | .section_ n _ | .subsection n _ | .division n _ => n
  | .article a => a.num

/-- Title of a unit. -/
def UnitHead.title : UnitHead L → Text L
  | .part _ t | .chapter _ t | .section_ _ t | .subsection _ t | .division _ t => t
  | .article a => a.title

/-- The article, if the unit is one. -/
def UnitHead.article? : UnitHead L → Option (Article L)
  | .article a => some a
  | _ => none

/-- An article as a tree. -/
def Article.tree (a : Article L) : Rose (UnitHead L) := .node (.article a) []
/-- A division as a tree. -/
def Division.tree (d : Division L) : Rose (UnitHead L) :=
  .node (.division d.num d.title) (d.children.map Article.tree)
/-- A child of a subsection as a tree. -/
def SubsectionContents.tree : SubsectionContents L → Rose (UnitHead L)
  | .article a => a.tree
  | .division d => Division.tree d
/-- A subsection as a tree. -/
def Subsection.tree (d : Subsection L) : Rose (UnitHead L) :=
  .node (.subsection d.num d.title) (d.children.map SubsectionContents.tree)
/-- A child of a section as a tree. -/
def SectionContents.tree : SectionContents L → Rose (UnitHead L)
  | .article a => a.tree
  | .subsection d => Subsection.tree d
  | .division d => Division.tree d
/-- A section as a tree. -/
def Section.tree (d : Section L) : Rose (UnitHead L) :=
  .node (.section_ d.num d.title) (d.children.map SectionContents.tree)
/-- A child of a chapter as a tree. -/
def ChapterContents.tree : ChapterContents L → Rose (UnitHead L)
  | .article a => a.tree
  | .section_ d => Section.tree d
/-- A chapter as a tree. -/
def Chapter.tree (d : Chapter L) : Rose (UnitHead L) :=
  .node (.chapter d.num d.title) (d.children.map ChapterContents.tree)
/-- A child of a part as a tree. -/
def PartContents.tree : PartContents L → Rose (UnitHead L)
  | .article a => a.tree
  | .chapter d => Chapter.tree d
/-- A part as a tree. -/
def Part.tree (d : Part L) : Rose (UnitHead L) :=
  .node (.part d.num d.title) (d.children.map PartContents.tree)

/-- The unit among the children of a main provision, if it is not a loose paragraph. -/
def MainProvisionContents.tree? : MainProvisionContents L → Option (Rose (UnitHead L))
  | .part d => some (Part.tree d)
  | .chapter d => some (Chapter.tree d)
  | .section_ d => some (Section.tree d)
  | .article a => some a.tree
  | .paragraph _ => none

/-- The unit among the children of a supplementary provision. -/
def SupplProvisionChildrenElement.tree? :
    SupplProvisionChildrenElement L → Option (Rose (UnitHead L))
  | .chapter d => some (Chapter.tree d)
  | .article a => some a.tree
  | _ => none

/-- The units of a main provision in document order, with the units around them. -/
def MainProvision.units (m : MainProvision L) : List (List (UnitHead L) × UnitHead L) :=
  Rose.walkAll [] (m.children.filterMap MainProvisionContents.tree?)

/-- The units of a supplementary provision in document order, with the units around them. -/
def SupplProvision.units (x : SupplProvision L) : List (List (UnitHead L) × UnitHead L) :=
  Rose.walkAll [] (x.children.filterMap SupplProvisionChildrenElement.tree?)

/-- The number of the unit of kind `k` on the way down to a unit. -/
def numOf (k : Kind) (path : List (UnitHead L)) : Option ArticleNumber :=
  (path.find? fun u => u.kind = k).map UnitHead.num

/-- The number of the unit directly below the one of kind `k` on the way down to a unit. -/
def numBelow (k : Kind) : List (UnitHead L) → Option ArticleNumber
  | u :: v :: path => if u.kind = k then some v.num else numBelow k (v :: path)
  | _ => none

/-- The chapter, if the child of a part is one. -/
def PartContents.chapter? : PartContents L → Option (Chapter L)
  | .chapter d => some d
  | _ => none

/-- The article, if the child of a chapter is one. -/
def ChapterContents.article? : ChapterContents L → Option (Article L)
  | .article a => some a
  | _ => none

/-- Putting separators between groups. -/
def interleave {α : Type} : List (List α) → List α → List α
  | g :: gs, s :: ss => g ++ s :: interleave gs ss
  | gs, [] => gs.flatten
  | [], ss => ss

/-- A child of a main provision that is a loose paragraph. -/
def MainProvisionContents.paragraph? : MainProvisionContents L → Option (Paragraph L)
  | .paragraph p => some p
  | _ => none

/-- A child of a supplementary provision that is a loose paragraph. -/
def SupplProvisionChildrenElement.paragraph? :
    SupplProvisionChildrenElement L → Option (Paragraph L)
  | .paragraph p => some p
  | _ => none

/-! ## Items -/

/-- An item or subitem without what is below it; `level` is 0 for items, `k` for `SubitemK`. -/
structure ItemHead (L : Lvl) where
  level : Nat
  num : Option ArticleNumber
  sentence : SentenceOrColumnOrTable L

/-- An item as a tree. -/
def ItemOf.tree {γ : Type} (level : Nat) (inner : γ → Rose (ItemHead L)) (x : ItemOf L γ) :
    Rose (ItemHead L) :=
  .node ⟨level, x.num, x.sentence⟩ (x.children.map inner)

/-- An item of a paragraph as a tree, with the subitems of all ten levels. -/
def Item.tree : Item L → Rose (ItemHead L) :=
  ItemOf.tree 0 <| ItemOf.tree 1 <| ItemOf.tree 2 <| ItemOf.tree 3 <| ItemOf.tree 4 <|
  ItemOf.tree 5 <| ItemOf.tree 6 <| ItemOf.tree 7 <| ItemOf.tree 8 <| ItemOf.tree 9 <|
  ItemOf.tree 10 Empty.elim

/-- The items and subitems of a paragraph in document order, with the items around them. -/
def Paragraph.items (p : Paragraph L) : List (List (ItemHead L) × ItemHead L) :=
  Rose.walkAll [] (p.children.map Item.tree)

/-! ## Plain text -/

/-- One piece of a title or base text as plain text. -/
def TextElement.plain (ruby : L.Text → String) : TextElement L → String
  | .sub x => x.text
  | .sup x => x.text
  | .ruby r => ruby r.text
  | .line _ => ""
  | .text t => t

/-- The text of a title or base text, without the readings of ruby. -/
def plainText : (n : Nat) → Text (lvl n) → String
  | 0, t => String.join (t.contents.map (TextElement.plain Empty.elim))
  | n + 1, t => String.join (t.contents.map (TextElement.plain (plainText n)))

/-- One piece of raw contents as plain text. -/
def ContentsElement.plain (ruby : L.Text → String) : ContentsElement L → String
  | .string t => t
  | .ruby r => ruby r.text
  | .sub x => "_{" ++ x.text ++ "}"
  | .sup x => "^{" ++ x.text ++ "}"
  | _ => ""

/-- Raw contents as plain text. -/
def plainContents : (n : Nat) → Contents (lvl n) → String
  | 0, c => String.join (c.contents.map (ContentsElement.plain Empty.elim))
  | n + 1, c => String.join (c.contents.map (ContentsElement.plain (plainText n)))

/-- One piece of a sentence as plain text. -/
def SentenceElement.plain (ruby : L.Text → String) (contents : L.Contents → String) :
    SentenceElement L → String
  | .string t => t
  | .ruby r => ruby r.text
  | .sub x => "_{" ++ x.text ++ "}"
  | .sup x => "^{" ++ x.text ++ "}"
  | .arithFormula a => contents a.contentes
  | .quoteStruct q => contents q.contentes
  | .line _ => ""

/-- A sentence as plain text. -/
def plainSentence : (n : Nat) → List (SentenceElement (lvl n)) → String
  | 0, l => String.join (l.map (SentenceElement.plain Empty.elim Empty.elim))
  | n + 1, l => String.join (l.map (SentenceElement.plain (plainText n) (plainContents n)))

/-- One piece of a table cell as plain text. -/
def TableColumnContents.plain (n : Nat) : TableColumnContents (lvl n) → String
  | .string s => s
  | .sentence s => plainSentence n s.contents
  | .column c => String.join (c.sentence.map fun s => plainSentence n s.contents)
  | _ => ""

/-- A table cell as plain text. -/
def plainCell (n : Nat) (c : TableColumn (lvl n)) : String :=
  String.join (c.contents.map (TableColumnContents.plain n))

/-- The cells of a row as plain text. -/
def rowCells : (n : Nat) → TableRow (lvl n) → List String
  | 0, _ => []
  | n + 1, r => r.columns.map (plainCell n)

end JLaw
