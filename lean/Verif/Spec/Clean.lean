import Verif.Spec.Num
import Verif.Spec.Tree

/-!
# XML trees without the constructs the writers cannot express

A description of documents in terms of tags and attributes only.
-/

namespace JLaw

/-- Elements whose attribute `Num` is a number with branch numbers and a range. -/
def numberedTags : List String :=
  ["Law", "Part", "Chapter", "Section", "Subsection", "Division", "Article", "Paragraph", "Item",
    "Subitem1", "Subitem2", "Subitem3", "Subitem4", "Subitem5", "Subitem6", "Subitem7", "Subitem8",
    "Subitem9", "Subitem10", "TOCPart", "TOCChapter", "TOCSection", "TOCSubsection", "TOCDivision",
    "TOCArticle"]

/-- Elements that no writer writes. -/
def lostTags : List String := ["NewProvision", "TOCPreambleLabel", "SupplProvisionAppdx"]

/-- The string denotes a number that has no range end or has exactly one branch number. -/
def GoodNumber (s : String) : Prop :=
  ∃ a, Spec.Denotes s.toList a ∧ (a.range_end_numbers = [] ∨ a.eda_numbers.length = 1)

/-- A node that the writers cannot express, not counting what is below it. -/
inductive Lossy : XMLNode → Prop
  /-- one of `lostTags` -/
  | tag {n : String} {a : Attrs} {c : List XMLNode} : n ∈ lostTags → Lossy (.element n a c)
  /-- labelled remarks -/
  | remarks {a a' : Attrs} {c c' : List XMLNode} :
      .element "RemarksLabel" a' c' ∈ c → Lossy (.element "Remarks" a c)
  /-- a titled table of a supplementary provision -/
  | supplTable {a a' : Attrs} {c c' : List XMLNode} :
      .element "SupplProvisionAppdxTableTitle" a' c' ∈ c →
      Lossy (.element "SupplProvisionAppdxTable" a c)
  /-- an appendix with related articles -/
  | related {a a' : Attrs} {c c' : List XMLNode} :
      .element "RelatedArticleNum" a' c' ∈ c → Lossy (.element "Appdx" a c)
  /-- a formula with a number -/
  | formula {a : Attrs} {c : List XMLNode} {s : String} :
      a.get "Num" = some s → Lossy (.element "ArithFormula" a c)
  /-- a table cell with an alignment -/
  | align {a : Attrs} {c : List XMLNode} {s : String} :
      s ∈ ["left", "center", "right", "justify"] → a.get "Align" = some s →
      Lossy (.element "TableColumn" a c)
  /-- a table cell with a vertical alignment -/
  | valign {a : Attrs} {c : List XMLNode} {s : String} :
      s ∈ ["top", "middle", "bottom"] → a.get "Valign" = some s → Lossy (.element "TableColumn" a c)
  /-- an element numbered by anything but a `GoodNumber` -/
  | number {n : String} {a : Attrs} {c : List XMLNode} {s : String} :
      n ∈ numberedTags → a.get "Num" = some s → ¬ GoodNumber s → Lossy (.element n a c)

/-- Nothing in the tree is lossy. -/
def Clean (e : Element) : Prop := ∀ x, Within x e.node → ¬ Lossy x

end JLaw
