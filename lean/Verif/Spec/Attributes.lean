import Verif.Model.Law
import Verif.Spec.Num

/-!
# What attributes say

The names in attributes, spelt out, and the ways in which an attribute can decide a field.
-/

namespace JLaw.Spec

/-! ## Names -/

/-- Alignments. -/
def alignments : List (String × Align) :=
  [("left", .left), ("center", .center), ("right", .right), ("justify", .justify)]

/-- Positions. -/
def positions : List (String × Position) :=
  [("top", .top), ("middle", .middle), ("bottom", .bottom)]

/-- Directions of writing. -/
def modes : List (String × WritingMode) := [("vertical", .vertical), ("horizontal", .horizontal)]

/-- Functions of sentences. -/
def functions : List (String × SentenceFunction) := [("main", .main), ("proviso", .proviso)]

/-- Indents of sentences. -/
def indents : List (String × SentenceIndent) :=
  [("Paragraph", .paragraph), ("Item", .item), ("Subitem1", .subitem1), ("Subitem2", .subitem2),
    ("Subitem3", .subitem3), ("Subitem4", .subitem4), ("Subitem5", .subitem5),
    ("Subitem6", .subitem6), ("Subitem7", .subitem7), ("Subitem8", .subitem8),
    ("Subitem9", .subitem9), ("Subitem10", .subitem10)]

/-- Styles of lines. -/
def styles : List (String × LineStyle) :=
  [("dotted", .dotted), ("double", .double), ("solid", .solid), ("none", .none)]

/-- Styles of lines as they are read: a double line is taken for a dotted one. -/
def stylesRead : List (String × LineStyle) :=
  [("dotted", .dotted), ("double", .dotted), ("solid", .solid), ("none", .none)]

/-- Kinds of supplementary provisions. -/
def provisionTypes : List (String × SupplProvisionType) := [("New", .new), ("Amend", .amend)]

/-- Truth values. -/
def truth : List (String × Bool) := [("true", true), ("false", false)]

/-! ## Attributes and fields -/

variable {α : Type}

/-- The name stands for the value. -/
def Named (l : List (String × α)) (s : String) (x : α) : Prop := (s, x) ∈ l

/-- The string is a number. -/
def Number (s : String) (x : Usize) : Prop := IsLiteral s.toList x

/-- The string is the number of an article. -/
def Numbered (s : String) (x : ArticleNumber) : Prop := Denotes s.toList x

/-- The attribute has to be given and to stand for the value. -/
def Required (R : String → α → Prop) (a : Option String) (x : α) : Prop := ∃ s, a = some s ∧ R s x

/-- The attribute may be absent, and otherwise has to stand for the value. -/
def Optional (R : String → α → Prop) (a : Option String) (o : Option α) : Prop :=
  (a = none ∧ o = none) ∨ ∃ s x, a = some s ∧ o = some x ∧ R s x

/-- The attribute may be absent or stand for nothing. -/
def Recognised (R : String → α → Prop) (a : Option String) (o : Option α) : Prop :=
  ∀ x, o = some x ↔ ∃ s, a = some s ∧ R s x

/-- The attribute may be absent or stand for nothing; then a fixed value is taken. -/
def OrElse (d : α) (R : String → α → Prop) (a : Option String) (x : α) : Prop :=
  (∃ s, a = some s ∧ R s x) ∨ ((∀ s y, a = some s → ¬ R s y) ∧ x = d)

/-- Every value read has in the field what the attribute says. -/
def Reads {β : Type} (p : Element → Res β) (k : String) (R : Option String → α → Prop)
    (field : β → α) : Prop :=
  ∀ e v, p e = .ok v → R (e.attributes.get k) (field v)

/-- The attribute of every element written says what is in the field. -/
def Writes {β : Type} (w : β → Element) (k : String) (R : Option String → α → Prop)
    (field : β → α) : Prop :=
  ∀ v, R ((w v).attributes.get k) (field v)

end JLaw.Spec
