import Mathlib.Data.List.Forall2
import Verif.Model.Num

/-!
# What a number attribute string means

A description of number strings that does not mention the reader or the writer.
-/

namespace JLaw.Spec

/-- Value of a list of decimal digits. -/
def decimal (ds : List Char) : Nat := ds.foldl (fun v c => v * 10 + (c.toNat - '0'.toNat)) 0

/-- `s` is a literal of the number `n`: an optional `+` and at least one ASCII digit. -/
def IsLiteral (s : List Char) (n : Usize) : Prop :=
  ∃ ds, (s = ds ∨ s = '+' :: ds) ∧ ds ≠ [] ∧ (∀ c ∈ ds, '0'.toNat ≤ c.toNat ∧ c.toNat ≤ '9'.toNat)
    ∧ decimal ds = n.val

/-- `s` is the list of literals of `ns` separated by underscores. -/
def IsNumberList (s : List Char) (ns : List Usize) : Prop :=
  ∃ segs, segs ≠ [] ∧ s = List.intercalate ['_'] segs ∧ List.Forall₂ IsLiteral segs ns

/-- `s` denotes the number `a`: a non-empty list of literals, then optionally a colon and a second
list, then optionally another colon and anything. -/
def Denotes (s : List Char) (a : ArticleNumber) : Prop :=
  ∃ hd tl, s = hd ++ tl ∧ ':' ∉ hd ∧ IsNumberList hd (a.base_number :: a.eda_numbers) ∧
    ((tl = [] ∧ a.range_end_numbers = []) ∨
      ∃ mid rest, tl = ':' :: mid ++ rest ∧ ':' ∉ mid ∧ (rest = [] ∨ ∃ r, rest = ':' :: r) ∧
        IsNumberList mid a.range_end_numbers)

end JLaw.Spec
