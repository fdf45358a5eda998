import Verif.Props.Accept
import Verif.Reading.Decide

/-!
# C76: a program that tells which documents are read
-/

namespace JLaw

open Spec

/-- **C76.** The checker finds exactly the documents that obey the rules of `Spec.rules`. -/
theorem C76_accepts_iff (e : Element) : accepts e.node = true ↔ Accepted e := accepts_iff e

/-- **C76.** The checker tells which documents are read. -/
theorem C76_read_iff_accepts (n : Nat) (e : Element) (hn : e.node.height ≤ n)
    (hb : ¬ e.HasBareArticle) :
    (∃ x : Law (lvl n), Law.parser e = .ok x) ↔ e.name = "Law" ∧ accepts e.node = true :=
  (C74_read_iff n e hn hb).trans (and_congr_right' (C76_accepts_iff e).symm)

/-- **C76.** A document that the checker takes is never an error: it is read, or reading panics,
and it panics only if there is an article without contents. -/
theorem C76_taken_never_error (n : Nat) (e : Element) (hn : e.node.height ≤ n) (ht : e.name = "Law")
    (ha : accepts e.node = true) :
    (∃ x : Law (lvl n), Law.parser e = .ok x) ∨
      (Law.parser (L := lvl n) e = .panic ∧ e.HasBareArticle) := by
  by_cases hb : e.HasBareArticle
  · exact ((Law.takes (P := True) (lvl_takes _ n) ⟨rfl, hn, fun _ => trivial⟩ ht).complete
      ((accepts_iff e).1 ha)).imp id fun h => ⟨h.2, hb⟩
  · exact .inl ((C76_read_iff_accepts n e hn hb).2 ⟨ht, ha⟩)

/-- **C76.** A document that the checker does not take is never read. -/
theorem C76_refused_never_read (n : Nat) (e : Element) (hn : e.node.height ≤ n)
    (ha : ¬ (e.name = "Law" ∧ accepts e.node = true)) (x : Law (lvl n)) :
    Law.parser e ≠ .ok x := fun h =>
  ha (by simpa only [C76_accepts_iff] using C74_read_accepted n e hn x h)

/-- The checker on the documents of C74. -/
example : goodDoc.name = "Law" ∧ accepts goodDoc.node = true ∧ ¬ goodDoc.HasBareArticle ∧
    (∀ e ∈ badDocs, ¬ (e.name = "Law" ∧ accepts e.node = true)) ∧
    quotingDoc.name = "Law" ∧ accepts quotingDoc.node = true :=
  ⟨rfl, by decide +kernel, not_bare (by decide +kernel), by decide +kernel, rfl, by decide +kernel⟩

end JLaw
