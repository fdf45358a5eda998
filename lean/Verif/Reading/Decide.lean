import Verif.Lemmas.Decide
import Verif.Reading.Accept

/-!
# The program that checks the rules
-/

namespace JLaw

open Spec

theorem isCount_iff (s : String) : (literal? s.toList).isSome = true ↔ IsCount s :=
  literal?_isSome s.toList

theorem isNumber_iff (s : String) : (number? s.toList).isSome = true ↔ IsNumber s := by
  rw [number?_isSome, ← Exact.parse?_isSome, Option.isSome_iff_ne_none]

theorem AttrRule.check_iff (r : AttrRule) (o : Option String) : r.check o = true ↔ r.Holds o := by
  cases r <;> cases o <;>
    simp [AttrRule.check, AttrRule.Holds, isCount_iff, isNumber_iff]

theorem startsWith_iff (ts : List String) (c : List XMLNode) :
    startsWith ts c = true ↔ Starts ts c := by
  induction ts generalizing c with
  | nil => simp [startsWith, Starts]
  | cons t ts ih =>
    cases c with
    | nil => simp [startsWith, Starts]
    | cons x c => cases x <;> simp [startsWith, Starts, ih]

theorem checkSequence_iff (r : Rule) (l : List Element) :
    r.checkSequence l = true ↔ r.Sequence l := by
  have hk : ∀ x : Element, (r.kids.contains x.name || r.skipped.all fun t => t.contains x.name) = true
      ↔ (x.name ∈ r.kids ∨ ∀ t, r.skipped = some t → x.name ∈ t) := by
    intro x
    cases r.skipped <;> simp
  unfold Rule.checkSequence Rule.Sequence
  rw [List.all_eq_true]
  simp only [hk]
  constructor
  · intro h
    refine ⟨l.takeWhile _, _, (List.takeWhile_append_dropWhile
      (p := fun x : Element => r.heads.contains x.name)).symm, ?_, h⟩
    intro x hx
    simpa using List.mem_takeWhile_imp hx
  · rintro ⟨hs, ks, rfl, h1, h2⟩ x hx
    rw [List.dropWhile_append_of_pos (by simpa using h1)] at hx
    exact h2 x ((List.dropWhile_sublist _).subset hx)

theorem acceptsList_eq (c : List XMLNode) : acceptsList c = c.map fun x => (x, accepts x) := by
  induction c with
  | nil => rfl
  | cons x c ih => rw [acceptsList, ih, List.map_cons]

theorem acceptsList_fst (c : List XMLNode) : (acceptsList c).map Prod.fst = c := by
  rw [acceptsList_eq]
  simp [Function.comp_def]

theorem mem_of_mem_read {r : Rule} {e x : Element} (h : x ∈ r.read e) : x ∈ elems e.children := by
  unfold Rule.read at h
  rw [List.mem_append, List.mem_filter] at h
  rcases h with h | h
  · exact Exact.mem_elems (List.mem_of_mem_take (Exact.node_mem h))
  · exact Exact.mem_elems (List.mem_of_mem_drop (Exact.node_mem h.1))

theorem Rule.check_iff (r : Rule) (e : Element) :
    r.check e.attributes (acceptsList e.children) = true ↔
      r.Obeyed e ∧ ∀ x ∈ r.read e, accepts x.node = true := by
  have hf : ((acceptsList e.children).take r.first.length).all Prod.snd = true ↔
      ∀ x ∈ elems (e.children.take r.first.length), accepts x.node = true := by
    rw [acceptsList_eq, ← List.map_take, List.all_eq_true]
    constructor
    · intro h x hx
      exact h (x.node, accepts x.node) (List.mem_map.2 ⟨_, Exact.node_mem hx, rfl⟩)
    · intro h p hp
      obtain ⟨y, hy, rfl⟩ := List.mem_map.1 hp
      cases y with
      | element n a d => exact h ⟨n, a, d⟩ (Exact.mem_elems hy)
      | _ => rfl
  have hr : ((acceptsList e.children).drop r.first.length).all r.checkNode = true ↔
      ∀ x ∈ (elems (e.children.drop r.first.length)).filter (fun x => x.name ∈ r.heads ++ r.kids),
        accepts x.node = true := by
    rw [acceptsList_eq, ← List.map_drop, List.all_eq_true]
    constructor
    · intro h x hx
      rw [List.mem_filter] at hx
      have := h (x.node, accepts x.node) (List.mem_map.2 ⟨_, Exact.node_mem hx.1, rfl⟩)
      have hx2 : x.name ∈ r.heads ++ r.kids := by simpa using hx.2
      have hc : (r.heads ++ r.kids).contains x.name = true := by rw [List.contains_iff_mem]; exact hx2
      simpa only [Element.node, Rule.checkNode, hc, Bool.not_true, Bool.false_or] using this
    · intro h p hp
      obtain ⟨y, hy, rfl⟩ := List.mem_map.1 hp
      cases y with
      | element n a d =>
        by_cases hc : n ∈ r.heads ++ r.kids
        · have := h ⟨n, a, d⟩ (List.mem_filter.2 ⟨Exact.mem_elems hy, by simpa using hc⟩)
          simp only [Element.node] at this
          simp [this, Rule.checkNode]
        · have hc : (r.heads ++ r.kids).contains n = false := by
            rw [Bool.eq_false_iff, Ne, List.contains_iff_mem]; exact hc
          simp only [Rule.checkNode, hc, Bool.not_false, Bool.true_or]
      | _ => rfl
  unfold Rule.check
  simp only [acceptsList_fst, Bool.and_eq_true, startsWith_iff, checkSequence_iff, hf]
  rw [hr]
  simp only [Rule.read, List.forall_mem_append]
  constructor
  · rintro ⟨⟨⟨⟨⟨h1, h2⟩, h3⟩, h4⟩, h5⟩, h6⟩
    refine ⟨⟨?_, h2, h3, ?_⟩, h5, h6⟩
    · intro p hp
      exact (AttrRule.check_iff _ _).1 (List.all_eq_true.1 h1 p hp)
    · intro g hg
      simpa using List.all_eq_true.1 h4 g hg
  · rintro ⟨⟨h1, h2, h3, h4⟩, h5, h6⟩
    refine ⟨⟨⟨⟨⟨?_, h2⟩, h3⟩, ?_⟩, h5⟩, h6⟩
    · exact List.all_eq_true.2 fun p hp => (AttrRule.check_iff _ _).2 (h1 p hp)
    · exact List.all_eq_true.2 fun g hg => by simpa using h4 g hg

/-- The program answers yes exactly on the accepted elements. -/
theorem accepts_iff (e : Element) : accepts e.node = true ↔ Accepted e := by
  generalize hm : e.node.height = m
  induction m using Nat.strongRecOn generalizing e with
  | _ m ih =>
    have key : ∀ r : Rule, (∀ x ∈ r.read e, accepts x.node = true) ↔ ∀ x ∈ r.read e, Accepted x := by
      intro r
      refine forall₂_congr fun x hx => ?_
      refine ih x.node.height ?_ x rfl
      rw [← hm]
      exact Nat.lt_succ_of_le (height_le_heightList (Exact.node_mem (mem_of_mem_read hx)))
    constructor
    · intro h
      rw [Element.node, accepts] at h
      split at h
      · next r hr =>
        have := (Rule.check_iff r e).1 h
        exact .intro e r hr this.1 ((key r).1 this.2)
      · cases h
    · rintro ⟨_, r, hr, ho, hk⟩
      rw [Element.node, accepts, hr]
      exact (Rule.check_iff r e).2 ⟨ho, (key r).2 hk⟩

instance (e : Element) : Decidable (Accepted e) := decidable_of_iff _ (accepts_iff e)

end JLaw
