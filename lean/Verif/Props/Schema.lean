import Verif.Props.Accept
import Verif.Stable.Schema

/-!
# C75: a schema of what is written

`Spec.schema` has the forms of the elements with each tag: their attributes with the possible values,
and the order and number of their child nodes.
-/

namespace JLaw

open Spec

/-- **C75.** What is written for a law, whatever it contains, conforms to the schema. -/
theorem C75_written_conforms (n : Nat) (x : Law (lvl n)) :
    x.toXml.name = "Law" ∧ Conforms x.toXml :=
  ⟨rfl, (Law.out (lvl_outs n) x).2⟩

/-- What is below an element that conforms to the schema conforms to it. -/
theorem Spec.Conforms.within {e : Element} (h : Conforms e) {y : Element} (hy : Within y.node e.node) :
    Conforms y := by
  induction h with
  | intro e forms f hl hf ha hc hk ih =>
    obtain ⟨n, a, c⟩ := e
    obtain ⟨n', a', c'⟩ := y
    cases hy with
    | refl => exact .intro _ forms f hl hf ha hc hk
    | child _ _ _ z hz hw =>
      cases z with
      | element k b d => exact ih ⟨k, b, d⟩ (List.mem_filterMap.2 ⟨_, hz, rfl⟩) hw
      | _ => cases hw

/-- **C75.** So does every element in it, down to any depth. -/
theorem C75_every_element (n : Nat) (x : Law (lvl n)) (e : Element)
    (h : Within e.node x.toXml.node) : Conforms e :=
  (C75_written_conforms n x).2.within h

/-- The tags of the child elements. -/
def kidTags (c : List XMLNode) : List String := (elems c).map (·.name)

theorem kidTags_append (c d : List XMLNode) : kidTags (c ++ d) = kidTags c ++ kidTags d := by
  simp [kidTags, elems_append']

theorem kidTags_many {t : String} {c : List XMLNode} (h : ∀ x ∈ c, HasTag [t] x) :
    kidTags c = List.replicate c.length t := by
  induction c with
  | nil => rfl
  | cons x c ih =>
    rw [← List.singleton_append, kidTags_append, ih fun y hy => h y (by simp [hy])]
    have := h x (by simp)
    cases x with
    | element n a d =>
      simp only [HasTag, List.mem_singleton] at this
      subst this
      rfl
    | _ => cases this

theorem Sequence.many_tags {t : String} {ps : List Particle} {c : List XMLNode}
    (h : Sequence (.many [t] :: ps) c) :
    ∃ a c', kidTags c = List.replicate a t ++ kidTags c' ∧ Sequence ps c' := by
  obtain ⟨c1, c2, rfl, h1, h2⟩ := h
  exact ⟨c1.length, c2, by rw [kidTags_append, kidTags_many h1], h2⟩

theorem Sequence.opt_tags {t : String} {ps : List Particle} {c : List XMLNode}
    (h : Sequence (.opt [t] :: ps) c) :
    ∃ a c', kidTags c = List.replicate a t ++ kidTags c' ∧ a ≤ 1 ∧ Sequence ps c' := by
  obtain ⟨c1, c2, rfl, h1, h2⟩ := h
  refine ⟨c1.length, c2, ?_, ?_, h2⟩
  · rw [kidTags_append, kidTags_many]
    rcases h1 with rfl | ⟨x, rfl, hx⟩
    · simp
    · simpa using hx
  · rcases h1 with rfl | ⟨x, rfl, hx⟩ <;> simp

theorem Sequence.one_tags {t : String} {ps : List Particle} {c : List XMLNode}
    (h : Sequence (.one [t] :: ps) c) :
    ∃ c', kidTags c = [t] ++ kidTags c' ∧ Sequence ps c' := by
  obtain ⟨c1, c2, rfl, ⟨x, rfl, hx⟩, h2⟩ := h
  refine ⟨c2, ?_, h2⟩
  rw [kidTags_append, kidTags_many (t := t) (by simpa using hx)]
  rfl

/-- The tags of the child elements of a body as the schema has them. -/
theorem body_order {e : Element} (hn : e.name = "LawBody") (he : Conforms e) :
    ∃ a b c d k1 k2 k3 k4 k5 k6 k7, kidTags e.children =
      List.replicate a "LawTitle" ++ List.replicate b "EnactStatement" ++ List.replicate c "TOC" ++
      List.replicate d "Preamble" ++ ["MainProvision"] ++ List.replicate k1 "SupplProvision" ++
      List.replicate k2 "AppdxTable" ++ List.replicate k3 "AppdxNote" ++
      List.replicate k4 "AppdxStyle" ++ List.replicate k5 "Appdx" ++
      List.replicate k6 "AppdxFig" ++ List.replicate k7 "AppdxFormat" ∧ a ≤ 1 ∧ c ≤ 1 ∧ d ≤ 1 := by
  cases he with
  | intro _ forms f hl hf ha hc hk =>
    rw [hn] at hl
    cases hl
    simp only [List.mem_singleton] at hf
    subst hf
    obtain ⟨a, c1, e1, ha, h⟩ := Sequence.opt_tags hc
    obtain ⟨b, c2, e2, h⟩ := Sequence.many_tags h
    obtain ⟨c, c3, e3, hc', h⟩ := Sequence.opt_tags h
    obtain ⟨d, c4, e4, hd, h⟩ := Sequence.opt_tags h
    obtain ⟨c5, e5, h⟩ := Sequence.one_tags h
    obtain ⟨k1, c6, e6, h⟩ := Sequence.many_tags h
    obtain ⟨k2, c7, e7, h⟩ := Sequence.many_tags h
    obtain ⟨k3, c8, e8, h⟩ := Sequence.many_tags h
    obtain ⟨k4, c9, e9, h⟩ := Sequence.many_tags h
    obtain ⟨k5, c10, e10, h⟩ := Sequence.many_tags h
    obtain ⟨k6, c11, e11, h⟩ := Sequence.many_tags h
    obtain ⟨k7, c12, e12, h⟩ := Sequence.many_tags h
    cases h
    refine ⟨a, b, c, d, k1, k2, k3, k4, k5, k6, k7, ?_, ha, hc', hd⟩
    rw [e1, e2, e3, e4, e5, e6, e7, e8, e9, e10, e11, e12]
    simp [kidTags]

/-- **C75**, spelt out for the body of a law: the tags of its child elements are in this order, and
title, table of contents and preamble are there at most once. -/
theorem C75_body_order (n : Nat) (x : LawBody (lvl n)) :
    ∃ a b c d k1 k2 k3 k4 k5 k6 k7, kidTags x.toXml.children =
      List.replicate a "LawTitle" ++ List.replicate b "EnactStatement" ++ List.replicate c "TOC" ++
      List.replicate d "Preamble" ++ ["MainProvision"] ++ List.replicate k1 "SupplProvision" ++
      List.replicate k2 "AppdxTable" ++ List.replicate k3 "AppdxNote" ++
      List.replicate k4 "AppdxStyle" ++ List.replicate k5 "Appdx" ++
      List.replicate k6 "AppdxFig" ++ List.replicate k7 "AppdxFormat" ∧ a ≤ 1 ∧ c ≤ 1 ∧ d ≤ 1 :=
  body_order rfl (LawBody.out (lvl_outs n) x).2

/-! ## Examples -/

/-- What is written for the law read from `goodDoc` conforms to the schema, and so does its body.
`goodDoc` itself, which has its table of contents behind the main provision, does not. -/
example : (∃ x : Law (lvl 9), Law.parser goodDoc = .ok x ∧ Conforms x.toXml ∧
    Conforms x.law_body.toXml) ∧ ¬ Conforms goodDoc := by
  refine ⟨?_, fun h => ?_⟩
  · obtain ⟨x, hx⟩ := isRead_iff.1 (by decide +kernel : isRead 9 goodDoc = true)
    refine ⟨x, hx, (C75_written_conforms 9 x).2, C75_every_element 9 x _ ?_⟩
    exact .child _ _ _ _ (.tail _ (.head _)) .refl
  · have hw : ∃ e : Element, Within e.node goodDoc.node ∧ e.name = "LawBody" ∧
        kidTags e.children = ["MainProvision", "TOC", "SupplProvision"] :=
      ⟨⟨"LawBody", [], _⟩, .child _ _ _ _ (.tail _ (.head _)) .refl, rfl, rfl⟩
    obtain ⟨e, he, hn, ht⟩ := hw
    obtain ⟨a, b, c, d, k1, k2, k3, k4, k5, k6, k7, h, -, -, -⟩ := body_order hn (h.within he)
    rw [ht] at h
    have hm : ∀ k (t : String) (l : List String), t ≠ "MainProvision" →
        "MainProvision" :: ["TOC", "SupplProvision"] = List.replicate k t ++ l → k = 0 := by
      intro k t l hne hl
      cases k with
      | zero => rfl
      | succ k =>
        rw [List.replicate_succ] at hl
        injection hl with hl _
        exact absurd hl.symm hne
    simp only [List.append_assoc] at h
    obtain rfl := hm _ _ _ (by decide) h
    rw [List.replicate_zero, List.nil_append] at h
    obtain rfl := hm _ _ _ (by decide) h
    rw [List.replicate_zero, List.nil_append] at h
    obtain rfl := hm _ _ _ (by decide) h
    rw [List.replicate_zero, List.nil_append] at h
    obtain rfl := hm _ _ _ (by decide) h
    rw [List.replicate_zero, List.nil_append] at h
    rw [List.singleton_append] at h
    injection h with _ h
    have : "TOC" ∈ ["TOC", "SupplProvision"] := by simp
    rw [h] at this
    simp [List.mem_replicate] at this

end JLaw
