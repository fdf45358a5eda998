import Verif.Reading.Decide
import Verif.Reading.Verdict
import Verif.Spec.Blame

/-! # Reports come from elements that are read -/

namespace JLaw

open Spec

theorem Verdict.andThen_wrong {u v : Verdict} {E : Err} (h : u.andThen v = .wrong E) :
    u = .wrong E ∨ v = .wrong E := by
  cases u with
  | fine => exact .inr h
  | _ => exact .inl h

theorem Verdict.all_wrong {vs : List Verdict} {E : Err} (h : Verdict.all vs = .wrong E) :
    .wrong E ∈ vs := by
  induction vs with
  | nil => cases h
  | cons v vs ih =>
    rcases Verdict.andThen_wrong h with h | h
    · simp [h]
    · simp [ih h]

theorem Verdict.require_wrong {b : Bool} {e E : Err} (h : Verdict.require b e = .wrong E) :
    b = false ∧ E = e := by
  cases b
  · cases h; exact ⟨rfl, rfl⟩
  · cases h

theorem Verdict.tolerated_wrong {v : Verdict} {E : Err} : v.tolerated ≠ .wrong E := by
  cases v <;> nofun

/-! ### Numbers -/

theorem mem_fields {sep : Char} {s w : List Char} (h : w ∈ fields sep s) :
    ∃ pre suf, s = pre ++ w ++ suf ∧ sep ∉ w ∧ (pre = [] ∨ ∃ p, pre = p ++ [sep]) ∧
      (suf = [] ∨ ∃ q, suf = sep :: q) := by
  have key : ∀ s : List Char, ∃ w ws, fields sep s = w :: ws ∧
      (∃ suf, s = w ++ suf ∧ sep ∉ w ∧ (suf = [] ∨ ∃ q, suf = sep :: q)) ∧
      ∀ v ∈ ws, ∃ pre suf, s = pre ++ v ++ suf ∧ sep ∉ v ∧ (∃ p, pre = p ++ [sep]) ∧
        (suf = [] ∨ ∃ q, suf = sep :: q) := by
    intro s
    induction s with
    | nil => exact ⟨[], [], rfl, ⟨[], rfl, by simp, .inl rfl⟩, by simp⟩
    | cons c s ih =>
      obtain ⟨w, ws, hw, ⟨suf, rfl, hn, hsuf⟩, hws⟩ := ih
      by_cases hc : c = sep
      · refine ⟨[], w :: ws, ?_, ⟨c :: (w ++ suf), rfl, by simp, .inr ⟨_, by rw [hc]⟩⟩, ?_⟩
        · rw [fields, List.foldr_cons, if_pos hc]
          exact congrArg _ hw
        · intro v hv
          rcases List.mem_cons.1 hv with rfl | hv
          · exact ⟨[c], suf, rfl, hn, ⟨[], by rw [hc]; rfl⟩, hsuf⟩
          · obtain ⟨pre, suf', h, hn', ⟨p, rfl⟩, hs'⟩ := hws v hv
            exact ⟨c :: (p ++ [sep]), suf', by rw [h]; rfl, hn', ⟨c :: p, rfl⟩, hs'⟩
      · refine ⟨c :: w, ws, ?_, ⟨suf, rfl, ?_, hsuf⟩, ?_⟩
        · rw [fields, List.foldr_cons, if_neg hc]
          rw [fields] at hw
          rw [hw]
          rfl
        · simp only [List.mem_cons, not_or]
          exact ⟨fun h => hc h.symm, hn⟩
        · intro v hv
          obtain ⟨pre, suf', h, hn', ⟨p, rfl⟩, hs'⟩ := hws v hv
          exact ⟨c :: (p ++ [sep]), suf', by rw [h]; rfl, hn', ⟨c :: p, rfl⟩, hs'⟩
  obtain ⟨w0, ws, hw, ⟨suf, hs, hn, hsuf⟩, hws⟩ := key s
  rw [hw] at h
  rcases List.mem_cons.1 h with rfl | h
  · exact ⟨[], suf, by simpa using hs, hn, .inl rfl, hsuf⟩
  · obtain ⟨pre, suf, h, hn, hp, hs⟩ := hws w h
    exact ⟨pre, suf, h, hn, .inr hp, hs⟩

theorem isField_of_fields {s u w : List Char} (hu : u ∈ fields ':' s) (hw : w ∈ fields '_' u) :
    IsField w s := by
  obtain ⟨pre, suf, rfl, hn, hp, hs⟩ := mem_fields hu
  obtain ⟨pre', suf', rfl, hn', hp', hs'⟩ := mem_fields hw
  refine ⟨pre ++ pre', suf' ++ suf, by simp, ?_, ?_, ?_⟩
  · rintro c hc (rfl | rfl)
    · exact hn (by simp [hc])
    · exact hn' hc
  · rcases hp' with rfl | ⟨p, rfl⟩
    · rcases hp with rfl | ⟨p, rfl⟩
      · exact .inl rfl
      · exact .inr ⟨p, ':', .inl rfl, by simp⟩
    · exact .inr ⟨pre ++ p, '_', .inr rfl, by simp⟩
  · rcases hs' with rfl | ⟨q, rfl⟩
    · rcases hs with rfl | ⟨q, rfl⟩
      · exact .inl rfl
      · exact .inr ⟨':', q, .inl rfl, rfl⟩
    · exact .inr ⟨'_', q ++ suf, .inr rfl, rfl⟩

theorem numberVerdict_wrong {s : String} {E : Err} (h : numberVerdict s = .wrong E) :
    ∃ w : String, E = .parsingError "usize" w ∧ ¬ IsCount w ∧ IsField w.toList s.toList := by
  unfold numberVerdict partsVerdict at h
  split at h
  · next w hw =>
    cases h
    have h1 := List.find?_some hw
    have h2 := List.mem_of_find?_eq_some hw
    obtain ⟨u, hu, hwu⟩ := List.mem_flatMap.1 h2
    refine ⟨_, rfl, ?_, ?_⟩
    · rw [← isCount_iff, String.toList_ofList]
      simpa using h1
    · rw [String.toList_ofList]
      exact isField_of_fields (List.mem_of_mem_take hu) hwu
  · cases h

/-! ### Attributes -/

theorem attr_blamed {x : Element} {r : Rule} {k : String} {a : AttrRule} {E : Err}
    (ha : (k, a) ∈ r.attrs) (h : a.verdict x.name k (x.attributes.get k) = .wrong E)
    (ht : x.name = "SupplProvision" → k = "Type" → a = .oneOf ["New", "Amend"]) :
    E.TrueOf x r ∨ Misreport x r E := by
  have hb : a.check (x.attributes.get k) = false →
      E = .attributeParseError (blamed x.name k) k → E.TrueOf x r ∨ Misreport x r E := by
    rintro hc rfl
    have hn : ¬ a.Holds (x.attributes.get k) := by
      rw [← AttrRule.check_iff, hc]
      simp
    unfold blamed
    split
    · next hsp =>
      obtain ⟨h1, rfl⟩ := hsp
      have := ht h1 rfl
      subst this
      exact .inr (.type h1 hn)
    · exact .inl ⟨rfl, a, ha, hn⟩
  have hparse : a.check (x.attributes.get k) = false →
      E = .attributeParseError x.name k → E.TrueOf x r := by
    rintro hc rfl
    refine ⟨rfl, a, ha, ?_⟩
    rw [← AttrRule.check_iff, hc]
    simp
  have hmiss : x.attributes.get k = none → a.check none = false →
      E = .missingRequiredAttribute x.name k → E.TrueOf x r := by
    rintro hk hc rfl
    refine ⟨rfl, hk, a, ha, ?_⟩
    rw [← AttrRule.check_iff, hc]
    simp
  cases a with
  | bool => exact hb (Verdict.require_wrong h).1 (Verdict.require_wrong h).2
  | count => exact hb (Verdict.require_wrong h).1 (Verdict.require_wrong h).2
  | oneOf l => exact hb (Verdict.require_wrong h).1 (Verdict.require_wrong h).2
  | mustOneOf l => exact hb (Verdict.require_wrong h).1 (Verdict.require_wrong h).2
  | present =>
    left
    obtain ⟨h1, h2⟩ := Verdict.require_wrong h
    have hk : x.attributes.get k = none := by simpa using h1
    exact hmiss hk rfl h2
  | mustCount =>
    left
    cases hk : x.attributes.get k with
    | none => rw [hk] at h; cases h; exact hmiss hk rfl rfl
    | some s =>
      rw [hk] at h
      obtain ⟨h1, h2⟩ := Verdict.require_wrong h
      exact hparse (by rw [hk]; exact h1) h2
  | countOrEmpty =>
    left
    cases hk : x.attributes.get k with
    | none => rw [hk] at h; cases h
    | some s =>
      rw [hk] at h
      obtain ⟨h1, rfl⟩ := Verdict.require_wrong h
      rw [Bool.or_eq_false_iff] at h1
      refine ⟨rfl, ?_, k, _, s, ha, hk, .inl ⟨rfl, rfl⟩⟩
      rw [← isCount_iff, h1.2]
      simp
  | mustNumber =>
    left
    cases hk : x.attributes.get k with
    | none => rw [hk] at h; cases h; exact hmiss hk rfl rfl
    | some s =>
      rw [hk] at h
      simp only [AttrRule.verdict, Option.elim] at h
      split at h
      · obtain ⟨h1, h2⟩ := Verdict.require_wrong h
        exact hparse (by rw [hk]; exact h1) h2
      · obtain ⟨w, rfl, hw, hf⟩ := numberVerdict_wrong h
        exact ⟨rfl, hw, k, _, s, ha, hk, .inr ⟨.inl rfl, hf⟩⟩
  | numberOrEmpty =>
    left
    cases hk : x.attributes.get k with
    | none => rw [hk] at h; cases h
    | some s =>
      rw [hk] at h
      simp only [AttrRule.verdict, Option.elim] at h
      split at h
      · cases h
      · obtain ⟨w, rfl, hw, hf⟩ := numberVerdict_wrong h
        exact ⟨rfl, hw, k, _, s, ha, hk, .inr ⟨.inr rfl, hf⟩⟩

/-! ### Child elements -/

theorem mem_of_lookup {β : Type} {l : List (String × β)} {k : String} {v : β}
    (h : l.lookup k = some v) : (k, v) ∈ l := by
  induction l with
  | nil => cases h
  | cons p l ih =>
    rw [List.lookup_cons] at h
    split at h
    · next hk =>
      cases h
      rw [beq_iff_eq] at hk
      simp [hk]
    · exact List.mem_cons_of_mem _ (ih h)

theorem stranger_blamed {x y : Element} {r : Rule} (hr : rules.lookup x.name = some r)
    (h : r.Stranger x y) :
    (stranger x.name y.name).TrueOf x r ∨ Misreport x r (stranger x.name y.name) := by
  unfold stranger
  cases hs : strangers.lookup x.name with
  | none => exact .inl ⟨rfl, y, h, rfl⟩
  | some f =>
    have hm := mem_of_lookup hs
    have kid : ∀ t, r.kids = [t] → (Err.wrongTagName y.name t).TrueOf x r := fun t ht =>
      ⟨fun hn => h.2.1 (by rw [ht, hn]; simp), .inl ⟨ht, y, h, rfl⟩⟩
    simp only [strangers, List.mem_cons, List.not_mem_nil, or_false, Prod.mk.injEq] at hm
    rcases hm with ⟨hn, rfl⟩ | ⟨hn, rfl⟩ | ⟨hn, rfl⟩ | ⟨hn, rfl⟩ | ⟨hn, rfl⟩ | ⟨hn, rfl⟩ | ⟨hn, rfl⟩ |
      ⟨hn, rfl⟩ | ⟨hn, rfl⟩ | ⟨hn, rfl⟩ | ⟨hn, rfl⟩ <;> rw [hn] at hr
    · cases hr; exact .inl (kid _ rfl)
    · cases hr; exact .inl (kid _ rfl)
    · cases hr; exact .inl (kid _ rfl)
    · cases hr; exact .inl (kid _ rfl)
    · cases hr; exact .inl (kid _ rfl)
    · exact .inr (.outer (by rw [hn]; rfl) h)
    · exact .inr (.outer (by rw [hn]; rfl) h)
    · exact .inr (.outer (by rw [hn]; rfl) h)
    · exact .inr (.outer (by rw [hn]; rfl) h)
    · exact .inr (.outer (by rw [hn]; rfl) h)
    · exact .inr (.same hn h)

theorem must_ne_nil : ∀ p ∈ rules, ∀ g ∈ p.2.must, g ≠ [] := by decide +kernel

theorem must_blamed {x : Element} {r : Rule} {g : List String} (hr : rules.lookup x.name = some r)
    (h : r.Lacks x g) :
    (missing x.name g).TrueOf x r ∨ Misreport x r (missing x.name g) := by
  unfold missing
  cases hs : missingNames.lookup x.name with
  | some name => exact .inr (.missing h hs)
  | none =>
    refine .inl (.inl ⟨g, h, ?_⟩)
    have := must_ne_nil _ (mem_of_lookup hr) g h.1
    cases g with
    | nil => exact absurd rfl this
    | cons t g => simp

/-- Only these elements have something to begin with. -/
theorem first_tags : ∀ p ∈ rules, p.2.first.length ≤ 1 ∨ p.1 = "Law" := by decide +kernel

theorem starts_tagAt {ts : List String} {x : Element} (h : Starts ts x.children) {i : Nat}
    {t : String} (hi : ts[i]? = some t) : TagAt x i t := by
  unfold TagAt
  generalize x.children = c at h ⊢
  induction ts generalizing c i with
  | nil => simp at hi
  | cons t' ts ih =>
    match c, h with
    | .element n a d :: c, h =>
      obtain ⟨rfl, h⟩ := h
      cases i with
      | zero => cases hi; exact ⟨a, d, rfl⟩
      | succ i =>
        obtain ⟨a', d', h'⟩ := ih (by simpa using hi) c (by assumption)
        exact ⟨a', d', by simpa using h'⟩

theorem wrongFirst_blamed {x : Element} {r : Rule} {i : Nat} {t n : String}
    (hr : rules.lookup x.name = some r) (hi : r.first[i]? = some t) (hx : TagAt x i n)
    (hn : n ≠ t) :
    (wrongFirst x.name t n).TrueOf x r ∨ Misreport x r (wrongFirst x.name t n) := by
  unfold wrongFirst
  cases hs : listParts.lookup x.name with
  | some s =>
    by_cases hl : x.name = "List" ∨ ¬ TagAt x 0 x.name
    · refine .inr (.list hs (fun h => ?_) hl)
      obtain ⟨a, d, h1⟩ := starts_tagAt h hi
      obtain ⟨a', d', h2⟩ := hx
      rw [h1] at h2
      cases h2
      exact hn rfl
    · rw [not_or, not_not] at hl
      refine .inl ?_
      have hm := mem_of_lookup hs
      simp only [listParts, List.mem_cons, List.not_mem_nil, or_false, Prod.mk.injEq] at hm
      rcases hm with ⟨h, rfl⟩ | ⟨h, rfl⟩ | ⟨h, rfl⟩ | ⟨h, rfl⟩
      · exact absurd h hl.1
      all_goals
        have hr' := hr
        rw [h] at hr'
        cases hr'
        refine ⟨by rw [h]; decide, .inr ⟨0, rfl, hl.2⟩⟩
  | none =>
    simp only
    split
    · exact .inl ⟨hn, .inr ⟨i, hi, hx⟩⟩
    · exact .inr (.first hi hx hn)

theorem noFirst_blamed {x : Element} {r : Rule} {i : Nat} {t : String}
    (hr : rules.lookup x.name = some r) (hi : r.first[i]? = some t) (hx : ∀ n, ¬ TagAt x i n) :
    (noFirst x.name t).TrueOf x r ∨ Misreport x r (noFirst x.name t) := by
  unfold noFirst
  have hst : ¬ Starts r.first x.children := fun h => hx t (starts_tagAt h hi)
  have h0 : x.name ≠ "Law" → i = 0 := by
    intro h
    have := (first_tags _ (mem_of_lookup hr)).resolve_right h
    obtain ⟨hlt, -⟩ := List.getElem?_eq_some_iff.1 hi
    simp only at this
    omega
  cases hs : listParts.lookup x.name with
  | some s =>
    refine .inr (.list hs hst (.inr ?_))
    rw [← h0 (fun h => by rw [h] at hs; cases hs)]
    exact hx _
  | none =>
    simp only
    split
    · next h =>
      refine .inr (.amendSentence h ?_)
      rw [← h0 (by rw [h]; decide)]
      exact hx
    · exact .inl (.inr ⟨i, hi, hx⟩)

/-! ### Elements -/

theorem judgeFirst_wrong {x : Element} {r : Rule} {E : Err} (hr : rules.lookup x.name = some r)
    (h : judgeFirst x.name r.first (x.children.map fun y => (y, judge y)) = .wrong E) :
    (E.TrueOf x r ∨ Misreport x r E) ∨
      ∃ y ∈ elems (x.children.take r.first.length), judge y.node = .wrong E := by
  suffices H : ∀ (ts : List String) (c : List XMLNode) (j : Nat),
      (∀ i, r.first[j + i]? = ts[i]?) → (∀ i, x.children[j + i]? = c[i]?) →
      judgeFirst x.name ts (c.map fun y => (y, judge y)) = .wrong E →
      (E.TrueOf x r ∨ Misreport x r E) ∨ ∃ y ∈ elems (c.take ts.length), judge y.node = .wrong E from
    H r.first x.children 0 (by simp) (by simp) h
  intro ts
  induction ts with
  | nil => intro c j _ _ h; cases h
  | cons t ts ih =>
    intro c j h1 h2 h
    have hj : r.first[j]? = some t := by simpa using h1 0
    have none_at : (∀ n a d, c[0]? ≠ some (.element n a d)) → ∀ n, ¬ TagAt x j n := by
      rintro hc n ⟨a, d, h⟩
      have := h2 0
      rw [Nat.add_zero, h] at this
      exact hc n a d this.symm
    match c, h2, h, none_at with
    | .element n a d :: c, h2, h, _ =>
      rw [List.map_cons, judgeFirst] at h
      split at h
      · rcases Verdict.andThen_wrong h with h | h
        · exact .inr ⟨⟨n, a, d⟩, by simp [elems], h⟩
        · rcases ih c (j + 1) (fun i => by have := h1 (i + 1); simpa [Nat.add_assoc, Nat.add_comm 1] using this)
            (fun i => by have := h2 (i + 1); simpa [Nat.add_assoc, Nat.add_comm 1] using this) h with h | ⟨y, hy, h⟩
          · exact .inl h
          · exact .inr ⟨y, by
              rw [List.length_cons, List.take_succ_cons, elems, List.filterMap_cons]
              exact List.mem_cons_of_mem _ hy, h⟩
      · next hn =>
        cases h
        exact .inl (wrongFirst_blamed hr hj ⟨a, d, by simpa using h2 0⟩ hn)
    | [], _, h, hc => cases h; exact .inl (noFirst_blamed hr hj (hc (by simp)))
    | .text _ :: _, _, h, hc => cases h; exact .inl (noFirst_blamed hr hj (hc (by simp)))
    | .comment _ :: _, _, h, hc => cases h; exact .inl (noFirst_blamed hr hj (hc (by simp)))
    | .cdata _ :: _, _, h, hc => cases h; exact .inl (noFirst_blamed hr hj (hc (by simp)))
    | .processingInstruction _ _ :: _, _, h, hc =>
      cases h; exact .inl (noFirst_blamed hr hj (hc (by simp)))

theorem judgeNode_wrong {x : Element} {r : Rule} {E : Err} (hr : rules.lookup x.name = some r)
    {z : XMLNode} (hz : z ∈ x.children.drop r.first.length)
    (h : r.judgeNode x.name (z, judge z) = .wrong E) :
    (E.TrueOf x r ∨ Misreport x r E) ∨
      ∃ y ∈ r.rest x, y.name ∈ r.heads ++ r.kids ∧ judge y.node = .wrong E := by
  cases z with
  | element n a d =>
    have hm : (⟨n, a, d⟩ : Element) ∈ r.rest x :=
      List.mem_filterMap.2 ⟨_, hz, rfl⟩
    rw [Rule.judgeNode] at h
    split at h
    · next hk => exact .inr ⟨_, hm, by simp [List.contains_iff_mem.1 hk], h⟩
    · next hk =>
      have hk : n ∉ r.kids := fun h => hk (List.contains_iff_mem.2 h)
      split at h
      · next t ht =>
        split at h
        · exact absurd h Verdict.tolerated_wrong
        · next hn =>
          cases h
          exact .inl (stranger_blamed (y := ⟨n, a, d⟩) hr
            ⟨hm, hk, t, ht, fun h => hn (List.contains_iff_mem.2 h)⟩)
      · split at h
        · exact absurd h Verdict.tolerated_wrong
        · cases h
  | _ => cases h

theorem judgeRest_wrong {x : Element} {r : Rule} {E : Err} (hr : rules.lookup x.name = some r)
    (h : r.judgeRest x.name ((x.children.drop r.first.length).map fun y => (y, judge y)) = .wrong E) :
    (E.TrueOf x r ∨ Misreport x r E) ∨
      ∃ y ∈ r.rest x, y.name ∈ r.heads ++ r.kids ∧ judge y.node = .wrong E := by
  have nodes : ∀ c : List XMLNode, (∀ z ∈ c, z ∈ x.children.drop r.first.length) →
      Verdict.all ((c.map fun y => (y, judge y)).map (r.judgeNode x.name)) = .wrong E →
      (E.TrueOf x r ∨ Misreport x r E) ∨
        ∃ y ∈ r.rest x, y.name ∈ r.heads ++ r.kids ∧ judge y.node = .wrong E := by
    intro c hc h
    have := Verdict.all_wrong h
    rw [List.map_map] at this
    obtain ⟨z, hz, h⟩ := List.mem_map.1 this
    exact judgeNode_wrong hr (hc z hz) h
  unfold Rule.judgeRest at h
  split at h
  · exact nodes _ (fun _ h => h) h
  · suffices H : ∀ c : List XMLNode, (∀ z ∈ c, z ∈ x.children.drop r.first.length) →
        r.judgeHeads x.name (c.map fun y => (y, judge y)) = .wrong E →
        (E.TrueOf x r ∨ Misreport x r E) ∨
        ∃ y ∈ r.rest x, y.name ∈ r.heads ++ r.kids ∧ judge y.node = .wrong E from
      H _ (fun _ h => h) h
    intro c
    induction c with
    | nil => intro _ h; cases h
    | cons z c ih =>
      intro hc h
      cases z with
      | element n a d =>
        rw [List.map_cons, Rule.judgeHeads] at h
        split at h
        · next hh =>
          rcases Verdict.andThen_wrong h with h | h
          · exact .inr ⟨⟨n, a, d⟩, List.mem_filterMap.2 ⟨.element n a d, hc _ (by simp), rfl⟩,
              by simp [List.contains_iff_mem.1 hh], h⟩
          · exact ih (fun z hz => hc z (by simp [hz])) h
        · exact nodes (.element n a d :: c) hc h
      | _ => exact ih (fun z hz => hc z (by simp [hz])) h

theorem judgeMust_wrong {x : Element} {r : Rule} {E : Err} (hr : rules.lookup x.name = some r)
    (h : r.judgeMust x.name (x.children.drop r.first.length) = .wrong E) :
    E.TrueOf x r ∨ Misreport x r E := by
  obtain ⟨g, hg, h⟩ := List.mem_map.1 (Verdict.all_wrong h)
  obtain ⟨h1, rfl⟩ := Verdict.require_wrong h
  refine must_blamed hr ⟨hg, fun y hy hn => ?_⟩
  rw [List.any_eq_false] at h1
  exact h1 y hy (List.contains_iff_mem.2 hn)

theorem type_rule : ∀ p ∈ rules, p.1 = "SupplProvision" → ∀ q ∈ p.2.attrs, q.1 = "Type" →
    q.2 = .oneOf ["New", "Amend"] := by decide +kernel

theorem judgeAttrs_wrong {x : Element} {r : Rule} {E : Err} (hr : rules.lookup x.name = some r)
    (h : r.judgeAttrs x.name x.attributes = .wrong E) : E.TrueOf x r ∨ Misreport x r E := by
  obtain ⟨⟨k, a⟩, ha, h⟩ := List.mem_map.1 (Verdict.all_wrong h)
  exact attr_blamed ha h fun hn hk => type_rule _ (mem_of_lookup hr) hn _ ha hk

/-- A report on an element is made of an element below it that is read. -/
theorem judge_wrong {e : Element} {E : Err} (h : judge e.node = .wrong E) :
    ∃ x r, Reached e x ∧ rules.lookup x.name = some r ∧ (E.TrueOf x r ∨ Misreport x r E) := by
  generalize hm : e.node.height = m
  induction m using Nat.strongRecOn generalizing e with
  | _ m ih =>
    cases hr : rules.lookup e.name with
    | none =>
      have : judge e.node = .fine := by
        unfold Element.node judge
        rw [hr]
      rw [this] at h
      cases h
    | some r =>
      have child : ∀ y ∈ r.read e, judge y.node = .wrong E →
          ∃ x r, Reached e x ∧ rules.lookup x.name = some r ∧ (E.TrueOf x r ∨ Misreport x r E) := by
        intro y hy h
        obtain ⟨x, r', h1, h2⟩ := ih _ (hm ▸ Nat.lt_succ_of_le
          (height_le_heightList (Exact.node_mem (mem_of_mem_read hy)))) h rfl
        exact ⟨x, r', .step hr hy h1, h2⟩
      have self : E.TrueOf e r ∨ Misreport e r E →
          ∃ x r, Reached e x ∧ rules.lookup x.name = some r ∧ (E.TrueOf x r ∨ Misreport x r E) :=
        fun h => ⟨e, r, .here e, hr, h⟩
      have rest : (E.TrueOf e r ∨ Misreport e r E) ∨
          (∃ y ∈ r.rest e, y.name ∈ r.heads ++ r.kids ∧ judge y.node = .wrong E) →
          ∃ x r, Reached e x ∧ rules.lookup x.name = some r ∧ (E.TrueOf x r ∨ Misreport x r E) := by
        rintro (h | ⟨y, hy, hn, h⟩)
        · exact self h
        · exact child y (List.mem_append.2 (.inr (List.mem_filter.2 ⟨hy, by simpa using hn⟩))) h
      rw [Says.judge_eq rfl hr, Rule.judge] at h
      simp only [← List.map_drop, List.map_map, Function.comp_def, List.map_id'] at h
      split at h
      · rcases Verdict.andThen_wrong h with h | h
        · exact rest (judgeRest_wrong hr h)
        · exact self (judgeAttrs_wrong hr h)
      · rcases Verdict.andThen_wrong h with h | h
        · exact self (judgeAttrs_wrong hr h)
        rcases Verdict.andThen_wrong h with h | h
        · rcases judgeFirst_wrong hr h with h | ⟨y, hy, h⟩
          · exact self h
          · exact child y (List.mem_append.2 (.inl hy)) h
        rcases Verdict.andThen_wrong h with h | h
        · exact rest (judgeRest_wrong hr h)
        · exact self (judgeMust_wrong hr h)

end JLaw
