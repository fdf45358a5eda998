import Verif.Lemmas.ItemCuts

/-!
# Branch numbers and ranges of items

The repetition of の and a word takes the longest branch numbers that are followed by the end of a range or
by nothing, although の, か and ら may be part of a word.
-/

namespace JLaw

open Spec.Scan

variable {β : Type}

/-- Words, each after の. -/
def Branches (e : List Char) : Prop :=
  ∃ ws : List (List Char), (∀ w ∈ ws, Word w) ∧ e = ws.flatMap fun w => 'の' :: w

theorem branches_nil : Branches [] := ⟨[], by simp, rfl⟩

theorem branches_cons {w e : List Char} (hw : Word w) (he : Branches e) : Branches ('の' :: w ++ e) := by
  obtain ⟨ws, h, rfl⟩ := he
  exact ⟨w :: ws, by simpa [hw] using h, rfl⟩

theorem branches_cases {e : List Char} (he : Branches e) :
    e = [] ∨ ∃ w e', Word w ∧ Branches e' ∧ e = 'の' :: w ++ e' := by
  obtain ⟨ws, h, rfl⟩ := he
  cases ws with
  | nil => exact Or.inl rfl
  | cons w ws =>
    simp only [List.mem_cons, forall_eq_or_imp] at h
    exact Or.inr ⟨w, _, h.1, ⟨ws, h.2, rfl⟩, rfl⟩

/-- Repetition of の and a number. -/
abbrev reBranch : Re := .seq (.ch 'の') .itemNumber

theorem word_ne {w : List Char} (h : Word w) : w ≠ [] := by
  rcases h with ⟨p, -, hne, -⟩ | ⟨v, -, rfl⟩
  · exact hne
  · simp

/-- Two words at the start of a text, the first one shorter: then both are runs. -/
theorem word_shorter {w w' r r' : List Char} (hw : Word w) (hw' : Word w') (h : w ++ r = w' ++ r')
    (hl : w'.length < w.length) : IsRun w ∧ IsRun w' := by
  rcases hw with hw | ⟨v, hv, rfl⟩
  · rcases hw' with hw' | ⟨v', hv', rfl⟩
    · exact ⟨hw, hw'⟩
    · obtain ⟨-, -, hne, -⟩ := id hw
      obtain ⟨c, w, rfl⟩ := List.exists_cons_of_ne_nil hne
      simp only [List.cons_append, List.cons.injEq] at h
      exact absurd h.1 (isRun_head hw).1
  · rcases hw' with hw' | ⟨v', hv', rfl⟩
    · obtain ⟨-, -, hne, -⟩ := id hw'
      obtain ⟨c, w, rfl⟩ := List.exists_cons_of_ne_nil hne
      simp only [List.cons_append, List.cons.injEq] at h
      exact absurd h.1.symm (isRun_head hw').1
    · simp only [List.cons_append, List.cons.injEq, true_and, List.append_assoc,
        List.nil_append] at h
      have := append_close (isRun_close hv) (isRun_close hv') h
      rw [this.1] at hl
      exact absurd hl (Nat.lt_irrefl _)

theorem hiragana_mem : (between 'あ' 'ん') ∈ itemKinds := by simp [itemKinds]

theorem hiragana_no : between 'あ' 'ん' 'の' = true := by decide +kernel

theorem hiragana_ka : between 'あ' 'ん' 'か' = true := by decide +kernel

/-- What the rest of the pattern accepts after branch numbers is empty or starts with か. -/
def Tail (k : List Char → Option β) : Prop :=
  ∀ r, (k r).isSome = true → r = [] ∨ ∃ t, r = 'か' :: t

theorem prefers_exists {P : List Char → Prop} {s : List Char} {o : Option β} {k : List Char → Option β}
    (h : Prefers P s o k) : o.isSome = true ↔ ∃ w r, P w ∧ s = w ++ r ∧ (k r).isSome = true := by
  cases o with
  | none =>
    simp only [Option.isSome_none, Bool.false_eq_true, false_iff]
    rintro ⟨w, r, hw, hs, hk⟩
    rw [h w r hw hs] at hk
    cases hk
  | some v =>
    obtain ⟨w, r, hw, hs, hk, -⟩ := h
    simp only [Option.isSome_some, true_iff]
    exact ⟨w, r, hw, hs, by rw [hk]; rfl⟩

/-- One step of the repetition. -/
theorem first_star_branch (k : List Char → Option β) (t : List Char) :
    (Re.star reBranch).first ('の' :: t) (fun x => k x.2) =
      (Re.itemNumber.first t fun x => if x.2.length < t.length + 1 then
        (Re.star reBranch).first x.2 fun y => k y.2 else none).or (k ('の' :: t)) := by
  rw [Re.first_star]
  simp only [Re.first_seq, Re.first_ch, List.length_cons]

theorem first_star_other (k : List Char → Option β) {s : List Char} (h : ∀ t, s ≠ 'の' :: t) :
    (Re.star reBranch).first s (fun x => k x.2) = k s := by
  rw [Re.first_star]
  simp only [Re.first_seq]
  cases s with
  | nil => simp [Re.ch]
  | cons c t => rw [Re.first_ch_none (by rintro rfl; exact h t rfl), Option.none_or]

/-- Whether the repetition matches. -/
theorem first_star_isSome (k : List Char → Option β) (n : Nat) :
    ∀ s : List Char, s.length ≤ n → (((Re.star reBranch).first s fun x => k x.2).isSome = true ↔
      ∃ e r, Branches e ∧ s = e ++ r ∧ (k r).isSome = true) := by
  induction n with
  | zero =>
    intro s hs
    have : s = [] := List.eq_nil_of_length_eq_zero (Nat.le_zero.mp hs)
    subst this
    rw [first_star_other k (by simp)]
    constructor
    · exact fun h => ⟨[], [], branches_nil, rfl, h⟩
    · rintro ⟨e, r, -, h, hk⟩
      rw [(List.append_eq_nil_iff.mp h.symm).2] at hk
      exact hk
  | succ n ih =>
    intro s hs
    by_cases hno : ∃ t, s = 'の' :: t
    · obtain ⟨t, rfl⟩ := hno
      simp only [List.length_cons] at hs
      have hA := prefers_exists (prefers_word (fun x => if x.2.length < t.length + 1 then
        (Re.star reBranch).first x.2 fun y => k y.2 else none) t)
      rw [first_star_branch, Option.isSome_or, Bool.or_eq_true, hA]
      constructor
      · rintro (⟨w, r, hw, rfl, h⟩ | h)
        · simp only [List.length_append] at h
          rw [if_pos (by omega)] at h
          simp only [List.length_append] at hs
          have := (List.length_pos_iff.mpr (word_ne hw))
          obtain ⟨e, r', he, rfl, hk⟩ := (ih r (by omega)).mp h
          exact ⟨_, r', branches_cons hw he, by simp, hk⟩
        · exact ⟨[], _, branches_nil, rfl, h⟩
      · rintro ⟨e, r, he, hs', hk⟩
        rcases branches_cases he with rfl | ⟨w, e', hw, he', rfl⟩
        · rw [List.nil_append] at hs'
          rw [← hs'] at hk
          exact Or.inr hk
        · simp only [List.cons_append, List.cons.injEq, true_and, List.append_assoc] at hs'
          subst hs'
          refine Or.inl ⟨w, e' ++ r, hw, rfl, ?_⟩
          simp only [List.length_append]
          rw [if_pos (by omega)]
          simp only [List.length_append] at hs
          exact (ih _ (by simp only [List.length_append]; omega)).mpr ⟨e', r, he', rfl, hk⟩
    · rw [first_star_other k (fun t h => hno ⟨t, h⟩)]
      constructor
      · exact fun h => ⟨[], s, branches_nil, rfl, h⟩
      · rintro ⟨e, r, he, hs', hk⟩
        rcases branches_cases he with rfl | ⟨w, e', hw, he', rfl⟩
        · rw [List.nil_append] at hs'
          rw [hs']
          exact hk
        · exact absurd ⟨_, hs'⟩ hno

/-- The repetition takes the longest branch numbers whose rest is accepted. -/
theorem prefers_branches (k : List Char → Option β) (hk : Tail k) (n : Nat) :
    ∀ s : List Char, s.length ≤ n → Prefers Branches s ((Re.star reBranch).first s fun x => k x.2) k := by
  induction n with
  | zero =>
    intro s hs
    have : s = [] := List.eq_nil_of_length_eq_zero (Nat.le_zero.mp hs)
    subst this
    rw [first_star_other k (by simp)]
    cases h : k [] with
    | none =>
      intro w r _ he
      rw [(List.append_eq_nil_iff.mp he.symm).2]
      exact h
    | some v =>
      refine ⟨[], [], branches_nil, rfl, h, fun w' r' _ he hl => ?_⟩
      rw [(List.append_eq_nil_iff.mp he.symm).1] at hl
      cases hl
  | succ n ih =>
    intro s hs
    by_cases hno : ∃ t, s = 'の' :: t
    · obtain ⟨t, rfl⟩ := hno
      simp only [List.length_cons] at hs
      have hks : k ('の' :: t) = none := by
        cases h : k ('の' :: t) with
        | none => rfl
        | some v =>
          rcases hk ('の' :: t) (by rw [h]; rfl) with h | ⟨u, h⟩
          · cases h
          · simp at h
      have hA := prefers_word (fun x => if x.2.length < t.length + 1 then
        (Re.star reBranch).first x.2 fun y => k y.2 else none) t
      rw [first_star_branch, hks, Option.or_none]
      -- the guard holds for every word
      have guard : ∀ w r : List Char, Word w → t = w ++ r →
          (if r.length < t.length + 1 then (Re.star reBranch).first r fun y => k y.2 else none) =
            (Re.star reBranch).first r fun y => k y.2 := by
        rintro w r - rfl
        rw [if_pos (by simp only [List.length_append]; omega)]
      have short : ∀ w r : List Char, Word w → t = w ++ r → r.length ≤ n := by
        rintro w r hw rfl
        simp only [List.length_append] at hs
        omega
      cases ho : (Re.itemNumber.first t fun x => if x.2.length < t.length + 1 then
          (Re.star reBranch).first x.2 fun y => k y.2 else none) with
      | none =>
        rw [ho] at hA
        intro e r he hs'
        rcases branches_cases he with rfl | ⟨w, e', hw, he', rfl⟩
        · rw [List.nil_append] at hs'
          rw [← hs']
          exact hks
        · simp only [List.cons_append, List.cons.injEq, true_and, List.append_assoc] at hs'
          have h1 := hA w (e' ++ r) hw hs'
          simp only [guard w _ hw hs'] at h1
          have h2 := ih (e' ++ r) (short w _ hw hs')
          rw [h1] at h2
          exact h2 e' r he' rfl
      | some v =>
        rw [ho] at hA
        obtain ⟨w, r, hw, ht, hv, hm⟩ := hA
        simp only [guard w r hw ht] at hv
        have h2 := ih r (short w r hw ht)
        rw [hv] at h2
        obtain ⟨e2, r2, he2, hr, hkr, hm2⟩ := h2
        refine ⟨'の' :: w ++ e2, r2, branches_cons hw he2, by simp [ht, hr], hkr, ?_⟩
        -- no longer ones are accepted
        have key : ∀ m : Nat, ∀ w' e' r' : List Char, e'.length ≤ m → Word w' → Branches e' →
            t = w' ++ (e' ++ r') → w.length + e2.length < w'.length + e'.length →
            (k r').isSome = true → False := by
          intro m
          induction m with
          | zero =>
            intro w' e' r' hm' hw' he' ht' hl hkr'
            have : e' = [] := List.eq_nil_of_length_eq_zero (Nat.le_zero.mp hm')
            subst this
            simp only [List.length_nil, Nat.add_zero] at hl
            have h3 := hm w' _ hw' ht' (by omega)
            simp only [guard w' _ hw' ht'] at h3
            have h4 := (first_star_isSome k _ ([] ++ r') (Nat.le_refl _)).mpr ⟨[], r', branches_nil, rfl, hkr'⟩
            rw [h3] at h4
            cases h4
          | succ m ihm =>
            intro w' e' r' hm' hw' he' ht' hl hkr'
            have h4 := (first_star_isSome k _ (e' ++ r') (Nat.le_refl _)).mpr ⟨e', r', he', rfl, hkr'⟩
            have hle : w'.length ≤ w.length := by
              apply Nat.le_of_not_lt
              intro hlt
              have h3 := hm w' _ hw' ht' hlt
              simp only [guard w' _ hw' ht'] at h3
              rw [h3] at h4
              cases h4
            have heq : w ++ r = w' ++ (e' ++ r') := ht.symm.trans ht'
            rcases Nat.lt_or_eq_of_le hle with hlt | hEq
            · obtain ⟨hrw, hrw'⟩ := word_shorter hw hw' heq hlt
              rcases branches_cases he' with rfl | ⟨w2, e3, hw2, he3, rfl⟩
              · simp only [List.length_nil, Nat.add_zero] at hl
                omega
              · -- the word goes on with の
                obtain ⟨u, hu⟩ : ∃ u, w = w' ++ u := by
                  have := congrArg (List.take w'.length) heq
                  rw [List.take_append_of_le_length hle, List.take_left] at this
                  refine ⟨w.drop w'.length, ?_⟩
                  conv_lhs => rw [← List.take_append_drop w'.length w, this]
                subst hu
                have hune : u ≠ [] := by
                  rintro rfl
                  simp at hlt
                obtain ⟨c, u, rfl⟩ := List.exists_cons_of_ne_nil hune
                simp only [List.append_assoc, List.append_cancel_left_eq, List.cons_append,
                  List.cons.injEq] at heq
                obtain ⟨rfl, heq⟩ := heq
                -- its script is hiragana
                obtain ⟨p, hp, -, hall⟩ := hrw
                have hpno : p 'の' = true := by
                  apply List.all_eq_true.mp hall
                  simp
                have hph : p = between 'あ' 'ん' :=
                  itemKinds_disjoint _ hp _ hiragana_mem 'の' hpno hiragana_no
                subst hph
                simp only [List.all_append, List.all_cons, Bool.and_eq_true] at hall
                obtain ⟨d, w2', rfl⟩ := List.exists_cons_of_ne_nil (word_ne hw2)
                cases hd : between 'あ' 'ん' d with
                | true =>
                  -- の and the next word belong to the word as well
                  have hrun2 : IsRun (d :: w2') := by
                    rcases hw2 with h | ⟨v, hv, h⟩
                    · exact h
                    · simp only [List.cons_append, List.cons.injEq] at h
                      rw [h.1] at hd
                      exact absurd hd (by decide +kernel)
                  have hall2 := isRun_cons hiragana_mem hd hrun2
                  refine ihm (w' ++ 'の' :: (d :: w2')) e3 r' ?_ (Or.inl ⟨_, hiragana_mem, by simp, ?_⟩) he3
                    ?_ ?_ hkr'
                  · simp only [List.length_append, List.length_cons] at hm'
                    omega
                  · rw [List.all_append, hall.1, List.all_cons, hiragana_no, hall2]
                    rfl
                  · rw [ht']
                    simp
                  · simp only [List.length_append, List.length_cons] at hl ⊢
                    omega
                | false =>
                  -- the word ends with の, and nothing can follow it
                  have hu : u = [] := by
                    cases u with
                    | nil => rfl
                    | cons x u =>
                      simp only [List.cons_append, List.cons.injEq] at heq
                      simp only [List.all_cons, Bool.and_eq_true] at hall
                      rw [heq.1, hd] at hall
                      exact absurd hall.2.2.1 (by simp)
                  subst hu
                  simp only [List.nil_append, List.cons_append] at heq
                  have h5 : r = e2 ++ r2 := hr
                  rcases branches_cases he2 with rfl | ⟨w4, e4, hw4, he4, rfl⟩
                  · rcases hk r2 (by rw [hkr]; rfl) with h6 | ⟨t6, h6⟩
                    · rw [h6, heq] at h5
                      simp at h5
                    · rw [h6, heq] at h5
                      simp only [List.nil_append, List.cons.injEq] at h5
                      rw [h5.1, hiragana_ka] at hd
                      cases hd
                  · rw [heq] at h5
                    simp only [List.cons_append, List.cons.injEq] at h5
                    rw [h5.1, hiragana_no] at hd
                    cases hd
            · have hww : w = w' := (List.append_inj heq hEq.symm).1
              have hrr : r = e' ++ r' := (List.append_inj heq hEq.symm).2
              have h6 := hm2 e' r' he' hrr (by omega)
              rw [h6] at hkr'
              cases hkr'
        intro e' r' he' hs' hl
        rcases branches_cases he' with rfl | ⟨w', e'', hw', he'', rfl⟩
        · cases hl
        · simp only [List.cons_append, List.cons.injEq, true_and, List.append_assoc] at hs'
          cases hkr' : k r' with
          | none => rfl
          | some v' =>
            refine absurd (key _ w' e'' r' (Nat.le_refl _) hw' he'' hs' ?_ (by rw [hkr']; rfl)) id
            simp only [List.length_cons, List.length_append] at hl
            omega
    · rw [first_star_other k (fun t h => hno ⟨t, h⟩)]
      have only : ∀ e r : List Char, Branches e → s = e ++ r → e = [] := by
        intro e r he hs'
        rcases branches_cases he with h | ⟨w, e', -, -, rfl⟩
        · exact h
        · exact absurd ⟨_, hs'⟩ hno
      cases h : k s with
      | none =>
        intro e r he hs'
        have := only e r he hs'
        subst this
        rw [List.nil_append] at hs'
        rw [← hs']
        exact h
      | some v =>
        refine ⟨[], s, branches_nil, rfl, h, fun e r he hs' hl => ?_⟩
        rw [only e r he hs'] at hl
        cases hl

end JLaw
