import Verif.Lemmas.ReadItem

/-!
# How the pattern that splits a line matches
-/

namespace JLaw

variable {β : Type}

theorem isSpace_iff {c : Char} : isSpace c = true ↔ c ∈ Spec.blanks := by
  constructor
  · intro h
    simp only [isSpace, Bool.or_eq_true, Bool.and_eq_true, decide_eq_true_eq, beq_iff_eq] at h
    have h1 : ∀ i, i < 5 → ∃ d ∈ Spec.blanks, d.toNat = 9 + i := by decide
    have h2 : ∀ i, i < 11 → ∃ d ∈ Spec.blanks, d.toNat = 0x2000 + i := by decide
    have h3 : ∀ n ∈ [0x20, 0x85, 0xA0, 0x1680, 0x2028, 0x2029, 0x202F, 0x205F, 0x3000],
        ∃ d ∈ Spec.blanks, d.toNat = n := by decide
    have : ∃ d ∈ Spec.blanks, d.toNat = c.toNat := by
      by_cases ha : 9 ≤ c.toNat ∧ c.toNat ≤ 13
      · obtain ⟨d, hd, he⟩ := h1 (c.toNat - 9) (by omega)
        exact ⟨d, hd, by omega⟩
      · by_cases hb : 0x2000 ≤ c.toNat ∧ c.toNat ≤ 0x200A
        · obtain ⟨d, hd, he⟩ := h2 (c.toNat - 0x2000) (by omega)
          exact ⟨d, hd, by omega⟩
        · apply h3
          simp only [List.mem_cons, List.not_mem_nil, or_false]
          omega
    obtain ⟨d, hd, he⟩ := this
    rw [← char_eq_of_toNat he]
    exact hd
  · exact (by decide : ∀ c ∈ Spec.blanks, isSpace c = true) c

theorem isSpace_false {c : Char} : isSpace c = false ↔ c ∉ Spec.blanks := by
  rw [← isSpace_iff]; simp

/-- A run that gives back its last character. -/
theorem first_star_back {p : Char → Bool} {ds : List Char} {c : Char}
    {k : Caps × List Char → Option β} (hds : ds.all p = true) (hc : p c = true)
    (h0 : k ([], []) = none) (h1 : (k ([], [c])).isSome = true) :
    (Re.star (.cls p)).first (ds ++ [c]) k = k ([], [c]) := by
  obtain ⟨v, hv⟩ := Option.isSome_iff_exists.mp h1
  induction ds with
  | nil =>
    rw [List.nil_append, Re.first_star]
    have : (Re.star (.cls p)).first [] k = none := by
      rw [Re.first_star]; simp [h0]
    simp [hc, this]
  | cons d ds ih =>
    simp only [List.all_cons, Bool.and_eq_true] at hds
    rw [Re.first_star]
    simp only [List.cons_append, Re.first_cls_cons, hds.1, if_true, List.length_cons,
      Nat.lt_succ_self, List.nil_append]
    rw [ih hds.2, hv]
    rfl

theorem splitNumber_short {l : List Char} (h : l.length < 2) : splitNumber l = none := by
  match l, h with
  | [], _ => rw [splitNumber, Re.captures_eq]; simp [reSplit, Re.seqs, Re.plus]
  | [c], _ =>
    rw [splitNumber, Re.captures_eq]
    simp only [reSplit, Re.seqs, Re.first_seq, Re.first_cap, Re.plus, Re.first_cls_cons]
    have : ∀ (k : Caps × List Char → Option Caps), k ([], []) = none →
        ∀ q, (Re.star (.cls q)).first [] k = none := by
      intro k hk q
      rw [Re.first_star]; simp [hk]
    split
    · rw [this _ ?_]
      · rfl
      · simp only [List.nil_append]
        rw [this _ ?_]
        simp
    · rfl

/-- A line without a blank: the text is its last character. -/
theorem splitNumber_joined {h : List Char} {c : Char} (hne : h ≠ []) (hh : ∀ c ∈ h, isSpace c = false)
    (hc : isSpace c = false) (hn : c ≠ '\n') : splitNumber (h ++ [c]) = some (h, [c]) := by
  have hk : ∀ (k : Caps × List Char → Option Caps), (Re.star (.cls isSpace)).first [c] k = k ([], [c]) := by
    intro k
    rw [Re.first_star]; simp [hc]
  have hk0 : ∀ q (k : Caps × List Char → Option Caps), (Re.star (.cls q)).first [] k = k ([], []) := by
    intro q k
    rw [Re.first_star]; simp
  obtain ⟨d, h', rfl⟩ := List.exists_cons_of_ne_nil hne
  have hall : h'.all (fun c => !isSpace c) = true := by
    rw [List.all_eq_true]; intro c hc; simp [hh c (by simp [hc])]
  have hd : isSpace d = false := hh d (by simp)
  rw [splitNumber, Re.captures_eq]
  simp only [reSplit, Re.seqs, Re.first_seq, Re.first_cap, Re.plus, List.cons_append,
    Re.first_cls_cons, hd, Bool.not_false, if_true]
  rw [first_star_back hall (by simp [hc])]
  · simp only [hk, List.nil_append, Re.first_cls_cons]
    simp only [bne_iff_ne, ne_eq, hn, not_false_eq_true, if_true, hk0]
    simp [Caps.name]
    rfl
  · simp [hk0]
  · simp only [hk, List.nil_append, Re.first_cls_cons]
    simp [hn, hk0]

/-- A line with a blank: the heading is what comes before it. -/
theorem splitNumber_blank {h bs t : List Char} (hne : h ≠ []) (hh : ∀ c ∈ h, isSpace c = false)
    (hb : bs ≠ []) (hbs : ∀ c ∈ bs, isSpace c = true) (ht : t ≠ []) (hend : Ends isSpace t)
    (hn : '\n' ∉ t) : splitNumber (h ++ (bs ++ t)) = some (h, t) := by
  have hall : h.all (fun c => !isSpace c) = true := by
    rw [List.all_eq_true]; intro c hc; simp [hh c hc]
  have hall' : bs.all isSpace = true := by
    rw [List.all_eq_true]; exact hbs
  have hallt : t.all (fun c => c != '\n') = true := by
    rw [List.all_eq_true]; intro c hc; rw [bne_iff_ne]; rintro rfl; exact hn hc
  have hr : Ends (fun c => !isSpace c) (bs ++ t) := by
    obtain ⟨b, bs', rfl⟩ := List.exists_cons_of_ne_nil hb
    simp [Ends, hbs b (by simp)]
  have key : ∀ caps : Caps, ((Re.star (.cls isSpace)).first (bs ++ t) fun x =>
      (Re.cap "text" (.plus (.cls fun c => c != '\n'))).first x.2 fun y =>
        Re.eos.first y.2 fun z => some (caps ++ (x.1 ++ (y.1 ++ z.1)))) = some (caps ++ [("text", t)]) := by
    intro caps
    have h2 : (Re.cap "text" (.plus (.cls fun c => c != '\n'))).first t (fun y =>
        Re.eos.first y.2 fun z => some (caps ++ (y.1 ++ z.1))) = some (caps ++ [("text", t)]) := by
      have := first_cap_plus (n := "text") (rest := []) (p := fun c => c != '\n') (ds := t)
        (k := fun y => Re.eos.first y.2 fun z => some (caps ++ (y.1 ++ z.1))) ht hallt trivial
        (Or.inl (by simp))
      rw [List.append_nil] at this
      rw [this]; simp
    rw [first_star_cls hall' hend]
    · simp only [List.nil_append]; exact h2
    · left
      simp only [List.nil_append]
      rw [h2]; rfl
  rw [splitNumber, Re.captures_eq]
  simp only [reSplit, Re.seqs, Re.first_seq]
  have := first_cap_plus (n := "s") (p := fun c => !isSpace c) (ds := h) (rest := bs ++ t)
    (k := fun x => (Re.star (.cls isSpace)).first x.2 fun y =>
      (Re.cap "text" (.plus (.cls fun c => c != '\n'))).first y.2 fun z =>
        Re.eos.first z.2 fun w => some (x.1 ++ (y.1 ++ (z.1 ++ w.1)))) hne hall hr
    (Or.inl (by simp only [key]; rfl))
  rw [this, key]
  rfl

/-- Every trimmed line of at least two characters has one of the two forms. -/
theorem split_cases {l : List Char} (h2 : 2 ≤ l.length) (hl : Spec.Trimmed l) (hn : '\n' ∉ l) :
    (∃ h c, l = h ++ [c] ∧ h ≠ [] ∧ (∀ c ∈ h, isSpace c = false) ∧ isSpace c = false ∧ c ≠ '\n') ∨
    ∃ h bs t, l = h ++ (bs ++ t) ∧ h ≠ [] ∧ (∀ c ∈ h, isSpace c = false) ∧ bs ≠ [] ∧
      (∀ c ∈ bs, isSpace c = true) ∧ t ≠ [] ∧ Ends isSpace t ∧ '\n' ∉ t := by
  obtain ⟨h, r, rfl, hall, hend⟩ := exists_run (fun c => !isSpace c) l
  have hh : ∀ c ∈ h, isSpace c = false := by
    intro c hc
    simpa using List.all_eq_true.mp hall c hc
  have hne : h ≠ [] := by
    rintro rfl
    cases r with
    | nil => simp at h2
    | cons c r =>
      simp only [Ends, Bool.not_eq_false'] at hend
      have := hl.1 c rfl
      rw [← isSpace_false, hend] at this; cases this
  by_cases hr : r = []
  · left
    subst hr
    have hlast := List.dropLast_append_getLast hne
    refine ⟨h.dropLast, h.getLast hne, by rw [hlast, List.append_nil], ?_, ?_, ?_, ?_⟩
    · intro h0
      have : h.length = h.dropLast.length + 1 := by rw [List.length_dropLast]; simp at h2; omega
      rw [h0] at this
      simp at this h2
      omega
    · intro c hc; exact hh c ((List.dropLast_sublist h).subset hc)
    · exact hh _ (List.getLast_mem hne)
    · intro h0
      apply hn
      rw [← h0, List.append_nil]
      exact List.getLast_mem hne
  · right
    obtain ⟨bs, t, rfl, hbs, htend⟩ := exists_run isSpace r
    have ht : t ≠ [] := by
      rintro rfl
      rw [List.append_nil] at hl hr
      have := hl.2 (bs.getLast hr) (by rw [List.getLast?_append_of_ne_nil _ hr, List.getLast?_eq_getLast_of_ne_nil hr])
      rw [← isSpace_false, List.all_eq_true.mp hbs _ (List.getLast_mem hr)] at this
      cases this
    refine ⟨h, bs, t, rfl, hne, hh, ?_, List.all_eq_true.mp hbs, ht, htend, ?_⟩
    · rintro rfl
      obtain ⟨c, t', rfl⟩ := List.exists_cons_of_ne_nil ht
      simp only [List.nil_append, Ends] at hend htend
      rw [htend] at hend
      cases hend
    · intro h0; exact hn (by simp [h0])

end JLaw
