import Verif.Lemmas.ItemBranches

/-!
# What the pattern for the number of an item matches
-/

namespace JLaw

open Spec.Scan

variable {β : Type}

theorem first_congr (r : Re) (s : List Char) {k k' : Caps × List Char → Option β}
    (h : ∀ x ∈ r.run s, k x = k' x) : r.first s k = r.first s k' := by
  unfold Re.first
  generalize r.run s = l at h ⊢
  induction l with
  | nil => rfl
  | cons x l ih =>
    rw [List.findSome?_cons, List.findSome?_cons, h x (by simp), ih fun y hy => h y (by simp [hy])]

theorem run_caps_nil {r : Re} (hr : r.names = []) {s : List Char} {x : Caps × List Char}
    (hx : x ∈ r.run s) : x.1 = [] := by
  have := run_names r s x hx
  rw [hr] at this
  exact List.eq_nil_iff_forall_not_mem.mpr fun e he => by simpa using this e he

theorem run_length {r : Re} {s : List Char} {x : Caps × List Char} (hx : x ∈ r.run s) :
    x.2.length ≤ s.length := by
  obtain ⟨w, hw, -⟩ := run_allows r s x hx
  rw [hw, List.length_append]
  omega

theorem itemNumber_names : Re.itemNumber.names = [] := by decide

theorem reBranch_names : (Re.star reBranch).names = [] := by decide

/-- An optional group with repetitions is a repetition, with a group unless it is empty. -/
theorem first_opt_plus (n : String) (s : List Char) (K : Caps × List Char → Option β) :
    (Re.opt (.cap n (.plus reBranch))).first s K = (Re.star reBranch).first s fun x =>
      K (if x.2.length = s.length then [] else [(n, s.take (s.length - x.2.length))], x.2) := by
  simp only [Re.opt, Re.first_alt, Re.first_cap, Re.first_eps, Re.plus]
  by_cases hno : ∃ t, s = 'の' :: t
  · obtain ⟨t, rfl⟩ := hno
    rw [first_star_branch fun r => K (if r.length = ('の' :: t).length then []
      else [(n, ('の' :: t).take (('の' :: t).length - r.length))], r)]
    simp only [if_true, Re.first_seq, Re.first_ch]
    congr 1
    apply first_congr
    intro x hx
    have hxl := run_length hx
    rw [if_pos (by omega)]
    apply first_congr
    intro y hy
    have hyl := run_length hy
    rw [run_caps_nil itemNumber_names hx, run_caps_nil reBranch_names hy,
      if_neg (by simp only [List.length_cons]; omega)]
    rfl
  · rw [first_star_other (fun r => K (if r.length = s.length then []
      else [(n, s.take (s.length - r.length))], r)) (fun t h => hno ⟨t, h⟩)]
    simp only [if_true, Re.first_seq]
    cases s with
    | nil => simp [Re.ch]
    | cons c t => rw [Re.first_ch_none (by rintro rfl; exact hno ⟨t, rfl⟩), Option.none_or]

/-! ## The end of a range -/

/-- The rest of the pattern after branch numbers. -/
abbrev reTail : Re := .seq (.opt (.seqs [.lit ['か', 'ら'], .cap "base_number2" .itemNumber,
  .opt (.cap "eda_numbers2" (.plus reBranch)), .lit ['ま', 'で']])) .eos

/-- The end of a range or nothing, by the classes of the pattern. -/
def Range (r : List Char) : Prop :=
  r = [] ∨ ∃ w e, Word w ∧ Branches e ∧ r = 'か' :: 'ら' :: w ++ e ++ ['ま', 'で']

theorem first_lit2 (a b : Char) (s : List Char) (k : Caps × List Char → Option β) :
    (Re.lit [a, b]).first s k = match s with
      | c :: d :: r => if c = a ∧ d = b then k ([], r) else none
      | _ => none := by
  rcases s with _ | ⟨c, _ | ⟨d, r⟩⟩
  · simp [Re.lit, Re.ch]
  · by_cases h : c = a <;> simp [Re.lit, Re.ch, h]
  · by_cases h : c = a <;> by_cases h' : d = b <;> simp [Re.lit, Re.ch, h, h']

theorem reTail_isSome (r : List Char) : (reTail.first r fun _ => some ()).isSome = true ↔ Range r := by
  have hend : ∀ s : List Char, ((Re.lit ['ま', 'で']).first s fun z =>
      Re.eos.first z.2 fun _ => some ()).isSome = true ↔ s = ['ま', 'で'] := by
    intro s
    rw [first_lit2]
    rcases s with _ | ⟨c, _ | ⟨d, s⟩⟩
    · simp
    · simp
    · by_cases h : c = 'ま' ∧ d = 'で'
      · simp only [h, and_self, if_true, Re.first_eos]
        cases s <;> simp
      · simp only [if_neg h, Option.isSome_none, Bool.false_eq_true, false_iff]
        intro h'
        simp only [List.cons.injEq] at h'
        exact h ⟨h'.1, h'.2.1⟩
  rw [Re.first_seq, Re.opt, Re.first_alt, Option.isSome_or, Bool.or_eq_true]
  have h2 : (Re.eps.first r fun x => Re.eos.first x.2 fun _ => some ()).isSome = true ↔ r = [] := by
    rw [Re.first_eps, Re.first_eos]
    by_cases h : r = [] <;> simp [h]
  rw [h2, Range, or_comm]
  apply or_congr Iff.rfl
  simp only [Re.seqs, Re.first_seq, Re.first_cap]
  rw [first_lit2]
  have key : ∀ s : List Char, (Re.itemNumber.first s fun x =>
      (Re.opt (.cap "eda_numbers2" (.plus reBranch))).first x.2 fun y =>
        (Re.lit ['ま', 'で']).first y.2 fun z => Re.eos.first z.2 fun _ => some ()).isSome = true ↔
      ∃ w e, Word w ∧ Branches e ∧ s = w ++ e ++ ['ま', 'で'] := by
    intro s
    rw [prefers_exists (prefers_word _ s)]
    constructor
    · rintro ⟨w, u, hw, rfl, h⟩
      simp only [first_opt_plus] at h
      obtain ⟨e, v, he, rfl, hv⟩ := (first_star_isSome (fun r => (Re.lit ['ま', 'で']).first r fun z =>
        Re.eos.first z.2 fun _ => some ()) _ u (Nat.le_refl _)).mp h
      exact ⟨w, e, hw, he, by rw [(hend v).mp hv, List.append_assoc]⟩
    · rintro ⟨w, e, hw, he, rfl⟩
      refine ⟨w, e ++ ['ま', 'で'], hw, by rw [List.append_assoc], ?_⟩
      simp only [first_opt_plus]
      exact (first_star_isSome (fun r => (Re.lit ['ま', 'で']).first r fun z =>
        Re.eos.first z.2 fun _ => some ()) _ _ (Nat.le_refl _)).mpr ⟨e, _, he, rfl, (hend _).mpr rfl⟩
  rcases r with _ | ⟨c, _ | ⟨d, r⟩⟩
  · simp
  · simp
  · by_cases h : c = 'か' ∧ d = 'ら'
    · obtain ⟨rfl, rfl⟩ := h
      simp only [and_self, if_true]
      refine (key r).trans ?_
      simp only [List.cons_append, List.cons.injEq, true_and]
    · simp only [if_neg h, Option.isSome_none, Bool.false_eq_true, false_iff]
      rintro ⟨w, e, -, -, h'⟩
      simp only [List.cons_append, List.cons.injEq] at h'
      exact h ⟨h'.1, h'.2.1⟩

/-! ## The groups -/

theorem name_append (c d : Caps) (n : String) : (c ++ d).name n = (d.name n).or (c.name n) := by
  simp only [Caps.name, List.reverse_append]
  generalize d.reverse = d
  induction d with
  | nil => rfl
  | cons x d ih =>
    rw [List.cons_append, List.lookup_cons, List.lookup_cons]
    split
    · rfl
    · exact ih

theorem name_other {r : Re} {s : List Char} {x : Caps × List Char} (hx : x ∈ r.run s) {n : String}
    (hn : n ∉ r.names) : x.1.name n = none := by
  have hm := run_names r s x hx
  rw [Caps.name, List.lookup_eq_none_iff]
  intro e he
  have := hm e (List.mem_reverse.mp he)
  rw [bne_iff_ne]
  intro h
  exact hn (h ▸ this)

/-- The groups that are read. -/
def itemGroups (c : Caps) : Option (List Char) × Option (List Char) :=
  (c.name "base_number", c.name "eda_numbers")

theorem first_tail (c : Caps) (r : List Char) :
    (reTail.first r fun z => some (itemGroups (c ++ z.1))) =
      (reTail.first r fun _ => some ()).map fun _ => itemGroups c := by
  rw [first_congr (k' := fun _ => some (itemGroups c))]
  · unfold Re.first
    cases reTail.run r <;> rfl
  · intro z hz
    have h1 : z.1.name "base_number" = none := name_other hz (by decide +kernel)
    have h2 : z.1.name "eda_numbers" = none := name_other hz (by decide +kernel)
    rw [itemGroups, name_append, name_append, h1, h2]
    rfl

theorem captures_groups (t : List Char) : (reItem.captures t).map itemGroups =
    Re.itemNumber.first t fun x => (Re.star reBranch).first x.2 fun y =>
      (reTail.first y.2 fun _ => some ()).map fun _ => itemGroups
        ((("base_number", t.take (t.length - x.2.length)) :: x.1) ++
          (if y.2.length = x.2.length then []
            else [("eda_numbers", x.2.take (x.2.length - y.2.length))])) := by
  have : (reItem.captures t).map itemGroups = reItem.first t fun x => some (itemGroups x.1) := by
    rw [Re.captures_eq]
    unfold Re.first
    cases reItem.run t <;> rfl
  rw [this]
  show (Re.seq (.cap "base_number" .itemNumber) (.seq (.opt (.cap "eda_numbers" (.plus reBranch)))
    reTail)).first t _ = _
  rw [Re.first_seq, Re.first_cap]
  congr 1
  funext x
  rw [Re.first_seq, first_opt_plus]
  congr 1
  funext y
  simp only [← List.append_assoc]
  exact first_tail _ _

/-- What the pattern for the number of an item matches, and the groups that are read. -/
theorem captures_cut (t : List Char) :
    match reItem.captures t with
    | none => ∀ b e r, Word b → Branches e → Range r → t ≠ b ++ (e ++ r)
    | some caps => ∃ b e r, Word b ∧ Branches e ∧ Range r ∧ t = b ++ (e ++ r) ∧
        caps.name "base_number" = some b ∧
        caps.name "eda_numbers" = (if e = [] then none else some e) ∧
        ∀ b' e' r', Word b' → Branches e' → Range r' → t = b' ++ (e' ++ r') →
          b'.length < b.length ∨ (b'.length = b.length ∧ e'.length ≤ e.length) := by
  have hg := captures_groups t
  -- the continuation after the first word
  let K : List Char → List Char → Option (Option (List Char) × Option (List Char)) := fun u r =>
    (reTail.first r fun _ => some ()).map fun _ => itemGroups
      ([("base_number", t.take (t.length - u.length))] ++
        (if r.length = u.length then [] else [("eda_numbers", u.take (u.length - r.length))]))
  have hK : ∀ u r, (K u r).isSome = true ↔ Range r := by
    intro u r
    simp only [K, Option.isSome_map]
    exact reTail_isSome r
  have tail : ∀ u, Tail (K u) := by
    intro u r hr
    rcases (hK u r).mp hr with h | ⟨w, e, -, -, h⟩
    · exact Or.inl h
    · exact Or.inr ⟨_, h⟩
  have hA := prefers_word (fun x => (Re.star reBranch).first x.2 fun y =>
      (reTail.first y.2 fun _ => some ()).map fun _ => itemGroups
        ((("base_number", t.take (t.length - x.2.length)) :: x.1) ++
          (if y.2.length = x.2.length then []
            else [("eda_numbers", x.2.take (x.2.length - y.2.length))]))) t
  rw [← hg] at hA
  have hB : ∀ u, Prefers Branches u ((Re.star reBranch).first u fun x => K u x.2) (K u) :=
    fun u => prefers_branches (K u) (tail u) _ u (Nat.le_refl _)
  have hex : ∀ e r : List Char, Branches e → Range r →
      ((Re.star reBranch).first (e ++ r) fun x => K (e ++ r) x.2).isSome = true :=
    fun e r he hr => (prefers_exists (hB _)).mpr ⟨e, r, he, rfl, (hK _ _).mpr hr⟩
  cases hc : reItem.captures t with
  | none =>
    rw [hc] at hA
    intro b e r hb he hr ht
    have h1 : ((Re.star reBranch).first (e ++ r) fun x => K (e ++ r) x.2) = none := hA b (e ++ r) hb ht
    have h2 := hex e r he hr
    rw [h1] at h2
    cases h2
  | some caps =>
    rw [hc] at hA
    obtain ⟨b, u, hb, ht, hv, hm⟩ := hA
    replace hv : ((Re.star reBranch).first u fun x => K u x.2) = some (itemGroups caps) := hv
    have hBu := hB u
    rw [hv] at hBu
    obtain ⟨e, r, he, hu, hk, hm2⟩ := hBu
    have hr : Range r := (hK u r).mp (by rw [hk]; rfl)
    have hgr : itemGroups caps = itemGroups ([("base_number", t.take (t.length - u.length))] ++
        (if r.length = u.length then [] else [("eda_numbers", u.take (u.length - r.length))])) := by
      obtain ⟨-, -, h⟩ := Option.map_eq_some_iff.mp hk
      exact h.symm
    have hbase : t.take (t.length - u.length) = b := by rw [ht, take_run]
    have heda : u.take (u.length - r.length) = e := by rw [hu, take_run]
    have hlen : r.length = u.length ↔ e = [] := by
      rw [hu, List.length_append]
      constructor
      · intro h
        exact List.eq_nil_of_length_eq_zero (by omega)
      · rintro rfl
        simp
    rw [hbase, heda] at hgr
    simp only [hlen] at hgr
    refine ⟨b, e, r, hb, he, hr, by rw [ht, hu], ?_, ?_, ?_⟩
    · have := congrArg Prod.fst hgr
      refine Eq.trans this ?_
      by_cases h : e = []
      · rw [if_pos h]; rfl
      · rw [if_neg h]; rfl
    · have := congrArg Prod.snd hgr
      refine Eq.trans this ?_
      by_cases h : e = []
      · rw [if_pos h, if_pos h]; rfl
      · rw [if_neg h, if_neg h]; rfl
    · intro b' e' r' hb' he' hr' ht'
      have h2 := hex e' r' he' hr'
      have hle : b'.length ≤ b.length := by
        apply Nat.le_of_not_lt
        intro hlt
        have h1 : ((Re.star reBranch).first (e' ++ r') fun x => K (e' ++ r') x.2) = none :=
          hm b' _ hb' ht' hlt
        rw [h1] at h2
        cases h2
      rcases Nat.lt_or_eq_of_le hle with h | h
      · exact Or.inl h
      · refine Or.inr ⟨h, ?_⟩
        have hu' : u = e' ++ r' := (List.append_inj (ht.symm.trans ht') h.symm).2
        apply Nat.le_of_not_lt
        intro hlt
        have h3 := hm2 e' r' he' hu' hlt
        have h4 := (hK u r').mpr hr'
        rw [h3] at h4
        cases h4

end JLaw
