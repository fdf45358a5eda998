import Verif.Model.Regex

/-!
# Lemmas about matching

`first r s k` is the first way to match that the continuation `k` accepts. The lemmas below compute
it for the operators, and for runs of characters that are delimited by what follows.
-/

namespace JLaw

/-- The first way to match that `k` accepts. -/
def Re.first {β : Type} (r : Re) (s : List Char) (k : Caps × List Char → Option β) : Option β :=
  (r.run s).findSome? k

variable {β : Type}

theorem Re.captures_eq (r : Re) (s : List Char) :
    r.captures s = r.first s fun x => some x.1 := by
  unfold Re.captures Re.first
  cases r.run s <;> rfl

@[simp] theorem Re.first_eps (s : List Char) (k : Caps × List Char → Option β) :
    Re.eps.first s k = k ([], s) := by
  simp [Re.first, Re.run]

@[simp] theorem Re.first_cls_nil (p : Char → Bool) (k : Caps × List Char → Option β) :
    (Re.cls p).first [] k = none := by
  simp [Re.first, Re.run]

@[simp] theorem Re.first_cls_cons (p : Char → Bool) (c : Char) (s : List Char)
    (k : Caps × List Char → Option β) :
    (Re.cls p).first (c :: s) k = if p c then k ([], s) else none := by
  cases h : p c <;> simp [Re.first, Re.run, h]

theorem findSome?_flatMap {α γ : Type} (l : List α) (f : α → List γ) (k : γ → Option β) :
    (l.flatMap f).findSome? k = l.findSome? fun a => (f a).findSome? k := by
  induction l with
  | nil => rfl
  | cons a l ih => simp [List.findSome?_append, ih, List.findSome?_cons]; cases (f a).findSome? k <;> rfl

@[simp] theorem Re.first_seq (a b : Re) (s : List Char) (k : Caps × List Char → Option β) :
    (Re.seq a b).first s k = a.first s fun x => b.first x.2 fun y => k (x.1 ++ y.1, y.2) := by
  simp only [Re.first, Re.run, findSome?_flatMap, List.findSome?_map]
  rfl

@[simp] theorem Re.first_alt (a b : Re) (s : List Char) (k : Caps × List Char → Option β) :
    (Re.alt a b).first s k = (a.first s k).or (b.first s k) := by
  simp only [Re.first, Re.run, List.findSome?_append]

@[simp] theorem Re.first_cap (n : String) (a : Re) (s : List Char)
    (k : Caps × List Char → Option β) :
    (Re.cap n a).first s k =
      a.first s fun x => k ((n, s.take (s.length - x.2.length)) :: x.1, x.2) := by
  simp only [Re.first, Re.run, List.findSome?_map]
  rfl

@[simp] theorem Re.first_eos (s : List Char) (k : Caps × List Char → Option β) :
    Re.eos.first s k = if s = [] then k ([], []) else none := by
  by_cases h : s = [] <;> simp [Re.first, Re.run, h]

theorem starRun_fuel (f : List Char → List (Caps × List Char)) (n : Nat) :
    ∀ s : List Char, s.length ≤ n → starRun f n s = starRun f s.length s := by
  induction n using Nat.strongRecOn with
  | _ n ih =>
    intro s hs
    cases n with
    | zero => rw [Nat.le_zero.mp hs]
    | succ n =>
      cases hl : s.length with
      | zero =>
        simp only [starRun, hl, Nat.not_lt_zero, if_false]
        simp
      | succ m =>
        simp only [starRun]
        congr 1
        apply congrArg (List.flatten)
        apply List.map_congr_left
        intro x _
        split
        · rename_i hx
          rw [ih n (Nat.lt_succ_self n) x.2 (by omega), ih m (by omega) x.2 (by omega)]
        · rfl

theorem Re.first_star (a : Re) (s : List Char) (k : Caps × List Char → Option β) :
    (Re.star a).first s k = (a.first s fun x =>
      if x.2.length < s.length then (Re.star a).first x.2 fun y => k (x.1 ++ y.1, y.2) else none).or
        (k ([], s)) := by
  cases hl : s.length with
  | zero =>
    simp only [Re.first, Re.run, hl, starRun, Nat.not_lt_zero, if_false]
    have : (a.run s).findSome? (fun _ => (none : Option β)) = none := by simp
    rw [this]
    simp
  | succ m =>
    simp only [Re.first, Re.run, hl, starRun, List.findSome?_append, findSome?_flatMap]
    congr 1
    · congr 1
      funext x
      split
      · rename_i hx
        rw [List.findSome?_map, starRun_fuel _ m x.2 (by omega)]
        rfl
      · rfl
    · simp

/-! ## Runs of a class -/

/-- A rest does not go on with a character of a class. -/
def Ends (p : Char → Bool) : List Char → Prop
  | [] => True
  | c :: _ => p c = false

theorem exists_run (p : Char → Bool) (s : List Char) :
    ∃ ds rest, s = ds ++ rest ∧ ds.all p = true ∧ Ends p rest := by
  refine ⟨s.takeWhile p, s.dropWhile p, (List.takeWhile_append_dropWhile).symm, ?_, ?_⟩
  · exact List.all_takeWhile
  · induction s with
    | nil => trivial
    | cons c s ih =>
      rw [List.dropWhile_cons]
      split
      · exact ih
      · rename_i h
        simpa [Ends] using h

/-- The continuation is content with the longest run, or content with no shorter one. -/
def Greedy (p : Char → Bool) (rest : List Char) (k : Caps × List Char → Option β) : Prop :=
  (k ([], rest)).isSome = true ∨ ∀ c t, p c = true → k ([], c :: t) = none

theorem first_star_cls {p : Char → Bool} {ds rest : List Char} {k : Caps × List Char → Option β}
    (hds : ds.all p = true) (hr : Ends p rest) (hk : Greedy p rest k) :
    (Re.star (.cls p)).first (ds ++ rest) k = k ([], rest) := by
  induction ds with
  | nil =>
    rw [Re.first_star]
    cases rest with
    | nil => simp
    | cons c t => simp only [Ends] at hr; simp [hr]
  | cons c ds ih =>
    simp only [List.all_cons, Bool.and_eq_true] at hds
    rw [Re.first_star]
    simp only [List.cons_append, Re.first_cls_cons, hds.1, if_true, List.length_cons,
      Nat.lt_succ_self, List.nil_append]
    rw [ih hds.2]
    rcases hk with hk | hk
    · obtain ⟨b, hb⟩ := Option.isSome_iff_exists.mp hk
      rw [hb]; rfl
    · rw [hk c _ hds.1]; simp

theorem first_plus_cls {p : Char → Bool} {ds rest : List Char} {k : Caps × List Char → Option β}
    (hne : ds ≠ []) (hds : ds.all p = true) (hr : Ends p rest) (hk : Greedy p rest k) :
    (Re.plus (.cls p)).first (ds ++ rest) k = k ([], rest) := by
  cases ds with
  | nil => exact absurd rfl hne
  | cons c ds =>
    simp only [List.all_cons, Bool.and_eq_true] at hds
    simp only [Re.plus, Re.first_seq, List.cons_append, Re.first_cls_cons, hds.1, if_true,
      List.nil_append]
    exact first_star_cls hds.2 hr hk

theorem first_plus_cls_none {p : Char → Bool} {s : List Char} (k : Caps × List Char → Option β)
    (hr : Ends p s) : (Re.plus (.cls p)).first s k = none := by
  cases s with
  | nil => simp [Re.plus]
  | cons c t => simp only [Ends] at hr; simp [Re.plus, hr]

/-- A continuation that accepts nothing. -/
theorem Re.first_none (r : Re) (s : List Char) {k : Caps × List Char → Option β}
    (h : ∀ x, k x = none) : r.first s k = none := by
  simp [Re.first, List.findSome?_eq_none_iff, h]

theorem take_run (ds rest : List Char) :
    (ds ++ rest).take ((ds ++ rest).length - rest.length) = ds := by
  simp

theorem first_cap_plus {p : Char → Bool} {n : String} {ds rest : List Char}
    {k : Caps × List Char → Option β} (hne : ds ≠ []) (hds : ds.all p = true) (hr : Ends p rest)
    (hk : (k ([(n, ds)], rest)).isSome = true ∨ ∀ w c t, p c = true → k ([(n, w)], c :: t) = none) :
    (Re.cap n (Re.plus (.cls p))).first (ds ++ rest) k = k ([(n, ds)], rest) := by
  rw [Re.first_cap, first_plus_cls hne hds hr]
  · rw [take_run]
  · rcases hk with hk | hk
    · left; simpa using hk
    · right; intro c t hc; exact hk _ c t hc

theorem first_cap_plus_none {p : Char → Bool} {n : String} {s : List Char}
    (k : Caps × List Char → Option β) (hr : Ends p s) :
    (Re.cap n (Re.plus (.cls p))).first s k = none := by
  rw [Re.first_cap, first_plus_cls_none _ hr]

/-! ## Numbers in one of several scripts -/

theorem Re.first_alts_cons (a : Re) (as : List Re) (s : List Char)
    (k : Caps × List Char → Option β) :
    (Re.alts (a :: as)).first s k = (a.first s k).or ((Re.alts as).first s k) := by
  cases as with
  | nil =>
    have : (Re.cls fun _ => false).first s k = none := by cases s <;> simp
    simp only [Re.alts, this, Option.or_none]
  | cons b bs => simp only [Re.alts, Re.first_alt]

theorem first_alts_none {as : List Re} {s : List Char} {k : Caps × List Char → Option β}
    (h : ∀ a ∈ as, a.first s k = none) : (Re.alts as).first s k = none := by
  induction as with
  | nil => cases s <;> simp [Re.alts]
  | cons a as ih =>
    rw [Re.first_alts_cons, h a (by simp), ih fun b hb => h b (by simp [hb])]
    rfl

theorem first_alts_one {as : List Re} {a : Re} {s : List Char} {k : Caps × List Char → Option β}
    (ha : a ∈ as) (h : ∀ b ∈ as, b ≠ a → b.first s k = none) :
    (Re.alts as).first s k = a.first s k := by
  induction as with
  | nil => simp at ha
  | cons b as ih =>
    rw [Re.first_alts_cons]
    by_cases hb : b = a
    · subst hb
      by_cases hm : b ∈ as
      · rw [ih hm fun c hc hne => h c (by simp [hc]) hne]
        cases b.first s k <;> rfl
      · rw [first_alts_none (fun c hc => h c (by simp [hc]) (fun e => hm (e ▸ hc)))]
        simp
    · rw [h b (by simp) hb, ih (by simpa [Ne.symm hb] using ha) fun c hc hne => h c (by simp [hc]) hne]
      rfl

/-- Classes without a common character. -/
def Disjoint (ps : List (Char → Bool)) : Prop :=
  ∀ p ∈ ps, ∀ q ∈ ps, ∀ c, p c = true → q c = true → p = q

theorem first_scripts {ps : List (Char → Bool)} (hd : Disjoint ps) {p : Char → Bool} (hp : p ∈ ps)
    {ds rest : List Char} {k : Caps × List Char → Option β}
    (hne : ds ≠ []) (hds : ds.all p = true) (hr : Ends p rest) (hk : Greedy p rest k) :
    (Re.alts (ps.map fun p => Re.plus (.cls p))).first (ds ++ rest) k = k ([], rest) := by
  rw [first_alts_one (a := Re.plus (.cls p))
    (List.mem_map_of_mem (f := fun p : Char → Bool => Re.plus (.cls p)) hp), first_plus_cls hne hds hr hk]
  intro b hb hbne
  obtain ⟨q, hq, rfl⟩ := List.mem_map.mp hb
  cases ds with
  | nil => exact absurd rfl hne
  | cons c ds =>
    simp only [List.all_cons, Bool.and_eq_true] at hds
    apply first_plus_cls_none
    simp only [List.cons_append, Ends]
    cases hqc : q c with
    | false => rfl
    | true => exact absurd (by rw [hd q hq p hp c hqc hds.1]) hbne

theorem first_scripts_none {ps : List (Char → Bool)} {s : List Char}
    (k : Caps × List Char → Option β) (h : ∀ p ∈ ps, Ends p s) :
    (Re.alts (ps.map fun p => Re.plus (.cls p))).first s k = none := by
  apply first_alts_none
  intro a ha
  obtain ⟨p, hp, rfl⟩ := List.mem_map.mp ha
  exact first_plus_cls_none _ (h p hp)

/-- The same with named groups. -/
theorem first_named {l : List (String × (Char → Bool))} (hd : Disjoint (l.map Prod.snd))
    (hn : (l.map Prod.snd).Nodup) {n : String} {p : Char → Bool} (hp : (n, p) ∈ l)
    {ds rest : List Char} {k : Caps × List Char → Option β}
    (hne : ds ≠ []) (hds : ds.all p = true) (hr : Ends p rest)
    (hk : (k ([(n, ds)], rest)).isSome = true ∨ ∀ w c t, p c = true → k ([(n, w)], c :: t) = none) :
    (Re.alts (l.map fun x => Re.cap x.1 (Re.plus (.cls x.2)))).first (ds ++ rest) k =
      k ([(n, ds)], rest) := by
  rw [first_alts_one (a := Re.cap n (Re.plus (.cls p)))
    (List.mem_map_of_mem (f := fun x : String × (Char → Bool) => Re.cap x.1 (Re.plus (.cls x.2))) hp),
    first_cap_plus hne hds hr hk]
  intro b hb hbne
  obtain ⟨⟨m, q⟩, hq, rfl⟩ := List.mem_map.mp hb
  cases ds with
  | nil => exact absurd rfl hne
  | cons c ds =>
    simp only [List.all_cons, Bool.and_eq_true] at hds
    apply first_cap_plus_none
    simp only [List.cons_append, Ends]
    cases hqc : q c with
    | false => rfl
    | true =>
      exfalso
      have hqp : q = p := hd q (List.mem_map_of_mem (f := Prod.snd) hq) p (List.mem_map_of_mem (f := Prod.snd) hp) c hqc hds.1
      subst hqp
      obtain ⟨i, hi, hi'⟩ := List.mem_iff_getElem.mp hq
      obtain ⟨j, hj, hj'⟩ := List.mem_iff_getElem.mp hp
      have : i = j := by
        apply (List.getElem_inj (xs := l.map Prod.snd) (h₀ := by simpa using hi) (h₁ := by simpa using hj) hn).mp
        simp [hi', hj']
      subst this
      rw [hi'] at hj'
      simp only [Prod.mk.injEq, and_true] at hj'
      exact hbne (by rw [hj'])

theorem first_named_none {l : List (String × (Char → Bool))} {s : List Char}
    (k : Caps × List Char → Option β) (h : ∀ x ∈ l, Ends x.2 s) :
    (Re.alts (l.map fun x => Re.cap x.1 (Re.plus (.cls x.2)))).first s k = none := by
  apply first_alts_none
  intro a ha
  obtain ⟨x, hx, rfl⟩ := List.mem_map.mp ha
  exact first_cap_plus_none _ (h x hx)

end JLaw
