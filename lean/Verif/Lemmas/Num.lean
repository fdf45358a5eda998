import Verif.Lemmas.Base
import Verif.Spec.Num

/-! # Lemmas about digits, splitting and number strings -/

namespace JLaw

/-! ## Digits -/

theorem digitChar_toNat {d : Nat} (h : d < 10) : (digitChar d).toNat = 48 + d := by
  have : ∀ d : Fin 10, (digitChar d.val).toNat = 48 + d.val := by decide
  exact this ⟨d, h⟩

theorem digits_ne_nil (n : Nat) : digits n ≠ [] := by
  rw [digits]
  split <;> simp

theorem digits_mem {n : Nat} {c : Char} (h : c ∈ digits n) : 48 ≤ c.toNat ∧ c.toNat ≤ 57 := by
  induction n using Nat.strongRecOn with
  | ind n ih =>
    rw [digits] at h
    split at h
    · next hn =>
      simp only [List.mem_singleton] at h
      subst h
      rw [digitChar_toNat hn]
      omega
    · next hn =>
      simp only [List.mem_append, List.mem_singleton] at h
      rcases h with h | h
      · exact ih (n / 10) (by omega) h
      · subst h
        rw [digitChar_toNat (by omega)]
        omega

theorem digits_all (n : Nat) : (digits n).all isDigit = true := by
  simp only [List.all_eq_true]
  intro c hc
  have := digits_mem hc
  simp [isDigit, this.1, this.2]

theorem digits_not_mem {n : Nat} {c : Char} (h : c.toNat < 48 ∨ 57 < c.toNat) : c ∉ digits n := by
  intro hc
  have := digits_mem hc
  omega

theorem digitsVal_append (acc : Nat) (xs ys : List Char) :
    digitsVal acc (xs ++ ys) = digitsVal (digitsVal acc xs) ys := by
  induction xs generalizing acc with
  | nil => rfl
  | cons x xs ih => exact ih _

theorem digitsVal_digits (n : Nat) : digitsVal 0 (digits n) = n := by
  induction n using Nat.strongRecOn with
  | ind n ih =>
    by_cases hn : n < 10
    · have h : digits n = [digitChar n] := by rw [digits, if_pos hn]
      have h2 : digitsVal 0 [digitChar n] = 0 * 10 + ((digitChar n).toNat - 48) := rfl
      rw [h, h2, digitChar_toNat hn]
      omega
    · have h : digits n = digits (n / 10) ++ [digitChar (n % 10)] := by rw [digits, if_neg hn]
      have h2 : ∀ a, digitsVal a [digitChar (n % 10)] = a * 10 + ((digitChar (n % 10)).toNat - 48) :=
        fun _ => rfl
      rw [h, digitsVal_append, ih (n / 10) (by omega), h2, digitChar_toNat (by omega)]
      omega

theorem digits_injective {n m : Nat} (h : digits n = digits m) : n = m := by
  rw [← digitsVal_digits n, h, digitsVal_digits]

theorem stripPlus_of_digits (ds : List Char)
    (h : ∀ c ∈ ds, '0'.toNat ≤ c.toNat ∧ c.toNat ≤ '9'.toNat) : stripPlus ds = ds := by
  cases ds with
  | nil => rfl
  | cons c r =>
    by_cases hc : c = '+'
    · have := h c (by simp)
      rw [hc] at this
      exact absurd this.1 (by decide)
    · simp [stripPlus, hc]

theorem parseUsize_digits (n : Usize) : parseUsize (digits n.val) = some n := by
  have h : stripPlus (digits n.val) = digits n.val :=
    stripPlus_of_digits _ fun c hc => digits_mem hc
  unfold parseUsize
  rw [h]
  simp [digits_ne_nil, digits_all, digitsVal_digits]

theorem digitsVal_eq_decimal (acc : Nat) (ds : List Char) :
    digitsVal acc ds = ds.foldl (fun v c => v * 10 + (c.toNat - '0'.toNat)) acc := by
  induction ds generalizing acc with
  | nil => rfl
  | cons d ds ih => exact ih _

/-- `parseUsize` accepts exactly the literals of the specification. -/
theorem parseUsize_iff (s : List Char) (n : Usize) :
    parseUsize s = some n ↔ Spec.IsLiteral s n := by
  have key : ∀ ds : List Char, (if ds = [] then none
      else if ds.all isDigit then
        if h : digitsVal 0 ds < 18446744073709551616 then some (⟨digitsVal 0 ds, h⟩ : Usize) else none
      else none) = some n ↔
      (ds ≠ [] ∧ (∀ c ∈ ds, '0'.toNat ≤ c.toNat ∧ c.toNat ≤ '9'.toNat) ∧ Spec.decimal ds = n.val) := by
    intro ds
    rw [show Spec.decimal ds = digitsVal 0 ds from (digitsVal_eq_decimal 0 ds).symm]
    have hall : ds.all isDigit = true ↔ ∀ c ∈ ds, '0'.toNat ≤ c.toNat ∧ c.toNat ≤ '9'.toNat := by
      simp only [List.all_eq_true, isDigit, Bool.and_eq_true, decide_eq_true_eq]
      rfl
    rw [← hall]
    by_cases h1 : ds = []
    · simp [h1]
    · by_cases h2 : ds.all isDigit = true
      · by_cases h3 : digitsVal 0 ds < 18446744073709551616
        · simp only [h1, h2, h3, if_true, if_false, dif_pos, Option.some.injEq, ne_eq,
            not_false_eq_true, true_and]
          exact ⟨fun h => congrArg Fin.val h, fun h => Fin.ext h⟩
        · simp only [h1, h2, h3, if_true, if_false, dif_neg, not_false_eq_true, ne_eq, true_and,
            reduceCtorEq, false_iff]
          intro h
          exact h3 (h ▸ n.isLt)
      · simp [h1, h2]
  unfold parseUsize
  rw [key]
  constructor
  · rintro ⟨h1, h2, h3⟩
    refine ⟨stripPlus s, ?_, h1, h2, h3⟩
    cases s with
    | nil => exact .inl rfl
    | cons c r =>
      by_cases hc : c = '+'
      · right; simp [stripPlus, hc]
      · left; simp [stripPlus, hc]
  · rintro ⟨ds, hs, h1, h2, h3⟩
    have : stripPlus s = ds := by
      rcases hs with rfl | rfl
      · exact stripPlus_of_digits _ h2
      · simp [stripPlus]
    rw [this]
    exact ⟨h1, h2, h3⟩

/-! ## Splitting -/

theorem splitC_of_not_mem {c : Char} {s : List Char} (h : c ∉ s) : splitC c s = [s] := by
  induction s with
  | nil => rfl
  | cons x xs ih =>
    simp only [List.mem_cons, not_or] at h
    simp [splitC, Ne.symm h.1, ih h.2]

theorem splitC_append {c : Char} {a : List Char} (b : List Char) (h : c ∉ a) :
    splitC c (a ++ c :: b) = a :: splitC c b := by
  induction a with
  | nil => simp [splitC]
  | cons x xs ih =>
    simp only [List.mem_cons, not_or] at h
    simp [splitC, Ne.symm h.1, ih h.2]

theorem splitC_ne_nil (c : Char) (s : List Char) : splitC c s ≠ [] := by
  cases s with
  | nil => simp [splitC]
  | cons x xs =>
    simp only [splitC]
    split
    · simp
    · split <;> simp

theorem splitC_not_mem {c : Char} {s w : List Char} (h : w ∈ splitC c s) : c ∉ w := by
  induction s generalizing w with
  | nil =>
    simp only [splitC, List.mem_singleton] at h
    simp [h]
  | cons x xs ih =>
    simp only [splitC] at h
    split at h
    · next hx =>
      simp only [List.mem_cons] at h
      rcases h with h | h
      · simp [h]
      · exact ih h
    · next hx =>
      split at h
      · next hn => exact absurd hn (splitC_ne_nil c xs)
      · next w' ws hw =>
        simp only [List.mem_cons] at h
        rcases h with h | h
        · subst h
          simp only [List.mem_cons, not_or]
          exact ⟨fun hc => hx hc.symm, ih (by simp [hw])⟩
        · exact ih (by simp [hw, h])

/-- Splitting and joining with the same separator. -/
theorem intercalate_splitC (c : Char) (s : List Char) :
    List.intercalate [c] (splitC c s) = s := by
  induction s with
  | nil => rfl
  | cons x xs ih =>
    simp only [splitC]
    split
    · next hx =>
      cases h : splitC c xs with
      | nil => exact absurd h (splitC_ne_nil c xs)
      | cons w ws =>
        rw [h] at ih
        subst hx
        conv_rhs => rw [← ih]
        simp [List.intercalate]
    · split
      · next h => exact absurd h (splitC_ne_nil c xs)
      · next w ws h =>
        rw [h] at ih
        conv_rhs => rw [← ih]
        cases ws <;> simp [List.intercalate]

/-- Joining and splitting, when no piece has the separator. -/
theorem splitC_intercalate (c : Char) (segs : List (List Char)) (hne : segs ≠ [])
    (h : ∀ w ∈ segs, c ∉ w) : splitC c (List.intercalate [c] segs) = segs := by
  induction segs with
  | nil => exact absurd rfl hne
  | cons w ws ih =>
    cases ws with
    | nil => simpa [List.intercalate] using splitC_of_not_mem (h w (by simp))
    | cons v vs =>
      have : List.intercalate [c] (w :: v :: vs) = w ++ c :: List.intercalate [c] (v :: vs) := by
        simp [List.intercalate]
      rw [this, splitC_append _ (h w (by simp)), ih (by simp) fun u hu => h u (by simp [hu])]

/-! ## Number lists -/

/-- `x_y_z`. -/
def numList (n : Usize) (ns : List Usize) : List Char :=
  digits n.val ++ ns.flatMap fun m => '_' :: digits m.val

theorem numList_snoc (n : Usize) (ns : List Usize) (m : Usize) :
    numList n ns ++ '_' :: digits m.val = numList n (ns ++ [m]) := by
  simp [numList]

theorem numList_not_mem {n : Usize} {ns : List Usize} {c : Char}
    (h : c.toNat < 48 ∨ 57 < c.toNat) (h' : c ≠ '_') : c ∉ numList n ns := by
  simp only [numList, List.mem_append, List.mem_flatMap, List.mem_cons, not_or, not_exists, not_and]
  exact ⟨digits_not_mem h, fun m _ => ⟨h', digits_not_mem h⟩⟩

theorem splitC_numList (n : Usize) (ns : List Usize) :
    splitC '_' (numList n ns) = (n :: ns).map fun m => digits m.val := by
  induction ns generalizing n with
  | nil => simpa [numList] using splitC_of_not_mem (digits_not_mem (by decide))
  | cons m ms ih =>
    have : numList n (m :: ms) = digits n.val ++ '_' :: numList m ms := by simp [numList]
    rw [this, splitC_append _ (digits_not_mem (by decide)), ih]
    rfl

theorem mapRes_parseSeg_digits (ns : List Usize) :
    mapRes ArticleNumber.parseSeg (ns.map fun m => digits m.val) = .ok ns := by
  induction ns with
  | nil => rfl
  | cons n ns ih => simp [ih, ArticleNumber.parseSeg, parseUsize_digits]

theorem mapRes_parseSeg_numList (n : Usize) (ns : List Usize) :
    mapRes ArticleNumber.parseSeg (splitC '_' (numList n ns)) = .ok (n :: ns) := by
  rw [splitC_numList, mapRes_parseSeg_digits]

theorem parseSeg_eq_ok (s : List Char) (n : Usize) :
    ArticleNumber.parseSeg s = .ok n ↔ parseUsize s = some n := by
  unfold ArticleNumber.parseSeg
  split <;> simp [*]

theorem parseSeg_cases (s : List Char) :
    (∃ n, ArticleNumber.parseSeg s = .ok n) ∨ ∃ e, ArticleNumber.parseSeg s = .err e := by
  unfold ArticleNumber.parseSeg
  split <;> simp

theorem literal_not_mem {s : List Char} {n : Usize} (h : Spec.IsLiteral s n) {c : Char}
    (hc : c.toNat < 48 ∨ 57 < c.toNat) (hp : c ≠ '+') : c ∉ s := by
  obtain ⟨ds, hs, -, hd, -⟩ := h
  intro hm
  have : c ∈ ds := by
    rcases hs with rfl | rfl
    · exact hm
    · simpa [hp] using hm
  have h1 : 48 ≤ c.toNat := (hd c this).1
  have h2 : c.toNat ≤ 57 := (hd c this).2
  omega

/-- Reading an underscore separated list agrees with the specification. -/
theorem mapRes_parseSeg_iff (s : List Char) (ns : List Usize) :
    mapRes ArticleNumber.parseSeg (splitC '_' s) = .ok ns ↔ Spec.IsNumberList s ns := by
  rw [mapRes_eq_ok]
  constructor
  · intro h
    refine ⟨splitC '_' s, splitC_ne_nil _ _, (intercalate_splitC _ _).symm, ?_⟩
    exact h.imp fun a b hab => (parseUsize_iff a b).1 ((parseSeg_eq_ok a b).1 hab)
  · rintro ⟨segs, hne, rfl, h⟩
    rw [splitC_intercalate '_' segs hne]
    · exact h.imp fun a b hab => (parseSeg_eq_ok a b).2 ((parseUsize_iff a b).2 hab)
    · intro w hw
      obtain ⟨n, hn⟩ : ∃ n, Spec.IsLiteral w n := by
        clear hne
        induction h with
        | nil => simp at hw
        | cons hab _ ih =>
          rcases List.mem_cons.1 hw with rfl | hw
          · exact ⟨_, hab⟩
          · exact ih hw
      exact literal_not_mem hn (by decide) (by decide)

end JLaw

namespace JLaw.ArticleNumber

/-! ## Reading back what `num_str` writes -/

theorem rangeSuffix_cons (r : Usize) (rs : List Usize) :
    rangeSuffix (r :: rs) = ':' :: numList r rs := rfl

theorem read_no_range (b : Usize) (eda : List Usize) :
    fromNumChars (numChars ⟨b, eda, []⟩) = .ok ⟨b, eda, []⟩ := by
  have h : numChars ⟨b, eda, []⟩ = numList b eda := by simp [numChars, numList, rangeSuffix]
  unfold fromNumChars
  rw [h, splitC_of_not_mem (numList_not_mem (by decide) (by decide))]
  simp only [mapRes_parseSeg_numList, Res.bind_ok]

theorem read_no_eda (b : Usize) (r : List Usize) :
    fromNumChars (numChars ⟨b, [], r⟩) = .ok ⟨b, [], []⟩ := by
  have h : numChars ⟨b, [], r⟩ = numList b [] := by simp [numChars, numList]
  unfold fromNumChars
  rw [h, splitC_of_not_mem (numList_not_mem (by decide) (by decide))]
  simp only [mapRes_parseSeg_numList, Res.bind_ok]

theorem read_one_eda (b e r : Usize) (rs : List Usize) :
    fromNumChars (numChars ⟨b, [e], r :: rs⟩) = .ok ⟨b, [e], r :: rs⟩ := by
  have h : numChars ⟨b, [e], r :: rs⟩ = numList b [e] ++ ':' :: numList r rs := by
    simp [numChars, rangeSuffix_cons, numList]
  unfold fromNumChars
  rw [h, splitC_append _ (numList_not_mem (by decide) (by decide)),
    splitC_of_not_mem (numList_not_mem (by decide) (by decide))]
  simp only [mapRes_parseSeg_numList, Res.bind_ok]

theorem read_many_eda (b e e' : Usize) (es : List Usize) (r : Usize) (rs : List Usize) :
    fromNumChars (numChars ⟨b, e :: e' :: es, r :: rs⟩) = .ok ⟨b, [e], r :: rs ++ [e']⟩ := by
  have h : ∃ t, numChars ⟨b, e :: e' :: es, r :: rs⟩ =
      numList b [e] ++ ':' :: (numList r (rs ++ [e']) ++ ':' :: t) := by
    refine ⟨numList r rs ++
      es.flatMap fun n => '_' :: digits n.val ++ rangeSuffix (r :: rs), ?_⟩
    simp [numChars, rangeSuffix_cons, numList]
  obtain ⟨t, h⟩ := h
  unfold fromNumChars
  rw [h, splitC_append _ (numList_not_mem (by decide) (by decide)),
    splitC_append _ (numList_not_mem (by decide) (by decide))]
  simp only [mapRes_parseSeg_numList, Res.bind_ok, List.cons_append]

end JLaw.ArticleNumber
