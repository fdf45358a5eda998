import Mathlib.Data.List.Induction
import Mathlib.Data.List.TakeWhile
import Verif.Lemmas.Num
import Verif.Spec.Decide

/-!
# Numbers as they are written again
-/

namespace JLaw

open Spec (literal? literals? number? fields plainDigits)

theorem fields_eq (c : Char) (s : List Char) : fields c s = splitC c s := by
  induction s with
  | nil => rfl
  | cons x s ih =>
    have h : fields c (x :: s) = if x = c then [] :: fields c s
        else (x :: (fields c s).headD []) :: (fields c s).tail := rfl
    rw [h, ih, splitC]
    split
    · rfl
    · cases splitC c s <;> rfl

theorem decimal_append (ds : List Char) (d : Char) :
    Spec.decimal (ds ++ [d]) = Spec.decimal ds * 10 + (d.toNat - '0'.toNat) := by
  simp [Spec.decimal]

theorem plainDigits_append {ds : List Char} (h : ds.dropWhile (· == '0') ≠ []) (d : Char) :
    plainDigits (ds ++ [d]) = plainDigits ds ++ [d] := by
  unfold plainDigits
  rw [List.dropWhile_append, if_neg (by simpa using h)]
  cases hd : ds.dropWhile (· == '0') with
  | nil => exact absurd hd h
  | cons a r => rfl

theorem decimal_zeros {ds : List Char} (h : ds.dropWhile (· == '0') = []) :
    Spec.decimal ds = 0 := by
  rw [List.dropWhile_eq_nil_iff] at h
  induction ds using List.reverseRecOn with
  | nil => rfl
  | append_singleton ds d ih =>
    rw [decimal_append, ih fun x hx => h x (by simp [hx])]
    have := h d (by simp)
    simp only [beq_iff_eq] at this
    simp [this]

theorem decimal_pos {ds : List Char} (hds : ∀ c ∈ ds, '0'.toNat ≤ c.toNat ∧ c.toNat ≤ '9'.toNat)
    (h : ds.dropWhile (· == '0') ≠ []) : 0 < Spec.decimal ds := by
  induction ds using List.reverseRecOn with
  | nil => exact absurd rfl h
  | append_singleton ds d ih =>
    rw [decimal_append]
    by_cases hz : ds.dropWhile (· == '0') = []
    · rw [List.dropWhile_append, if_pos (by simpa using hz)] at h
      have hd : d ≠ '0' := by
        rintro rfl
        simp at h
      have h1 := (hds d (by simp)).1
      have h2 : d.toNat ≠ '0'.toNat := fun h => hd (Char.toNat_inj.1 h)
      omega
    · have := ih (fun c hc => hds c (by simp [hc])) hz
      omega

theorem digitChar_sub {c : Char} (h : '0'.toNat ≤ c.toNat ∧ c.toNat ≤ '9'.toNat) :
    digitChar (c.toNat - '0'.toNat) = c := by
  have h0 : '0'.toNat = 48 := rfl
  have h9 : '9'.toNat = 57 := rfl
  have := digitChar_toNat (d := c.toNat - '0'.toNat) (by omega)
  apply Char.toNat_inj.1
  omega

theorem digits_decimal {ds : List Char} (hne : ds ≠ [])
    (h : ∀ c ∈ ds, '0'.toNat ≤ c.toNat ∧ c.toNat ≤ '9'.toNat) :
    digits (Spec.decimal ds) = plainDigits ds := by
  have h0 : '0'.toNat = 48 := rfl
  have h9 : '9'.toNat = 57 := rfl
  induction ds using List.reverseRecOn with
  | nil => exact absurd rfl hne
  | append_singleton ds d ih =>
    have hd := h d (by simp)
    have h' : ∀ c ∈ ds, '0'.toNat ≤ c.toNat ∧ c.toNat ≤ '9'.toNat :=
      fun c hc => h c (by simp [hc])
    rw [decimal_append]
    by_cases hz : ds.dropWhile (· == '0') = []
    · rw [decimal_zeros hz, digits, if_pos (by omega), Nat.zero_mul, Nat.zero_add,
        digitChar_sub hd, plainDigits, List.dropWhile_append, if_pos (by simpa using hz)]
      by_cases hd0 : d = '0'
      · subst hd0; rfl
      · rw [List.dropWhile_cons_of_neg (by simpa using hd0)]
    · have hpos := decimal_pos h' hz
      rw [digits, if_neg (by omega), plainDigits_append hz,
        show (Spec.decimal ds * 10 + (d.toNat - '0'.toNat)) / 10 = Spec.decimal ds by omega,
        show (Spec.decimal ds * 10 + (d.toNat - '0'.toNat)) % 10 = d.toNat - '0'.toNat by omega,
        digitChar_sub hd, ih (by rintro rfl; exact hz rfl) h']

theorem literal?_eq (s : List Char) : literal? s = (parseUsize s).map fun n => digits n.val := by
  have hs : Spec.unsigned s = stripPlus s := by
    unfold stripPlus Spec.unsigned
    split
    · simp
    · next h =>
      cases s with
      | nil => rfl
      | cons c r =>
        have : c ≠ '+' := fun hc => h r (by rw [hc])
        simp [this]
  have hall : (stripPlus s).all isDigit = true ↔
      ∀ c ∈ stripPlus s, '0'.toNat ≤ c.toNat ∧ c.toNat ≤ '9'.toNat := by
    simp only [List.all_eq_true, isDigit, Bool.and_eq_true, decide_eq_true_eq]
    rfl
  have hdec : digitsVal 0 (stripPlus s) = Spec.decimal (stripPlus s) := digitsVal_eq_decimal 0 _
  unfold literal? parseUsize
  rw [hs]
  simp only [hall, hdec]
  by_cases h1 : stripPlus s = []
  · simp [h1]
  by_cases h2 : ∀ c ∈ stripPlus s, '0'.toNat ≤ c.toNat ∧ c.toNat ≤ '9'.toNat
  · by_cases h3 : Spec.decimal (stripPlus s) < 18446744073709551616
    · rw [if_pos ⟨h1, h2, h3⟩, if_neg h1, if_pos h2, dif_pos h3]
      simp only [Option.map_some, digits_decimal h1 h2]
    · rw [if_neg (fun h => h3 h.2.2), if_neg h1, if_pos h2, dif_neg h3]
      rfl
  · rw [if_neg (fun h => h2 h.2.1), if_neg h1, if_neg h2]
    rfl

theorem literal?_isSome (s : List Char) : (literal? s).isSome = true ↔ ∃ n, Spec.IsLiteral s n := by
  rw [literal?_eq, Option.isSome_map, Option.isSome_iff_exists]
  exact exists_congr fun n => parseUsize_iff s n

/-- The literals are there if and only if the reader reads them, and then they are the numbers. -/
theorem literals?_eq (s : List Char) :
    (∃ ns, mapRes ArticleNumber.parseSeg (splitC '_' s) = .ok ns ∧
      literals? s = some (ns.map fun n => digits n.val)) ∨
    (∃ e, mapRes ArticleNumber.parseSeg (splitC '_' s) = .err e) ∧ literals? s = none := by
  unfold literals?
  rw [fields_eq]
  induction splitC '_' s with
  | nil => exact .inl ⟨[], rfl, rfl⟩
  | cons w ws ih =>
    rw [List.mapM_cons, literal?_eq, mapRes, ArticleNumber.parseSeg]
    cases parseUsize w with
    | none => exact .inr ⟨⟨_, rfl⟩, rfl⟩
    | some n =>
      rcases ih with ⟨ns, h1, h2⟩ | ⟨⟨e, h1⟩, h2⟩
      · refine .inl ⟨n :: ns, ?_, ?_⟩
        · simp [Res.bind, h1]
        · simp [h2]
      · refine .inr ⟨⟨e, ?_⟩, ?_⟩
        · simp [Res.bind, h1]
        · simp [h2]

theorem intercalate_cons (c : Char) (w : List Char) (ws : List (List Char)) :
    List.intercalate [c] (w :: ws) = w ++ ws.flatMap fun v => c :: v := by
  induction ws generalizing w with
  | nil => simp [List.intercalate]
  | cons v ws ih =>
    have : List.intercalate [c] (w :: v :: ws) = w ++ c :: List.intercalate [c] (v :: ws) := by
      simp [List.intercalate]
    rw [this, ih]
    simp

/-- How a number is written again is given by `number?`. -/
theorem number?_eq (s : String) :
    (number? s.toList).map String.ofList = (ArticleNumber.parse? s).map ArticleNumber.numStr := by
  unfold number? ArticleNumber.parse? ArticleNumber.fromNumStr ArticleNumber.fromNumChars
  rw [fields_eq]
  cases hs : splitC ':' s.toList with
  | nil => exact absurd hs (splitC_ne_nil _ _)
  | cons a rest =>
    rcases literals?_eq a with ⟨ns, h1, h2⟩ | ⟨⟨e, h1⟩, h2⟩
    · have hne : ns ≠ [] := by
        rintro rfl
        have := splitC_ne_nil '_' a
        cases hw : splitC '_' a with
        | nil => exact this hw
        | cons w ws =>
          rw [hw, mapRes] at h1
          obtain ⟨_, _, h1⟩ := Res.bind_eq_ok.1 h1
          obtain ⟨_, _, h1⟩ := Res.bind_eq_ok.1 h1
          cases h1
      obtain ⟨n, ns, rfl⟩ := List.exists_cons_of_ne_nil hne
      cases rest with
      | nil =>
        simp only [h1, h2, Res.bind_ok, Option.map_some, List.map_cons, intercalate_cons]
        simp [ArticleNumber.numStr, ArticleNumber.numChars, ArticleNumber.rangeSuffix,
          List.flatMap_map]
      | cons b rest =>
        rcases literals?_eq b with ⟨rs, h3, h4⟩ | ⟨⟨e, h3⟩, h4⟩
        · have hne : rs ≠ [] := by
            rintro rfl
            have := splitC_ne_nil '_' b
            cases hw : splitC '_' b with
            | nil => exact this hw
            | cons w ws =>
              rw [hw, mapRes] at h3
              obtain ⟨_, _, h3⟩ := Res.bind_eq_ok.1 h3
              obtain ⟨_, _, h3⟩ := Res.bind_eq_ok.1 h3
              cases h3
          obtain ⟨r, rs, rfl⟩ := List.exists_cons_of_ne_nil hne
          simp only [h1, h2, h3, h4, Res.bind_ok, Option.map_some, List.map_cons, intercalate_cons]
          simp [ArticleNumber.numStr, ArticleNumber.numChars, ArticleNumber.rangeSuffix,
            List.flatMap_map]
        · simp [h1, h2, h3, h4, Res.bind]
    · cases rest with
      | nil => simp [h1, h2, Res.bind]
      | cons b rest => simp [h1, h2, Res.bind]

theorem number?_isSome (s : String) :
    (number? s.toList).isSome = (ArticleNumber.parse? s).isSome := by
  have := congrArg Option.isSome (number?_eq s)
  simpa using this

end JLaw
