import Verif.Spec.NumText

/-!
# The usual kanji numerals

An instance of the interface to the kanji numeral crate that satisfies the assumption
`Spec.ReadsKansuji`, so that the theorems with this assumption are not empty.
-/

namespace JLaw

/-- The kanji of a digit, nothing for zero. -/
def kanjiDigit (d : Nat) : List Char :=
  match d with
  | 1 => ['一'] | 2 => ['二'] | 3 => ['三'] | 4 => ['四'] | 5 => ['五'] | 6 => ['六']
  | 7 => ['七'] | 8 => ['八'] | 9 => ['九'] | _ => []

/-- A digit with the kanji of its place; one is left out before it. -/
def kanjiPlace (d : Nat) (place : Char) : List Char :=
  match d with
  | 0 => []
  | 1 => [place]
  | _ => kanjiDigit d ++ [place]

/-- Kanji numeral of a number below ten thousand. -/
def kanjiStr (n : Nat) : List Char :=
  kanjiPlace (n / 1000 % 10) '千' ++ kanjiPlace (n / 100 % 10) '百' ++ kanjiPlace (n / 10 % 10) '十' ++
    kanjiDigit (n % 10)

/-- Value of the kanji of a digit. -/
def kanjiDigitVal (c : Char) : Option Nat :=
  [('一', 1), ('二', 2), ('三', 3), ('四', 4), ('五', 5), ('六', 6), ('七', 7), ('八', 8), ('九', 9)].lookup c

/-- Value of the kanji of a place. -/
def kanjiPlaceVal (c : Char) : Option Nat := [('十', 10), ('百', 100), ('千', 1000)].lookup c

/-- Reads a kanji numeral: the sum so far and the pending digit. -/
def kanjiRead : Nat → Nat → List Char → Option Nat
  | sum, d, [] => some (sum + d)
  | sum, d, c :: s =>
    match kanjiPlaceVal c with
    | some p => kanjiRead (sum + (if d = 0 then 1 else d) * p) 0 s
    | none =>
      match kanjiDigitVal c with
      | some v => kanjiRead sum v s
      | none => none

/-- The interface with the usual kanji numerals, and no roman numerals. -/
def kanjiExt : Ext where
  kansujiStr n := kanjiStr n.val
  kansujiNum := kanjiRead 0 0
  romanStr _ := none
  romanNum _ := none

theorem kanjiRead_place (sum d : Nat) (hd : d < 10) (c : Char) (p : Nat)
    (hc : kanjiPlaceVal c = some p) (s : List Char) :
    kanjiRead sum 0 (kanjiPlace d c ++ s) = kanjiRead (sum + d * p) 0 s := by
  have hv : ∀ k v, kanjiPlaceVal k = none → kanjiDigitVal k = some v → v ≠ 0 →
      kanjiRead sum 0 (k :: c :: s) = kanjiRead (sum + v * p) 0 s := by
    intro k v hk hkv hv
    simp [kanjiRead, hc, hk, hkv, hv]
  match d, hd with
  | 0, _ => simp [kanjiPlace]
  | 1, _ => simp [kanjiPlace, kanjiRead, hc]
  | 2, _ => exact hv '二' 2 (by decide) (by decide) (by decide)
  | 3, _ => exact hv '三' 3 (by decide) (by decide) (by decide)
  | 4, _ => exact hv '四' 4 (by decide) (by decide) (by decide)
  | 5, _ => exact hv '五' 5 (by decide) (by decide) (by decide)
  | 6, _ => exact hv '六' 6 (by decide) (by decide) (by decide)
  | 7, _ => exact hv '七' 7 (by decide) (by decide) (by decide)
  | 8, _ => exact hv '八' 8 (by decide) (by decide) (by decide)
  | 9, _ => exact hv '九' 9 (by decide) (by decide) (by decide)

theorem kanjiRead_digit (sum d : Nat) (hd : d < 10) :
    kanjiRead sum 0 (kanjiDigit d) = some (sum + d) := by
  have hv : ∀ k v, kanjiPlaceVal k = none → kanjiDigitVal k = some v →
      kanjiRead sum 0 [k] = some (sum + v) := by
    intro k v hk hkv
    simp [kanjiRead, hk, hkv]
  match d, hd with
  | 0, _ => simp [kanjiDigit, kanjiRead]
  | 1, _ => exact hv '一' 1 (by decide) (by decide)
  | 2, _ => exact hv '二' 2 (by decide) (by decide)
  | 3, _ => exact hv '三' 3 (by decide) (by decide)
  | 4, _ => exact hv '四' 4 (by decide) (by decide)
  | 5, _ => exact hv '五' 5 (by decide) (by decide)
  | 6, _ => exact hv '六' 6 (by decide) (by decide)
  | 7, _ => exact hv '七' 7 (by decide) (by decide)
  | 8, _ => exact hv '八' 8 (by decide) (by decide)
  | 9, _ => exact hv '九' 9 (by decide) (by decide)

theorem kanjiStr_mem (n : Nat) : ∀ c ∈ kanjiStr n, c ∈ Spec.kanji := by
  have hd : ∀ d, d < 10 → ∀ c ∈ kanjiDigit d, c ∈ Spec.kanji := by decide
  have hp : ∀ d, d < 10 → ∀ c ∈ kanjiPlace d '千' ++ kanjiPlace d '百' ++ kanjiPlace d '十',
      c ∈ Spec.kanji := by decide
  intro c hc
  simp only [kanjiStr, List.mem_append] at hc
  rcases hc with ((hc | hc) | hc) | hc
  · exact hp _ (Nat.mod_lt (n / 1000) (by decide)) c (by simp [hc])
  · exact hp _ (Nat.mod_lt (n / 100) (by decide)) c (by simp [hc])
  · exact hp _ (Nat.mod_lt (n / 10) (by decide)) c (by simp [hc])
  · exact hd _ (Nat.mod_lt n (by decide)) c hc

/-- The usual kanji numerals satisfy the assumption. -/
theorem kanjiExt_reads : Spec.ReadsKansuji kanjiExt := by
  intro n h1 h2
  have hread : kanjiRead 0 0 (kanjiStr n.val) = some n.val := by
    rw [kanjiStr, List.append_assoc, List.append_assoc,
      kanjiRead_place 0 _ (Nat.mod_lt _ (by decide)) '千' 1000 rfl,
      kanjiRead_place _ _ (Nat.mod_lt _ (by decide)) '百' 100 rfl,
      kanjiRead_place _ _ (Nat.mod_lt _ (by decide)) '十' 10 rfl,
      kanjiRead_digit _ _ (Nat.mod_lt _ (by decide))]
    congr 1
    omega
  refine ⟨⟨?_, kanjiStr_mem n.val⟩, hread⟩
  intro h
  have h' : kanjiStr n.val = [] := h
  rw [h'] at hread
  simp only [kanjiRead, Nat.add_zero, Option.some.injEq] at hread
  omega

end JLaw
