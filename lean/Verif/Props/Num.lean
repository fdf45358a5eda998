import Verif.Lemmas.Num

/-!
# C01 - C03: numbers as attribute strings
-/

namespace JLaw

open ArticleNumber

/-- C01. Writing and reading a number gives it back exactly when it has no range end or has
exactly one branch number. Reading never fails on a written number, so in the other cases it gives
a different number. -/
theorem C01_num_str_round_trip (a : ArticleNumber) :
    (∃ b, fromNumStr a.numStr = .ok b) ∧
    (fromNumStr a.numStr = .ok a ↔ a.range_end_numbers = [] ∨ a.eda_numbers.length = 1) := by
  obtain ⟨b, eda, r⟩ := a
  simp only [fromNumStr, numStr, String.toList_ofList]
  cases r with
  | nil => simp [read_no_range]
  | cons r rs =>
    match eda with
    | [] => simp [read_no_eda]
    | [e] => simp [read_one_eda]
    | e :: e' :: es => simp [read_many_eda]

-- A number with two branch numbers survives; the same number with a range end does not.
example : fromNumStr (numStr ⟨12, [3, 4], []⟩) = .ok ⟨12, [3, 4], []⟩ :=
  (C01_num_str_round_trip ⟨12, [3, 4], []⟩).2.2 (.inl rfl)
example : fromNumStr (numStr ⟨12, [3, 4], [15]⟩) ≠ .ok ⟨12, [3, 4], [15]⟩ := fun h =>
  absurd ((C01_num_str_round_trip ⟨12, [3, 4], [15]⟩).2.1 h) (by decide)
example : fromNumStr (numStr ⟨12, [3], [15, 2]⟩) = .ok ⟨12, [3], [15, 2]⟩ :=
  (C01_num_str_round_trip ⟨12, [3], [15, 2]⟩).2.2 (.inr rfl)

/-- C02, first half. Among numbers without a range end the string identifies the number. -/
theorem C02_num_str_injective (a b : ArticleNumber) (ha : a.range_end_numbers = [])
    (hb : b.range_end_numbers = []) : a.numStr = b.numStr ↔ a = b := by
  constructor
  · intro h
    have h1 := (C01_num_str_round_trip a).2.2 (.inl ha)
    have h2 := (C01_num_str_round_trip b).2.2 (.inl hb)
    rw [h, h2] at h1
    cases h1
    rfl
  · rintro rfl
    rfl

/-- C02, second half. With a range end and no branch number the range end leaves no trace, so any
two such numbers with the same base share their string. -/
theorem C02_num_str_collision (n : Usize) (r r' : List Usize) :
    numStr ⟨n, [], r⟩ = numStr ⟨n, [], r'⟩ := rfl

example : numStr ⟨1, [], [3]⟩ = numStr ⟨1, [], [5]⟩ ∧
    (⟨1, [], [3]⟩ : ArticleNumber) ≠ ⟨1, [], [5]⟩ := ⟨rfl, by decide⟩

/-- C03. `from_num_str` succeeds exactly on the strings described by `Spec.Denotes`, with the
number they denote, and on every other string returns a parsing error; it never panics. -/
theorem C03_from_num_str_language (s : String) :
    (∀ a, fromNumStr s = .ok a ↔ Spec.Denotes s.toList a) ∧
    ((∃ a, fromNumStr s = .ok a) ∨ ∃ t, fromNumStr s = .err (.parsingError "usize" t)) := by
  have hp : ∀ w : List Char, (∃ ns, mapRes parseSeg (splitC '_' w) = .ok ns) ∨
      ∃ t, mapRes parseSeg (splitC '_' w) = .err (.parsingError "usize" t) := by
    intro w
    rcases mapRes_cases parseSeg (splitC '_' w) (fun x _ => parseSeg_cases x) with h | ⟨x, _, e, he, h⟩
    · exact .inl h
    · right
      rw [h]
      unfold parseSeg at he
      split at he
      · simp at he
      · cases he
        exact ⟨_, rfl⟩
  have hne : ∀ w : List Char, mapRes parseSeg (splitC '_' w) ≠ .ok [] := by
    intro w h
    rw [mapRes_eq_ok] at h
    cases hw : splitC '_' w with
    | nil => exact splitC_ne_nil _ _ hw
    | cons x xs => rw [hw] at h; cases h
  unfold fromNumStr
  generalize s.toList = l
  unfold fromNumChars
  cases hs : splitC ':' l with
  | nil => exact absurd hs (splitC_ne_nil _ _)
  | cons first others =>
    have hl : l = List.intercalate [':'] (first :: others) := by rw [← hs, intercalate_splitC]
    have hf : ':' ∉ first := splitC_not_mem (c := ':') (s := l) (by simp [hs])
    dsimp only
    constructor
    · intro a
      simp only [Res.bind_eq_ok, mapRes_parseSeg_iff]
      constructor
      · rintro ⟨ns, hns, h⟩
        cases ns with
        | nil => simp at h
        | cons b eda =>
          cases others with
          | nil =>
            simp only [Res.ok.injEq] at h
            subst h
            refine ⟨first, [], by simpa [List.intercalate] using hl, hf, hns, .inl ⟨rfl, rfl⟩⟩
          | cons second more =>
            simp only [Res.bind_eq_ok, mapRes_parseSeg_iff] at h
            obtain ⟨r, hr, h⟩ := h
            simp only [Res.ok.injEq] at h
            subst h
            have h2 : ':' ∉ second := splitC_not_mem (c := ':') (s := l) (by simp [hs])
            cases more with
            | nil =>
              refine ⟨first, ':' :: second, by simpa [List.intercalate] using hl, hf, hns,
                .inr ⟨second, [], by simp, h2, .inl rfl, hr⟩⟩
            | cons m ms =>
              refine ⟨first, ':' :: second ++ ':' :: List.intercalate [':'] (m :: ms),
                by simpa [List.intercalate] using hl, hf, hns,
                .inr ⟨second, _, rfl, h2, .inr ⟨_, rfl⟩, hr⟩⟩
      · rintro ⟨hd, tl, hlt, hhd, hn, htl⟩
        rcases htl with ⟨rfl, hr⟩ | ⟨mid, rest, rfl, hmid, hrest, hr⟩
        · rw [hlt, List.append_nil, splitC_of_not_mem hhd] at hs
          cases hs
          exact ⟨_, hn, by cases a; simp_all⟩
        · rw [hlt, List.cons_append, splitC_append _ hhd] at hs
          rcases hrest with rfl | ⟨rest, rfl⟩
          · rw [List.append_nil, splitC_of_not_mem hmid] at hs
            cases hs
            refine ⟨_, hn, ?_⟩
            simp only [Res.bind_eq_ok, mapRes_parseSeg_iff]
            exact ⟨_, hr, rfl⟩
          · rw [splitC_append _ hmid] at hs
            cases hs
            refine ⟨_, hn, ?_⟩
            simp only [Res.bind_eq_ok, mapRes_parseSeg_iff]
            exact ⟨_, hr, rfl⟩
    · rcases hp first with ⟨ns, h⟩ | ⟨t, h⟩
      · rw [h]
        cases ns with
        | nil => exact absurd h (hne first)
        | cons b eda =>
          cases others with
          | nil => exact .inl ⟨_, rfl⟩
          | cons second more =>
            rcases hp second with ⟨r, h2⟩ | ⟨t, h2⟩
            · exact .inl ⟨⟨b, eda, r⟩, by simp [h2]⟩
            · exact .inr ⟨t, by simp [h2]⟩
      · exact .inr ⟨t, by simp [h]⟩

-- "12_3:15:garbage" denotes 12の3 to 15; the tail is ignored.
example : fromNumStr "12_3:15:garbage" = .ok ⟨12, [3], [15]⟩ := by
  refine ((C03_from_num_str_language _).1 _).2 ⟨"12_3".toList, ":15:garbage".toList, by decide,
    by decide, ⟨["12".toList, "3".toList], by decide, by decide, ?_⟩,
    .inr ⟨"15".toList, ":garbage".toList, by decide, by decide, .inr ⟨"garbage".toList, by decide⟩,
      ⟨["15".toList], by decide, by decide, ?_⟩⟩⟩
  · exact .cons ⟨"12".toList, .inl rfl, by decide, by decide, by decide⟩
      (.cons ⟨"3".toList, .inl rfl, by decide, by decide, by decide⟩ .nil)
  · exact .cons ⟨"15".toList, .inl rfl, by decide, by decide, by decide⟩ .nil
example : ¬ ∃ a, fromNumStr "1__2" = .ok a := by
  rintro ⟨a, h⟩
  have : fromNumStr "1__2" = .err (.parsingError "usize" "") := by decide +kernel
  rw [this] at h
  cases h

end JLaw
