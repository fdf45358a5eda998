import Verif.Lemmas.ItemText
import Verif.Lemmas.Split

/-!
# Headings of items: properties C11 to C13
-/

namespace JLaw

open Spec

/-! ## C11 -/

/-- C11. A heading in kanji, katakana or full-width digits is read back as its number and pattern.
For kanji the crate is assumed to handle 1 to 9999, and the numbers are in this range. -/
theorem C11_item_heading_reads_back (E : Ext) (a : ArticleNumber) (p : ItemPattern) (t : List Char)
    (hp : p ∈ [.noParenKansuji, .parenKansuji, .noParenIrohaKatakana, .parenIrohaKatakana,
      .noParenZenkakuNum, .parenZenkakuNum])
    (hr : a.range_end_numbers = []) (ht : a.itemText E p = .ok t)
    (hE : p = .noParenKansuji ∨ p = .parenKansuji →
      ReadsKansuji E ∧ ∀ n ∈ components a, 1 ≤ n.val ∧ n.val ≤ 9999) :
    parseItemNumber E t = .ok (some ⟨t, a.base_number, a.eda_numbers, [], p⟩) := by
  have kansuji : ∀ paren, ReadsKansuji E → (∀ n ∈ components a, 1 ≤ n.val ∧ n.val ≤ 9999) →
      t = itemWord paren (E.kansujiStr a.base_number) ++ itemFlat (a.eda_numbers.map E.kansujiStr) →
      parseItemNumber E t = .ok (some ⟨t, a.base_number, a.eda_numbers, [],
        if paren then .parenKansuji else .noParenKansuji⟩) := by
    intro paren hK hc h
    have hn : ∀ n ∈ a.base_number :: a.eda_numbers, 1 ≤ n.val ∧ n.val ≤ 9999 := by
      intro n hn
      apply hc
      simp only [components, List.mem_append, List.mem_cons] at hn ⊢
      rcases hn with h | h <;> simp [h]
    rw [h]
    apply parse_item_text E (p := isKansuji) (p0 := isKansuji) (by simp [itemKinds]) (by decide)
      (by simp [itemKinds]) (by decide) paren
      (pat' := .noParenKansuji)
    · exact kanjiNumber_iff.mp (hK _ (hn _ (by simp)).1 (hn _ (by simp)).2).1
    · intro n h'; exact kanjiNumber_iff.mp (hK n (hn n (by simp [h'])).1 (hn n (by simp [h'])).2).1
    · exact base_kansuji hK paren (hn _ (by simp)).1 (hn _ (by simp)).2
    · intro n h'; exact base_kansuji hK false (hn n (by simp [h'])).1 (hn n (by simp [h'])).2
  have zenkaku : ∀ paren,
      t = itemWord paren (toZenkakuNum a.base_number) ++ itemFlat (a.eda_numbers.map toZenkakuNum) →
      parseItemNumber E t = .ok (some ⟨t, a.base_number, a.eda_numbers, [],
        if paren then .parenZenkakuNum else .noParenZenkakuNum⟩) := by
    intro paren h
    rw [h]
    apply parse_item_text E (p := isZenkaku) (p0 := isZenkaku) (by simp [itemKinds]) (by decide)
      (by simp [itemKinds]) (by decide) paren
      (pat' := .noParenZenkakuNum)
    · exact wideNumber_iff.mp (toZenkakuNum_wide _)
    · intro n _; exact wideNumber_iff.mp (toZenkakuNum_wide n)
    · exact base_zenkaku E paren _
    · intro n _; exact base_zenkaku E false n
  have katakana : ∀ paren,
      t = itemWord paren ((toIrohaKatakana a.base_number).getD []) ++
        itemFlat (a.eda_numbers.map fun n => (toIrohaKatakana n).getD []) →
      (∀ n ∈ a.base_number :: a.eda_numbers, toIrohaKatakana n = some ((toIrohaKatakana n).getD [])) →
      parseItemNumber E t = .ok (some ⟨t, a.base_number, a.eda_numbers, [],
        if paren then .parenIrohaKatakana else .noParenIrohaKatakana⟩) := by
    intro paren h hn
    rw [h]
    apply parse_item_text E (p := between 'ア' 'ン') (p0 := between 'ア' 'ン') (by simp [itemKinds]) (by decide)
      (by simp [itemKinds]) (by decide) paren
      (g := fun n => (toIrohaKatakana n).getD []) (pat' := .noParenIrohaKatakana)
    · have := katakana_word (hn a.base_number (by simp))
      exact ⟨this.1, this.2.1⟩
    · intro n h'
      have := katakana_word (hn n (by simp [h']))
      exact ⟨this.1, this.2.1⟩
    · exact base_katakana E paren (hn _ (by simp))
    · intro n h'; exact base_katakana E false (hn n (by simp [h']))
  simp only [List.mem_cons, List.not_mem_nil, or_false] at hp
  rcases hp with rfl | rfl | rfl | rfl | rfl | rfl
  · obtain ⟨h1, h2⟩ := hE (Or.inl rfl)
    refine kansuji false h1 h2 (itemText_words E _ false ?_ ?_ hr ht).1
    · intro n w h; cases h; rfl
    · intro n w h; cases h; exact ⟨rfl, rfl⟩
  · obtain ⟨h1, h2⟩ := hE (Or.inr rfl)
    refine kansuji true h1 h2 (itemText_words E _ true ?_ ?_ hr ht).1
    · intro n w h; cases h; rfl
    · intro n w h; cases h; exact ⟨rfl, rfl⟩
  · have h := itemText_words E _ false (g := fun n => (toIrohaKatakana n).getD []) (fun n w h => by
      rw [ItemPattern.numToStrNoParen, unwrap_eq_ok] at h; simp [h]) (fun n w h => by
      rw [ItemPattern.numToStr, unwrap_eq_ok] at h
      simp [h, itemWord, ItemPattern.numToStrNoParen, Res.unwrap]) hr ht
    exact katakana false h.1 fun n hn => unwrap_eq_ok.mp (h.2 n hn)
  · have h := itemText_words E _ true (g := fun n => (toIrohaKatakana n).getD []) (fun n w h => by
      rw [ItemPattern.numToStrNoParen, unwrap_eq_ok] at h; simp [h]) (fun n w h => by
      obtain ⟨v, hv, rfl⟩ := inParens_eq_ok h
      rw [unwrap_eq_ok] at hv
      simp [hv, ItemPattern.numToStrNoParen, Res.unwrap]) hr ht
    exact katakana true h.1 fun n hn => unwrap_eq_ok.mp (h.2 n hn)
  · refine zenkaku false (itemText_words E _ false ?_ ?_ hr ht).1
    · intro n w h; cases h; rfl
    · intro n w h; cases h; exact ⟨rfl, rfl⟩
  · refine zenkaku true (itemText_words E _ true ?_ ?_ hr ht).1
    · intro n w h; cases h; rfl
    · intro n w h; cases h; exact ⟨rfl, rfl⟩

/-- The hypotheses hold for each of the patterns. -/
example : parseItemNumber kanjiExt "（十二）の三".toList =
    .ok (some ⟨"（十二）の三".toList, 12, [3], [], .parenKansuji⟩) :=
  C11_item_heading_reads_back kanjiExt ⟨12, [3], []⟩ .parenKansuji _ (by simp) rfl
    (by decide +kernel) (fun _ => ⟨kanjiExt_reads, by simp [components]; decide⟩)

example (E : Ext) : parseItemNumber E "ノのイ".toList =
    .ok (some ⟨"ノのイ".toList, 26, [1], [], .noParenIrohaKatakana⟩) :=
  C11_item_heading_reads_back E ⟨26, [1], []⟩ .noParenIrohaKatakana _ (by simp) rfl
    rfl (by simp)

/-! ## C12 -/

/-- C12. An item number that was read never has a range. -/
theorem C12_no_item_range (E : Ext) (s : List Char) (i : ItemNumber)
    (h : parseItemNumber E s = .ok (some i)) : i.range_end_numbers = [] := by
  rw [parseItemNumber] at h
  split at h
  · cases h
  · rename_i caps hcap
    have n1 := name_none hcap (n := "base_number_2") (by decide)
    have n2 := name_none hcap (n := "eda_number_2") (by decide)
    obtain ⟨b, -, h⟩ := Res.bind_eq_ok.mp h
    obtain ⟨o, -, h⟩ := Res.bind_eq_ok.mp h
    cases o with
    | none => cases h
    | some x =>
      simp only [orNone] at h
      obtain ⟨eda, -, h⟩ := Res.bind_eq_ok.mp h
      simp only [n1, n2, Res.bind_ok, Res.ok.injEq, Option.some.injEq] at h
      rw [← h]
      rfl

/-- The end of a range is lost. -/
theorem C12_range_lost : parseItemNumber kanjiExt "一から三まで".toList =
    .ok (some ⟨"一から三まで".toList, 1, [], [], .noParenKansuji⟩) := by decide +kernel

/-! ## C13 -/

/-- C13. A line is split into a heading without blanks, blanks, and a text. Only lines with fewer
than two characters are not split. If the line has a blank then the heading is everything before the
first one, otherwise the text is the last character. -/
theorem C13_split_number (l : List Char) (hl : Trimmed l) (hn : '\n' ∉ l) :
    (splitNumber l = none ↔ l.length < 2) ∧
    ∀ h t, splitNumber l = some (h, t) → h ≠ [] ∧ t ≠ [] ∧ (∀ c ∈ h, c ∉ blanks) ∧
      (∀ c, t.head? = some c → c ∉ blanks) ∧
      ∃ bs, l = h ++ (bs ++ t) ∧ (∀ c ∈ bs, c ∈ blanks) ∧
        ((∃ c ∈ l, c ∈ blanks) → bs ≠ []) ∧ ((∀ c ∈ l, c ∉ blanks) → bs = [] ∧ t.length = 1) := by
  by_cases h2 : l.length < 2
  · rw [splitNumber_short h2]
    exact ⟨⟨fun _ => h2, fun _ => rfl⟩, by rintro h t h'; cases h'⟩
  · rcases split_cases (by omega) hl hn with ⟨h, c, rfl, hne, hh, hc, hcn⟩ |
      ⟨h, bs, t, rfl, hne, hh, hb, hbs, ht, hend, htn⟩
    · rw [splitNumber_joined hne hh hc hcn]
      refine ⟨⟨(nomatch ·), fun h => absurd h h2⟩, ?_⟩
      intro h' t' he
      simp only [Option.some.injEq, Prod.mk.injEq] at he
      obtain ⟨rfl, rfl⟩ := he
      refine ⟨hne, by simp, fun d hd => isSpace_false.mp (hh d hd), ?_, [], by simp, by simp, ?_, by simp⟩
      · intro d hd
        simp only [List.head?_cons, Option.some.injEq] at hd
        exact isSpace_false.mp (hd ▸ hc)
      · rintro ⟨d, hd, hd'⟩
        exfalso
        rcases List.mem_append.mp hd with hd | hd
        · exact isSpace_false.mp (hh d hd) hd'
        · exact isSpace_false.mp hc (List.mem_singleton.mp hd ▸ hd')
    · rw [splitNumber_blank hne hh hb hbs ht hend htn]
      refine ⟨⟨(nomatch ·), fun h => absurd h h2⟩, ?_⟩
      intro h' t' he
      simp only [Option.some.injEq, Prod.mk.injEq] at he
      obtain ⟨rfl, rfl⟩ := he
      refine ⟨hne, ht, fun d hd => isSpace_false.mp (hh d hd), ?_, bs, rfl,
        fun c hc => isSpace_iff.mp (hbs c hc), fun _ => hb, ?_⟩
      · intro d hd
        cases t with
        | nil => cases hd
        | cons e t =>
          simp only [List.head?_cons, Option.some.injEq] at hd
          exact isSpace_false.mp (hd ▸ hend)
      · intro hno
        exfalso
        obtain ⟨b, bs', rfl⟩ := List.exists_cons_of_ne_nil hb
        exact hno b (by simp) (isSpace_iff.mp (hbs b (by simp)))

example : splitNumber "第一条　 この法律は、".toList = some ("第一条".toList, "この法律は、".toList) := by
  decide +kernel

example : splitNumber "附則".toList = some ("附".toList, "則".toList) := by decide +kernel

end JLaw
