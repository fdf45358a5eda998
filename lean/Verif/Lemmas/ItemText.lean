import Verif.Lemmas.ReadItem

/-!
# Headings of items
-/

namespace JLaw

open Spec

/-- The words of branch numbers when every number has at most one text. -/
theorem edaText_words (E : Ext) (p : ItemPattern) {g : Usize → List Char}
    (hg : ∀ n w, p.numToStrNoParen E n = .ok w → w = g n) {l : List Usize} {t : List Char}
    (h : p.edaText E l = .ok t) :
    t = itemFlat (l.map g) ∧ ∀ n ∈ l, p.numToStrNoParen E n = .ok (g n) := by
  induction l generalizing t with
  | nil =>
    simp only [ItemPattern.edaText, collectRes, Res.ok.injEq] at h
    subst h
    exact ⟨rfl, by simp⟩
  | cons n l ih =>
    rw [ItemPattern.edaText, collectRes] at h
    obtain ⟨b, hb, h⟩ := Res.bind_eq_ok.mp h
    obtain ⟨w, hw, hb⟩ := Res.bind_eq_ok.mp hb
    obtain ⟨bs, hbs, h⟩ := Res.bind_eq_ok.mp h
    obtain ⟨h1, h2⟩ := ih hbs
    simp only [Res.ok.injEq] at hb h
    subst hb h h1
    have := hg n w hw
    subst this
    refine ⟨rfl, ?_⟩
    intro m hm
    rcases List.mem_cons.mp hm with rfl | hm
    · exact hw
    · exact h2 m hm

/-- The heading of a number without a range. -/
theorem itemText_words (E : Ext) (p : ItemPattern) (paren : Bool) {g : Usize → List Char}
    (hg : ∀ n w, p.numToStrNoParen E n = .ok w → w = g n)
    (hb : ∀ n w, p.numToStr E n = .ok w → w = itemWord paren (g n) ∧ p.numToStrNoParen E n = .ok (g n))
    {a : ArticleNumber} (hr : a.range_end_numbers = []) {t : List Char} (h : a.itemText E p = .ok t) :
    t = itemWord paren (g a.base_number) ++ itemFlat (a.eda_numbers.map g) ∧
    ∀ n ∈ a.base_number :: a.eda_numbers, p.numToStrNoParen E n = .ok (g n) := by
  rw [ArticleNumber.itemText, hr] at h
  obtain ⟨b, hb', h⟩ := Res.bind_eq_ok.mp h
  obtain ⟨e, he, h⟩ := Res.bind_eq_ok.mp h
  simp only [Res.ok.injEq] at h
  obtain ⟨h1, h2⟩ := edaText_words E p hg he
  obtain ⟨h3, h4⟩ := hb _ _ hb'
  refine ⟨by rw [← h, h1, h3], ?_⟩
  intro m hm
  rcases List.mem_cons.mp hm with rfl | hm
  · exact h4
  · exact h2 m hm

theorem inParens_eq_ok {r : Res (List Char)} {w : List Char} (h : inParens r = .ok w) :
    ∃ v, r = .ok v ∧ w = itemWord true v := by
  obtain ⟨v, hv, h⟩ := Res.bind_eq_ok.mp h
  simp only [Res.ok.injEq] at h
  exact ⟨v, hv, by rw [← h]; rfl⟩

theorem unwrap_eq_ok {α : Type} {o : Option α} {a : α} : Res.unwrap o = .ok a ↔ o = some a := by
  cases o <;> simp [Res.unwrap]

theorem katakana_word {n : Usize} {w : List Char} (h : toIrohaKatakana n = some w) :
    w ≠ [] ∧ w.all (between 'ア' 'ン') = true ∧ parseIrohaKatakana w = some n := by
  obtain ⟨-, -, h1, h2, -⟩ := iroha_katakana
  by_cases hn : 1 ≤ n.val ∧ n.val ≤ 47
  · obtain ⟨c, hc, hw, hp⟩ := h1 n hn.1 hn.2
    rw [h] at hw
    cases hw
    refine ⟨by simp, ?_, hp⟩
    have : c ∈ irohaKatakana := List.mem_of_getElem? hc
    simp only [List.all_cons, List.all_nil, Bool.and_true]
    exact (by decide +kernel : ∀ c ∈ irohaKatakana, between 'ア' 'ン' c = true) c this
  · rw [h2 n (by omega)] at h; cases h

theorem hiragana_word {n : Usize} {w : List Char} (h : toIrohaHiragana n = some w) :
    w ≠ [] ∧ w.all (between 'あ' 'ん') = true ∧ parseIrohaHiragana w = some n := by
  obtain ⟨-, -, h1, h2, -⟩ := iroha_hiragana
  by_cases hn : 1 ≤ n.val ∧ n.val ≤ 47
  · obtain ⟨c, hc, hw, hp⟩ := h1 n hn.1 hn.2
    rw [h] at hw
    cases hw
    refine ⟨by simp, ?_, hp⟩
    have : c ∈ irohaHiragana := List.mem_of_getElem? hc
    simp only [List.all_cons, List.all_nil, Bool.and_true]
    exact (by decide +kernel : ∀ c ∈ irohaHiragana, between 'あ' 'ん' c = true) c this
  · rw [h2 n (by omega)] at h; cases h

/-- Reading one number in katakana. -/
theorem base_katakana (E : Ext) (paren : Bool) {n : Usize} {w : List Char}
    (h : toIrohaKatakana n = some w) : parseItemNumberBase E (itemWord paren w) =
      .ok (some (if paren then .parenIrohaKatakana else .noParenIrohaKatakana, n)) := by
  obtain ⟨hne, hall, hp⟩ := katakana_word h
  cases paren with
  | false =>
    rw [parseItemNumberBase_eq E (n := "no_paren_iroha_katakana") false (by simp [noParenNames]) hne hall
      (f := fun s => (Res.unwrap (parseIrohaKatakana s)).bind fun n => .ok (.noParenIrohaKatakana, n))
      fun _ _ => rfl, hp]
    rfl
  | true =>
    rw [parseItemNumberBase_eq E (n := "paren_iroha_katakana") true (by simp [parenNames]) hne hall
      (f := fun s => (Res.unwrap (parseIrohaKatakana s)).bind fun n => .ok (.parenIrohaKatakana, n))
      fun _ _ => rfl, hp]
    rfl

/-- Reading one number in kanji. -/
theorem base_kansuji {E : Ext} (hE : ReadsKansuji E) (paren : Bool) {n : Usize} (h1 : 1 ≤ n.val)
    (h2 : n.val ≤ 9999) : parseItemNumberBase E (itemWord paren (E.kansujiStr n)) =
      .ok (some (if paren then .parenKansuji else .noParenKansuji, n)) := by
  obtain ⟨hk, hr⟩ := hE n h1 h2
  obtain ⟨hne, hall⟩ := kanjiNumber_iff.mp hk
  have hu : E.kansujiUsize (E.kansujiStr n) = some n := by
    rw [Ext.kansujiUsize, hr]
    simp only [Option.map_some, Option.some.injEq]
    exact Fin.ext (Nat.mod_eq_of_lt n.isLt)
  cases paren with
  | false =>
    rw [parseItemNumberBase_eq E (n := "no_paren_kansuji") false (by simp [noParenNames]) hne hall
      (f := fun s => (Res.unwrap (E.kansujiUsize s)).bind fun n => .ok (.noParenKansuji, n))
      fun _ _ => rfl, hu]
    rfl
  | true =>
    rw [parseItemNumberBase_eq E (n := "paren_kansuji") true (by simp [parenNames]) hne hall
      (f := fun s => (Res.unwrap (E.kansujiUsize s)).bind fun n => .ok (.parenKansuji, n))
      fun _ _ => rfl, hu]
    rfl

/-- Reading one number in full-width digits. -/
theorem base_zenkaku (E : Ext) (paren : Bool) (n : Usize) :
    parseItemNumberBase E (itemWord paren (toZenkakuNum n)) =
      .ok (some (if paren then .parenZenkakuNum else .noParenZenkakuNum, n)) := by
  obtain ⟨hne, hall⟩ := wideNumber_iff.mp (toZenkakuNum_wide n)
  cases paren with
  | false =>
    rw [parseItemNumberBase_eq E (n := "no_paren_zenkaku_num") false (by simp [noParenNames]) hne hall
      (f := fun s => (Res.unwrap (parseZenkakuNum s)).bind fun n => .ok (.noParenZenkakuNum, n))
      fun _ _ => rfl, parse_toZenkakuNum]
    rfl
  | true =>
    rw [parseItemNumberBase_eq E (n := "paren_zenkaku_num") true (by simp [parenNames]) hne hall
      (f := fun s => (Res.unwrap (parseZenkakuNum s)).bind fun n => .ok (.parenZenkakuNum, n))
      fun _ _ => rfl, parse_toZenkakuNum]
    rfl

/-- Reading one number in hiragana. -/
theorem base_hiragana (E : Ext) (paren : Bool) {w : List Char} (hne : w ≠ [])
    (hall : w.all (between 'あ' 'ん') = true) : parseItemNumberBase E (itemWord paren w) =
      (Res.unwrap (parseIrohaHiragana w)).bind fun n =>
        .ok (some (if paren then .parenIrohaHiragana else .noParenIrohaHiragana, n)) := by
  cases paren with
  | false =>
    rw [parseItemNumberBase_eq E (n := "no_paren_iroha_hiragana") false (by simp [noParenNames]) hne hall
      (f := fun s => (Res.unwrap (parseIrohaHiragana s)).bind fun n => .ok (.noParenIrohaHiragana, n))
      fun _ _ => rfl, Res.bind_assoc]
    rfl
  | true =>
    rw [parseItemNumberBase_eq E (n := "paren_iroha_hiragana") true (by simp [parenNames]) hne hall
      (f := fun s => (Res.unwrap (parseIrohaHiragana s)).bind fun n => .ok (.parenIrohaHiragana, n))
      fun _ _ => rfl, Res.bind_assoc]
    rfl

end JLaw
