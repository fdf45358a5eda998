import Verif.Lemmas.LineKinds
import Verif.Lemmas.Kansuji
import Verif.Props.NumText
import Verif.Props.Items

/-!
# Which kind a line of a text has (C64 to C66)
-/

namespace JLaw

open Spec

/-! ## C64 -/

/-- C64. A line is a caption exactly when it is something in parentheses, without a closing
parenthesis in it. -/
theorem C64_caption (E : Ext) (line s : List Char) :
    parseLineContents E line = .ok (.caption s) ↔ Captioned line s := by
  refine ⟨fun h => ?_, line_caption⟩
  rw [parseLineContents] at h
  split at h
  · rename_i caps hcap
    obtain ⟨s', he, hne, hs, rfl⟩ := (caption_iff _ _).mp hcap
    simp only [Caps.name, List.reverse_cons, List.reverse_nil, List.nil_append, List.lookup_cons,
      beq_self_eq_true, Res.unwrap, Res.bind_ok, Res.ok.injEq, TextLine.caption.injEq] at h
    subst h
    obtain ⟨pre, post, hl, h1, h2⟩ := trim_blank line
    rw [he] at hl
    exact ⟨pre, post, hl, h1, h2, hne, hs⟩
  · split at h
    · obtain ⟨o, -, h⟩ := Res.bind_eq_ok.mp h
      cases o with
      | some m =>
        simp only [lineOfNumber] at h
        repeat' split at h
        all_goals cases h
      | none =>
        obtain ⟨o, -, h⟩ := Res.bind_eq_ok.mp h
        cases o <;> cases h
    · split at h <;> cases h

/-- C64. A line with the heading of a part, chapter, section, subsection, division or article, blanks,
and a text is read as what it says. -/
theorem C64_headings (E : Ext) (hE : ReadsKansuji E) (a : ArticleNumber)
    (ha : ∀ n ∈ components a, 1 ≤ n.val ∧ n.val ≤ 9999) (line t : List Char) :
    (Headed line (a.partText E) t → parseLineContents E line = .ok (.part a t)) ∧
    (Headed line (a.chapterText E) t → parseLineContents E line = .ok (.chapter a t)) ∧
    (Headed line (a.sectionText E) t → parseLineContents E line = .ok (.section_ a t)) ∧
    (Headed line (a.subsectionText E) t → parseLineContents E line = .ok (.subsection a t)) ∧
    (Headed line (a.divisionText E) t → parseLineContents E line = .ok (.division a t)) ∧
    (Headed line (a.articleText E) t → parseLineContents E line = .ok (.article a t)) := by
  have key : ∀ u ∈ units, Headed line (a.genArticlesText E u) t → parseLineContents E line =
      .ok (if '編' = u then .part a t else if '章' = u then .chapter a t
        else if '節' = u then .section_ a t else if '款' = u then .subsection a t
        else if '目' = u then .division a t else if '条' = u then .article a t
        else .paragraph a t) := by
    intro u hu hl
    rw [line_of_heading hE ha hu hl]
    have hc : ∀ v ∈ units, (a.genArticlesText E u).contains v = (v == u) := fun v hv =>
      genArticlesText_contains hE ha hu hv
    simp only [lineOfNumber, hc '編' (by decide), hc '章' (by decide), hc '節' (by decide),
      hc '款' (by decide), hc '目' (by decide), hc '条' (by decide), beq_iff_eq]
  exact ⟨key '編' (by decide), key '章' (by decide), key '節' (by decide), key '款' (by decide),
    key '目' (by decide), key '条' (by decide)⟩

/-- C64. A line with the heading of a paragraph in full-width digits is read as a paragraph; of a
range only the first number of its end is kept. -/
theorem C64_paragraph (E : Ext) (a : ArticleNumber) (line t : List Char)
    (hl : Headed line a.paragraphText t) :
    parseLineContents E line =
      .ok (.paragraph ⟨a.base_number, a.eda_numbers, a.range_end_numbers.take 1⟩ t) := by
  have hz : ∀ n : Usize, ∀ c ∈ toZenkakuNum n, isZenkaku c = true := fun n c hc =>
    List.all_eq_true.mp (wideNumber_iff.mp (toZenkakuNum_wide n)).2 c hc
  have heda : ∀ l c, c ∈ edaText toZenkakuNum l → isZenkaku c = true ∨ c = 'の' := by
    intro l c hc
    simp only [edaText, List.mem_flatMap, List.mem_cons] at hc
    obtain ⟨n, -, h | h⟩ := hc
    · exact Or.inr h
    · exact Or.inl (hz n c h)
  have hmem : ∀ c ∈ a.paragraphText, isZenkaku c = true ∨ c ∈ ['の', 'か', 'ら', 'ま', 'で'] := by
    intro c hc
    simp only [ArticleNumber.paragraphText, List.mem_append] at hc
    rcases hc with (h | h) | h
    · exact Or.inl (hz _ c h)
    · rcases heda _ c h with h | h
      · exact Or.inl h
      · simp [h]
    · cases hr : a.range_end_numbers with
      | nil => rw [hr] at h; cases h
      | cons n l =>
        rw [hr] at h
        simp only [List.mem_append, List.mem_cons, List.not_mem_nil, or_false] at h
        rcases h with (((h | h) | h) | h) | h | h
        · simp [h]
        · simp [h]
        · exact Or.inl (hz _ c h)
        · rcases heda _ c h with h | h
          · exact Or.inl h
          · simp [h]
        · simp [h]
        · simp [h]
  have hno : ∀ u, u ∈ units → a.paragraphText.contains u = false := by
    intro u hu
    rw [← Bool.not_eq_true, List.contains_iff_mem]
    intro hm
    have hd : ∀ u ∈ units, isZenkaku u = false ∧ u ∉ ['の', 'か', 'ら', 'ま', 'で'] := by decide
    rcases hmem u hm with h | h
    · rw [(hd u hu).1] at h; cases h
    · exact (hd u hu).2 h
  have hhead : a.paragraphText.head? ≠ some '（' := by
    intro h
    have hm := List.mem_of_mem_head? h
    rcases hmem _ hm with h | h
    · exact absurd h (by decide)
    · exact absurd h (by decide)
  rw [line_headed hl (Or.inl hhead), afterSplit, C09_paragraph_text_read]
  simp only [Res.bind_ok, lineOfNumber, hno '編' (by decide), hno '章' (by decide),
    hno '節' (by decide), hno '款' (by decide), hno '目' (by decide), hno '条' (by decide),
    Bool.false_eq_true, if_false]

/-- C64. A line with a heading that is read as an item number is an item with this number, unless the
heading starts with a full-width digit. -/
theorem C64_item (E : Ext) (line h t : List Char) (n : ItemNumber) (hl : Headed line h t)
    (hi : parseItemNumber E h = .ok (some n))
    (hz : ∀ c, h.head? = some c → ¬ ('０'.toNat ≤ c.toNat ∧ c.toNat ≤ '９'.toNat)) :
    parseLineContents E line = .ok (.item n t) := by
  apply line_item hl hi
  cases h with
  | nil => trivial
  | cons c h =>
    have := hz c rfl
    simp only [Ends, isZenkaku, between]
    rw [← Bool.not_eq_true, Bool.and_eq_true, decide_eq_true_eq, decide_eq_true_eq]
    exact this

/-- C64. A line with an item heading in plain full-width digits is a paragraph, never an item. -/
theorem C64_digit_items_are_paragraphs (E : Ext) (a : ArticleNumber) (hr : a.range_end_numbers = [])
    (h line t : List Char) (hh : a.itemText E .noParenZenkakuNum = .ok h) (hl : Headed line h t) :
    parseLineContents E line = .ok (.paragraph a t) := by
  have : h = a.paragraphText := by
    obtain ⟨h1, -⟩ := itemText_words E .noParenZenkakuNum false (g := toZenkakuNum)
      (fun n w h => by cases h; rfl) (fun n w h => by cases h; exact ⟨rfl, rfl⟩) hr hh
    rw [h1, ArticleNumber.paragraphText, hr, List.append_nil, edaText_flat, itemFlat, List.map_map]
    rfl
  subst this
  have := C64_paragraph E a line t hl
  rw [this, hr]
  obtain ⟨b, e, r⟩ := a
  cases hr
  rfl

/-- The lines of the conformance test of the crate are of this shape. -/
example : parseLineContents kanjiExt "  第二条の二　この法律は".toList =
    .ok (.article ⟨2, [2], []⟩ "この法律は".toList) := by
  refine (C64_headings kanjiExt kanjiExt_reads ⟨2, [2], []⟩ (by simp [components])
    "  第二条の二　この法律は".toList "この法律は".toList).2.2.2.2.2 ?_
  exact ⟨"  ".toList, "　".toList, [], by decide +kernel, by unfold Blank; decide +kernel,
    by unfold Blank; decide, ⟨by decide +kernel, by decide +kernel⟩,
    ⟨by decide, by unfold Blank; decide +kernel⟩, by decide,
    ⟨by decide +kernel, by decide +kernel⟩, by decide +kernel⟩

example : parseLineContents kanjiExt "　（公共の福祉）　".toList = .ok (.caption "公共の福祉".toList) :=
  (C64_caption _ _ _).mpr ⟨"　".toList, "　".toList, by decide +kernel, by unfold Blank; decide +kernel,
    by unfold Blank; decide +kernel, by decide, by decide +kernel⟩

example (E : Ext) : parseLineContents E "２　権利の行使".toList =
    .ok (.paragraph ⟨2, [], []⟩ "権利の行使".toList) := by
  apply C64_paragraph E ⟨2, [], []⟩
  refine ⟨[], "　".toList, [], by decide +kernel, by unfold Blank; decide, by unfold Blank; decide,
    ⟨by decide +kernel, by decide +kernel⟩, ⟨by decide, by unfold Blank; decide +kernel⟩,
    by decide, ⟨by decide +kernel, by decide +kernel⟩, by decide +kernel⟩

example (E : Ext) : parseLineContents E "イ　甲".toList =
    .ok (.item ⟨"イ".toList, 1, [], [], .noParenIrohaKatakana⟩ "甲".toList) := by
  apply C64_item E _ "イ".toList
  · refine ⟨[], "　".toList, [], by decide +kernel, by unfold Blank; decide, by unfold Blank; decide,
      ⟨by decide +kernel, by decide +kernel⟩, ⟨by decide, by unfold Blank; decide +kernel⟩,
      by decide, ⟨by decide +kernel, by decide +kernel⟩, by decide +kernel⟩
  · exact C11_item_heading_reads_back E ⟨1, [], []⟩ .noParenIrohaKatakana _ (by simp) rfl rfl (by simp)
  · decide +kernel

/-! ## C65 -/

/-- The text after the heading of a line. -/
def Spec.afterHeading : TextLine → Option (List Char)
  | .part _ t | .chapter _ t | .section_ _ t | .subsection _ t | .division _ t | .article _ t
  | .paragraph _ t | .item _ t => some t
  | .caption _ | .suppl _ | .text _ => none

/-- C65. A line without blanks in it is a caption or a text without heading, or nothing but its last
character is kept as the text after the heading. -/
theorem C65_unbroken_line (E : Ext) (line h : List Char) (c : Char) (l : TextLine)
    (hl : Unbroken line h c) (hp : parseLineContents E line = .ok l) :
    (∃ s, l = .caption s) ∨ l = .text (h ++ [c]) ∨ afterHeading l = some [c] := by
  by_cases hcap : ∃ s, Captioned line s
  · obtain ⟨s, hs⟩ := hcap
    rw [line_caption hs] at hp
    cases hp
    exact Or.inl ⟨s, rfl⟩
  · rw [line_unbroken hl fun s hs => hcap ⟨s, hs⟩, afterSplit] at hp
    obtain ⟨o, -, hp⟩ := Res.bind_eq_ok.mp hp
    right
    cases o with
    | some m =>
      right
      simp only [lineOfNumber] at hp
      repeat' split at hp
      all_goals (cases hp; rfl)
    | none =>
      obtain ⟨o, -, hp⟩ := Res.bind_eq_ok.mp hp
      cases o with
      | some n => cases hp; exact Or.inr rfl
      | none => cases hp; left; rw [unbroken_trim hl]

/-- C65. So the text of an article is lost but for its last character when there is no blank after the
heading: `y` is gone. -/
theorem C65_article_without_blank (E : Ext) (hE : ReadsKansuji E) (a : ArticleNumber)
    (ha : ∀ n ∈ components a, 1 ≤ n.val ∧ n.val ≤ 9999) (hr : a.range_end_numbers = [])
    (y : List Char) (c : Char) (line : List Char)
    (hy : ∀ d, y.head? = some d → d ∉ kanji ∧ d ≠ 'の' ∧ d ≠ 'ノ' ∧ d ≠ 'か')
    (hu : ∀ d ∈ ['編', '章', '節', '款', '目'], d ∉ y)
    (hl : Unbroken line (a.articleText E ++ y) c) :
    parseLineContents E line = .ok (.article a [c]) := by
  have hcap : ∀ s, ¬ Captioned line s := by
    intro s hs
    have h1 := captioned_trim hs
    rw [unbroken_trim hl] at h1
    simp [ArticleNumber.articleText, ArticleNumber.genArticlesText] at h1
  rw [line_unbroken hl hcap, afterSplit, ArticleNumber.articleText,
    genArticlesText_prefix hE ha (by decide) hr hy]
  have hc : ∀ v ∈ units, (v = '条' ∨ v ∉ y) →
      (a.genArticlesText E '条' ++ y).contains v = (v == '条') := by
    intro v hv h
    rw [Bool.eq_iff_iff, List.contains_iff_mem, List.mem_append, ← List.contains_iff_mem,
      genArticlesText_contains hE ha (by decide) hv]
    rcases h with rfl | h
    · simp
    · simp [h]
  simp only [Res.bind_ok, lineOfNumber, hc '編' (by decide) (Or.inr (hu _ (by decide))),
    hc '章' (by decide) (Or.inr (hu _ (by decide))), hc '節' (by decide) (Or.inr (hu _ (by decide))),
    hc '款' (by decide) (Or.inr (hu _ (by decide))), hc '目' (by decide) (Or.inr (hu _ (by decide))),
    hc '条' (by decide) (Or.inl rfl), beq_iff_eq]
  rfl

/-- C65. And when the lost text mentions a purpose (`目的`), an aim (`目標`), an item (`項目`) or anything
else with the unit of divisions, but no larger unit, the article becomes a division. -/
theorem C65_article_becomes_division (E : Ext) (hE : ReadsKansuji E) (a : ArticleNumber)
    (ha : ∀ n ∈ components a, 1 ≤ n.val ∧ n.val ≤ 9999) (hr : a.range_end_numbers = [])
    (y : List Char) (c : Char) (line : List Char)
    (hy : ∀ d, y.head? = some d → d ∉ kanji ∧ d ≠ 'の' ∧ d ≠ 'ノ' ∧ d ≠ 'か')
    (hu : ∀ d ∈ ['編', '章', '節', '款'], d ∉ y) (hm : '目' ∈ y)
    (hl : Unbroken line (a.articleText E ++ y) c) :
    parseLineContents E line = .ok (.division a [c]) := by
  have hcap : ∀ s, ¬ Captioned line s := by
    intro s hs
    have h1 := captioned_trim hs
    rw [unbroken_trim hl] at h1
    simp [ArticleNumber.articleText, ArticleNumber.genArticlesText] at h1
  rw [line_unbroken hl hcap, afterSplit, ArticleNumber.articleText,
    genArticlesText_prefix hE ha (by decide) hr hy]
  have hc : ∀ v ∈ units, v ∉ y →
      (a.genArticlesText E '条' ++ y).contains v = (v == '条') := by
    intro v hv h
    rw [Bool.eq_iff_iff, List.contains_iff_mem, List.mem_append, ← List.contains_iff_mem,
      genArticlesText_contains hE ha (by decide) hv]
    simp [h]
  have hm' : (a.genArticlesText E '条' ++ y).contains '目' = true := by
    rw [List.contains_iff_mem]; simp [hm]
  simp only [Res.bind_ok, lineOfNumber, hc '編' (by decide) (hu _ (by decide)),
    hc '章' (by decide) (hu _ (by decide)), hc '節' (by decide) (hu _ (by decide)),
    hc '款' (by decide) (hu _ (by decide)), hm', beq_iff_eq]
  rfl

/-- The purpose clause of an article, without a blank: an article about the purpose of a law becomes a
division whose title is a full stop. -/
example : parseLineContents kanjiExt "第一条この法律は、国民の福祉を目的とする。".toList =
    .ok (.division ⟨1, [], []⟩ "。".toList) :=
  C65_article_becomes_division kanjiExt kanjiExt_reads ⟨1, [], []⟩ (by simp [components]) rfl
    "この法律は、国民の福祉を目的とする".toList '。' _ (by decide +kernel) (by decide +kernel)
    (by decide +kernel)
    ⟨[], [], by decide +kernel, by unfold Blank; decide, by unfold Blank; decide, by decide +kernel,
      by decide +kernel⟩

example : parseLineContents kanjiExt "第九条私権は、公共の福祉に適合する。".toList =
    .ok (.article ⟨9, [], []⟩ "。".toList) :=
  C65_article_without_blank kanjiExt kanjiExt_reads ⟨9, [], []⟩ (by simp [components]; decide) rfl
    "私権は、公共の福祉に適合する".toList '。' _ (by decide +kernel) (by decide +kernel)
    ⟨[], [], by decide +kernel, by unfold Blank; decide, by unfold Blank; decide, by decide +kernel,
      by decide +kernel⟩

/-! ## C66 -/

/-- Katakana from `ア` to `ン`. -/
def Spec.Katakana (w : List Char) : Prop :=
  w ≠ [] ∧ ∀ c ∈ w, 'ア'.toNat ≤ c.toNat ∧ c.toNat ≤ 'ン'.toNat

/-- Hiragana from `あ` to `ん`. -/
def Spec.Hiragana (w : List Char) : Prop :=
  w ≠ [] ∧ ∀ c ∈ w, 'あ'.toNat ≤ c.toNat ∧ c.toNat ≤ 'ん'.toNat

theorem kana_all {a b : Char} {w : List Char}
    (h : ∀ c ∈ w, a.toNat ≤ c.toNat ∧ c.toNat ≤ b.toNat) : w.all (between a b) = true := by
  rw [List.all_eq_true]
  intro c hc
  simpa only [between, Bool.and_eq_true, decide_eq_true_eq] using h c hc

/-- C66. A line that starts with a word in katakana and a blank, or consists of such a word and one
more character, makes the reader panic, unless the word is a single character of the iroha order. -/
theorem C66_katakana_word_panics (E : Ext) (line w : List Char) (hw : Katakana w)
    (hl : (∃ t, Headed line w t) ∨ ∃ c, Unbroken line w c) :
    parseLineContents E line = .panic ↔ ¬ ∃ c ∈ irohaKatakana, w = [c] := by
  have hp : between 'ア' 'ン' ∈ itemKinds := by simp [itemKinds]
  have hz : between 'ア' 'ン' ≠ isZenkaku := fun h => by
    have := congrFun h 'ア'
    exact absurd this (by decide)
  have hall := kana_all hw.2
  have hl' : ∃ t, Headed line w t ∨ ∃ c, t = [c] ∧ Unbroken line w c := by
    rcases hl with ⟨t, h⟩ | ⟨c, h⟩
    · exact ⟨t, Or.inl h⟩
    · exact ⟨[c], Or.inr ⟨c, rfl, h⟩⟩
  obtain ⟨t, hl⟩ := hl'
  rw [line_word hp hz hw.1 hall hl]
  have hb : parseItemNumberBase E (itemWord false w) =
      (Res.unwrap (parseIrohaKatakana w)).bind fun n => .ok (some (.noParenIrohaKatakana, n)) := by
    rw [parseItemNumberBase_eq E (n := "no_paren_iroha_katakana") false (by simp [noParenNames]) hw.1
      hall (f := fun s => (Res.unwrap (parseIrohaKatakana s)).bind fun n =>
        .ok (.noParenIrohaKatakana, n)) fun _ _ => rfl, Res.bind_assoc]
    rfl
  have hs := parse_single E hp false hw.1 hall
  rw [hb] at hs
  have hs' : parseItemNumber E w = _ := hs
  rw [hs']
  obtain ⟨hlen, -, h1, -, h2⟩ := iroha_katakana
  cases hr : parseIrohaKatakana w with
  | some n =>
    simp only [Res.unwrap, Res.bind_ok, Option.map_some]
    refine ⟨(nomatch ·), fun h => absurd ?_ h⟩
    obtain ⟨g1, g2, g3⟩ := h2 w n hr
    obtain ⟨c, hc, hc', -⟩ := h1 n g1 g2
    rw [g3] at hc'
    exact ⟨c, List.mem_of_getElem? hc, by simpa using hc'⟩
  | none =>
    simp only [Res.unwrap, Res.bind, true_iff]
    rintro ⟨c, hc, rfl⟩
    obtain ⟨i, hi, rfl⟩ := List.mem_iff_getElem.mp hc
    have hi' : i < 47 := hlen ▸ hi
    have hv : (asUsize (i + 1)).val = i + 1 := Nat.mod_eq_of_lt (by omega)
    obtain ⟨c, g1, -, g3⟩ := h1 (asUsize (i + 1)) (by omega) (by omega)
    rw [hv, Nat.add_sub_cancel, List.getElem?_eq_getElem hi, Option.some.injEq] at g1
    rw [← g1, hr] at g3
    cases g3

/-- C66. The same for hiragana. -/
theorem C66_hiragana_word_panics (E : Ext) (line w : List Char) (hw : Hiragana w)
    (hl : (∃ t, Headed line w t) ∨ ∃ c, Unbroken line w c) :
    parseLineContents E line = .panic ↔ ¬ ∃ c ∈ irohaHiragana, w = [c] := by
  have hp : between 'あ' 'ん' ∈ itemKinds := by simp [itemKinds]
  have hz : between 'あ' 'ん' ≠ isZenkaku := fun h => by
    have := congrFun h 'あ'
    exact absurd this (by decide)
  have hall := kana_all hw.2
  have hl' : ∃ t, Headed line w t ∨ ∃ c, t = [c] ∧ Unbroken line w c := by
    rcases hl with ⟨t, h⟩ | ⟨c, h⟩
    · exact ⟨t, Or.inl h⟩
    · exact ⟨[c], Or.inr ⟨c, rfl, h⟩⟩
  obtain ⟨t, hl⟩ := hl'
  rw [line_word hp hz hw.1 hall hl]
  have hs := parse_single E hp false hw.1 hall
  rw [base_hiragana E false hw.1 hall] at hs
  have hs' : parseItemNumber E w = _ := hs
  rw [hs']
  obtain ⟨hlen, -, h1, -, h2⟩ := iroha_hiragana
  cases hr : parseIrohaHiragana w with
  | some n =>
    simp only [Res.unwrap, Res.bind_ok, Option.map_some]
    refine ⟨(nomatch ·), fun h => absurd ?_ h⟩
    obtain ⟨g1, g2, g3⟩ := h2 w n hr
    obtain ⟨c, hc, hc', -⟩ := h1 n g1 g2
    rw [g3] at hc'
    exact ⟨c, List.mem_of_getElem? hc, by simpa using hc'⟩
  | none =>
    simp only [Res.unwrap, Res.bind, true_iff]
    rintro ⟨c, hc, rfl⟩
    obtain ⟨i, hi, rfl⟩ := List.mem_iff_getElem.mp hc
    have hi' : i < 47 := hlen ▸ hi
    have hv : (asUsize (i + 1)).val = i + 1 := Nat.mod_eq_of_lt (by omega)
    obtain ⟨c, g1, -, g3⟩ := h1 (asUsize (i + 1)) (by omega) (by omega)
    rw [hv, Nat.add_sub_cancel, List.getElem?_eq_getElem hi, Option.some.injEq] at g1
    rw [← g1, hr] at g3
    cases g3

/-- Lines end in a panic or a kind. -/
theorem okOrPanic_line (E : Ext) (line : List Char) : OkOrPanic (parseLineContents E line) := by
  have hbase : ∀ w, OkOrPanic (parseItemNumberBase E w) := by
    intro w
    rw [parseItemNumberBase]
    split
    · rename_i caps _
      refine OkOrPanic.bind ?_ fun _ => okOrPanic_ok _
      have : ∀ l : List (String × (List Char → Res (ItemPattern × Usize))),
          (∀ x ∈ l, ∀ s, OkOrPanic (x.2 s)) → OkOrPanic (firstBranch caps l) := by
        intro l
        induction l with
        | nil => intro _; exact Or.inl rfl
        | cons x l ih =>
          intro h
          obtain ⟨n, f⟩ := x
          rw [firstBranch]
          split
          · exact h (n, f) (by simp) _
          · exact ih fun y hy => h y (by simp [hy])
      apply this
      intro x hx s
      have hu : ∀ (o : Option Usize) (p : ItemPattern),
          OkOrPanic ((Res.unwrap o).bind fun n => (Res.ok (p, n) : Res (ItemPattern × Usize))) :=
        fun o p => OkOrPanic.bind (okOrPanic_unwrap o) fun _ => okOrPanic_ok _
      have hl : ∀ p q, OkOrPanic (readLetters E p q s) := by
        intro p q
        rw [readLetters]
        split
        · exact hu _ _
        · exact hu _ _
      simp only [itemBranches, List.mem_cons, List.not_mem_nil, or_false] at hx
      rcases hx with rfl | rfl | rfl | rfl | rfl | rfl | rfl | rfl | rfl | rfl | rfl | rfl
      all_goals first | exact hu _ _ | exact hl _ _
    · exact okOrPanic_ok _
  have hcollect : ∀ s, OkOrPanic (itemEda E s) := by
    intro s
    rw [itemEda]
    induction noPieces s with
    | nil => exact okOrPanic_ok _
    | cons w l ih =>
      exact OkOrPanic.bind (OkOrPanic.bind (hbase w) fun _ => okOrPanic_ok _) fun _ =>
        OkOrPanic.bind ih fun _ => okOrPanic_ok _
  have hitem : ∀ s, OkOrPanic (parseItemNumber E s) := by
    intro s
    rw [parseItemNumber]
    split
    · exact okOrPanic_ok _
    · refine OkOrPanic.bind (okOrPanic_unwrap _) fun b => OkOrPanic.bind (hbase b) fun o =>
        OkOrPanic.orNone fun x => OkOrPanic.bind ?_ fun _ => OkOrPanic.bind ?_ fun _ =>
        OkOrPanic.bind ?_ fun _ => okOrPanic_ok _
      · split
        · exact hcollect _
        · exact okOrPanic_ok _
      · split
        · exact OkOrPanic.bind (hbase _) fun _ => okOrPanic_ok _
        · exact okOrPanic_ok _
      · split
        · exact hcollect _
        · exact okOrPanic_ok _
  rw [parseLineContents]
  split
  · exact OkOrPanic.bind (okOrPanic_unwrap _) fun _ => okOrPanic_ok _
  · split
    · refine OkOrPanic.bind (okOrPanic_parse E _) fun o => ?_
      cases o with
      | some m => exact okOrPanic_ok _
      | none =>
        refine OkOrPanic.bind (hitem _) fun o => ?_
        cases o <;> exact okOrPanic_ok _
    · split <;> exact okOrPanic_ok _

theorem line_trim (E : Ext) {l l' : List Char} (h : trim l = trim l') :
    parseLineContents E l = parseLineContents E l' := by
  rw [parseLineContents, parseLineContents, h]

theorem trim_stripCR (s : List Char) : trim (stripCR s) = trim s := by
  rw [stripCR]
  split
  · rename_i h
    have hne : s ≠ [] := by rintro rfl; cases h
    have hd : s = s.dropLast ++ ['\r'] := by
      conv => lhs; rw [← List.dropLast_append_getLast hne]
      rw [List.getLast?_eq_some_getLast hne, Option.some.injEq] at h
      rw [h]
    obtain ⟨pre, post, he, h1, h2⟩ := trim_blank s.dropLast
    by_cases ht : trim s.dropLast = []
    · rw [ht, List.append_nil] at he
      rw [ht, hd]
      have : ∀ c ∈ s.dropLast ++ ['\r'], isSpace c = true := by
        intro c hc
        rw [he] at hc
        simp only [List.mem_append, List.mem_singleton] at hc
        rcases hc with (hc | hc) | hc
        · exact isSpace_iff.mpr (h1 c hc)
        · exact isSpace_iff.mpr (h2 c hc)
        · subst hc; rfl
      have h0 : (s.dropLast ++ ['\r']).dropWhile isSpace = [] := by
        simpa using List.dropWhile_append_of_pos (l₂ := []) this
      rw [trim, h0]
      rfl
    · conv => rhs; rw [hd, he, List.append_assoc]
      refine (trim_around h1 (post := post ++ ['\r']) ?_ ht (trimmed_trim _)).symm
      intro c hc
      simp only [List.mem_append, List.mem_singleton] at hc
      rcases hc with hc | rfl
      · exact h2 c hc
      · decide
  · rfl

theorem mem_linesOf_of {segs : List (List Char)} {l : List Char} (h : l ∈ segs) (hne : l ≠ []) :
    ∃ l' ∈ linesOf segs, trim l' = trim l := by
  induction segs with
  | nil => cases h
  | cons s segs ih =>
    cases segs with
    | nil =>
      rw [List.mem_singleton] at h
      subst h
      exact ⟨l, by simp [linesOf, hne], rfl⟩
    | cons s' segs =>
      simp only [linesOf]
      rcases List.mem_cons.mp h with rfl | h
      · exact ⟨_, by simp, trim_stripCR l⟩
      · obtain ⟨l', h1, h2⟩ := ih h
        exact ⟨l', by simp [h1], h2⟩

/-- C66. One such line anywhere in a text is enough: `parse_text` panics, whatever its other arguments
are. -/
theorem C66_text_panics (d : Nat) (E : Ext) (cal : Calendar) (fuel : Nat) (before after : List (List Char))
    (line : List Char) (hn : ∀ l ∈ before ++ line :: after, '\n' ∉ l)
    (hp : parseLineContents E line = .panic) (year : Usize) (month day : Option Usize)
    (lawType : LawType) (lang : Lang) (num : Option ArticleNumber) (lawNum : String)
    (title : List Char) :
    (parseText E cal fuel (List.intercalate ['\n'] (before ++ line :: after)) year month day lawType
      lang num lawNum title : Res (Option (Law (lvl d)))) = .panic := by
  have hne : line ≠ [] := by
    rintro rfl
    have : parseLineContents E [] = .ok (.text []) := by
      rw [parseLineContents, show trim [] = [] from rfl]
      have h1 : reCaption.captures [] = none := by
        cases h : reCaption.captures [] with
        | none => rfl
        | some caps => obtain ⟨s, he, _⟩ := (caption_iff _ _).mp h; cases he
      rw [h1, splitNumber_short (by simp), reSuppl_short (by simp)]
    rw [this] at hp
    cases hp
  have hread : readLines E (List.intercalate ['\n'] (before ++ line :: after)) = .panic := by
    rw [readLines, strLines, splitC_intercalate _ _ (by simp) hn,
      mapRes_panic fun l => okOrPanic_line E _]
    obtain ⟨l', h1, h2⟩ := mem_linesOf_of (segs := before ++ line :: after) (l := line) (by simp) hne
    refine ⟨l', h1, ?_⟩
    rw [line_trim E (l' := line) (by rw [trim_trim, h2])]
    exact hp
  rw [parseText]
  cases cal (asI32 year) (asU32 (month.getD 1)) (asU32 (day.getD 1)) with
  | none => rfl
  | some o =>
    cases o with
    | none => rfl
    | some name =>
      simp only [Res.unwrap, Res.bind_ok]
      have : eraOfName name = .panic ∨ ∃ e, eraOfName name = .ok e := by
        unfold eraOfName
        split <;> simp
      rcases this with h | ⟨e, h⟩
      · rw [h]; rfl
      · rw [h, Res.bind_ok, parseBody, hread]; rfl

/-- A definition of a term in katakana, a line break after a word in hiragana, and the last syllable:
all of these panic. -/
example (E : Ext) : parseLineContents E "テレビ　受像機をいう。".toList = .panic :=
  (C66_katakana_word_panics E _ "テレビ".toList ⟨by decide, by decide +kernel⟩
    (Or.inl ⟨"受像機をいう。".toList, [], "　".toList, [], by decide +kernel, by unfold Blank; decide,
      by unfold Blank; decide, ⟨by decide, by decide +kernel⟩,
      ⟨by decide, by unfold Blank; decide +kernel⟩, by decide,
      ⟨by decide +kernel, by decide +kernel⟩, by decide +kernel⟩)).mpr (by decide +kernel)

example (E : Ext) : parseLineContents E "ものとする。".toList = .panic :=
  (C66_hiragana_word_panics E _ "ものとする".toList ⟨by decide, by decide +kernel⟩
    (Or.inr ⟨'。', [], [], by decide +kernel, by unfold Blank; decide, by unfold Blank; decide,
      by decide, by decide +kernel⟩)).mpr (by decide +kernel)

example (E : Ext) : parseLineContents E "ン　甲".toList = .panic :=
  (C66_katakana_word_panics E _ "ン".toList ⟨by decide, by decide +kernel⟩
    (Or.inl ⟨"甲".toList, [], "　".toList, [], by decide +kernel, by unfold Blank; decide,
      by unfold Blank; decide, ⟨by decide, by decide +kernel⟩,
      ⟨by decide, by unfold Blank; decide +kernel⟩, by decide,
      ⟨by decide +kernel, by decide +kernel⟩, by decide +kernel⟩)).mpr (by decide +kernel)

end JLaw
