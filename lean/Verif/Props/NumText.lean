import Verif.Lemmas.Heading

/-!
# Number texts: properties C04 to C10
-/

namespace JLaw

open Spec

/-! ## C04 -/

/-- C04. Full-width digits are written with full-width digits only, are read back as the same
number, and different numbers have different texts. -/
theorem C04_wide_digits :
    (∀ n : Usize, parseZenkakuNum (toZenkakuNum n) = some n ∧ WideNumber (toZenkakuNum n) ∧
      value '０' (toZenkakuNum n) = n.val) ∧
    ∀ n m : Usize, toZenkakuNum n = toZenkakuNum m → n = m := by
  have h1 := parse_toZenkakuNum
  refine ⟨fun n => ⟨h1 n, toZenkakuNum_wide n, ?_⟩, ?_⟩
  · have := h1 n
    rw [parseZenkakuNum_wide (toZenkakuNum_wide n)] at this
    split at this
    · simp only [Option.some.injEq] at this
      exact congrArg Fin.val this
    · cases this
  · intro n m h
    have := h1 n
    rw [h, h1 m] at this
    exact (Option.some.inj this).symm

example : toZenkakuNum 120 = "１２０".toList := by
  decide +kernel

/-! ## C05 -/

/-- C05 for katakana: the numbers 1 to 47 are the 47 kana of the iroha order, which are all
different; other numbers have no kana, and only these kana have a number. -/
theorem C05_iroha_katakana :
    irohaKatakana.length = 47 ∧ irohaKatakana.Nodup ∧
    (∀ n : Usize, 1 ≤ n.val → n.val ≤ 47 → ∃ c, irohaKatakana[n.val - 1]? = some c ∧
      toIrohaKatakana n = some [c] ∧ parseIrohaKatakana [c] = some n) ∧
    (∀ n : Usize, n.val = 0 ∨ 47 < n.val → toIrohaKatakana n = none) ∧
    ∀ s n, parseIrohaKatakana s = some n → 1 ≤ n.val ∧ n.val ≤ 47 ∧ toIrohaKatakana n = some s :=
  iroha_katakana

example : toIrohaKatakana 25 = some ['ヰ'] ∧ toIrohaKatakana 48 = none ∧
    parseIrohaKatakana ['ン'] = none := by decide +kernel

/-- C05 for hiragana. -/
theorem C05_iroha_hiragana :
    irohaHiragana.length = 47 ∧ irohaHiragana.Nodup ∧
    (∀ n : Usize, 1 ≤ n.val → n.val ≤ 47 → ∃ c, irohaHiragana[n.val - 1]? = some c ∧
      toIrohaHiragana n = some [c] ∧ parseIrohaHiragana [c] = some n) ∧
    (∀ n : Usize, n.val = 0 ∨ 47 < n.val → toIrohaHiragana n = none) ∧
    ∀ s n, parseIrohaHiragana s = some n → 1 ≤ n.val ∧ n.val ≤ 47 ∧ toIrohaHiragana n = some s :=
  iroha_hiragana

example : toIrohaHiragana 43 = some ['ゑ'] ∧ toIrohaHiragana 0 = none ∧
    parseIrohaHiragana ['い', 'ろ'] = none := by decide +kernel

/-! ## C06 and C07 -/

/-- C06. A heading of an item can be written exactly when each of its numbers has a text in the
pattern; otherwise writing it panics. -/
theorem C06_item_text_panics (E : Ext) (a : ArticleNumber) (p : ItemPattern) :
    ((∀ n ∈ components a, Renderable E n p) → ∃ t, a.itemText E p = .ok t) ∧
    ((∃ n ∈ components a, ¬ Renderable E n p) → a.itemText E p = .panic) := by
  have key : OkIff (a.itemText E p) (∀ n ∈ components a, Renderable E n p) := by
    obtain ⟨b, eda, range⟩ := a
    cases range with
    | nil =>
      refine OkIff.congr ((okIff_paren E b p).bind fun _ => (okIff_eda E p eda).bind fun _ =>
        okIff_ok _) ?_
      simp [components]
    | cons n l =>
      refine OkIff.congr ((okIff_paren E b p).bind fun _ => (okIff_eda E p eda).bind fun _ =>
        (okIff_paren E n p).bind fun _ => (okIff_eda E p l).bind fun _ => okIff_ok _) ?_
      simp only [components, List.cons_append, List.mem_cons, List.mem_append, forall_eq_or_imp,
        and_true]
      constructor
      · rintro ⟨h1, h2, h3, h4⟩
        refine ⟨h1, ?_⟩
        rintro m (hm | rfl | hm)
        · exact h2 m hm
        · exact h3
        · exact h4 m hm
      · rintro ⟨h1, h2⟩
        exact ⟨h1, fun m hm => h2 m (Or.inl hm), h2 n (Or.inr (Or.inl rfl)),
          fun m hm => h2 m (Or.inr (Or.inr hm))⟩
  rcases key with ⟨h, t, ht⟩ | ⟨h, hp⟩
  · refine ⟨fun _ => ⟨t, ht⟩, ?_⟩
    rintro ⟨n, hn, hr⟩
    exact absurd (h n hn) hr
  · exact ⟨fun h' => absurd h' h, fun _ => hp⟩

/-- Letters are never renderable, so their headings always panic. -/
example (E : Ext) : (⟨3, [], []⟩ : ArticleNumber).itemText E .noParenZenkakuUpper = .panic :=
  (C06_item_text_panics E _ _).2 ⟨3, by simp [components], id⟩

example (E : Ext) : (⟨3, [2], []⟩ : ArticleNumber).itemText E .parenIrohaKatakana =
    .ok "（ハ）のロ".toList := rfl

/-- C07. Without branch numbers and ranges, the heading in a pattern with parentheses is the heading
in the pattern without them, in parentheses; except for roman numerals. -/
theorem C07_parens_only_add (E : Ext) (n : Usize) (p : ItemPattern) (h : plain p ≠ p)
    (hr : p ≠ .parenZenkakuRomanUpper ∧ p ≠ .parenZenkakuRomanLower) :
    (∀ t, (⟨n, [], []⟩ : ArticleNumber).itemText E (plain p) = .ok t →
      (⟨n, [], []⟩ : ArticleNumber).itemText E p = .ok ('（' :: t ++ ['）'])) ∧
    ((⟨n, [], []⟩ : ArticleNumber).itemText E (plain p) = .panic →
      (⟨n, [], []⟩ : ArticleNumber).itemText E p = .panic) := by
  have key : ∀ q : ItemPattern, (⟨n, [], []⟩ : ArticleNumber).itemText E q = q.numToStr E n := by
    intro q
    simp [ArticleNumber.itemText, ItemPattern.edaText, collectRes]
  rw [key, key]
  have hp : p.numToStr E n = inParens ((plain p).numToStr E n) := by
    cases p <;> first | exact absurd rfl h | exact absurd rfl hr.1 | exact absurd rfl hr.2 | rfl
  rw [hp]
  constructor
  · intro t ht; rw [ht]; rfl
  · intro ht; rw [ht]; rfl

example (E : Ext) : (⟨12, [], []⟩ : ArticleNumber).itemText E .parenIrohaHiragana =
    .ok "（を）".toList := rfl

/-- C07, the exception. The two roman patterns with parentheses use the letter case of the other
one. -/
theorem C07_roman_swapped (E : Ext) (n : Usize) (t : List Char) :
    ((⟨n, [], []⟩ : ArticleNumber).itemText E .noParenZenkakuRomanUpper = .ok t →
      (⟨n, [], []⟩ : ArticleNumber).itemText E .parenZenkakuRomanLower = .ok ('（' :: t ++ ['）'])) ∧
    ((⟨n, [], []⟩ : ArticleNumber).itemText E .noParenZenkakuRomanLower = .ok t →
      (⟨n, [], []⟩ : ArticleNumber).itemText E .parenZenkakuRomanUpper = .ok ('（' :: t ++ ['）'])) := by
  have key : ∀ q : ItemPattern, (⟨n, [], []⟩ : ArticleNumber).itemText E q = q.numToStr E n := by
    intro q
    simp [ArticleNumber.itemText, ItemPattern.edaText, collectRes]
  simp only [key]
  constructor
  · intro ht
    show inParens (ItemPattern.noParenZenkakuRomanUpper.numToStr E n) = _
    rw [ht]; rfl
  · intro ht
    show inParens (ItemPattern.noParenZenkakuRomanLower.numToStr E n) = _
    rw [ht]; rfl

/-- C07, the exception matters: with a numeral that has one of the letters I, X, L, C, the heading
in parentheses is not the heading without them in parentheses. -/
theorem C07_roman_differs (E : Ext) (n : Usize) (w : List Char) (hw : E.romanStr (asI32 n) = some w)
    (c : Char) (hc : c ∈ w) (hl : c = 'I' ∨ c = 'X' ∨ c = 'L' ∨ c = 'C') (t : List Char)
    (ht : (⟨n, [], []⟩ : ArticleNumber).itemText E .noParenZenkakuRomanUpper = .ok t) :
    (⟨n, [], []⟩ : ArticleNumber).itemText E .parenZenkakuRomanUpper ≠ .ok ('（' :: t ++ ['）']) := by
  have hup : t = replaceAll [('I', 'Ｉ'), ('X', 'Ｘ'), ('L', 'Ｌ'), ('C', 'Ｃ')] w := by
    simp [ArticleNumber.itemText, ItemPattern.edaText, collectRes, ItemPattern.numToStr,
      toZenkakuRomanUpper, hw, Res.unwrap] at ht
    exact ht.symm
  subst hup
  simp only [ArticleNumber.itemText, ItemPattern.edaText, collectRes, ItemPattern.numToStr,
      toZenkakuRomanLower, hw, Option.map_some, Res.unwrap, inParens, Res.bind_ok, List.append_nil]
  intro h
  simp only [Res.ok.injEq, List.cons_append, List.cons.injEq, true_and, List.append_cancel_right_eq,
    replaceAll_eq] at h
  have := List.map_inj_left.mp h c hc
  rcases hl with rfl | rfl | rfl | rfl <;> revert this <;> decide

example : (⟨1, [], []⟩ : ArticleNumber).itemText ⟨fun _ => [], fun _ => none, fun _ => some ['I'],
    fun _ => none⟩ .parenZenkakuRomanUpper = .ok "（ｉ）".toList := rfl

/-! ## C08 -/

/-- C08. The heading of every level is read back as the number it was written for, if the kanji
numeral crate handles 1 to 9999 and all components are in this range. -/
theorem C08_heading_reads_back (E : Ext) (hE : ReadsKansuji E) (a : ArticleNumber)
    (ha : ∀ n ∈ components a, 1 ≤ n.val ∧ n.val ≤ 9999) :
    parseArticleNumber E (a.partText E) = .ok (some a) ∧
    parseArticleNumber E (a.chapterText E) = .ok (some a) ∧
    parseArticleNumber E (a.sectionText E) = .ok (some a) ∧
    parseArticleNumber E (a.subsectionText E) = .ok (some a) ∧
    parseArticleNumber E (a.divisionText E) = .ok (some a) ∧
    parseArticleNumber E (a.articleText E) = .ok (some a) :=
  ⟨genArticlesText_reads hE a (by decide) ha, genArticlesText_reads hE a (by decide) ha,
    genArticlesText_reads hE a (by decide) ha, genArticlesText_reads hE a (by decide) ha,
    genArticlesText_reads hE a (by decide) ha, genArticlesText_reads hE a (by decide) ha⟩

/-- The hypotheses hold for the usual kanji numerals. -/
example : parseArticleNumber kanjiExt
    ((⟨12, [3, 40], [15, 2]⟩ : ArticleNumber).articleText kanjiExt) = .ok (some ⟨12, [3, 40], [15, 2]⟩) :=
  (C08_heading_reads_back kanjiExt kanjiExt_reads _ (by simp [components]; decide)).2.2.2.2.2

example : (⟨12, [3, 40], [15, 2]⟩ : ArticleNumber).articleText kanjiExt =
    "第十二条の三の四十から第十五条の二まで".toList := by decide +kernel

/-! ## C09 -/

/-- C09. The text of a paragraph number is read back as the number, but of the end of a range only
the first number is kept. -/
theorem C09_paragraph_text_read (E : Ext) (a : ArticleNumber) :
    parseArticleNumber E a.paragraphText =
      .ok (some ⟨a.base_number, a.eda_numbers, a.range_end_numbers.take 1⟩) := by
  obtain ⟨base, eda, range⟩ := a
  have branch : ∀ l : List Usize,
      (∀ b ∈ l.map (fun n => ('の', toZenkakuNum n)), IsBranch isSep kindsP b) ∧
      mapRes readParagraphPiece (noPieces (flat (l.map fun n => ('の', toZenkakuNum n)))) = .ok l := by
    intro l
    have hb : ∀ b ∈ l.map (fun n => ('の', toZenkakuNum n)), IsBranch isSep kindsP b := by
      intro b hb
      obtain ⟨n, hn, rfl⟩ := List.mem_map.mp hb
      exact ⟨(by decide : isSep 'の' = true), (zenkaku_branch n).1⟩
    refine ⟨hb, ?_⟩
    rw [pieces_flat]
    · clear hb
      induction l with
      | nil => rfl
      | cons n l ih =>
        simp only [List.map_cons, mapRes, (zenkaku_branch n).2.1, Res.bind_ok, ih]
    · intro b hb'
      have := (hb b hb').2
      obtain ⟨n, hn, rfl⟩ := List.mem_map.mp hb'
      exact ⟨rfl, numIn_not_mem (numIn_sub this) (sep_kinds 'の' (by decide)), this.1⟩
  have hflat : ∀ (l : List Usize) (s : List Char), (∀ c t, s = c :: t → c ∈ ['の', 'か']) →
      ∀ c t, flat (l.map fun n => ('の', toZenkakuNum n)) ++ s = c :: t → c ∈ ['の', 'か'] := by
    intro l s hs c t h
    cases l with
    | nil => exact hs c t h
    | cons n l =>
      simp only [List.map_cons, flat_cons, List.cons_append, List.cons.injEq] at h
      simp [← h.1]
  cases range with
  | nil =>
    have hno := paragraph_no_unit (zenkaku_branch base).1 (hflat eda [] (by simp))
    have hend : ∀ p ∈ kindsP, (toZenkakuNum base).all p = true →
        Ends p (flat (eda.map fun n => ('の', toZenkakuNum n)) ++ []) := fun p hp _ =>
      ends_flat hp (branch eda).1 fun _ => trivial
    have hcap := paragraph_plain (r := []) (zenkaku_branch base).1 hend (branch eda).1 trivial
      (fun _ _ _ _ _ => trivial) (by rintro ⟨ds, bs, rest, -, h, -⟩; cases h)
    have ht : (⟨base, eda, []⟩ : ArticleNumber).paragraphText =
        toZenkakuNum base ++ (flat (eda.map fun n => ('の', toZenkakuNum n)) ++ []) := by
      simp [ArticleNumber.paragraphText, edaText_flat]
    rw [ht, parseArticleNumber, article_none hno, hcap]
    simp only [paragraphOfCaps_plain, (zenkaku_branch base).2.1, (branch eda).2, Res.bind_ok]
    rfl
  | cons r l =>
    have ht : (⟨base, eda, r :: l⟩ : ArticleNumber).paragraphText =
        toZenkakuNum base ++ (flat (eda.map fun n => ('の', toZenkakuNum n)) ++
          'か' :: 'ら' :: (toZenkakuNum r ++ (flat (l.map fun n => ('の', toZenkakuNum n)) ++
            'ま' :: 'で' :: []))) := by
      simp [ArticleNumber.paragraphText, edaText_flat]
    have hno := paragraph_no_unit (zenkaku_branch base).1 (hflat eda ('か' :: 'ら' ::
      (toZenkakuNum r ++ (flat (l.map fun n => ('の', toZenkakuNum n)) ++ 'ま' :: 'で' :: [])))
      (by rintro c t h; cases h; simp))
    have hcap := paragraph_range (zenkaku_branch base).1 (branch eda).1 (zenkaku_branch r).1
      (r := 'か' :: 'ら' :: (toZenkakuNum r ++ (flat (l.map fun n => ('の', toZenkakuNum n)) ++
            'ま' :: 'で' :: []))) ⟨rfl, (branch l).1⟩
    rw [ht, parseArticleNumber, article_none hno, hcap]
    simp only [paragraphOfCaps_range, (zenkaku_branch base).2.1, (branch eda).2, Res.bind_ok,
      (zenkaku_branch r).2.2]
    rfl

/-- C09, which numbers survive. -/
theorem C09_paragraph_text_survives (E : Ext) (a : ArticleNumber) :
    parseArticleNumber E a.paragraphText = .ok (some a) ↔ a.range_end_numbers.length ≤ 1 := by
  rw [C09_paragraph_text_read]
  obtain ⟨base, eda, range⟩ := a
  simp only [Res.ok.injEq, Option.some.injEq, ArticleNumber.mk.injEq, true_and]
  constructor
  · intro h
    rw [← h]
    simp only [List.length_take]
    omega
  · exact List.take_of_length_le

example : (⟨2, [10], [4, 1]⟩ : ArticleNumber).paragraphText = "２の１０から４の１まで".toList := by
  decide +kernel

/-! ## C10 -/

/-- C10. `parse_article_number` panics exactly on three kinds of text, and returns on all others:
an ASCII number before a unit is too big for `usize`; the same at the end of a range of a text that
could be read up to there; or a text without a unit starts with a number in digits and branch
numbers of which one is too big or is separated by the katakana `ノ`. -/
theorem C10_parse_article_number_panics (E : Ext) (s : List Char) :
    (parseArticleNumber E s = .panic ↔
      (∃ lead ds u rest, (lead = [] ∨ lead = ['第']) ∧ s = lead ++ (ds ++ u :: rest) ∧
        AsciiNumber ds ∧ limit ≤ value '0' ds ∧ u ∈ units) ∨
      (∃ lead num u bs ds u' bs' rest, (lead = [] ∨ lead = ['第']) ∧
        s = lead ++ (num ++ u :: (branches bs ++ 'か' :: 'ら' :: '第' ::
          (ds ++ u' :: (branches bs' ++ 'ま' :: 'で' :: rest)))) ∧
        AnyNumber num ∧ ReadableBase E num ∧ u ∈ units ∧
        (∀ b ∈ bs, IsSeparator b.1 ∧ AnyNumber b.2 ∧ ReadableBranch E b.2) ∧
        AsciiNumber ds ∧ limit ≤ value '0' ds ∧ u' ∈ units ∧
        ∀ b ∈ bs', IsSeparator b.1 ∧ AnyNumber b.2) ∨
      ((¬ ∃ ds u rest, s = ds ++ u :: rest ∧ AnyNumber ds ∧ u ∈ units) ∧
        ∃ num bs rest, s = num ++ (branches bs ++ rest) ∧ DigitNumber num ∧
          (∀ b ∈ bs, IsSeparator b.1 ∧ DigitNumber b.2) ∧
          (TooBig num ∨ ∃ b ∈ bs, b.1 = 'ノ' ∨ TooBig b.2))) ∧
    (parseArticleNumber E s ≠ .panic → ∃ o, parseArticleNumber E s = .ok o) := by
  refine ⟨⟨?_, ?_⟩, fun h => (okOrPanic_parse E s).resolve_left h⟩
  · intro hpanic
    by_cases h : HasUnit s
    · obtain ⟨lead, ds, u, rest, hlead, rfl, hds, hu⟩ := h
      rw [List.append_assoc] at hpanic ⊢
      have hA : baseRes E ds = .panic → (∃ lead' ds' u' rest', (lead' = [] ∨ lead' = ['第']) ∧
          lead ++ (ds ++ u :: rest) = lead' ++ (ds' ++ u' :: rest') ∧
          AsciiNumber ds' ∧ limit ≤ value '0' ds' ∧ u' ∈ units) := by
        intro hb
        obtain ⟨h1, h2⟩ := (baseRes_panic (anyNumber_iff.mpr hds)).mp hb
        exact ⟨lead, ds, u, rest, hlead, rfl, h1, h2, isUnit_iff.mp hu⟩
      obtain ⟨bs, r, rfl, hbs, h | ⟨ds2, u2, bs2, rest2, hds2, hr, h⟩⟩ :=
        parse_unit E (rest := rest) hlead hds hu
      · rw [h, bind_panic_iff (okOrPanic_baseRes E ds)] at hpanic
        rcases hpanic with hb | ⟨o, -, hb⟩
        · exact Or.inl (hA hb)
        · obtain ⟨base, -, hb⟩ := orNone_panic.mp hb
          obtain ⟨eda, -, hb⟩ := orNone_panic.mp hb
          cases hb
      · rw [h, bind_panic_iff (okOrPanic_baseRes E ds)] at hpanic
        rcases hpanic with hb | ⟨o, ho, hb⟩
        · exact Or.inl (hA hb)
        · obtain ⟨base, hob, hb1⟩ := orNone_panic.mp hb
          rw [hob] at ho
          obtain ⟨eda, heda, hb2⟩ := orNone_panic.mp hb1
          rw [bind_panic_iff (okOrPanic_baseRes E ds2)] at hb2
          rcases hb2 with hb | ⟨o, -, hb⟩
          · obtain ⟨h1, h2⟩ := (baseRes_panic (anyNumber_iff.mpr hds2)).mp hb
            obtain ⟨rfl, hu2, hbs2⟩ := hr
            refine Or.inr (Or.inl ⟨lead, ds, u, bs, ds2, u2, bs2, rest2, hlead, ?_,
              anyNumber_iff.mpr hds, (baseRes_some (anyNumber_iff.mpr hds)).mp ⟨base, ho⟩,
              isUnit_iff.mp hu, ?_, h1, h2, isUnit_iff.mp hu2, ?_⟩)
            · simp only [flat_eq]
            · intro b hb
              have hn := anyNumber_iff.mpr (hbs b hb).2
              refine ⟨isSep_iff.mp (hbs b hb).1, hn, (readPiece_some hn).mp ?_⟩
              exact allPieces_some.mp ⟨eda, heda⟩ b.2 (List.mem_map_of_mem hb)
            · intro b hb
              exact ⟨isSep_iff.mp (hbs2 b hb).1, anyNumber_iff.mpr (hbs2 b hb).2⟩
          · obtain ⟨r', -, hb⟩ := orNone_panic.mp hb
            obtain ⟨eda', -, hb⟩ := orNone_panic.mp hb
            cases hb
    · right; right
      refine ⟨?_, ?_⟩
      · rintro ⟨ds, u, rest, rfl, hds, hu⟩
        exact h ⟨[], ds, u, rest, Or.inl rfl, by simp, anyNumber_iff.mp hds, isUnit_iff.mpr hu⟩
      · rcases parse_no_unit E h with ⟨h, -⟩ | ⟨ds, bs, r, rfl, hds, -, hbs, -, -, f, hf, h⟩
        · rw [h] at hpanic; cases hpanic
        · refine ⟨ds, bs, r, by rw [flat_eq], digitNumber_iff.mpr hds, fun b hb =>
            ⟨isSep_iff.mp (hbs b hb).1, digitNumber_iff.mpr (hbs b hb).2⟩, ?_⟩
          rw [h, bind_panic_iff (okOrPanic_piece ds)] at hpanic
          rcases hpanic with hb | ⟨base, -, hb⟩
          · exact Or.inl ((parse_digit_none (digitNumber_iff.mpr hds)).mp (piece_panic.mp hb))
          · rw [bind_panic_iff (okOrPanic_mapRes okOrPanic_piece _)] at hb
            rcases hb with hb | ⟨ns, -, hb⟩
            · exact Or.inr ((pieces_panic hbs).mp hb)
            · obtain ⟨o, ho⟩ := hf base ns
              rw [ho] at hb; cases hb
  · rintro (⟨lead, ds, u, rest, hlead, rfl, hds, hbig, hu⟩ |
      ⟨lead, num, u, bs, ds, u', bs', rest, hlead, rfl, hnum, hread, hu, hbs, hds, hbig, hu', hbs'⟩ |
      ⟨hno, num, bs, rest, rfl, hnum, hbs, hbad⟩)
    · have hds' := anyNumber_iff.mp (Or.inl hds)
      have hb : baseRes E ds = .panic := (baseRes_panic (Or.inl hds)).mpr ⟨hds, hbig⟩
      obtain ⟨bs, r, -, -, h | ⟨_, _, _, _, -, -, h⟩⟩ :=
        parse_unit E (rest := rest) hlead hds' (isUnit_iff.mpr hu)
      · rw [h, hb]; rfl
      · rw [h, hb]; rfl
    · have hb : baseRes E ds = .panic := (baseRes_panic (Or.inl hds)).mpr ⟨hds, hbig⟩
      obtain ⟨base, hbase⟩ := (baseRes_some hnum).mpr hread
      have hpieces : ∃ ns, allPieces (readPiece E) (bs.map Prod.snd) = some ns := by
        rw [allPieces_some]
        intro w hw
        obtain ⟨b, hb, rfl⟩ := List.mem_map.mp hw
        exact (readPiece_some (hbs b hb).2.1).mpr (hbs b hb).2.2
      obtain ⟨ns, hns⟩ := hpieces
      rw [← flat_eq, ← flat_eq, parse_range E hlead (anyNumber_iff.mp hnum) (isUnit_iff.mpr hu)
        (fun b hb => ⟨isSep_iff.mpr (hbs b hb).1, anyNumber_iff.mp (hbs b hb).2.1⟩)
        (anyNumber_iff.mp (Or.inl hds)) ⟨rfl, isUnit_iff.mpr hu',
          fun b hb => ⟨isSep_iff.mpr (hbs' b hb).1, anyNumber_iff.mp (hbs' b hb).2⟩⟩,
        hbase, hns, hb]
      rfl
    · have hU : ¬ HasUnit (num ++ (branches bs ++ rest)) := by
        rintro ⟨lead, ds, u, r, hlead, h, hds, hu⟩
        rcases hlead with rfl | rfl
        · exact hno ⟨ds, u, r, by simpa using h, anyNumber_iff.mpr hds, isUnit_iff.mp hu⟩
        · obtain ⟨hne, p, hp, hall⟩ := digitNumber_iff.mp hnum
          cases num with
          | nil => exact hne rfl
          | cons c num =>
            simp only [List.cons_append, List.cons.injEq] at h
            simp only [List.all_cons, Bool.and_eq_true] at hall
            rw [h.1, marks_kinds (by simp) p (kindsP_sub hp)] at hall
            cases hall.1
      have hbs0 : ∀ b ∈ bs, IsBranch isSep kindsP b := fun b hb =>
        ⟨isSep_iff.mpr (hbs b hb).1, digitNumber_iff.mp (hbs b hb).2⟩
      -- the number and branch numbers of the statement are a first part of the matched ones
      have hmatch := extend_branches (bs := ('の', num) :: bs) (by
        intro b hb
        rcases List.mem_cons.mp hb with rfl | hb
        · exact ⟨(by decide : isSep 'の' = true), digitNumber_iff.mp hnum⟩
        · exact hbs0 b hb) rest
      have hbad' : ∃ b ∈ (('の', num) :: bs), BadBranch b := by
        rcases hbad with h | ⟨b, hb, h⟩
        · exact ⟨('の', num), by simp, Or.inr h⟩
        · exact ⟨b, by simp [hb], h⟩
      obtain ⟨bs1, r1, heq, hbs1, hno1, hl1, himp⟩ := hmatch
      obtain ⟨b1, hb1, hbad1⟩ := himp hbad'
      rcases parse_no_unit E hU with ⟨-, hends⟩ | ⟨ds, bs2, r2, hs, hds, hend, hbs2, hno2, hl2, f, -, h⟩
      · exfalso
        obtain ⟨hne, p, hp, hall⟩ := digitNumber_iff.mp hnum
        cases num with
        | nil => exact hne rfl
        | cons c num =>
          simp only [List.all_cons, Bool.and_eq_true] at hall
          have := hends p hp
          simp only [List.cons_append, Ends] at this
          rw [this] at hall
          cases hall.1
      · have hbs2' : ∀ b ∈ (('の', ds) :: bs2), IsBranch isSep kindsP b := by
          intro b hb
          rcases List.mem_cons.mp hb with rfl | hb
          · exact ⟨(by decide : isSep 'の' = true), hds⟩
          · exact hbs2 b hb
        have hl2' : LastEnds kindsP (('の', ds) :: bs2) r2 := by
          intro b hb p hp hpa
          cases bs2 with
          | nil =>
            simp at hb
            subst hb
            have := hend p hp hpa
            simpa [flat] using this
          | cons b' bs' =>
            rw [List.getLast?_cons_cons] at hb
            exact hl2 b hb p hp hpa
        have hu := flat_unique kindsP_disjoint sep_kindsP hbs1 hbs2' hno1 hno2 hl1 hl2' (by
          rw [← heq, flat_cons, flat_cons]
          simp only [List.cons_append, List.append_assoc]
          rw [flat_eq, hs])
        have hp1 := (pieces_panic hbs1).mpr ⟨b1, hb1, hbad1⟩
        rw [hu.1] at hp1
        rw [h]
        obtain ⟨b2, hb2, hbad2⟩ := (pieces_panic hbs2').mp hp1
        rcases List.mem_cons.mp hb2 with rfl | hb2
        · have : readParagraphPiece ds = .panic := by
            rcases hbad2 with h' | h'
            · exact absurd h' (by simp)
            · exact piece_panic.mpr ((parse_digit_none (digitNumber_iff.mpr hds)).mpr h')
          rw [this]; rfl
        · rcases okOrPanic_piece ds with h' | ⟨base, h'⟩
          · rw [h']; rfl
          · rw [h', (pieces_panic hbs2).mpr ⟨b2, hb2, hbad2⟩]
            rfl

/-- The third situation is reached by a short text. -/
example (E : Ext) : parseArticleNumber E "１ノ２".toList = .panic :=
  (C10_parse_article_number_panics E _).1.mpr (Or.inr (Or.inr ⟨by
    rintro ⟨ds, u, rest, h, hds, hu⟩
    have hmem : u ∈ "１ノ２".toList := by rw [h]; simp
    revert hu
    exact (by decide : ∀ u ∈ "１ノ２".toList, ¬ u ∈ units) u hmem,
    ['１'], [('ノ', ['２'])], [], by decide, Or.inr (wideNumber_iff.mpr (by decide)), by
      rintro b hb
      cases List.mem_singleton.mp hb
      exact ⟨Or.inr rfl, Or.inr (wideNumber_iff.mpr (by decide))⟩,
    Or.inr ⟨('ノ', ['２']), by simp, Or.inl rfl⟩⟩))

end JLaw
