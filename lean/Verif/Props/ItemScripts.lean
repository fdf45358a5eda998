import Verif.Lemmas.Roman

/-!
# Headings of items in hiragana and roman numerals: properties C61 and C62
-/

namespace JLaw

open Spec

/-! ## C61 -/

/-- C61, without parentheses: a heading in hiragana is read back if it has no branch numbers;
otherwise reading it panics, because the separator is itself a hiragana. -/
theorem C61_hiragana_heading (E : Ext) (a : ArticleNumber) (t : List Char)
    (hr : a.range_end_numbers = []) (ht : a.itemText E .noParenIrohaHiragana = .ok t) :
    (a.eda_numbers = [] → parseItemNumber E t =
      .ok (some ⟨t, a.base_number, [], [], .noParenIrohaHiragana⟩)) ∧
    (a.eda_numbers ≠ [] → parseItemNumber E t = .panic) := by
  have h := itemText_words E _ false (g := fun n => (toIrohaHiragana n).getD []) (fun n w h => by
    rw [ItemPattern.numToStrNoParen, unwrap_eq_ok] at h; simp [h]) (fun n w h => by
    rw [ItemPattern.numToStr, unwrap_eq_ok] at h
    simp [h, itemWord, ItemPattern.numToStrNoParen, Res.unwrap]) hr ht
  obtain ⟨rfl, hw⟩ := h
  have hw' : ∀ n ∈ a.base_number :: a.eda_numbers, toIrohaHiragana n = some ((toIrohaHiragana n).getD []) :=
    fun n hn => unwrap_eq_ok.mp (hw n hn)
  obtain ⟨hne, hall, hp⟩ := hiragana_word (hw' a.base_number (by simp))
  have hk : between 'あ' 'ん' ∈ itemKinds := by simp [itemKinds]
  constructor
  · intro he
    rw [he]
    simp only [List.map_nil, itemFlat, flat, List.flatMap_nil, List.append_nil]
    rw [parse_single E hk false hne hall, base_hiragana E false hne hall, hp]
    rfl
  · intro he
    have hall' : ((toIrohaHiragana a.base_number).getD [] ++
        itemFlat (a.eda_numbers.map fun n => (toIrohaHiragana n).getD [])).all (between 'あ' 'ん') = true := by
      rw [List.all_append, hall, hiragana_all fun n hn => hw' n (by simp [hn])]
      rfl
    have hone : ∃ c, (toIrohaHiragana a.base_number).getD [] = [c] := by
      obtain ⟨-, -, h1, h2, -⟩ := iroha_hiragana
      by_cases hn : 1 ≤ a.base_number.val ∧ a.base_number.val ≤ 47
      · obtain ⟨c, -, hc, -⟩ := h1 _ hn.1 hn.2
        exact ⟨c, by rw [hc]; rfl⟩
      · have := hw' a.base_number (by simp)
        rw [h2 _ (by omega)] at this
        cases this
    have hnone : parseIrohaHiragana ((toIrohaHiragana a.base_number).getD [] ++
        itemFlat (a.eda_numbers.map fun n => (toIrohaHiragana n).getD [])) = none := by
      obtain ⟨c, hc⟩ := hone
      obtain ⟨m, l, hl⟩ := List.exists_cons_of_ne_nil he
      rw [hc, hl]
      rfl
    have := parse_single E hk false (by simp [hne]) hall'
    simp only [itemWord, Bool.false_eq_true, if_false] at this ⊢
    have hb := base_hiragana E false (by simp [hne]) hall'
    simp only [itemWord, Bool.false_eq_true, if_false] at hb
    rw [this, hb, hnone]
    rfl

/-- C61, in parentheses: a heading in hiragana is read back, but branch numbers 26 are lost: their
kana is the separator. -/
theorem C61_paren_hiragana_heading (E : Ext) (a : ArticleNumber) (t : List Char)
    (hr : a.range_end_numbers = []) (ht : a.itemText E .parenIrohaHiragana = .ok t) :
    parseItemNumber E t = .ok (some ⟨t, a.base_number, a.eda_numbers.filter fun n => n ≠ 26, [],
      .parenIrohaHiragana⟩) := by
  have h := itemText_words E _ true (g := fun n => (toIrohaHiragana n).getD []) (fun n w h => by
    rw [ItemPattern.numToStrNoParen, unwrap_eq_ok] at h; simp [h]) (fun n w h => by
    obtain ⟨v, hv, rfl⟩ := inParens_eq_ok h
    rw [unwrap_eq_ok] at hv
    simp [hv, ItemPattern.numToStrNoParen, Res.unwrap]) hr ht
  obtain ⟨rfl, hw⟩ := h
  have hw' : ∀ n ∈ a.base_number :: a.eda_numbers, toIrohaHiragana n = some ((toIrohaHiragana n).getD []) :=
    fun n hn => unwrap_eq_ok.mp (hw n hn)
  obtain ⟨hne, hall, hp⟩ := hiragana_word (hw' a.base_number (by simp))
  have hk : between 'あ' 'ん' ∈ itemKinds := by simp [itemKinds]
  by_cases he : a.eda_numbers = []
  · rw [he]
    simp only [List.map_nil, itemFlat, flat, List.flatMap_nil, List.append_nil, List.filter_nil]
    rw [parse_single E hk true hne hall, base_hiragana E true hne hall, hp]
    rfl
  · -- the branch numbers as characters
    have hchars : ∃ f : Usize → Char, ∀ n ∈ a.eda_numbers, (toIrohaHiragana n).getD [] = [f n] ∧
        (f n = 'の' ↔ n = 26) ∧ between 'あ' 'ん' (f n) = true ∧ parseIrohaHiragana [f n] = some n := by
      refine ⟨fun n => ((toIrohaHiragana n).getD []).headD 'x', ?_⟩
      intro n hn
      obtain ⟨-, -, h1, h2, -⟩ := iroha_hiragana
      by_cases hn' : 1 ≤ n.val ∧ n.val ≤ 47
      · obtain ⟨c, -, hc, hpc⟩ := h1 _ hn'.1 hn'.2
        have hx : ((toIrohaHiragana n).getD []).headD 'x' = c := by rw [hc]; rfl
        have hword := hiragana_word hc
        simp only [hx]
        refine ⟨by rw [hc]; rfl, ?_, ?_, hpc⟩
        · constructor
          · rintro rfl
            have : parseIrohaHiragana ['の'] = some 26 := by decide +kernel
            rw [this] at hpc
            exact (Option.some.inj hpc).symm
          · rintro rfl
            have : toIrohaHiragana 26 = some ['の'] := by decide +kernel
            rw [this] at hc
            simp only [Option.some.injEq, List.cons.injEq, and_true] at hc
            exact hc.symm
        · simpa using hword.2.1
      · have := hw' n (by simp [hn])
        rw [h2 _ (by omega)] at this
        cases this
    obtain ⟨f, hf⟩ := hchars
    have hmap : a.eda_numbers.map (fun n => (toIrohaHiragana n).getD []) =
        (a.eda_numbers.map f).map fun c => [c] := by
      rw [List.map_map]
      apply List.map_congr_left
      intro n hn
      exact (hf n hn).1
    have hflat := hiragana_all (g := fun n => (toIrohaHiragana n).getD []) (l := a.eda_numbers)
      fun n hn => hw' n (by simp [hn])
    obtain ⟨m, l, hl⟩ := List.exists_cons_of_ne_nil he
    have hcons : ∃ s, itemFlat (a.eda_numbers.map fun n => (toIrohaHiragana n).getD []) = 'の' :: s ∧
        s ≠ [] ∧ s.all (between 'あ' 'ん') = true := by
      rw [hmap, hl]
      refine ⟨f m :: itemFlat ((l.map f).map fun c => [c]), rfl, by simp, ?_⟩
      rw [hmap, hl, show itemFlat (((m :: l).map f).map fun c => [c]) =
        'の' :: f m :: itemFlat ((l.map f).map fun c => [c]) from rfl, List.all_cons,
        Bool.and_eq_true] at hflat
      exact hflat.2
    obtain ⟨s, hs, hsne, hsall⟩ := hcons
    have hcap := captures_hiragana hne hall hsne hsall
    have hbase := base_hiragana E true hne hall
    rw [hp] at hbase
    have heda : itemEda E ('の' :: s) = .ok (a.eda_numbers.filter fun n => n ≠ 26) := by
      rw [← hs, hmap, itemEda, pieces_single, List.filter_map, List.map_map]
      rw [show a.eda_numbers.filter ((fun c => decide (c ≠ 'の')) ∘ f) =
        a.eda_numbers.filter (fun n => n ≠ 26) from List.filter_congr fun n hn => by
          simp [(hf n hn).2.1]]
      apply collectRes_words
      intro n hn
      have hn' := hf n (List.mem_filter.mp hn).1
      have hb := base_hiragana E false (w := [f n]) (by simp) (by simp [hn'.2.2.1])
      simp only [itemWord, Bool.false_eq_true, if_false] at hb
      rw [show ((fun c => [c]) ∘ f) n = [f n] from rfl, hb, hn'.2.2.2]
      rfl
    have htrim := trim_item hk hk true hall (ws := a.eda_numbers.map fun n => (toIrohaHiragana n).getD [])
      (by
        intro w hw''
        obtain ⟨n, hn, rfl⟩ := List.mem_map.mp hw''
        have := hiragana_word (hw' n (by simp [hn]))
        exact ⟨this.1, this.2.1⟩)
    rw [hs] at htrim ⊢
    rw [parseItemNumber, htrim, hcap]
    simp only [Res.unwrap, Caps.name, List.reverse_cons, List.reverse_nil, List.nil_append,
      List.cons_append]
    rw [show List.lookup "base_number" [("eda_numbers", 'の' :: s),
      ("base_number", itemWord true ((toIrohaHiragana a.base_number).getD []))] =
      some (itemWord true ((toIrohaHiragana a.base_number).getD [])) from rfl]
    simp only [Res.bind_ok, hbase, orNone, Res.unwrap]
    rw [show List.lookup "eda_numbers" [("eda_numbers", 'の' :: s),
      ("base_number", itemWord true ((toIrohaHiragana a.base_number).getD []))] = some ('の' :: s) from rfl]
    simp only [heda, Res.bind_ok]
    rfl

/-- Both cases occur. -/
example (E : Ext) : parseItemNumber E "いのろ".toList = .panic :=
  (C61_hiragana_heading E ⟨1, [2], []⟩ _ rfl rfl).2 (by simp)

example (E : Ext) : parseItemNumber E "（い）のろのの".toList =
    .ok (some ⟨"（い）のろのの".toList, 1, [2], [], .parenIrohaHiragana⟩) :=
  (C61_paren_hiragana_heading E ⟨1, [2, 26], []⟩ _ rfl rfl)

/-! ## C62 -/

/-- C62, headings that are not read: the roman digits V, D and M are left in ASCII, and then the
heading is no item number at all. -/
theorem C62_roman_not_read (E : Ext) (a : ArticleNumber) (p : ItemPattern) (t : List Char)
    (hp : p ∈ [.noParenZenkakuRomanUpper, .noParenZenkakuRomanLower, .parenZenkakuRomanUpper,
      .parenZenkakuRomanLower]) (ht : a.itemText E p = .ok t)
    (n : Usize) (hn : n ∈ components a) (w : List Char) (hw : E.romanStr (asI32 n) = some w)
    (c : Char) (hc : c ∈ w) (hc' : c ∈ ['V', 'D', 'M']) : parseItemNumber E t = .ok none := by
  have hup : ∀ c ∈ ['V', 'D', 'M'], romanCase true c = c ∧ romanCase false c = c ∧ isSpace c = false ∧
      reItem.allows c = false := by decide +kernel
  obtain ⟨h1, h2, h3, h4⟩ := hup c hc'
  apply parse_item_none E (c := c) _ h3 h4
  have key : ∀ v, (toZenkakuRomanUpper E n = some v ∨ toZenkakuRomanLower E n = some v) → c ∈ v := by
    intro v hv
    rw [toZenkakuRomanUpper_eq, toZenkakuRomanLower_eq, hw] at hv
    simp only [Option.map_some, Option.some.injEq] at hv
    rcases hv with rfl | rfl
    · exact List.mem_map.mpr ⟨c, hc, h1⟩
    · exact List.mem_map.mpr ⟨c, hc, h2⟩
  simp only [List.mem_cons, List.not_mem_nil, or_false] at hp
  have hmem := itemText_mem E p ht hn
  rcases hp with rfl | rfl | rfl | rfl
  · rcases hmem with ⟨v, hv, hm⟩ | ⟨v, hv, hm⟩
    · exact hm c (key v (Or.inl (unwrap_eq_ok.mp hv)))
    · exact hm c (key v (Or.inl (unwrap_eq_ok.mp hv)))
  · rcases hmem with ⟨v, hv, hm⟩ | ⟨v, hv, hm⟩
    · exact hm c (key v (Or.inr (unwrap_eq_ok.mp hv)))
    · exact hm c (key v (Or.inr (unwrap_eq_ok.mp hv)))
  · rcases hmem with ⟨v, hv, hm⟩ | ⟨v, hv, hm⟩
    · obtain ⟨v', hv', rfl⟩ := inParens_eq_ok hv
      exact hm c (by simp [itemWord, key v' (Or.inr (unwrap_eq_ok.mp hv'))])
    · exact hm c (key v (Or.inl (unwrap_eq_ok.mp hv)))
  · rcases hmem with ⟨v, hv, hm⟩ | ⟨v, hv, hm⟩
    · obtain ⟨v', hv', rfl⟩ := inParens_eq_ok hv
      exact hm c (by simp [itemWord, key v' (Or.inl (unwrap_eq_ok.mp hv'))])
    · exact hm c (key v (Or.inr (unwrap_eq_ok.mp hv)))

/-- C62, headings that are read: numbers whose numerals are made of I, X, L and C. Without
parentheses they come back with their pattern, in parentheses with the pattern of the other case. -/
theorem C62_roman_read (E : Ext) (hE : ReadsRoman E) (a : ArticleNumber) (p q : ItemPattern)
    (t : List Char)
    (hp : (p, q) ∈ [(.noParenZenkakuRomanUpper, .noParenZenkakuRomanUpper),
      (.noParenZenkakuRomanLower, .noParenZenkakuRomanLower),
      (.parenZenkakuRomanUpper, .parenZenkakuRomanLower),
      (.parenZenkakuRomanLower, .parenZenkakuRomanUpper)])
    (hr : a.range_end_numbers = []) (ha : ∀ n ∈ components a, ShortRoman E n)
    (ht : a.itemText E p = .ok t) :
    parseItemNumber E t = .ok (some ⟨t, a.base_number, a.eda_numbers, [], q⟩) := by
  have hs : ∀ n ∈ a.base_number :: a.eda_numbers, ShortRoman E n := by
    intro n hn
    apply ha
    simp only [components, List.mem_append, List.mem_cons] at hn ⊢
    rcases hn with h | h <;> simp [h]
  -- the numerals of the base in the case `up`, and of the branch numbers in the case `up'`
  have main : ∀ (up up' paren : Bool) (b : List Char) (g : Usize → List Char),
      E.romanStr (asI32 a.base_number) = some b → (∀ n ∈ a.eda_numbers, E.romanStr (asI32 n) = some (g n)) →
      t = itemWord paren (b.map (romanCase up)) ++
        itemFlat (a.eda_numbers.map fun n => (g n).map (romanCase up')) →
      parseItemNumber E t = .ok (some ⟨t, a.base_number, a.eda_numbers, [], match up, paren with
        | true, true => .parenZenkakuRomanUpper
        | true, false => .noParenZenkakuRomanUpper
        | false, true => .parenZenkakuRomanLower
        | false, false => .noParenZenkakuRomanLower⟩) := by
    intro up up' paren b g hb hg h
    rw [h]
    apply parse_item_text E (p := letters up')
      (p0 := letters up)
      (by cases up' <;> simp [itemKinds, letters]) (by cases up' <;> decide)
      (by cases up <;> simp [itemKinds, letters]) (by cases up <;> decide) paren
      (g := fun n => (g n).map (romanCase up'))
      (pat' := match up' with
        | true => .noParenZenkakuRomanUpper
        | false => .noParenZenkakuRomanLower)
    · obtain ⟨b', hb', h1, h2, -⟩ := roman_word hE (hs a.base_number (by simp)) up
      rw [hb] at hb'; cases hb'
      exact ⟨h1, h2⟩
    · intro n hn
      obtain ⟨b', hb', h1, h2, -⟩ := roman_word hE (hs n (by simp [hn])) up'
      rw [hg n hn] at hb'; cases hb'
      exact ⟨h1, h2⟩
    · exact base_roman hE (hs _ (by simp)) up paren hb
    · intro n hn
      have := base_roman hE (hs n (by simp [hn])) up' false (hg n hn)
      cases up' <;> exact this
  -- what writing does
  have hstr : ∀ n ∈ a.base_number :: a.eda_numbers,
      E.romanStr (asI32 n) = some ((E.romanStr (asI32 n)).getD []) := by
    intro n hn
    obtain ⟨h1, w, h2, -⟩ := hs n hn
    rw [asI32_small h1, h2]; rfl
  rw [ArticleNumber.itemText, hr] at ht
  obtain ⟨b, hb, h⟩ := Res.bind_eq_ok.mp ht
  obtain ⟨e, he, h⟩ := Res.bind_eq_ok.mp h
  simp only [Res.ok.injEq] at h
  subst h
  have hupper : ∀ {n : Usize} {w}, n ∈ a.base_number :: a.eda_numbers → toZenkakuRomanUpper E n = some w →
      w = ((E.romanStr (asI32 n)).getD []).map (romanCase true) := by
    intro n w hn hw
    rw [toZenkakuRomanUpper_eq, hstr n hn] at hw
    simpa using hw.symm
  have hlower : ∀ {n : Usize} {w}, n ∈ a.base_number :: a.eda_numbers → toZenkakuRomanLower E n = some w →
      w = ((E.romanStr (asI32 n)).getD []).map (romanCase false) := by
    intro n w hn hw
    rw [toZenkakuRomanLower_eq, hstr n hn] at hw
    simpa using hw.symm
  have edaU : ∀ p : ItemPattern, (∀ n, p.numToStrNoParen E n = Res.unwrap (toZenkakuRomanUpper E n)) →
      p.edaText E a.eda_numbers = .ok e →
      e = itemFlat (a.eda_numbers.map fun n => ((E.romanStr (asI32 n)).getD []).map (romanCase true)) := by
    intro p hpn he
    refine (edaText_words E p (g := fun n => ((toZenkakuRomanUpper E n)).getD []) ?_ he).1.trans ?_
    · intro n w hw
      rw [hpn, unwrap_eq_ok] at hw; simp [hw]
    · congr 1
      apply List.map_congr_left
      intro n hn
      rw [toZenkakuRomanUpper_eq, hstr n (by simp [hn])]
      rfl
  have edaL : ∀ p : ItemPattern, (∀ n, p.numToStrNoParen E n = Res.unwrap (toZenkakuRomanLower E n)) →
      p.edaText E a.eda_numbers = .ok e →
      e = itemFlat (a.eda_numbers.map fun n => ((E.romanStr (asI32 n)).getD []).map (romanCase false)) := by
    intro p hpn he
    refine (edaText_words E p (g := fun n => ((toZenkakuRomanLower E n)).getD []) ?_ he).1.trans ?_
    · intro n w hw
      rw [hpn, unwrap_eq_ok] at hw; simp [hw]
    · congr 1
      apply List.map_congr_left
      intro n hn
      rw [toZenkakuRomanLower_eq, hstr n (by simp [hn])]
      rfl
  simp only [List.mem_cons, Prod.mk.injEq, List.not_mem_nil, or_false] at hp
  rcases hp with ⟨rfl, rfl⟩ | ⟨rfl, rfl⟩ | ⟨rfl, rfl⟩ | ⟨rfl, rfl⟩
  · refine main true true false _ _ (hstr _ (by simp)) (fun n hn => hstr n (by simp [hn])) ?_
    rw [edaU _ (fun _ => rfl) he, hupper (n := a.base_number) (by simp) (unwrap_eq_ok.mp hb)]
    rfl
  · refine main false false false _ _ (hstr _ (by simp)) (fun n hn => hstr n (by simp [hn])) ?_
    rw [edaL _ (fun _ => rfl) he, hlower (n := a.base_number) (by simp) (unwrap_eq_ok.mp hb)]
    rfl
  · obtain ⟨v, hv, rfl⟩ := inParens_eq_ok hb
    refine main false true true _ _ (hstr _ (by simp)) (fun n hn => hstr n (by simp [hn])) ?_
    rw [edaU _ (fun _ => rfl) he, hlower (n := a.base_number) (by simp) (unwrap_eq_ok.mp hv)]
  · obtain ⟨v, hv, rfl⟩ := inParens_eq_ok hb
    refine main true false true _ _ (hstr _ (by simp)) (fun n hn => hstr n (by simp [hn])) ?_
    rw [edaL _ (fun _ => rfl) he, hupper (n := a.base_number) (by simp) (unwrap_eq_ok.mp hv)]

/-- A heading is read with the wrong pattern. -/
example : parseItemNumber romanExt "（ｉｘ）のＩ".toList =
    .ok (some ⟨"（ｉｘ）のＩ".toList, 9, [1], [], .parenZenkakuRomanLower⟩) :=
  C62_roman_read romanExt romanExt_reads ⟨9, [1], []⟩ .parenZenkakuRomanUpper _ _ (by simp) rfl
    (by
      intro n hn
      simp only [components, List.append_nil, List.mem_cons, List.not_mem_nil, or_false] at hn
      rcases hn with rfl | rfl
      · exact ⟨by decide, "IX".toList, rfl, by decide⟩
      · exact ⟨by decide, "I".toList, rfl, by decide⟩) rfl

/-- A heading is not read. -/
example : parseItemNumber romanExt "V".toList = .ok none :=
  C62_roman_not_read romanExt ⟨5, [], []⟩ .noParenZenkakuRomanUpper _ (by simp) rfl 5
    (by simp [components]) "V".toList rfl 'V' (by simp) (by simp)

end JLaw
