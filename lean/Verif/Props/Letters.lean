import Verif.Props.FromText
import Verif.Props.LineKinds

/-!
# Letters as headings of items (C67)
-/

namespace JLaw

open Spec

/-- Full-width letters of one case. -/
def Spec.Letter (upper : Bool) (c : Char) : Prop :=
  if upper then 'Ａ'.toNat ≤ c.toNat ∧ c.toNat ≤ 'Ｚ'.toNat
  else 'ａ'.toNat ≤ c.toNat ∧ c.toNat ≤ 'ｚ'.toNat

/-- Letters taken for roman numerals. -/
def Spec.romanLetters : List Char := "ＩＸＶＬＣｉｘｖｌｃ".toList

/-- The pattern of a heading in letters. -/
def Spec.letterPattern (roman upper paren : Bool) : ItemPattern :=
  match roman, upper, paren with
  | true, true, true => .parenZenkakuRomanUpper
  | true, true, false => .noParenZenkakuRomanUpper
  | true, false, true => .parenZenkakuRomanLower
  | true, false, false => .noParenZenkakuRomanLower
  | false, true, true => .parenZenkakuUpper
  | false, true, false => .noParenZenkakuUpper
  | false, false, true => .parenZenkakuLower
  | false, false, false => .noParenZenkakuLower

/-- A word, in parentheses or not. -/
def Spec.enclosed (paren : Bool) (w : List Char) : List Char := if paren then '（' :: w ++ ['）'] else w

theorem letters_all {upper : Bool} {w : List Char} (h : ∀ c ∈ w, Letter upper c) :
    w.all (letters upper) = true := by
  rw [List.all_eq_true]
  intro c hc
  have := h c hc
  cases upper with
  | true => simpa [letters, between, Letter] using this
  | false => simpa [letters, between, Letter] using this

theorem letters_kind (upper : Bool) : letters upper ∈ itemKinds := by
  cases upper <;> simp [letters, itemKinds]

theorem base_letters (E : Ext) {upper paren : Bool} {w : List Char} (hne : w ≠ [])
    (hw : ∀ c ∈ w, Letter upper c) :
    parseItemNumberBase E (itemWord paren w) =
      (readLetters E (letterPattern true upper paren) (letterPattern false upper paren) w).bind
        fun r => .ok (some r) := by
  have hall := letters_all hw
  cases upper <;> cases paren
  · exact parseItemNumberBase_eq E (n := "no_paren_zenkaku_lower") false
      (by simp [noParenNames, letters]) hne hall fun _ _ => rfl
  · exact parseItemNumberBase_eq E (n := "paren_zenkaku_lower") true
      (by simp [parenNames, letters]) hne hall fun _ _ => rfl
  · exact parseItemNumberBase_eq E (n := "no_paren_zenkaku_upper") false
      (by simp [noParenNames, letters]) hne hall fun _ _ => rfl
  · exact parseItemNumberBase_eq E (n := "paren_zenkaku_upper") true
      (by simp [parenNames, letters]) hne hall fun _ _ => rfl

theorem parse_letters (E : Ext) {upper paren : Bool} {w : List Char} (hne : w ≠ [])
    (hw : ∀ c ∈ w, Letter upper c) :
    parseItemNumber E (enclosed paren w) =
      (readLetters E (letterPattern true upper paren) (letterPattern false upper paren) w).bind
        fun x => .ok (some ⟨enclosed paren w, x.2, [], [], x.1⟩) := by
  have he : enclosed paren w = itemWord paren w := by cases paren <;> rfl
  rw [he, parse_single E (letters_kind upper) paren hne (letters_all hw), base_letters E hne hw,
    Res.bind_assoc]
  rfl

theorem isRoman_letters {upper : Bool} {w : List Char} (hw : ∀ c ∈ w, Letter upper c) :
    isRoman w = true ↔ ∃ c ∈ w, c ∈ romanLetters := by
  rw [isRoman, List.any_eq_true]
  refine exists_congr fun c => and_congr_right fun hc => ?_
  have hl := hw c hc
  rw [List.contains_iff_mem]
  constructor
  · intro h
    have : ∀ c ∈ "ixvlcIXVLCｉｘｖｌｃＩＸＶＬＣ".toList, c ∈ romanLetters ∨ c.toNat < 128 := by
      decide +kernel
    rcases this c h with h | h
    · exact h
    · exfalso
      cases upper <;> simp only [Letter, Bool.false_eq_true, if_false, if_true] at hl
      · have : 'ａ'.toNat = 65345 := rfl
        omega
      · have : 'Ａ'.toNat = 65313 := rfl
        omega
  · intro h
    have : ∀ c ∈ romanLetters, c ∈ "ixvlcIXVLCｉｘｖｌｃＩＸＶＬＣ".toList := by decide +kernel
    exact this c h

/-- C67. A single letter that is not taken for a roman numeral is read as its place in the alphabet. -/
theorem C67_single_letter (E : Ext) (upper paren : Bool) (c : Char) (hc : Letter upper c)
    (hr : c ∉ romanLetters) :
    ∃ n : Usize, parseItemNumber E (enclosed paren [c]) =
        .ok (some ⟨enclosed paren [c], n, [], [], letterPattern false upper paren⟩) ∧
      1 ≤ n.val ∧ n.val ≤ 26 ∧
      c.toNat + 1 = (if upper then 'Ａ' else 'ａ').toNat + n.val := by
  have hw : ∀ d ∈ [c], Letter upper d := by simpa using hc
  have hrom : isRoman [c] = false := by
    rw [← Bool.not_eq_true, isRoman_letters hw]
    simpa using hr
  rw [parse_letters E (by simp) hw, readLetters, hrom]
  simp only [Bool.false_eq_true, if_false]
  have hv : ∀ k : Nat, k < 27 → 1 ≤ k → parseUsize (digits k) = some (asUsize k) ∧ (asUsize k).val = k := by
    intro k hk hk1
    have : ∀ k : Fin 27, parseUsize (digits k.val) = some (asUsize k.val) ∧ (asUsize k.val).val = k.val := by
      decide +kernel
    exact this ⟨k, hk⟩
  cases upper
  · simp only [Letter, Bool.false_eq_true, if_false] at hc
    have e1 : 'ａ'.toNat = 65345 := rfl
    have e2 : 'ｚ'.toNat = 65370 := rfl
    obtain ⟨h1, h2⟩ := hv (c.toNat - 0xFF40) (by omega) (by omega)
    refine ⟨asUsize (c.toNat - 0xFF40), ?_, by omega, by omega, ?_⟩
    · rw [parseZenkakuAlphabet]
      simp only [List.flatMap_cons, List.flatMap_nil, List.append_nil]
      rw [if_neg (by omega), h1]
      rfl
    · rw [h2]; simp only [Bool.false_eq_true, if_false]; omega
  · simp only [Letter, if_true] at hc
    have e1 : 'Ａ'.toNat = 65313 := rfl
    have e2 : 'Ｚ'.toNat = 65338 := rfl
    obtain ⟨h1, h2⟩ := hv (c.toNat - 0xFF20) (by omega) (by omega)
    refine ⟨asUsize (c.toNat - 0xFF20), ?_, by omega, by omega, ?_⟩
    · rw [parseZenkakuAlphabet]
      simp only [List.flatMap_cons, List.flatMap_nil, List.append_nil]
      rw [if_pos (by omega), h1]
      rfl
    · rw [h2]; simp only [if_true]; omega

/-- C67. The letters I, X, L and C are read as roman numerals, whatever the letters around them in a
list are: the pattern differs from that of the other letters. -/
theorem C67_roman_letter (E : Ext) (upper paren : Bool) (c d : Char) (i : Int)
    (hcd : (c, d, upper) ∈ [('Ｉ', 'I', true), ('Ｘ', 'X', true), ('Ｌ', 'L', true), ('Ｃ', 'C', true),
      ('ｉ', 'I', false), ('ｘ', 'X', false), ('ｌ', 'L', false), ('ｃ', 'C', false)])
    (hE : E.romanNum [d] = some i) :
    parseItemNumber E (enclosed paren [c]) =
      .ok (some ⟨enclosed paren [c], i32AsUsize i, [], [], letterPattern true upper paren⟩) := by
  have key : ∀ x ∈ [('Ｉ', 'I', true), ('Ｘ', 'X', true), ('Ｌ', 'L', true), ('Ｃ', 'C', true),
      ('ｉ', 'I', false), ('ｘ', 'X', false), ('ｌ', 'L', false), ('ｃ', 'C', false)],
      isRoman [x.1] = true ∧ romanNarrow x.1 = x.2.1 ∧ letters x.2.2 x.1 = true := by
    unfold romanNarrow
    decide +kernel
  obtain ⟨h1, h2, h3⟩ := key _ hcd
  simp only at h1 h2 h3
  have hc : Letter upper c := by
    cases upper <;> simpa [letters, between, Letter] using h3
  rw [parse_letters E (by simp) (by simpa using hc), readLetters, h1, if_pos rfl, parseRoman_eq]
  simp only [List.map_cons, List.map_nil, h2, hE, Option.map_some, Res.unwrap, Res.bind_ok]

/-- C67. A word with one of the letters taken for roman numerals and a letter other than I, X, L and C,
such as V, makes the reader panic. The crate is assumed to refuse texts with characters other than
its seven letters. -/
theorem C67_mixed_letters_panic (E : Ext) (upper paren : Bool) (w : List Char)
    (hw : ∀ c ∈ w, Letter upper c) (hr : ∃ c ∈ w, c ∈ romanLetters)
    (ho : ∃ c ∈ w, c ∉ "ＩＸＬＣｉｘｌｃ".toList)
    (hE : ∀ s, (∃ c ∈ s, c ∉ "IVXLCDM".toList) → E.romanNum s = none) :
    parseItemNumber E (enclosed paren w) = .panic := by
  have hne : w ≠ [] := by
    rintro rfl
    obtain ⟨c, hc, -⟩ := hr
    cases hc
  rw [parse_letters E hne hw, readLetters, (isRoman_letters hw).mpr hr, if_pos rfl, parseRoman_eq, hE]
  · rfl
  · obtain ⟨c, hc, hc'⟩ := ho
    refine ⟨romanNarrow c, List.mem_map_of_mem hc, ?_⟩
    have hl := hw c hc
    have hbig : 65313 ≤ c.toNat := by
      cases upper <;> simp only [Letter, Bool.false_eq_true, if_false, if_true] at hl
      · have : 'ａ'.toNat = 65345 := rfl
        omega
      · have : 'Ａ'.toNat = 65313 := rfl
        omega
    have hsame : romanNarrow c = c := by
      have hsmall : ∀ d ∈ ['i', 'x', 'l', 'c'], c ≠ d := by
        rintro d hd rfl
        simp only [List.mem_cons, List.not_mem_nil, or_false] at hd
        rcases hd with rfl | rfl | rfl | rfl <;> exact absurd hbig (by decide)
      have hwide : ∀ d ∈ "ＩＸＬＣｉｘｌｃ".toList, c ≠ d := by
        rintro d hd rfl
        exact hc' hd
      have f1 := hsmall 'i' (by simp)
      have f2 := hsmall 'x' (by simp)
      have f3 := hsmall 'l' (by simp)
      have f4 := hsmall 'c' (by simp)
      have g1 := hwide 'Ｉ' (by decide +kernel)
      have g2 := hwide 'Ｘ' (by decide +kernel)
      have g3 := hwide 'Ｌ' (by decide +kernel)
      have g4 := hwide 'Ｃ' (by decide +kernel)
      have g5 := hwide 'ｉ' (by decide +kernel)
      have g6 := hwide 'ｘ' (by decide +kernel)
      have g7 := hwide 'ｌ' (by decide +kernel)
      have g8 := hwide 'ｃ' (by decide +kernel)
      unfold romanNarrow
      simp only [List.foldl_cons, List.foldl_nil, f1, f2, f3, f4, g1, g2, g3, g4, g5, g6, g7, g8,
        if_false]
    rw [hsame]
    intro hm
    have : ∀ d ∈ "IVXLCDM".toList, d.toNat < 128 := by decide +kernel
    have := this c hm
    omega

/-- C67. Different words of letters are read as the same number. -/
theorem C67_letters_collide (E : Ext) :
    parseItemNumber E ['Ａ', 'Ａ'] = .ok (some ⟨['Ａ', 'Ａ'], 11, [], [], .noParenZenkakuUpper⟩) ∧
    parseItemNumber E ['Ｋ'] = .ok (some ⟨['Ｋ'], 11, [], [], .noParenZenkakuUpper⟩) := by
  have h1 := parse_letters E (upper := true) (paren := false) (w := ['Ａ', 'Ａ']) (by simp)
    (by unfold Letter; decide)
  have h2 := parse_letters E (upper := true) (paren := false) (w := ['Ｋ']) (by simp)
    (by unfold Letter; decide)
  rw [readLetters, show isRoman ['Ａ', 'Ａ'] = false by decide +kernel] at h1
  rw [readLetters, show isRoman ['Ｋ'] = false by decide +kernel] at h2
  rw [show parseZenkakuAlphabet ['Ａ', 'Ａ'] = some 11 by decide +kernel] at h1
  rw [show parseZenkakuAlphabet ['Ｋ'] = some 11 by decide +kernel] at h2
  exact ⟨h1, h2⟩

/-- The lines of a text, when the text is put together from lines. -/
theorem readLines_join (E : Ext) {lines : List (List Char)} (hn : ∀ l ∈ lines, '\n' ∉ l)
    (hne : ∀ l ∈ lines, l ≠ []) :
    readLines E (List.intercalate ['\n'] lines) = mapRes (parseLineContents E) lines := by
  cases lines with
  | nil => rfl
  | cons l0 lines =>
    rw [readLines, strLines, splitC_intercalate _ _ (by simp) hn]
    clear hn
    generalize l0 :: lines = ls at hne
    induction ls with
    | nil => rfl
    | cons l ls ih =>
      have hl : parseLineContents E (trim (stripCR l)) = parseLineContents E l :=
        line_trim E (by rw [trim_trim, trim_stripCR])
      have hl' : parseLineContents E (trim l) = parseLineContents E l :=
        line_trim E (by rw [trim_trim])
      cases ls with
      | nil =>
        have : linesOf [l] = [l] := by simp [linesOf, hne l (by simp)]
        rw [this, mapRes, mapRes, hl']
        rfl
      | cons l' ls =>
        have ih := ih fun l h => hne l (by simp [h])
        simp only [linesOf] at ih ⊢
        rw [mapRes, mapRes, hl, ih]

theorem headed_ne_nil {line h t : List Char} (hl : Headed line h t) : line ≠ [] := by
  rintro rfl
  obtain ⟨pre, bs, post, he, -, -, ⟨hh, -⟩, -⟩ := hl
  simp at he
  exact hh he.2.1

/-- C67. In a list of items （ａ）, （ｂ）, （ｃ） of an article the third item is nested in the second and
has the number 100. -/
theorem C67_third_letter_nested {L : Lvl} (E : Ext) (hE : ReadsKansuji E)
    (hC : E.romanNum ['C'] = some 100) (a : ArticleNumber)
    (ha : ∀ n ∈ components a, 1 ≤ n.val ∧ n.val ≤ 9999) (l0 l1 l2 l3 s0 s1 s2 s3 : List Char)
    (h0 : Headed l0 (a.articleText E) s0) (h1 : Headed l1 "（ａ）".toList s1)
    (h2 : Headed l2 "（ｂ）".toList s2) (h3 : Headed l3 "（ｃ）".toList s3)
    (hn : ∀ l ∈ [l0, l1, l2, l3], '\n' ∉ l) (title : List Char) :
    ∃ b : LawBody L, (∀ fuel, 4 < fuel →
      parseBody E fuel title (List.intercalate ['\n'] [l0, l1, l2, l3]) = .ok (some b)) ∧
    (document b).filterMap (fun x =>
      match x with
      | .item d n _ => some (d, n)
      | _ => none) =
      [(1, some ⟨1, [], []⟩), (1, some ⟨2, [], []⟩), (2, some ⟨100, [], []⟩)] := by
  obtain ⟨n1, e1, -, -, v1⟩ := C67_single_letter E false true 'ａ' (by unfold Letter; decide)
    (by decide +kernel)
  obtain ⟨n2, e2, -, -, v2⟩ := C67_single_letter E false true 'ｂ' (by unfold Letter; decide)
    (by decide +kernel)
  have e3 := C67_roman_letter E false true 'ｃ' 'C' 100 (by simp) hC
  have hn1 : n1 = 1 := by
    have : n1.val = 1 := by
      have : 'ａ'.toNat = 65345 := rfl
      simp only [Bool.false_eq_true, if_false] at v1
      omega
    exact Fin.ext this
  have hn2 : n2 = 2 := by
    have : n2.val = 2 := by
      have : 'ａ'.toNat = 65345 := rfl
      have : 'ｂ'.toNat = 65346 := rfl
      simp only [Bool.false_eq_true, if_false] at v2
      omega
    exact Fin.ext this
  subst hn1 hn2
  have r0 := (C64_headings E hE a ha l0 s0).2.2.2.2.2 h0
  have r1 := C64_item E l1 _ s1 _ h1 e1 (by decide +kernel)
  have r2 := C64_item E l2 _ s2 _ h2 e2 (by decide +kernel)
  have r3 := C64_item E l3 _ s3 _ h3 e3 (by decide +kernel)
  have hls := readLines_join E hn (by
    intro l hl
    simp only [List.mem_cons, List.not_mem_nil, or_false] at hl
    rcases hl with rfl | rfl | rfl | rfl
    · exact headed_ne_nil h0
    · exact headed_ne_nil h1
    · exact headed_ne_nil h2
    · exact headed_ne_nil h3)
  simp only [mapRes, r0, r1, r2, r3, Res.bind_ok] at hls
  obtain ⟨b, hb⟩ := (C51_termination (L := L) E title _ _ hls (by
    rintro ⟨d, n, p, hm, hd⟩
    simp [meaning, next, start, nest, contributes, saying, letterPattern] at hm
    omega)).2 (by
      rintro ⟨t, r, h⟩
      simp [leftOver, next, start, nest, letterPattern] at h)
  refine ⟨b, hb, ?_⟩
  obtain ⟨ls, hls', hd⟩ := C52_document E 5 title _ b (hb 5 (by simp))
  rw [hls] at hls'
  cases hls'
  rw [hd]
  simp [meaning, next, start, nest, contributes, saying, letterPattern]
  rfl

/-- Lines of an article with three such items. -/
example (title : List Char) : ∃ b : LawBody Lvl.zero, ∀ fuel, 4 < fuel →
    parseBody { kanjiExt with romanNum := fun s => if s = ['C'] then some 100 else none } fuel title
      "第一条　次のとおり\n（ａ）　甲\n（ｂ）　乙\n（ｃ）　丙".toList = .ok (some b) := by
  have hh : ∀ (h t : List Char), h ≠ [] → (∀ c ∈ h, c ∉ blanks) → t ≠ [] → Trimmed t → '\n' ∉ t →
      Headed (h ++ ("　".toList ++ t)) h t := fun h t h1 h2 h3 h4 h5 =>
    ⟨[], "　".toList, [], by simp, by unfold Blank; decide, by unfold Blank; decide, ⟨h1, h2⟩,
      ⟨by decide, by unfold Blank; decide +kernel⟩, h3, h4, h5⟩
  obtain ⟨b, hb, -⟩ := C67_third_letter_nested (L := Lvl.zero)
    { kanjiExt with romanNum := fun s => if s = ['C'] then some 100 else none }
    (fun n h1 h2 => kanjiExt_reads n h1 h2) rfl ⟨1, [], []⟩ (by simp [components]) _ _ _ _
    "次のとおり".toList "甲".toList "乙".toList "丙".toList
    (hh "第一条".toList _ (by decide) (by decide +kernel) (by decide) ⟨by decide +kernel, by decide +kernel⟩
      (by decide +kernel))
    (hh _ _ (by decide) (by decide +kernel) (by decide) ⟨by decide +kernel, by decide +kernel⟩
      (by decide +kernel))
    (hh _ _ (by decide) (by decide +kernel) (by decide) ⟨by decide +kernel, by decide +kernel⟩
      (by decide +kernel))
    (hh _ _ (by decide) (by decide +kernel) (by decide) ⟨by decide +kernel, by decide +kernel⟩
      (by decide +kernel)) (by decide +kernel) title
  exact ⟨b, hb⟩

example : parseItemNumber romanExt "（ｂ）".toList =
    .ok (some ⟨"（ｂ）".toList, 2, [], [], .parenZenkakuLower⟩) := by
  obtain ⟨n, h, -, -, v⟩ := C67_single_letter romanExt false true 'ｂ' (by unfold Letter; decide)
    (by decide +kernel)
  have : n = 2 := by
    have : n.val = 2 := by
      have : 'ａ'.toNat = 65345 := rfl
      have : 'ｂ'.toNat = 65346 := rfl
      simp only [Bool.false_eq_true, if_false] at v
      omega
    exact Fin.ext this
  subst this
  exact h

example : parseItemNumber romanExt "ＩＴ".toList = .panic :=
  C67_mixed_letters_panic romanExt true false "ＩＴ".toList (by unfold Letter; decide +kernel)
    ⟨'Ｉ', by decide +kernel, by decide +kernel⟩ ⟨'Ｔ', by decide +kernel, by decide +kernel⟩ (by
      rintro s ⟨c, hc, hc'⟩
      simp only [romanExt]
      have : ∀ x ∈ ["I".toList, "II".toList, "V".toList, "IX".toList], ∀ c ∈ x, c ∈ "IVXLCDM".toList := by
        decide +kernel
      have hs : ∀ x ∈ ["I".toList, "II".toList, "V".toList, "IX".toList], (s == x) = false := by
        intro x hx
        rw [beq_eq_false_iff_ne]
        rintro rfl
        exact hc' (this _ hx c hc)
      simp only [List.lookup, hs _ (List.mem_cons_self ..), hs "II".toList (by simp),
        hs "V".toList (by simp), hs "IX".toList (by simp)])

end JLaw
