import Verif.Lemmas.ItemText

/-!
# Headings in hiragana and roman numerals
-/

namespace JLaw

open Spec

variable {β : Type}

/-- A heading without branch numbers. -/
theorem captures_single {p : Char → Bool} (hp : p ∈ itemKinds) (paren : Bool)
    {w : List Char} (hne : w ≠ []) (hw : w.all p = true) :
    reItem.captures (itemWord paren w) = some [("base_number", itemWord paren w)] := by
  have key := first_itemNumber (β := Caps) hp hne hw paren (rest := []) (fun _ => trivial)
    (k := fun x => (Re.seqs [.opt (.cap "eda_numbers" (.plus (.seq (.ch 'の') .itemNumber))),
      .opt (.seqs [.lit ['か', 'ら'], .cap "base_number2" .itemNumber,
        .opt (.cap "eda_numbers2" (.plus (.seq (.ch 'の') .itemNumber))), .lit ['ま', 'で']]),
      .eos]).first x.2 fun y => some (("base_number", (itemWord paren w).take
        ((itemWord paren w).length - x.2.length)) :: (x.1 ++ y.1)))
    (by simp [Re.seqs, Re.opt, Re.plus, Re.ch, Re.lit])
  rw [List.append_nil] at key
  rw [Re.captures_eq, reItem, Re.seqs, Re.first_seq, Re.first_cap]
  · simp only [List.cons_append]
    refine key.trans ?_
    simp [Re.seqs, Re.opt, Re.plus, Re.ch, Re.lit]
  · simp

theorem trim_word {p : Char → Bool} (hp : p ∈ itemKinds) (paren : Bool) {w : List Char}
    (hw : w.all p = true) : trim (itemWord paren w) = itemWord paren w := by
  have := trim_item hp hp paren hw (ws := []) (by simp)
  simpa [itemFlat, flat] using this

theorem parse_single (E : Ext) {p : Char → Bool} (hp : p ∈ itemKinds) (paren : Bool)
    {w : List Char} (hne : w ≠ []) (hw : w.all p = true) :
    parseItemNumber E (itemWord paren w) = (parseItemNumberBase E (itemWord paren w)).bind fun o =>
      .ok (o.map fun x => ⟨itemWord paren w, x.2, [], [], x.1⟩) := by
  have hcap := captures_single hp paren hne hw
  rw [parseItemNumber, trim_word hp paren hw, hcap]
  simp only [Res.unwrap, Caps.name, List.reverse_cons, List.reverse_nil, List.nil_append,
    List.lookup_cons, beq_self_eq_true, Res.bind_ok]
  congr 1
  funext o
  cases o with
  | none => rfl
  | some x => rfl

/-! ## Hiragana -/

/-- Branch numbers in hiragana after a number in parentheses are one run of hiragana. -/
theorem captures_hiragana {w t : List Char} (hne : w ≠ []) (hw : w.all (between 'あ' 'ん') = true)
    (htne : t ≠ []) (ht : t.all (between 'あ' 'ん') = true) :
    reItem.captures (itemWord true w ++ 'の' :: t) =
      some [("base_number", itemWord true w), ("eda_numbers", 'の' :: t)] := by
  have hp : between 'あ' 'ん' ∈ itemKinds := by simp [itemKinds]
  have hstar : ∀ (k : Caps × List Char → Option Caps),
      (Re.star (.seq (.ch 'の') .itemNumber)).first [] k = k ([], []) := by
    intro k
    rw [Re.first_star]; simp [Re.ch]
  have key := first_itemNumber (β := Caps) hp htne ht false (rest := []) (fun _ => trivial)
    (k := fun x => (Re.star (.seq (.ch 'の') .itemNumber)).first x.2 fun x' =>
      (Re.seqs [.opt (.seqs [.lit ['か', 'ら'], .cap "base_number2" .itemNumber,
        .opt (.cap "eda_numbers2" (.plus (.seq (.ch 'の') .itemNumber))), .lit ['ま', 'で']]),
      .eos]).first x'.2 fun y => some (("base_number", itemWord true w) ::
        ("eda_numbers", ('の' :: t).take (('の' :: t).length - x'.2.length)) :: (x.1 ++ x'.1 ++ y.1)))
    (by rw [hstar]; simp [Re.seqs, Re.opt, Re.ch, Re.lit])
  rw [List.append_nil, hstar] at key
  rw [Re.captures_eq, reItem, Re.seqs, Re.first_seq, Re.first_cap]
  · rw [first_itemNumber hp hne hw true (fun h => by cases h)]
    · simp only [take_run]
      rw [Re.seqs, Re.first_seq, Re.opt, Re.first_alt, Re.first_cap, Re.plus, Re.first_seq,
        Re.first_seq, Re.first_ch]
      · simp only [List.nil_append, List.cons_append, List.append_nil] at key ⊢
        refine Eq.trans (congrArg₂ Option.or key rfl) ?_
        simp [Re.seqs, Re.opt, Re.ch, Re.lit]
      · simp
    · simp only [take_run]
      rw [Re.seqs, Re.first_seq, Re.opt, Re.first_alt, Re.first_cap, Re.plus, Re.first_seq,
        Re.first_seq, Re.first_ch]
      · simp only [List.nil_append, List.cons_append, List.append_nil] at key ⊢
        refine Eq.trans (congrArg Option.isSome (congrArg₂ Option.or key rfl)) ?_
        simp [Re.seqs, Re.opt, Re.ch, Re.lit]
      · simp
  · simp

theorem splitC_single (c : Char) (ws : List Char) :
    splitC 'の' (itemFlat (ws.map fun c => [c])) ≠ [] ∧
    (splitC 'の' (c :: itemFlat (ws.map fun c => [c]))).filter (fun w => !w.isEmpty) =
      ((c :: ws).filter fun c => c ≠ 'の').map fun c => [c] := by
  induction ws generalizing c with
  | nil =>
    refine ⟨by decide, ?_⟩
    by_cases h : c = 'の' <;> simp [itemFlat, flat, splitC, h]
  | cons d ws ih =>
    have hx : itemFlat ((d :: ws).map fun c => [c]) = 'の' :: d :: itemFlat (ws.map fun c => [c]) := rfl
    rw [hx]
    have h2 := (ih d).2
    refine ⟨by simp [splitC], ?_⟩
    have h3 : splitC 'の' ('の' :: d :: itemFlat (ws.map fun c => [c])) =
        [] :: splitC 'の' (d :: itemFlat (ws.map fun c => [c])) := by
      rw [splitC, if_pos rfl]
    by_cases h : c = 'の'
    · rw [splitC, if_pos h, h3]
      simp only [List.filter_cons, List.isEmpty_nil, Bool.not_true, Bool.false_eq_true, if_false]
      rw [h2]
      simp [h, List.filter_cons]
    · rw [splitC, if_neg h, h3]
      simp only [List.filter_cons, List.isEmpty_cons, Bool.not_false, if_true]
      rw [h2]
      simp [h, List.filter_cons]

theorem pieces_single (ws : List Char) :
    noPieces (itemFlat (ws.map fun c => [c])) = (ws.filter fun c => c ≠ 'の').map fun c => [c] := by
  cases ws with
  | nil => decide
  | cons d ws =>
    have hx : itemFlat ((d :: ws).map fun c => [c]) = 'の' :: d :: itemFlat (ws.map fun c => [c]) := rfl
    rw [noPieces, hx, splitC, if_pos rfl]
    exact (splitC_single d ws).2

theorem hiragana_all {l : List Usize} {g : Usize → List Char}
    (h : ∀ n ∈ l, toIrohaHiragana n = some (g n)) :
    (itemFlat (l.map g)).all (between 'あ' 'ん') = true := by
  rw [List.all_eq_true]
  intro c hc
  rcases itemFlat_mem (p := between 'あ' 'ん') (ws := l.map g) (by
    intro w hw
    obtain ⟨n, hn, rfl⟩ := List.mem_map.mp hw
    have := hiragana_word (h n hn)
    exact ⟨this.1, this.2.1⟩) hc with rfl | hc
  · decide
  · exact hc

/-! ## Characters of a match -/

/-- The characters that a pattern can match. -/
def Re.allows : Re → Char → Bool
  | .eps, _ | .eos, _ => false
  | .cls p, c => p c
  | .seq a b, c | .alt a b, c => a.allows c || b.allows c
  | .star a, c | .cap _ a, c => a.allows c

theorem run_allows (r : Re) : ∀ s, ∀ x ∈ r.run s, ∃ w, s = w ++ x.2 ∧ ∀ c ∈ w, r.allows c = true := by
  induction r with
  | eps => intro s x hx; simp [Re.run] at hx; exact ⟨[], by simp [hx], by simp⟩
  | cls p =>
    intro s x hx
    obtain ⟨c, hs, hc, -⟩ := mem_cls.mp hx
    exact ⟨[c], hs, by simpa [Re.allows] using hc⟩
  | eos =>
    intro s x hx
    simp only [Re.run] at hx
    split at hx
    · rename_i h
      simp at hx
      exact ⟨[], by simp [hx, h], by simp⟩
    · simp at hx
  | seq a b iha ihb =>
    intro s x hx
    obtain ⟨y, hy, z, hz, rfl⟩ := mem_seq.mp hx
    obtain ⟨w, hs, hw⟩ := iha s y hy
    obtain ⟨w', hs', hw'⟩ := ihb _ z hz
    refine ⟨w ++ w', by rw [hs, hs']; simp, ?_⟩
    intro c hc
    rw [Re.allows, Bool.or_eq_true]
    rcases List.mem_append.mp hc with hc | hc
    · exact Or.inl (hw c hc)
    · exact Or.inr (hw' c hc)
  | alt a b iha ihb =>
    intro s x hx
    simp only [Re.run, List.mem_append] at hx
    rcases hx with hx | hx
    · obtain ⟨w, hs, hw⟩ := iha s x hx
      exact ⟨w, hs, fun c hc => by rw [Re.allows, hw c hc]; rfl⟩
    · obtain ⟨w, hs, hw⟩ := ihb s x hx
      exact ⟨w, hs, fun c hc => by rw [Re.allows, hw c hc]; simp⟩
  | star a iha =>
    intro s x hx
    obtain ⟨ws, hws, hs⟩ := mem_star (P := fun w => ∀ c ∈ w, a.allows c = true)
      (fun s x hx => by
        obtain ⟨w, h1, h2⟩ := iha s x hx
        exact ⟨w, h2, h1⟩) s x hx
    refine ⟨ws.flatten, hs, ?_⟩
    intro c hc
    obtain ⟨w, hw, hcw⟩ := List.mem_flatten.mp hc
    exact hws w hw c hcw
  | cap n a iha =>
    intro s x hx
    obtain ⟨y, hy, hyx⟩ := mem_cap hx
    obtain ⟨w, hs, hw⟩ := iha s y hy
    exact ⟨w, by rw [hs, hyx], hw⟩

/-- A text with a character that no number contains is no item number. -/
theorem reItem_none {s : List Char} {c : Char} (hc : c ∈ s) (h : reItem.allows c = false) :
    reItem.captures s = none := by
  rw [Re.captures]
  cases hr : reItem.run s with
  | nil => rfl
  | cons x l =>
    exfalso
    have hx : x ∈ reItem.run s := by rw [hr]; simp
    obtain ⟨w, hs, hw⟩ := run_allows reItem s x hx
    have hx2 : x.2 = [] := by
      simp only [reItem, Re.seqs] at hx
      obtain ⟨y, -, z, hz, rfl⟩ := mem_seq.mp hx
      obtain ⟨y', -, z', hz', rfl⟩ := mem_seq.mp hz
      obtain ⟨y'', -, z'', hz'', rfl⟩ := mem_seq.mp hz'
      simp only [Re.run] at hz''
      split at hz''
      · simp at hz''; simp [hz'']
      · simp at hz''
    rw [hx2, List.append_nil] at hs
    subst hs
    rw [hw c hc] at h
    cases h

theorem mem_trim {s : List Char} {c : Char} (hc : c ∈ s) (h : isSpace c = false) : c ∈ trim s := by
  have drop : ∀ l : List Char, c ∈ l → c ∈ l.dropWhile isSpace := by
    intro l
    induction l with
    | nil => simp
    | cons d l ih =>
      intro hc
      rw [List.dropWhile_cons]
      split
      · rename_i hd
        rcases List.mem_cons.mp hc with rfl | hc
        · rw [h] at hd; cases hd
        · exact ih hc
      · exact hc
  rw [trim, List.mem_reverse]
  apply drop
  rw [List.mem_reverse]
  exact drop s hc

theorem parse_item_none (E : Ext) {s : List Char} {c : Char} (hc : c ∈ s) (h : isSpace c = false)
    (ha : reItem.allows c = false) : parseItemNumber E s = .ok none := by
  rw [parseItemNumber, reItem_none (mem_trim hc h) ha]

/-! ## Roman numerals -/

/-- One letter in upper case, full width. -/
def romanUp (c : Char) : Char :=
  [('I', 'Ｉ'), ('X', 'Ｘ'), ('L', 'Ｌ'), ('C', 'Ｃ')].foldl (fun c p => if c = p.1 then p.2 else c) c

/-- One letter in lower case, full width. -/
def romanLow (c : Char) : Char :=
  [('I', 'ｉ'), ('X', 'ｘ'), ('L', 'ｌ'), ('C', 'ｃ')].foldl (fun c p => if c = p.1 then p.2 else c) c

/-- A letter in one of the cases. -/
def romanCase (up : Bool) (c : Char) : Char := if up then romanUp c else romanLow c

theorem toZenkakuRomanUpper_eq (E : Ext) (n : Usize) :
    toZenkakuRomanUpper E n = (E.romanStr (asI32 n)).map (List.map (romanCase true)) := by
  unfold toZenkakuRomanUpper
  congr 1
  funext s
  rw [replaceAll_eq]; rfl

theorem toZenkakuRomanLower_eq (E : Ext) (n : Usize) :
    toZenkakuRomanLower E n = (E.romanStr (asI32 n)).map (List.map (romanCase false)) := by
  unfold toZenkakuRomanLower
  congr 1
  funext s
  rw [replaceAll_eq]; rfl

theorem asI32_small {n : Usize} (h : n.val < 2147483648) : asI32 n = (n.val : Int) := by
  have hm : n.val % 4294967296 = n.val := Nat.mod_eq_of_lt (by omega)
  rw [asI32, hm, if_pos h]

theorem i32AsUsize_small {n : Usize} : i32AsUsize (n.val : Int) = n := by
  apply Fin.ext
  have : ((n.val : Int) % 18446744073709551616).toNat = n.val := by
    have := n.isLt
    omega
  rw [i32AsUsize, this]
  exact Nat.mod_eq_of_lt n.isLt

/-- One letter as `parse_roman` replaces it. -/
def romanNarrow (c : Char) : Char :=
  [('i', 'I'), ('x', 'X'), ('l', 'L'), ('c', 'C'), ('ｉ', 'I'), ('ｘ', 'X'),
    ('ｌ', 'L'), ('ｃ', 'C'), ('Ｉ', 'I'), ('Ｘ', 'X'), ('Ｌ', 'L'), ('Ｃ', 'C')].foldl
    (fun c p => if c = p.1 then p.2 else c) c

theorem parseRoman_eq (E : Ext) (s : List Char) :
    parseRoman E s = (E.romanNum (s.map romanNarrow)).map i32AsUsize := by
  rw [parseRoman, replaceAll_eq]; rfl

/-- The letters of one of the cases. -/
def letters (up : Bool) : Char → Bool := if up then between 'Ａ' 'Ｚ' else between 'ａ' 'ｚ'

theorem roman_letters : ∀ c ∈ "IXLC".toList, ∀ up, letters up (romanCase up c) = true ∧
    "ixvlcIXVLCｉｘｖｌｃＩＸＶＬＣ".toList.contains (romanCase up c) = true ∧
    romanNarrow (romanCase up c) = c := by decide +kernel

attribute [irreducible] romanNarrow romanCase

/-- What a short roman numeral looks like and how it is read. -/
theorem roman_word {E : Ext} (hE : ReadsRoman E) {n : Usize} (h : ShortRoman E n) (up : Bool) :
    ∃ t, E.romanStr (asI32 n) = some t ∧ t.map (romanCase up) ≠ [] ∧
      (t.map (romanCase up)).all (letters up) = true ∧
      isRoman (t.map (romanCase up)) = true ∧
      parseRoman E (t.map (romanCase up)) = some n := by
  obtain ⟨hn, t, ht, hc⟩ := h
  obtain ⟨-, -, hne, -, hr⟩ := hE _ _ ht
  refine ⟨t, by rw [asI32_small hn]; exact ht, by simpa using hne, ?_, ?_, ?_⟩
  · rw [List.all_map, List.all_eq_true]
    intro c hct
    exact (roman_letters c (hc c hct) up).1
  · obtain ⟨c, t', rfl⟩ := List.exists_cons_of_ne_nil hne
    rw [isRoman, List.map_cons, List.any_cons, Bool.or_eq_true]
    left
    exact (roman_letters c (hc c (by simp)) up).2.1
  · rw [parseRoman_eq, List.map_map]
    have : t.map (romanNarrow ∘ romanCase up) = t := by
      conv => rhs; rw [← List.map_id t]
      apply List.map_congr_left
      intro c hct
      exact (roman_letters c (hc c hct) up).2.2
    rw [this, hr]
    simp only [Option.map_some, Option.some.injEq]
    exact i32AsUsize_small

theorem base_roman {E : Ext} (hE : ReadsRoman E) {n : Usize} (h : ShortRoman E n) (up paren : Bool)
    {t : List Char} (ht : E.romanStr (asI32 n) = some t) :
    parseItemNumberBase E (itemWord paren (t.map (romanCase up))) =
      .ok (some (match up, paren with
        | true, true => .parenZenkakuRomanUpper
        | true, false => .noParenZenkakuRomanUpper
        | false, true => .parenZenkakuRomanLower
        | false, false => .noParenZenkakuRomanLower, n)) := by
  obtain ⟨t', ht', hne, hall, hrom, hp⟩ := roman_word hE h up
  rw [ht] at ht'
  cases ht'
  cases up <;> cases paren
  · rw [parseItemNumberBase_eq E (n := "no_paren_zenkaku_lower") false (by simp [noParenNames, letters]) hne hall
      (f := readLetters E .noParenZenkakuRomanLower .noParenZenkakuLower) fun _ _ => rfl,
      readLetters, if_pos hrom, hp]
    rfl
  · rw [parseItemNumberBase_eq E (n := "paren_zenkaku_lower") true (by simp [parenNames, letters]) hne hall
      (f := readLetters E .parenZenkakuRomanLower .parenZenkakuLower) fun _ _ => rfl,
      readLetters, if_pos hrom, hp]
    rfl
  · rw [parseItemNumberBase_eq E (n := "no_paren_zenkaku_upper") false (by simp [noParenNames, letters]) hne hall
      (f := readLetters E .noParenZenkakuRomanUpper .noParenZenkakuUpper) fun _ _ => rfl,
      readLetters, if_pos hrom, hp]
    rfl
  · rw [parseItemNumberBase_eq E (n := "paren_zenkaku_upper") true (by simp [parenNames, letters]) hne hall
      (f := readLetters E .parenZenkakuRomanUpper .parenZenkakuUpper) fun _ _ => rfl,
      readLetters, if_pos hrom, hp]
    rfl

/-- The words of all numbers occur in the heading. -/
theorem itemText_mem (E : Ext) (p : ItemPattern) {a : ArticleNumber} {t : List Char}
    (h : a.itemText E p = .ok t) {n : Usize} (hn : n ∈ components a) :
    (∃ w, p.numToStr E n = .ok w ∧ ∀ c ∈ w, c ∈ t) ∨
    ∃ w, p.numToStrNoParen E n = .ok w ∧ ∀ c ∈ w, c ∈ t := by
  have eda : ∀ {l : List Usize} {t : List Char}, p.edaText E l = .ok t → ∀ n ∈ l,
      ∃ w, p.numToStrNoParen E n = .ok w ∧ ∀ c ∈ w, c ∈ t := by
    intro l
    induction l with
    | nil => intro t _ n hn; simp at hn
    | cons m l ih =>
      intro t h n hn
      rw [ItemPattern.edaText, collectRes] at h
      obtain ⟨b, hb, h⟩ := Res.bind_eq_ok.mp h
      obtain ⟨w, hw, hb⟩ := Res.bind_eq_ok.mp hb
      obtain ⟨bs, hbs, h⟩ := Res.bind_eq_ok.mp h
      simp only [Res.ok.injEq] at hb h
      subst hb h
      rcases List.mem_cons.mp hn with rfl | hn
      · exact ⟨w, hw, fun c hc => by simp [hc]⟩
      · obtain ⟨w', hw', hc'⟩ := ih hbs n hn
        exact ⟨w', hw', fun c hc => by simp [hc' c hc]⟩
  obtain ⟨b, hb, h⟩ := Res.bind_eq_ok.mp h
  obtain ⟨e, he, h⟩ := Res.bind_eq_ok.mp h
  obtain ⟨base, l, range⟩ := a
  cases range with
  | nil =>
    simp only [Res.ok.injEq] at h
    simp only [components, List.append_nil] at hn
    subst h
    rcases List.mem_cons.mp hn with rfl | hn
    · exact Or.inl ⟨b, hb, fun c hc => by simp [hc]⟩
    · obtain ⟨w, hw, hc'⟩ := eda he n hn
      exact Or.inr ⟨w, hw, fun c hc => by simp [hc' c hc]⟩
  | cons r range =>
    obtain ⟨b2, hb2, h⟩ := Res.bind_eq_ok.mp h
    obtain ⟨e2, he2, h⟩ := Res.bind_eq_ok.mp h
    simp only [Res.ok.injEq] at h
    simp only [components, List.cons_append, List.mem_cons, List.mem_append] at hn
    subst h
    rcases hn with rfl | hn | rfl | hn
    · exact Or.inl ⟨b, hb, fun c hc => by simp [hc]⟩
    · obtain ⟨w, hw, hc'⟩ := eda he n hn
      exact Or.inr ⟨w, hw, fun c hc => by simp [hc' c hc]⟩
    · exact Or.inl ⟨b2, hb2, fun c hc => by simp [hc]⟩
    · obtain ⟨w, hw, hc'⟩ := eda he2 n hn
      exact Or.inr ⟨w, hw, fun c hc => by simp [hc' c hc]⟩

/-- A few roman numerals: an instance that satisfies `ReadsRoman`. -/
def romanExt : Ext where
  kansujiStr _ := []
  kansujiNum _ := none
  romanStr i := [(1, "I".toList), (2, "II".toList), (5, "V".toList), (9, "IX".toList)].lookup i
  romanNum s := [("I".toList, 1), ("II".toList, 2), ("V".toList, 5), ("IX".toList, 9)].lookup s

theorem romanExt_reads : ReadsRoman romanExt := by
  intro i t h
  simp only [romanExt, List.lookup] at h
  repeat' split at h
  all_goals first
    | (cases h; rename_i hi; rw [beq_iff_eq] at hi; subst hi; decide)
    | cases h

end JLaw
