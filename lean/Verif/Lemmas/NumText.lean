import Verif.Lemmas.Num
import Verif.Lemmas.ReadArticle
import Verif.Spec.NumText

/-!
# Lemmas about number texts
-/

namespace JLaw

/-! ## Digits -/

theorem replaceAll_eq (l : List (Char × Char)) (s : List Char) :
    replaceAll l s = s.map fun c => l.foldl (fun c p => if c = p.1 then p.2 else c) c := by
  induction l generalizing s with
  | nil => simp [replaceAll]
  | cons p l ih =>
    have := ih (replaceC p.1 p.2 s)
    simp only [replaceAll, List.foldl_cons] at this ⊢
    rw [this, replaceC, List.map_map]
    rfl

/-- One character of `parse_zenkaku_num`. -/
def narrow (c : Char) : Char :=
  [('０', '0'), ('１', '1'), ('２', '2'), ('３', '3'), ('４', '4'), ('５', '5'),
    ('６', '6'), ('７', '7'), ('８', '8'), ('９', '9')].foldl
    (fun c p => if c = p.1 then p.2 else c) c

/-- One character of `to_zenkaku_num`. -/
def widen (c : Char) : Char :=
  [('0', '０'), ('1', '１'), ('2', '２'), ('3', '３'), ('4', '４'), ('5', '５'),
    ('6', '６'), ('7', '７'), ('8', '８'), ('9', '９')].foldl
    (fun c p => if c = p.1 then p.2 else c) c

theorem parseZenkakuNum_eq (s : List Char) : parseZenkakuNum s = parseUsize (s.map narrow) := by
  rw [parseZenkakuNum, replaceAll_eq]; rfl

theorem toZenkakuNum_eq (n : Usize) : toZenkakuNum n = (digits n.val).map widen := by
  rw [toZenkakuNum, replaceAll_eq]; rfl

theorem char_eq_of_toNat {c d : Char} (h : c.toNat = d.toNat) : c = d := by
  apply Char.ext
  apply UInt32.toNat_inj.mp
  exact h

theorem isDigit_mem {c : Char} (h : isDigit c = true) : c ∈ "0123456789".toList := by
  simp only [isDigit, Bool.and_eq_true, decide_eq_true_eq] at h
  have h10 : ∀ i, i < 10 → ∃ d ∈ "0123456789".toList, d.toNat = 48 + i := by decide
  obtain ⟨d, hd, he⟩ := h10 (c.toNat - 48) (by omega)
  rw [char_eq_of_toNat (c := c) (d := d) (by omega)]
  exact hd

theorem isZenkaku_mem {c : Char} (h : isZenkaku c = true) : c ∈ "０１２３４５６７８９".toList := by
  have h' : 65296 ≤ c.toNat ∧ c.toNat ≤ 65305 := by
    simpa [isZenkaku, between] using h
  have h10 : ∀ i, i < 10 → ∃ d ∈ "０１２３４５６７８９".toList, d.toNat = 65296 + i := by decide
  obtain ⟨d, hd, he⟩ := h10 (c.toNat - 65296) (by omega)
  rw [char_eq_of_toNat (c := c) (d := d) (by omega)]
  exact hd

theorem widen_digit {c : Char} (h : isDigit c = true) :
    isZenkaku (widen c) = true ∧ narrow (widen c) = c :=
  (by decide : ∀ c ∈ "0123456789".toList, isZenkaku (widen c) = true ∧ narrow (widen c) = c) c
    (isDigit_mem h)

theorem narrow_zenkaku {c : Char} (h : isZenkaku c = true) :
    isDigit (narrow c) = true ∧ (narrow c).toNat - '0'.toNat = c.toNat - '０'.toNat :=
  (by decide : ∀ c ∈ "０１２３４５６７８９".toList,
    isDigit (narrow c) = true ∧ (narrow c).toNat - '0'.toNat = c.toNat - '０'.toNat) c
    (isZenkaku_mem h)

theorem narrow_other {c : Char} (h : isZenkaku c = false) : narrow c = c := by
  have hc : ∀ d ∈ "０１２３４５６７８９".toList, c ≠ d := by
    rintro d hd rfl
    have := (by decide : ∀ d ∈ "０１２３４５６７８９".toList, isZenkaku d = true) c hd
    rw [h] at this; cases this
  have : ∀ l : List (Char × Char), (∀ p ∈ l, c ≠ p.1) →
      l.foldl (fun c p => if c = p.1 then p.2 else c) c = c := by
    intro l hl
    induction l with
    | nil => rfl
    | cons p l ih =>
      rw [List.foldl_cons, if_neg (hl p (by simp))]
      exact ih fun q hq => hl q (by simp [hq])
  apply this
  intro p hp
  apply hc
  exact (by decide : ∀ p ∈ [('０', '0'), ('１', '1'), ('２', '2'), ('３', '3'), ('４', '4'), ('５', '5'),
    ('６', '6'), ('７', '7'), ('８', '8'), ('９', '9')], p.1 ∈ "０１２３４５６７８９".toList) p hp

attribute [irreducible] narrow widen

theorem asciiNumber_iff {ds : List Char} :
    Spec.AsciiNumber ds ↔ ds ≠ [] ∧ ds.all isDigit = true := by
  simp [Spec.AsciiNumber, isDigit]

theorem wideNumber_iff {ds : List Char} :
    Spec.WideNumber ds ↔ ds ≠ [] ∧ ds.all isZenkaku = true := by
  simp [Spec.WideNumber, isZenkaku, between]

theorem kanjiNumber_iff {ds : List Char} :
    Spec.KanjiNumber ds ↔ ds ≠ [] ∧ ds.all isKansuji = true := by
  simp [Spec.KanjiNumber, Spec.kanji, isKansuji]

theorem anyNumber_iff {ds : List Char} : Spec.AnyNumber ds ↔ NumIn kinds ds := by
  simp only [Spec.AnyNumber, asciiNumber_iff, wideNumber_iff, kanjiNumber_iff, NumIn, kinds,
    List.mem_cons, List.not_mem_nil, or_false, exists_eq_or_imp, exists_eq_left]
  constructor
  · rintro (⟨h, h'⟩ | ⟨h, h'⟩ | ⟨h, h'⟩)
    · exact ⟨h, Or.inl h'⟩
    · exact ⟨h, Or.inr (Or.inl h')⟩
    · exact ⟨h, Or.inr (Or.inr h')⟩
  · rintro ⟨h, h' | h' | h'⟩
    · exact Or.inl ⟨h, h'⟩
    · exact Or.inr (Or.inl ⟨h, h'⟩)
    · exact Or.inr (Or.inr ⟨h, h'⟩)

theorem digitNumber_iff {ds : List Char} : Spec.DigitNumber ds ↔ NumIn kindsP ds := by
  simp only [Spec.DigitNumber, asciiNumber_iff, wideNumber_iff, NumIn, kindsP,
    List.mem_cons, List.not_mem_nil, or_false, exists_eq_or_imp, exists_eq_left]
  constructor
  · rintro (⟨h, h'⟩ | ⟨h, h'⟩)
    · exact ⟨h, Or.inr h'⟩
    · exact ⟨h, Or.inl h'⟩
  · rintro ⟨h, h' | h'⟩
    · exact Or.inr ⟨h, h'⟩
    · exact Or.inl ⟨h, h'⟩

theorem isUnit_iff {c : Char} : isUnit c = true ↔ c ∈ Spec.units := by
  simp [isUnit, Spec.units]

theorem isSep_iff {c : Char} : isSep c = true ↔ Spec.IsSeparator c := by
  simp [isSep, Spec.IsSeparator]

theorem flat_eq (bs : List (Char × List Char)) : flat bs = Spec.branches bs := by
  simp [flat, Spec.branches, List.flatMap_def]

/-- `parse::<usize>` on ASCII digits. -/
theorem parseUsize_ascii {ds : List Char} (h : Spec.AsciiNumber ds) :
    parseUsize ds = if h : Spec.value '0' ds < Spec.limit then some ⟨Spec.value '0' ds, h⟩ else none := by
  obtain ⟨hne, hall⟩ := asciiNumber_iff.mp h
  have hs : stripPlus ds = ds := stripPlus_of_digits ds (by
    intro c hc
    exact h.2 c hc)
  have hv : digitsVal 0 ds = Spec.value '0' ds := by
    rw [digitsVal_eq_decimal]; rfl
  simp only [parseUsize, hs, hne, if_false, hall, if_true, hv]
  rfl

theorem value_narrow {ds : List Char} (h : ds.all isZenkaku = true) :
    Spec.value '0' (ds.map narrow) = Spec.value '０' ds := by
  have key : ∀ v : Nat, (ds.map narrow).foldl (fun v c => v * 10 + (c.toNat - '0'.toNat)) v =
      ds.foldl (fun v c => v * 10 + (c.toNat - '０'.toNat)) v := by
    induction ds with
    | nil => intro v; rw [List.map_nil, List.foldl_nil, List.foldl_nil]
    | cons c ds ih =>
      intro v
      simp only [List.all_cons, Bool.and_eq_true] at h
      rw [List.map_cons, List.foldl_cons, List.foldl_cons, ih h.2, (narrow_zenkaku h.1).2]
  exact key 0

/-- `parse_zenkaku_num` on full-width digits. -/
theorem parseZenkakuNum_wide {ds : List Char} (h : Spec.WideNumber ds) :
    parseZenkakuNum ds =
      if h : Spec.value '０' ds < Spec.limit then some ⟨Spec.value '０' ds, h⟩ else none := by
  obtain ⟨hne, hall⟩ := wideNumber_iff.mp h
  have hn : Spec.AsciiNumber (ds.map narrow) := by
    rw [asciiNumber_iff]
    refine ⟨by simpa using hne, ?_⟩
    rw [List.all_map, List.all_eq_true]
    intro c hc
    exact (narrow_zenkaku (List.all_eq_true.mp hall c hc)).1
  rw [parseZenkakuNum_eq, parseUsize_ascii hn]
  simp only [value_narrow hall]

theorem parseZenkakuNum_ascii {ds : List Char} (h : ds.all isDigit = true) :
    parseZenkakuNum ds = parseUsize ds := by
  rw [parseZenkakuNum_eq, show ds.map narrow = ds from ?_]
  rw [List.all_eq_true] at h
  conv => rhs; rw [← List.map_id ds]
  apply List.map_congr_left
  intro c hc
  exact narrow_other (digit_zenkaku (h c hc))

theorem parseUsize_none {s : List Char} {c : Char} (hc : c ∈ s) (h : isDigit c = false)
    (hp : c ≠ '+') : parseUsize s = none := by
  cases hs : parseUsize s with
  | none => rfl
  | some n =>
    obtain ⟨ds, hds, -, hall, -⟩ := (parseUsize_iff s n).mp hs
    have hcd : c ∈ ds := by
      rcases hds with rfl | rfl
      · exact hc
      · simpa [hp] using hc
    have := hall c hcd
    have hd : isDigit c = true := by
      simp only [isDigit, Bool.and_eq_true, decide_eq_true_eq]
      exact this
    rw [h] at hd; cases hd

theorem zenkaku_not {c : Char} (h : isZenkaku c = true) : isDigit c = false ∧ c ≠ '+' :=
  (by decide : ∀ c ∈ "０１２３４５６７８９".toList, isDigit c = false ∧ c ≠ '+') c (isZenkaku_mem h)

theorem parseUsize_wide {ds : List Char} (h : Spec.WideNumber ds) : parseUsize ds = none := by
  obtain ⟨hne, hall⟩ := wideNumber_iff.mp h
  cases ds with
  | nil => exact absurd rfl hne
  | cons c ds =>
    simp only [List.all_cons, Bool.and_eq_true] at hall
    exact parseUsize_none (c := c) (by simp) (zenkaku_not hall.1).1 (zenkaku_not hall.1).2

theorem parseZenkakuNum_none {s : List Char} {c : Char} (hc : c ∈ s) (h : isDigit c = false)
    (hz : isZenkaku c = false) (hp : c ≠ '+') : parseZenkakuNum s = none := by
  rw [parseZenkakuNum_eq]
  apply parseUsize_none (c := c) _ h hp
  rw [List.mem_map]
  exact ⟨c, hc, narrow_other hz⟩

theorem parse_kanji {ds : List Char} (h : Spec.KanjiNumber ds) :
    parseUsize ds = none ∧ parseZenkakuNum ds = none := by
  obtain ⟨hne, hall⟩ := kanjiNumber_iff.mp h
  cases ds with
  | nil => exact absurd rfl hne
  | cons c ds =>
    simp only [List.all_cons, Bool.and_eq_true] at hall
    have hk := (by decide : ∀ c ∈ "一二三四五六七八九十百千".toList,
      isDigit c = false ∧ isZenkaku c = false ∧ c ≠ '+') c (isKansuji_mem.mp hall.1)
    exact ⟨parseUsize_none (c := c) (by simp) hk.1 hk.2.2,
      parseZenkakuNum_none (c := c) (by simp) hk.1 hk.2.1 hk.2.2⟩

theorem toZenkakuNum_wide (n : Usize) : Spec.WideNumber (toZenkakuNum n) := by
  rw [wideNumber_iff, toZenkakuNum_eq]
  refine ⟨by simpa using digits_ne_nil n.val, ?_⟩
  rw [List.all_map, List.all_eq_true]
  intro c hc
  exact (widen_digit (List.all_eq_true.mp (digits_all n.val) c hc)).1

theorem parse_toZenkakuNum (n : Usize) : parseZenkakuNum (toZenkakuNum n) = some n := by
  rw [parseZenkakuNum_eq, toZenkakuNum_eq, List.map_map,
    show (digits n.val).map (narrow ∘ widen) = digits n.val from ?_, parseUsize_digits]
  conv => rhs; rw [← List.map_id (digits n.val)]
  apply List.map_congr_left
  intro c hc
  exact (widen_digit (List.all_eq_true.mp (digits_all n.val) c hc)).2

/-! ## Branch numbers -/

theorem splitC_flat {bs : List (Char × List Char)} (h : ∀ b ∈ bs, b.1 = 'の' ∧ 'の' ∉ b.2)
    {w : List Char} (hw : 'の' ∉ w) : splitC 'の' (w ++ flat bs) = w :: bs.map Prod.snd := by
  induction bs generalizing w with
  | nil => simp [flat, splitC_of_not_mem hw]
  | cons b bs ih =>
    obtain ⟨h1, h2⟩ := h b (by simp)
    rw [flat_cons, h1, List.cons_append, splitC_append _ hw, ih (fun b hb => h b (by simp [hb])) h2]
    rfl

theorem pieces_flat {bs : List (Char × List Char)}
    (h : ∀ b ∈ bs, b.1 = 'の' ∧ 'の' ∉ b.2 ∧ b.2 ≠ []) : noPieces (flat bs) = bs.map Prod.snd := by
  have := splitC_flat (bs := bs) (fun b hb => ⟨(h b hb).1, (h b hb).2.1⟩) (w := []) (by simp)
  simp only [List.nil_append] at this
  rw [noPieces, this]
  simp only [List.filter_cons, List.isEmpty_nil, Bool.not_true, Bool.false_eq_true, if_false]
  rw [List.filter_eq_self]
  intro w hw
  obtain ⟨b, hb, rfl⟩ := List.mem_map.mp hw
  simpa using (h b hb).2.2

theorem numIn_not_mem {ds : List Char} (h : NumIn kinds ds) {c : Char}
    (hc : ∀ p ∈ kinds, p c = false) : c ∉ ds := by
  obtain ⟨-, p, hp, hall⟩ := h
  intro hm
  have := List.all_eq_true.mp hall c hm
  rw [hc p hp] at this; cases this

theorem numIn_sub {ds : List Char} (h : NumIn kindsP ds) : NumIn kinds ds := by
  obtain ⟨hne, p, hp, hall⟩ := h
  exact ⟨hne, p, kindsP_sub hp, hall⟩

theorem isBranch_num {ps : List (Char → Bool)} {b : Char × List Char} (h : IsBranch isSep ps b) :
    NumIn ps b.2 := h.2

theorem replace_flat {bs : List (Char × List Char)} (h : ∀ b ∈ bs, IsBranch isSep kinds b) :
    replaceC 'ノ' 'の' (flat bs) = flat (bs.map fun b => ('の', b.2)) := by
  induction bs with
  | nil => rfl
  | cons b bs ih =>
    have hb := h b (by simp)
    have hno : 'ノ' ∉ b.2 := numIn_not_mem (isBranch_num hb) (sep_kinds 'ノ' (by decide))
    have hmap : (b.2.map fun x => if x = 'ノ' then 'の' else x) = b.2 := by
      conv => rhs; rw [← List.map_id b.2]
      apply List.map_congr_left
      intro c hc
      rw [if_neg (by rintro rfl; exact hno hc)]; rfl
    have hfst : (if b.1 = 'ノ' then 'の' else b.1) = 'の' := by
      rcases isSep_iff.mp hb.1 with h | h <;> simp [h]
    have := ih fun b hb => h b (by simp [hb])
    simp only [replaceC] at this ⊢
    rw [flat_cons, List.map_append, List.map_cons, hmap, hfst, this]
    rfl

theorem pieces_replace {bs : List (Char × List Char)} (h : ∀ b ∈ bs, IsBranch isSep kinds b) :
    noPieces (replaceC 'ノ' 'の' (flat bs)) = bs.map Prod.snd := by
  rw [replace_flat h, pieces_flat]
  · simp
  · intro b hb
    obtain ⟨b', hb', rfl⟩ := List.mem_map.mp hb
    have := isBranch_num (h b' hb')
    exact ⟨rfl, numIn_not_mem this (sep_kinds 'の' (by decide)), this.1⟩

theorem allPieces_map (f : List Char → Option Usize) (ws : List (List Char)) (ns : List Usize)
    (h : List.Forall₂ (fun w n => f w = some n) ws ns) : allPieces f ws = some ns := by
  induction h with
  | nil => rfl
  | cons h _ ih => simp [allPieces, h, ih]

end JLaw
