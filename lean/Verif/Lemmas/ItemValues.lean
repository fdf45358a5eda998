import Verif.Lemmas.ItemMatch
import Verif.Lemmas.Scan
import Verif.Props.Letters

/-!
# The values of the words in numbers of items
-/

namespace JLaw

open Spec.Scan

/-! ## Scripts -/

/-- The class of the pattern for a script. -/
def Spec.Scan.ItemScript.cls : ItemScript → Char → Bool
  | .katakana => between 'ア' 'ン'
  | .hiragana => between 'あ' 'ん'
  | .kanji => isKansuji
  | .wide => isZenkaku
  | .upper => between 'Ａ' 'Ｚ'
  | .lower => between 'ａ' 'ｚ'

theorem itemCls_mem (k : ItemScript) : k.cls ∈ itemKinds := by
  cases k <;> simp [ItemScript.cls, itemKinds]

theorem itemCls_of {p : Char → Bool} (h : p ∈ itemKinds) : ∃ k : ItemScript, p = k.cls := by
  simp only [itemKinds, List.mem_cons, List.not_mem_nil, or_false] at h
  rcases h with rfl | rfl | rfl | rfl | rfl | rfl
  · exact ⟨.katakana, rfl⟩
  · exact ⟨.hiragana, rfl⟩
  · exact ⟨.kanji, rfl⟩
  · exact ⟨.wide, rfl⟩
  · exact ⟨.upper, rfl⟩
  · exact ⟨.lower, rfl⟩

theorem itemScript_iff (c : Char) (k : ItemScript) : itemScript c = some k ↔ k.cls c = true := by
  have hb : ∀ a b : Char, (between a b c = true) = (a.toNat ≤ c.toNat ∧ c.toNat ≤ b.toNat) := by
    intro a b
    simp [between]
  have h3 : (isKansuji c = true) = (c ∈ Spec.kanji) := by
    simp [isKansuji, Spec.kanji]
  have h4 : (isZenkaku c = true) = ('０'.toNat ≤ c.toNat ∧ c.toNat ≤ '９'.toNat) := by
    simp [isZenkaku, between]
  have r1 := @katakana_range c
  have r2 := @hiragana_range c
  have r3 := @kansuji_range c
  have r4 := @zenkaku_range c
  have r5 := @upper_range c
  have r6 := @lower_range c
  simp only [itemScript, ← hb, ← h3]
  cases k <;> simp only [ItemScript.cls] <;> split <;> (try split) <;> (try split) <;> (try split) <;>
    (try split) <;> (try split) <;> simp_all <;>
    (intros; first | omega | (intro hx; have := r3 hx; omega))

theorem itemScript_eq (k : ItemScript) : (fun d => decide (itemScript d = some k)) = k.cls := by
  funext d
  rw [Bool.eq_iff_iff, decide_eq_true_iff, itemScript_iff]

theorem isWord_iff (w : List Char) : IsWord w ↔ Word w := by
  constructor
  · rintro ⟨k, v, hne, hv, h⟩
    have hr : IsRun v := ⟨k.cls, itemCls_mem k, hne, List.all_eq_true.mpr fun c hc =>
      (itemScript_iff c k).mp (hv c hc)⟩
    rcases h with rfl | rfl
    · exact Or.inl hr
    · exact Or.inr ⟨v, hr, rfl⟩
  · have run : ∀ v, IsRun v → ∃ k, v ≠ [] ∧ ∀ c ∈ v, itemScript c = some k := by
      rintro v ⟨p, hp, hne, hv⟩
      obtain ⟨k, rfl⟩ := itemCls_of hp
      exact ⟨k, hne, fun c hc => (itemScript_iff c k).mpr (List.all_eq_true.mp hv c hc)⟩
    rintro (h | ⟨v, h, rfl⟩)
    · obtain ⟨k, hne, hv⟩ := run w h
      exact ⟨k, w, hne, hv, Or.inl rfl⟩
    · obtain ⟨k, hne, hv⟩ := run v h
      exact ⟨k, v, hne, hv, Or.inr rfl⟩

theorem isBranches_iff (e : List Char) : IsBranches e ↔ Branches e := by
  simp only [IsBranches, Branches, isWord_iff]

theorem isRangeEnd_iff (r : List Char) : IsRangeEnd r ↔ Range r := by
  simp only [IsRangeEnd, Range, isWord_iff, isBranches_iff]

/-! ## The word at the start of a text -/

/-- The name of the group for a script. -/
def groupOf (paren : Bool) (k : ItemScript) : String :=
  (if paren then "paren_" else "no_paren_") ++ match k with
    | .katakana => "iroha_katakana"
    | .hiragana => "iroha_hiragana"
    | .kanji => "kansuji"
    | .wide => "zenkaku_num"
    | .upper => "zenkaku_upper"
    | .lower => "zenkaku_lower"

theorem groupOf_mem (paren : Bool) (k : ItemScript) :
    (groupOf paren k, k.cls) ∈ if paren then parenNames else noParenNames := by
  cases paren <;> cases k <;> simp [ItemScript.cls, parenNames, noParenNames, groupOf]

theorem itemStart_some {s : List Char} {paren : Bool} {k : ItemScript} {w : List Char}
    (h : itemStart s = some (paren, k, w)) : ∃ rest, s = itemWord paren w ++ rest ∧ w ≠ [] ∧
      w.all k.cls = true ∧ (paren = false → Ends k.cls rest) := by
  cases s with
  | nil => simp [itemStart] at h
  | cons c s =>
    simp only [itemStart] at h
    split at h
    · rename_i hc
      subst hc
      cases s with
      | nil => simp at h
      | cons d s =>
        simp only at h
        split at h
        · cases h
        · rename_i l hl
          split at h
          · rename_i hd
            simp only [Option.some.injEq, Prod.mk.injEq] at h
            obtain ⟨rfl, rfl, rfl⟩ := h
            rw [itemScript_eq] at hd ⊢
            obtain ⟨rest, hr⟩ : ∃ rest, s.dropWhile l.cls = '）' :: rest := by
              cases hx : s.dropWhile l.cls with
              | nil => rw [hx] at hd; cases hd
              | cons x rest =>
                rw [hx] at hd
                simp only [List.head?_cons, Option.some.injEq] at hd
                exact ⟨rest, by rw [hd]⟩
            refine ⟨rest, ?_, by simp, ?_, fun h => by cases h⟩
            · have := List.takeWhile_append_dropWhile (p := l.cls) (l := s)
              rw [hr] at this
              simp only [itemWord, if_true, List.cons_append, List.append_assoc, List.nil_append, this]
            · simp only [List.all_cons, List.all_takeWhile, Bool.and_true]
              exact (itemScript_iff _ _).mp hl
          · cases h
    · split at h
      · cases h
      · rename_i l hl
        simp only [Option.some.injEq, Prod.mk.injEq] at h
        obtain ⟨rfl, rfl, rfl⟩ := h
        rw [itemScript_eq]
        refine ⟨s.dropWhile l.cls, ?_, by simp, ?_, fun _ => ends_dropWhile _ _⟩
        · simp [itemWord]
        · simp only [List.all_cons, List.all_takeWhile, Bool.and_true]
          exact (itemScript_iff _ _).mp hl

theorem itemStart_of {paren : Bool} {k : ItemScript} {w rest : List Char} (hne : w ≠ [])
    (hw : w.all k.cls = true) (hr : paren = false → Ends k.cls rest) :
    itemStart (itemWord paren w ++ rest) = some (paren, k, w) := by
  obtain ⟨c, w, rfl⟩ := List.exists_cons_of_ne_nil hne
  simp only [List.all_cons, Bool.and_eq_true] at hw
  have hk := (itemScript_iff c k).mpr hw.1
  cases paren with
  | true =>
    have he : Ends k.cls ('）' :: rest) := (itemKinds_paren (itemCls_mem k)).2
    have := takeWhile_run hw.2 he
    simp only [itemWord, if_true, List.cons_append, List.append_assoc, itemStart, hk, itemScript_eq,
      List.nil_append, this.1, this.2, List.head?_cons]
  | false =>
    have hc : c ≠ '（' := by
      rintro rfl
      rw [(itemKinds_paren (itemCls_mem k)).1] at hw
      cases hw.1
    have := takeWhile_run hw.2 (hr rfl)
    simp only [itemWord, Bool.false_eq_true, if_false, List.cons_append, itemStart, hc, hk, itemScript_eq,
      this.1]

theorem named_ends {l : List (String × (Char → Bool))} (hl : l.map Prod.snd = itemKinds) {s : List Char}
    (h : ∀ p ∈ itemKinds, Ends p s) : ∀ x ∈ l, Ends x.2 s := by
  intro x hx
  exact h x.2 (hl ▸ List.mem_map_of_mem (f := Prod.snd) hx)

theorem itemBase_none {s : List Char} (h : itemStart s = none) : reItemBase.captures s = none := by
  have none_ends : ∀ c t, itemScript c = none → ∀ p ∈ itemKinds, Ends p (c :: t) := by
    intro c t hc p hp
    obtain ⟨k, rfl⟩ := itemCls_of hp
    simp only [Ends]
    cases hk : k.cls c with
    | false => rfl
    | true =>
      rw [(itemScript_iff c k).mpr hk] at hc
      cases hc
  rw [Re.captures_eq, reItemBase, Re.first_cap, Re.first_alt]
  have plain : (∀ p ∈ itemKinds, Ends p s) → ∀ k : Caps × List Char → Option Caps,
      (Re.alts [.cap "no_paren_iroha_katakana" .katakana,
        .cap "no_paren_iroha_hiragana" .hiragana, .cap "no_paren_kansuji" .kansuji,
        .cap "no_paren_zenkaku_num" .zenkaku, .cap "no_paren_zenkaku_upper" .upper,
        .cap "no_paren_zenkaku_lower" .lower]).first s k = none :=
    fun he k => first_named_none (l := noParenNames) k (named_ends rfl he)
  cases s with
  | nil =>
    rw [plain fun p hp => trivial]
    simp [Re.seqs, Re.ch]
  | cons c s =>
    simp only [itemStart] at h
    split at h
    · rename_i hc
      subst hc
      rw [plain fun p hp => (itemKinds_paren hp).1, Option.or_none]
      simp only [Re.seqs, Re.first_seq]
      rw [Re.first_ch]
      cases s with
      | nil => exact first_named_none (l := parenNames) _ (named_ends rfl fun p hp => trivial)
      | cons d s =>
        simp only at h
        split at h
        · rename_i hd
          exact first_named_none (l := parenNames) _ (named_ends rfl (none_ends d s hd))
        · rename_i l hl
          split at h
          · cases h
          · rename_i hd
            have hn : (groupOf true l, l.cls) ∈ parenNames := groupOf_mem true l
            rw [itemScript_eq] at hd
            have hs : d :: s = (d :: s.takeWhile l.cls) ++ s.dropWhile l.cls := by simp
            rw [hs]
            refine (first_named (l := parenNames) itemKinds_disjoint itemKinds_nodup hn (by simp) ?_
              (ends_dropWhile _ _) ?_).trans ?_
            · simp only [List.all_cons, List.all_takeWhile, Bool.and_true]
              exact (itemScript_iff _ _).mp hl
            · right
              intro w c t hc
              apply Re.first_ch_none
              rintro rfl
              rw [(itemKinds_paren (itemCls_mem l)).2] at hc
              cases hc
            · cases hx : s.dropWhile l.cls with
              | nil => simp [Re.ch]
              | cons x rest =>
                apply Re.first_ch_none
                rintro rfl
                rw [hx] at hd
                exact hd rfl
    · rename_i hc
      split at h
      · rename_i hd
        rw [plain (none_ends c s hd), Option.or_none]
        simp only [Re.seqs, Re.first_seq]
        rw [Re.first_ch_none hc]
      · cases h

/-! ## Values -/

theorem place_lookup (order : List Char) (m : Nat) (table : List (Char × Usize))
    (h : table.map (fun x => (x.1, x.2.val)) = (order.zipIdx (m + 1))) (c : Char) :
    (place c order).bind (fun n => fit (n + m)) = table.lookup c := by
  induction order generalizing m table with
  | nil =>
    cases table with
    | nil => rfl
    | cons x l => simp at h
  | cons d order ih =>
    cases table with
    | nil => simp at h
    | cons x table =>
      simp only [List.map_cons, List.zipIdx_cons, List.cons.injEq, Prod.mk.injEq] at h
      obtain ⟨⟨h1, h2⟩, h3⟩ := h
      obtain ⟨x1, x2⟩ := x
      simp only at h1 h2
      subst h1
      rw [place, List.lookup_cons]
      by_cases hc : c = x1
      · subst hc
        simp only [if_true, Option.bind_some, beq_self_eq_true]
        rw [fit, dif_pos (by have := x2.isLt; have : Spec.limit = 18446744073709551616 := rfl; omega)]
        congr 1
        apply Fin.ext
        simp only
        omega
      · have hb : (c == x1) = false := by simpa using hc
        rw [if_neg hc, hb, ← ih (m + 1) table h3]
        cases place c order with
        | none => rfl
        | some n =>
          show fit (n + 1 + m) = fit (n + (m + 1))
          rw [Nat.add_assoc, Nat.add_comm 1]

theorem parseIrohaKatakana_kana (w : List Char) : parseIrohaKatakana w = kanaValue Spec.irohaKatakana w := by
  rcases w with _ | ⟨c, _ | ⟨d, w⟩⟩
  · rfl
  · exact (place_lookup Spec.irohaKatakana 0 parseIrohaKatakana.table (by decide +kernel) c).symm
  · rfl

theorem parseIrohaHiragana_kana (w : List Char) : parseIrohaHiragana w = kanaValue Spec.irohaHiragana w := by
  rcases w with _ | ⟨c, _ | ⟨d, w⟩⟩
  · rfl
  · exact (place_lookup Spec.irohaHiragana 0 parseIrohaHiragana.table (by decide +kernel) c).symm
  · rfl

theorem romanNarrow_wide {c : Char} (h : 65313 ≤ c.toNat) : romanNarrow c = Spec.Scan.narrow c := by
  have hsmall : ∀ d ∈ ['i', 'x', 'l', 'c'], c ≠ d := by
    rintro d hd rfl
    simp only [List.mem_cons, List.not_mem_nil, or_false] at hd
    rcases hd with rfl | rfl | rfl | rfl <;> exact absurd h (by decide)
  by_cases hm : c ∈ "ＩＸＬＣｉｘｌｃ".toList
  · have : ∀ c ∈ "ＩＸＬＣｉｘｌｃ".toList, romanNarrow c = Spec.Scan.narrow c := by
      unfold romanNarrow
      decide +kernel
    exact this c hm
  · have hwide : ∀ d ∈ "ＩＸＬＣｉｘｌｃ".toList, c ≠ d := by
      rintro d hd rfl
      exact hm hd
    have f1 := hsmall 'i' (by simp)
    have f2 := hsmall 'x' (by simp)
    have f3 := hsmall 'l' (by simp)
    have f4 := hsmall 'c' (by simp)
    have g1 := hwide 'Ｉ' (by decide +kernel)
    have g2 := hwide 'Ｘ' (by decide +kernel)
    have g3 := hwide 'Ｌ' (by decide +kernel)
    have g4 := hwide 'Ｃ' (by decide +kernel)
    have g5 := hwide 'ｉ' (by decide +kernel)
    have g6 := hwide 'ｘ' (by decide +kernel)
    have g7 := hwide 'ｌ' (by decide +kernel)
    have g8 := hwide 'ｃ' (by decide +kernel)
    unfold romanNarrow Spec.Scan.narrow
    simp only [List.foldl_cons, List.foldl_nil, f1, f2, f3, f4, g1, g2, g3, g4, g5, g6, g7, g8,
      if_false, or_self]

theorem value_digits (v n : Nat) (hn : n < 100) :
    (digits n).foldl (fun v c => v * 10 + (c.toNat - '0'.toNat)) v = v * (if n < 10 then 10 else 100) + n := by
  have : ∀ n : Fin 100, digits n.val = if n.val < 10 then [digitChar n.val]
      else [digitChar (n.val / 10), digitChar (n.val % 10)] := by decide +kernel
  have hd : ∀ n : Fin 10, (digitChar n.val).toNat - '0'.toNat = n.val := by decide +kernel
  have h1 := this ⟨n, hn⟩
  simp only at h1
  rw [h1]
  by_cases h : n < 10
  · have := hd ⟨n, h⟩
    simp only at this
    simp only [h, if_true, List.foldl_cons, List.foldl_nil, this]
  · have a := hd ⟨n / 10, by omega⟩
    have b := hd ⟨n % 10, by omega⟩
    simp only at a b
    simp only [h, if_false, List.foldl_cons, List.foldl_nil, a, b]
    omega

theorem parseZenkakuAlphabet_letters {upper : Bool} {w : List Char} (hne : w ≠ [])
    (hw : ∀ c ∈ w, Spec.Letter upper c) : parseZenkakuAlphabet w =
      fit (juxtaposed (w.map fun c => c.toNat - (if upper then 'Ａ' else 'ａ').toNat + 1)) := by
  have hv : ∀ c ∈ w, (if c.toNat < 0xFF41 then c.toNat - 0xFF20 else c.toNat - 0xFF40) =
      c.toNat - (if upper then 'Ａ' else 'ａ').toNat + 1 ∧
      c.toNat - (if upper then 'Ａ' else 'ａ').toNat + 1 < 100 := by
    intro c hc
    have h := hw c hc
    have n1 : 'Ａ'.toNat = 65313 := rfl
    have n2 : 'Ｚ'.toNat = 65338 := rfl
    have n3 : 'ａ'.toNat = 65345 := rfl
    have n4 : 'ｚ'.toNat = 65370 := rfl
    cases upper with
    | true =>
      simp only [Spec.Letter, if_true] at h ⊢
      rw [if_pos (by omega)]
      omega
    | false =>
      simp only [Spec.Letter, Bool.false_eq_true, if_false] at h ⊢
      rw [if_neg (by omega)]
      omega
  have hflat : (w.flatMap fun c =>
      digits (if c.toNat < 0xFF41 then c.toNat - 0xFF20 else c.toNat - 0xFF40)) =
      (w.map fun c => c.toNat - (if upper then 'Ａ' else 'ａ').toNat + 1).flatMap digits := by
    rw [List.flatMap_map]
    apply List.flatMap_congr
    intro c hc
    rw [(hv c hc).1]
  rw [parseZenkakuAlphabet, hflat]
  have hlt : ∀ n ∈ w.map (fun c => c.toNat - (if upper then 'Ａ' else 'ａ').toNat + 1), n < 100 := by
    intro n hn
    obtain ⟨c, hc, rfl⟩ := List.mem_map.mp hn
    exact (hv c hc).2
  have hne' : w.map (fun c => c.toNat - (if upper then 'Ａ' else 'ａ').toNat + 1) ≠ [] := by simpa using hne
  generalize w.map (fun c => c.toNat - (if upper then 'Ａ' else 'ａ').toNat + 1) = ns at hlt hne'
  have hasc : Spec.AsciiNumber (ns.flatMap digits) := by
    constructor
    · obtain ⟨n, ns, rfl⟩ := List.exists_cons_of_ne_nil hne'
      simp [digits_ne_nil]
    · intro c hc
      obtain ⟨n, -, hn⟩ := List.mem_flatMap.mp hc
      exact digits_mem hn
  have hval : ∀ v, (ns.flatMap digits).foldl (fun v c => v * 10 + (c.toNat - '0'.toNat)) v =
      ns.foldl (fun v n => v * (if n < 10 then 10 else 100) + n) v := by
    clear hne' hasc
    induction ns with
    | nil => intro v; rfl
    | cons n ns ih =>
      intro v
      rw [List.flatMap_cons, List.foldl_append, value_digits v n (hlt n (by simp)), List.foldl_cons,
        ih fun m hm => hlt m (by simp [hm])]
  have hvv : Spec.value '0' (ns.flatMap digits) = juxtaposed ns := hval 0
  rw [parseUsize_ascii hasc, fit]
  simp only [hvv]

theorem readLetters_value (E : Ext) {upper : Bool} {w : List Char} (hne : w ≠ [])
    (hw : ∀ c ∈ w, Spec.Letter upper c) (r a : ItemPattern) :
    readLetters E r a w = match letterValue E (if upper then 'Ａ' else 'ａ') w with
      | some x => .ok (if x.1 then r else a, x.2)
      | none => .panic := by
  rw [readLetters, letterValue, show "ＩＸＶＬＣｉｘｖｌｃ".toList = Spec.romanLetters from rfl]
  have hr := isRoman_letters hw
  by_cases h : ∃ c ∈ w, c ∈ Spec.romanLetters
  · rw [if_pos (hr.mpr h), if_pos h, parseRoman_eq]
    have : w.map romanNarrow = w.map Spec.Scan.narrow := by
      apply List.map_congr_left
      intro c hc
      apply romanNarrow_wide
      have hl := hw c hc
      cases upper <;> simp only [Spec.Letter, Bool.false_eq_true, if_false, if_true] at hl
      · have : 'ａ'.toNat = 65345 := rfl
        omega
      · have : 'Ａ'.toNat = 65313 := rfl
        omega
    rw [this]
    cases E.romanNum (w.map Spec.Scan.narrow) <;> rfl
  · rw [if_neg (fun x => h (hr.mp x)), if_neg h, parseZenkakuAlphabet_letters hne hw]
    cases fit (juxtaposed (w.map fun c => c.toNat - (if upper then 'Ａ' else 'ａ').toNat + 1)) <;> rfl

/-- What the code makes of a word. -/
theorem base_word (E : Ext) (paren : Bool) (k : ItemScript) {w : List Char} (hne : w ≠ [])
    (hw : w.all k.cls = true) (s : List Char) :
    firstBranch [("str", s), (groupOf paren k, w)] (itemBranches E) =
      match wordValue E paren k w with
      | some x => .ok x
      | none => .panic := by
  cases k with
  | katakana =>
    cases paren
    all_goals
      show (Res.unwrap (parseIrohaKatakana w)).bind _ = _
      rw [parseIrohaKatakana_kana, wordValue]
      cases kanaValue Spec.irohaKatakana w <;> rfl
  | hiragana =>
    cases paren
    all_goals
      show (Res.unwrap (parseIrohaHiragana w)).bind _ = _
      rw [parseIrohaHiragana_kana, wordValue]
      cases kanaValue Spec.irohaHiragana w <;> rfl
  | kanji =>
    cases paren
    all_goals
      show (Res.unwrap (E.kansujiUsize w)).bind _ = _
      rw [wordValue, kanjiValue, Ext.kansujiUsize]
      cases E.kansujiNum w <;> rfl
  | wide =>
    have hwide : Spec.WideNumber w := wideNumber_iff.mpr ⟨hne, hw⟩
    cases paren
    all_goals
      show (Res.unwrap (parseZenkakuNum w)).bind _ = _
      rw [wordValue, parseZenkakuNum_wide hwide, fit]
      by_cases h : Spec.value '０' w < Spec.limit
      · rw [dif_pos h]; rfl
      · rw [dif_neg h]; rfl
  | upper =>
    have hl : ∀ c ∈ w, Spec.Letter true c := by
      intro c hc
      have := List.all_eq_true.mp hw c hc
      simpa [ItemScript.cls, between, Spec.Letter] using this
    cases paren
    all_goals
      show readLetters E _ _ w = _
      rw [readLetters_value E hne hl, wordValue]
      simp only [if_true]
      rcases letterValue E 'Ａ' w with _ | ⟨_ | _, x⟩ <;> rfl
  | lower =>
    have hl : ∀ c ∈ w, Spec.Letter false c := by
      intro c hc
      have := List.all_eq_true.mp hw c hc
      simpa [ItemScript.cls, between, Spec.Letter] using this
    cases paren
    all_goals
      show readLetters E _ _ w = _
      rw [readLetters_value E hne hl, wordValue]
      simp only [Bool.false_eq_true, if_false]
      rcases letterValue E 'ａ' w with _ | ⟨_ | _, x⟩ <;> rfl

/-- What `parse_item_number_base` gives for any text. -/
theorem base_start (E : Ext) (s : List Char) : parseItemNumberBase E s =
    match itemStart s with
    | none => .ok none
    | some (paren, k, w) =>
      match wordValue E paren k w with
      | some x => .ok (some x)
      | none => .panic := by
  cases h : itemStart s with
  | none => rw [parseItemNumberBase, itemBase_none h]
  | some x =>
    obtain ⟨paren, k, w⟩ := x
    obtain ⟨rest, rfl, hne, hw, hr⟩ := itemStart_some h
    rw [parseItemNumberBase, captures_itemBase paren (groupOf_mem paren k) hne hw hr]
    simp only [base_word E paren k hne hw]
    cases wordValue E paren k w <;> rfl

end JLaw
