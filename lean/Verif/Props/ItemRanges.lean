import Verif.Props.Items
import Verif.Props.ScanItem

/-!
# C12: ranges of items

The heading of a range of items is the heading of its first number, から, the heading of its last
number and まで. It is read like the heading of the first number alone.
-/

namespace JLaw

open Spec Spec.Scan

/-- **C12.** The heading of a range of items says the heading of its start and the heading of its end. -/
theorem C12_range_text (E : Ext) (p : ItemPattern) (b n : Usize) (e l : List Usize) (t : List Char) :
    (⟨b, e, n :: l⟩ : ArticleNumber).itemText E p = .ok t ↔
      ∃ s u, (⟨b, e, []⟩ : ArticleNumber).itemText E p = .ok s ∧
        (⟨n, l, []⟩ : ArticleNumber).itemText E p = .ok u ∧ t = s ++ "から".toList ++ u ++ "まで".toList := by
  simp only [ArticleNumber.itemText, Res.bind_eq_ok, Res.ok.injEq]
  constructor
  · rintro ⟨w, h1, v, h2, w', h3, v', h4, rfl⟩
    exact ⟨_, _, ⟨w, h1, v, h2, rfl⟩, ⟨w', h3, v', h4, rfl⟩, by simp⟩
  · rintro ⟨s, u, ⟨w, h1, v, h2, rfl⟩, ⟨w', h3, v', h4, rfl⟩, rfl⟩
    exact ⟨w, h1, v, h2, w', h3, v', h4, by simp⟩

/-- A word of one script that is not hiragana. -/
structure OneScript (k : ItemScript) (v : List Char) : Prop where
  ne : v ≠ []
  all : ∀ c ∈ v, itemScript c = some k

theorem oneScript_of_cls {k : ItemScript} {v : List Char} (h : v ≠ [] ∧ v.all k.cls = true) :
    OneScript k v :=
  ⟨h.1, fun c hc => (itemScript_iff c k).2 (List.all_eq_true.1 h.2 c hc)⟩

theorem oneScript_word {k : ItemScript} {v : List Char} (h : OneScript k v) (paren : Bool) :
    IsWord (itemWord paren v) := by
  refine ⟨k, v, h.ne, h.all, ?_⟩
  cases paren <;> simp [itemWord]

theorem itemFlat_branches {k : ItemScript} {ws : List (List Char)} (h : ∀ w ∈ ws, OneScript k w) :
    IsBranches (itemFlat ws) := by
  refine ⟨ws, fun w hw => by simpa [itemWord] using oneScript_word (h w hw) false, ?_⟩
  induction ws with
  | nil => rfl
  | cons w ws ih =>
    have := ih fun x hx => h x (by simp [hx])
    simp only [itemFlat, List.map_cons, flat, List.flatMap_cons] at this ⊢
    rw [← this]

/-- Nothing, or a text that starts with か or の. -/
def Stops (r : List Char) : Prop := ∀ c, r.head? = some c → c = 'の' ∨ c = 'か'

theorem rangeEnd_stops {r : List Char} (h : IsRangeEnd r) : Stops r := by
  rcases h with rfl | ⟨w, e, -, -, rfl⟩
  · intro c hc; cases hc
  · intro c hc
    simp only [List.cons_append, List.head?_cons, Option.some.injEq] at hc
    exact .inr hc.symm

theorem branches_stops {e r : List Char} (h : IsBranches e) (hr : Stops r) : Stops (e ++ r) := by
  obtain ⟨ws, -, rfl⟩ := h
  cases ws with
  | nil => exact hr
  | cons w ws =>
    intro c hc
    simp only [List.flatMap_cons, List.cons_append, List.head?_cons, Option.some.injEq] at hc
    exact .inl hc.symm

theorem stops_script {k : ItemScript} (hk : k ≠ .hiragana) {c : Char} (h : c = 'の' ∨ c = 'か') :
    itemScript c ≠ some k := by
  rcases h with rfl | rfl
  · rw [show itemScript 'の' = some .hiragana by decide +kernel]; simpa using Ne.symm hk
  · rw [show itemScript 'か' = some .hiragana by decide +kernel]; simpa using Ne.symm hk

/-- Two words of one script at the start of a text, both followed by something else, are the same. -/
theorem prefix_word {P : Char → Prop} : ∀ {v w x y : List Char}, v ++ x = w ++ y → (∀ c ∈ v, P c) →
    (∀ c ∈ w, P c) → (∀ c, x.head? = some c → ¬ P c) → (∀ c, y.head? = some c → ¬ P c) →
    v = w ∧ x = y
  | [], [], _, _, h, _, _, _, _ => ⟨rfl, h⟩
  | [], d :: w, x, y, h, _, hw, hx, _ => by
    exact absurd (hw d (by simp)) (hx d (by rw [show x = d :: w ++ y from h]; rfl))
  | c :: v, [], x, y, h, hv, _, _, hy => by
    exact absurd (hv c (by simp)) (hy c (by rw [← show c :: v ++ x = y from h]; rfl))
  | c :: v, d :: w, x, y, h, hv, hw, hx, hy => by
    simp only [List.cons_append, List.cons.injEq] at h
    obtain ⟨rfl, h⟩ := h
    obtain ⟨h1, h2⟩ := prefix_word (P := P) h (fun e he => hv e (by simp [he]))
      (fun e he => hw e (by simp [he])) hx hy
    exact ⟨by rw [h1], h2⟩

/-- A word before something that is no word of its script, at the start of a word and something that
stops. -/
theorem word_start {k : ItemScript} (hk : k ≠ .hiragana) {paren : Bool} {v x b r : List Char}
    (hv : OneScript k v) (hx : Stops x) (hb : IsWord b) (hr : Stops r)
    (h : itemWord paren v ++ x = b ++ r) : b = itemWord paren v ∧ r = x := by
  obtain ⟨k', v', hne, hall, hb⟩ := hb
  have hopen : itemScript '（' = none := by decide +kernel
  have hclose : ∀ k, itemScript '）' ≠ some k := by
    rw [show itemScript '）' = none by decide +kernel]; simp
  obtain ⟨c, v1, rfl⟩ := List.exists_cons_of_ne_nil hv.ne
  obtain ⟨d, v2, rfl⟩ := List.exists_cons_of_ne_nil hne
  cases paren with
  | true =>
    rcases hb with rfl | rfl
    · simp only [itemWord, if_true, List.cons_append, List.cons.injEq] at h
      have := hall d (by simp)
      rw [← h.1, hopen] at this
      cases this
    · simp only [itemWord, if_true, List.cons_append, List.cons.injEq, true_and, List.append_assoc] at h
      obtain ⟨rfl, h⟩ := h
      have hkk : k' = k := Option.some.inj ((hall c (by simp)).symm.trans (hv.all c (by simp)))
      subst hkk
      obtain ⟨rfl, h2⟩ := prefix_word (P := fun c => itemScript c = some k') h
        (fun e he => hv.all e (by simp [he])) (fun e he => hall e (by simp [he]))
        (fun e he => by simp at he; subst he; exact hclose _)
        (fun e he => by simp at he; subst he; exact hclose _)
      simp only [List.nil_append, List.cons.injEq, true_and] at h2
      exact ⟨by simp [itemWord], h2.symm⟩
  | false =>
    rcases hb with rfl | rfl
    · simp only [itemWord, Bool.false_eq_true, if_false, List.cons_append, List.cons.injEq] at h
      obtain ⟨rfl, h⟩ := h
      have hkk : k' = k := Option.some.inj ((hall c (by simp)).symm.trans (hv.all c (by simp)))
      subst hkk
      obtain ⟨rfl, h2⟩ := prefix_word (P := fun c => itemScript c = some k') h
        (fun e he => hv.all e (by simp [he])) (fun e he => hall e (by simp [he]))
        (fun e he => stops_script hk (hx e he)) (fun e he => stops_script hk (hr e he))
      exact ⟨by simp [itemWord], h2.symm⟩
    · simp only [itemWord, Bool.false_eq_true, if_false, List.cons_append, List.cons.injEq] at h
      have := hv.all c (by simp)
      rw [h.1, hopen] at this
      cases this

theorem branches_start {k : ItemScript} (hk : k ≠ .hiragana) {x : List Char} (hx : Stops x)
    (hx' : x.head? ≠ some 'の') :
    ∀ {ws : List (List Char)}, (∀ w ∈ ws, OneScript k w) → ∀ {e r : List Char}, IsBranches e →
      IsRangeEnd r → itemFlat ws ++ x = e ++ r → e = itemFlat ws := by
  intro ws
  induction ws with
  | nil =>
    intro _ e r he hr h
    obtain ⟨us, -, rfl⟩ := he
    cases us with
    | nil => rfl
    | cons u us =>
      exfalso
      apply hx'
      rw [show x = _ from h]
      rfl
  | cons w ws ih =>
    intro hws e r he hr h
    obtain ⟨us, hus, rfl⟩ := he
    have hf : itemFlat (w :: ws) = 'の' :: w ++ itemFlat ws := by
      simp [itemFlat, flat]
    rw [hf] at h ⊢
    cases us with
    | nil =>
      exfalso
      rcases hr with rfl | ⟨w', e', -, -, rfl⟩
      · simp at h
      · simp at h
    | cons u us =>
      simp only [List.flatMap_cons, List.cons_append, List.cons.injEq, true_and, List.append_assoc] at h
      have hb : IsBranches (us.flatMap fun w => 'の' :: w) := ⟨us, fun w hw => hus w (by simp [hw]), rfl⟩
      obtain ⟨h1, h2⟩ := word_start hk (paren := false) (hws w (by simp))
        (branches_stops (itemFlat_branches (ws := ws) fun w hw => hws w (by simp [hw])) hx) (hus u (by simp))
        (branches_stops hb (rangeEnd_stops hr)) (by simpa [itemWord] using h)
      have h3 := ih (fun w hw => hws w (by simp [hw])) hb hr h2.symm
      simp only [List.flatMap_cons, List.cons_append, h3, h1]
      simp [itemWord]

/-- A heading of a number or of a range is cut after the first number. -/
theorem bestCut_heading {k : ItemScript} (hk : k ≠ .hiragana) {paren : Bool} {v r : List Char}
    {ws : List (List Char)} (hv : OneScript k v) (hws : ∀ w ∈ ws, OneScript k w) (hr : IsRangeEnd r) :
    BestCut (itemWord paren v ++ itemFlat ws ++ r) (itemWord paren v) (itemFlat ws) := by
  refine ⟨⟨oneScript_word hv paren, itemFlat_branches hws, r, hr, rfl⟩, ?_⟩
  rintro b e ⟨hb, he, r', hr', h⟩
  rw [List.append_assoc, List.append_assoc] at h
  obtain ⟨h1, h2⟩ := word_start hk hv (branches_stops (itemFlat_branches hws) (rangeEnd_stops hr)) hb
    (branches_stops he (rangeEnd_stops hr')) h
  have hno : r.head? ≠ some 'の' := by
    rcases hr with rfl | ⟨w, e, -, -, rfl⟩
    · simp
    · simp
  have h3 := branches_start hk (rangeEnd_stops hr) hno hws he hr' h2.symm
  exact .inr ⟨by rw [h1], by rw [h3]; exact Nat.le_refl _⟩

/-- The words of a heading in kanji, katakana or full-width digits. -/
theorem item_shape (E : Ext) (a : ArticleNumber) (p : ItemPattern) (t : List Char)
    (hp : p ∈ [.noParenKansuji, .parenKansuji, .noParenIrohaKatakana, .parenIrohaKatakana,
      .noParenZenkakuNum, .parenZenkakuNum])
    (hr : a.range_end_numbers = []) (ht : a.itemText E p = .ok t)
    (hE : p = .noParenKansuji ∨ p = .parenKansuji →
      ReadsKansuji E ∧ ∀ n ∈ components a, 1 ≤ n.val ∧ n.val ≤ 9999) :
    ∃ k paren v ws, k ≠ .hiragana ∧ OneScript k v ∧ (∀ w ∈ ws, OneScript k w) ∧
      t = itemWord paren v ++ itemFlat ws := by
  have hn : ∀ n ∈ a.base_number :: a.eda_numbers, n ∈ components a := by
    intro n hn
    simp only [components, List.mem_append, List.mem_cons] at hn ⊢
    rcases hn with h | h <;> simp [h]
  have key : ∀ (k : ItemScript) (paren : Bool) (g : Usize → List Char), k ≠ .hiragana →
      (∀ n ∈ a.base_number :: a.eda_numbers, OneScript k (g n)) →
      t = itemWord paren (g a.base_number) ++ itemFlat (a.eda_numbers.map g) →
      ∃ k paren v ws, k ≠ .hiragana ∧ OneScript k v ∧ (∀ w ∈ ws, OneScript k w) ∧
        t = itemWord paren v ++ itemFlat ws := by
    intro k paren g hk hg h
    refine ⟨k, paren, _, _, hk, hg _ (by simp), ?_, h⟩
    intro w hw
    obtain ⟨n, hn, rfl⟩ := List.mem_map.1 hw
    exact hg n (by simp [hn])
  have kansuji : ReadsKansuji E → (∀ n ∈ components a, 1 ≤ n.val ∧ n.val ≤ 9999) →
      ∀ n ∈ a.base_number :: a.eda_numbers, OneScript .kanji (E.kansujiStr n) := fun hK hc n h =>
    oneScript_of_cls (k := .kanji)
      (kanjiNumber_iff.mp (hK _ (hc n (hn n h)).1 (hc n (hn n h)).2).1)
  have zenkaku : ∀ n ∈ a.base_number :: a.eda_numbers, OneScript .wide (toZenkakuNum n) := fun n _ =>
    oneScript_of_cls (k := .wide) (wideNumber_iff.mp (toZenkakuNum_wide n))
  have katakana : (∀ n ∈ a.base_number :: a.eda_numbers,
        toIrohaKatakana n = some ((toIrohaKatakana n).getD [])) →
      ∀ n ∈ a.base_number :: a.eda_numbers, OneScript .katakana ((toIrohaKatakana n).getD []) :=
    fun h n hn => oneScript_of_cls (k := .katakana)
      ⟨(katakana_word (h n hn)).1, (katakana_word (h n hn)).2.1⟩
  simp only [List.mem_cons, List.not_mem_nil, or_false] at hp
  rcases hp with rfl | rfl | rfl | rfl | rfl | rfl
  · obtain ⟨h1, h2⟩ := hE (Or.inl rfl)
    refine key .kanji false _ (by decide) (kansuji h1 h2) (itemText_words E _ false ?_ ?_ hr ht).1
    · intro n w h; cases h; rfl
    · intro n w h; cases h; exact ⟨rfl, rfl⟩
  · obtain ⟨h1, h2⟩ := hE (Or.inr rfl)
    refine key .kanji true _ (by decide) (kansuji h1 h2) (itemText_words E _ true ?_ ?_ hr ht).1
    · intro n w h; cases h; rfl
    · intro n w h; cases h; exact ⟨rfl, rfl⟩
  · have h := itemText_words E _ false (g := fun n => (toIrohaKatakana n).getD []) (fun n w h => by
      rw [ItemPattern.numToStrNoParen, unwrap_eq_ok] at h; simp [h]) (fun n w h => by
      rw [ItemPattern.numToStr, unwrap_eq_ok] at h
      simp [h, itemWord, ItemPattern.numToStrNoParen, Res.unwrap]) hr ht
    exact key .katakana false _ (by decide) (katakana fun n hn => unwrap_eq_ok.mp (h.2 n hn)) h.1
  · have h := itemText_words E _ true (g := fun n => (toIrohaKatakana n).getD []) (fun n w h => by
      rw [ItemPattern.numToStrNoParen, unwrap_eq_ok] at h; simp [h]) (fun n w h => by
      obtain ⟨v, hv, rfl⟩ := inParens_eq_ok h
      rw [unwrap_eq_ok] at hv
      simp [hv, ItemPattern.numToStrNoParen, Res.unwrap]) hr ht
    exact key .katakana true _ (by decide) (katakana fun n hn => unwrap_eq_ok.mp (h.2 n hn)) h.1
  · refine key .wide false _ (by decide) zenkaku (itemText_words E _ false ?_ ?_ hr ht).1
    · intro n w h; cases h; rfl
    · intro n w h; cases h; exact ⟨rfl, rfl⟩
  · refine key .wide true _ (by decide) zenkaku (itemText_words E _ true ?_ ?_ hr ht).1
    · intro n w h; cases h; rfl
    · intro n w h; cases h; exact ⟨rfl, rfl⟩

theorem script_not_blank {k : ItemScript} {c : Char} (h : itemScript c = some k) : c ∉ blanks := by
  intro hb
  have : ∀ c ∈ blanks, itemScript c = none := by decide +kernel
  rw [this c hb] at h
  cases h

theorem getLast_mem {c : Char} : ∀ {l : List Char}, l.getLast? = some c → c ∈ l := fun h =>
  List.mem_of_getLast? h

/-- All characters of a heading. -/
theorem heading_chars {k : ItemScript} {paren : Bool} {v : List Char} {ws : List (List Char)}
    (hv : OneScript k v) (hws : ∀ w ∈ ws, OneScript k w) :
    ∀ c ∈ itemWord paren v ++ itemFlat ws, c ∉ blanks := by
  intro c hc
  rcases List.mem_append.1 hc with h | h
  · cases paren with
    | true =>
      simp only [itemWord, if_true, List.cons_append, List.mem_cons, List.mem_append,
        List.not_mem_nil, or_false] at h
      rcases h with rfl | h | rfl
      · decide +kernel
      · exact script_not_blank (hv.all c h)
      · decide +kernel
    | false =>
      exact script_not_blank (hv.all c (by simpa [itemWord] using h))
  · simp only [itemFlat, flat, List.mem_flatMap, List.mem_map, List.mem_cons] at h
    obtain ⟨_, ⟨w, hw, rfl⟩, h | h⟩ := h
    · rw [h]; clear h; change 'の' ∉ blanks; decide +kernel
    · exact script_not_blank ((hws w hw).all c h)

theorem trimmed_of {l : List Char} (h : ∀ c ∈ l, c ∉ blanks) : Trimmed l :=
  ⟨fun c hc => h c (List.mem_of_mem_head? hc), fun c hc => h c (List.mem_of_getLast? hc)⟩

/-- **C12.** The heading of a range of items in kanji, katakana or full-width digits is read as the
number at its start: the end of the range is lost, whatever it is. For kanji the crate is assumed to
handle 1 to 9999, and the numbers are in this range. -/
theorem C12_range_forgotten (E : Ext) (a : ArticleNumber) (p : ItemPattern) (t : List Char)
    (hp : p ∈ [.noParenKansuji, .parenKansuji, .noParenIrohaKatakana, .parenIrohaKatakana,
      .noParenZenkakuNum, .parenZenkakuNum]) (ht : a.itemText E p = .ok t)
    (hE : p = .noParenKansuji ∨ p = .parenKansuji →
      ReadsKansuji E ∧ ∀ n ∈ components a, 1 ≤ n.val ∧ n.val ≤ 9999) :
    parseItemNumber E t = .ok (some ⟨t, a.base_number, a.eda_numbers, [], p⟩) := by
  obtain ⟨b, e, range⟩ := a
  cases range with
  | nil => exact C11_item_heading_reads_back E _ p t hp rfl ht hE
  | cons n l =>
    obtain ⟨s, u, hs, hu, rfl⟩ := (C12_range_text E p b n e l t).1 ht
    have hE1 : p = .noParenKansuji ∨ p = .parenKansuji →
        ReadsKansuji E ∧ ∀ m ∈ components ⟨b, e, []⟩, 1 ≤ m.val ∧ m.val ≤ 9999 := fun h =>
      ⟨(hE h).1, fun m hm => (hE h).2 m (by simp [components] at hm ⊢; rcases hm with h | h <;> simp [h])⟩
    have hE2 : p = .noParenKansuji ∨ p = .parenKansuji →
        ReadsKansuji E ∧ ∀ m ∈ components ⟨n, l, []⟩, 1 ≤ m.val ∧ m.val ≤ 9999 := fun h =>
      ⟨(hE h).1, fun m hm => (hE h).2 m (by simp [components] at hm ⊢; rcases hm with h | h <;> simp [h])⟩
    have h0 := C11_item_heading_reads_back E _ p s hp rfl hs hE1
    obtain ⟨k, paren, v, ws, hk, hv, hws, hsv⟩ := item_shape E _ p s hp rfl hs hE1
    obtain ⟨k', paren', v', ws', hk', hv', hws', huv⟩ := item_shape E _ p u hp rfl hu hE2
    have hsb : ∀ c ∈ s, c ∉ blanks := by rw [hsv]; exact heading_chars hv hws
    have hub : ∀ c ∈ u, c ∉ blanks := by rw [huv]; exact heading_chars hv' hws'
    have hend : IsRangeEnd ("から".toList ++ u ++ "まで".toList) :=
      .inr ⟨itemWord paren' v', itemFlat ws', oneScript_word hv' paren', itemFlat_branches hws',
        by rw [huv]; rfl⟩
    have hb0 : BestCut s (itemWord paren v) (itemFlat ws) := by
      have := bestCut_heading hk (paren := paren) hv hws (.inl rfl)
      rw [List.append_nil, ← hsv] at this
      exact this
    have hb1 : BestCut (s ++ "から".toList ++ u ++ "まで".toList) (itemWord paren v) (itemFlat ws) := by
      have := bestCut_heading hk (paren := paren) hv hws hend
      rw [← hsv, ← List.append_assoc, ← List.append_assoc] at this
      exact this
    rw [C86_item_number E s [] s [] _ _ (by simp) (by simp [Blank]) (by simp [Blank]) (trimmed_of hsb) hb0]
      at h0
    rw [C86_item_number E _ [] _ [] _ _ (by simp) (by simp [Blank]) (by simp [Blank]) (trimmed_of ?_) hb1]
    · rw [itemMeaning] at h0 ⊢
      split at h0
      · cases h0
      · split at h0
        · simp only [Res.ok.injEq, Option.some.injEq, ItemNumber.mk.injEq, true_and] at h0 ⊢
          exact h0
        · cases h0
    · intro c hc
      simp only [List.mem_append] at hc
      rcases hc with ((h | h) | h) | h
      · exact hsb c h
      · revert c; decide +kernel
      · exact hub c h
      · revert c; decide +kernel

/-- A range of items with branch numbers on both sides. -/
example : parseItemNumber kanjiExt "（一）の二から（三）の四まで".toList =
    .ok (some ⟨"（一）の二から（三）の四まで".toList, 1, [2], [], .parenKansuji⟩) :=
  C12_range_forgotten kanjiExt ⟨1, [2], [3, 4]⟩ .parenKansuji _ (by simp) (by decide +kernel)
    (fun _ => ⟨kanjiExt_reads, by simp [components]; decide⟩)

/-- `C12_range_text` in katakana. -/
example (E : Ext) : (⟨1, [], [3]⟩ : ArticleNumber).itemText E .noParenIrohaKatakana =
    .ok "イからハまで".toList :=
  (C12_range_text E _ _ _ _ _ _).2 ⟨"イ".toList, "ハ".toList, rfl, rfl, rfl⟩

end JLaw
