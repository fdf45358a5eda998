import Verif.Lemmas.BuiltUnits
import Verif.Lemmas.BuiltReads
import Verif.Spec.Prose
import Verif.Props.Letters
import Verif.Props.Items

/-!
# Reading the lines of a law
-/

namespace JLaw

open Spec

theorem itemChar_allows {c : Char} (h : ¬ ItemChar c) : reItem.allows c = false := by
  cases ha : reItem.allows c with
  | false => rfl
  | true =>
    exfalso
    apply h
    simp only [reItem, Re.itemNumber, Re.seqs, Re.alts, Re.lit, Re.ch, Re.opt, Re.plus, Re.katakana,
      Re.hiragana, Re.kansuji, Re.zenkaku, Re.upper, Re.lower, Re.allows, Bool.or_eq_true,
      between, isZenkaku, Bool.and_eq_true, decide_eq_true_eq, beq_iff_eq, isKansuji,
      List.contains_iff_mem] at ha
    have hk : "一二三四五六七八九十百千".toList = kanji := by decide
    rw [hk] at ha
    unfold ItemChar
    repeat' (refine Or.elim ha ?_ ?_ <;> clear ha <;> intro ha)
    all_goals first
      | (subst ha; decide)
      | exact .inl ha
      | exact .inr (.inl ha)
      | exact .inr (.inr (.inl ha))
      | exact .inr (.inr (.inr (.inl ha)))
      | exact .inr (.inr (.inr (.inr (.inl ha))))
      | exact .inr (.inr (.inr (.inr (.inr (.inl ha)))))
      | cases ha

/-! ## Prose -/

theorem startsWithNumber_of {s : List Char} (h : HasUnit s) : StartsWithNumber s := by
  obtain ⟨lead, ds, u, r, h1, h2, h3, h4⟩ := h
  exact ⟨lead, ds, u, r, h2, h1, anyNumber_iff.mpr h3, by simpa [isUnit] using h4⟩

/-- Prose is read as text. -/
theorem line_prose (E : Ext) {s : List Char} (h : Prose s) :
    parseLineContents E s = .ok (.text s) := by
  obtain ⟨⟨hne, htr, hn⟩, hcap, hword⟩ := h
  have ht : trim s = s := by
    have := trim_around (pre := []) (post := []) (l := s) (by simp [Blank]) (by simp [Blank]) hne htr
    simpa using this
  have hnc : ∀ t, ¬ Captioned s t := by
    intro t hc
    have := captioned_trim hc
    rw [ht] at this
    exact hcap t this
  have key : ∀ w, FirstWord s w → w ≠ [] → parseArticleNumber E w = .ok none ∧
      parseItemNumber E w = .ok none := by
    intro w hw hwn
    obtain ⟨h1, ⟨c, hc, hic⟩, h3⟩ := hword w hw hwn
    refine ⟨?_, parse_item_none E hc (isSpace_false.mpr (hw.1 c hc)) (itemChar_allows hic)⟩
    rw [parseArticleNumber, article_none fun hu => h1 (startsWithNumber_of hu), paragraph_none]
    intro p hp
    cases w with
    | nil => exact absurd rfl hwn
    | cons d w =>
      obtain ⟨g1, g2⟩ := h3 d rfl
      simp only [kindsP, List.mem_cons, List.not_mem_nil, or_false] at hp
      rcases hp with rfl | rfl
      · simp only [Ends, isZenkaku, between]
        cases hz : (decide ('０'.toNat ≤ d.toNat) && decide (d.toNat ≤ '９'.toNat)) with
        | false => rfl
        | true => exact absurd (by simpa using hz) g1
      · simp only [Ends]
        cases hz : isDigit d with
        | false => rfl
        | true =>
          simp only [isDigit, Bool.and_eq_true, decide_eq_true_eq] at hz
          exact absurd hz g2
  by_cases h2 : 2 ≤ s.length
  · obtain ⟨w, t, hs, hw, hwn⟩ : ∃ w t, splitNumber (trim s) = some (w, t) ∧ FirstWord s w ∧ w ≠ [] := by
      rw [ht]
      rcases split_cases h2 htr hn with
        ⟨h, c, he, h1, h2, h3, h4⟩ | ⟨h, bs, t, he, h1, h2, h3, h4, h5, h6, h7⟩
      · refine ⟨h, [c], ?_, ⟨fun d hd => isSpace_false.mp (h2 d hd), .inr ⟨c, he, isSpace_false.mp h3⟩⟩, h1⟩
        rw [he, splitNumber_joined h1 h2 h3 h4]
      · refine ⟨h, t, ?_, ⟨fun d hd => isSpace_false.mp (h2 d hd), .inl ?_⟩, h1⟩
        · rw [he, splitNumber_blank h1 h2 h3 h4 h5 h6 h7]
        · cases bs with
          | nil => exact absurd rfl h3
          | cons b bs => exact ⟨b, bs ++ t, by rw [he]; rfl, isSpace_iff.mp (h4 b (by simp))⟩
    rw [line_split hnc hs, afterSplit, (key w hw hwn).1]
    simp only [Res.bind_ok]
    rw [(key w hw hwn).2]
    simp only [Res.bind_ok, ht]
  · have hcap' : reCaption.captures (trim s) = none := by
      cases hc : reCaption.captures (trim s) with
      | none => rfl
      | some caps =>
        obtain ⟨t, he, -⟩ := (caption_iff _ _).mp hc
        rw [ht] at he
        exact absurd he (hcap t)
    rw [parseLineContents, hcap', ht, splitNumber_short (by omega), reSuppl_short (by omega)]

/-! ## Headings -/

theorem headed_one {h s : List Char} (hb : h ≠ [] ∧ ∀ c ∈ h, c ∉ blanks) (hs : Content s) :
    Headed (h ++ '　' :: s) h s :=
  ⟨[], ['　'], [], by simp, by simp [Blank], by simp [Blank], hb,
    ⟨by simp, by unfold Blank; decide⟩, hs.1, hs.2.1, hs.2.2⟩

theorem paragraphText_blanks (a : ArticleNumber) :
    a.paragraphText ≠ [] ∧ ∀ c ∈ a.paragraphText, c ∉ blanks := by
  have hz : ∀ n : Usize, ∀ c ∈ toZenkakuNum n, c ∉ blanks := fun n c hc =>
    isSpace_false.mp (itemKinds_space (p := isZenkaku) (by simp [itemKinds])
      (List.all_eq_true.mp (wideNumber_iff.mp (toZenkakuNum_wide n)).2 c hc))
  have he : ∀ l : List Usize, ∀ c ∈ edaText toZenkakuNum l, c ∉ blanks := by
    intro l c hc
    simp only [edaText, List.mem_flatMap, List.mem_cons] at hc
    obtain ⟨n, -, rfl | h⟩ := hc
    · decide
    · exact hz n c h
  have hl : ∀ c ∈ ['か', 'ら', 'ま', 'で'], c ∉ blanks := by decide
  refine ⟨?_, fun c hc => ?_⟩
  · have := (wideNumber_iff.mp (toZenkakuNum_wide a.base_number)).1
    simp [ArticleNumber.paragraphText, this]
  · rw [ArticleNumber.paragraphText, List.mem_append, List.mem_append] at hc
    rcases hc with (h | h) | h
    · exact hz _ c h
    · exact he _ c h
    · cases hr : a.range_end_numbers with
      | nil => rw [hr] at h; cases h
      | cons n l =>
        rw [hr] at h
        simp only [List.mem_append, List.mem_cons, List.not_mem_nil, or_false] at h
        rcases h with ((h | h) | h) | h
        · rcases h with rfl | rfl <;> exact hl _ (by simp)
        · exact hz _ c h
        · exact he _ c h
        · rcases h with rfl | rfl <;> exact hl _ (by simp)

theorem words_blanks {p : Char → Bool} (hp : p ∈ itemKinds) (paren : Bool) {w : List Char}
    {ws : List (List Char)} (hw : w ≠ [] ∧ w.all p = true) (hws : ∀ w ∈ ws, w.all p = true)
    {t : List Char} (ht : t = itemWord paren w ++ itemFlat ws) :
    t ≠ [] ∧ (∀ c ∈ t, c ∉ blanks) ∧
      ∀ c, t.head? = some c → (paren = true ∧ c = '（') ∨ (paren = false ∧ p c = true) := by
  have hb : ∀ c, p c = true → c ∉ blanks := fun c hc => isSpace_false.mp (itemKinds_space hp hc)
  have hall : ∀ c ∈ w, p c = true := List.all_eq_true.mp hw.2
  subst ht
  refine ⟨?_, ?_, ?_⟩
  · cases paren <;> simp [itemWord, hw.1]
  · intro c hc
    rcases List.mem_append.mp hc with h | h
    · cases paren with
      | false => exact hb c (hall c h)
      | true =>
        simp only [itemWord, if_true, List.mem_append, List.mem_cons, List.not_mem_nil, or_false] at h
        rcases h with (rfl | h) | rfl
        · decide
        · exact hb c (hall c h)
        · decide
    · simp only [itemFlat, flat, List.mem_flatMap, List.mem_map] at h
      obtain ⟨b, ⟨w', hw', rfl⟩, h⟩ := h
      rcases List.mem_cons.mp h with rfl | h
      · exact (by decide : 'の' ∉ blanks)
      · exact hb c (List.all_eq_true.mp (hws w' hw') c h)
  · intro c hc
    cases paren with
    | true =>
      simp only [itemWord, if_true, List.cons_append, List.head?_cons, Option.some.injEq] at hc
      exact .inl ⟨rfl, hc.symm⟩
    | false =>
      cases w with
      | nil => exact absurd rfl hw.1
      | cons d w =>
        simp only [itemWord, Bool.false_eq_true, if_false, List.cons_append, List.head?_cons,
          Option.some.injEq] at hc
        exact .inr ⟨rfl, hall c (by simp [hc])⟩

/-- The characters of a heading of an item. -/
theorem itemText_blanks {E : Ext} {a : ArticleNumber} {p : ItemPattern} {t : List Char}
    (hp : p ∈ [.noParenKansuji, .parenKansuji, .noParenIrohaKatakana, .parenIrohaKatakana,
      .parenZenkakuNum])
    (hr : a.range_end_numbers = []) (ht : a.itemText E p = .ok t)
    (hE : p = .noParenKansuji ∨ p = .parenKansuji →
      ReadsKansuji E ∧ ∀ n ∈ components a, 1 ≤ n.val ∧ n.val ≤ 9999) :
    (t ≠ [] ∧ ∀ c ∈ t, c ∉ blanks) ∧ ∀ c, t.head? = some c → isZenkaku c = false := by
  have key : ∀ (paren : Bool) (q : Char → Bool) (g : Usize → List Char), q ∈ itemKinds →
      (paren = false → ∀ c, q c = true → isZenkaku c = false) →
      (∀ n ∈ a.base_number :: a.eda_numbers, g n ≠ [] ∧ (g n).all q = true) →
      t = itemWord paren (g a.base_number) ++ itemFlat (a.eda_numbers.map g) →
      (t ≠ [] ∧ ∀ c ∈ t, c ∉ blanks) ∧ ∀ c, t.head? = some c → isZenkaku c = false := by
    intro paren q g hq hz hg he
    obtain ⟨h1, h2, h3⟩ := words_blanks hq paren (hg _ (by simp)) (by
      intro w hw
      obtain ⟨n, hn, rfl⟩ := List.mem_map.mp hw
      exact (hg n (by simp [hn])).2) he
    refine ⟨⟨h1, h2⟩, fun c hc => ?_⟩
    rcases h3 c hc with ⟨-, rfl⟩ | ⟨h4, h5⟩
    · decide
    · exact hz h4 c h5
  have hkz : ∀ c, isKansuji c = true → isZenkaku c = false := by
    intro c hc
    rw [isKansuji, List.contains_iff_mem] at hc
    have : ∀ c ∈ "一二三四五六七八九十百千".toList, isZenkaku c = false := by decide
    exact this c hc
  have hiz : ∀ c, between 'ア' 'ン' c = true → isZenkaku c = false := by
    intro c hc
    simp only [between, Bool.and_eq_true, decide_eq_true_eq] at hc
    have h1 : 'ン'.toNat = 12531 := by decide
    have h2 : '０'.toNat = 65296 := by decide
    simp only [isZenkaku, between, Bool.and_eq_false_iff, decide_eq_false_iff_not]
    omega
  have kansuji : ∀ paren, ReadsKansuji E → (∀ n ∈ components a, 1 ≤ n.val ∧ n.val ≤ 9999) →
      t = itemWord paren (E.kansujiStr a.base_number) ++ itemFlat (a.eda_numbers.map E.kansujiStr) →
      (t ≠ [] ∧ ∀ c ∈ t, c ∉ blanks) ∧ ∀ c, t.head? = some c → isZenkaku c = false := by
    intro paren hK hc h
    refine key paren isKansuji E.kansujiStr (by simp [itemKinds]) (fun _ => hkz) (fun n hn => ?_) h
    have hn' := hc n (by
      simp only [components, List.mem_append, List.mem_cons] at hn ⊢
      rcases hn with h | h <;> simp [h])
    exact kanjiNumber_iff.mp (hK n hn'.1 hn'.2).1
  have katakana : ∀ paren,
      t = itemWord paren ((toIrohaKatakana a.base_number).getD []) ++
        itemFlat (a.eda_numbers.map fun n => (toIrohaKatakana n).getD []) →
      (∀ n ∈ a.base_number :: a.eda_numbers, toIrohaKatakana n = some ((toIrohaKatakana n).getD [])) →
      (t ≠ [] ∧ ∀ c ∈ t, c ∉ blanks) ∧ ∀ c, t.head? = some c → isZenkaku c = false := by
    intro paren h hn
    refine key paren (between 'ア' 'ン') (fun n => (toIrohaKatakana n).getD []) (by simp [itemKinds])
      (fun _ => hiz) (fun n hm => ?_) h
    have := katakana_word (hn n hm)
    exact ⟨this.1, this.2.1⟩
  simp only [List.mem_cons, List.not_mem_nil, or_false] at hp
  rcases hp with rfl | rfl | rfl | rfl | rfl
  · obtain ⟨h1, h2⟩ := hE (Or.inl rfl)
    refine kansuji false h1 h2 (itemText_words E _ false ?_ ?_ hr ht).1
    · intro n w h; cases h; rfl
    · intro n w h; cases h; exact ⟨rfl, rfl⟩
  · obtain ⟨h1, h2⟩ := hE (Or.inr rfl)
    refine kansuji true h1 h2 (itemText_words E _ true ?_ ?_ hr ht).1
    · intro n w h; cases h; rfl
    · intro n w h; cases h; exact ⟨rfl, rfl⟩
  · have h := itemText_words E _ false (g := fun n => (toIrohaKatakana n).getD []) (fun n w h => by
      rw [ItemPattern.numToStrNoParen, unwrap_eq_ok] at h; simp [h]) (fun n w h => by
      rw [ItemPattern.numToStr, unwrap_eq_ok] at h
      simp [h, itemWord, ItemPattern.numToStrNoParen, Res.unwrap]) hr ht
    exact katakana false h.1 fun n hn => unwrap_eq_ok.mp (h.2 n hn)
  · have h := itemText_words E _ true (g := fun n => (toIrohaKatakana n).getD []) (fun n w h => by
      rw [ItemPattern.numToStrNoParen, unwrap_eq_ok] at h; simp [h]) (fun n w h => by
      obtain ⟨v, hv, rfl⟩ := inParens_eq_ok h
      rw [unwrap_eq_ok] at hv
      simp [hv, ItemPattern.numToStrNoParen, Res.unwrap]) hr ht
    exact katakana true h.1 fun n hn => unwrap_eq_ok.mp (h.2 n hn)
  · refine key true isZenkaku toZenkakuNum (by simp [itemKinds]) (by simp)
      (fun n _ => wideNumber_iff.mp (toZenkakuNum_wide n)) (itemText_words E _ true ?_ ?_ hr ht).1
    · intro n w h; cases h; rfl
    · intro n w h; cases h; exact ⟨rfl, rfl⟩

/-! ## Lines -/

theorem newline_blank : '\n' ∈ blanks := by decide

/-- A line as it is written is read as what it was written for, and is one line. -/
theorem lineText_read {E : Ext} (hE : ReadsKansuji E) {l : TextLine} (h : Writable E l) :
    parseLineContents E (lineText E l) = .ok l ∧ '\n' ∉ lineText E l ∧ lineText E l ≠ [] := by
  have headed : ∀ (w s : List Char), (w ≠ [] ∧ ∀ c ∈ w, c ∉ blanks) → Content s →
      Headed (w ++ '　' :: s) w s ∧ '\n' ∉ w ++ '　' :: s ∧ w ++ '　' :: s ≠ [] := by
    intro w s hw hs
    refine ⟨headed_one hw hs, ?_, by simp⟩
    simp only [List.mem_append, List.mem_cons, not_or]
    exact ⟨fun h => hw.2 _ h newline_blank, by decide, hs.2.2⟩
  have unit : ∀ (u : Char) (n : ArticleNumber) (s : List Char), u ∈ units →
      (∀ m ∈ components n, 1 ≤ m.val ∧ m.val ≤ 9999) ∧ Content s →
      Headed (n.genArticlesText E u ++ '　' :: s) (n.genArticlesText E u) s ∧
        '\n' ∉ n.genArticlesText E u ++ '　' :: s ∧ n.genArticlesText E u ++ '　' :: s ≠ [] :=
    fun u n s hu hs => headed _ _ (genArticlesText_blanks hE hs.1 hu) hs.2
  cases l with
  | caption s =>
    refine ⟨line_caption ⟨[], [], by simp [lineText], by simp [Blank], by simp [Blank], h.1, h.2.1⟩, ?_,
      by simp [lineText]⟩
    simp only [lineText, List.cons_append, List.mem_cons, List.mem_append, not_or]
    exact ⟨by decide, h.2.2, by decide, by simp⟩
  | part n s =>
    obtain ⟨h1, h2⟩ := unit '編' n s (by decide) h
    exact ⟨(C64_headings E hE n h.1 _ s).1 h1, h2⟩
  | chapter n s =>
    obtain ⟨h1, h2⟩ := unit '章' n s (by decide) h
    exact ⟨(C64_headings E hE n h.1 _ s).2.1 h1, h2⟩
  | section_ n s =>
    obtain ⟨h1, h2⟩ := unit '節' n s (by decide) h
    exact ⟨(C64_headings E hE n h.1 _ s).2.2.1 h1, h2⟩
  | subsection n s =>
    obtain ⟨h1, h2⟩ := unit '款' n s (by decide) h
    exact ⟨(C64_headings E hE n h.1 _ s).2.2.2.1 h1, h2⟩
  | division n s =>
    obtain ⟨h1, h2⟩ := unit '目' n s (by decide) h
    exact ⟨(C64_headings E hE n h.1 _ s).2.2.2.2.1 h1, h2⟩
  | article n s =>
    obtain ⟨h1, h2⟩ := unit '条' n s (by decide) h
    exact ⟨(C64_headings E hE n h.1 _ s).2.2.2.2.2 h1, h2⟩
  | paragraph n s =>
    obtain ⟨h1, h2⟩ := headed _ _ (paragraphText_blanks n) h.2
    refine ⟨?_, h2⟩
    have := C64_paragraph E n _ s h1
    rw [List.take_of_length_le h.1] at this
    exact this
  | item m s =>
    obtain ⟨g1, g2, g3, g4, g5⟩ := h
    have hc : m.pattern = .noParenKansuji ∨ m.pattern = .parenKansuji →
        ReadsKansuji E ∧ ∀ n ∈ components ⟨m.base_number, m.eda_numbers, []⟩, 1 ≤ n.val ∧ n.val ≤ 9999 :=
      fun hp => ⟨hE, by simpa [components] using g4 hp⟩
    obtain ⟨h1, h2⟩ := itemText_blanks g3 rfl g1 hc
    have h3 := C11_item_heading_reads_back E ⟨m.base_number, m.eda_numbers, []⟩ m.pattern m.str (by
      simp only [List.mem_cons, List.not_mem_nil, or_false] at g3 ⊢
      tauto) rfl g1 hc
    obtain ⟨h4, h5⟩ := headed _ _ h1 g5
    refine ⟨?_, h5⟩
    have hm : (⟨m.str, m.base_number, m.eda_numbers, [], m.pattern⟩ : ItemNumber) = m := by
      rw [← g2]
    rw [hm] at h3
    refine C64_item E _ _ s m h4 h3 fun c hc hz => ?_
    have := h2 c hc
    simp only [isZenkaku, between, Bool.and_eq_false_iff, decide_eq_false_iff_not] at this
    omega
  | suppl n => exact h.elim
  | text s => exact ⟨line_prose E h, h.content.2.2, h.content.1⟩

theorem mapRes_lineText {E : Ext} (hE : ReadsKansuji E) (ls : List TextLine)
    (h : ∀ l ∈ ls, Writable E l) : mapRes (parseLineContents E) (ls.map (lineText E)) = .ok ls := by
  induction ls with
  | nil => rfl
  | cons l ls ih =>
    rw [List.map_cons, mapRes, (lineText_read hE (h l (by simp))).1]
    simp only [Res.bind_ok]
    rw [ih fun x hx => h x (List.mem_cons_of_mem _ hx)]
    rfl

/-- The lines of the text made from lines. -/
theorem readLines_lineText {E : Ext} (hE : ReadsKansuji E) (ls : List TextLine)
    (h : ∀ l ∈ ls, Writable E l) :
    readLines E (List.intercalate ['\n'] (ls.map (lineText E))) = .ok ls := by
  rw [readLines_join, mapRes_lineText hE ls h]
  · intro l hl
    obtain ⟨x, hx, rfl⟩ := List.mem_map.mp hl
    exact (lineText_read hE (h x hx)).2.1
  · intro l hl
    obtain ⟨x, hx, rfl⟩ := List.mem_map.mp hl
    exact (lineText_read hE (h x hx)).2.2

end JLaw
