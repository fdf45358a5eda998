import Verif.Spec.Lines
import Verif.Lemmas.FromTextLines
import Verif.Lemmas.Heading
import Verif.Lemmas.Roman

/-!
# Kinds of lines
-/

namespace JLaw

open Spec

theorem trim_around {pre l post : List Char} (hpre : Blank pre) (hpost : Blank post) (hne : l ≠ [])
    (hl : Trimmed l) : trim (pre ++ l ++ post) = l :=
  trim_strip (fun c hc => isSpace_iff.mpr (hpre c hc)) (fun c hc => isSpace_iff.mpr (hpost c hc))
    (fun c hc => isSpace_false.mpr (hl.1 c hc)) (fun c hc => isSpace_false.mpr (hl.2 c hc)) hne

theorem trim_blank (line : List Char) :
    ∃ pre post, line = pre ++ trim line ++ post ∧ Blank pre ∧ Blank post := by
  obtain ⟨a, b, ha, hb, h⟩ := trim_split line
  exact ⟨a, b, h, fun c hc => isSpace_iff.mp (ha c hc), fun c hc => isSpace_iff.mp (hb c hc)⟩

/-- The pattern for captions. -/
theorem caption_iff (l : List Char) (caps : Caps) :
    reCaption.captures l = some caps ↔
      ∃ s, l = '（' :: s ++ ['）'] ∧ s ≠ [] ∧ '）' ∉ s ∧ caps = [("caption", s)] := by
  rw [Re.captures_eq]
  simp only [reCaption, Re.seqs, Re.first_seq]
  cases l with
  | nil => simp [Re.ch]
  | cons c t =>
    by_cases hc : c = '（'
    · subst hc
      rw [Re.first_ch]
      obtain ⟨ds, rest, rfl, hds, hend⟩ := exists_run (fun c => c != '）') t
      have hnot : '）' ∉ ds := by
        intro h
        have := List.all_eq_true.mp hds _ h
        simp at this
      by_cases hne : ds = []
      · subst hne
        rw [List.nil_append, first_cap_plus_none _ hend]
        constructor
        · intro h; cases h
        · rintro ⟨s, he, hs, hs', _⟩
          simp only [List.cons_append, List.cons.injEq, true_and] at he
          subst he
          cases s with
          | nil => exact absurd rfl hs
          | cons d s =>
            simp only [List.cons_append, Ends, bne_eq_false_iff_eq] at hend
            simp [hend] at hs'
      · rw [first_cap_plus hne hds hend]
        · cases rest with
          | nil =>
            simp only [Re.ch, Re.first_cls_nil]
            constructor
            · intro h; cases h
            · rintro ⟨s, he, _, _, _⟩
              simp only [List.append_nil, List.cons_append, List.cons.injEq, true_and] at he
              rw [he] at hnot
              simp at hnot
          | cons d r =>
            simp only [Ends, bne_eq_false_iff_eq] at hend
            subst hend
            rw [Re.first_ch]
            constructor
            · intro h
              cases r with
              | nil =>
                simp only [Re.first_eos, if_true, List.append_nil, List.nil_append,
                  Option.some.injEq] at h
                exact ⟨ds, rfl, hne, hnot, h.symm⟩
              | cons e r => simp at h
            · rintro ⟨s, he, hs, hs', rfl⟩
              simp only [List.cons_append, List.cons.injEq, true_and] at he
              have hd : ds = s ∧ r = [] := by
                clear hds hne hs
                induction ds generalizing s with
                | nil =>
                  cases s with
                  | nil => simpa using he
                  | cons e s =>
                    simp only [List.nil_append, List.cons_append, List.cons.injEq] at he
                    simp [← he.1] at hs'
                | cons e ds ih =>
                  cases s with
                  | nil =>
                    simp only [List.nil_append, List.cons_append, List.cons.injEq] at he
                    simp [he.1] at hnot
                  | cons f s =>
                    simp only [List.cons_append, List.cons.injEq] at he
                    simp only [List.mem_cons, not_or] at hnot hs'
                    obtain ⟨h1, h2⟩ := ih hnot.2 s hs'.2 he.2
                    exact ⟨by rw [he.1, h1], h2⟩
              obtain ⟨rfl, rfl⟩ := hd
              simp
        · right
          intro w c t hc
          have : c ≠ '）' := by simpa using hc
          rw [Re.first_ch_none this]
    · rw [Re.first_ch_none hc]
      constructor
      · intro h; cases h
      · rintro ⟨s, he, _⟩
        simp only [List.cons_append, List.cons.injEq] at he
        exact absurd he.1 hc

/-- What happens to a line after it was split. -/
def afterSplit (E : Ext) (line h t : List Char) : Res TextLine :=
  (parseArticleNumber E h).bind fun o =>
    match o with
    | some n => .ok (lineOfNumber h n t)
    | none => (parseItemNumber E h).bind fun o =>
      match o with
      | some n => .ok (.item n t)
      | none => .ok (.text (trim line))

theorem line_split {E : Ext} {line h t : List Char} (hcap : ∀ s, ¬ Captioned line s)
    (hs : splitNumber (trim line) = some (h, t)) :
    parseLineContents E line = afterSplit E line h t := by
  have : reCaption.captures (trim line) = none := by
    cases hc : reCaption.captures (trim line) with
    | none => rfl
    | some caps =>
      obtain ⟨s, he, hne, hs, _⟩ := (caption_iff _ _).mp hc
      obtain ⟨pre, post, hl, h1, h2⟩ := trim_blank line
      rw [he] at hl
      exact absurd ⟨pre, post, hl, h1, h2, hne, hs⟩ (hcap s)
  rw [parseLineContents, this, hs]
  rfl

theorem trimmed_caption (s : List Char) : Trimmed ('（' :: s ++ ['）']) := by
  refine ⟨fun c hc => ?_, fun c hc => ?_⟩
  · simp only [List.cons_append, List.head?_cons, Option.some.injEq] at hc
    subst hc; decide
  · rw [List.getLast?_append] at hc
    simp only [List.getLast?_singleton, Option.some_or, Option.some.injEq] at hc
    subst hc; decide

theorem captioned_trim {line s : List Char} (h : Captioned line s) :
    trim line = '（' :: s ++ ['）'] := by
  obtain ⟨pre, post, rfl, h1, h2, _, _⟩ := h
  exact trim_around h1 h2 (by simp) (trimmed_caption s)

theorem line_caption {E : Ext} {line s : List Char} (h : Captioned line s) :
    parseLineContents E line = .ok (.caption s) := by
  have ht := captioned_trim h
  obtain ⟨_, _, _, _, _, hne, hs⟩ := h
  have := (caption_iff (trim line) [("caption", s)]).mpr ⟨s, ht, hne, hs, rfl⟩
  rw [parseLineContents, this]
  simp [Caps.name, Res.unwrap]

theorem headed_trim_blank {line h t : List Char} (hl : Headed line h t) :
    ∃ bs, (bs ≠ [] ∧ Blank bs) ∧ trim line = h ++ (bs ++ t) ∧ splitNumber (trim line) = some (h, t) := by
  obtain ⟨pre, bs, post, rfl, h1, h2, ⟨hne, hh⟩, ⟨hb, hbs⟩, ht, htt, hn⟩ := hl
  have e : trim (pre ++ (h ++ (bs ++ t)) ++ post) = h ++ (bs ++ t) := by
    apply trim_around h1 h2 (by simp [hne])
    refine ⟨fun c hc => ?_, fun c hc => ?_⟩
    · cases h with
      | nil => exact absurd rfl hne
      | cons d h =>
        simp only [List.cons_append, List.head?_cons, Option.some.injEq] at hc
        subst hc; exact hh _ (by simp)
    · rw [List.getLast?_append, List.getLast?_append] at hc
      obtain ⟨d, hd⟩ : ∃ d, t.getLast? = some d := ⟨_, List.getLast?_eq_some_getLast ht⟩
      rw [hd] at hc
      simp only [Option.some_or, Option.some.injEq] at hc
      subst hc; exact htt.2 _ hd
  refine ⟨bs, ⟨hb, hbs⟩, e, ?_⟩
  rw [e]
  apply splitNumber_blank hne (fun c hc => isSpace_false.mpr (hh c hc)) hb
    (fun c hc => isSpace_iff.mpr (hbs c hc)) ht _ hn
  cases t with
  | nil => exact absurd rfl ht
  | cons c t => exact isSpace_false.mpr (htt.1 c rfl)

theorem headed_trim {line h t : List Char} (hl : Headed line h t) :
    ∃ bs, trim line = h ++ (bs ++ t) ∧ splitNumber (trim line) = some (h, t) := by
  obtain ⟨bs, -, h1, h2⟩ := headed_trim_blank hl
  exact ⟨bs, h1, h2⟩


/-- A heading that does not open a parenthesis, or closes one, does not make a caption. -/
theorem headed_not_caption {line h t : List Char} (hl : Headed line h t)
    (hp : h.head? ≠ some '（' ∨ '）' ∈ h) (s : List Char) : ¬ Captioned line s := by
  intro hc
  obtain ⟨bs, ht, _⟩ := headed_trim hl
  have hc' := captioned_trim hc
  rw [ht] at hc'
  obtain ⟨_, _, _, _, _, _, hs⟩ := hc
  obtain ⟨_, _, _, _, _, _, ⟨hne, _⟩, _, htne, _⟩ := hl
  rcases hp with hp | hp
  · cases h with
    | nil => exact hne rfl
    | cons c h =>
      simp only [List.cons_append, List.cons.injEq] at hc'
      exact hp (by simp [hc'.1])
  · obtain ⟨a, b, rfl⟩ := List.append_of_mem hp
    have hlast : (bs ++ t) ≠ [] := by simp [htne]
    obtain ⟨u, d, hd⟩ : ∃ u d, bs ++ t = u ++ [d] :=
      ⟨_, _, (List.dropLast_append_getLast hlast).symm⟩
    rw [hd] at hc'
    have : a ++ '）' :: b ++ u = '（' :: s := by
      have e : (a ++ '）' :: b ++ u) ++ [d] = ('（' :: s) ++ ['）'] := by
        rw [← hc']; simp
      exact (List.append_inj' e rfl).1
    have hm : '）' ∈ '（' :: s := by rw [← this]; simp
    simp only [List.mem_cons, hs, or_false] at hm
    exact absurd hm (by decide)

theorem line_headed {E : Ext} {line h t : List Char} (hl : Headed line h t)
    (hp : h.head? ≠ some '（' ∨ '）' ∈ h) : parseLineContents E line = afterSplit E line h t := by
  obtain ⟨_, _, hs⟩ := headed_trim hl
  exact line_split (headed_not_caption hl hp) hs

theorem unbroken_trim {line h : List Char} {c : Char} (hl : Unbroken line h c) :
    trim line = h ++ [c] := by
  obtain ⟨pre, post, rfl, h1, h2, hne, hb⟩ := hl
  apply trim_around h1 h2 (by simp)
  refine ⟨fun d hd => hb d (List.mem_of_mem_head? hd), fun d hd => hb d (List.mem_of_mem_getLast? hd)⟩

theorem unbroken_split {line h : List Char} {c : Char} (hl : Unbroken line h c) :
    splitNumber (trim line) = some (h, [c]) := by
  rw [unbroken_trim hl]
  obtain ⟨pre, post, rfl, h1, h2, hne, hb⟩ := hl
  apply splitNumber_joined hne (fun d hd => isSpace_false.mpr (hb d (by simp [hd])))
    (isSpace_false.mpr (hb c (by simp)))
  rintro rfl
  exact hb '\n' (by simp) (by decide)

theorem line_unbroken {E : Ext} {line h : List Char} {c : Char} (hl : Unbroken line h c)
    (hcap : ∀ s, ¬ Captioned line s) : parseLineContents E line = afterSplit E line h [c] :=
  line_split hcap (unbroken_split hl)

/-! ## Headings -/

/-- The characters of a heading. -/
theorem mem_genArticlesText {E : Ext} (hE : ReadsKansuji E) {a : ArticleNumber} {u c : Char}
    (ha : ∀ n ∈ components a, 1 ≤ n.val ∧ n.val ≤ 9999) (hc : c ∈ a.genArticlesText E u) :
    c ∈ kanji ∨ c = u ∨ c ∈ ['第', 'の', 'か', 'ら', 'ま', 'で'] := by
  have hk : ∀ n ∈ components a, ∀ c ∈ E.kansujiStr n, c ∈ kanji := fun n hn c hc =>
    (hE n (ha n hn).1 (ha n hn).2).1.2 c hc
  have heda : ∀ l : List Usize, (∀ n ∈ l, n ∈ components a) → c ∈ edaText E.kansujiStr l →
      c ∈ kanji ∨ c = 'の' := by
    intro l hl h
    simp only [edaText, List.mem_flatMap, List.mem_cons] at h
    obtain ⟨n, hn, h | h⟩ := h
    · exact Or.inr h
    · exact Or.inl (hk n (hl n hn) c h)
  simp only [ArticleNumber.genArticlesText, List.cons_append, List.mem_cons, List.mem_append] at hc
  rcases hc with h | (h | h | h) | h
  · simp [h]
  · exact Or.inl (hk _ (by simp [components]) c h)
  · exact Or.inr (Or.inl h)
  · rcases heda _ (fun n hn => by simp [components, hn]) h with h | h
    · exact Or.inl h
    · simp [h]
  · cases hr : a.range_end_numbers with
    | nil => rw [hr] at h; cases h
    | cons n l =>
      rw [hr] at h
      simp only [List.mem_cons, List.mem_append, List.nil_append, List.not_mem_nil, or_false] at h
      rcases h with h | h | h | (h | h | h) | h | h
      · simp [h]
      · simp [h]
      · simp [h]
      · exact Or.inl (hk _ (by simp [components, hr]) c h)
      · exact Or.inr (Or.inl h)
      · rcases heda l (fun n hn => by simp [components, hr, hn]) h with h | h
        · exact Or.inl h
        · simp [h]
      · simp [h]
      · simp [h]

/-- Headings written for a number are not mistaken for those of another level. -/
theorem genArticlesText_contains {E : Ext} (hE : ReadsKansuji E) {a : ArticleNumber} {u v : Char}
    (ha : ∀ n ∈ components a, 1 ≤ n.val ∧ n.val ≤ 9999) (hu : u ∈ units) (hv : v ∈ units) :
    (a.genArticlesText E u).contains v = (v == u) := by
  by_cases h : v = u
  · subst h
    simp [ArticleNumber.genArticlesText]
  · rw [beq_eq_false_iff_ne.mpr h, ← Bool.not_eq_true, List.contains_iff_mem]
    intro hm
    have hd : ∀ v ∈ units, v ∉ kanji ∧ v ∉ ['第', 'の', 'か', 'ら', 'ま', 'で'] := by decide
    rcases mem_genArticlesText hE ha hm with h' | h' | h'
    · exact (hd v hv).1 h'
    · exact h h'
    · exact (hd v hv).2 h'

theorem genArticlesText_blanks {E : Ext} (hE : ReadsKansuji E) {a : ArticleNumber} {u : Char}
    (ha : ∀ n ∈ components a, 1 ≤ n.val ∧ n.val ≤ 9999) (hu : u ∈ units) :
    a.genArticlesText E u ≠ [] ∧ ∀ c ∈ a.genArticlesText E u, c ∉ blanks := by
  refine ⟨by simp [ArticleNumber.genArticlesText], fun c hc => ?_⟩
  have h1 : ∀ c ∈ kanji, c ∉ blanks := by decide
  have h2 : ∀ c ∈ units, c ∉ blanks := by decide
  have h3 : ∀ c ∈ ['第', 'の', 'か', 'ら', 'ま', 'で'], c ∉ blanks := by decide
  rcases mem_genArticlesText hE ha hc with h | h | h
  · exact h1 c h
  · rw [h]; exact h2 u hu
  · exact h3 c h

theorem line_of_heading {E : Ext} (hE : ReadsKansuji E) {a : ArticleNumber} {u : Char}
    (ha : ∀ n ∈ components a, 1 ≤ n.val ∧ n.val ≤ 9999) (hu : u ∈ units) {line t : List Char}
    (hl : Headed line (a.genArticlesText E u) t) :
    parseLineContents E line = .ok (lineOfNumber (a.genArticlesText E u) a t) := by
  rw [line_headed hl (Or.inl (by simp [ArticleNumber.genArticlesText])), afterSplit,
    genArticlesText_reads hE a (by rw [isUnit]; simpa [units] using hu) ha]
  rfl

/-- The reader for headings stops at the first character that cannot continue the heading. -/
theorem genArticlesText_prefix {E : Ext} (hE : ReadsKansuji E) {a : ArticleNumber} {u : Char}
    (ha : ∀ n ∈ components a, 1 ≤ n.val ∧ n.val ≤ 9999) (hu : u ∈ units)
    (hr : a.range_end_numbers = []) {y : List Char}
    (hy : ∀ c, y.head? = some c → c ∉ kanji ∧ c ≠ 'の' ∧ c ≠ 'ノ' ∧ c ≠ 'か') :
    parseArticleNumber E (a.genArticlesText E u ++ y) = .ok (some a) := by
  obtain ⟨base, eda, range⟩ := a
  cases hr
  have hu' : isUnit u = true := by rw [isUnit]; simpa [units] using hu
  have hbase := kansuji_branch hE (ha base (by simp [components])).1 (ha base (by simp [components])).2
  have hb : ∀ n ∈ eda, 1 ≤ n.val ∧ n.val ≤ 9999 := fun n hn => ha n (by simp [components, hn])
  have h1 : ∀ b ∈ eda.map (fun n => ('の', E.kansujiStr n)), IsBranch isSep kinds b := by
    intro b h
    obtain ⟨n, hn, rfl⟩ := List.mem_map.mp h
    exact ⟨(by decide : isSep 'の' = true), (kansuji_branch hE (hb n hn).1 (hb n hn).2).1⟩
  have h2 : allPieces (readPiece E) ((eda.map fun n => ('の', E.kansujiStr n)).map Prod.snd) =
      some eda := by
    apply allPieces_map
    rw [List.map_map]
    clear ha h1
    induction eda with
    | nil => exact .nil
    | cons n l ih =>
      exact .cons (kansuji_branch hE (hb n (by simp)).1 (hb n (by simp)).2).2.2
        (ih fun m hm => hb m (by simp [hm]))
  have := parse_plain E (lead := ['第']) (r := y) (Or.inr rfl) hbase.1 hu' h1
    (by
      match y, hy with
      | [], _ => trivial
      | [c], _ => trivial
      | c :: d :: r, hy =>
        intro hs
        have hc := hy c rfl
        simp only [isSep, Bool.or_eq_true, beq_iff_eq] at hs
        rcases hs with hs | hs
        · exact absurd hs hc.2.1
        · exact absurd hs hc.2.2.1)
    (by
      intro b hb' p hp hall
      cases y with
      | nil => trivial
      | cons c y =>
        have hb' : b ∈ eda.map (fun n => ('の', E.kansujiStr n)) := List.mem_of_getLast? hb'
        obtain ⟨n, hn, rfl⟩ := List.mem_map.mp hb'
        have hk := kanjiNumber_iff.mp (hE n (hb n hn).1 (hb n hn).2).1
        have : p = isKansuji := by
          obtain ⟨d, w, hw⟩ := List.exists_cons_of_ne_nil hk.1
          have h3 := hk.2
          rw [hw] at hall h3
          simp only [List.all_cons, Bool.and_eq_true] at hall h3
          exact kinds_disjoint p hp isKansuji (by simp [kinds]) d hall.1 h3.1
        subst this
        simp only [Ends]
        cases hc : isKansuji c with
        | false => rfl
        | true =>
          exfalso
          apply (hy c rfl).1
          have : KanjiNumber [c] := kanjiNumber_iff.mpr ⟨by simp, by simp [hc]⟩
          exact this.2 c (by simp))
    (by
      rintro ⟨ds, v, bs, rest, -, h, -⟩
      exact (hy 'か' (by rw [h]; rfl)).2.2.2 rfl)
  simp only [ArticleNumber.genArticlesText, edaText_flat, List.append_nil] at this ⊢
  rw [show '第' :: E.kansujiStr base ++ u :: flat (List.map (fun n => ('の', E.kansujiStr n)) eda) ++ y =
    ['第'] ++ (E.kansujiStr base ++ u :: (flat (List.map (fun n => ('の', E.kansujiStr n)) eda) ++ y))
    by simp, this, hbase.2.1, h2]
  rfl

/-! ## Headings of items -/

theorem not_hasUnit {s : List Char} (h : ∀ c ∈ s, isUnit c = false) : ¬ HasUnit s := by
  rintro ⟨lead, ds, u, rest, _, rfl, _, hu⟩
  rw [h u (by simp)] at hu
  cases hu

/-- A text without units that does not start with a digit is no number of an article. -/
theorem no_article_number (E : Ext) {s : List Char} (h : ∀ c ∈ s, isUnit c = false)
    (h1 : Ends isZenkaku s) (h2 : Ends isDigit s) : parseArticleNumber E s = .ok none := by
  rw [parseArticleNumber, article_none (not_hasUnit h), paragraph_none]
  intro p hp
  simp only [kindsP, List.mem_cons, List.not_mem_nil, or_false] at hp
  rcases hp with rfl | rfl
  · exact h1
  · exact h2

theorem itemNumber_paren {r : List Char} {x : Caps × List Char}
    (hx : x ∈ Re.itemNumber.run ('（' :: r)) : '）' ∈ r := by
  simp only [Re.itemNumber, Re.run, List.mem_append] at hx
  rcases hx with hx | hx
  · simp only [Re.seqs] at hx
    obtain ⟨y, hy, z, hz, -⟩ := mem_seq.mp hx
    obtain ⟨c, hc, -, -⟩ := mem_cls.mp hy
    obtain ⟨y', hy', z', hz', -⟩ := mem_seq.mp hz
    obtain ⟨d, hd, hd', -⟩ := mem_cls.mp hz'
    obtain ⟨w, hw, -⟩ := run_allows _ _ _ hy'
    have hd'' : d = '）' := by simpa using hd'
    simp only [List.cons.injEq] at hc
    rw [hc.2, hw, hd, hd'']
    simp
  · exfalso
    have h0 : (Re.alts [.katakana, .hiragana, .kansuji, .zenkaku, .upper, .lower]).first
        ('（' :: r) some = none := by
      rw [scripts_eq]
      apply first_scripts_none
      intro p hp
      exact (itemKinds_paren hp).1
    rw [Re.first, List.findSome?_eq_none_iff] at h0
    have := h0 x hx
    cases this

/-- What an item number that was read looks like. -/
theorem item_number_chars {E : Ext} {h : List Char} {n : ItemNumber}
    (hb : h ≠ [] ∧ ∀ c ∈ h, c ∉ blanks) (hi : parseItemNumber E h = .ok (some n)) :
    (∀ c ∈ h, isUnit c = false) ∧ Ends isDigit h ∧ (h.head? ≠ some '（' ∨ '）' ∈ h) := by
  have hno : ∀ c ∈ h, reItem.allows c = true := by
    intro c hc
    cases ha : reItem.allows c with
    | true => rfl
    | false =>
      rw [parse_item_none E hc (isSpace_false.mpr (hb.2 c hc)) ha] at hi
      cases hi
  refine ⟨fun c hc => ?_, ?_, ?_⟩
  · cases hu : isUnit c with
    | false => rfl
    | true =>
      have : ∀ c ∈ "編章節款目条項号".toList, reItem.allows c = false := by decide +kernel
      rw [isUnit, List.contains_iff_mem] at hu
      have h1 := this c hu
      rw [hno c hc] at h1
      cases h1
  · cases h with
    | nil => trivial
    | cons c r =>
      simp only [Ends]
      cases hd : isDigit c with
      | false => rfl
      | true =>
        have hr : 48 ≤ c.toNat ∧ c.toNat ≤ 57 := by
          simpa only [isDigit, Bool.and_eq_true, decide_eq_true_eq] using hd
        have : ∀ i, i < 10 → ∃ d : Char, d.toNat = 48 + i ∧ reItem.allows d = false := by
          intro i hi
          have : ∀ i : Fin 10, (Char.ofNat (48 + i)).toNat = 48 + i ∧
            reItem.allows (Char.ofNat (48 + i)) = false := by decide +kernel
          exact ⟨_, this ⟨i, hi⟩⟩
        obtain ⟨d, hd1, hd2⟩ := this (c.toNat - 48) (by omega)
        have : d = c := Char.toNat_inj.mp (by omega)
        subst this
        rw [hno d (by simp)] at hd2
        cases hd2
  · by_cases hp : h.head? = some '（'
    · right
      have ht : trim h = h := trim_eq fun c hc => isSpace_false.mpr (hb.2 c hc)
      rw [parseItemNumber, ht] at hi
      cases h with
      | nil => cases hp
      | cons c r =>
        simp only [List.head?_cons, Option.some.injEq] at hp
        subst hp
        split at hi
        · cases hi
        · rename_i caps hcap
          rw [Re.captures] at hcap
          cases hr : reItem.run ('（' :: r) with
          | nil => rw [hr] at hcap; cases hcap
          | cons x l =>
            have hx : x ∈ reItem.run ('（' :: r) := by rw [hr]; simp
            simp only [reItem, Re.seqs] at hx
            obtain ⟨y, hy, -, -, -⟩ := mem_seq.mp hx
            obtain ⟨z, hz, -⟩ := mem_cap hy
            exact List.mem_cons_of_mem _ (itemNumber_paren hz)
    · exact Or.inl hp

/-- A heading that is read as an item number makes an item, unless it starts with a full-width
digit. -/
theorem line_item {E : Ext} {line h t : List Char} {n : ItemNumber} (hl : Headed line h t)
    (hi : parseItemNumber E h = .ok (some n)) (hz : Ends isZenkaku h) :
    parseLineContents E line = .ok (.item n t) := by
  have hb : h ≠ [] ∧ ∀ c ∈ h, c ∉ blanks := by
    obtain ⟨_, _, _, _, _, _, hb, _⟩ := hl
    exact hb
  obtain ⟨h1, h2, h3⟩ := item_number_chars hb hi
  rw [line_headed hl h3, afterSplit, no_article_number E h1 hz h2]
  simp only [Res.bind_ok, hi]

/-! ## Panics -/

theorem itemKinds_unit {p : Char → Bool} (hp : p ∈ itemKinds) {c : Char} (hc : p c = true) :
    isUnit c = false := by
  cases hu : isUnit c with
  | false => rfl
  | true =>
    rw [isUnit, List.contains_iff_mem] at hu
    have : ∀ p ∈ itemKinds, ∀ c ∈ "編章節款目条項号".toList, p c = false := by
      intro p hp
      simp only [itemKinds, List.mem_cons, List.not_mem_nil, or_false] at hp
      rcases hp with rfl | rfl | rfl | rfl | rfl | rfl <;> decide +kernel
    rw [this p hp c hu] at hc
    cases hc

/-- A heading of one word that is not of digits, before a text or as the rest of an unbroken
line. -/
theorem line_word {E : Ext} {line w t : List Char} {p : Char → Bool} (hp : p ∈ itemKinds)
    (hz : p ≠ isZenkaku) (hne : w ≠ []) (hw : w.all p = true)
    (hl : Headed line w t ∨ ∃ c, t = [c] ∧ Unbroken line w c) :
    parseLineContents E line = (parseItemNumber E w).bind fun o =>
      match o with
      | some n => .ok (.item n t)
      | none => .ok (.text (trim line)) := by
  have hall := List.all_eq_true.mp hw
  have hart : parseArticleNumber E w = .ok none := by
    apply no_article_number E fun c hc => itemKinds_unit hp (hall c hc)
    · cases w with
      | nil => trivial
      | cons c w =>
        simp only [Ends]
        cases h : isZenkaku c with
        | false => rfl
        | true =>
          exact absurd (itemKinds_disjoint p hp isZenkaku (by simp [itemKinds]) c (hall c (by simp)) h) hz
    · cases w with
      | nil => trivial
      | cons c w =>
        simp only [Ends]
        cases h : isDigit c with
        | false => rfl
        | true =>
          have hr : 48 ≤ c.toNat ∧ c.toNat ≤ 57 := by
            simpa only [isDigit, Bool.and_eq_true, decide_eq_true_eq] using h
          rcases itemKinds_range hp (hall c (by simp)) with h | h | h | h | h | h <;> omega
  have hhead : w.head? ≠ some '（' := by
    cases w with
    | nil => simp
    | cons c w =>
      intro h
      simp only [List.head?_cons, Option.some.injEq] at h
      subst h
      have := hall '（' (by simp)
      rw [(itemKinds_paren hp).1] at this
      cases this
  have key : parseLineContents E line = afterSplit E line w t := by
    rcases hl with hl | ⟨c, rfl, hl⟩
    · exact line_headed hl (Or.inl hhead)
    · apply line_unbroken hl
      intro s hs
      have h1 := captioned_trim hs
      rw [unbroken_trim hl] at h1
      cases w with
      | nil => exact hne rfl
      | cons d w =>
        simp only [List.cons_append, List.cons.injEq] at h1
        exact hhead (by simp [h1.1])
  rw [key, afterSplit, hart]
  rfl

theorem word_panic {E : Ext} {p : Char → Bool} (hp : p ∈ itemKinds) (paren : Bool)
    {w : List Char} (hne : w ≠ []) (hw : w.all p = true)
    (h : parseItemNumberBase E (itemWord paren w) = .panic) :
    parseItemNumber E (itemWord paren w) = .panic := by
  rw [parse_single E hp paren hne hw, h]
  rfl

end JLaw
