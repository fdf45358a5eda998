import Verif.Lemmas.Kansuji
import Verif.Lemmas.ParseArticle

/-!
# Texts of numbers and what is read from them
-/

namespace JLaw

open Spec

theorem lookup_mem {α β : Type} [BEq α] [LawfulBEq α] {l : List (α × β)} {a : α} {b : β}
    (h : l.lookup a = some b) : (a, b) ∈ l := by
  induction l with
  | nil => cases h
  | cons p l ih =>
    obtain ⟨x, y⟩ := p
    by_cases hx : a = x
    · subst hx
      simp [List.lookup] at h
      simp [h]
    · have hx' : (a == x) = false := by simpa using hx
      simp only [List.lookup, hx'] at h
      simp [ih h]

theorem lookup_to (t : List (Usize × Char)) (poem : List Char)
    (h47 : ∀ i : Nat, i < 48 → t.lookup (Fin.ofNat _ i) = if i = 0 then none else poem[i - 1]?)
    (hle : ∀ p ∈ t, p.1.val < 48) (n : Usize) :
    t.lookup n = if 1 ≤ n.val ∧ n.val ≤ 47 then poem[n.val - 1]? else none := by
  by_cases hn : n.val < 48
  · have := h47 n.val hn
    rw [show Fin.ofNat 18446744073709551616 n.val = n from Fin.ext (Nat.mod_eq_of_lt n.isLt)] at this
    rw [this]
    by_cases h0 : n.val = 0
    · simp [h0]
    · rw [if_neg h0, if_pos ⟨by omega, by omega⟩]
  · rw [if_neg (by omega), List.lookup_eq_none_iff]
    intro p hp
    have := hle p hp
    have hne : n ≠ p.1 := by
      rintro rfl
      omega
    simpa using hne

theorem iroha_katakana :
    irohaKatakana.length = 47 ∧ irohaKatakana.Nodup ∧
    (∀ n : Usize, 1 ≤ n.val → n.val ≤ 47 → ∃ c, irohaKatakana[n.val - 1]? = some c ∧
      toIrohaKatakana n = some [c] ∧ parseIrohaKatakana [c] = some n) ∧
    (∀ n : Usize, n.val = 0 ∨ 47 < n.val → toIrohaKatakana n = none) ∧
    ∀ s n, parseIrohaKatakana s = some n → 1 ≤ n.val ∧ n.val ≤ 47 ∧ toIrohaKatakana n = some s := by
  have hto := lookup_to toIrohaKatakana.table irohaKatakana (by decide +kernel) (by decide +kernel)
  have hto' : ∀ n, toIrohaKatakana n =
      (toIrohaKatakana.table.lookup n).map fun c => [c] := fun _ => rfl
  have hlen : irohaKatakana.length = 47 := by decide +kernel
  refine ⟨hlen, by decide +kernel, ?_, ?_, ?_⟩
  · intro n h1 h2
    obtain ⟨c, hc⟩ : ∃ c, irohaKatakana[n.val - 1]? = some c :=
      ⟨_, List.getElem?_eq_getElem (by omega)⟩
    have hl : toIrohaKatakana.table.lookup n = some c := by
      rw [hto n, if_pos ⟨h1, h2⟩, hc]
    refine ⟨c, hc, by rw [hto', hl]; rfl, ?_⟩
    have hm : (n, c) ∈ toIrohaKatakana.table := lookup_mem hl
    have hall : ∀ p ∈ toIrohaKatakana.table, parseIrohaKatakana [p.2] = some p.1 := by
      decide +kernel
    exact hall _ hm
  · intro n hn
    rw [hto', hto n, if_neg (by omega)]
    rfl
  · intro s n h
    match s with
    | [] => cases h
    | _ :: _ :: _ => cases h
    | [c] =>
      have hm : (c, n) ∈ parseIrohaKatakana.table := lookup_mem h
      have hall : ∀ p ∈ parseIrohaKatakana.table, 1 ≤ p.2.val ∧ p.2.val ≤ 47 ∧
          toIrohaKatakana p.2 = some [p.1] := by decide +kernel
      exact hall _ hm

theorem iroha_hiragana :
    irohaHiragana.length = 47 ∧ irohaHiragana.Nodup ∧
    (∀ n : Usize, 1 ≤ n.val → n.val ≤ 47 → ∃ c, irohaHiragana[n.val - 1]? = some c ∧
      toIrohaHiragana n = some [c] ∧ parseIrohaHiragana [c] = some n) ∧
    (∀ n : Usize, n.val = 0 ∨ 47 < n.val → toIrohaHiragana n = none) ∧
    ∀ s n, parseIrohaHiragana s = some n → 1 ≤ n.val ∧ n.val ≤ 47 ∧ toIrohaHiragana n = some s := by
  have hto := lookup_to toIrohaHiragana.table irohaHiragana (by decide +kernel) (by decide +kernel)
  have hto' : ∀ n, toIrohaHiragana n =
      (toIrohaHiragana.table.lookup n).map fun c => [c] := fun _ => rfl
  have hlen : irohaHiragana.length = 47 := by decide +kernel
  refine ⟨hlen, by decide +kernel, ?_, ?_, ?_⟩
  · intro n h1 h2
    obtain ⟨c, hc⟩ : ∃ c, irohaHiragana[n.val - 1]? = some c :=
      ⟨_, List.getElem?_eq_getElem (by omega)⟩
    have hl : toIrohaHiragana.table.lookup n = some c := by
      rw [hto n, if_pos ⟨h1, h2⟩, hc]
    refine ⟨c, hc, by rw [hto', hl]; rfl, ?_⟩
    have hm : (n, c) ∈ toIrohaHiragana.table := lookup_mem hl
    have hall : ∀ p ∈ toIrohaHiragana.table, parseIrohaHiragana [p.2] = some p.1 := by
      decide +kernel
    exact hall _ hm
  · intro n hn
    rw [hto', hto n, if_neg (by omega)]
    rfl
  · intro s n h
    match s with
    | [] => cases h
    | _ :: _ :: _ => cases h
    | [c] =>
      have hm : (c, n) ∈ parseIrohaHiragana.table := lookup_mem h
      have hall : ∀ p ∈ parseIrohaHiragana.table, 1 ≤ p.2.val ∧ p.2.val ≤ 47 ∧
          toIrohaHiragana p.2 = some [p.1] := by decide +kernel
      exact hall _ hm

theorem alphabet_panic (offset : Nat) (ho : 10 ≤ offset) (n : Nat) :
    mapRes (alphabetOfDigit offset) (digits n) = .panic := by
  have hd := digits_ne_nil n
  have ha := digits_all n
  cases hds : digits n with
  | nil => exact absurd hds hd
  | cons c ds =>
    rw [hds] at ha
    simp only [List.all_cons, Bool.and_eq_true] at ha
    have hp := parseUsize_ascii (ds := [c]) (asciiNumber_iff.mpr ⟨by simp, by simp [ha.1]⟩)
    have : alphabetOfDigit offset c = .panic := by
      rw [alphabetOfDigit, hp]
      split
      · simp only [Res.unwrap, Res.bind_ok, fromDigit]
        rw [if_neg (by omega)]
      · rfl
    simp [mapRes, this]

theorem iroha_render (n : Usize) :
    (∃ t, toIrohaKatakana n = some t) ↔ 1 ≤ n.val ∧ n.val ≤ 47 := by
  obtain ⟨-, -, h1, h2, -⟩ := iroha_katakana
  constructor
  · rintro ⟨t, ht⟩
    apply Classical.byContradiction
    intro hn
    rw [h2 n (by omega)] at ht
    cases ht
  · rintro ⟨ha, hb⟩
    obtain ⟨c, -, h, -⟩ := h1 n ha hb
    exact ⟨_, h⟩

theorem iroha_render' (n : Usize) :
    (∃ t, toIrohaHiragana n = some t) ↔ 1 ≤ n.val ∧ n.val ≤ 47 := by
  obtain ⟨-, -, h1, h2, -⟩ := iroha_hiragana
  constructor
  · rintro ⟨t, ht⟩
    apply Classical.byContradiction
    intro hn
    rw [h2 n (by omega)] at ht
    cases ht
  · rintro ⟨ha, hb⟩
    obtain ⟨c, -, h, -⟩ := h1 n ha hb
    exact ⟨_, h⟩

/-- A result is a value exactly under a condition and a panic otherwise. -/
def OkIff {α : Type} (r : Res α) (p : Prop) : Prop := (p ∧ ∃ a, r = .ok a) ∨ (¬ p ∧ r = .panic)

theorem okIff_unwrap {α : Type} {o : Option α} {p : Prop} (h : (∃ a, o = some a) ↔ p) :
    OkIff (Res.unwrap o) p := by
  cases o with
  | none => exact Or.inr ⟨fun hp => by simp [hp] at h, rfl⟩
  | some a => exact Or.inl ⟨h.mp ⟨a, rfl⟩, a, rfl⟩

theorem OkIff.bind {α β : Type} {r : Res α} {f : α → Res β} {p q : Prop} (h : OkIff r p)
    (hf : ∀ a, OkIff (f a) q) : OkIff (r.bind f) (p ∧ q) := by
  rcases h with ⟨hp, a, rfl⟩ | ⟨hp, rfl⟩
  · rcases hf a with ⟨hq, b, hb⟩ | ⟨hq, hb⟩
    · exact Or.inl ⟨⟨hp, hq⟩, b, hb⟩
    · exact Or.inr ⟨fun h => hq h.2, hb⟩
  · exact Or.inr ⟨fun h => hp h.1, rfl⟩

theorem okIff_ok {α : Type} (a : α) : OkIff (Res.ok a) True := Or.inl ⟨trivial, a, rfl⟩

theorem OkIff.congr {α : Type} {r : Res α} {p q : Prop} (h : OkIff r p) (hpq : p ↔ q) :
    OkIff r q := by rwa [← propext hpq]

theorem OkIff.inParens {r : Res (List Char)} {p : Prop} (h : OkIff r p) : OkIff (inParens r) p :=
  (h.bind fun _ => okIff_ok _).congr (by simp)

theorem roman_render (E : Ext) (n : Usize) (f : List Char → List Char) :
    (∃ t, (E.romanStr (asI32 n)).map f = some t) ↔ ∃ t, E.romanStr (asI32 n) = some t := by
  cases E.romanStr (asI32 n) <;> simp

theorem okIff_noParen (E : Ext) (n : Usize) (p : ItemPattern) :
    OkIff (p.numToStrNoParen E n) (Renderable E n p) := by
  have hU : OkIff (toZenkakuAlphabetUpper n) False :=
    Or.inr ⟨id, alphabet_panic _ (by decide) _⟩
  have hL : OkIff (toZenkakuAlphabetLower n) False :=
    Or.inr ⟨id, alphabet_panic _ (by decide) _⟩
  cases p with
  | noParenKansuji | parenKansuji | noParenZenkakuNum | parenZenkakuNum => exact okIff_ok _
  | noParenIrohaKatakana | parenIrohaKatakana => exact okIff_unwrap (iroha_render n)
  | noParenIrohaHiragana | parenIrohaHiragana => exact okIff_unwrap (iroha_render' n)
  | noParenZenkakuRomanUpper | parenZenkakuRomanUpper | noParenZenkakuRomanLower
  | parenZenkakuRomanLower => exact okIff_unwrap (roman_render E n _)
  | noParenZenkakuUpper | parenZenkakuUpper => exact hU
  | noParenZenkakuLower | parenZenkakuLower => exact hL

theorem okIff_paren (E : Ext) (n : Usize) (p : ItemPattern) :
    OkIff (p.numToStr E n) (Renderable E n p) := by
  have hU : OkIff (toZenkakuAlphabetUpper n) False :=
    Or.inr ⟨id, alphabet_panic _ (by decide) _⟩
  have hL : OkIff (toZenkakuAlphabetLower n) False :=
    Or.inr ⟨id, alphabet_panic _ (by decide) _⟩
  cases p with
  | noParenKansuji | noParenZenkakuNum => exact okIff_ok _
  | parenKansuji | parenZenkakuNum => exact (okIff_ok _).inParens
  | noParenIrohaKatakana => exact okIff_unwrap (iroha_render n)
  | noParenIrohaHiragana => exact okIff_unwrap (iroha_render' n)
  | parenIrohaKatakana => exact (okIff_unwrap (iroha_render n)).inParens
  | parenIrohaHiragana => exact (okIff_unwrap (iroha_render' n)).inParens
  | noParenZenkakuRomanUpper | noParenZenkakuRomanLower => exact okIff_unwrap (roman_render E n _)
  | parenZenkakuRomanUpper | parenZenkakuRomanLower =>
    exact (okIff_unwrap (roman_render E n _)).inParens
  | noParenZenkakuUpper => exact hU
  | noParenZenkakuLower => exact hL
  | parenZenkakuUpper => exact hU.inParens
  | parenZenkakuLower => exact hL.inParens

theorem okIff_eda (E : Ext) (p : ItemPattern) (l : List Usize) :
    OkIff (p.edaText E l) (∀ n ∈ l, Renderable E n p) := by
  unfold ItemPattern.edaText
  induction l with
  | nil => exact (okIff_ok _).congr (by simp)
  | cons n l ih =>
    refine OkIff.congr (((okIff_noParen E n p).bind fun _ => okIff_ok _).bind fun _ =>
      ih.bind fun _ => okIff_ok _) ?_
    simp

theorem kansuji_branch {E : Ext} (hE : ReadsKansuji E) {n : Usize} (h1 : 1 ≤ n.val)
    (h2 : n.val ≤ 9999) : NumIn kinds (E.kansujiStr n) ∧ baseRes E (E.kansujiStr n) = .ok (some n) ∧
      readPiece E (E.kansujiStr n) = some n := by
  obtain ⟨hk, hr⟩ := hE n h1 h2
  obtain ⟨hne, hall⟩ := kanjiNumber_iff.mp hk
  have hu : E.kansujiUsize (E.kansujiStr n) = some n := by
    rw [Ext.kansujiUsize, hr]
    simp only [Option.map_some, Option.some.injEq]
    exact Fin.ext (Nat.mod_eq_of_lt n.isLt)
  refine ⟨⟨hne, isKansuji, by simp [kinds], hall⟩, by rw [baseRes_kansuji E hne hall, hu], ?_⟩
  rw [readPiece, (parse_kanji hk).1, (parse_kanji hk).2, hu]
  rfl

theorem edaText_flat (f : Usize → List Char) (l : List Usize) :
    edaText f l = flat (l.map fun n => ('の', f n)) := by
  induction l with
  | nil => rfl
  | cons n l ih =>
    rw [List.map_cons, flat_cons, ← ih]
    rfl

theorem genArticlesText_reads {E : Ext} (hE : ReadsKansuji E) (a : ArticleNumber) {u : Char}
    (hu : isUnit u = true) (ha : ∀ n ∈ components a, 1 ≤ n.val ∧ n.val ≤ 9999) :
    parseArticleNumber E (a.genArticlesText E u) = .ok (some a) := by
  obtain ⟨base, eda, range⟩ := a
  have hbase := kansuji_branch hE (ha base (by simp [components])).1 (ha base (by simp [components])).2
  have branch : ∀ l : List Usize, (∀ n ∈ l, 1 ≤ n.val ∧ n.val ≤ 9999) →
      (∀ b ∈ l.map (fun n => ('の', E.kansujiStr n)), IsBranch isSep kinds b) ∧
      allPieces (readPiece E) ((l.map fun n => ('の', E.kansujiStr n)).map Prod.snd) = some l := by
    intro l hl
    constructor
    · intro b hb
      obtain ⟨n, hn, rfl⟩ := List.mem_map.mp hb
      exact ⟨(by decide : isSep 'の' = true), (kansuji_branch hE (hl n hn).1 (hl n hn).2).1⟩
    · apply allPieces_map
      rw [List.map_map]
      clear ha
      induction l with
      | nil => exact .nil
      | cons n l ih =>
        exact .cons (kansuji_branch hE (hl n (by simp)).1 (hl n (by simp)).2).2.2
          (ih fun m hm => hl m (by simp [hm]))
  have heda := branch eda fun n hn => ha n (by simp [components, hn])
  cases range with
  | nil =>
    have := parse_plain E (lead := ['第']) (r := []) (Or.inr rfl) hbase.1 hu heda.1 trivial
      (fun _ _ _ _ _ => trivial) (by rintro ⟨ds, u, bs, rest, -, h, -⟩; cases h)
    simp only [ArticleNumber.genArticlesText, edaText_flat, List.append_nil] at this ⊢
    rw [show '第' :: E.kansujiStr base ++ u :: flat (List.map (fun n => ('の', E.kansujiStr n)) eda) =
      ['第'] ++ (E.kansujiStr base ++ u :: flat (List.map (fun n => ('の', E.kansujiStr n)) eda)) from rfl,
      this, hbase.2.1, heda.2]
    rfl
  | cons r l =>
    have hr := kansuji_branch hE (ha r (by simp [components])).1 (ha r (by simp [components])).2
    have hl := branch l fun n hn => ha n (by simp [components, hn])
    have hp : noPieces (flat (l.map fun n => ('の', E.kansujiStr n))) =
        (l.map fun n => ('の', E.kansujiStr n)).map Prod.snd := by
      apply pieces_flat
      intro b hb
      have := (hl.1 b hb).2
      obtain ⟨n, hn, rfl⟩ := List.mem_map.mp hb
      exact ⟨rfl, numIn_not_mem this (sep_kinds 'の' (by decide)), this.1⟩
    have := parse_range E (lead := ['第']) (r := 'か' :: 'ら' :: '第' :: (E.kansujiStr r ++ u ::
      (flat (l.map fun n => ('の', E.kansujiStr n)) ++ 'ま' :: 'で' :: []))) (Or.inr rfl) hbase.1 hu heda.1
      hr.1 ⟨rfl, hu, hl.1⟩
    rw [hbase.2.1, heda.2, hr.2.1, hp, hl.2] at this
    rw [show ArticleNumber.genArticlesText E ⟨base, eda, r :: l⟩ u = ['第'] ++ (E.kansujiStr base ++ u ::
      (flat (eda.map fun n => ('の', E.kansujiStr n)) ++ 'か' :: 'ら' :: '第' :: (E.kansujiStr r ++ u ::
      (flat (l.map fun n => ('の', E.kansujiStr n)) ++ 'ま' :: 'で' :: [])))) from ?_, this]
    · rfl
    · simp [ArticleNumber.genArticlesText, edaText_flat]

theorem zenkaku_branch (n : Usize) : NumIn kindsP (toZenkakuNum n) ∧
    readParagraphPiece (toZenkakuNum n) = .ok n ∧
    (parseUsize (toZenkakuNum n)).or (parseZenkakuNum (toZenkakuNum n)) = some n := by
  have hw := toZenkakuNum_wide n
  obtain ⟨hne, hall⟩ := wideNumber_iff.mp hw
  have hp : parseUsize (toZenkakuNum n) = none := parseUsize_wide hw
  refine ⟨⟨hne, isZenkaku, by simp [kindsP], hall⟩, ?_, ?_⟩
  · rw [readParagraphPiece, hp, parse_toZenkakuNum]; rfl
  · rw [hp, parse_toZenkakuNum]; rfl

theorem paragraph_no_unit {ds : List Char} (hds : NumIn kindsP ds) {s : List Char}
    (hs : ∀ c t, s = c :: t → c ∈ ['の', 'か']) : ¬ HasUnit (ds ++ s) := by
  rintro ⟨lead, ds', u, rest, hlead, h, hds', hu⟩
  have hsplit : ∀ (w w' x y : List Char) (c d : Char) (p : Char → Bool), w ++ c :: x = w' ++ d :: y →
      w.all p = true → w'.all p = true → p c = false → p d = false → c = d := by
    intro w
    induction w with
    | nil =>
      intro w' x y c d p h _ hw' hc hd
      cases w' with
      | nil => simpa using (List.cons.inj h).1
      | cons e w' =>
        simp only [List.nil_append, List.cons_append, List.cons.injEq] at h
        simp only [List.all_cons, Bool.and_eq_true] at hw'
        rw [← h.1, hc] at hw'
        cases hw'.1
    | cons e w ih =>
      intro w' x y c d p h hw hw' hc hd
      simp only [List.all_cons, Bool.and_eq_true] at hw
      cases w' with
      | nil =>
        simp only [List.cons_append, List.nil_append, List.cons.injEq] at h
        rw [h.1, hd] at hw
        cases hw.1
      | cons e' w' =>
        simp only [List.cons_append, List.cons.injEq] at h
        simp only [List.all_cons, Bool.and_eq_true] at hw'
        exact ih w' x y c d p h.2 hw.2 hw'.2 hc hd
  obtain ⟨hne, p, hp, hall⟩ := hds
  obtain ⟨hne', p', hp', hall'⟩ := hds'
  cases ds with
  | nil => exact hne rfl
  | cons e ds =>
  have hlead' : lead = [] := by
    rcases hlead with h' | h'
    · exact h'
    · exfalso
      subst h'
      simp only [List.cons_append, List.cons.injEq] at h
      simp only [List.all_cons, Bool.and_eq_true] at hall
      rw [h.1, marks_kinds (by simp) p (kindsP_sub hp)] at hall
      cases hall.1
  subst hlead'
  cases ds' with
  | nil => exact hne' rfl
  | cons e' ds' =>
  have hpp : p' = p := by
    simp only [List.cons_append, List.nil_append, List.cons.injEq] at h
    simp only [List.all_cons, Bool.and_eq_true] at hall hall'
    rw [h.1] at hall
    exact kinds_disjoint p' hp' p (kindsP_sub hp) e' hall'.1 hall.1
  subst hpp
  cases s with
  | nil =>
    rw [List.append_nil] at h
    rw [h] at hall
    simp only [List.nil_append, List.all_append, List.all_cons, Bool.and_eq_true] at hall
    rw [unit_kinds u hu p' hp'] at hall
    cases hall.2.1
  | cons c t =>
    have hc := hs c t rfl
    have hcp : p' c = false := by
      have : ∀ c ∈ ['の', 'か'], isDigit c = false ∧ isZenkaku c = false ∧ isKansuji c = false := by
        decide
      exact kinds_of_mem this hc p' hp'
    have := hsplit (e :: ds) (e' :: ds') t rest c u p' (by simpa using h) hall hall' hcp
      (unit_kinds u hu p' hp')
    subst this
    have : ∀ c ∈ ['の', 'か'], isUnit c = false := by decide
    rw [this c hc] at hu
    cases hu

end JLaw
