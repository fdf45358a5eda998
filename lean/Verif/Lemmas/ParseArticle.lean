import Verif.Lemmas.Base
import Verif.Lemmas.NumText

/-!
# What `parse_article_number` computes
-/

namespace JLaw

/-- The first number of an article heading. -/
def baseRes (E : Ext) (ds : List Char) : Res (Option Usize) :=
  if ds.all isDigit then (Res.unwrap (parseUsize ds)).bind fun n => .ok (some n)
  else if ds.all isZenkaku then .ok (parseZenkakuNum ds)
  else .ok (E.kansujiUsize ds)

theorem not_all {p q : Char → Bool} (hp : p ∈ kinds) (hq : q ∈ kinds) (hpq : q ≠ p) {ds : List Char}
    (hne : ds ≠ []) (h : ds.all p = true) : ds.all q = false := by
  cases ds with
  | nil => exact absurd rfl hne
  | cons c ds =>
    simp only [List.all_cons, Bool.and_eq_true] at h
    have : q c = false := by
      cases hqc : q c with
      | false => rfl
      | true => exact absurd (kinds_disjoint q hq p hp c hqc h.1) hpq
    simp [this]

theorem isZenkaku_ne : isZenkaku ≠ isDigit := by
  intro h; have := congrFun h '1'; revert this; decide

theorem isKansuji_ne : isKansuji ≠ isDigit := by
  intro h; have := congrFun h '1'; revert this; decide

theorem isKansuji_ne' : isKansuji ≠ isZenkaku := by
  intro h; have := congrFun h '１'; revert this; decide

theorem baseRes_zenkaku (E : Ext) {ds : List Char} (hne : ds ≠ []) (h : ds.all isZenkaku = true) :
    baseRes E ds = .ok (parseZenkakuNum ds) := by
  simp [baseRes, not_all (p := isZenkaku) (q := isDigit) (by simp [kinds]) (by simp [kinds])
    isZenkaku_ne.symm hne h, h]

theorem baseRes_kansuji (E : Ext) {ds : List Char} (hne : ds ≠ []) (h : ds.all isKansuji = true) :
    baseRes E ds = .ok (E.kansujiUsize ds) := by
  simp [baseRes, not_all (p := isKansuji) (q := isDigit) (by simp [kinds]) (by simp [kinds])
    isKansuji_ne.symm hne h, not_all (p := isKansuji) (q := isZenkaku) (by simp [kinds])
    (by simp [kinds]) isKansuji_ne'.symm hne h]

theorem articleOfCaps_plain (E : Ext) {ds : List Char} {u : Char} {bs : List (Char × List Char)}
    {n : String} {p : Char → Bool} (hn : (n, p) ∈ names1) (hne : ds ≠ []) (hds : ds.all p = true)
    (hbs : ∀ b ∈ bs, IsBranch isSep kinds b) :
    articleOfCaps E [(n, ds), ("suffix", [u]), ("eda_str", flat bs)] =
      (baseRes E ds).bind fun o => orNone o fun base =>
        orNone (allPieces (readPiece E) (bs.map Prod.snd)) fun eda => .ok (some ⟨base, eda, []⟩) := by
  simp only [names1, List.mem_cons, Prod.mk.injEq, List.not_mem_nil, or_false] at hn
  rcases hn with ⟨rfl, rfl⟩ | ⟨rfl, rfl⟩ | ⟨rfl, rfl⟩
  · simp [articleOfCaps, numberOfCaps, Caps.name, List.lookup, Res.unwrap, pieces_replace hbs,
      baseRes, hds, Res.bind, orNone]
  · simp [articleOfCaps, numberOfCaps, Caps.name, List.lookup, Res.unwrap, pieces_replace hbs,
      baseRes_zenkaku E hne hds, Res.bind, orNone]
  · simp [articleOfCaps, numberOfCaps, Caps.name, List.lookup, Res.unwrap, pieces_replace hbs,
      baseRes_kansuji E hne hds, Res.bind, orNone]

theorem articleOfCaps_range (E : Ext) {ds : List Char} {u : Char} {bs : List (Char × List Char)}
    {n : String} {p : Char → Bool} (hn : (n, p) ∈ names1) (hne : ds ≠ []) (hds : ds.all p = true)
    (hbs : ∀ b ∈ bs, IsBranch isSep kinds b) {ds2 : List Char} {u2 : Char}
    {bs2 : List (Char × List Char)} {n2 : String} {p2 : Char → Bool} (hn2 : (n2, p2) ∈ names2)
    (hne2 : ds2 ≠ []) (hds2 : ds2.all p2 = true) :
    articleOfCaps E [(n, ds), ("suffix", [u]), ("eda_str", flat bs), (n2, ds2), ("suffix_2", [u2]),
        ("eda_str_2", flat bs2)] =
      (baseRes E ds).bind fun o => orNone o fun base =>
        orNone (allPieces (readPiece E) (bs.map Prod.snd)) fun eda =>
        (baseRes E ds2).bind fun o => orNone o fun r =>
        orNone (allPieces (readPiece E) (noPieces (flat bs2))) fun eda2 =>
          .ok (some ⟨base, eda, r :: eda2⟩) := by
  simp only [names1, List.mem_cons, Prod.mk.injEq, List.not_mem_nil, or_false] at hn
  simp only [names2, List.mem_cons, Prod.mk.injEq, List.not_mem_nil, or_false] at hn2
  have h2 : ∀ (a : Option Usize) (f : List Usize → Res (Option ArticleNumber)),
      (orNone a fun n => Res.ok (some [n])).bind (fun o => orNone o f) = orNone a fun n => f [n] := by
    intro a f; cases a <;> rfl
  have e1 : numberOfCaps E [(n, ds), ("suffix", [u]), ("eda_str", flat bs), (n2, ds2),
      ("suffix_2", [u2]), ("eda_str_2", flat bs2)] "arabic_num" "zenkaku_num" "kansuji" =
      some (baseRes E ds) := by
    rcases hn with ⟨rfl, rfl⟩ | ⟨rfl, rfl⟩ | ⟨rfl, rfl⟩ <;>
    rcases hn2 with ⟨rfl, rfl⟩ | ⟨rfl, rfl⟩ | ⟨rfl, rfl⟩ <;>
    simp [numberOfCaps, Caps.name, List.lookup, baseRes_zenkaku E, baseRes_kansuji E, hne, hds] <;>
    simp [baseRes, hds]
  have e2 : numberOfCaps E [(n, ds), ("suffix", [u]), ("eda_str", flat bs), (n2, ds2),
      ("suffix_2", [u2]), ("eda_str_2", flat bs2)] "arabic_num_2" "zenkaku_num_2" "kansuji_2" =
      some (baseRes E ds2) := by
    rcases hn with ⟨rfl, rfl⟩ | ⟨rfl, rfl⟩ | ⟨rfl, rfl⟩ <;>
    rcases hn2 with ⟨rfl, rfl⟩ | ⟨rfl, rfl⟩ | ⟨rfl, rfl⟩ <;>
    simp [numberOfCaps, Caps.name, List.lookup, baseRes_zenkaku E, baseRes_kansuji E, hne2, hds2] <;>
    simp [baseRes, hds2]
  have e3 : Caps.name [(n, ds), ("suffix", [u]), ("eda_str", flat bs), (n2, ds2),
      ("suffix_2", [u2]), ("eda_str_2", flat bs2)] "eda_str" = some (flat bs) := by
    rcases hn2 with ⟨rfl, rfl⟩ | ⟨rfl, rfl⟩ | ⟨rfl, rfl⟩ <;> simp [Caps.name, List.lookup]
  have e4 : Caps.name [(n, ds), ("suffix", [u]), ("eda_str", flat bs), (n2, ds2),
      ("suffix_2", [u2]), ("eda_str_2", flat bs2)] "eda_str_2" = some (flat bs2) := by
    simp [Caps.name]
  simp only [articleOfCaps, e1, e2, e3, e4, Res.unwrap, Res.bind_ok, Res.bind_assoc,
    pieces_replace hbs, h2, List.cons_append, List.nil_append]

/-! ## Reading numbers -/

/-- A result that is a value or a panic. -/
def OkOrPanic {α : Type} (r : Res α) : Prop := r = .panic ∨ ∃ a, r = .ok a

theorem OkOrPanic.bind {α β : Type} {r : Res α} {f : α → Res β} (hr : OkOrPanic r)
    (hf : ∀ a, OkOrPanic (f a)) : OkOrPanic (r.bind f) := by
  rcases hr with rfl | ⟨a, rfl⟩
  · exact Or.inl rfl
  · exact hf a

theorem OkOrPanic.orNone {α β : Type} {o : Option α} {f : α → Res (Option β)}
    (hf : ∀ a, OkOrPanic (f a)) : OkOrPanic (orNone o f) := by
  cases o with
  | none => exact Or.inr ⟨none, rfl⟩
  | some a => exact hf a

theorem okOrPanic_ok {α : Type} (a : α) : OkOrPanic (Res.ok a) := Or.inr ⟨a, rfl⟩

theorem okOrPanic_unwrap {α : Type} (o : Option α) : OkOrPanic (Res.unwrap o) := by
  cases o with
  | none => exact Or.inl rfl
  | some a => exact Or.inr ⟨a, rfl⟩

theorem orNone_panic {α β : Type} {o : Option α} {f : α → Res (Option β)} :
    orNone o f = .panic ↔ ∃ a, o = some a ∧ f a = .panic := by
  cases o with
  | none => simp [orNone]
  | some a => simp [orNone]

theorem bind_panic_iff {α β : Type} {r : Res α} {f : α → Res β} (hr : OkOrPanic r) :
    r.bind f = .panic ↔ r = .panic ∨ ∃ a, r = .ok a ∧ f a = .panic := by
  rcases hr with rfl | ⟨a, rfl⟩
  · simp
  · simp

theorem not_tooBig_ascii {ds : List Char} (h : Spec.AsciiNumber ds) :
    Spec.TooBig ds ↔ Spec.limit ≤ Spec.value '0' ds := by
  constructor
  · rintro (h' | ⟨h', -⟩)
    · exact h'.2
    · obtain ⟨hne, hall⟩ := wideNumber_iff.mp h'
      obtain ⟨-, hall'⟩ := asciiNumber_iff.mp h
      rw [not_all (p := isDigit) (by simp [kinds]) (by simp [kinds]) isZenkaku_ne hne hall'] at hall
      cases hall
  · exact fun h' => Or.inl ⟨h, h'⟩

theorem not_tooBig_wide {ds : List Char} (h : Spec.WideNumber ds) :
    Spec.TooBig ds ↔ Spec.limit ≤ Spec.value '０' ds := by
  constructor
  · rintro (⟨h', -⟩ | h')
    · obtain ⟨hne, hall⟩ := wideNumber_iff.mp h
      obtain ⟨-, hall'⟩ := asciiNumber_iff.mp h'
      rw [not_all (p := isDigit) (by simp [kinds]) (by simp [kinds]) isZenkaku_ne hne hall'] at hall
      cases hall
    · exact h'.2
  · exact fun h' => Or.inr ⟨h, h'⟩

theorem parse_digit_none {ds : List Char} (h : Spec.DigitNumber ds) :
    (parseUsize ds).or (parseZenkakuNum ds) = none ↔ Spec.TooBig ds := by
  rcases h with h | h
  · rw [parseZenkakuNum_ascii (asciiNumber_iff.mp h).2, parseUsize_ascii h, not_tooBig_ascii h]
    split
    · rename_i hlt; simp; exact hlt
    · rename_i hlt; simp; omega
  · rw [parseUsize_wide h, parseZenkakuNum_wide h, not_tooBig_wide h]
    split
    · rename_i hlt; simp; exact hlt
    · rename_i hlt; simp; omega

theorem okOrPanic_baseRes (E : Ext) (ds : List Char) : OkOrPanic (baseRes E ds) := by
  unfold baseRes
  split
  · exact (okOrPanic_unwrap _).bind fun _ => okOrPanic_ok _
  · split <;> exact okOrPanic_ok _

theorem baseRes_panic {E : Ext} {ds : List Char} (h : Spec.AnyNumber ds) :
    baseRes E ds = .panic ↔ Spec.AsciiNumber ds ∧ Spec.limit ≤ Spec.value '0' ds := by
  rcases h with h | h | h
  · have := (asciiNumber_iff.mp h).2
    simp only [baseRes, this, if_true, parseUsize_ascii h, h, true_and]
    split
    · rename_i hlt; simp [Res.unwrap]; exact hlt
    · rename_i hlt; simp [Res.unwrap]; omega
  · obtain ⟨hne, hall⟩ := wideNumber_iff.mp h
    rw [baseRes_zenkaku E hne hall]
    constructor
    · intro h'; cases h'
    · rintro ⟨h', -⟩
      rw [not_all (p := isDigit) (by simp [kinds]) (by simp [kinds]) isZenkaku_ne hne
        (asciiNumber_iff.mp h').2] at hall
      cases hall
  · obtain ⟨hne, hall⟩ := kanjiNumber_iff.mp h
    rw [baseRes_kansuji E hne hall]
    constructor
    · intro h'; cases h'
    · rintro ⟨h', -⟩
      rw [not_all (p := isDigit) (by simp [kinds]) (by simp [kinds]) isKansuji_ne hne
        (asciiNumber_iff.mp h').2] at hall
      cases hall

theorem kansujiUsize_some {E : Ext} {ds : List Char} :
    (∃ n, E.kansujiUsize ds = some n) ↔ ∃ n, E.kansujiNum ds = some n := by
  simp only [Ext.kansujiUsize, Option.map_eq_some_iff]
  constructor
  · rintro ⟨_, n, hn, -⟩; exact ⟨n, hn⟩
  · rintro ⟨n, hn⟩; exact ⟨_, n, hn, rfl⟩

theorem baseRes_some {E : Ext} {ds : List Char} (h : Spec.AnyNumber ds) :
    (∃ n, baseRes E ds = .ok (some n)) ↔ Spec.ReadableBase E ds := by
  have noKanji : Spec.DigitNumber ds → ¬ Spec.KanjiNumber ds := by
    intro h' hk
    obtain ⟨hne, hall⟩ := kanjiNumber_iff.mp hk
    rcases h' with h' | h'
    · rw [not_all (p := isDigit) (by simp [kinds]) (by simp [kinds]) isKansuji_ne hne
        (asciiNumber_iff.mp h').2] at hall
      cases hall
    · rw [not_all (p := isZenkaku) (by simp [kinds]) (by simp [kinds]) isKansuji_ne' hne
        (wideNumber_iff.mp h').2] at hall
      cases hall
  rcases h with h | h | h
  · have := (asciiNumber_iff.mp h).2
    have hk := noKanji (Or.inl h)
    have hd : Spec.DigitNumber ds := Or.inl h
    simp only [Spec.ReadableBase, hk, false_and, or_false, hd, true_and, not_tooBig_ascii h]
    simp only [baseRes, this, if_true, parseUsize_ascii h]
    split
    · rename_i hlt; simp [Res.unwrap]; exact hlt
    · rename_i hlt; simp [Res.unwrap]; omega
  · obtain ⟨hne, hall⟩ := wideNumber_iff.mp h
    have hk := noKanji (Or.inr h)
    have hd : Spec.DigitNumber ds := Or.inr h
    rw [baseRes_zenkaku E hne hall]
    simp only [Spec.ReadableBase, hk, false_and, or_false, hd, true_and, not_tooBig_wide h,
      parseZenkakuNum_wide h]
    split
    · rename_i hlt; simp; exact hlt
    · rename_i hlt; simp; omega
  · obtain ⟨hne, hall⟩ := kanjiNumber_iff.mp h
    have hd : ¬ Spec.DigitNumber ds := fun hd => noKanji hd h
    rw [baseRes_kansuji E hne hall]
    simp only [Spec.ReadableBase, hd, false_and, false_or, h, true_and, Res.ok.injEq,
      kansujiUsize_some]

theorem readPiece_some {E : Ext} {ds : List Char} (h : Spec.AnyNumber ds) :
    (∃ n, readPiece E ds = some n) ↔ Spec.ReadableBranch E ds := by
  have key : ∀ o o' : Option Usize, (∃ n, o.or o' = some n) ↔ o ≠ none ∨ ∃ n, o' = some n := by
    intro o o'; cases o <;> simp
  rw [readPiece, key, kansujiUsize_some, Spec.ReadableBranch]
  have hor : ∀ {p q r : Prop}, (p ↔ q) → (p ∨ r ↔ q ∨ r) := fun h => by rw [h]
  have hdig : ∀ hd : Spec.DigitNumber ds,
      ((parseUsize ds).or (parseZenkakuNum ds) ≠ none ↔ Spec.DigitNumber ds ∧ ¬ Spec.TooBig ds) :=
    fun hd => by rw [Ne, parse_digit_none hd]; simp [hd]
  rcases h with h | h | h
  · exact hor (hdig (Or.inl h))
  · exact hor (hdig (Or.inr h))
  · have := parse_kanji h
    rw [this.1, this.2]
    simp only [Option.or_none, ne_eq, not_true_eq_false, false_or]
    constructor
    · exact Or.inr
    · rintro (⟨hd, ht⟩ | h')
      · exfalso
        apply ht
        rw [← parse_digit_none hd, this.1, this.2]; rfl
      · exact h'

theorem allPieces_some {f : List Char → Option Usize} {ws : List (List Char)} :
    (∃ ns, allPieces f ws = some ns) ↔ ∀ w ∈ ws, ∃ n, f w = some n := by
  induction ws with
  | nil => simp [allPieces]
  | cons w ws ih =>
    simp only [allPieces, List.mem_cons, forall_eq_or_imp, ← ih]
    cases hf : f w with
    | none => simp
    | some n => cases ha : allPieces f ws <;> simp

/-! ## Paragraphs -/

theorem okOrPanic_piece (w : List Char) : OkOrPanic (readParagraphPiece w) := by
  unfold readParagraphPiece
  split
  · exact okOrPanic_ok _
  · exact okOrPanic_unwrap _

theorem piece_panic {w : List Char} :
    readParagraphPiece w = .panic ↔ (parseUsize w).or (parseZenkakuNum w) = none := by
  unfold readParagraphPiece
  cases parseUsize w with
  | some n => simp
  | none => cases parseZenkakuNum w <;> simp [Res.unwrap]

theorem okOrPanic_mapRes {α β : Type} {f : α → Res β} (hf : ∀ a, OkOrPanic (f a)) (l : List α) :
    OkOrPanic (mapRes f l) := by
  induction l with
  | nil => exact okOrPanic_ok _
  | cons a l ih => exact (hf a).bind fun _ => ih.bind fun _ => okOrPanic_ok _

theorem mapRes_panic {α β : Type} {f : α → Res β} (hf : ∀ a, OkOrPanic (f a)) {l : List α} :
    mapRes f l = .panic ↔ ∃ a ∈ l, f a = .panic := by
  induction l with
  | nil => simp [mapRes]
  | cons a l ih =>
    simp only [mapRes, List.mem_cons, exists_eq_or_imp, ← ih]
    rw [bind_panic_iff (hf a)]
    rcases hf a with h | ⟨b, h⟩
    · simp [h]
    · simp only [h, Res.ok.injEq, reduceCtorEq, false_or, exists_eq_left']
      rw [bind_panic_iff (okOrPanic_mapRes hf l)]
      simp

theorem mem_pieces {s : List Char} {c : Char} (hc : c ∈ s) (hne : c ≠ 'の') :
    ∃ w ∈ noPieces s, c ∈ w := by
  have key : ∃ w ∈ splitC 'の' s, c ∈ w := by
    induction s with
    | nil => simp at hc
    | cons x xs ih =>
      simp only [splitC]
      rcases List.mem_cons.mp hc with rfl | hc
      · rw [if_neg hne]
        cases splitC 'の' xs with
        | nil => simp
        | cons w ws => exact ⟨c :: w, by simp, by simp⟩
      · obtain ⟨w, hw, hcw⟩ := ih hc
        split
        · exact ⟨w, by simp [hw], hcw⟩
        · cases hsp : splitC 'の' xs with
          | nil => rw [hsp] at hw; simp at hw
          | cons v vs =>
            rw [hsp] at hw
            rcases List.mem_cons.mp hw with rfl | hw
            · exact ⟨x :: w, by simp, by simp [hcw]⟩
            · exact ⟨w, by simp [hw], hcw⟩
  obtain ⟨w, hw, hcw⟩ := key
  refine ⟨w, ?_, hcw⟩
  rw [noPieces, List.mem_filter]
  refine ⟨hw, ?_⟩
  cases w with
  | nil => simp at hcw
  | cons _ _ => rfl

/-- A branch number of a paragraph that cannot be read. -/
def BadBranch (b : Char × List Char) : Prop := b.1 = 'ノ' ∨ Spec.TooBig b.2

theorem pieces_panic {bs : List (Char × List Char)} (hbs : ∀ b ∈ bs, IsBranch isSep kindsP b) :
    (mapRes readParagraphPiece (noPieces (flat bs)) = .panic) ↔ ∃ b ∈ bs, BadBranch b := by
  rw [mapRes_panic okOrPanic_piece]
  by_cases hno : ∃ b ∈ bs, b.1 = 'ノ'
  · obtain ⟨b, hb, h⟩ := hno
    constructor
    · intro _; exact ⟨b, hb, Or.inl h⟩
    · intro _
      have : 'ノ' ∈ flat bs := by
        simp only [flat, List.mem_flatMap]
        exact ⟨b, hb, by rw [h]; simp⟩
      obtain ⟨w, hw, hcw⟩ := mem_pieces this (by decide)
      refine ⟨w, hw, ?_⟩
      rw [piece_panic, parseUsize_none hcw (by decide) (by decide),
        parseZenkakuNum_none hcw (by decide) (by decide) (by decide)]
      rfl
  · have hsep : ∀ b ∈ bs, b.1 = 'の' := by
      intro b hb
      rcases isSep_iff.mp (hbs b hb).1 with h | h
      · exact h
      · exact absurd ⟨b, hb, h⟩ hno
    rw [pieces_flat]
    · constructor
      · rintro ⟨w, hw, h⟩
        obtain ⟨b, hb, rfl⟩ := List.mem_map.mp hw
        exact ⟨b, hb, Or.inr ((parse_digit_none (digitNumber_iff.mpr (hbs b hb).2)).mp (piece_panic.mp h))⟩
      · rintro ⟨b, hb, h⟩
        refine ⟨b.2, List.mem_map_of_mem hb, ?_⟩
        rcases h with h | h
        · exact absurd ⟨b, hb, h⟩ hno
        · exact piece_panic.mpr ((parse_digit_none (digitNumber_iff.mpr (hbs b hb).2)).mpr h)
    · intro b hb
      exact ⟨hsep b hb, numIn_not_mem (numIn_sub (hbs b hb).2) (sep_kinds 'の' (by decide)), (hbs b hb).2.1⟩

theorem paragraphOfCaps_plain (ds eda : List Char) :
    paragraphOfCaps [("num", ds), ("eda_str", eda)] =
      (readParagraphPiece ds).bind fun base =>
        (mapRes readParagraphPiece (noPieces eda)).bind fun ns => .ok (some ⟨base, ns, []⟩) := by
  simp [paragraphOfCaps, Caps.name, List.lookup, Res.unwrap]

theorem paragraphOfCaps_range (ds eda ds2 eda2 : List Char) :
    paragraphOfCaps [("num", ds), ("eda_str", eda), ("num_2", ds2), ("eda_str_2", eda2)] =
      (readParagraphPiece ds).bind fun base =>
        (mapRes readParagraphPiece (noPieces eda)).bind fun ns =>
          orNone ((parseUsize ds2).or (parseZenkakuNum ds2)) fun n => .ok (some ⟨base, ns, [n]⟩) := by
  simp [paragraphOfCaps, Caps.name, List.lookup, Res.unwrap]

theorem value_append_le (z : Char) (w x : List Char) : Spec.value z w ≤ Spec.value z (w ++ x) := by
  simp only [Spec.value, List.foldl_append]
  generalize List.foldl _ 0 w = v
  induction x generalizing v with
  | nil => exact Nat.le_refl _
  | cons c x ih => exact Nat.le_trans (by show v ≤ v * 10 + _; omega) (ih _)

theorem tooBig_append {w x : List Char} {p : Char → Bool} (hp : p ∈ kindsP) (hw : w.all p = true)
    (hx : x.all p = true) (h : Spec.TooBig w) : Spec.TooBig (w ++ x) := by
  have hne : w ≠ [] := by
    rcases h with h | h <;> exact h.1.1
  simp only [kindsP, List.mem_cons, List.not_mem_nil, or_false] at hp
  rcases hp with rfl | rfl
  · have hW : Spec.WideNumber w := wideNumber_iff.mpr ⟨hne, hw⟩
    have hW' : Spec.WideNumber (w ++ x) := wideNumber_iff.mpr ⟨by simp [hne], by simp [hw, hx]⟩
    rw [not_tooBig_wide hW] at h
    rw [not_tooBig_wide hW']
    exact Nat.le_trans h (value_append_le _ _ _)
  · have hW : Spec.AsciiNumber w := asciiNumber_iff.mpr ⟨hne, hw⟩
    have hW' : Spec.AsciiNumber (w ++ x) := asciiNumber_iff.mpr ⟨by simp [hne], by simp [hw, hx]⟩
    rw [not_tooBig_ascii hW] at h
    rw [not_tooBig_ascii hW']
    exact Nat.le_trans h (value_append_le _ _ _)

theorem extend_branches {bs : List (Char × List Char)} (hbs : ∀ b ∈ bs, IsBranch isSep kindsP b)
    (rest : List Char) : ∃ bs' r', flat bs ++ rest = flat bs' ++ r' ∧
      (∀ b ∈ bs', IsBranch isSep kindsP b) ∧ NoBranch isSep kindsP r' ∧ LastEnds kindsP bs' r' ∧
      ((∃ b ∈ bs, BadBranch b) → ∃ b ∈ bs', BadBranch b) := by
  induction bs with
  | nil =>
    obtain ⟨bs', r', h, h1, h2, h3⟩ := exists_branches isSep kindsP kindsP_disjoint _ rest rfl
    exact ⟨bs', r', by simpa [flat] using h, h1, h2, h3, by simp⟩
  | cons b bs ih =>
    have hb := hbs b (by simp)
    obtain ⟨hsep, hne, p, hp, hall⟩ := hb
    obtain ⟨x, rest1, hx, hxall, hxend⟩ := exists_run p (flat bs ++ rest)
    by_cases hxne : x = []
    · subst hxne
      obtain ⟨bs', r', h, h1, h2, h3, h4⟩ := ih fun b hb => hbs b (by simp [hb])
      refine ⟨b :: bs', r', by simp [flat_cons, h], ?_, h2, ?_, ?_⟩
      · intro b' hb'
        rcases List.mem_cons.mp hb' with rfl | hb'
        · exact ⟨hsep, hne, p, hp, hall⟩
        · exact h1 b' hb'
      · intro b' hb' q hq hqa
        cases bs' with
        | nil =>
          simp at hb'
          subst hb'
          have : q = p := by
            cases hd : b.2 with
            | nil => exact absurd hd hne
            | cons d ds =>
              rw [hd] at hall hqa
              simp only [List.all_cons, Bool.and_eq_true] at hall hqa
              exact kindsP_disjoint q hq p hp d hqa.1 hall.1
          subst this
          simp only [flat, List.flatMap_nil, List.nil_append] at h hx
          rw [← h, hx]
          exact hxend
        | cons b'' bs'' =>
          rw [List.getLast?_cons_cons] at hb'
          exact h3 b' hb' q hq hqa
      · rintro ⟨b', hb', hbad⟩
        rcases List.mem_cons.mp hb' with rfl | hb'
        · exact ⟨b', by simp, hbad⟩
        · obtain ⟨b'', hb'', hbad'⟩ := h4 ⟨b', hb', hbad⟩
          exact ⟨b'', by simp [hb''], hbad'⟩
    · have hbs0 : bs = [] := by
        cases bs with
        | nil => rfl
        | cons b' bs' =>
          exfalso
          cases x with
          | nil => exact hxne rfl
          | cons c x =>
            simp only [flat_cons, List.cons_append, List.cons.injEq] at hx
            simp only [List.all_cons, Bool.and_eq_true] at hxall
            rw [← hx.1, sep_kindsP _ (hbs b' (by simp)).1 p hp] at hxall
            cases hxall.1
      subst hbs0
      obtain ⟨bs', r', h, h1, h2, h3⟩ := exists_branches isSep kindsP kindsP_disjoint _ rest1 rfl
      have hnew : IsBranch isSep kindsP (b.1, b.2 ++ x) :=
        ⟨hsep, by simp [hne], p, hp, by simp [hall, hxall]⟩
      simp only [flat, List.flatMap_nil, List.nil_append] at hx
      refine ⟨(b.1, b.2 ++ x) :: bs', r', ?_, ?_, h2, ?_, ?_⟩
      · simp [flat_cons, hx, h]; simp [flat]
      · intro b' hb'
        rcases List.mem_cons.mp hb' with rfl | hb'
        · exact hnew
        · exact h1 b' hb'
      · intro b' hb' q hq hqa
        cases bs' with
        | nil =>
          simp at hb'
          subst hb'
          have : q = p := by
            cases hd : b.2 with
            | nil => exact absurd hd hne
            | cons d ds =>
              rw [hd] at hall
              simp only [hd, List.cons_append, List.all_cons, Bool.and_eq_true] at hall hqa
              exact kindsP_disjoint q hq p hp d hqa.1 hall.1
          subst this
          simp only [flat, List.flatMap_nil, List.nil_append] at h
          rw [← h]
          exact hxend
        | cons b'' bs'' =>
          rw [List.getLast?_cons_cons] at hb'
          exact h3 b' hb' q hq hqa
      · rintro ⟨b', hb', hbad⟩
        simp only [List.mem_singleton] at hb'
        subst hb'
        refine ⟨(b'.1, b'.2 ++ x), by simp, ?_⟩
        rcases hbad with hbad | hbad
        · exact Or.inl hbad
        · exact Or.inr (tooBig_append hp hall hxall hbad)

/-! ## The whole function -/

theorem names1_of {ds : List Char} (h : NumIn kinds ds) :
    ∃ n p, (n, p) ∈ names1 ∧ ds.all p = true := by
  obtain ⟨-, p, hp, hall⟩ := h
  simp only [kinds, List.mem_cons, List.not_mem_nil, or_false] at hp
  rcases hp with rfl | rfl | rfl
  · exact ⟨"arabic_num", _, by simp [names1], hall⟩
  · exact ⟨"zenkaku_num", _, by simp [names1], hall⟩
  · exact ⟨"kansuji", _, by simp [names1], hall⟩

theorem names2_of {ds : List Char} (h : NumIn kinds ds) :
    ∃ n p, (n, p) ∈ names2 ∧ ds.all p = true := by
  obtain ⟨-, p, hp, hall⟩ := h
  simp only [kinds, List.mem_cons, List.not_mem_nil, or_false] at hp
  rcases hp with rfl | rfl | rfl
  · exact ⟨"arabic_num_2", _, by simp [names2], hall⟩
  · exact ⟨"zenkaku_num_2", _, by simp [names2], hall⟩
  · exact ⟨"kansuji_2", _, by simp [names2], hall⟩

theorem parse_plain (E : Ext) {lead ds : List Char} {u : Char} {bs : List (Char × List Char)}
    {r : List Char} (hlead : lead = [] ∨ lead = ['第']) (hds : NumIn kinds ds)
    (hu : isUnit u = true) (hbs : ∀ b ∈ bs, IsBranch isSep kinds b) (hno : NoBranch isSep kinds r)
    (hl : LastEnds kinds bs r)
    (hr : ¬ ∃ ds u bs rest, NumIn kinds ds ∧ IsRange r ds u bs rest) :
    parseArticleNumber E (lead ++ (ds ++ u :: (flat bs ++ r))) =
      (baseRes E ds).bind fun o => orNone o fun base =>
        orNone (allPieces (readPiece E) (bs.map Prod.snd)) fun eda => .ok (some ⟨base, eda, []⟩) := by
  obtain ⟨n, p, hn, hall⟩ := names1_of hds
  rw [parseArticleNumber, article_plain hlead hn hds.1 hall hu hbs hno hl hr]
  exact articleOfCaps_plain E hn hds.1 hall hbs

theorem parse_range (E : Ext) {lead ds : List Char} {u : Char} {bs : List (Char × List Char)}
    {r : List Char} (hlead : lead = [] ∨ lead = ['第']) (hds : NumIn kinds ds)
    (hu : isUnit u = true) (hbs : ∀ b ∈ bs, IsBranch isSep kinds b)
    {ds2 : List Char} {u2 : Char} {bs2 : List (Char × List Char)} {rest : List Char}
    (hds2 : NumIn kinds ds2) (hr : IsRange r ds2 u2 bs2 rest) :
    parseArticleNumber E (lead ++ (ds ++ u :: (flat bs ++ r))) =
      (baseRes E ds).bind fun o => orNone o fun base =>
        orNone (allPieces (readPiece E) (bs.map Prod.snd)) fun eda =>
        (baseRes E ds2).bind fun o => orNone o fun r =>
        orNone (allPieces (readPiece E) (noPieces (flat bs2))) fun eda2 =>
          .ok (some ⟨base, eda, r :: eda2⟩) := by
  obtain ⟨n, p, hn, hall⟩ := names1_of hds
  obtain ⟨n2, p2, hn2, hall2⟩ := names2_of hds2
  rw [parseArticleNumber, article_range hlead hn hds.1 hall hu hbs hn2 hds2.1 hall2 hr]
  exact articleOfCaps_range E hn hds.1 hall hbs hn2 hds2.1 hall2

/-- Texts with a unit after the first number. -/
theorem parse_unit (E : Ext) {lead ds rest : List Char} {u : Char}
    (hlead : lead = [] ∨ lead = ['第']) (hds : NumIn kinds ds) (hu : isUnit u = true) :
    ∃ bs r, rest = flat bs ++ r ∧ (∀ b ∈ bs, IsBranch isSep kinds b) ∧
      (parseArticleNumber E (lead ++ (ds ++ u :: rest)) =
        ((baseRes E ds).bind fun o => orNone o fun base =>
          orNone (allPieces (readPiece E) (bs.map Prod.snd)) fun eda => .ok (some ⟨base, eda, []⟩)) ∨
       ∃ ds2 u2 bs2 rest2, NumIn kinds ds2 ∧ IsRange r ds2 u2 bs2 rest2 ∧
        parseArticleNumber E (lead ++ (ds ++ u :: rest)) =
          (baseRes E ds).bind fun o => orNone o fun base =>
            orNone (allPieces (readPiece E) (bs.map Prod.snd)) fun eda =>
            (baseRes E ds2).bind fun o => orNone o fun r =>
            orNone (allPieces (readPiece E) (noPieces (flat bs2))) fun eda2 =>
              .ok (some ⟨base, eda, r :: eda2⟩)) := by
  obtain ⟨bs, r, rfl, hbs, hno, hl⟩ := exists_branches isSep kinds kinds_disjoint _ rest rfl
  refine ⟨bs, r, rfl, hbs, ?_⟩
  by_cases hr : ∃ ds u bs rest, NumIn kinds ds ∧ IsRange r ds u bs rest
  · obtain ⟨ds2, u2, bs2, rest2, h1, h2⟩ := hr
    exact Or.inr ⟨ds2, u2, bs2, rest2, h1, h2, parse_range E hlead hds hu hbs h1 h2⟩
  · exact Or.inl (parse_plain E hlead hds hu hbs hno hl hr)

/-- Texts without a unit. -/
theorem parse_no_unit (E : Ext) {s : List Char} (h : ¬ HasUnit s) :
    (parseArticleNumber E s = .ok none ∧ ∀ p ∈ kindsP, Ends p s) ∨
    ∃ ds bs r, s = ds ++ (flat bs ++ r) ∧ NumIn kindsP ds ∧
      (∀ p ∈ kindsP, ds.all p = true → Ends p (flat bs ++ r)) ∧
      (∀ b ∈ bs, IsBranch isSep kindsP b) ∧ NoBranch isSep kindsP r ∧ LastEnds kindsP bs r ∧
      ∃ f : Usize → List Usize → Res (Option ArticleNumber), (∀ b l, ∃ o, f b l = .ok o) ∧
      parseArticleNumber E s = (readParagraphPiece ds).bind fun base =>
        (mapRes readParagraphPiece (noPieces (flat bs))).bind fun ns => f base ns := by
  rw [parseArticleNumber, article_none h]
  by_cases hs : ∀ p ∈ kindsP, Ends p s
  · left
    rw [paragraph_none hs]
    exact ⟨rfl, hs⟩
  · right
    simp only [Classical.not_forall] at hs
    obtain ⟨p, hp, hs⟩ := hs
    obtain ⟨ds, rest, rfl, hall, hend⟩ := exists_run p s
    have hne : ds ≠ [] := by
      rintro rfl
      exact hs hend
    obtain ⟨bs, r, rfl, hbs, hno, hl⟩ := exists_branches isSep kindsP kindsP_disjoint _ rest rfl
    have hend' : ∀ q ∈ kindsP, ds.all q = true → Ends q (flat bs ++ r) := by
      intro q hq hqa
      have : q = p := by
        cases ds with
        | nil => exact absurd rfl hne
        | cons d ds =>
          simp only [List.all_cons, Bool.and_eq_true] at hall hqa
          exact kindsP_disjoint q hq p hp d hqa.1 hall.1
      subst this
      exact hend
    have hds : NumIn kindsP ds := ⟨hne, p, hp, hall⟩
    refine ⟨ds, bs, r, rfl, hds, hend', hbs, hno, hl, ?_⟩
    by_cases hr : ∃ ds bs rest, NumIn kindsP ds ∧ IsRangeP r ds bs rest
    · obtain ⟨ds2, bs2, rest2, h1, h2⟩ := hr
      refine ⟨fun base ns => orNone ((parseUsize ds2).or (parseZenkakuNum ds2)) fun n =>
        .ok (some ⟨base, ns, [n]⟩), ?_, ?_⟩
      · intro b l
        cases (parseUsize ds2).or (parseZenkakuNum ds2) with
        | none => exact ⟨none, rfl⟩
        | some n => exact ⟨_, rfl⟩
      · rw [paragraph_range hds hbs h1 h2]
        exact paragraphOfCaps_range _ _ _ _
    · refine ⟨fun base ns => .ok (some ⟨base, ns, []⟩), fun b l => ⟨_, rfl⟩, ?_⟩
      rw [paragraph_plain hds hend' hbs hno hl hr]
      exact paragraphOfCaps_plain _ _

theorem okOrPanic_parse (E : Ext) (s : List Char) : OkOrPanic (parseArticleNumber E s) := by
  by_cases h : HasUnit s
  · obtain ⟨lead, ds, u, rest, hlead, rfl, hds, hu⟩ := h
    rw [List.append_assoc]
    obtain ⟨bs, r, -, -, h | ⟨ds2, u2, bs2, rest2, -, -, h⟩⟩ :=
      parse_unit E (rest := rest) hlead hds hu
    · rw [h]
      exact (okOrPanic_baseRes E ds).bind fun _ => .orNone fun _ => .orNone fun _ => okOrPanic_ok _
    · rw [h]
      exact (okOrPanic_baseRes E ds).bind fun _ => .orNone fun _ => .orNone fun _ =>
        (okOrPanic_baseRes E ds2).bind fun _ => .orNone fun _ => .orNone fun _ => okOrPanic_ok _
  · rcases parse_no_unit E h with ⟨h, -⟩ | ⟨ds, bs, r, -, -, -, -, -, -, f, hf, h⟩
    · rw [h]; exact okOrPanic_ok _
    · rw [h]
      exact (okOrPanic_piece ds).bind fun _ => (okOrPanic_mapRes okOrPanic_piece _).bind fun _ =>
        Or.inr (hf _ _)

end JLaw
