import Verif.Lemmas.ReadNum

/-!
# Captures of the patterns for article and paragraph numbers
-/

namespace JLaw

variable {β : Type}

/-- Groups of the number of an article. -/
def names1 : List (String × (Char → Bool)) :=
  [("arabic_num", isDigit), ("zenkaku_num", isZenkaku), ("kansuji", isKansuji)]

/-- Groups of the number at the end of a range of articles. -/
def names2 : List (String × (Char → Bool)) :=
  [("arabic_num_2", isDigit), ("zenkaku_num_2", isZenkaku), ("kansuji_2", isKansuji)]

/-- The range part of `re_article`. -/
def reRange : Re := .seqs [
  .lit ['か', 'ら'], .ch '第', .alts (names2.map fun x => .cap x.1 (.plus (.cls x.2))),
  .cap "suffix_2" (.cls isUnit), .cap "eda_str_2" .articleEda, .lit ['ま', 'で']]

/-- `re_article` without the optional first character. -/
def reBody : Re := .seqs [
  .alts (names1.map fun x => .cap x.1 (.plus (.cls x.2))),
  .cap "suffix" (.cls isUnit), .cap "eda_str" .articleEda, .opt reRange]

theorem reArticle_eq : reArticle = .seq (.opt (.ch '第')) reBody := rfl

theorem articleEda_eq : Re.articleEda =
    .star (.seq (.cls isSep) (.alts (kinds.map fun p => Re.plus (.cls p)))) := rfl

/-- The text of a range end. -/
def IsRange (s : List Char) (ds : List Char) (u : Char) (bs : List (Char × List Char))
    (rest : List Char) : Prop :=
  s = 'か' :: 'ら' :: '第' :: (ds ++ u :: (flat bs ++ 'ま' :: 'で' :: rest)) ∧ isUnit u = true ∧
    ∀ b ∈ bs, IsBranch isSep kinds b

theorem lastEnds_mark {bs : List (Char × List Char)} {c : Char} {r : List Char}
    (hc : c ∈ ['第', 'か', 'ら', 'ま', 'で']) : LastEnds kinds bs (c :: r) := by
  intro b _ p hp _
  exact marks_kinds hc p hp

theorem noBranch_mark {c : Char} {r : List Char} (ps : List (Char → Bool))
    (hc : c ∈ ['第', 'か', 'ら', 'ま', 'で']) : NoBranch isSep ps (c :: r) := by
  cases r with
  | nil => trivial
  | cons d r => intro h; rw [marks_sep hc] at h; cases h

theorem first_range {s ds : List Char} {u : Char} {bs : List (Char × List Char)} {rest : List Char}
    {n : String} {p : Char → Bool} (hn : (n, p) ∈ names2) (hne : ds ≠ []) (hds : ds.all p = true)
    (h : IsRange s ds u bs rest) {k : Caps × List Char → Option β} (hk : ∀ x, (k x).isSome = true) :
    reRange.first s k = k ([(n, ds), ("suffix_2", [u]), ("eda_str_2", flat bs)], rest) := by
  obtain ⟨rfl, hu, hbs⟩ := h
  have hp : p ∈ kinds := by
    have := List.mem_map_of_mem (f := Prod.snd) hn
    simpa [names2, kinds] using this
  have hlit : ∀ (cs : List Char) (k : Caps × List Char → Option β),
      (Re.lit ['ま', 'で']).first ('ま' :: 'で' :: cs) k = k ([], cs) := by
    intro cs k; simp [Re.lit, Re.ch]
  simp only [reRange, Re.seqs, Re.first_seq, Re.lit, Re.ch, Re.first_cls_cons, beq_self_eq_true,
    if_true, List.nil_append]
  rw [first_named (l := names2) kinds_disjoint kinds_nodup hn hne hds]
  · simp only [Re.first_cap, Re.first_cls_cons, hu, if_true, articleEda_eq]
    rw [first_branches kinds_disjoint sep_kinds hbs (noBranch_mark _ (by simp))
      (lastEnds_mark (by simp))]
    · simp
    · left
      simpa using hk _
  · exact unit_kinds u hu p hp
  · right
    intro w c t hc
    simp [kinds_unit hp hc]

theorem range_sound {s : List Char} (h : reRange.run s ≠ []) :
    ∃ ds u bs rest, NumIn kinds ds ∧ IsRange s ds u bs rest := by
  obtain ⟨x, hx⟩ := List.exists_mem_of_ne_nil _ h
  simp only [reRange, Re.seqs, Re.lit, Re.ch] at hx
  obtain ⟨y, hy, x1, hx1, -⟩ := mem_seq.mp hx
  obtain ⟨y1, hy1, y2, hy2, rfl⟩ := mem_seq.mp hy
  obtain ⟨c1, rfl, e1, -⟩ := mem_cls.mp hy1
  obtain ⟨c2, h2, e2, -⟩ := mem_cls.mp hy2
  obtain ⟨z, hz, x2, hx2, -⟩ := mem_seq.mp hx1
  obtain ⟨c3, h3, e3, -⟩ := mem_cls.mp hz
  obtain ⟨z2, hz2, x3, hx3, -⟩ := mem_seq.mp hx2
  obtain ⟨ds, hds, h4⟩ := mem_named hz2
  obtain ⟨z3, hz3, x4, hx4, -⟩ := mem_seq.mp hx3
  obtain ⟨w3, hw3, h5⟩ := mem_cap hz3
  obtain ⟨u, h6, hu, -⟩ := mem_cls.mp hw3
  obtain ⟨z4, hz4, x5, hx5, -⟩ := mem_seq.mp hx4
  obtain ⟨w4, hw4, h7⟩ := mem_cap hz4
  rw [articleEda_eq] at hw4
  obtain ⟨bs, hbs, h8⟩ := mem_branches hw4
  obtain ⟨z5, hz5, x6, hx6, -⟩ := mem_seq.mp hx5
  obtain ⟨c7, h9, e7, -⟩ := mem_cls.mp hz5
  obtain ⟨c8, h10, e8, -⟩ := mem_cls.mp hx6
  simp only [beq_iff_eq] at e1 e2 e3 e7 e8
  simp only at h3
  subst e1 e2 e3 e7 e8
  exact ⟨ds, u, bs, x6.2, hds, by rw [h2, h3, h4, h6, h5, h8, h7, h9, h10], hu, hbs⟩

/-- The beginning of the text of an article number. -/
def HasUnit (s : List Char) : Prop :=
  ∃ lead ds u rest, (lead = [] ∨ lead = ['第']) ∧ s = lead ++ ds ++ u :: rest ∧ NumIn kinds ds ∧
    isUnit u = true

theorem body_sound {s : List Char} (h : reBody.run s ≠ []) :
    ∃ ds u rest, s = ds ++ u :: rest ∧ NumIn kinds ds ∧ isUnit u = true := by
  obtain ⟨x, hx⟩ := List.exists_mem_of_ne_nil _ h
  simp only [reBody, Re.seqs] at hx
  obtain ⟨z2, hz2, x3, hx3, -⟩ := mem_seq.mp hx
  obtain ⟨ds, hds, h4⟩ := mem_named hz2
  obtain ⟨z3, hz3, x4, hx4, -⟩ := mem_seq.mp hx3
  obtain ⟨w3, hw3, h5⟩ := mem_cap hz3
  obtain ⟨u, h6, hu, -⟩ := mem_cls.mp hw3
  exact ⟨ds, u, w3.2, by rw [h4, h6], hds, hu⟩

theorem body_first {ds : List Char} {u : Char} {bs : List (Char × List Char)} {r : List Char}
    {n : String} {p : Char → Bool} (hn : (n, p) ∈ names1) (hne : ds ≠ []) (hds : ds.all p = true)
    (hu : isUnit u = true) (hbs : ∀ b ∈ bs, IsBranch isSep kinds b) (hno : NoBranch isSep kinds r)
    (hl : LastEnds kinds bs r) {k : Caps × List Char → Option β} (hk : ∀ x, (k x).isSome = true) :
    reBody.first (ds ++ u :: (flat bs ++ r)) k = (Re.opt reRange).first r fun y =>
      k ((n, ds) :: ("suffix", [u]) :: ("eda_str", flat bs) :: y.1, y.2) := by
  have hp : p ∈ kinds := by
    have := List.mem_map_of_mem (f := Prod.snd) hn
    simpa [names1, kinds] using this
  simp only [reBody, Re.seqs, Re.first_seq]
  rw [first_named (l := names1) kinds_disjoint kinds_nodup hn hne hds]
  · simp only [Re.first_cap, Re.first_cls_cons, hu, if_true, articleEda_eq]
    rw [first_branches kinds_disjoint sep_kinds hbs hno hl]
    · simp
    · left
      simp only [Re.opt, Re.first_alt, Re.first_eps, Option.isSome_or, Bool.or_eq_true]
      exact Or.inr (hk _)
  · exact unit_kinds u hu p hp
  · right
    intro w c t hc
    simp [kinds_unit hp hc]

theorem body_none_of_mark {s : List Char} (h : ¬ ∃ ds u rest, s = ds ++ u :: rest ∧ NumIn kinds ds ∧
    isUnit u = true) (k : Caps × List Char → Option β) : reBody.first s k = none := by
  apply Re.first_eq_none
  apply Classical.byContradiction
  intro hne
  exact h (body_sound hne)

theorem article_first {lead s : List Char} (hl : lead = [] ∨ lead = ['第'])
    (hs : ∃ c t, s = c :: t ∧ c ≠ '第') {k : Caps × List Char → Option β} :
    reArticle.first (lead ++ s) k = reBody.first s k := by
  obtain ⟨c, t, rfl, hc⟩ := hs
  rw [reArticle_eq]
  rcases hl with rfl | rfl
  · have hcb : (c == '第') = false := by simpa using hc
    simp [Re.opt, Re.ch, hcb]
  · simp only [Re.first_seq, Re.opt, Re.first_alt, Re.ch, List.cons_append, Re.first_cls_cons,
      beq_self_eq_true, if_true, List.nil_append, Re.first_eps]
    rw [body_none_of_mark (s := '第' :: c :: t)]
    · simp
    · rintro ⟨ds, u, rest, h, ⟨hne, p, hp, hall⟩, -⟩
      cases ds with
      | nil => exact hne rfl
      | cons d ds =>
        simp only [List.cons_append, List.cons.injEq] at h
        rw [← h.1] at hall
        simp only [List.all_cons, Bool.and_eq_true] at hall
        rw [marks_kinds (by simp) p hp] at hall
        cases hall.1

theorem article_none {s : List Char} (h : ¬ HasUnit s) : reArticle.captures s = none := by
  rw [Re.captures_eq]
  apply Re.first_eq_none
  apply Classical.byContradiction
  intro hne
  obtain ⟨x, hx⟩ := List.exists_mem_of_ne_nil _ hne
  rw [reArticle_eq] at hx
  obtain ⟨y, hy, z, hz, -⟩ := mem_seq.mp hx
  obtain ⟨ds, u, rest, hyr, hds, hu⟩ := body_sound (List.ne_nil_of_mem hz)
  simp only [Re.opt, Re.run, List.mem_append, List.mem_singleton] at hy
  rcases hy with hy | rfl
  · obtain ⟨c, hs, hc, -⟩ := mem_cls.mp hy
    simp only [beq_iff_eq] at hc
    exact h ⟨['第'], ds, u, rest, Or.inr rfl, by rw [hs, hyr, hc]; simp, hds, hu⟩
  · exact h ⟨[], ds, u, rest, Or.inl rfl, by simpa using hyr, hds, hu⟩

theorem numIn_head {ds : List Char} (h : NumIn kinds ds) (rest : List Char) :
    ∃ c t, ds ++ rest = c :: t ∧ c ≠ '第' := by
  obtain ⟨hne, p, hp, hall⟩ := h
  cases ds with
  | nil => exact absurd rfl hne
  | cons c ds =>
    refine ⟨c, ds ++ rest, rfl, ?_⟩
    rintro rfl
    simp only [List.all_cons, Bool.and_eq_true] at hall
    rw [marks_kinds (by simp) p hp] at hall
    cases hall.1

theorem article_plain {lead ds : List Char} {u : Char} {bs : List (Char × List Char)} {r : List Char}
    {n : String} {p : Char → Bool} (hlead : lead = [] ∨ lead = ['第']) (hn : (n, p) ∈ names1)
    (hne : ds ≠ []) (hds : ds.all p = true) (hu : isUnit u = true)
    (hbs : ∀ b ∈ bs, IsBranch isSep kinds b) (hno : NoBranch isSep kinds r)
    (hl : LastEnds kinds bs r)
    (hr : ¬ ∃ ds u bs rest, NumIn kinds ds ∧ IsRange r ds u bs rest) :
    reArticle.captures (lead ++ (ds ++ u :: (flat bs ++ r))) =
      some [(n, ds), ("suffix", [u]), ("eda_str", flat bs)] := by
  have hp : p ∈ kinds := by
    have := List.mem_map_of_mem (f := Prod.snd) hn
    simpa [names1, kinds] using this
  rw [Re.captures_eq, article_first hlead (numIn_head ⟨hne, p, hp, hds⟩ _),
    body_first hn hne hds hu hbs hno hl (by simp)]
  simp only [Re.opt, Re.first_alt, Re.first_eps]
  rw [Re.first_eq_none (r := reRange)]
  · rfl
  · apply Classical.byContradiction
    intro hne
    exact hr (range_sound hne)

theorem article_range {lead ds : List Char} {u : Char} {bs : List (Char × List Char)}
    {r : List Char} {n : String} {p : Char → Bool} (hlead : lead = [] ∨ lead = ['第'])
    (hn : (n, p) ∈ names1) (hne : ds ≠ []) (hds : ds.all p = true) (hu : isUnit u = true)
    (hbs : ∀ b ∈ bs, IsBranch isSep kinds b)
    {ds2 : List Char} {u2 : Char} {bs2 : List (Char × List Char)} {rest : List Char}
    {n2 : String} {p2 : Char → Bool} (hn2 : (n2, p2) ∈ names2) (hne2 : ds2 ≠ [])
    (hds2 : ds2.all p2 = true) (hr : IsRange r ds2 u2 bs2 rest) :
    reArticle.captures (lead ++ (ds ++ u :: (flat bs ++ r))) =
      some [(n, ds), ("suffix", [u]), ("eda_str", flat bs), (n2, ds2), ("suffix_2", [u2]),
        ("eda_str_2", flat bs2)] := by
  have hp : p ∈ kinds := by
    have := List.mem_map_of_mem (f := Prod.snd) hn
    simpa [names1, kinds] using this
  have hno : NoBranch isSep kinds r := by
    rw [hr.1]; exact noBranch_mark _ (by simp)
  have hl : LastEnds kinds bs r := by
    rw [hr.1]; exact lastEnds_mark (by simp)
  rw [Re.captures_eq, article_first hlead (numIn_head ⟨hne, p, hp, hds⟩ _),
    body_first hn hne hds hu hbs hno hl (by simp)]
  simp only [Re.opt, Re.first_alt, Re.first_eps]
  rw [first_range hn2 hne2 hds2 hr (by simp)]
  rfl

/-! ## The pattern for paragraphs -/

theorem paragraphEda_eq : Re.paragraphEda =
    .star (.seq (.cls isSep) (.alts (kindsP.map fun p => Re.plus (.cls p)))) := rfl

/-- The range part of `re_paragraph`. -/
def reRangeP : Re := .seqs [
  .lit ['か', 'ら'], .cap "num_2" (.alts (kindsP.map fun p => Re.plus (.cls p))),
  .cap "eda_str_2" .paragraphEda, .lit ['ま', 'で']]

theorem reParagraph_eq : reParagraph = .seqs [
    .cap "num" (.alts (kindsP.map fun p => Re.plus (.cls p))), .cap "eda_str" .paragraphEda,
    .opt reRangeP] := rfl

theorem lastEnds_markP {bs : List (Char × List Char)} {c : Char} {r : List Char}
    (hc : c ∈ ['第', 'か', 'ら', 'ま', 'で']) : LastEnds kindsP bs (c :: r) := by
  intro b _ p hp _
  exact marks_kinds hc p (kindsP_sub hp)

/-- The text of the range end of a paragraph. -/
def IsRangeP (s : List Char) (ds : List Char) (bs : List (Char × List Char))
    (rest : List Char) : Prop :=
  s = 'か' :: 'ら' :: (ds ++ (flat bs ++ 'ま' :: 'で' :: rest)) ∧
    ∀ b ∈ bs, IsBranch isSep kindsP b

/-- The character classes of a number and of the next character are different. -/
theorem ends_flat {p : Char → Bool} (hp : p ∈ kindsP) {bs : List (Char × List Char)}
    (hbs : ∀ b ∈ bs, IsBranch isSep kindsP b) {r : List Char} (hr : bs = [] → Ends p r) :
    Ends p (flat bs ++ r) := by
  cases bs with
  | nil => exact hr rfl
  | cons b bs => exact sep_kindsP _ (hbs b (by simp)).1 p hp

theorem first_rangeP {s ds : List Char} {bs : List (Char × List Char)} {rest : List Char}
    (hds : NumIn kindsP ds) (h : IsRangeP s ds bs rest) {k : Caps × List Char → Option β}
    (hk : ∀ x, (k x).isSome = true) :
    reRangeP.first s k = k ([("num_2", ds), ("eda_str_2", flat bs)], rest) := by
  obtain ⟨rfl, hbs⟩ := h
  obtain ⟨hne, p, hp, hall⟩ := hds
  simp only [reRangeP, Re.seqs, Re.first_seq, Re.lit, Re.ch, Re.first_cls_cons, beq_self_eq_true,
    if_true, List.nil_append, Re.first_cap, paragraphEda_eq]
  have hend : Ends p (flat bs ++ 'ま' :: 'で' :: rest) := by
    refine ends_flat hp hbs fun _ => ?_
    show p 'ま' = false
    exact marks_kinds (by simp) p (kindsP_sub hp)
  rw [first_scripts kindsP_disjoint hp hne hall hend]
  · rw [first_branches kindsP_disjoint sep_kindsP hbs (noBranch_mark _ (by simp))
      (lastEnds_markP (by simp))]
    · simp
    · left
      simpa using hk _
  · left
    simp only
    rw [first_branches kindsP_disjoint sep_kindsP hbs (noBranch_mark _ (by simp))
      (lastEnds_markP (by simp))]
    · simpa using hk _
    · left
      simpa using hk _

theorem rangeP_sound {s : List Char} (h : reRangeP.run s ≠ []) :
    ∃ ds bs rest, NumIn kindsP ds ∧ IsRangeP s ds bs rest := by
  obtain ⟨x, hx⟩ := List.exists_mem_of_ne_nil _ h
  simp only [reRangeP, Re.seqs, Re.lit, Re.ch] at hx
  obtain ⟨y, hy, x1, hx1, -⟩ := mem_seq.mp hx
  obtain ⟨y1, hy1, y2, hy2, rfl⟩ := mem_seq.mp hy
  obtain ⟨c1, rfl, e1, -⟩ := mem_cls.mp hy1
  obtain ⟨c2, h2, e2, -⟩ := mem_cls.mp hy2
  obtain ⟨z, hz, x2, hx2, -⟩ := mem_seq.mp hx1
  obtain ⟨w, hw, h5⟩ := mem_cap hz
  obtain ⟨ds, hds, h4⟩ := mem_scripts hw
  obtain ⟨z4, hz4, x5, hx5, -⟩ := mem_seq.mp hx2
  obtain ⟨w4, hw4, h7⟩ := mem_cap hz4
  rw [paragraphEda_eq] at hw4
  obtain ⟨bs, hbs, h8⟩ := mem_branches hw4
  obtain ⟨z5, hz5, x6, hx6, -⟩ := mem_seq.mp hx5
  obtain ⟨c7, h9, e7, -⟩ := mem_cls.mp hz5
  obtain ⟨c8, h10, e8, -⟩ := mem_cls.mp hx6
  simp only [beq_iff_eq] at e1 e2 e7 e8
  simp only at h4
  subst e1 e2 e7 e8
  exact ⟨ds, bs, x6.2, hds, by rw [h2, h4, h5, h8, h7, h9, h10], hbs⟩

theorem paragraph_none {s : List Char} (h : ∀ p ∈ kindsP, Ends p s) :
    reParagraph.captures s = none := by
  rw [Re.captures_eq, reParagraph_eq]
  simp only [Re.seqs, Re.first_seq, Re.first_cap]
  exact first_scripts_none _ h

theorem paragraph_first {ds : List Char} {bs : List (Char × List Char)} {r : List Char}
    (hds : NumIn kindsP ds) (hend : ∀ p ∈ kindsP, ds.all p = true → Ends p (flat bs ++ r))
    (hbs : ∀ b ∈ bs, IsBranch isSep kindsP b) (hno : NoBranch isSep kindsP r)
    (hl : LastEnds kindsP bs r) {k : Caps × List Char → Option β} (hk : ∀ x, (k x).isSome = true) :
    reParagraph.first (ds ++ (flat bs ++ r)) k = (Re.opt reRangeP).first r fun y =>
      k (("num", ds) :: ("eda_str", flat bs) :: y.1, y.2) := by
  obtain ⟨hne, p, hp, hall⟩ := hds
  have hopt : ∀ (K : Caps × List Char → Option β), (∀ x, (K x).isSome = true) →
      ((Re.opt reRangeP).first r K).isSome = true := by
    intro K hK
    simp only [Re.opt, Re.first_alt, Re.first_eps, Option.isSome_or, Bool.or_eq_true]
    exact Or.inr (hK _)
  rw [reParagraph_eq]
  simp only [Re.seqs, Re.first_seq, Re.first_cap, paragraphEda_eq]
  rw [first_scripts kindsP_disjoint hp hne hall (hend p hp hall)]
  · rw [first_branches kindsP_disjoint sep_kindsP hbs hno hl]
    · simp
    · left
      exact hopt _ fun _ => hk _
  · left
    simp only
    rw [first_branches kindsP_disjoint sep_kindsP hbs hno hl]
    · exact hopt _ fun _ => hk _
    · left
      exact hopt _ fun _ => hk _

theorem paragraph_plain {ds : List Char} {bs : List (Char × List Char)} {r : List Char}
    (hds : NumIn kindsP ds) (hend : ∀ p ∈ kindsP, ds.all p = true → Ends p (flat bs ++ r))
    (hbs : ∀ b ∈ bs, IsBranch isSep kindsP b) (hno : NoBranch isSep kindsP r)
    (hl : LastEnds kindsP bs r)
    (hr : ¬ ∃ ds bs rest, NumIn kindsP ds ∧ IsRangeP r ds bs rest) :
    reParagraph.captures (ds ++ (flat bs ++ r)) = some [("num", ds), ("eda_str", flat bs)] := by
  rw [Re.captures_eq, paragraph_first hds hend hbs hno hl (by simp)]
  simp only [Re.opt, Re.first_alt, Re.first_eps]
  rw [Re.first_eq_none (r := reRangeP)]
  · rfl
  · apply Classical.byContradiction
    intro hne
    exact hr (rangeP_sound hne)

theorem paragraph_range {ds : List Char} {bs : List (Char × List Char)} {r : List Char}
    (hds : NumIn kindsP ds) (hbs : ∀ b ∈ bs, IsBranch isSep kindsP b)
    {ds2 : List Char} {bs2 : List (Char × List Char)} {rest : List Char}
    (hds2 : NumIn kindsP ds2) (hr : IsRangeP r ds2 bs2 rest) :
    reParagraph.captures (ds ++ (flat bs ++ r)) =
      some [("num", ds), ("eda_str", flat bs), ("num_2", ds2), ("eda_str_2", flat bs2)] := by
  have hno : NoBranch isSep kindsP r := by
    rw [hr.1]; exact noBranch_mark _ (by simp)
  have hl : LastEnds kindsP bs r := by
    rw [hr.1]; exact lastEnds_markP (by simp)
  have hend : ∀ p ∈ kindsP, ds.all p = true → Ends p (flat bs ++ r) := fun p hp _ =>
    ends_flat hp hbs fun _ => by rw [hr.1]; exact marks_kinds (by simp) p (kindsP_sub hp)
  rw [Re.captures_eq, paragraph_first hds hend hbs hno hl (by simp)]
  simp only [Re.opt, Re.first_alt, Re.first_eps]
  rw [first_rangeP hds2 hr (by simp)]
  rfl

end JLaw
