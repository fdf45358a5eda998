import Verif.Lemmas.BuiltUnits

/-!
# Laws that can be built from text: reading their lines
-/

namespace JLaw

open Spec

variable {L : Lvl}

namespace Spec

/-- The headings of items keep the number, and two levels next to each other or one apart have
different patterns. -/
structure Headings (H : Nat → ArticleNumber → ItemNumber) (pat : Nat → ItemPattern) : Prop where
  num : ∀ d n, ArticleNumber.fromItemNumber (H d n) = n
  pattern : ∀ d n, (H d n).pattern = pat d
  ne : ∀ d, pat d ≠ pat (d + 1) ∧ pat d ≠ pat (d + 2)

end Spec

variable {H : Nat → ArticleNumber → ItemNumber} {pat : Nat → ItemPattern}

/-- An item as described is the one the reader makes. -/
theorem Spec.ItemBuilt.eq {γ : Type} {C : γ → Prop} {below : γ → Nat} {x : ItemOf L γ}
    (hH : Headings H pat) (h : ItemBuilt C below x) (child : γ → List TextLine) (d : Nat) :
    ∃ n s ts, itemLines H child d x =
        .item (H d n) s :: (ts.map .text ++ x.children.flatMap child) ∧
      x = builtItem (H d n) s ts x.children := by
  obtain ⟨h1, h2, h3, ⟨n, h4⟩, ⟨l, s, h5, h6, h7⟩, -, -⟩ := h
  obtain ⟨ts, he, hl⟩ := h6.eq
  refine ⟨n, s, ts, ?_, ?_⟩
  · simp only [itemLines, h5, h4, Option.getD_some]
    rw [hl]
    rfl
  · obtain ⟨a, b, c, d', e, f, g⟩ := x
    simp only at h1 h2 h3 h4 h5 h7
    subst h1 h2 h3 h4 h5
    simp only [builtItem, he, hH.num, ItemOf.mk.injEq, true_and, and_true]
    rw [Bool.eq_iff_iff, h7, isDeleted_iff]

theorem flatMap_head {α : Type} {f : α → List TextLine} {P : TextLine → Prop} {v : List α}
    {rest : List TextLine} (h : ∀ x ∈ v, ∃ l r, f x = l :: r ∧ P l) (hv : v ≠ []) :
    ∃ l r, v.flatMap f ++ rest = l :: r ∧ P l := by
  cases v with
  | nil => exact absurd rfl hv
  | cons x v =>
    obtain ⟨l, r, he, hp⟩ := h x (by simp)
    exact ⟨l, r ++ (v.flatMap f ++ rest), by simp [he], hp⟩

/-- A line is an item of depth `d`. -/
def IsItem (pat : Nat → ItemPattern) (d : Nat) (l : TextLine) : Prop :=
  ∃ m s, l = .item m s ∧ m.pattern = pat d

/-- A reader of items of depth `d + 1` reads the lines of the items, up to a line that is not part
of them. -/
def SubReads {γ : Type} (pat : Nat → ItemPattern) (C : γ → Prop) (below : γ → Nat)
    (lines : γ → List TextLine) (d : Nat) (f : SubReader γ) : Prop :=
  (∀ x, C x → ∃ l r, lines x = l :: r ∧ IsItem pat (d + 1) l) ∧
  ∀ v rest, v ≠ [] → (∀ c ∈ v, C c) → ClosesOne below v → NoText rest →
    (∀ m t r, rest = .item m t :: r →
      m.pattern = pat d ∧ ∀ y, v.getLast? = some y → below y = 0) →
    f (pat d) (pat (d + 1)) (v.flatMap lines ++ rest) = .ok (v, rest)

theorem noDeeper_reads (d : Nat) :
    SubReads pat (fun _ => True) Empty.elim Empty.elim d noDeeper := by
  refine ⟨fun x => x.elim, fun v => ?_⟩
  cases v with
  | nil => intro rest h; exact absurd rfl h
  | cons x => exact x.elim

theorem noText_of {P : TextLine → Prop} {ls : List TextLine} (h : ∃ l r, ls = l :: r ∧ P l)
    (hp : ∀ s, ¬ P (.text s)) : NoText ls := by
  obtain ⟨l, r, rfl, h⟩ := h
  intro s r' he
  cases he
  exact hp s h

theorem isItem_noText (d : Nat) (s : List Char) : ¬ IsItem pat d (.text s) := by
  rintro ⟨m, t, h, -⟩
  cases h

/-- The lines after an item: its children, and then the rest. -/
theorem goDeeper_reads {γ : Type} {C : γ → Prop} {below : γ → Nat} {lines : γ → List TextLine}
    {d : Nat} {deeper : SubReader γ} (hH : Headings H pat)
    (hd : SubReads pat C below lines (d + 1) deeper) {v : List γ} {rest : List TextLine}
    (hC : ∀ c ∈ v, C c) (ho : ClosesOne below v) (hn : NoText rest)
    (hr : ∀ m t r, rest = .item m t :: r →
      (m.pattern = pat (d + 1) ∧ ∀ y, v.getLast? = some y → below y = 0) ∨
      (m.pattern = pat d ∧ v = [])) :
    goDeeper deeper (pat d) (pat (d + 1)) (v.flatMap lines ++ rest) = .ok (v, rest) := by
  by_cases hv : v = []
  · subst hv
    rw [List.flatMap_nil, List.nil_append]
    unfold goDeeper
    split
    · rename_i m t r
      rw [if_neg]
      rintro ⟨h1, h2⟩
      rcases hr m t r rfl with h | h
      · exact h1 h.1
      · exact h2 h.1
    · rfl
  · obtain ⟨l, r, he, m, s, rfl, hm⟩ := flatMap_head (rest := rest) (fun x hx => hd.1 x (hC x hx)) hv
    have hread := hd.2 v rest hv hC ho hn fun m t r hr' => by
      rcases hr m t r hr' with h | h
      · exact h
      · exact absurd h.2 hv
    rw [he] at hread ⊢
    rw [goDeeper, if_pos, hm]
    · exact hread
    · rw [hm]
      exact ⟨fun h => (hH.ne (d + 1)).1 h.symm, fun h => (hH.ne d).2 h.symm⟩

theorem subitemLoop_reads {γ : Type} {C : γ → Prop} {below : γ → Nat} {lines : γ → List TextLine}
    {d : Nat} {deeper : SubReader γ} (hH : Headings H pat)
    (hd : SubReads pat C below lines (d + 1) deeper) (v : List (ItemOf L γ)) (rest : List TextLine)
    (fuel : Nat) (hf : (v.flatMap (itemLines H lines (d + 1)) ++ rest).length ≤ fuel)
    (hC : ∀ c ∈ v, ItemBuilt C below c) (ho : ClosesOne (openBelow below) v) (hn : NoText rest)
    (hr : ∀ m t r, rest = .item m t :: r →
      m.pattern = pat d ∧ ∀ y, v.getLast? = some y → openBelow below y = 0) :
    subitemLoop deeper (pat d) (pat (d + 1)) fuel
      (v.flatMap (itemLines H lines (d + 1)) ++ rest) = .ok (v, rest) := by
  induction v generalizing fuel with
  | nil =>
    rw [List.flatMap_nil, List.nil_append]
    rw [subitemLoop.eq_def]
    split
    · rename_i m t r
      rw [if_pos (hr m t r rfl).1]
    · rfl
  | cons x v ih =>
    have hx := hC x (by simp)
    obtain ⟨n, s, ts, he, hb⟩ := hx.eq hH lines (d + 1)
    obtain ⟨ho1, ho2⟩ := (closesOne_cons _ _ _).mp ho
    have heads : ∀ y ∈ v, ∃ l r, itemLines H lines (d + 1) y = l :: r ∧ IsItem pat (d + 1) l := by
      intro y hy
      obtain ⟨n, s, ts, he, -⟩ := (hC y (List.mem_cons_of_mem _ hy)).eq hH lines (d + 1)
      exact ⟨_, _, he, _, _, rfl, hH.pattern _ _⟩
    have hrest : NoText (v.flatMap (itemLines H lines (d + 1)) ++ rest) := by
      by_cases hv : v = []
      · subst hv; exact hn
      · exact noText_of (flatMap_head heads hv) (isItem_noText _)
    have hfirst : NoText (x.children.flatMap lines ++
        (v.flatMap (itemLines H lines (d + 1)) ++ rest)) := by
      by_cases hc : x.children = []
      · rw [hc]; exact hrest
      · exact noText_of (flatMap_head (fun y hy => hd.1 y (hx.children y hy)) hc) (isItem_noText _)
    have hlines : (x :: v).flatMap (itemLines H lines (d + 1)) ++ rest =
        .item (H (d + 1) n) s :: (ts.map .text ++ (x.children.flatMap lines ++
          (v.flatMap (itemLines H lines (d + 1)) ++ rest))) := by
      rw [List.flatMap_cons, he]
      simp [List.append_assoc]
    rw [hlines] at hf ⊢
    cases fuel with
    | zero => simp at hf
    | succ fuel =>
      have hdeep : goDeeper deeper (pat d) (pat (d + 1)) (x.children.flatMap lines ++
          (v.flatMap (itemLines H lines (d + 1)) ++ rest)) =
          .ok (x.children, v.flatMap (itemLines H lines (d + 1)) ++ rest) := by
        refine goDeeper_reads hH hd hx.children hx.order hrest ?_
        intro m t r hr'
        by_cases hv : v = []
        · subst hv
          obtain ⟨h1, h2⟩ := hr m t r hr'
          refine .inr ⟨h1, ?_⟩
          have := h2 x rfl
          simp only [openBelow] at this
          split at this
          · omega
          · rename_i h
            simpa using h
        · obtain ⟨l, r', he', m', s', rfl, hm⟩ := flatMap_head (rest := rest) heads hv
          rw [he'] at hr'
          cases hr'
          refine .inl ⟨hm, fun y hy => ?_⟩
          have := ho1 hv
          simp only [openBelow, hy] at this
          omega
      rw [subitemLoop, if_neg, if_pos (hH.pattern _ _), takeTexts_of ts hfirst]
      · simp only [hdeep, Res.bind_ok]
        rw [ih fuel ?_ (fun y hy => hC y (List.mem_cons_of_mem _ hy)) ho2 ?_]
        · rw [Res.bind_ok, ← hb]
        · simp only [List.length_cons, List.length_append] at hf ⊢
          omega
        · intro m t r hr'
          obtain ⟨h1, h2⟩ := hr m t r hr'
          refine ⟨h1, fun y hy => h2 y ?_⟩
          cases v with
          | nil => cases hy
          | cons a b => rw [List.getLast?_cons_cons]; exact hy
      · rw [hH.pattern]
        exact fun h => (hH.ne d).1 h.symm

theorem parseSubitem_reads {γ : Type} {C : γ → Prop} {below : γ → Nat} {lines : γ → List TextLine}
    {d : Nat} {deeper : SubReader γ} (hH : Headings H pat)
    (hd : SubReads pat C below lines (d + 1) deeper) :
    SubReads pat (ItemBuilt (L := L) C below) (openBelow below) (itemLines H lines (d + 1)) d
      (parseSubitem deeper) := by
  refine ⟨fun x hx => ?_, fun v rest _ hC ho hn hr =>
    subitemLoop_reads hH hd v rest _ (Nat.le_refl _) hC ho hn hr⟩
  obtain ⟨n, s, ts, he, -⟩ := hx.eq hH lines (d + 1)
  exact ⟨_, _, he, _, _, rfl, hH.pattern _ _⟩

theorem parseSubitem1_reads (hH : Headings H pat) :
    SubReads pat (Subitem1Built (L := L)) subitem1Below (subitem1Lines H) 1 parseSubitem1 :=
  parseSubitem_reads hH <| parseSubitem_reads hH <| parseSubitem_reads hH <|
    parseSubitem_reads hH <| parseSubitem_reads hH <| parseSubitem_reads hH <|
    parseSubitem_reads hH <| parseSubitem_reads hH <| parseSubitem_reads hH <|
    parseSubitem_reads hH <| noDeeper_reads 11

/-- The next line is neither a text nor an item. -/
def NoItemLine (ls : List TextLine) : Prop := NoText ls ∧ ∀ m s r, ls ≠ .item m s :: r

theorem goSubitem1_reads (hH : Headings H pat) {v : List (Subitem1 L)} {rest : List TextLine}
    (hC : ∀ c ∈ v, Subitem1Built c) (ho : ClosesOne subitem1Below v) (hn : NoText rest)
    (hr : ∀ m t r, rest = .item m t :: r →
      m.pattern = pat 1 ∧ ∀ y, v.getLast? = some y → subitem1Below y = 0) :
    goSubitem1 (pat 1) (v.flatMap (subitem1Lines H) ++ rest) = .ok (v, rest) := by
  have hd := parseSubitem1_reads (L := L) hH
  by_cases hv : v = []
  · subst hv
    rw [List.flatMap_nil, List.nil_append]
    unfold goSubitem1
    split
    · rename_i m t r
      rw [if_neg]
      exact not_not_intro (hr m t r rfl).1
    · rfl
  · obtain ⟨l, r, he, m, s, rfl, hm⟩ := flatMap_head (rest := rest) (fun x hx => hd.1 x (hC x hx)) hv
    have hread := hd.2 v rest hv hC ho hn hr
    rw [he] at hread ⊢
    rw [goSubitem1, if_pos, hm]
    · exact hread
    · rw [hm]
      exact fun h => (hH.ne 1).1 h.symm

theorem itemLoop_reads (hH : Headings H pat) (v : List (Item L)) (rest : List TextLine)
    (fuel : Nat) (hf : (v.flatMap (itemsLines H) ++ rest).length ≤ fuel)
    (hC : ∀ c ∈ v, ItemsBuilt c) (ho : ClosesOne itemBelow v) (hn : NoItemLine rest) :
    itemLoop fuel (v.flatMap (itemsLines H) ++ rest) = .ok (v, rest) := by
  induction v generalizing fuel with
  | nil =>
    rw [List.flatMap_nil, List.nil_append]
    rw [itemLoop.eq_def]
    split
    · rename_i m t r
      exact absurd rfl (hn.2 m t r)
    · rfl
  | cons x v ih =>
    have hx := hC x (by simp)
    obtain ⟨n, s, ts, he, hb⟩ := hx.eq hH (subitem1Lines H) 1
    obtain ⟨ho1, ho2⟩ := (closesOne_cons _ _ _).mp ho
    have heads : ∀ y ∈ v, ∃ l r, itemsLines H y = l :: r ∧ IsItem pat 1 l := by
      intro y hy
      obtain ⟨n, s, ts, he, -⟩ := (hC y (List.mem_cons_of_mem _ hy)).eq hH (subitem1Lines H) 1
      exact ⟨_, _, he, _, _, rfl, hH.pattern _ _⟩
    have hrest : NoText (v.flatMap (itemsLines H) ++ rest) := by
      by_cases hv : v = []
      · subst hv; exact hn.1
      · exact noText_of (flatMap_head heads hv) (isItem_noText _)
    have hfirst : NoText (x.children.flatMap (subitem1Lines H) ++
        (v.flatMap (itemsLines H) ++ rest)) := by
      by_cases hc : x.children = []
      · rw [hc]; exact hrest
      · exact noText_of (flatMap_head (fun y hy => (parseSubitem1_reads hH).1 y (hx.children y hy)) hc)
          (isItem_noText _)
    have hlines : (x :: v).flatMap (itemsLines H) ++ rest =
        .item (H 1 n) s :: (ts.map .text ++ (x.children.flatMap (subitem1Lines H) ++
          (v.flatMap (itemsLines H) ++ rest))) := by
      rw [List.flatMap_cons, itemsLines, he]
      simp [List.append_assoc]
    rw [hlines] at hf ⊢
    cases fuel with
    | zero => simp at hf
    | succ fuel =>
      have hdeep : goSubitem1 (pat 1) (x.children.flatMap (subitem1Lines H) ++
          (v.flatMap (itemsLines H) ++ rest)) =
          .ok (x.children, v.flatMap (itemsLines H) ++ rest) := by
        refine goSubitem1_reads hH hx.children hx.order hrest ?_
        intro m t r hr'
        by_cases hv : v = []
        · subst hv
          exact absurd hr' (hn.2 m t r)
        · obtain ⟨l, r', he', m', s', rfl, hm⟩ := flatMap_head (rest := rest) heads hv
          rw [he'] at hr'
          cases hr'
          refine ⟨hm, fun y hy => ?_⟩
          have := ho1 hv
          simp only [itemBelow, openBelow, hy] at this
          omega
      rw [itemLoop, takeTexts_of ts hfirst, hH.pattern]
      simp only [hdeep, Res.bind_ok]
      rw [ih fuel ?_ (fun y hy => hC y (List.mem_cons_of_mem _ hy)) ho2]
      · rw [Res.bind_ok, ← hb]
      · simp only [List.length_cons, List.length_append] at hf ⊢
        omega

theorem paragraphLines_eq {x : Paragraph L} {s : List Char} (h : ParagraphBuilt s x)
    (head : List Char → TextLine) :
    ∃ ts, paragraphLines H head x = head s :: (ts.map .text ++ x.children.flatMap (itemsLines H)) ∧
      x.sentence = sentencesFrom 0 (s :: ts) := by
  obtain ⟨ts, he, hl⟩ := h.sentence.eq
  exact ⟨ts, by rw [paragraphLines, hl]; rfl, he⟩

theorem parseParagraph_reads (hH : Headings H pat) {x : Paragraph L} {s : List Char}
    (h : ParagraphBuilt s x) (head : List Char → TextLine) {rest : List TextLine} (hn : NoItemLine rest) :
    ∃ ls, paragraphLines H head x ++ rest = head s :: ls ∧
      parseParagraph x.num s ls = .ok (x, rest) := by
  obtain ⟨ts, he, hs⟩ := paragraphLines_eq (H := H) h head
  refine ⟨ts.map .text ++ (x.children.flatMap (itemsLines H) ++ rest), by
    rw [he]; simp [List.append_assoc], ?_⟩
  have hfirst : NoText (x.children.flatMap (itemsLines H) ++ rest) := by
    by_cases hc : x.children = []
    · rw [hc]; exact hn.1
    · refine noText_of (flatMap_head (P := IsItem pat 1) (fun y hy => ?_) hc) (isItem_noText _)
      obtain ⟨n, s, ts, he, -⟩ := (h.children y hy).eq hH (subitem1Lines H) 1
      exact ⟨_, _, he, _, _, rfl, hH.pattern _ _⟩
  rw [parseParagraph, takeTexts_of ts hfirst]
  simp only
  rw [itemLoop_reads hH _ _ _ (Nat.le_refl _) h.children h.order hn]
  obtain ⟨h1, h2, h3, h4, h5, h6, h7, h8, -, -, -⟩ := h
  obtain ⟨a, b, c, d, e, f, g, i, j, k, l⟩ := x
  simp only at h1 h2 h3 h4 h5 h6 h7 h8 hs
  subst h1 h2 h3 h4 h5 h6 h7 h8 hs
  rfl

/-- The next line is not part of an article. -/
def NoArticleLine (ls : List TextLine) : Prop := NoItemLine ls ∧ ∀ m s r, ls ≠ .paragraph m s :: r

theorem paragraphLoop_reads (hH : Headings H pat) (v : List (Paragraph L)) (rest : List TextLine)
    (fuel : Nat)
    (hf : (v.flatMap (fun q => paragraphLines H (.paragraph q.num) q) ++ rest).length ≤ fuel)
    (hC : ∀ q ∈ v, ∃ s, ParagraphBuilt s q) (hn : NoArticleLine rest) :
    paragraphLoop fuel (v.flatMap (fun q => paragraphLines H (.paragraph q.num) q) ++ rest) =
      .ok (v, rest) := by
  induction v generalizing fuel with
  | nil =>
    rw [List.flatMap_nil, List.nil_append]
    rw [paragraphLoop.eq_def]
    split
    · rename_i m t r
      exact absurd rfl (hn.2 m t r)
    · rfl
  | cons x v ih =>
    obtain ⟨s, hx⟩ := hC x (by simp)
    have hrest : NoItemLine (v.flatMap (fun q => paragraphLines H (.paragraph q.num) q) ++ rest) := by
      cases v with
      | nil => exact hn.1
      | cons y v =>
        obtain ⟨t, hy⟩ := hC y (by simp)
        obtain ⟨ts, he, -⟩ := paragraphLines_eq (H := H) hy (.paragraph y.num)
        rw [List.flatMap_cons, he]
        exact ⟨fun s r h => (by cases h), fun m s r h => (by cases h)⟩
    obtain ⟨ls, hl, hp⟩ := parseParagraph_reads hH hx (.paragraph x.num) hrest
    rw [List.flatMap_cons, List.append_assoc] at hf ⊢
    have hlen : (paragraphLines H (.paragraph x.num) x).length ≠ 0 := by
      obtain ⟨ts, he, -⟩ := paragraphLines_eq (H := H) hx (.paragraph x.num)
      rw [he]; simp
    cases fuel with
    | zero => simp only [List.length_append] at hf; omega
    | succ fuel =>
      rw [hl, paragraphLoop, hp]
      simp only [Res.bind_ok]
      rw [ih fuel (by simp only [List.length_append] at hf ⊢; omega)
        (fun y hy => hC y (List.mem_cons_of_mem _ hy))]
      rfl

theorem textChars_plain (s : List Char) : textChars (plainText (L := L) s) = s := by
  simp [textChars, plainText]

theorem plainText_eq (s : List Char) : plainText (L := L) s = Text.fromValue (String.ofList s) := rfl

/-- The lines of an article, and what is read from them. -/
theorem parseArticle_reads (hH : Headings H pat) {x : Article L} (h : ArticleBuilt x)
    {rest : List TextLine} (hn : NoArticleLine rest) :
    ∃ c s ls, articleLines H x ++ rest = c.toList.map TextLine.caption ++ .article x.num s :: ls ∧
      parseArticle c x.num s ls = .ok (x, rest) := by
  obtain ⟨h1, h2, h3, h4, p, r, s, h5, h6, h7, h8, h9⟩ := h
  have hrest : NoItemLine (r.flatMap (fun q => paragraphLines H (.paragraph q.num) q) ++ rest) := by
    cases r with
    | nil => exact hn.1
    | cons y v =>
      obtain ⟨t, hy⟩ := h9 y (by simp)
      obtain ⟨ts, he, -⟩ := paragraphLines_eq (H := H) hy (.paragraph y.num)
      rw [List.flatMap_cons, he]
      exact ⟨fun s r h => (by cases h), fun m s r h => (by cases h)⟩
  obtain ⟨ls, hl, hp⟩ := parseParagraph_reads hH h7 (.article x.num) hrest
  have key : ∀ c : Option (List Char), x.caption = c.map (fun s => ⟨plainText s, none⟩) →
      articleLines H x ++ rest = c.toList.map TextLine.caption ++ .article x.num s :: ls ∧
      parseArticle c x.num s ls = .ok (x, rest) := by
    intro c hc
    refine ⟨?_, ?_⟩
    · rw [articleLines, h5, hc]
      simp only
      rw [List.append_assoc, List.append_assoc, hl]
      cases c with
      | none => rfl
      | some t => simp [textChars_plain]
    · rw [parseArticle, fromNumStr_one]
      simp only [Res.bind_ok]
      rw [← h6, hp]
      simp only [Res.bind_ok]
      rw [paragraphLoop_reads hH r rest _ (Nat.le_refl _) h9 hn]
      obtain ⟨a, b, c', d, e, f, g⟩ := x
      simp only at h2 h3 h4 h5 h8 hc
      subst h2 h3 h4 h5 hc
      have : isDeleted s = f := by rw [Bool.eq_iff_iff, h8, isDeleted_iff]
      simp only [Res.bind_ok, this, plainText_eq]
  rcases h1 with h1 | ⟨t, h1⟩
  · exact ⟨none, s, ls, key none h1⟩
  · exact ⟨some t, s, ls, key (some t) h1⟩

/-! ## Units -/

/-- The next line, if any, has the property. -/
def StartsWith (P : TextLine → Prop) (ls : List TextLine) : Prop := ∀ l r, ls = l :: r → P l

/-- A line does not belong to the article before it. -/
def OutsideArticle (l : TextLine) : Prop :=
  (∀ s, l ≠ .text s) ∧ (∀ m s, l ≠ .item m s) ∧ ∀ m s, l ≠ .paragraph m s

theorem noArticleLine_of {ls : List TextLine} (h : StartsWith OutsideArticle ls) :
    NoArticleLine ls :=
  ⟨⟨fun s _ he => (h _ _ he).1 s rfl, fun m s _ he => (h _ _ he).2.1 m s rfl⟩,
    fun m s _ he => (h _ _ he).2.2 m s rfl⟩

theorem articleLines_head (hH : Headings H pat) {x : Article L} (h : ArticleBuilt x) :
    ∃ l r, articleLines H x = l :: r ∧ OutsideArticle l := by
  obtain ⟨c, s, ls, he, -⟩ := parseArticle_reads (rest := []) hH h
    (noArticleLine_of fun l r h => by cases h)
  rw [List.append_nil] at he
  cases c with
  | none => exact ⟨_, _, he, by simp [OutsideArticle]⟩
  | some t => exact ⟨_, _, he, by simp [OutsideArticle]⟩

/-- A line is the heading of a unit of rank at most `k`. -/
def HeadingUpTo (k : Nat) (l : TextLine) : Prop := ∃ u, kindOf l = some u ∧ u.rank ≤ k

theorem HeadingUpTo.mono {k k' : Nat} (h : k ≤ k') {l : TextLine} (hl : HeadingUpTo k l) :
    HeadingUpTo k' l := by
  obtain ⟨u, h1, h2⟩ := hl
  exact ⟨u, h1, by omega⟩

theorem HeadingUpTo.outside {k : Nat} {l : TextLine} (h : HeadingUpTo k l) : OutsideArticle l := by
  obtain ⟨u, hu, -⟩ := h
  cases l <;> first | cases hu; done | simp [OutsideArticle]

theorem flatMap_starts {α : Type} {f : α → List TextLine} {P : TextLine → Prop} {v : List α}
    {rest : List TextLine} (h : ∀ x ∈ v, ∃ l r, f x = l :: r ∧ P l) (hr : StartsWith P rest) :
    StartsWith P (v.flatMap f ++ rest) := by
  by_cases hv : v = []
  · subst hv; exact hr
  · obtain ⟨l, r, he, hp⟩ := flatMap_head (rest := rest) h hv
    intro l' r' he'
    rw [he] at he'
    cases he'
    exact hp

/-- How the lines of a child of a unit are read: as an article, or by the arm for the units one level
lower, up to a heading of rank at most `k`. -/
def ChildReads {γ : Type} (H : Nat → ArticleNumber → ItemNumber) (ofArticle : Article L → γ)
    (sub : TextLine → Option (List TextLine → Res (γ × List TextLine)))
    (lines : γ → List TextLine) (isArticle : γ → Prop) (k : Nat) (c : γ) : Prop :=
  (∃ a, c = ofArticle a ∧ ArticleBuilt a ∧ lines c = articleLines H a ∧ isArticle c) ∨
  (¬ isArticle c ∧ ∃ l r f, lines c = l :: r ∧ HeadingUpTo k l ∧ sub l = some f ∧
    ∀ rest, StartsWith (HeadingUpTo k) rest → f (r ++ rest) = .ok (c, rest))

theorem ChildReads.head {γ : Type} {ofArticle : Article L → γ}
    {sub : TextLine → Option (List TextLine → Res (γ × List TextLine))}
    {lines : γ → List TextLine} {isArticle : γ → Prop} {k : Nat} {c : γ} (hH : Headings H pat)
    (h : ChildReads H ofArticle sub lines isArticle k c) :
    ∃ l r, lines c = l :: r ∧ OutsideArticle l := by
  rcases h with ⟨a, -, ha, hl, -⟩ | ⟨-, l, r, f, hl, hk, -, -⟩
  · rw [hl]; exact articleLines_head hH ha
  · exact ⟨l, r, hl, hk.outside⟩

theorem unitLoop_reads {γ : Type} {ofArticle : Article L → γ}
    {sub : TextLine → Option (List TextLine → Res (γ × List TextLine))}
    {lines : γ → List TextLine} {isArticle : γ → Prop} {k : Nat} (hH : Headings H pat)
    (v : List γ) (hv : ∀ c ∈ v, ChildReads H ofArticle sub lines isArticle k c)
    (ho : First isArticle v) (rest : List TextLine)
    (hr : StartsWith (fun l => HeadingUpTo 4 l ∧ sub l = none) rest)
    (hr' : (∃ c ∈ v, ¬ isArticle c) → StartsWith (HeadingUpTo k) rest)
    (fuel : Nat) (hf : (v.flatMap lines ++ rest).length ≤ fuel) :
    unitLoop ofArticle sub fuel none (v.flatMap lines ++ rest) = .ok (v, rest) := by
  induction v generalizing fuel with
  | nil =>
    rw [List.flatMap_nil, List.nil_append]
    cases rest with
    | nil => cases fuel <;> rw [unitLoop] <;> simp
    | cons l r =>
      obtain ⟨⟨u, hu, -⟩, hs⟩ := hr l r rfl
      cases fuel with
      | zero => simp at hf
      | succ fuel =>
        cases l <;> first | cases hu; done | (rw [unitLoop, hs] <;> simp)
  | cons c v ih =>
    obtain ⟨ho1, ho2⟩ := (first_cons _ _ _).mp ho
    have hv' : ∀ c ∈ v, ChildReads H ofArticle sub lines isArticle k c :=
      fun y hy => hv y (List.mem_cons_of_mem _ hy)
    have ih' := ih hv' ho2 fun ⟨y, hy, hn⟩ => hr' ⟨y, List.mem_cons_of_mem _ hy, hn⟩
    have hout : StartsWith OutsideArticle (v.flatMap lines ++ rest) :=
      flatMap_starts (fun y hy => (hv' y hy).head hH) fun l r he => (hr l r he).1.outside
    rw [List.flatMap_cons, List.append_assoc] at hf ⊢
    rcases hv c (by simp) with ⟨a, rfl, ha, hl, -⟩ | ⟨hna, l, r, f, hl, hk, hs, hread⟩
    · obtain ⟨cap, s, ls, he, hp⟩ := parseArticle_reads hH ha (noArticleLine_of hout)
      rw [hl, he] at hf ⊢
      have hlen : (v.flatMap lines ++ rest).length ≤ ls.length := (parseArticle_built hp).2
      have hnone : ∀ f, ls.length ≤ f →
          unitLoop ofArticle sub (f + 1) cap (.article a.num s :: ls) =
            .ok (ofArticle a :: v, rest) := by
        intro f hf'
        rw [unitLoop, hp]
        simp only [Res.bind_ok]
        rw [ih' f (by omega)]
        rfl
      cases cap with
      | none =>
        simp only [Option.toList_none, List.map_nil, List.nil_append] at hf ⊢
        cases fuel with
        | zero => simp at hf
        | succ fuel =>
          simp only [List.length_cons] at hf
          exact hnone fuel (by omega)
      | some t =>
        simp only [Option.toList_some, List.map_cons, List.map_nil, List.cons_append,
          List.nil_append] at hf ⊢
        match fuel with
        | 0 => simp at hf
        | 1 => simp at hf
        | fuel + 2 =>
          simp only [List.length_cons] at hf
          rw [unitLoop]
          exact hnone fuel (by omega)
    · rw [hl] at hf ⊢
      have hstop : StartsWith (HeadingUpTo k) (v.flatMap lines ++ rest) := by
        refine flatMap_starts (fun y hy => ?_) (hr' ⟨c, by simp, hna⟩)
        have hny := first_none ho2 (fun z hz hk => hna (ho1 z hz hk)) y hy
        rcases hv' y hy with ⟨a, -, -, -, h⟩ | ⟨-, l, r, f, hl, hk, -, -⟩
        · exact absurd h hny
        · exact ⟨l, r, hl, hk⟩
      have hp := hread _ hstop
      rw [List.cons_append] at hf ⊢
      cases fuel with
      | zero => simp at hf
      | succ fuel =>
        simp only [List.length_cons, List.length_append] at hf
        obtain ⟨u, hu, -⟩ := hk
        have hgo : unitLoop ofArticle sub (fuel + 1) none (l :: (r ++ (v.flatMap lines ++ rest))) =
            (f (r ++ (v.flatMap lines ++ rest))).bind fun x =>
              (unitLoop ofArticle sub fuel none x.2).bind fun v => .ok (x.1 :: v.1, v.2) := by
          cases l <;> first | cases hu; done | (rw [unitLoop, hs] <;> simp)
        rw [hgo, hp]
        simp only [Res.bind_ok]
        rw [ih' fuel (by simp only [List.length_append]; omega)]
        rfl

theorem parseUnit_reads {γ : Type} {ofArticle : Article L → γ}
    {sub : TextLine → Option (List TextLine → Res (γ × List TextLine))}
    {lines : γ → List TextLine} {C isArticle : γ → Prop} {k : Nat} (hH : Headings H pat)
    {x : HierOf L γ} (h : UnitBuilt C isArticle x)
    (hv : ∀ c, C c → ChildReads H ofArticle sub lines isArticle k c)
    (rest : List TextLine) (hr : StartsWith (fun l => HeadingUpTo 4 l ∧ sub l = none) rest)
    (hr' : (∃ c ∈ x.children, ¬ isArticle c) → StartsWith (HeadingUpTo k) rest) :
    parseUnit ofArticle sub x.num (textChars x.title) (x.children.flatMap lines ++ rest) =
      .ok (x, rest) := by
  obtain ⟨⟨s, h1, h2⟩, h3, h4, h5⟩ := h
  rw [parseUnit, unitLoop_reads hH x.children (fun c hc => hv c (h4 c hc)) h5 rest hr hr' _
    (Nat.le_refl _), Res.bind_ok]
  obtain ⟨a, b, c, d, e⟩ := x
  simp only at h1 h2 h3
  subst h1 h3
  have : isDeleted s = d := by rw [Bool.eq_iff_iff, h2, isDeleted_iff]
  rw [textChars_plain]
  simp only [this]
  rfl

theorem parseDivision_reads (hH : Headings H pat) {x : Division L} (h : DivisionBuilt x)
    (rest : List TextLine) (hr : StartsWith (HeadingUpTo 4) rest) :
    parseDivision x.num (textChars x.title) ((divisionLines H x).tail ++ rest) =
      .ok (x, rest) :=
  parseUnit_reads (k := 4) hH h (fun a ha => .inl ⟨a, rfl, ha, rfl, trivial⟩) rest
    (fun l r he => ⟨hr l r he, rfl⟩) fun _ => hr

theorem parseSubsection_reads (hH : Headings H pat) {x : Subsection L} (h : SubsectionBuilt x)
    (rest : List TextLine) (hr : StartsWith (HeadingUpTo 3) rest) :
    parseSubsection x.num (textChars x.title) ((subsectionLines H x).tail ++ rest) =
      .ok (x, rest) := by
  refine parseUnit_reads (k := 4) hH h ?_ rest
    (fun l r he => ⟨(hr l r he).mono (by omega), ?_⟩) fun _ l r he => (hr l r he).mono (by omega)
  · intro c hc
    cases c with
    | article a => exact .inl ⟨a, rfl, hc, rfl, trivial⟩
    | division d =>
      refine .inr ⟨not_false, _, (divisionLines H d).tail, _, rfl, ⟨.division, rfl, by decide⟩, rfl, fun rest hr => ?_⟩
      rw [parseDivision_reads hH hc rest hr, Res.bind_ok]
  · obtain ⟨u, hu, hk⟩ := hr l r he
    cases l <;> cases hu <;> first | rfl | (simp [Kind.rank] at hk)

theorem parseSection_reads (hH : Headings H pat) {x : Section L} (h : SectionBuilt x)
    (rest : List TextLine) (hr : StartsWith (HeadingUpTo 2) rest) :
    parseSection x.num (textChars x.title) ((sectionLines H x).tail ++ rest) = .ok (x, rest) := by
  refine parseUnit_reads (k := 3) hH h ?_ rest
    (fun l r he => ⟨(hr l r he).mono (by omega), ?_⟩) fun _ l r he => (hr l r he).mono (by omega)
  · intro c hc
    cases c with
    | article a => exact .inl ⟨a, rfl, hc, rfl, trivial⟩
    | subsection d =>
      refine .inr ⟨not_false, _, (subsectionLines H d).tail, _, rfl, ⟨.subsection, rfl, by decide⟩, rfl, fun rest hr => ?_⟩
      rw [parseSubsection_reads hH hc rest hr, Res.bind_ok]
    | division d => exact hc.elim
  · obtain ⟨u, hu, hk⟩ := hr l r he
    cases l <;> cases hu <;> first | rfl | (simp [Kind.rank] at hk)

theorem parseChapter_reads (hH : Headings H pat) {x : Chapter L} (h : ChapterBuilt x)
    (rest : List TextLine) (hr : StartsWith (HeadingUpTo 1) rest) :
    parseChapter x.num (textChars x.title) ((chapterLines H x).tail ++ rest) =
      .ok (x, rest) := by
  refine parseUnit_reads (k := 2) hH h ?_ rest
    (fun l r he => ⟨(hr l r he).mono (by omega), ?_⟩) fun _ l r he => (hr l r he).mono (by omega)
  · intro c hc
    cases c with
    | article a => exact .inl ⟨a, rfl, hc, rfl, trivial⟩
    | section_ d =>
      refine .inr ⟨not_false, _, (sectionLines H d).tail, _, rfl, ⟨.section_, rfl, by decide⟩, rfl, fun rest hr => ?_⟩
      rw [parseSection_reads hH hc rest hr, Res.bind_ok]
  · obtain ⟨u, hu, hk⟩ := hr l r he
    cases l <;> cases hu <;> first | rfl | (simp [Kind.rank] at hk)

theorem parsePart_reads (hH : Headings H pat) {x : Part L} (h : PartBuilt x)
    (rest : List TextLine)
    (hr : StartsWith (fun l => HeadingUpTo 4 l ∧ ∀ n s, l ≠ .chapter n s) rest)
    (hr' : (∃ c ∈ x.children, ∀ a, c ≠ .article a) → StartsWith (HeadingUpTo 1) rest) :
    parsePart x.num (textChars x.title) ((partLines H x).tail ++ rest) =
      .ok (x, rest) := by
  refine parseUnit_reads (k := 1) hH h ?_ rest (fun l r he => ⟨(hr l r he).1, ?_⟩) ?_
  · intro c hc
    cases c with
    | article a => exact .inl ⟨a, rfl, hc, rfl, trivial⟩
    | chapter d =>
      refine .inr ⟨not_false, _, (chapterLines H d).tail, _, rfl, ⟨.chapter, rfl, by decide⟩, rfl, fun rest hr => ?_⟩
      rw [parseChapter_reads hH hc rest hr, Res.bind_ok]
  · have hn := (hr l r he).2
    cases l <;> first | rfl | exact absurd rfl (hn _ _)
  · rintro ⟨c, hc, hn⟩
    refine hr' ⟨c, hc, ?_⟩
    cases c with
    | article a => exact absurd trivial hn
    | chapter d => simp

/-! ## The body -/

theorem mainLines_head (hH : Headings H pat) {y : MainProvisionContents L} (h : MainBuilt y) :
    ∃ l r, mainLines H y = l :: r ∧ OutsideArticle l := by
  cases y with
  | part x => exact ⟨_, _, rfl, by simp [OutsideArticle]⟩
  | chapter x => exact ⟨_, _, rfl, by simp [OutsideArticle]⟩
  | section_ x => exact ⟨_, _, rfl, by simp [OutsideArticle]⟩
  | article x => exact articleLines_head hH h
  | paragraph x => exact h.elim

theorem bodyLoop_reads (hH : Headings H pat) (v : List (MainProvisionContents L))
    (hv : ∀ y ∈ v, MainBuilt y) (ho : ∀ a y z b, v = a ++ y :: z :: b → MayFollow y z)
    (fuel : Nat) (hf : (v.flatMap (mainLines H)).length < fuel) (s : BodySt L)
    (hc : s.caption = none) (hs : s.suppl_law_num = none) :
    ∃ s', bodyLoop fuel s (v.flatMap (mainLines H)) = .ok (some s') ∧ s'.main = s.main ++ v ∧
      s'.preamble = s.preamble ∧ s'.suppl_law_num = none ∧ s'.suppl = s.suppl := by
  induction v generalizing fuel s with
  | nil =>
    cases fuel with
    | zero => simp at hf
    | succ fuel => exact ⟨s, rfl, by simp, rfl, hs, rfl⟩
  | cons y v ih =>
    have hv' : ∀ y ∈ v, MainBuilt y := fun z hz => hv z (List.mem_cons_of_mem _ hz)
    have ih' := ih hv' fun a z w b he => ho (y :: a) z w b (by rw [he]; rfl)
    have hnext : ∀ z, v.head? = some z → MayFollow y z := by
      intro z hz
      cases v with
      | nil => cases hz
      | cons w v => cases hz; exact ho [] y _ v rfl
    have hy := hv y (by simp)
    rw [List.flatMap_cons] at hf ⊢
    -- what the lines after `y` start with
    have hstart : ∀ P : TextLine → Prop, (∀ z ∈ v, v.head? = some z → ∀ l r, mainLines H z = l :: r → P l) →
        StartsWith P (v.flatMap (mainLines H)) := by
      intro P hP l r he
      cases v with
      | nil => cases he
      | cons z v =>
        obtain ⟨l', r', he', -⟩ := mainLines_head hH (hv' z (by simp))
        rw [List.flatMap_cons, he'] at he
        cases he
        exact hP z (by simp) rfl _ _ he'
    have done : ∀ (s1 : BodySt L) (f : Nat), (v.flatMap (mainLines H)).length < f →
        s1.main = s.main ++ [y] → s1.preamble = s.preamble → s1.caption = none →
        s1.suppl_law_num = none → s1.suppl = s.suppl →
        ∃ s', bodyLoop f s1 (v.flatMap (mainLines H)) = .ok (some s') ∧
          s'.main = s.main ++ y :: v ∧ s'.preamble = s.preamble ∧ s'.suppl_law_num = none ∧
          s'.suppl = s.suppl := by
      intro s1 f hf h1 h2 h3 h4 h5
      obtain ⟨s', g1, g2, g3, g4, g5⟩ := ih' f hf s1 h3 h4
      exact ⟨s', g1, by rw [g2, h1]; simp, g3.trans h2, g4, g5.trans h5⟩
    cases y with
    | paragraph x => exact hy.elim
    | part x =>
      have hp := parsePart_reads hH hy (v.flatMap (mainLines H)) (hstart _ fun z hz hh l r he => ?_)
        (fun ⟨c, hc, hn⟩ => hstart _ fun z hz hh l r he => ?_)
      · have hl : mainLines H (.part x) = .part x.num (textChars x.title) :: (partLines H x).tail := rfl
        rw [hl, List.cons_append] at hf ⊢
        cases fuel with
        | zero => simp at hf
        | succ fuel =>
          rw [bodyLoop]
          simp only [bodyStep]
          rw [hp]
          simp only [Res.bind_ok]
          simp only [List.length_cons, List.length_append] at hf
          exact done _ _ (by omega) rfl rfl rfl hs rfl
      · have hm := hnext z hh
        cases z with
        | part x' => cases he; exact ⟨⟨.part, rfl, by decide⟩, by simp⟩
        | section_ x' => cases he; exact ⟨⟨.section_, rfl, by decide⟩, by simp⟩
        | paragraph x' => exact (hv' _ hz).elim
        | _ => exact hm.elim
      · have hm := hnext z hh
        cases z with
        | part x' => cases he; exact ⟨.part, rfl, by decide⟩
        | section_ x' =>
          obtain ⟨a, ha⟩ := hm c hc
          exact absurd ha (hn a)
        | paragraph x' => exact (hv' _ hz).elim
        | _ => exact hm.elim
    | chapter x =>
      have hp := parseChapter_reads hH hy (v.flatMap (mainLines H)) (hstart _ fun z hz hh l r he => ?_)
      · have hl : mainLines H (.chapter x) = .chapter x.num (textChars x.title) :: (chapterLines H x).tail := rfl
        rw [hl, List.cons_append] at hf ⊢
        cases fuel with
        | zero => simp at hf
        | succ fuel =>
          rw [bodyLoop]
          simp only [bodyStep]
          rw [hp]
          simp only [Res.bind_ok, hs, Option.isSome_none, Bool.false_eq_true, if_false]
          simp only [List.length_cons, List.length_append] at hf
          exact done _ _ (by omega) rfl rfl rfl rfl rfl
      · have hm := hnext z hh
        cases z with
        | part x' => cases he; exact ⟨.part, rfl, by decide⟩
        | chapter x' => cases he; exact ⟨.chapter, rfl, by decide⟩
        | paragraph x' => exact (hv' _ hz).elim
        | _ => exact hm.elim
    | section_ x =>
      have hp := parseSection_reads hH hy (v.flatMap (mainLines H)) (hstart _ fun z hz hh l r he => ?_)
      · have hl : mainLines H (.section_ x) = .section_ x.num (textChars x.title) :: (sectionLines H x).tail := rfl
        rw [hl, List.cons_append] at hf ⊢
        cases fuel with
        | zero => simp at hf
        | succ fuel =>
          rw [bodyLoop]
          simp only [bodyStep]
          rw [hp]
          simp only [Res.bind_ok]
          simp only [List.length_cons, List.length_append] at hf
          exact done _ _ (by omega) rfl rfl rfl hs rfl
      · have hm := hnext z hh
        cases z with
        | part x' => cases he; exact ⟨.part, rfl, by decide⟩
        | chapter x' => cases he; exact ⟨.chapter, rfl, by decide⟩
        | section_ x' => cases he; exact ⟨.section_, rfl, by decide⟩
        | paragraph x' => exact (hv' _ hz).elim
        | _ => exact hm.elim
    | article x =>
      have hout : StartsWith OutsideArticle (v.flatMap (mainLines H)) := by
        refine hstart _ fun z hz _ l r he => ?_
        obtain ⟨l', r', he', ho⟩ := mainLines_head hH (hv' z hz)
        rw [he] at he'
        cases he'
        exact ho
      obtain ⟨cap, t, ls, he, hp⟩ := parseArticle_reads hH hy (noArticleLine_of hout)
      simp only [mainLines] at hf ⊢
      rw [he] at hf ⊢
      have hlen : (v.flatMap (mainLines H)).length ≤ ls.length := (parseArticle_built hp).2
      have hgo : ∀ (f : Nat) (s1 : BodySt L), ls.length < f → s1.caption = cap →
          s1.main = s.main → s1.preamble = s.preamble → s1.suppl_law_num = none →
          s1.suppl = s.suppl →
          ∃ s', bodyLoop (f + 1) s1 (.article x.num t :: ls) = .ok (some s') ∧
            s'.main = s.main ++ .article x :: v ∧ s'.preamble = s.preamble ∧
            s'.suppl_law_num = none ∧ s'.suppl = s.suppl := by
        intro f s1 hf' h1 h2 h3 h4 h5
        rw [bodyLoop]
        simp only [bodyStep]
        rw [h1, hp]
        simp only [Res.bind_ok, h4, Option.isSome_none, Bool.false_eq_true, if_false]
        exact done _ _ (by omega) (by rw [h2]) h3 rfl rfl h5
      cases cap with
      | none =>
        simp only [Option.toList_none, List.map_nil, List.nil_append] at hf ⊢
        cases fuel with
        | zero => simp at hf
        | succ fuel =>
          simp only [List.length_cons] at hf
          exact hgo fuel s (by omega) hc rfl rfl hs rfl
      | some c =>
        simp only [Option.toList_some, List.map_cons, List.map_nil, List.cons_append,
          List.nil_append] at hf ⊢
        match fuel with
        | 0 => simp at hf
        | 1 => simp at hf
        | fuel + 2 =>
          simp only [List.length_cons] at hf
          rw [bodyLoop]
          simp only [bodyStep, Res.bind_ok]
          exact hgo fuel _ (by omega) rfl rfl rfl hs rfl

theorem bodyLoop_preamble (ts : List (List Char)) (fuel : Nat) (p : List (List Char))
    (rest : List TextLine) :
    bodyLoop (L := L) (ts.length + fuel) { preamble := p } (ts.map .text ++ rest) =
      bodyLoop fuel { preamble := p ++ ts } rest := by
  induction ts generalizing p with
  | nil => simp
  | cons t ts ih =>
    rw [List.length_cons, show ts.length + 1 + fuel = (ts.length + fuel) + 1 by omega, bodyLoop]
    simp only [List.map_cons, List.cons_append, bodyStep, if_true, Res.bind_ok]
    rw [ih]
    simp

theorem preamble_of (l : List (Paragraph L)) (k : Nat)
    (h : ∀ i y, l[i]? = some y → PreambleParagraph (k + i) y) :
    ∃ ts : List (List Char), l = preambleFrom k ts ∧ (l = [] ↔ ts = []) ∧
      l.flatMap (fun y => sentenceLines .text y.sentence) = ts.map TextLine.text := by
  induction l generalizing k with
  | nil => exact ⟨[], rfl, by simp, rfl⟩
  | cons x l ih =>
    obtain ⟨s, y, hy, hx⟩ := h 0 x rfl
    obtain ⟨ts, h1, -, h3⟩ := ih (k + 1) fun i y hy => by
      have := h (i + 1) y (by simpa using hy)
      rwa [show k + 1 + i = k + (i + 1) by omega]
    refine ⟨s :: ts, ?_, by simp, ?_⟩
    · rw [preambleFrom, ← h1, hx, hy]
      rfl
    · rw [List.flatMap_cons, h3, hx, hy]
      simp [sentenceLines, sentenceText]

/-! ## No heading of a supplementary provision -/

/-- No line is the heading of a supplementary provision. -/
def NoSuppl (ls : List TextLine) : Prop := ∀ n, TextLine.suppl n ∉ ls

theorem noSuppl_append {a b : List TextLine} (ha : NoSuppl a) (hb : NoSuppl b) : NoSuppl (a ++ b) :=
  fun n h => (List.mem_append.mp h).elim (ha n) (hb n)

theorem noSuppl_flatMap {α : Type} {f : α → List TextLine} (h : ∀ x, NoSuppl (f x)) (l : List α) :
    NoSuppl (l.flatMap f) := by
  intro n hn
  obtain ⟨x, -, hx⟩ := List.mem_flatMap.mp hn
  exact h x n hx

theorem sentenceLines_noSuppl {head : List Char → TextLine} (h : ∀ s n, head s ≠ .suppl n)
    (l : List (Sentence L)) : NoSuppl (sentenceLines head l) := by
  intro n hn
  cases l with
  | nil => cases hn
  | cons x r =>
    rcases List.mem_cons.mp hn with hn | hn
    · exact h _ _ hn.symm
    · obtain ⟨y, -, hy⟩ := List.mem_map.mp hn
      cases hy

theorem itemLines_noSuppl {γ : Type} {child : γ → List TextLine} (h : ∀ x, NoSuppl (child x)) (d : Nat)
    (x : ItemOf L γ) : NoSuppl (itemLines H child d x) :=
  noSuppl_append (sentenceLines_noSuppl (by simp) _) (noSuppl_flatMap h _)

theorem itemsLines_noSuppl (x : Item L) : NoSuppl (itemsLines H x) := by
  have h10 := itemLines_noSuppl (L := L) (H := H) (child := Empty.elim) (fun x => x.elim) 11
  have h9 := itemLines_noSuppl (L := L) (H := H) h10 10
  have h8 := itemLines_noSuppl (L := L) (H := H) h9 9
  have h7 := itemLines_noSuppl (L := L) (H := H) h8 8
  have h6 := itemLines_noSuppl (L := L) (H := H) h7 7
  have h5 := itemLines_noSuppl (L := L) (H := H) h6 6
  have h4 := itemLines_noSuppl (L := L) (H := H) h5 5
  have h3 := itemLines_noSuppl (L := L) (H := H) h4 4
  have h2 := itemLines_noSuppl (L := L) (H := H) h3 3
  have h1 := itemLines_noSuppl (L := L) (H := H) h2 2
  exact itemLines_noSuppl (L := L) (H := H) h1 1 x

theorem paragraphLines_noSuppl {head : List Char → TextLine} (h : ∀ s n, head s ≠ .suppl n)
    (x : Paragraph L) : NoSuppl (paragraphLines H head x) :=
  noSuppl_append (sentenceLines_noSuppl h _) (noSuppl_flatMap itemsLines_noSuppl _)

theorem articleLines_noSuppl (x : Article L) : NoSuppl (articleLines H x) := by
  refine noSuppl_append (fun n hn => ?_) ?_
  · obtain ⟨y, -, hy⟩ := List.mem_map.mp hn
    cases hy
  · split
    · exact fun n hn => by cases hn
    · exact noSuppl_append (paragraphLines_noSuppl (by simp) _)
        (noSuppl_flatMap (fun q => paragraphLines_noSuppl (by simp) q) _)

theorem unitLines_noSuppl {γ : Type} {head : ArticleNumber → List Char → TextLine}
    (h : ∀ a s n, head a s ≠ .suppl n) {child : γ → List TextLine} (hc : ∀ x, NoSuppl (child x))
    (x : HierOf L γ) : NoSuppl (unitLines head child x) := by
  intro n hn
  rcases List.mem_cons.mp hn with hn | hn
  · exact h _ _ _ hn.symm
  · exact noSuppl_flatMap hc _ n hn

theorem bodyLines_noSuppl (x : LawBody L) : NoSuppl (bodyLines H x) := by
  have hd : ∀ x : Division L, NoSuppl (divisionLines H x) :=
    unitLines_noSuppl (by simp) articleLines_noSuppl
  have hss : ∀ x : Subsection L, NoSuppl (subsectionLines H x) :=
    unitLines_noSuppl (by simp) fun c => by
      cases c with
      | article a => exact articleLines_noSuppl a
      | division d => exact hd d
  have hs : ∀ x : Section L, NoSuppl (sectionLines H x) :=
    unitLines_noSuppl (by simp) fun c => by
      cases c with
      | article a => exact articleLines_noSuppl a
      | subsection d => exact hss d
      | division d => exact hd d
  have hc : ∀ x : Chapter L, NoSuppl (chapterLines H x) :=
    unitLines_noSuppl (by simp) fun c => by
      cases c with
      | article a => exact articleLines_noSuppl a
      | section_ d => exact hs d
  have hp : ∀ x : Part L, NoSuppl (partLines H x) :=
    unitLines_noSuppl (by simp) fun c => by
      cases c with
      | article a => exact articleLines_noSuppl a
      | chapter d => exact hc d
  refine noSuppl_append (noSuppl_flatMap (fun p => noSuppl_flatMap
    (fun y => sentenceLines_noSuppl (by simp) _) _) _) (noSuppl_flatMap (fun c => ?_) _)
  cases c with
  | part x => exact hp x
  | chapter x => exact hc x
  | section_ x => exact hs x
  | article x => exact articleLines_noSuppl x
  | paragraph x => exact paragraphLines_noSuppl (by simp) x

/-- A body as described is read from its lines. -/
theorem bodyLines_read (hH : Headings H pat) {title : List Char} {b : LawBody L}
    (h : BodyBuilt title b) (fuel : Nat) (hf : (bodyLines H b).length < fuel) :
    (bodyLoop fuel {} (bodyLines H b)).bind (fun o => .ok (o.map (finishBody title))) =
      .ok (some b) := by
  have key : ∀ ts : List (List Char), (b.preamble = if ts.isEmpty then none else some ⟨preambleFrom 0 ts⟩) →
      bodyLines H b = ts.map .text ++ b.main_provision.children.flatMap (mainLines H) →
      (bodyLoop fuel {} (bodyLines H b)).bind (fun o => .ok (o.map (finishBody title))) =
        .ok (some b) := by
    intro ts hp hl
    rw [hl] at hf ⊢
    simp only [List.length_append, List.length_map] at hf
    obtain ⟨k, rfl⟩ : ∃ k, fuel = ts.length + k := ⟨fuel - ts.length, by omega⟩
    have := bodyLoop_preamble (L := L) ts k [] (b.main_provision.children.flatMap (mainLines H))
    rw [this, List.nil_append]
    obtain ⟨s', h1, h2, h3, h4, h5⟩ := bodyLoop_reads hH _ h.children h.order k (by omega)
      { preamble := ts } rfl rfl
    rw [h1, Res.bind_ok, Option.map_some]
    congr 2
    obtain ⟨g1, g2, g3, g4, -, g5, -, -, g6, g7, g8, g9, g10, g11, g12⟩ := h
    obtain ⟨a1, a2, a3, a4, a5, ⟨a6, a6'⟩, a7, a8, a9, a10, a11, a12, a13⟩ := b
    simp only at g1 g2 g3 g4 g5 g6 g7 g8 g9 g10 g11 g12 hp h2
    subst g1 g2 g3 g4 g5 g6 g7 g8 g9 g10 g11 g12 hp
    simp only [finishBody, finishSuppl, h2, h3, h4, h5]
    simp [plainText_eq]
  cases hp : b.preamble with
  | none =>
    refine key [] (by rw [hp]; rfl) ?_
    simp [bodyLines, hp]
  | some p =>
    obtain ⟨hne, hps⟩ := h.preamble p hp
    obtain ⟨ts, h1, h2, h3⟩ := preamble_of p.children 0 fun i y hy => by
      rw [Nat.zero_add]; exact hps i y hy
    refine key ts ?_ ?_
    · have : ts.isEmpty = false := by
        cases ts with
        | nil => exact absurd (h2.mpr rfl) hne
        | cons => rfl
      rw [hp, this]
      obtain ⟨c⟩ := p
      simp only at h1
      subst h1
      simp
    · simp [bodyLines, hp, h3]

end JLaw
