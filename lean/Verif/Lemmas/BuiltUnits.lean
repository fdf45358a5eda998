import Verif.Lemmas.Built
import Verif.Lemmas.FromTextKeep

/-!
# Laws that can be built from text: units and the body
-/

namespace JLaw

open Spec

variable {L : Lvl}

theorem first_nil {α : Type} (k : α → Prop) : First k [] := by
  intro a x y b h
  simp at h

theorem first_cons {α : Type} (k : α → Prop) (x : α) (l : List α) :
    First k (x :: l) ↔ (∀ y, l.head? = some y → k y → k x) ∧ First k l := by
  constructor
  · intro h
    refine ⟨fun y hy => ?_, fun a y z b he => h (x :: a) y z b (by rw [he]; rfl)⟩
    cases l with
    | nil => cases hy
    | cons z l => cases hy; exact h [] x _ l rfl
  · rintro ⟨h1, h2⟩ a y z b he
    cases a with
    | nil =>
      simp only [List.nil_append, List.cons.injEq] at he
      obtain ⟨rfl, rfl⟩ := he
      exact h1 z rfl
    | cons w a =>
      simp only [List.cons_append, List.cons.injEq] at he
      exact h2 a y z b he.2

/-- Nothing of the kind is in the list when its head is not. -/
theorem first_none {α : Type} {k : α → Prop} {l : List α} (h : First k l)
    (hh : ∀ y, l.head? = some y → ¬ k y) : ∀ y ∈ l, ¬ k y := by
  induction l with
  | nil => simp
  | cons x l ih =>
    obtain ⟨h1, h2⟩ := (first_cons k x l).mp h
    have hx := hh x rfl
    intro y hy
    rcases List.mem_cons.mp hy with rfl | hy
    · exact hx
    · exact ih h2 (fun z hz hk => hx (h1 z hz hk)) y hy

/-- The next line is neither a caption nor an article. -/
def NoArticle (ls : List TextLine) : Prop :=
  ∀ l r, ls = l :: r → (∀ s, l ≠ .caption s) ∧ ∀ n s, l ≠ .article n s

theorem unitLoop_built {γ : Type} {C isArticle : γ → Prop} {ofArticle : Article L → γ}
    {sub : TextLine → Option (List TextLine → Res (γ × List TextLine))} {R : List TextLine → Prop}
    (hC : ∀ a, ArticleBuilt a → C (ofArticle a) ∧ isArticle (ofArticle a))
    (hsub : ∀ l f r x rest, sub l = some f → f r = .ok (x, rest) →
      C x ∧ ¬ isArticle x ∧ rest.length ≤ r.length ∧ NoArticle rest ∧ R rest)
    (fuel : Nat) (cap : Option (List Char)) (ls : List TextLine) (hf : ls.length ≤ fuel)
    (v : List γ) (rest : List TextLine) (h : unitLoop ofArticle sub fuel cap ls = .ok (v, rest)) :
    (∀ c ∈ v, C c) ∧ First isArticle v ∧ rest.length ≤ ls.length ∧ NoArticle rest ∧
    (∀ l r, rest = l :: r → sub l = none) ∧ ((∃ c ∈ v, ¬ isArticle c) → R rest) ∧
    (NoArticle ls → (∀ y, v.head? = some y → ¬ isArticle y) ∧ (v = [] → rest = ls)) := by
  induction fuel generalizing cap ls v rest with
  | zero =>
    have : ls = [] := by cases ls with
      | nil => rfl
      | cons => simp at hf
    subst this
    cases h
    exact ⟨by simp, first_nil _, Nat.le_refl _, by simp [NoArticle], by simp, by simp, by simp⟩
  | succ fuel ih =>
    cases ls with
    | nil =>
      rw [unitLoop] at h
      · cases h
        exact ⟨by simp, first_nil _, Nat.le_refl _, by simp [NoArticle], by simp, by simp, by simp⟩
      · simp
    | cons l r =>
      simp only [List.length_cons] at hf
      have other : (∀ s, l ≠ .caption s) → (∀ n s, l ≠ .article n s) →
          (match sub l with
            | some f => (f r).bind fun x =>
              (unitLoop ofArticle sub fuel none x.2).bind fun v => .ok (x.1 :: v.1, v.2)
            | none => .ok ([], l :: r)) = .ok (v, rest) →
          (∀ c ∈ v, C c) ∧ First isArticle v ∧ rest.length ≤ (l :: r).length ∧ NoArticle rest ∧
          (∀ l r, rest = l :: r → sub l = none) ∧ ((∃ c ∈ v, ¬ isArticle c) → R rest) ∧
          (NoArticle (l :: r) → (∀ y, v.head? = some y → ¬ isArticle y) ∧ (v = [] → rest = l :: r)) := by
        intro h1 h2 h
        split at h
        · rename_i f hs
          obtain ⟨⟨x, rest1⟩, hx, h⟩ := Res.bind_eq_ok.mp h
          obtain ⟨⟨v', rest'⟩, hv, h⟩ := Res.bind_eq_ok.mp h
          cases h
          obtain ⟨g1, g2, g3, g4, g5⟩ := hsub l f r x rest1 hs hx
          obtain ⟨i1, i2, i3, i4, i5, i6, i7⟩ := ih none rest1 (by omega) v' rest' hv
          obtain ⟨i8, i9⟩ := i7 g4
          refine ⟨?_, ?_, by simp only [List.length_cons] at i3 ⊢; omega, i4, i5, ?_, ?_⟩
          · intro c hc
            rcases List.mem_cons.mp hc with rfl | hc
            · exact g1
            · exact i1 c hc
          · rw [first_cons]
            exact ⟨fun y hy hk => absurd hk (i8 y hy), i2⟩
          · intro _
            cases v' with
            | nil =>
              have := i9 rfl
              simp only at this ⊢
              rw [this]
              exact g5
            | cons y v' => exact i6 ⟨y, by simp, i8 y rfl⟩
          · intro _
            exact ⟨fun y hy => by cases hy; exact g2, by simp⟩
        · rename_i hs
          cases h
          refine ⟨by simp, first_nil _, Nat.le_refl _, ?_, ?_, by simp, by simp⟩
          · intro l' r' he
            cases he
            exact ⟨h1, h2⟩
          · intro l' r' he
            cases he
            exact hs
      cases l with
      | caption s =>
        rw [unitLoop] at h
        obtain ⟨i1, i2, i3, i4, i5, i6, i7⟩ := ih (some s) r (by omega) v rest h
        refine ⟨i1, i2, by simp only [List.length_cons]; omega, i4, i5, i6, ?_⟩
        intro he
        exact absurd rfl ((he _ _ rfl).1 s)
      | article n s =>
        rw [unitLoop] at h
        obtain ⟨⟨a, rest1⟩, ha, h⟩ := Res.bind_eq_ok.mp h
        obtain ⟨⟨v', rest'⟩, hv, h⟩ := Res.bind_eq_ok.mp h
        cases h
        obtain ⟨a1, a2⟩ := parseArticle_built ha
        obtain ⟨i1, i2, i3, i4, i5, i6, i7⟩ := ih none rest1 (by omega) v' rest' hv
        obtain ⟨c1, c2⟩ := hC a a1
        refine ⟨?_, ?_, by simp only [List.length_cons] at i3 ⊢; omega, i4, i5, ?_, ?_⟩
        · intro c hc
          rcases List.mem_cons.mp hc with rfl | hc
          · exact c1
          · exact i1 c hc
        · rw [first_cons]
          exact ⟨fun _ _ _ => c2, i2⟩
        · rintro ⟨c, hc, hn⟩
          rcases List.mem_cons.mp hc with rfl | hc
          · exact absurd c2 hn
          · exact i6 ⟨c, hc, hn⟩
        · intro he
          exact absurd rfl ((he _ _ rfl).2 n s)
      | _ =>
        rw [unitLoop] at h
        · exact other (by simp) (by simp) h
        all_goals simp

/-- A reader of units gives units as described. -/
def UnitGives {γ : Type} (C : HierOf L γ → Prop) (isArticle : γ → Prop) (R R' : List TextLine → Prop)
    (f : ArticleNumber → List Char → List TextLine → Res (HierOf L γ × List TextLine)) : Prop :=
  ∀ n s ls x rest, f n s ls = .ok (x, rest) →
    C x ∧ rest.length ≤ ls.length ∧ NoArticle rest ∧ R rest ∧ ((∃ c ∈ x.children, ¬ isArticle c) → R' rest)

theorem parseUnit_built {γ : Type} {C isArticle : γ → Prop} {ofArticle : Article L → γ}
    {sub : TextLine → Option (List TextLine → Res (γ × List TextLine))} {R' : List TextLine → Prop}
    (hC : ∀ a, ArticleBuilt a → C (ofArticle a) ∧ isArticle (ofArticle a))
    (hsub : ∀ l f r x rest, sub l = some f → f r = .ok (x, rest) →
      C x ∧ ¬ isArticle x ∧ rest.length ≤ r.length ∧ NoArticle rest ∧ R' rest) :
    UnitGives (UnitBuilt C isArticle) isArticle (fun rest => ∀ l r, rest = l :: r → sub l = none) R'
      (parseUnit ofArticle sub) := by
  intro n s ls x rest h
  obtain ⟨⟨v, r⟩, hv, h⟩ := Res.bind_eq_ok.mp h
  cases h
  obtain ⟨h1, h2, h3, h4, h5, h6, -⟩ :=
    unitLoop_built hC hsub _ _ _ (Nat.le_refl _) v r hv
  exact ⟨⟨⟨s, rfl, isDeleted_iff s⟩, rfl, h1, h2⟩, h3, h4, h5, h6⟩

theorem parseDivision_built :
    UnitGives (L := L) DivisionBuilt (fun _ => True) (fun _ => True) (fun _ => True) parseDivision := by
  have := parseUnit_built (L := L) (C := ArticleBuilt) (isArticle := fun _ => True)
    (ofArticle := id) (sub := fun _ => none) (R' := fun _ => True)
    (fun a h => ⟨h, trivial⟩) (fun l f r x rest h => by cases h)
  intro n s ls x rest h
  obtain ⟨h1, h2, h3, -, -⟩ := this n s ls x rest h
  exact ⟨h1, h2, h3, trivial, fun _ => trivial⟩

theorem parseSubsection_built : UnitGives (L := L) SubsectionBuilt
    (fun | .article _ => True | _ => False) (fun _ => True) (fun _ => True) parseSubsection := by
  have := parseUnit_built (L := L)
    (C := fun | .article a => ArticleBuilt a | .division d => DivisionBuilt d)
    (isArticle := fun | .article _ => True | _ => False)
    (ofArticle := .article) (sub := subsectionArm) (R' := fun _ => True)
    (fun a h => ⟨h, trivial⟩) (fun l f r x rest h hx => by
      cases l <;> cases h
      obtain ⟨⟨d, rest1⟩, hd, hx⟩ := Res.bind_eq_ok.mp hx
      cases hx
      obtain ⟨h1, h2, h3, -, -⟩ := parseDivision_built _ _ _ _ _ hd
      exact ⟨h1, not_false, h2, h3, trivial⟩)
  intro n s ls x rest h
  obtain ⟨h1, h2, h3, -, -⟩ := this n s ls x rest h
  exact ⟨h1, h2, h3, trivial, fun _ => trivial⟩

theorem parseSection_built : UnitGives (L := L) SectionBuilt
    (fun | .article _ => True | _ => False) (fun _ => True) (fun _ => True) parseSection := by
  have := parseUnit_built (L := L)
    (C := fun | .article a => ArticleBuilt a | .subsection d => SubsectionBuilt d | _ => False)
    (isArticle := fun | .article _ => True | _ => False)
    (ofArticle := .article) (sub := sectionArm) (R' := fun _ => True)
    (fun a h => ⟨h, trivial⟩) (fun l f r x rest h hx => by
      cases l <;> cases h
      obtain ⟨⟨d, rest1⟩, hd, hx⟩ := Res.bind_eq_ok.mp hx
      cases hx
      obtain ⟨h1, h2, h3, -, -⟩ := parseSubsection_built _ _ _ _ _ hd
      exact ⟨h1, not_false, h2, h3, trivial⟩)
  intro n s ls x rest h
  obtain ⟨h1, h2, h3, -, -⟩ := this n s ls x rest h
  exact ⟨h1, h2, h3, trivial, fun _ => trivial⟩

/-- The next line is not the heading of a section. -/
def NoSection (ls : List TextLine) : Prop := ∀ n s r, ls ≠ .section_ n s :: r

theorem parseChapter_built : UnitGives (L := L) ChapterBuilt
    (fun | .article _ => True | _ => False) NoSection (fun _ => True) parseChapter := by
  have := parseUnit_built (L := L)
    (C := fun | .article a => ArticleBuilt a | .section_ d => SectionBuilt d)
    (isArticle := fun | .article _ => True | _ => False)
    (ofArticle := .article) (sub := chapterArm) (R' := fun _ => True)
    (fun a h => ⟨h, trivial⟩) (fun l f r x rest h hx => by
      cases l <;> cases h
      obtain ⟨⟨d, rest1⟩, hd, hx⟩ := Res.bind_eq_ok.mp hx
      cases hx
      obtain ⟨h1, h2, h3, -, -⟩ := parseSection_built _ _ _ _ _ hd
      exact ⟨h1, not_false, h2, h3, trivial⟩)
  intro n s ls x rest h
  obtain ⟨h1, h2, h3, h4, -⟩ := this n s ls x rest h
  refine ⟨h1, h2, h3, ?_, fun _ => trivial⟩
  rintro n s r rfl
  cases h4 _ _ rfl

/-- The next line is not the heading of a chapter. -/
def NoChapter (ls : List TextLine) : Prop := ∀ n s r, ls ≠ .chapter n s :: r

theorem parsePart_built : UnitGives (L := L) PartBuilt
    (fun | .article _ => True | _ => False) NoChapter NoSection parsePart := by
  have := parseUnit_built (L := L)
    (C := fun | .article a => ArticleBuilt a | .chapter d => ChapterBuilt d)
    (isArticle := fun | .article _ => True | _ => False)
    (ofArticle := .article) (sub := partArm) (R' := NoSection)
    (fun a h => ⟨h, trivial⟩) (fun l f r x rest h hx => by
      cases l <;> cases h
      obtain ⟨⟨d, rest1⟩, hd, hx⟩ := Res.bind_eq_ok.mp hx
      cases hx
      obtain ⟨h1, h2, h3, h4, -⟩ := parseChapter_built _ _ _ _ _ hd
      exact ⟨h1, not_false, h2, h3, h4⟩)
  intro n s ls x rest h
  obtain ⟨h1, h2, h3, h4, h5⟩ := this n s ls x rest h
  refine ⟨h1, h2, h3, ?_, h5⟩
  rintro n s r rfl
  cases h4 _ _ rfl

/-! ## The body -/

/-- What the lines after a child of the main provision do not start with. -/
def After (ls : List TextLine) : MainProvisionContents L → Prop
  | .part x => NoArticle ls ∧ NoChapter ls ∧ ((∃ c ∈ x.children, ∀ a, c ≠ .article a) → NoSection ls)
  | .chapter _ => NoArticle ls ∧ NoSection ls
  | .section_ _ => NoArticle ls
  | .article _ => True
  | .paragraph _ => False

/-- The state of the loop of `parse_body`. -/
structure BodyInv (s : BodySt L) (ls : List TextLine) : Prop where
  children : ∀ y ∈ s.main, MainBuilt y
  order : ∀ a y z b, s.main = a ++ y :: z :: b → MayFollow y z
  after : ∀ y, s.main.getLast? = some y → After ls y
  preamble : s.is_preamble = true → s.main = []
  suppl_law_num : s.suppl_law_num = none
  suppl : s.suppl = []

theorem order_snoc {l : List (MainProvisionContents L)} {z : MainProvisionContents L}
    (h : ∀ a y z b, l = a ++ y :: z :: b → MayFollow y z)
    (hz : ∀ y, l.getLast? = some y → MayFollow y z) :
    ∀ a y z' b, l ++ [z] = a ++ y :: z' :: b → MayFollow y z' := by
  intro a y z' b he
  rcases List.eq_nil_or_concat b with rfl | ⟨b, w, rfl⟩
  · have : l ++ [z] = (a ++ [y]) ++ [z'] := by simpa using he
    obtain ⟨rfl, hw⟩ := List.append_inj' this rfl
    cases hw
    exact hz y (by simp)
  · have : l ++ [z] = (a ++ y :: z' :: b) ++ [w] := by simpa using he
    obtain ⟨rfl, -⟩ := List.append_inj' this rfl
    exact h a y z' b rfl

theorem BodyInv.push {s s' : BodySt L} {ls ls' : List TextLine} {z : MainProvisionContents L}
    (h : BodyInv s ls) (hm : s'.main = s.main ++ [z]) (hp : s'.is_preamble = false)
    (hs : s'.suppl_law_num = s.suppl_law_num) (hs' : s'.suppl = s.suppl) (hz : MainBuilt z)
    (hf : ∀ y, After ls y → MayFollow y z) (ha : After ls' z) : BodyInv s' ls' where
  children := by
    rw [hm]
    intro y hy
    rcases List.mem_append.mp hy with hy | hy
    · exact h.children y hy
    · rw [List.mem_singleton.mp hy]; exact hz
  order := by
    rw [hm]
    exact order_snoc h.order fun y hy => hf y (h.after y hy)
  after := by
    rw [hm]
    intro y hy
    simp only [List.getLast?_append, List.getLast?_singleton, Option.some_or, Option.some.injEq] at hy
    exact hy ▸ ha
  preamble := by rw [hp]; intro h; cases h
  suppl_law_num := hs.trans h.suppl_law_num
  suppl := hs'.trans h.suppl

theorem bodyLoop_built (fuel : Nat) {s : BodySt L} {ls : List TextLine} (h : BodyInv s ls)
    {s' : BodySt L} (hl : bodyLoop fuel s ls = .ok (some s')) : ∃ ls', BodyInv s' ls' := by
  induction fuel generalizing s ls with
  | zero => cases hl
  | succ fuel ih =>
    by_cases hsup : ∃ n r, ls = .suppl n :: r
    · obtain ⟨n, r, rfl⟩ := hsup
      rw [bodyLoop_suppl] at hl
      cases hl
    rw [bodyLoop] at hl
    obtain ⟨o, ho, hl⟩ := Res.bind_eq_ok.mp hl
    cases o with
    | none => cases hl; exact ⟨ls, h⟩
    | some y =>
      obtain ⟨s1, ls1⟩ := y
      refine ih ?_ hl
      cases ls with
      | nil => cases ho
      | cons l r =>
        cases l with
        | part n t =>
          obtain ⟨⟨x, rest⟩, hx, ho⟩ := Res.bind_eq_ok.mp ho
          cases ho
          obtain ⟨h1, -, h3, h4, h5⟩ := parsePart_built _ _ _ _ _ hx
          refine h.push (z := .part x) rfl rfl rfl rfl h1 ?_ ⟨h3, h4, fun ⟨c, hc, hn⟩ => h5 ⟨c, hc, ?_⟩⟩
          · intro y hy
            cases y <;> trivial
          · cases c with
            | article a => exact absurd rfl (hn a)
            | chapter d => exact not_false
        | chapter n t =>
          obtain ⟨⟨x, rest⟩, hx, ho⟩ := Res.bind_eq_ok.mp ho
          rw [h.suppl_law_num] at ho
          cases ho
          obtain ⟨h1, -, h3, h4, -⟩ := parseChapter_built _ _ _ _ _ hx
          refine h.push (z := .chapter x) rfl rfl h.suppl_law_num.symm rfl h1 ?_ ⟨h3, h4⟩
          intro y hy
          cases y with
          | part x => exact absurd rfl (hy.2.1 n t r)
          | _ => trivial
        | section_ n t =>
          obtain ⟨⟨x, rest⟩, hx, ho⟩ := Res.bind_eq_ok.mp ho
          cases ho
          obtain ⟨h1, -, h3, -, -⟩ := parseSection_built _ _ _ _ _ hx
          refine h.push (z := .section_ x) rfl rfl rfl rfl h1 ?_ h3
          intro y hy
          cases y with
          | part x =>
            intro c hc
            cases c with
            | article a => exact ⟨a, rfl⟩
            | chapter d => exact absurd rfl (hy.2.2 ⟨_, hc, by simp⟩ n t r)
          | chapter x => exact absurd rfl (hy.2 n t r)
          | _ => trivial
        | caption c =>
          cases ho
          refine ⟨h.children, h.order, ?_, by simp, h.suppl_law_num, h.suppl⟩
          intro y hy
          have := h.after y hy
          cases y with
          | part x => exact absurd rfl ((this.1 _ _ rfl).1 c)
          | chapter x => exact absurd rfl ((this.1 _ _ rfl).1 c)
          | section_ x => exact absurd rfl ((this _ _ rfl).1 c)
          | article x => trivial
          | paragraph x => exact this.elim
        | article n t =>
          obtain ⟨⟨x, rest⟩, hx, ho⟩ := Res.bind_eq_ok.mp ho
          rw [h.suppl_law_num] at ho
          cases ho
          obtain ⟨h1, -⟩ := parseArticle_built hx
          refine h.push (z := .article x) rfl rfl h.suppl_law_num.symm rfl h1 ?_ trivial
          intro y hy
          cases y with
          | part x => exact absurd rfl ((hy.1 _ _ rfl).2 n t)
          | chapter x => exact absurd rfl ((hy.1 _ _ rfl).2 n t)
          | section_ x => exact absurd rfl ((hy _ _ rfl).2 n t)
          | article x => trivial
          | paragraph x => exact hy.elim
        | text t =>
          simp only [bodyStep] at ho
          split at ho
          · rename_i hp
            cases ho
            have hm := h.preamble hp
            refine ⟨h.children, h.order, ?_, fun _ => hm, h.suppl_law_num, h.suppl⟩
            intro y hy
            rw [hm] at hy
            cases hy
          · cases ho
            exact h
        | suppl n => exact absurd ⟨n, r, rfl⟩ hsup
        | _ => cases ho

theorem preambleFrom_get (l : List (List Char)) (k i : Nat) (x : Paragraph L)
    (h : (preambleFrom k l)[i]? = some x) : PreambleParagraph (k + i) x := by
  induction l generalizing k i with
  | nil => simp [preambleFrom] at h
  | cons a l ih =>
    cases i with
    | zero =>
      simp only [preambleFrom, List.getElem?_cons_zero, Option.some.injEq] at h
      subst h
      exact ⟨a, _, rfl, rfl⟩
    | succ i =>
      simp only [preambleFrom, List.getElem?_cons_succ] at h
      have := ih (k + 1) i h
      rwa [Nat.add_assoc, Nat.add_comm 1] at this

theorem finishBody_built (title : List Char) {s : BodySt L} {ls : List TextLine} (h : BodyInv s ls) :
    BodyBuilt title (finishBody title s) where
  law_title := rfl
  enact_statement := rfl
  subject := rfl
  toc := rfl
  preamble := by
    intro p hp
    simp only [finishBody] at hp
    split at hp
    · cases hp
    · rename_i hne
      cases hp
      refine ⟨?_, fun i y hy => ?_⟩
      · cases hs : s.preamble with
        | nil => rw [hs] at hne; exact absurd rfl hne
        | cons a b => simp [preambleFrom]
      · have := preambleFrom_get _ 0 i y hy
        rwa [Nat.zero_add] at this
  extract := rfl
  children := h.children
  order := h.order
  suppl_provision := by simp [finishBody, finishSuppl, h.suppl_law_num, h.suppl]
  appdx_table := rfl
  appdx_note := rfl
  appdx_style := rfl
  appdx := rfl
  appdx_fig := rfl
  appdx_format := rfl

theorem bodyInv_start (ls : List TextLine) : BodyInv (L := L) {} ls where
  children := by simp
  order := by simp
  after := by simp
  preamble := fun _ => rfl
  suppl_law_num := rfl
  suppl := rfl

end JLaw
