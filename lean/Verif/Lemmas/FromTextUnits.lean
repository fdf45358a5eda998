import Verif.Lemmas.FromText

/-!
# Units with a heading in a law built from text
-/

namespace JLaw

open Spec

variable {L : Lvl}

/-- The lines stop before something that does not belong into an open unit of kind `k`. -/
def UnitEnds (k : Kind) (q : State) (ls : List TextLine) : Prop :=
  ∀ l r, ls = l :: r → (∀ c, l ≠ .caption c) ∧ (∀ n s, l ≠ .article n s) ∧
    (¬ Outside (l :: r) → ∀ items n, q.place ≠ .article items n) ∧
    ∀ k', kindOf l = some k' → k'.rank ≤ k.rank ∨ ∀ p, k'.parent = some p → p ∉ q.path

/-- The state lies in a unit of kind `k` whose outer units are `P`. -/
def InUnit (P : List Kind) (k : Kind) (q : State) : Prop :=
  (∃ y, q.path = P ++ [k] ++ y ∧ ∀ z ∈ y, k.rank < z.rank) ∧ ∀ n, q.place ≠ .preamble n

/-- A reader of units of kind `k` does what the description says. -/
def UnitSpec {β : Type} (pieces : List Kind → β → List (Piece L)) (k : Kind)
    (f : ArticleNumber → List Char → List TextLine → Res (β × List TextLine)) : Prop :=
  ∀ P n s r, (∀ x ∈ P, x.rank < k.rank) →
    (f n s r).Post (fun x => ∃ ps q', pieces (P ++ [k]) x.1 = headed (P ++ [k]) n s :: ps ∧
        Leads ⟨P ++ [k], .heading⟩ r ps q' x.2 ∧ InUnit P k q' ∧ x.2.length ≤ r.length ∧
        UnitEnds k q' x.2)
      (TooDeep (meaning (L := L) ⟨P ++ [k], .heading⟩ r))

theorem parent_rank {k k' : Kind} (h : k'.parent = some k) : k'.rank = k.rank + 1 := by
  cases k' <;> simp [Kind.parent] at h <;> subst h <;> rfl

theorem parent_unique {k k' k'' : Kind} (h : k'.parent = some k) (h' : k''.parent = some k) :
    k' = k'' := by
  cases k' <;> cases k'' <;> simp [Kind.parent] at h h' <;> subst h <;> simp at h' <;> rfl

theorem place_child {P y : List Kind} {k k' : Kind} (hP : ∀ x ∈ P, x.rank < k.rank)
    (hy : ∀ z ∈ y, k.rank < z.rank) (h : k'.parent = some k) :
    place (P ++ [k] ++ y) k' = P ++ [k] ++ [k'] := by
  unfold place
  rw [h]
  simp only
  rw [if_pos (by simp)]
  congr 1
  rw [List.append_assoc, List.takeWhile_append_of_pos
    (by intro x hx; exact decide_eq_true (Nat.le_of_lt (hP x hx)))]
  congr 1
  rw [List.singleton_append, List.takeWhile_cons_of_pos (by simp)]
  congr 1
  cases y with
  | nil => rfl
  | cons z y =>
    rw [List.takeWhile_cons_of_neg]
    have := hy z (by simp)
    simp; omega

/-- The piece of a caption that waits for its article, in front of the given lines. -/
def pending (c : Option (List Char)) (ls : List TextLine) : List (Piece L) :=
  if beforeArticle ls then captionPiece c else []

/-- What the arm for the headings one level lower does. -/
structure ArmSpec {γ : Type} (pieces : List Kind → γ → List (Piece L)) (k : Kind)
    (sub : TextLine → Option (List TextLine → Res (γ × List TextLine))) : Prop where
  /-- it applies to headings of the unit one level lower only -/
  only : ∀ l f, sub l = some f → ∃ k', kindOf l = some k' ∧ k'.parent = some k
  /-- it applies to all of them, and reads the unit -/
  arm : ∀ l k', kindOf l = some k' → k'.parent = some k → ∃ f n s, sub l = some f ∧
    (∀ q : State, k ∈ q.path → next q l = some ⟨place q.path k', .heading⟩) ∧
    (∀ q r, contributes (L := L) q r l = [headed q.path n s]) ∧
    ∀ P r, (∀ x ∈ P, x.rank < k.rank) →
      (f r).Post (fun x => ∃ ps q',
          pieces (P ++ [k]) x.1 = headed (P ++ [k] ++ [k']) n s :: ps ∧
          Leads ⟨P ++ [k] ++ [k'], .heading⟩ r ps q' x.2 ∧ InUnit (P ++ [k]) k' q' ∧
          x.2.length ≤ r.length ∧ UnitEnds k' q' x.2)
        (TooDeep (meaning (L := L) ⟨P ++ [k] ++ [k'], .heading⟩ r))

theorem unitLoop_spec {γ : Type} {pieces : List Kind → γ → List (Piece L)} {k : Kind}
    {ofArticle : Article L → γ}
    {sub : TextLine → Option (List TextLine → Res (γ × List TextLine))}
    (ha : ∀ path a, pieces path (ofArticle a) = Spec.article path a) (hs : ArmSpec pieces k sub)
    (P : List Kind) (hP : ∀ x ∈ P, x.rank < k.rank) (fuel : Nat) (c : Option (List Char)) (q : State)
    (ls : List TextLine) (hf : ls.length ≤ fuel) (hq : InUnit P k q)
    (h1 : q.path = P ++ [k] ∨ ∃ k', k'.parent = some k ∧ UnitEnds k' q ls)
    (h2 : ¬ Outside ls → ∀ items n, q.place ≠ .article items n) :
    (unitLoop ofArticle sub fuel c ls).Post (fun x => ∃ ps q',
        x.1.flatMap (pieces (P ++ [k])) = pending c ls ++ ps ∧ Leads q ls ps q' x.2 ∧
        InUnit P k q' ∧ x.2.length ≤ ls.length ∧ UnitEnds k q' x.2)
      (TooDeep (meaning (L := L) q ls)) := by
  induction fuel generalizing c q ls with
  | zero =>
    have : ls = [] := by cases ls with
      | nil => rfl
      | cons => simp at hf
    subst this
    exact ⟨[], q, rfl, Leads.refl _ _, hq, Nat.le_refl _, by intro l r h; cases h⟩
  | succ fuel ih =>
    cases ls with
    | nil =>
      rw [unitLoop.eq_def]
      exact ⟨[], q, rfl, Leads.refl _ _, hq, Nat.le_refl _, by intro l r h; cases h⟩
    | cons l r =>
      simp only [List.length_cons] at hf
      -- a caption or an article is read at this level only
      have atTop : (∃ s, l = .caption s) ∨ (∃ n s, l = .article n s) → q.path = P ++ [k] := by
        intro h
        rcases h1 with h1 | ⟨k', -, h1⟩
        · exact h1
        · exfalso
          have := h1 l r rfl
          rcases h with ⟨s, rfl⟩ | ⟨n, s, rfl⟩
          · exact this.1 s rfl
          · exact this.2.1 n s rfl
      by_cases hcap : ∃ s, l = .caption s
      · obtain ⟨s, rfl⟩ := hcap
        have hpath := atTop (Or.inl ⟨s, rfl⟩)
        rw [unitLoop]
        have hstep := Leads.step (L := L) (q := q) (l := .caption s) (r := r) rfl
        have hw : InUnit P k ⟨q.path, .heading⟩ := ⟨hq.1, by simp⟩
        have := ih (some s) ⟨q.path, .heading⟩ r (by omega) hw (Or.inl hpath) (by simp)
        refine this.mono ?_ (fun h => Leads.tooDeep hstep h)
        rintro x ⟨ps, q', hx, hl, hw', hle, hc⟩
        refine ⟨_, q', ?_, hstep.trans hl, hw', by simp only [List.length_cons]; omega, hc⟩
        rw [hx]
        have e1 : pending (L := L) c (.caption s :: r) = [] := rfl
        rw [e1, List.nil_append]
        rfl
      · by_cases hart : ∃ n s, l = .article n s
        · obtain ⟨n, s, rfl⟩ := hart
          have hpath := atTop (Or.inr ⟨n, s, rfl⟩)
          rw [unitLoop]
          have := parseArticle_spec (L := L) q.path q.place c n s r
          refine Res.Post.bind this ?_
          rintro ⟨a, ls'⟩ ⟨items', k', ps, hform, hl, hle, hout⟩
          simp only at hform hl hle hout ⊢
          have hw : InUnit P k ⟨q.path, .article items' k'⟩ := ⟨hq.1, by simp⟩
          have := ih none ⟨q.path, .article items' k'⟩ ls' (by omega) hw (Or.inl hpath)
            (fun h => absurd hout h)
          refine (this.mono (fun _ h => h) (fun h => Leads.tooDeep hl h)).bind ?_
          rintro ⟨v, ls''⟩ ⟨ps', q', hx, hl', hw', hle', hc⟩
          refine ⟨ps ++ ps', q', ?_, hl.trans hl', hw', ?_, hc⟩
          · simp only [List.flatMap_cons, ha]
            simp only at hx
            rw [hx, ← hpath, hform]
            simp [pending, beforeArticle, captionPiece]
          · simp only [List.length_cons] at hle' ⊢; omega
        · have hpend : pending (L := L) c (l :: r) = [] := by
            unfold pending
            cases l <;> first
              | rfl
              | exact absurd ⟨_, _, rfl⟩ hart
          have hun : unitLoop ofArticle sub (fuel + 1) c (l :: r) = match sub l with
              | some f => (f r).bind fun x =>
                (unitLoop ofArticle sub fuel none x.2).bind fun v => .ok (x.1 :: v.1, v.2)
              | none => .ok ([], l :: r) := by
            cases l <;> first
              | rfl
              | exact absurd ⟨_, rfl⟩ hcap
              | exact absurd ⟨_, _, rfl⟩ hart
          rw [hun]
          by_cases hch : ∃ k', kindOf l = some k' ∧ k'.parent = some k
          · obtain ⟨k', hk', hpar⟩ := hch
            obtain ⟨f, n, s, hf', hnext, hcon, hread⟩ := hs.arm l k' hk' hpar
            rw [hf']
            obtain ⟨⟨y, hy, hyr⟩, hpl⟩ := hq
            have hpath : place q.path k' = P ++ [k] ++ [k'] := by rw [hy, place_child hP hyr hpar]
            have hstep := Leads.step (L := L) (q := q) (l := l) (r := r) (hnext q (by rw [hy]; simp))
            rw [hcon, hpath] at hstep
            refine ((hread P r hP).mono (fun _ h => h) (fun h => Leads.tooDeep hstep h)).bind ?_
            rintro ⟨x, ls'⟩ ⟨ps, q', hform, hl, hw, hle, hc⟩
            simp only at hform hl hw hle hc ⊢
            have hfull := hstep.trans hl
            have hw' : InUnit P k q' := by
              obtain ⟨⟨y', hy', hyr'⟩, hpl'⟩ := hw
              refine ⟨⟨[k'] ++ y', by rw [hy']; simp, ?_⟩, hpl'⟩
              intro z hz
              have hr := parent_rank hpar
              rcases List.mem_append.mp hz with hz | hz
              · rw [List.mem_singleton.mp hz]; omega
              · have := hyr' z hz; omega
            have h2' : ¬ Outside ls' → ∀ items n, q'.place ≠ .article items n := by
              intro ho
              cases ls' with
              | nil => exact absurd trivial ho
              | cons l' r' => exact (hc l' r' rfl).2.2.1 ho
            have := ih none q' ls' (by omega) hw' (Or.inr ⟨k', hpar, hc⟩) h2'
            refine (this.mono (fun _ h => h) (fun h => Leads.tooDeep hfull h)).bind ?_
            rintro ⟨v, ls''⟩ ⟨ps', q'', hx, hl', hw'', hle', hc'⟩
            refine ⟨_, q'', ?_, hfull.trans hl', hw'', ?_, hc'⟩
            · simp only at hx
              simp only [List.flatMap_cons, hx, hpend, hform]
              simp [pending, captionPiece]
            · simp only [List.length_cons] at hle' ⊢; omega
          · have hnone : sub l = none := by
              cases hsl : sub l with
              | none => rfl
              | some f => exact absurd (hs.only l f hsl) hch
            rw [hnone]
            refine ⟨[], q, by simp [hpend], Leads.refl _ _, hq, Nat.le_refl _, ?_⟩
            intro l' r' he
            simp only [List.cons.injEq] at he
            obtain ⟨rfl, rfl⟩ := he
            refine ⟨fun s h => hcap ⟨s, h⟩, fun n s h => hart ⟨n, s, h⟩, h2, ?_⟩
            intro k' hk'
            by_cases hr : k'.rank ≤ k.rank
            · exact Or.inl hr
            · right
              intro p hp hmem
              have hpr := parent_rank hp
              rcases h1 with h1 | ⟨k'', hk'', hc⟩
              · rw [h1] at hmem
                rcases List.mem_append.mp hmem with hm | hm
                · have := hP p hm; omega
                · rw [List.mem_singleton.mp hm] at hp
                  exact hch ⟨k', hk', hp⟩
              · rcases (hc l r rfl).2.2.2 k' hk' with h | h
                · have h3 := parent_rank hk''
                  have : p.rank = k.rank := by omega
                  have : p = k := by cases p <;> cases k <;> simp [Kind.rank] at this <;> rfl
                  exact hch ⟨k', hk', this ▸ hp⟩
                · exact h p hp hmem

theorem parseUnit_spec {γ : Type} {pieces : List Kind → γ → List (Piece L)} {k : Kind}
    {ofArticle : Article L → γ}
    {sub : TextLine → Option (List TextLine → Res (γ × List TextLine))}
    (ha : ∀ path a, pieces path (ofArticle a) = Spec.article path a) (hs : ArmSpec pieces k sub) :
    UnitSpec (Spec.unit pieces) k (parseUnit ofArticle sub) := by
  intro P n s r hP
  rw [parseUnit]
  have := unitLoop_spec ha hs P hP r.length none ⟨P ++ [k], .heading⟩ r (Nat.le_refl _)
    ⟨⟨[], by simp, by simp⟩, by simp⟩ (Or.inl rfl) (by simp)
  refine Res.Post.bind this ?_
  rintro ⟨v, ls'⟩ ⟨ps, q', hx, hl, hw, hle, hc⟩
  refine ⟨ps, q', ?_, hl, hw, hle, hc⟩
  simp only [Spec.unit, isDeleted_eq]
  simp only at hx
  rw [hx]
  simp [pending, captionPiece, headed, plainText, Text.fromValue]

theorem parseDivision_spec : UnitSpec (L := L) division .division parseDivision :=
  parseUnit_spec (pieces := Spec.article) (fun _ _ => rfl)
    ⟨by simp, by intro l k' _ h; cases k' <;> cases h⟩

/-- The arm for a unit one level lower. -/
theorem armSpec {β γ : Type} {pieces : List Kind → γ → List (Piece L)}
    {pieces' : List Kind → β → List (Piece L)} {k k' : Kind}
    {sub : TextLine → Option (List TextLine → Res (γ × List TextLine))}
    {f : ArticleNumber → List Char → List TextLine → Res (β × List TextLine)} {wrap : β → γ}
    (hk : k'.parent = some k) (hf : UnitSpec pieces' k' f)
    (hw : ∀ path x, pieces path (wrap x) = pieces' (path ++ [k']) x)
    (honly : ∀ l g, sub l = some g → kindOf l = some k')
    (harm : ∀ l, kindOf l = some k' → ∃ n s,
      sub l = some (fun ls => (f n s ls).bind fun x => .ok (wrap x.1, x.2)) ∧
      (∀ q : State, k ∈ q.path → next q l = some ⟨place q.path k', .heading⟩) ∧
      (∀ q r, contributes (L := L) q r l = [headed q.path n s])) :
    ArmSpec pieces k sub := by
  refine ⟨fun l g hg => ⟨k', honly l g hg, hk⟩, ?_⟩
  intro l k'' hk'' hpar
  have : k'' = k' := parent_unique hpar hk
  subst this
  obtain ⟨n, s, h1, h2, h3⟩ := harm l hk''
  refine ⟨_, n, s, h1, h2, h3, ?_⟩
  intro P r hP
  have hr := parent_rank hk
  refine (hf (P ++ [k]) n s r ?_).bind ?_
  · intro x hx
    rcases List.mem_append.mp hx with hx | hx
    · have := hP x hx; omega
    · rw [List.mem_singleton.mp hx]; omega
  · rintro ⟨x, ls'⟩ ⟨ps, q', hform, hl, hw', hle, hc⟩
    exact ⟨ps, q', by rw [hw]; exact hform, hl, hw', hle, hc⟩

theorem parseSubsection_spec : UnitSpec (L := L) subsection .subsection parseSubsection := by
  refine parseUnit_spec (pieces := subsectionChild) (fun _ _ => rfl)
    (armSpec (k' := .division) (wrap := .division) rfl parseDivision_spec (fun _ _ => rfl) ?_ ?_)
  · intro l g h; cases l <;> simp [subsectionArm] at h; rfl
  · intro l h
    cases l <;> simp only [kindOf, Option.some.injEq, reduceCtorEq] at h
    exact ⟨_, _, rfl, fun q hq => by simp [next, hq], fun _ _ => rfl⟩

theorem parseSection_spec : UnitSpec (L := L) Spec.section_ .section_ parseSection := by
  refine parseUnit_spec (pieces := sectionChild) (fun _ _ => rfl)
    (armSpec (k' := .subsection) (wrap := .subsection) rfl parseSubsection_spec (fun _ _ => rfl) ?_ ?_)
  · intro l g h; cases l <;> simp [sectionArm] at h; rfl
  · intro l h
    cases l <;> simp only [kindOf, Option.some.injEq, reduceCtorEq] at h
    exact ⟨_, _, rfl, fun q hq => by simp [next, hq], fun _ _ => rfl⟩

theorem parseChapter_spec : UnitSpec (L := L) chapter .chapter parseChapter := by
  refine parseUnit_spec (pieces := chapterChild) (fun _ _ => rfl)
    (armSpec (k' := .section_) (wrap := .section_) rfl parseSection_spec (fun _ _ => rfl) ?_ ?_)
  · intro l g h; cases l <;> simp [chapterArm] at h; rfl
  · intro l h
    cases l <;> simp only [kindOf, Option.some.injEq, reduceCtorEq] at h
    exact ⟨_, _, rfl, fun q hq => by simp [next], fun _ _ => rfl⟩

theorem parsePart_spec : UnitSpec (L := L) part .part parsePart := by
  refine parseUnit_spec (pieces := partChild) (fun _ _ => rfl)
    (armSpec (k' := .chapter) (wrap := .chapter) rfl parseChapter_spec (fun _ _ => rfl) ?_ ?_)
  · intro l g h; cases l <;> simp [partArm] at h; rfl
  · intro l h
    cases l <;> simp only [kindOf, Option.some.injEq, reduceCtorEq] at h
    exact ⟨_, _, rfl, fun q hq => by simp [next], fun _ _ => rfl⟩

end JLaw
