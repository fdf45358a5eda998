import Verif.Lemmas.FromTextUnits

/-!
# The body of a law built from text
-/

namespace JLaw

open Spec

variable {L : Lvl}

/-! ## What is built is never too deep -/

/-- No item lies deeper than the schema allows. -/
def Shallow (ps : List (Piece L)) : Prop := ∀ d n b, Piece.item d n b ∈ ps → d ≤ 11

theorem Shallow.not_tooDeep {ps : List (Piece L)} (h : Shallow ps) : ¬ TooDeep ps := by
  rintro ⟨d, n, b, hm, hd⟩
  have := h d n b hm
  omega

theorem tooDeep_append {ps ps' : List (Piece L)} (h : Shallow ps) (hd : TooDeep (ps ++ ps')) :
    TooDeep ps' := by
  obtain ⟨d, n, b, hm, hd⟩ := hd
  rcases List.mem_append.mp hm with hm | hm
  · have := h d n b hm; omega
  · exact ⟨d, n, b, hm, hd⟩

theorem shallow_append {ps ps' : List (Piece L)} :
    Shallow (ps ++ ps') ↔ Shallow ps ∧ Shallow ps' := by
  constructor
  · intro h
    exact ⟨fun d n b hm => h d n b (List.mem_append_left _ hm),
      fun d n b hm => h d n b (List.mem_append_right _ hm)⟩
  · rintro ⟨h, h'⟩ d n b hm
    rcases List.mem_append.mp hm with hm | hm
    · exact h d n b hm
    · exact h' d n b hm

theorem shallow_flatMap {α : Type} {f : α → List (Piece L)} (l : List α) (h : ∀ x, Shallow (f x)) :
    Shallow (l.flatMap f) := by
  intro d n b hm
  obtain ⟨x, _, hx⟩ := List.mem_flatMap.mp hm
  exact h x d n b hx

theorem shallow_itemPieces {γ : Type} {f : γ → List (Piece L)} {k : Nat} (hk : k ≤ 11)
    (h : ∀ x, Shallow (f x)) (x : ItemOf L γ) : Shallow (itemPieces f k x) := by
  intro d n b hm
  rw [itemPieces] at hm
  rcases List.mem_append.mp hm with hm | hm
  · rcases List.mem_cons.mp hm with hm | hm
    · cases hm; exact hk
    · exfalso
      cases hs : x.sentence <;> simp [hs, sentencePiece] at hm
  · exact shallow_flatMap _ h d n b hm

theorem shallow_item (x : Item L) : Shallow (Spec.item x) :=
  shallow_itemPieces (by omega) (shallow_itemPieces (by omega) (shallow_itemPieces (by omega)
    (shallow_itemPieces (by omega) (shallow_itemPieces (by omega) (shallow_itemPieces (by omega)
    (shallow_itemPieces (by omega) (shallow_itemPieces (by omega) (shallow_itemPieces (by omega)
    (shallow_itemPieces (by omega) (shallow_itemPieces (by omega) (fun x => x.elim))))))))))) x

theorem shallow_paragraph (x : Paragraph L) : Shallow (Spec.paragraph x) := by
  rw [Spec.paragraph, shallow_append]
  refine ⟨?_, shallow_flatMap _ shallow_item⟩
  intro d n b hm
  simp [sentencePiece] at hm

theorem shallow_article (path : List Kind) (x : Article L) : Shallow (Spec.article path x) := by
  rw [Spec.article, shallow_append]
  refine ⟨by intro d n b hm; simp at hm, ?_⟩
  rw [← List.singleton_append, shallow_append]
  exact ⟨by intro d n b hm; simp at hm, shallow_flatMap _ shallow_paragraph⟩

theorem shallow_unit {γ : Type} {f : List Kind → γ → List (Piece L)}
    (h : ∀ p x, Shallow (f p x)) (path : List Kind) (x : HierOf L γ) :
    Shallow (Spec.unit f path x) := by
  rw [Spec.unit, ← List.singleton_append, shallow_append]
  exact ⟨by intro d n b hm; simp at hm, shallow_flatMap _ (h path)⟩

theorem shallow_division (p : List Kind) (x : Division L) : Shallow (division p x) :=
  shallow_unit shallow_article p x

theorem shallow_subsection (p : List Kind) (x : Subsection L) : Shallow (subsection p x) :=
  shallow_unit (fun p x => by cases x; exact shallow_article _ _; exact shallow_division _ _) p x

theorem shallow_section (p : List Kind) (x : Section L) : Shallow (Spec.section_ p x) :=
  shallow_unit (fun p x => by
    cases x
    exact shallow_article _ _
    exact shallow_subsection _ _
    exact shallow_division _ _) p x

theorem shallow_chapter (p : List Kind) (x : Chapter L) : Shallow (chapter p x) :=
  shallow_unit (fun p x => by cases x; exact shallow_article _ _; exact shallow_section _ _) p x

theorem shallow_part (p : List Kind) (x : Part L) : Shallow (part p x) :=
  shallow_unit (fun p x => by cases x; exact shallow_article _ _; exact shallow_chapter _ _) p x

theorem shallow_mainChild (x : MainProvisionContents L) : Shallow (mainChild x) := by
  cases x
  · exact shallow_part _ _
  · exact shallow_chapter _ _
  · exact shallow_section _ _
  · exact shallow_article _ _
  · exact shallow_paragraph _

/-! ## The loop -/

/-- No unit of the law is open any more as far as the next line is concerned. -/
def AtTop (q : State) (ls : List TextLine) : Prop :=
  q.path = [] ∨ ∃ k, InUnit [] k q ∧ UnitEnds k q ls

theorem AtTop.place {q : State} {l : TextLine} {r : List TextLine} (h : AtTop q (l :: r)) {k : Kind}
    (hk : kindOf l = some k) :
    (∀ p, k.parent = some p → p ∉ q.path) ∧ Spec.place q.path k = [k] := by
  have key : ∀ p, k.parent = some p → p ∉ q.path := by
    intro p hp hmem
    rcases h with h | ⟨k', ⟨⟨y, hy, hyr⟩, _⟩, hc⟩
    · rw [h] at hmem; cases hmem
    · rcases (hc l r rfl).2.2.2 k hk with h | h
      · have := parent_rank hp
        rw [hy] at hmem
        simp only [List.nil_append, List.singleton_append, List.mem_cons] at hmem
        rcases hmem with rfl | hmem
        · omega
        · have := hyr p hmem; omega
      · exact h p hp hmem
  refine ⟨key, ?_⟩
  unfold Spec.place
  cases hp : k.parent with
  | none => rfl
  | some p => exact if_neg (key p hp)

/-- The pieces collected so far. -/
def sofar (s : BodySt L) : List (Piece L) :=
  (preambleFrom 0 s.preamble).flatMap Spec.paragraph ++ s.main.flatMap mainChild

/-- How the loop stands to the description. -/
structure Inv (s : BodySt L) (q : State) (ls : List TextLine) : Prop where
  top : AtTop q ls
  fits : ¬ Outside ls → ∀ items n, q.place ≠ .article items n
  suppl : s.suppl_law_num = none ∧ s.suppl = [] ∧ s.suppl_children = []
  pre : s.is_preamble = true →
    s.caption = none ∧ s.main = [] ∧ q.path = [] ∧ q.place = .preamble s.preamble.length
  main : s.is_preamble = false → ∀ n, q.place ≠ .preamble n

/-- The rest starts with a line that the loop does not use up. -/
def Stuck (ls : List TextLine) : Prop := (∃ t r, ls = .text t :: r) ∨ ∃ n r, ls = .suppl n :: r

/-- What the loop does. -/
structure Outcome (s : BodySt L) (q : State) (ls : List TextLine) : Prop where
  deep : TooDeep (meaning (L := L) q ls) → ∀ fuel, ls.length < fuel → bodyLoop fuel s ls = .panic
  stuck : ¬ TooDeep (meaning (L := L) q ls) → Stuck (leftOver q ls) →
    ∀ fuel, bodyLoop fuel s ls = .ok none
  done : ¬ TooDeep (meaning (L := L) q ls) → ¬ Stuck (leftOver q ls) →
    ∃ s' : BodySt L, (∀ fuel, ls.length < fuel → bodyLoop fuel s ls = .ok (some s')) ∧
      s'.suppl_law_num = none ∧ s'.suppl = [] ∧
      sofar s' = sofar s ++ pending s.caption ls ++ meaning q ls

/-- The loop after an iteration that uses up lines. -/
theorem Outcome.step {s s' : BodySt L} {q q' : State} {ls ls' : List TextLine}
    {ps : List (Piece L)} (hb : bodyStep s ls = .ok (some (s', ls'))) (hlen : ls'.length < ls.length)
    (hl : Leads q ls ps q' ls') (hps : Shallow ps)
    (hacc : sofar s' ++ pending s'.caption ls' = sofar s ++ pending s.caption ls ++ ps)
    (h : Outcome s' q' ls') : Outcome s q ls := by
  have e1 : ∀ fuel, bodyLoop (fuel + 1) s ls = bodyLoop fuel s' ls' := by
    intro fuel; rw [bodyLoop, hb]; rfl
  have hdeep : TooDeep (meaning (L := L) q ls) ↔ TooDeep (meaning (L := L) q' ls') := by
    rw [hl.1]; exact ⟨tooDeep_append hps, tooDeep_append_left⟩
  refine ⟨?_, ?_, ?_⟩
  · intro hd fuel hf
    cases fuel with
    | zero => omega
    | succ fuel => rw [e1]; exact h.deep (hdeep.mp hd) fuel (by omega)
  · intro hd hs fuel
    cases fuel with
    | zero => rfl
    | succ fuel =>
      rw [e1]; exact h.stuck (fun x => hd (hdeep.mpr x)) (by rw [← hl.2]; exact hs) fuel
  · intro hd hs
    obtain ⟨s'', h1, h2, h3, h4⟩ :=
      h.done (fun x => hd (hdeep.mpr x)) (by rw [← hl.2]; exact hs)
    refine ⟨s'', ?_, h2, h3, ?_⟩
    · intro fuel hf
      cases fuel with
      | zero => omega
      | succ fuel => rw [e1]; exact h1 fuel (by omega)
    · rw [h4, hacc, hl.1]
      simp only [List.append_assoc]

/-- The loop when an iteration panics. -/
theorem Outcome.panic {s : BodySt L} {q : State} {ls : List TextLine}
    (hb : bodyStep s ls = .panic) (hd : TooDeep (meaning (L := L) q ls)) : Outcome s q ls := by
  refine ⟨?_, fun h => absurd hd h, fun h => absurd hd h⟩
  intro _ fuel hf
  cases fuel with
  | zero => omega
  | succ fuel => rw [bodyLoop, hb]; rfl

/-- The loop when it is left. -/
theorem Outcome.leave {s : BodySt L} {q : State} {ls : List TextLine}
    (hb : bodyStep s ls = .ok none) (hm : meaning (L := L) q ls = []) (hst : ¬ Stuck (leftOver q ls))
    (hp : pending (L := L) s.caption ls = []) (hs : s.suppl_law_num = none ∧ s.suppl = []) :
    Outcome s q ls := by
  refine ⟨?_, fun _ h => absurd h hst, ?_⟩
  · rw [hm]; rintro ⟨d, n, b, hx, _⟩; cases hx
  · intro _ _
    refine ⟨s, ?_, hs.1, hs.2, by rw [hp, hm]; simp⟩
    intro fuel hf
    cases fuel with
    | zero => omega
    | succ fuel => rw [bodyLoop, hb]; rfl

/-- The loop when an iteration changes nothing that matters. -/
theorem Outcome.loop {s : BodySt L} {q : State} {ls : List TextLine}
    (hb : ∀ fuel, bodyLoop fuel s ls = .ok none) (hm : meaning (L := L) q ls = [])
    (hst : Stuck (leftOver q ls)) : Outcome s q ls :=
  ⟨fun h => by (rw [hm] at h; obtain ⟨d, n, b, hx, _⟩ := h; cases hx), fun _ _ => hb,
    fun _ h => absurd hst h⟩

theorem preambleFrom_append (i : Nat) (a b : List (List Char)) :
    preambleFrom (L := L) i (a ++ b) = preambleFrom i a ++ preambleFrom (i + a.length) b := by
  induction a generalizing i with
  | nil => simp [preambleFrom]
  | cons x a ih =>
    simp only [List.cons_append, preambleFrom, ih, List.length_cons]
    rw [Nat.add_assoc, Nat.add_comm 1]

theorem pending_none (ls : List TextLine) : pending (L := L) none ls = [] := by
  unfold pending captionPiece; split <;> rfl

/-- The state after one more element of the main provision. -/
def BodySt.add (s : BodySt L) (x : MainProvisionContents L) : BodySt L :=
  { s with main := s.main ++ [x], caption := none, is_preamble := false }

/-- A unit with a heading that lies directly in the law. -/
theorem Outcome.unit {β : Type} {pieces : List Kind → β → List (Piece L)} {k : Kind}
    {f : ArticleNumber → List Char → List TextLine → Res (β × List TextLine)}
    (hf : UnitSpec pieces k f) {wrap : β → MainProvisionContents L}
    (hw : ∀ x, mainChild (wrap x) = pieces [k] x)
    {s : BodySt L} {q : State} {l : TextLine} {r : List TextLine} {n : ArticleNumber}
    {t : List Char} (hi : Inv s q (l :: r)) (hk : kindOf l = some k)
    (hb : bodyStep s (l :: r) = (f n t r).bind fun x =>
      .ok (some (s.add (wrap x.1), x.2)))
    (hn : next q l = some ⟨place q.path k, .heading⟩)
    (hc : ∀ q r, contributes (L := L) q r l = [headed q.path n t])
    (ih : ∀ s' q' ls', ls'.length < (l :: r).length → Inv (L := L) s' q' ls' → Outcome s' q' ls') :
    Outcome s q (l :: r) := by
  have hplace := (hi.top.place hk).2
  have hstep := Leads.step (L := L) (q := q) (l := l) (r := r) hn
  rw [hc, hplace] at hstep
  have hpost := hf [] n t r (by simp)
  cases hfr : f n t r with
  | err e => rw [hfr] at hpost; exact hpost.elim
  | deep => rw [hfr] at hpost; exact hpost.elim
  | panic =>
    rw [hfr] at hpost
    exact Outcome.panic (by rw [hb, hfr]; rfl) (hstep.tooDeep hpost)
  | ok x =>
    rw [hfr] at hpost
    obtain ⟨ps, q', hform, hl, hwi, hle, hcl⟩ := hpost
    have hfull := hstep.trans hl
    have hpend : pending (L := L) s.caption (l :: r) = [] := by cases l <;> first | rfl | cases hk
    refine Outcome.step (s' := s.add (wrap x.1)) (by rw [hb, hfr]; rfl) (by simp; omega) hfull ?_ ?_
      (ih _ _ _ (by simp; omega) ?_)
    · have := shallow_mainChild (wrap x.1)
      rw [hw] at this
      simp only [List.nil_append] at hform
      rw [hform] at this
      exact this
    · simp only [List.nil_append] at hform
      have e : pending (L := L) (s.add (wrap x.1)).caption x.2 = [] := pending_none _
      rw [hpend, e]
      simp only [sofar, BodySt.add, List.flatMap_append, List.flatMap_cons, List.flatMap_nil, hw, hform,
        List.append_nil, List.append_assoc]
      rfl
    · refine ⟨Or.inr ⟨k, hwi, hcl⟩, ?_, hi.suppl, by simp [BodySt.add], fun _ => hwi.2⟩
      intro ho
      cases hx : x.2 with
      | nil => rw [hx] at ho; exact absurd trivial ho
      | cons l' r' => rw [hx] at ho hcl; exact (hcl l' r' rfl).2.2.1 ho

theorem bodyLoop_spec (s : BodySt L) (q : State) (ls : List TextLine) (hi : Inv s q ls) :
    Outcome s q ls := by
  induction hn : ls.length using Nat.strongRecOn generalizing s q ls with
  | ind N ih =>
    subst hn
    have ih' : ∀ (s' : BodySt L) q' ls', ls'.length < ls.length → Inv s' q' ls' → Outcome s' q' ls' :=
      fun s' q' ls' h h' => ih ls'.length h s' q' ls' h' rfl
    clear ih
    cases ls with
    | nil =>
      refine Outcome.leave rfl rfl ?_ rfl ⟨hi.suppl.1, hi.suppl.2.1⟩
      rintro (⟨t, r, h⟩ | ⟨t, r, h⟩) <;> cases h
    | cons l r =>
      have hsup : s.suppl_law_num.isSome = false := by rw [hi.suppl.1]; rfl
      -- lines on which the loop is left
      have hleave : bodyStep s (l :: r) = .ok none → next q l = none →
          (∀ t, l ≠ .text t) → (∀ n, l ≠ .suppl n) → (∀ n t, l ≠ .article n t) →
          Outcome s q (l :: r) := by
        intro h1 h2 h3 h4 h5
        refine Outcome.leave h1 (by simp only [meaning, h2]) ?_ ?_ ⟨hi.suppl.1, hi.suppl.2.1⟩
        · simp only [leftOver, h2]
          rintro (⟨t, r', h⟩ | ⟨t, r', h⟩)
          · exact h3 t (List.cons.inj h).1
          · exact h4 t (List.cons.inj h).1
        · unfold pending
          cases l <;> first | rfl | exact absurd rfl (h5 _ _)
      have hpath : (∃ c, l = .caption c) ∨ (∃ n t, l = .article n t) → q.path = [] := by
        intro h
        rcases hi.top with ht | ⟨k, _, hc⟩
        · exact ht
        · exfalso
          have := hc l r rfl
          rcases h with ⟨c, rfl⟩ | ⟨n, t, rfl⟩
          · exact this.1 c rfl
          · exact this.2.1 n t rfl
      cases l with
      | part n t =>
        exact Outcome.unit parsePart_spec (wrap := .part) (fun _ => rfl) hi rfl rfl rfl
          (fun _ _ => rfl) ih'
      | chapter n t =>
        exact Outcome.unit parseChapter_spec (wrap := .chapter) (fun _ => rfl) hi rfl
          (by rw [bodyStep]; simp only [hsup]; rfl) rfl (fun _ _ => rfl) ih'
      | section_ n t =>
        exact Outcome.unit parseSection_spec (wrap := .section_) (fun _ => rfl) hi rfl rfl rfl
          (fun _ _ => rfl) ih'
      | subsection n t =>
        have := (hi.top.place (k := .subsection) rfl).1 .section_ rfl
        exact hleave rfl (by simp [next, this]) (by simp) (by simp) (by simp)
      | division n t =>
        have := (hi.top.place (k := .division) rfl).1 .subsection rfl
        exact hleave rfl (by simp [next, this]) (by simp) (by simp) (by simp)
      | paragraph n t =>
        have hnot := hi.fits (by simp [Outside])
        refine hleave rfl ?_ (by simp) (by simp) (by simp)
        simp only [next]
      | item n t =>
        have hnot := hi.fits (by simp [Outside])
        refine hleave rfl ?_ (by simp) (by simp) (by simp)
        simp only [next]
      | caption c =>
        have hp := hpath (Or.inl ⟨c, rfl⟩)
        refine Outcome.step (s' := { s with caption := some c, is_preamble := false }) rfl (by simp)
          (Leads.step (q := q) rfl) ?_ ?_ (ih' _ _ _ (by simp) ?_)
        · intro d n b hm
          simp only [contributes] at hm
          split at hm <;> simp at hm
        · have e : pending (L := L) s.caption (.caption c :: r) = [] := rfl
          rw [e, List.append_nil]
          rfl
        · exact ⟨Or.inl hp, by simp, hi.suppl, by simp, by simp⟩
      | article n t =>
        have hp := hpath (Or.inr ⟨n, t, rfl⟩)
        have hpost := parseArticle_spec (L := L) q.path q.place s.caption n t r
        have hb : bodyStep s (.article n t :: r) = (parseArticle s.caption n t r).bind fun x =>
            .ok (some (s.add (.article x.1), x.2)) := by
          rw [bodyStep]; simp only [hsup]; rfl
        cases hfr : parseArticle (L := L) s.caption n t r with
        | err e => rw [hfr] at hpost; exact hpost.elim
        | deep => rw [hfr] at hpost; exact hpost.elim
        | panic =>
          rw [hfr] at hpost
          exact Outcome.panic (by rw [hb, hfr]; rfl) hpost
        | ok x =>
          rw [hfr] at hpost
          obtain ⟨items', k', ps, hform, hl, hle, hout⟩ := hpost
          refine Outcome.step (s' := s.add (.article x.1)) (by rw [hb, hfr]; rfl) (by simp; omega) hl ?_ ?_
            (ih' _ _ _ (by simp; omega) ?_)
          · have := shallow_article q.path x.1
            rw [hform, shallow_append] at this
            exact this.2
          · have e : pending (L := L) (s.add (.article x.1)).caption x.2 = [] := pending_none _
            have e2 : pending (L := L) s.caption (.article n t :: r) = captionPiece s.caption := rfl
            rw [e, e2]
            rw [hp] at hform
            simp only [sofar, BodySt.add, List.flatMap_append, List.flatMap_cons, List.flatMap_nil, mainChild,
              hform, List.append_nil, List.append_assoc]
          · exact ⟨Or.inl hp, fun h => absurd hout h, hi.suppl, by simp [BodySt.add],
              by simp⟩
      | suppl n =>
        have hsome : ∀ fuel (s : BodySt L), bodyLoop fuel s (.suppl n :: r) = .ok none := by
          intro fuel
          induction fuel with
          | zero => intro s; rfl
          | succ fuel ihf => intro s; rw [bodyLoop]; exact ihf _
        exact Outcome.loop (fun fuel => hsome fuel s) rfl (Or.inr ⟨n, r, rfl⟩)
      | text t =>
        have hnot := hi.fits (by simp [Outside])
        cases hpre : s.is_preamble with
        | false =>
          have hnp := hi.main hpre
          have hnext : next q (.text t) = none := by
            simp only [next]
            split
            · rename_i h; exact absurd h (hnp _)
            · rename_i h; exact absurd h (hnot _ _)
            · rfl
          have hb : bodyStep s (.text t :: r) = .ok (some (s, .text t :: r)) := by
            rw [bodyStep, hpre]; rfl
          refine Outcome.loop ?_ (by simp only [meaning, hnext])
            (Or.inl ⟨t, r, by simp only [leftOver, hnext]⟩)
          intro fuel
          induction fuel with
          | zero => rfl
          | succ fuel ihf => rw [bodyLoop, hb]; exact ihf
        | true =>
          obtain ⟨h0, h1, h2, h3⟩ := hi.pre hpre
          have hb : bodyStep s (.text t :: r) =
              .ok (some ({ s with preamble := s.preamble ++ [t] }, r)) := by
            rw [bodyStep, hpre]; rfl
          have hnext : next q (.text t) = some ⟨q.path, .preamble (s.preamble.length + 1)⟩ := by
            simp only [next, h3]
          refine Outcome.step hb (by simp) (Leads.step hnext) ?_ ?_ (ih' _ _ _ (by simp) ?_)
          · intro d n b hm
            simp [contributes, saying] at hm
          · have e : pending (L := L) s.caption (.text t :: r) = [] := rfl
            rw [e]
            rw [h0, pending_none]
            simp [sofar, preambleFrom_append, h1, List.flatMap_append, preambleFrom, contributes,
              Spec.paragraph, sentencePiece, saying, textToSentence]
            rfl
          · refine ⟨Or.inl h2, by simp, hi.suppl, ?_, ?_⟩
            · intro _; exact ⟨h0, h1, h2, by simp⟩
            · intro h; simp only at h; rw [hpre] at h; cases h

end JLaw
