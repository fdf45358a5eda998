import Verif.Reading.AcceptStruct

/-! # Which documents are accepted: paragraphs, articles and the hierarchy above them -/

namespace JLaw

open Spec (Accepted Rule AttrRule)

variable {L : Lvl} {P : Prop} {m : Nat} {γ : Type}

/-! ## Classes and paragraphs -/

theorem Class.takes (hL : L.Takes P m) {e : Element} (he : Fine P m e e)
    (hn : e.name = "Class") : Exact P (Class.parser (L := L) e) (Accepted e) := by
  unfold Class.parser Class.step
  rw [if_pos hn]
  refine Exact.congr (Exact.bind (Exact.getAttribute e _) fun _ _ =>
    Exact.bind (tagLoop! he ["ClassTitle", "ClassSentence", "Item"]) fun s hs =>
    (?_ : Exact P _ (∃ x ∈ elems e.children, x.name ∈ ["ClassSentence"]))) ?_
  · rw [← Exact.field (fun s => s.class_sentence ≠ none) hs (by simp)]
    · cases s.class_sentence with
      | none => exact (Exact.err _).congr (by simp)
      | some v => exact (Exact.ok _).congr (by simp)
    · intro s x s' h
      field_step h
  · rw [Exact.strict hn rfl rfl rfl rfl]
    simp [Exact.AttrsOk, Exact.MustOk]

macro_rules
  | `(tactic| takes_leaf) => `(tactic| with_reducible exact Class.takes (by assumption) (by fine!) (by assumption))

theorem paragraphSentence_takes (hL : L.Takes P m) {e : Element} (he : Fine P m e e)
    (hn : e.name = "ParagraphSentence") :
    Exact P (readAll (Sentence.parser (L := L)) e.children) (Accepted e) := by
  refine Exact.congr (sentences_take hL he) ?_
  rw [Exact.strict hn rfl rfl rfl rfl]
  simp [Exact.AttrsOk, Exact.MustOk]

macro_rules
  | `(tactic| takes_leaf) =>
    `(tactic| with_reducible exact paragraphSentence_takes (by assumption) (by fine!) (by assumption))

theorem Paragraph.takes (hL : L.Takes P m) {e : Element} (he : Fine P m e e)
    (hn : e.name = "Paragraph") : Exact P (Paragraph.parser (L := L) e) (Accepted e) := by
  unfold Paragraph.parser Paragraph.step
  rw [if_pos hn]
  refine Exact.congr (Exact.bind (Exact.paragraphNum e) fun _ _ =>
    Exact.bind (Exact.getBool e _) fun _ _ => Exact.bind (Exact.getBool e _) fun _ _ =>
    Exact.bind (Exact.getBool e _) fun _ _ => Exact.map (tagLoop! he (["ParagraphCaption",
      "ParagraphNum", "ParagraphSentence", "AmendProvision", "Class"] ++ Spec.structTags ++
      ["Item"]))) ?_
  rw [Exact.strict hn rfl rfl rfl rfl]
  simp [Exact.AttrsOk, Exact.MustOk, and_assoc]

macro_rules
  | `(tactic| takes_leaf) => `(tactic| with_reducible exact Paragraph.takes (by assumption) (by fine!) (by assumption))

/-! ## Articles -/

/-- The children of an article. -/
def ArticleKids (l : List Element) : Prop :=
  ∃ hs ks, l = hs ++ ks ∧ (∀ x ∈ hs, x.name ∈ ["ArticleCaption", "ArticleTitle"] ∧ Accepted x) ∧
    (∀ x ∈ ks, x.name ∈ ["Paragraph", "SupplNote"] ∧ Accepted x) ∧ ks ≠ []

theorem ArticleKids.cons {x : Element} {l : List Element}
    (hx : x.name ∈ ["ArticleCaption", "ArticleTitle"]) :
    (Accepted x ∧ ArticleKids l) ↔ ArticleKids (x :: l) := by
  constructor
  · rintro ⟨ha, hs, ks, rfl, h1, h2, h3⟩
    refine ⟨x :: hs, ks, rfl, ?_, h2, h3⟩
    rw [List.forall_mem_cons]
    exact ⟨⟨hx, ha⟩, h1⟩
  · rintro ⟨hs, ks, he, h1, h2, h3⟩
    cases hs with
    | nil =>
      rw [List.nil_append] at he
      subst he
      have := (h2 x (by simp)).1
      simp only [List.mem_cons, List.not_mem_nil, or_false] at hx this
      rcases hx with h | h <;> rcases this with h' | h' <;> rw [h] at h' <;> simp at h'
    | cons y hs =>
      rw [List.cons_append, List.cons.injEq] at he
      obtain ⟨rfl, rfl⟩ := he
      rw [List.forall_mem_cons] at h1
      exact ⟨h1.1.2, hs, ks, rfl, h1.2, h2, h3⟩

theorem ArticleKids.rest {x : Element} {l : List Element}
    (hx : x.name ∉ ["ArticleCaption", "ArticleTitle"]) :
    (∀ y ∈ x :: l, y.name ∈ ["Paragraph", "SupplNote"] ∧ Accepted y) ↔ ArticleKids (x :: l) := by
  constructor
  · intro h
    exact ⟨[], x :: l, rfl, by simp, h, by simp⟩
  · rintro ⟨hs, ks, he, h1, h2, h3⟩
    cases hs with
    | nil =>
      rw [List.nil_append] at he
      rw [he]
      exact h2
    | cons y hs =>
      rw [List.cons_append, List.cons.injEq] at he
      obtain ⟨rfl, rfl⟩ := he
      exact absurd (h1 x (by simp)).1 hx

theorem Article.step_takes (hL : L.Takes P m) (e : Element) (s : Article.St L) {x : Element}
    (hx : Child P m x x) : Exact P (Article.step e s x)
      (x.name ∈ ["Paragraph", "SupplNote"] ∧ Accepted x) := by
  refine Exact.matchTag (m := m) ?_ hx (Fails.unexpected _ _)
  arms

theorem Article.loop_takes (hL : L.Takes P m) {e : Element} (he : Fine P m e e)
    {f : Option (Caption L) × Text L × List XMLNode → Article.St L → γ} :
    ∀ (c : List XMLNode), (∀ x ∈ elems c, x ∈ elems e.children) → ∀ (cap : Option (Caption L))
      (t : Text L),
    Exact P ((Article.head cap t c).bind fun h =>
      (forElems (Article.step e) {} h.2.2).bind fun s => .ok (f h s)) (ArticleKids (elems c)) := by
  intro c
  induction c with
  | nil =>
    intro _ _ _
    refine ⟨fun ⟨_, h⟩ => (by simp [Article.head, Res.bind] at h), ?_⟩
    rintro ⟨hs, ks, h, -, -, h'⟩
    have := (List.append_eq_nil_iff.1 h.symm).2
    exact absurd this h'
  | cons x c ih =>
    intro hc cap t
    cases x with
    | element n a d =>
      have hx : Child P m ⟨n, a, d⟩ ⟨n, a, d⟩ := he.child (hc _ (by simp [elems]))
      have ih := ih fun y hy => hc y (by
        rw [elems, List.filterMap_cons]
        exact List.mem_cons_of_mem _ hy)
      have hel : elems (.element n a d :: c) = ⟨n, a, d⟩ :: elems c := rfl
      unfold Article.head
      split
      · next h =>
        rw [Res.bind_ok]
        refine Exact.congr (Exact.map (Exact.forElems (c := .element n a d :: c)
          (fun s x hx => Article.step_takes hL e s (x := x) (he.child (hc x hx))) _)) ?_
        rw [hel]
        refine ArticleKids.rest ?_
        simpa using h
      · next h =>
        have hn : n ∈ ["ArticleCaption", "ArticleTitle"] := by
          simp only [List.mem_cons, List.not_mem_nil, or_false]
          by_cases h1 : n = "ArticleCaption"
          · exact .inl h1
          · exact .inr (Decidable.byContradiction fun h2 => h ⟨h1, h2⟩)
        rw [hel, ← ArticleKids.cons hn]
        split
        · next h1 =>
          rw [Res.bind_assoc]
          exact Exact.bind (Caption.takes hL hx.fine h1 rfl) fun v _ => ih _ _
        · next h1 =>
          have h2 : n = "ArticleTitle" := Decidable.byContradiction fun h2 => h ⟨h1, h2⟩
          rw [Res.bind_assoc]
          exact Exact.bind (Text.takes_of hL hx.fine (Exact.free (e := ⟨n, a, d⟩) h2 rfl))
            fun v _ => ih _ _
    | _ => exact ih (fun y hy => hc y hy) cap t

theorem Article.takes (hL : L.Takes P m) {e : Element} (he : Fine P m e e)
    (hn : e.name = "Article") : Exact P (Article.parser (L := L) e) (Accepted e) := by
  unfold Article.parser
  rw [if_pos hn]
  refine Exact.congr (Exact.bind (Exact.numAttr e) fun _ _ =>
    Exact.bind (Exact.getBool e _) fun _ _ => Exact.bind (Exact.getBool e _) fun _ _ =>
    Article.loop_takes hL he e.children (fun _ h => h) none Text.new) ?_
  rw [Exact.accepted_iff hn rfl]
  constructor
  · rintro ⟨h1, h2, h3, hs, ks, h, hh, hk, hne⟩
    refine ⟨⟨by simpa using ⟨h1, h2, h3⟩, trivial, ⟨hs, ks, h, fun x hx => (hh x hx).1,
      fun x hx => .inl (hk x hx).1⟩, ?_⟩, ?_⟩
    · simp only [List.length_nil, List.drop_zero, List.mem_singleton, forall_eq]
      obtain ⟨x, hx⟩ := List.exists_mem_of_ne_nil _ hne
      exact ⟨x, by rw [h]; exact List.mem_append_right _ hx, (hk x hx).1⟩
    · intro x hx
      simp only [Rule.read, List.length_nil, List.take_zero, List.drop_zero, List.mem_append,
        List.mem_filter] at hx
      rcases hx with hx | ⟨hx, -⟩
      · cases hx
      · rw [h, List.mem_append] at hx
        rcases hx with hx | hx
        · exact (hh x hx).2
        · exact (hk x hx).2
  · rintro ⟨⟨h1, -, ⟨hs, ks, h, hh, hk⟩, hm⟩, hr⟩
    simp only [List.forall_mem_cons, List.not_mem_nil, false_implies, implies_true, and_true] at h1
    simp only [List.length_nil, List.drop_zero, List.mem_singleton, forall_eq] at h hm
    have hk' : ∀ x ∈ ks, x.name ∈ ["Paragraph", "SupplNote"] := fun x hx => by
      rcases hk x hx with h | h
      · exact h
      · cases h [] rfl
    have hacc : ∀ x ∈ elems e.children,
        x.name ∈ ["ArticleCaption", "ArticleTitle", "Paragraph", "SupplNote"] → Accepted x := by
      intro x hx hn
      refine hr x ?_
      simp only [Rule.read, List.length_nil, List.take_zero, List.drop_zero, List.mem_append,
        List.mem_filter]
      exact .inr ⟨hx, by simpa [or_assoc] using hn⟩
    refine ⟨h1.1, h1.2.1, h1.2.2, hs, ks, h, fun x hx => ⟨hh x hx, ?_⟩, fun x hx =>
      ⟨hk' x hx, ?_⟩, ?_⟩
    · exact hacc x (by rw [h]; exact List.mem_append_left _ hx) (by
        have := hh x hx; simp at this ⊢; tauto)
    · exact hacc x (by rw [h]; exact List.mem_append_right _ hx) (by
        have := hk' x hx; simp at this ⊢; tauto)
    · rintro rfl
      obtain ⟨x, hx, hx'⟩ := hm
      rw [h, List.append_nil] at hx
      have := hh x hx
      simp only [List.mem_cons, List.not_mem_nil, or_false] at hx' this
      rcases this with h | h <;> rcases hx' with h' | h' <;> rw [h] at h' <;> simp at h'

macro_rules
  | `(tactic| takes_leaf) => `(tactic| with_reducible exact Article.takes (by assumption) (by fine!) (by assumption))

/-! ## The hierarchy above articles -/

theorem HierOf.titleOf_takes (hL : L.Takes P m) {e : Element} (he : Fine P m e e) {t : String}
    (hr : Spec.rules.lookup t = some Spec.free) :
    Exact P (HierOf.titleOf (L := L) t e) (FirstOk t e.children) := by
  unfold HierOf.titleOf
  split
  · next n a d rest hc =>
    split
    · next h =>
      subst h
      have hx : Child P m ⟨n, a, d⟩ ⟨n, a, d⟩ :=
        he.child (Exact.mem_elems (by simp [hc, Element.node]))
      exact Text.takes_of hL hx.fine ⟨a, d, rest, hc, Exact.free (e := ⟨n, a, d⟩) rfl hr⟩
    · next h =>
      refine (Exact.err _).congr ?_
      simp only [FirstOk, hc, false_iff]
      rintro ⟨_, _, _, h', -⟩
      cases h'
      exact h rfl
  · next h =>
    refine (Exact.err _).congr ?_
    simp only [FirstOk, false_iff]
    rintro ⟨_, _, _, h', -⟩
    exact h _ _ _ _ h'

theorem HierOf.takes (hL : L.Takes P m) {tag titleTag : String}
    {as : List (String × (Element → Res γ))} {e : Element} (he : Fine P m e e)
    (hn : e.name = tag)
    (hr : Spec.rules.lookup tag = some (Spec.unitRule titleTag (as.map Prod.fst)))
    (ht : Spec.rules.lookup titleTag = some Spec.free) (ha : Exact.Arms P m as) :
    Exact P (HierOf.parser (L := L) tag titleTag as e) (Accepted e) := by
  unfold HierOf.parser
  rw [if_pos hn]
  have htail : ∀ x ∈ elems e.children.tail, x ∈ elems e.children := fun x hx =>
    Exact.mem_elems (List.mem_of_mem_tail (Exact.node_mem hx))
  refine Exact.congr (Exact.bind (Exact.numAttr e) fun _ _ =>
    Exact.bind (Exact.getBool e _) fun _ _ => Exact.bind (Exact.getBool e _) fun _ _ =>
    Exact.bind (HierOf.titleOf_takes hL he ht) fun _ _ =>
    Exact.map (Exact.readAll fun x hx =>
      Exact.matchTag ha (he.child (htail x hx)) (Fails.unexpected _ _))) ?_
  rw [Exact.first_strict hn hr rfl rfl rfl rfl]
  have hattr : Exact.AttrsOk (Spec.unitRule titleTag (as.map Prod.fst)) e ↔
      AttrRule.mustNumber.Holds (e.attributes.get "Num") ∧
      AttrRule.bool.Holds (e.attributes.get "Delete") ∧
      AttrRule.bool.Holds (e.attributes.get "Hide") := by
    simp [Exact.AttrsOk, Spec.unitRule]
  rw [hattr]
  constructor
  · rintro ⟨h1, h2, h3, ⟨a, d, rest, hc, hacc⟩, h⟩
    refine ⟨⟨h1, h2, h3⟩, a, d, rest, hc, hacc, ?_⟩
    rw [hc] at h
    exact h
  · rintro ⟨⟨h1, h2, h3⟩, a, d, rest, hc, hacc, h⟩
    refine ⟨h1, h2, h3, ⟨a, d, rest, hc, hacc⟩, ?_⟩
    rw [hc]
    exact h

theorem Division.takes (hL : L.Takes P m) {e : Element} (he : Fine P m e e)
    (hn : e.name = "Division") : Exact P (Division.parser (L := L) e) (Accepted e) :=
  HierOf.takes hL he hn rfl rfl (by arms)

macro_rules
  | `(tactic| takes_leaf) => `(tactic| with_reducible exact Division.takes (by assumption) (by fine!) (by assumption))

theorem Subsection.takes (hL : L.Takes P m) {e : Element} (he : Fine P m e e)
    (hn : e.name = "Subsection") : Exact P (Subsection.parser (L := L) e) (Accepted e) :=
  HierOf.takes hL he hn rfl rfl (by unfold SubsectionContents.arms; arms)

macro_rules
  | `(tactic| takes_leaf) => `(tactic| with_reducible exact Subsection.takes (by assumption) (by fine!) (by assumption))

theorem Section.takes (hL : L.Takes P m) {e : Element} (he : Fine P m e e)
    (hn : e.name = "Section") : Exact P (Section.parser (L := L) e) (Accepted e) :=
  HierOf.takes hL he hn rfl rfl (by unfold SectionContents.arms; arms)

macro_rules
  | `(tactic| takes_leaf) => `(tactic| with_reducible exact Section.takes (by assumption) (by fine!) (by assumption))

theorem Chapter.takes (hL : L.Takes P m) {e : Element} (he : Fine P m e e)
    (hn : e.name = "Chapter") : Exact P (Chapter.parser (L := L) e) (Accepted e) :=
  HierOf.takes hL he hn rfl rfl (by unfold ChapterContents.arms; arms)

macro_rules
  | `(tactic| takes_leaf) => `(tactic| with_reducible exact Chapter.takes (by assumption) (by fine!) (by assumption))

theorem Part.takes (hL : L.Takes P m) {e : Element} (he : Fine P m e e)
    (hn : e.name = "Part") : Exact P (Part.parser (L := L) e) (Accepted e) :=
  HierOf.takes hL he hn rfl rfl (by unfold PartContents.arms; arms)

macro_rules
  | `(tactic| takes_leaf) => `(tactic| with_reducible exact Part.takes (by assumption) (by fine!) (by assumption))

end JLaw
