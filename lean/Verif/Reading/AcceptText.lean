import Verif.Reading.Accept

/-! # Which documents are accepted: text, sentences, structures and lists -/

namespace JLaw

open Spec (Accepted Rule AttrRule)

variable {L : Lvl} {P : Prop} {m : Nat} {α β : Type}

/-- Closed by a lemma on one reader; extended after each reader. -/
syntax "takes_leaf" : tactic
macro_rules
  | `(tactic| takes_leaf) => `(tactic| with_reducible exact Exact.arms_nil)
macro_rules
  | `(tactic| takes_leaf) => `(tactic| with_reducible exact Exact.ok _)

/-- Goes through the arms of a `match`. -/
macro "arms" : tactic => `(tactic| repeat' first
  | with_reducible refine Exact.arms_cons (fun _ _ _ => ?_) ?_
  | with_reducible refine Exact.arms_append ?_ ?_
  | with_reducible refine Exact.childArms ?_
  | with_reducible refine Exact.map ?_
  | takes_leaf)

/-- A loop over the children that matches on their tags. -/
macro "tagLoop! " he:term:max t:term:max : term =>
  `(Exact.tagLoop (tags := $t) $he (fun _ => by arms) (fun _ => by rfl)
    (fun _ _ => by exact Fails.unexpected _ _) _)

/-! ## Text -/

theorem TextElement.ofNode_ne_err (x : XMLNode) (e : Err) :
    TextElement.ofNode (L := L) x ≠ .err e := by
  cases x with
  | element n a c =>
    unfold TextElement.ofNode
    simp only [matchTag_cons, matchTag_nil]
    have hp : ∀ {α : Type} (f : α → TextElement L) (r : Res α), pushOk f r ≠ .err e := by
      intro α f r
      unfold pushOk
      cases r <;> simp [Res.skipErr, Res.bind]
    repeat' split
    all_goals first | exact hp _ _ | simp
  | _ => simp [TextElement.ofNode]

theorem collectRes_ne_err {f : α → Res (List β)} {e : Err} (h : ∀ x, f x ≠ .err e) (c : List α) :
    collectRes f c ≠ .err e := by
  induction c with
  | nil => simp
  | cons x c ih =>
    rw [collectRes_cons]
    have := h x
    cases hx : f x with
    | ok a =>
      cases hc : collectRes f c with
      | err e' => rw [hc] at ih; simpa [Res.bind] using ih
      | _ => simp [Res.bind]
    | err e' => rw [hx] at this; simpa [Res.bind] using this
    | _ => simp [Res.bind]

theorem Text.fromChildren_ne_err (c : List XMLNode) (e : Err) :
    Text.fromChildren (L := L) c ≠ .err e := by
  have := collectRes_ne_err (fun x => TextElement.ofNode_ne_err (L := L) x e) c
  unfold Text.fromChildren
  cases hc : collectRes TextElement.ofNode c with
  | err e' => rw [hc] at this; simpa [Res.bind] using this
  | _ => simp [Res.bind]

theorem Text.takes (hL : L.Takes P m) {e : Element} (he : Fine P m e e) :
    Exact P (Text.fromChildren (L := L) e.children) True :=
  Exact.nice (Text.agree hL.agrees he.kidsSelf).nice (Text.fromChildren_ne_err _)

theorem Text.takes_of (hL : L.Takes P m) {e : Element} (he : Fine P m e e) {Q : Prop} (hq : Q) :
    Exact P (Text.fromChildren (L := L) e.children) Q :=
  (Text.takes hL he).congr (iff_of_true trivial hq)

theorem Text.ofElement_takes (hL : L.Takes P m) {e : Element} (he : Fine P m e e) {t : String}
    (hn : e.name = t) (hr : Spec.rules.lookup t = some Spec.free) :
    Exact P (Text.ofElement (L := L) e) (Accepted e) :=
  Text.takes_of hL he (Exact.free hn hr)

theorem TextWithWritingMode.takes (hL : L.Takes P m) {e : Element} (he : Fine P m e e) {t : String}
    (hn : e.name = t) (hr : Spec.rules.lookup t = some Spec.free) :
    Exact P (TextWithWritingMode.parser (L := L) e) (Accepted e) :=
  Exact.map (Text.takes_of hL he (Exact.free hn hr))

macro_rules
  | `(tactic| takes_leaf) =>
    `(tactic| with_reducible exact Text.ofElement_takes (by assumption) (by fine!) (by assumption) (by with_unfolding_all rfl))
macro_rules
  | `(tactic| takes_leaf) =>
    `(tactic| with_reducible exact TextWithWritingMode.takes (by assumption) (by fine!) (by assumption) (by with_unfolding_all rfl))

theorem Caption.takes (hL : L.Takes P m) {e : Element} (he : Fine P m e e) {t : String}
    (hn : e.name = t) (hr : Spec.rules.lookup t = some Spec.captionRule) :
    Exact P (Caption.parser (L := L) e) (Accepted e) := by
  refine Exact.congr (Exact.bind (Text.takes hL he) fun _ _ => Exact.map (Exact.optBool e _)) ?_
  rw [Exact.lax hn hr rfl rfl rfl]
  simp [Exact.AttrsOk, Exact.MustOk, Spec.captionRule]

macro_rules
  | `(tactic| takes_leaf) =>
    `(tactic| with_reducible exact Caption.takes (by assumption) (by fine!) (by assumption) (by with_unfolding_all rfl))

theorem Ruby.takes (hL : L.Takes P m) {e : Element} (he : Fine P m e e) (hn : e.name = "Ruby") :
    Exact P (Ruby.parser (L := L) e) (Accepted e) := by
  unfold Ruby.parser
  rw [if_pos hn]
  have hm : 0 < m := by have : heightList e.children + 1 ≤ m := he.height; omega
  refine Exact.congr (Exact.bind (Q := True) ?_ fun _ _ => Exact.map (hL.text hm _))
    (iff_of_true ⟨trivial, trivial⟩ (Exact.free hn rfl))
  refine (Exact.foldRes (A := fun _ => True) (fun s x _ => ?_) _).congr (by simp)
  cases x with
  | element n a c =>
    unfold Ruby.step
    simp only
    split <;> exact .ok _
  | _ => exact .ok _

macro_rules
  | `(tactic| takes_leaf) => `(tactic| with_reducible exact Ruby.takes (by assumption) (by fine!) (by assumption))

theorem Sup.takes {e : Element} (hn : e.name = "Sup") :
    Exact P (Sup.parser e) (Accepted e) := by
  unfold Sup.parser
  rw [if_pos hn]
  exact (Exact.ok _).congr (iff_of_true trivial (Exact.free hn rfl))

theorem Sub.takes {e : Element} (hn : e.name = "Sub") :
    Exact P (Sub.parser e) (Accepted e) := by
  unfold Sub.parser
  rw [if_pos hn]
  exact (Exact.ok _).congr (iff_of_true trivial (Exact.free hn rfl))

macro_rules
  | `(tactic| takes_leaf) => `(tactic| with_reducible exact Sup.takes (by assumption))
macro_rules
  | `(tactic| takes_leaf) => `(tactic| with_reducible exact Sub.takes (by assumption))

/-! ## Raw contents -/

theorem contents_takes (hL : L.Takes P m) {e : Element} (he : Fine P m e e) {t : String}
    (hn : e.name = t) (hr : Spec.rules.lookup t = some { kids := Spec.contentsTags }) :
    Exact P (L.contentsParser e) (Accepted e) :=
  (hL.contents e he).congr (by
    rw [Exact.strict hn hr rfl rfl rfl]
    simp [Exact.AttrsOk, Exact.MustOk])

theorem QuoteStruct.takes (hL : L.Takes P m) {e : Element} (he : Fine P m e e)
    (hn : e.name = "QuoteStruct") : Exact P (QuoteStruct.parser (L := L) e) (Accepted e) :=
  Exact.map (contents_takes hL he hn rfl)

theorem Style.takes (hL : L.Takes P m) {e : Element} (he : Fine P m e e)
    (hn : e.name = "Style") : Exact P (Style.parser (L := L) e) (Accepted e) :=
  Exact.map (contents_takes hL he hn rfl)

theorem Note.takes (hL : L.Takes P m) {e : Element} (he : Fine P m e e)
    (hn : e.name = "Note") : Exact P (Note.parser (L := L) e) (Accepted e) :=
  Exact.map (contents_takes hL he hn rfl)

theorem Format.takes (hL : L.Takes P m) {e : Element} (he : Fine P m e e)
    (hn : e.name = "Format") : Exact P (Format.parser (L := L) e) (Accepted e) :=
  Exact.map (contents_takes hL he hn rfl)

theorem ArithFormula.takes (hL : L.Takes P m) {e : Element} (he : Fine P m e e)
    (hn : e.name = "ArithFormula") : Exact P (ArithFormula.parser (L := L) e) (Accepted e) := by
  refine Exact.congr (Exact.bind (Exact.count e _) fun _ _ => Exact.map (hL.contents e he)) ?_
  rw [Exact.strict hn rfl rfl rfl rfl]
  simp [Exact.AttrsOk, Exact.MustOk]

macro_rules
  | `(tactic| takes_leaf) => `(tactic| with_reducible exact QuoteStruct.takes (by assumption) (by fine!) (by assumption))
macro_rules
  | `(tactic| takes_leaf) => `(tactic| with_reducible exact Style.takes (by assumption) (by fine!) (by assumption))
macro_rules
  | `(tactic| takes_leaf) => `(tactic| with_reducible exact Note.takes (by assumption) (by fine!) (by assumption))
macro_rules
  | `(tactic| takes_leaf) => `(tactic| with_reducible exact Format.takes (by assumption) (by fine!) (by assumption))
macro_rules
  | `(tactic| takes_leaf) => `(tactic| with_reducible exact ArithFormula.takes (by assumption) (by fine!) (by assumption))

/-! ## Lines and sentences -/

theorem lineStyle_iff (o : Option String) :
    LineStyle.fromAttr o ≠ none ↔ (AttrRule.mustOneOf Spec.lineStyles).Holds o := by
  unfold LineStyle.fromAttr
  split <;> simp [AttrRule.Holds, Spec.lineStyles]
  rename_i h1 h2 h3 h4
  rintro x rfl
  exact ⟨by simpa using h1, by simpa using h2, by simpa using h3, by simpa using h4⟩

theorem Line.takes (hL : L.Takes P m) {e : Element} (he : Fine P m e e) (hn : e.name = "Line") :
    Exact P (Line.parser (L := L) e) (Accepted e) := by
  unfold Line.parser LineContents.elem
  rw [if_pos hn]
  refine Exact.congr (Exact.bind (Exact.ofOption _ _) fun _ _ => Exact.map (Exact.mixed fun x hx =>
    Exact.matchTag (m := m) ?_ (he.child hx) (Fails.unexpected _ _))) ?_
  · arms
  · rw [Exact.strict hn rfl rfl rfl rfl, lineStyle_iff]
    simp [Exact.AttrsOk, Exact.MustOk, Spec.inlineTags]

macro_rules
  | `(tactic| takes_leaf) => `(tactic| with_reducible exact Line.takes (by assumption) (by fine!) (by assumption))

theorem SentenceFunction.ofStr_iff (s : String) :
    SentenceFunction.ofStr s ≠ none ↔ s ∈ ["main", "proviso"] := by
  unfold SentenceFunction.ofStr
  split <;> simp_all

theorem SentenceIndent.ofStr_iff (s : String) :
    SentenceIndent.ofStr s ≠ none ↔ s ∈ ["Paragraph", "Item", "Subitem1", "Subitem2", "Subitem3",
      "Subitem4", "Subitem5", "Subitem6", "Subitem7", "Subitem8", "Subitem9", "Subitem10"] := by
  unfold SentenceIndent.ofStr
  split <;> simp_all

theorem Sentence.takes (hL : L.Takes P m) {e : Element} (he : Fine P m e e)
    (hn : e.name = "Sentence") : Exact P (Sentence.parser (L := L) e) (Accepted e) := by
  unfold Sentence.parser SentenceElement.elem
  rw [if_pos hn]
  refine Exact.congr (Exact.bind (Exact.count e _) fun _ _ =>
    Exact.bind (Exact.getOptWithParse SentenceFunction.ofStr_iff) fun _ _ =>
    Exact.bind (Exact.getOptWithParse SentenceIndent.ofStr_iff) fun _ _ =>
    Exact.map (Exact.mixed fun x hx =>
    Exact.matchTag (m := m) ?_ (he.child hx) (Fails.unexpected _ _))) ?_
  · arms
  · rw [Exact.strict hn rfl rfl rfl rfl]
    simp only [Exact.AttrsOk, Exact.MustOk, Spec.inlineTags, List.forall_mem_cons,
      List.not_mem_nil, false_implies, implies_true, and_true, and_assoc]
    rfl

macro_rules
  | `(tactic| takes_leaf) => `(tactic| with_reducible exact Sentence.takes (by assumption) (by fine!) (by assumption))

/-- A reader that checks the tag. -/
theorem Exact.checks {p : Element → Res α} {t : String} {e : Element}
    (h : e.name = t → Exact P (p e) (Accepted e)) (hf : e.name ≠ t → (p e).Fails) :
    Exact P (p e) (e.name ∈ [t] ∧ Accepted e) := by
  by_cases hn : e.name = t
  · exact (h hn).congr (by simp [hn])
  · exact ⟨fun ⟨v, hv⟩ => absurd hv (hf hn v), fun h => absurd (by simpa using h.1) hn⟩

theorem Sentence.fails {e : Element} (hn : e.name ≠ "Sentence") :
    (Sentence.parser (L := L) e).Fails := by
  unfold Sentence.parser
  rw [if_neg hn]
  exact Fails.err _

theorem sentences_take (hL : L.Takes P m) {e : Element} (he : Fine P m e e) :
    Exact P (readAll (Sentence.parser (L := L)) e.children)
      (∀ x ∈ elems e.children, x.name ∈ ["Sentence"] ∧ Accepted x) :=
  Exact.readAll fun _ hx => Exact.checks (fun hn => Sentence.takes hL (he.child hx).fine hn)
    Sentence.fails

theorem Column.takes (hL : L.Takes P m) {e : Element} (he : Fine P m e e)
    (hn : e.name = "Column") : Exact P (Column.parser (L := L) e) (Accepted e) := by
  unfold Column.parser
  rw [if_pos hn]
  refine Exact.congr (Exact.bind (Exact.count e _) fun _ _ => Exact.bind (Exact.getBool e _) fun _ _ =>
    Exact.map (sentences_take hL he)) ?_
  rw [Exact.strict hn rfl rfl rfl rfl]
  simp [Exact.AttrsOk, Exact.MustOk, and_assoc]

macro_rules
  | `(tactic| takes_leaf) => `(tactic| with_reducible exact Column.takes (by assumption) (by fine!) (by assumption))

theorem Fig.takes {e : Element} (hn : e.name = "Fig") : Exact P (Fig.parser e) (Accepted e) := by
  refine (Exact.map (Exact.ofOption _ _)).congr ?_
  rw [Exact.lax hn rfl rfl rfl rfl]
  simp [Exact.AttrsOk, Exact.MustOk, AttrRule.Holds]

macro_rules
  | `(tactic| takes_leaf) => `(tactic| with_reducible exact Fig.takes (by assumption))

/-! ## Remarks -/

theorem RemarksLabel.takes (hL : L.Takes P m) {e : Element} (he : Fine P m e e)
    (hn : e.name = "RemarksLabel") : Exact P (RemarksLabel.parser (L := L) e) (Accepted e) := by
  unfold RemarksLabel.parser
  rw [if_pos hn]
  refine Exact.congr (Exact.bind (Exact.getBool e _) fun _ _ => Exact.map (Text.takes hL he)) ?_
  rw [Exact.lax hn rfl rfl rfl rfl]
  simp [Exact.AttrsOk, Exact.MustOk]

macro_rules
  | `(tactic| takes_leaf) => `(tactic| with_reducible exact RemarksLabel.takes (by assumption) (by fine!) (by assumption))
macro_rules
  | `(tactic| takes_leaf) => `(tactic| with_reducible exact Lvl.Takes.item (by assumption) _ (by assumption) (by assumption))
macro_rules
  | `(tactic| takes_leaf) => `(tactic| with_reducible exact Lvl.Takes.column (by assumption) _ (by assumption) (by assumption))
macro_rules
  | `(tactic| takes_leaf) => `(tactic| with_reducible exact Lvl.Takes.amend (by assumption) _ (by assumption) (by assumption))

theorem matchTag_ok {arms : List (String × (Element → Res α))} {d : Element → Res α} {x : Element}
    {v : α} (h : matchTag arms d x = .ok v) (hd : (d x).Fails) {Q : Prop}
    (hq : ∀ p ∈ arms, x.name = p.1 → p.2 x = .ok v → Q) : Q := by
  induction arms with
  | nil => exact absurd h (hd v)
  | cons a arms ih =>
    rw [matchTag_cons] at h
    split at h
    · next hn => exact hq a (by simp) hn h
    · exact ih h fun p hp => hq p (by simp [hp])

/-- Closes the step condition of `Exact.field`. -/
macro "field_step " h:ident : tactic => `(tactic|
  (refine matchTag_ok $h (Fails.unexpected _ _) ?_
   clear $h
   simp only [List.forall_mem_cons]
   and_intros
   all_goals first
     | (intro hx hr
        obtain ⟨_, _, h'⟩ := Res.bind_eq_ok.1 hr
        cases h'
        simp [hx])
     | (intro p hp; cases hp)))

theorem Remarks.takes (hL : L.Takes P m) {e : Element} (he : Fine P m e e)
    (hn : e.name = "Remarks") : Exact P (Remarks.parser (L := L) e) (Accepted e) := by
  unfold Remarks.parser Remarks.step
  rw [if_pos hn]
  refine Exact.congr (Exact.bind (tagLoop! he ["RemarksLabel", "Item", "Sentence"]) fun s hs =>
    (?_ : Exact P _ (∃ x ∈ elems e.children, x.name ∈ ["RemarksLabel"]))) ?_
  · rw [← Exact.field (fun s => s.label ≠ none) hs (by simp)]
    · cases s.label with
      | none => exact (Exact.err _).congr (by simp)
      | some v => exact (Exact.ok _).congr (by simp)
    · intro s x s' h
      field_step h
  · rw [Exact.strict hn rfl rfl rfl rfl]
    simp [Exact.AttrsOk, Exact.MustOk]

macro_rules
  | `(tactic| takes_leaf) => `(tactic| with_reducible exact Remarks.takes (by assumption) (by fine!) (by assumption))

end JLaw
