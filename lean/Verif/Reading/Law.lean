import Verif.Reading.Appdx
import Verif.Reading.Toc

/-! # What readers may depend on: the law, cells, raw contents and amendments -/

namespace JLaw

variable {L : Lvl} {P : Prop} {m : Nat}

theorem LawTitle.agree (hL : L.Agrees P m) {e e' : Element} (he : Fine P m e e') :
    Agree P (LawTitle.parser (L := L) e) (LawTitle.parser e') := by
  unfold LawTitle.parser
  agree

macro_rules
  | `(tactic| agree_leaf) => `(tactic| with_reducible exact LawTitle.agree (by assumption) (by fine!))

theorem Preamble.agree (hL : L.Agrees P m) {e e' : Element} (he : Fine P m e e') :
    Agree P (Preamble.parser (L := L) e) (Preamble.parser e') := by
  unfold Preamble.parser
  agree

macro_rules
  | `(tactic| agree_leaf) => `(tactic| with_reducible exact Preamble.agree (by assumption) (by fine!))

theorem MainProvisionContents.arms_agree (hL : L.Agrees P m) :
    Agree.Arms P m (MainProvisionContents.arms (L := L)) := by
  unfold MainProvisionContents.arms
  agree

theorem MainProvision.agree (hL : L.Agrees P m) {e e' : Element} (he : Fine P m e e') :
    Agree P (MainProvision.parser (L := L) e) (MainProvision.parser e') := by
  unfold MainProvision.parser
  agree
  exact Agree.matchTag (MainProvisionContents.arms_agree hL) (by assumption) (.unexpected he (by assumption))

macro_rules
  | `(tactic| agree_leaf) => `(tactic| with_reducible exact MainProvision.agree (by assumption) (by fine!))

theorem LawBody.agree (hL : L.Agrees P m) {e e' : Element} (he : Fine P m e e') :
    Agree P (LawBody.parser (L := L) e) (LawBody.parser e') := by
  unfold LawBody.parser LawBody.step
  agree
  split <;> agree

macro_rules
  | `(tactic| agree_leaf) => `(tactic| with_reducible exact LawBody.agree (by assumption) (by fine!))

theorem Law.usizeOf_agree {e e' : Element} (he : Fine P m e e') {k : String}
    (hk : knownAttrs.contains k = true) : Agree P (Law.usizeOf e k) (Law.usizeOf e' k) := by
  unfold Law.usizeOf
  rw [he.same.get _ hk]
  split
  · agree
  · split
    · agree
    · split <;> agree

theorem Law.agree (hL : L.Agrees P m) {e e' : Element} (he : Fine P m e e')
    (hnum : e.attributes.get "Num" = none → P) :
    Agree P (Law.parser (L := L) e) (Law.parser e') := by
  refine Agree.ite_pos he (by decide) (fun hc => ?_) (.wrong he _)
  rw [he.same.name]
  simp (disch := decide) only [he.same.get]
  refine Agree.bind (by agree) fun era => Agree.bind (by agree) fun year =>
    Agree.bind ?_ fun num => Agree.bind (Law.usizeOf_agree he (by decide)) fun month =>
    Agree.bind (Law.usizeOf_agree he (by decide)) fun day => Agree.bind (by agree) fun law_type =>
    Agree.bind (by agree) fun lang => Agree.bind ?_ fun law_num => ?_
  · unfold Law.numOf
    rw [he.same.get _ (by decide)] at hnum ⊢
    cases h : e'.attributes.get "Num" with
    | none => exact ⟨rfl, hnum h⟩
    | some s =>
      simp only [Res.unwrap, Res.bind_ok]
      split <;> agree
  · unfold Law.lawNumOf
    generalize e.children = c at hc ⊢
    generalize e'.children = c' at hc ⊢
    cases hc with
    | nil => exact .err _
    | @cons x y _ _ hxy _ =>
      cases hxy with
      | elem x y h =>
        simp only [Element.node, ← h.same.name, Agree.nodesText h.fine.kids]
        split <;> agree
      | text => exact .err _
      | other _ _ hx hy => cases x <;> cases y <;> first | exact .err _ | (cases hx; done) | cases hy
  · unfold Law.bodyOf
    generalize e.children = c at hc ⊢
    generalize e'.children = c' at hc ⊢
    cases hc with
    | nil => exact .err _
    | cons _ hc =>
      cases hc with
      | nil => exact .err _
      | @cons x y _ _ hxy _ =>
        cases hxy with
        | elem x y h =>
          simp only [Element.node, Res.bind_ok]
          exact Agree.bind (LawBody.agree hL h.fine) fun _ => .ok _
        | text => exact .err _
        | other _ _ hx hy => cases x <;> cases y <;> first | exact .err _ | (cases hx; done) | cases hy

theorem TableColumnContents.arms_agree (hL : L.Agrees P m) :
    Agree.Arms P m (TableColumnContents.arms (L := L)) := by
  unfold TableColumnContents.arms
  agree

theorem TableColumn.agree (hL : L.Agrees P m) {e e' : Element} (he : Fine P m e e') :
    Agree P (TableColumn.parser (L := L) e) (TableColumn.parser e') := by
  unfold TableColumn.parser TableColumn.border
  simp (disch := decide) only [he.same.get]
  agree
  exact Agree.matchTag (TableColumnContents.arms_agree hL) (by assumption) (.unexpected he (by assumption))

macro_rules
  | `(tactic| agree_leaf) => `(tactic| with_reducible exact TableColumn.agree (by assumption) (by fine!))

theorem ContentsElement.arms_agree (hL : L.Agrees P m) :
    Agree.Arms P (m + 1) (ContentsElement.arms (L := L)) := by
  unfold ContentsElement.arms
  agree

theorem Contents.agree (hL : L.Agrees P m) {e e' : Element} (he : Fine P (m + 1) e e') :
    Agree P (Contents.parser (L := L) e) (Contents.parser e') := by
  unfold Contents.parser
  agree
  exact Agree.matchTag (ContentsElement.arms_agree hL) (by assumption) (.unexpected he (by assumption))

theorem NewProvision.arms_agree (hL : L.Agrees P m) :
    Agree.Arms P m (NewProvision.arms (L := L)) := by
  unfold NewProvision.arms
  agree

theorem AmendProvision.sentenceOf_agree (hL : L.Agrees P m) {e e' : Element}
    (hc : KidsAll P m e.children e'.children) :
    Agree P (AmendProvision.sentenceOf (L := L) e) (AmendProvision.sentenceOf e') := by
  unfold AmendProvision.sentenceOf
  generalize e.children = c at hc ⊢
  generalize e'.children = c' at hc ⊢
  cases hc with
  | nil => exact .err _
  | @cons x y _ _ hxy _ =>
    cases hxy with
    | elem x y h => exact Sentence.agree hL h.fine
    | text => exact .err _
    | other _ _ hx hy => cases x <;> cases y <;> first | exact .err _ | (cases hx; done) | cases hy

theorem AmendProvision.agree (hL : L.Agrees P m) {e e' : Element} (he : Fine P m e e') :
    Agree P (AmendProvision.parser (L := L) e) (AmendProvision.parser e') := by
  unfold AmendProvision.parser AmendProvision.step
  refine Agree.ite_name he (Agree.bind (Agree.forElems he.kids (fun s x y hxy => ?_) _) fun _ =>
    .ok _) (.wrong he _)
  refine Agree.matchTag_cons_pos hxy (by decide) (fun hc =>
    Agree.bind (AmendProvision.sentenceOf_agree hL hc) fun _ => .ok _) ?_
  agree
  exact Agree.matchTag (NewProvision.arms_agree hL) (by assumption)
    (.unexpected he (by assumption))

macro_rules
  | `(tactic| agree_leaf) => `(tactic| with_reducible exact AmendProvision.agree (by assumption) (by fine!))

/-! ## All levels -/

theorem Lvl.Agrees.zero : Lvl.zero.Agrees P 0 where
  text h := by omega
  contents e _ h := by
    have : heightList e.children + 1 ≤ 0 := h.height
    omega
  item e _ h := absurd h.height (by omega)
  column e _ h := absurd h.height (by omega)
  amend e _ h := absurd h.height (by omega)

theorem Lvl.Agrees.succ (hL : L.Agrees P m) : L.succ.Agrees P (m + 1) where
  text _ _ := trivial
  contents _ _ h := Contents.agree hL h
  item _ _ h := Item.agree hL h.pred
  column _ _ h := TableColumn.agree hL h.pred
  amend _ _ h := AmendProvision.agree hL h.pred

theorem lvl_agrees (P : Prop) : ∀ n, (lvl n).Agrees P n
  | 0 => .zero
  | n + 1 => (lvl_agrees P n).succ

end JLaw
