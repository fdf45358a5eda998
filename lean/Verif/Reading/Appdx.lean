import Verif.Reading.Article

/-! # What readers may depend on: appendices and supplementary provisions -/

namespace JLaw

variable {L : Lvl} {P : Prop} {m : Nat}

theorem AppdxOf.agree (hL : L.Agrees P m) {γ : Type} {arms : List (String × (Element → Res γ))}
    (ha : Agree.Arms P m arms) (tag titleTag : String) {e e' : Element} (he : Fine P m e e') :
    Agree P (AppdxOf.parser (L := L) tag titleTag arms e) (AppdxOf.parser tag titleTag arms e') := by
  unfold AppdxOf.parser AppdxOf.step
  agree

theorem AppdxTable.agree (hL : L.Agrees P m) {e e' : Element} (he : Fine P m e e') :
    Agree P (AppdxTable.parser (L := L) e) (AppdxTable.parser e') :=
  AppdxOf.agree hL (by unfold AppdxTableContents.arms; agree) _ _ he

macro_rules
  | `(tactic| agree_leaf) => `(tactic| with_reducible exact AppdxTable.agree (by assumption) (by fine!))

theorem AppdxNote.agree (hL : L.Agrees P m) {e e' : Element} (he : Fine P m e e') :
    Agree P (AppdxNote.parser (L := L) e) (AppdxNote.parser e') :=
  AppdxOf.agree hL (by unfold AppdxNoteContents.arms; agree) _ _ he

macro_rules
  | `(tactic| agree_leaf) => `(tactic| with_reducible exact AppdxNote.agree (by assumption) (by fine!))

theorem AppdxStyle.agree (hL : L.Agrees P m) {e e' : Element} (he : Fine P m e e') :
    Agree P (AppdxStyle.parser (L := L) e) (AppdxStyle.parser e') :=
  AppdxOf.agree hL (by agree) _ _ he

macro_rules
  | `(tactic| agree_leaf) => `(tactic| with_reducible exact AppdxStyle.agree (by assumption) (by fine!))

theorem AppdxFormat.agree (hL : L.Agrees P m) {e e' : Element} (he : Fine P m e e') :
    Agree P (AppdxFormat.parser (L := L) e) (AppdxFormat.parser e') :=
  AppdxOf.agree hL (by agree) _ _ he

macro_rules
  | `(tactic| agree_leaf) => `(tactic| with_reducible exact AppdxFormat.agree (by assumption) (by fine!))

theorem Appdx.agree (hL : L.Agrees P m) {e e' : Element} (he : Fine P m e e') :
    Agree P (Appdx.parser (L := L) e) (Appdx.parser e') := by
  unfold Appdx.parser Appdx.step
  agree

macro_rules
  | `(tactic| agree_leaf) => `(tactic| with_reducible exact Appdx.agree (by assumption) (by fine!))

theorem AppdxFig.agree (hL : L.Agrees P m) {e e' : Element} (he : Fine P m e e') :
    Agree P (AppdxFig.parser (L := L) e) (AppdxFig.parser e') := by
  unfold AppdxFig.parser AppdxFig.step
  agree

macro_rules
  | `(tactic| agree_leaf) => `(tactic| with_reducible exact AppdxFig.agree (by assumption) (by fine!))

theorem SupplAppdxOf.agree (hL : L.Agrees P m) {γ : Type} {structP : Element → Res γ}
    {dflt : Element → Element → Err}
    (h : ∀ {e e' : Element}, Fine P m e e' → Agree P (structP e) (structP e'))
    (hd : ∀ o o' e e' : Element, o.name = o'.name → e.name = e'.name → dflt o e = dflt o' e')
    (tag titleTag structTag missing wrong : String) {e e' : Element} (he : Fine P m e e') :
    Agree P (SupplAppdxOf.parser (L := L) tag titleTag structTag missing wrong structP dflt e)
      (SupplAppdxOf.parser tag titleTag structTag missing wrong structP dflt e') := by
  unfold SupplAppdxOf.parser SupplAppdxOf.step
  agree
  · exact h (by fine!)
  · next x y hxy =>
    rw [hd e e' x y he.same.name hxy.same.name]
    exact .err _
  · split <;> agree

theorem SupplProvisionAppdxTable.agree (hL : L.Agrees P m) {e e' : Element} (he : Fine P m e e') :
    Agree P (SupplProvisionAppdxTable.parser (L := L) e) (SupplProvisionAppdxTable.parser e') :=
  SupplAppdxOf.agree hL (TableStruct.agree hL)
    (fun _ _ _ _ _ h => by simp [wrongTagName, h]) _ _ _ _ _ he

macro_rules
  | `(tactic| agree_leaf) => `(tactic| with_reducible exact SupplProvisionAppdxTable.agree (by assumption) (by fine!))

theorem SupplProvisionAppdxStyle.agree (hL : L.Agrees P m) {e e' : Element} (he : Fine P m e e') :
    Agree P (SupplProvisionAppdxStyle.parser (L := L) e) (SupplProvisionAppdxStyle.parser e') :=
  SupplAppdxOf.agree hL (StyleStruct.agree hL)
    (fun _ _ _ _ h h' => by simp [unexpectedTag, h, h']) _ _ _ _ _ he

macro_rules
  | `(tactic| agree_leaf) => `(tactic| with_reducible exact SupplProvisionAppdxStyle.agree (by assumption) (by fine!))

theorem SupplProvisionAppdx.agree (hL : L.Agrees P m) {e e' : Element} (he : Fine P m e e') :
    Agree P (SupplProvisionAppdx.parser (L := L) e) (SupplProvisionAppdx.parser e') := by
  unfold SupplProvisionAppdx.parser SupplProvisionAppdx.step
  agree

macro_rules
  | `(tactic| agree_leaf) => `(tactic| with_reducible exact SupplProvisionAppdx.agree (by assumption) (by fine!))

theorem SupplProvisionType.agree (o : Option String) :
    Agree P (SupplProvisionType.fromAttr o) (SupplProvisionType.fromAttr o) := by
  unfold SupplProvisionType.fromAttr
  split <;> agree

macro_rules
  | `(tactic| agree_leaf) => `(tactic| with_reducible exact SupplProvisionType.agree _)

theorem SupplProvision.agree (hL : L.Agrees P m) {e e' : Element} (he : Fine P m e e') :
    Agree P (SupplProvision.parser (L := L) e) (SupplProvision.parser e') := by
  unfold SupplProvision.parser SupplProvision.step
  simp (disch := decide) only [he.same.get]
  agree

macro_rules
  | `(tactic| agree_leaf) => `(tactic| with_reducible exact SupplProvision.agree (by assumption) (by fine!))

end JLaw
