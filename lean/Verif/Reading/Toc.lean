import Verif.Reading.Article

/-! # What readers may depend on: tables of contents -/

namespace JLaw

variable {L : Lvl} {P : Prop} {m : Nat}

theorem TOCOf.agree (hL : L.Agrees P m) {γ : Type} {arms : List (String × (Element → Res γ))}
    (ha : Agree.Arms P m arms) (tag titleTag : String) {e e' : Element} (he : Fine P m e e') :
    Agree P (TOCOf.parser (L := L) tag titleTag arms e) (TOCOf.parser tag titleTag arms e') := by
  unfold TOCOf.parser TOCOf.step
  agree

theorem TOCDivision.agree (hL : L.Agrees P m) {e e' : Element} (he : Fine P m e e') :
    Agree P (TOCDivision.parser (L := L) e) (TOCDivision.parser e') :=
  TOCOf.agree hL Agree.arms_nil _ _ he

macro_rules
  | `(tactic| agree_leaf) => `(tactic| with_reducible exact TOCDivision.agree (by assumption) (by fine!))

theorem TOCSubsection.agree (hL : L.Agrees P m) {e e' : Element} (he : Fine P m e e') :
    Agree P (TOCSubsection.parser (L := L) e) (TOCSubsection.parser e') :=
  TOCOf.agree hL (by agree) _ _ he

macro_rules
  | `(tactic| agree_leaf) => `(tactic| with_reducible exact TOCSubsection.agree (by assumption) (by fine!))

theorem TOCSection.agree (hL : L.Agrees P m) {e e' : Element} (he : Fine P m e e') :
    Agree P (TOCSection.parser (L := L) e) (TOCSection.parser e') :=
  TOCOf.agree hL (by unfold TOCSectionContents.arms; agree) _ _ he

macro_rules
  | `(tactic| agree_leaf) => `(tactic| with_reducible exact TOCSection.agree (by assumption) (by fine!))

theorem TOCChapter.agree (hL : L.Agrees P m) {e e' : Element} (he : Fine P m e e') :
    Agree P (TOCChapter.parser (L := L) e) (TOCChapter.parser e') :=
  TOCOf.agree hL (by agree) _ _ he

macro_rules
  | `(tactic| agree_leaf) => `(tactic| with_reducible exact TOCChapter.agree (by assumption) (by fine!))

theorem TOCPart.agree (hL : L.Agrees P m) {e e' : Element} (he : Fine P m e e') :
    Agree P (TOCPart.parser (L := L) e) (TOCPart.parser e') :=
  TOCOf.agree hL (by agree) _ _ he

macro_rules
  | `(tactic| agree_leaf) => `(tactic| with_reducible exact TOCPart.agree (by assumption) (by fine!))

theorem TOCArticle.agree (hL : L.Agrees P m) {e e' : Element} (he : Fine P m e e') :
    Agree P (TOCArticle.parser (L := L) e) (TOCArticle.parser e') := by
  unfold TOCArticle.parser TOCArticle.step
  agree
  split <;> agree

macro_rules
  | `(tactic| agree_leaf) => `(tactic| with_reducible exact TOCArticle.agree (by assumption) (by fine!))

theorem TOCSupplProvision.agree (hL : L.Agrees P m) {e e' : Element} (he : Fine P m e e') :
    Agree P (TOCSupplProvision.parser (L := L) e) (TOCSupplProvision.parser e') := by
  unfold TOCSupplProvision.parser TOCSupplProvision.step
  agree

macro_rules
  | `(tactic| agree_leaf) => `(tactic| with_reducible exact TOCSupplProvision.agree (by assumption) (by fine!))

theorem TOC.agree (hL : L.Agrees P m) {e e' : Element} (he : Fine P m e e') :
    Agree P (TOC.parser (L := L) e) (TOC.parser e') := by
  unfold TOC.parser TOC.step
  agree

macro_rules
  | `(tactic| agree_leaf) => `(tactic| with_reducible exact TOC.agree (by assumption) (by fine!))

end JLaw
