import Verif.Reading.Agree

/-! # What readers may depend on: text and sentences -/

namespace JLaw

variable {L : Lvl} {P : Prop} {m : Nat}

theorem Ruby.agree (hL : L.Agrees P m) {e e' : Element} (he : Fine P m e e') :
    Agree P (Ruby.parser (L := L) e) (Ruby.parser e') := by
  refine Agree.ite_name he (Agree.bind ?_ fun s => Agree.bind (.text hL he _) fun _ => .ok _)
    (.wrong he _)
  have ho : ∀ s x, x.isOther = true → Ruby.step s x = .ok s := by
    intro s x hx
    cases x <;> first | rfl | cases hx
  rw [Agree.foldRes_vis ho _ e.children, Agree.foldRes_vis ho _ e'.children]
  refine Agree.foldRes he.kids (fun s x y hxy => ?_) _
  cases hxy with
  | elem x y h =>
    refine Agree.ite_name h.fine ?_ (.ok _)
    rw [Agree.nodesText h.fine.kids]
    exact .ok _
  | text => exact .ok _
  | other x y hx hy =>
    rw [ho _ _ hx, ho _ _ hy]
    exact .ok _

macro_rules
  | `(tactic| agree_leaf) => `(tactic| with_reducible exact Ruby.agree (by assumption) (by fine!))

theorem firstText_eq {c c' : List XMLNode} (h : KidsAll P m c c') : firstText c = firstText c' := by
  cases h with
  | nil => rfl
  | cons hxy _ =>
    cases hxy with
    | elem | text => rfl
    | other x y hx hy =>
      have ho : ∀ (x : XMLNode) xs, x.isOther = true → firstText (x :: xs) = "" := by
        intro x xs hx
        cases x <;> first | rfl | cases hx
      rw [ho _ _ hx, ho _ _ hy]

theorem Sup.agree {e e' : Element} (he : Fine P m e e') :
    Agree P (Sup.parser e) (Sup.parser e') := by
  refine Agree.ite_pos he (by decide) (fun h => ?_) (.wrong he _)
  rw [firstText_eq h]
  exact .ok _

theorem Sub.agree {e e' : Element} (he : Fine P m e e') :
    Agree P (Sub.parser e) (Sub.parser e') := by
  refine Agree.ite_pos he (by decide) (fun h => ?_) (.wrong he _)
  rw [firstText_eq h]
  exact .ok _

macro_rules
  | `(tactic| agree_leaf) => `(tactic| with_reducible exact Sup.agree (by fine!))
macro_rules
  | `(tactic| agree_leaf) => `(tactic| with_reducible exact Sub.agree (by fine!))

theorem QuoteStruct.agree (hL : L.Agrees P m) {e e' : Element} (he : Fine P m e e') :
    Agree P (QuoteStruct.parser (L := L) e) (QuoteStruct.parser e') := by
  unfold QuoteStruct.parser
  agree

macro_rules
  | `(tactic| agree_leaf) => `(tactic| with_reducible exact QuoteStruct.agree (by assumption) (by fine!))

theorem ArithFormula.agree (hL : L.Agrees P m) {e e' : Element} (he : Fine P m e e') :
    Agree P (ArithFormula.parser (L := L) e) (ArithFormula.parser e') := by
  unfold ArithFormula.parser
  agree

macro_rules
  | `(tactic| agree_leaf) => `(tactic| with_reducible exact ArithFormula.agree (by assumption) (by fine!))

theorem Line.agree (hL : L.Agrees P m) {e e' : Element} (he : Fine P m e e') :
    Agree P (Line.parser (L := L) e) (Line.parser e') := by
  unfold Line.parser LineContents.elem
  rw [he.same.get _ (by decide)]
  agree

macro_rules
  | `(tactic| agree_leaf) => `(tactic| with_reducible exact Line.agree (by assumption) (by fine!))

theorem Text.agree (hL : L.Agrees P m) {c c' : List XMLNode} (hc : Kids P m c c') :
    Agree P (Text.fromChildren (L := L) c) (Text.fromChildren c') := by
  refine Agree.bind (Agree.collect hc ?_ ?_ (fun _ => .ok _) fun e e' he => ?_) fun _ => .ok _
  · intro x hx
    cases x <;> first | rfl | cases hx
  · intro x hx
    cases x <;> first | rfl | cases hx
  · unfold TextElement.ofNode Element.node
    agree

macro_rules
  | `(tactic| agree_leaf) => `(tactic| with_reducible exact Text.agree (by assumption) (by kids!))

theorem TextWithWritingMode.agree (hL : L.Agrees P m) {e e' : Element} (he : Fine P m e e') :
    Agree P (TextWithWritingMode.parser (L := L) e) (TextWithWritingMode.parser e') := by
  unfold TextWithWritingMode.parser
  rw [he.same.get _ (by decide)]
  agree

macro_rules
  | `(tactic| agree_leaf) => `(tactic| with_reducible exact TextWithWritingMode.agree (by assumption) (by fine!))

theorem Sentence.agree (hL : L.Agrees P m) {e e' : Element} (he : Fine P m e e') :
    Agree P (Sentence.parser (L := L) e) (Sentence.parser e') := by
  unfold Sentence.parser SentenceElement.elem
  rw [he.same.get _ (by decide)]
  agree

macro_rules
  | `(tactic| agree_leaf) => `(tactic| with_reducible exact Sentence.agree (by assumption) (by fine!))

end JLaw
