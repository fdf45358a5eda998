import Verif.Reading.Text

/-! # What readers may depend on: captions, tables, lists and structures -/

namespace JLaw

variable {L : Lvl} {P : Prop} {m : Nat}

theorem Caption.agree (hL : L.Agrees P m) {e e' : Element} (he : Fine P m e e') :
    Agree P (Caption.parser (L := L) e) (Caption.parser e') := by
  unfold Caption.parser
  agree

macro_rules
  | `(tactic| agree_leaf) => `(tactic| with_reducible exact Caption.agree (by assumption) (by fine!))

theorem Column.agree (hL : L.Agrees P m) {e e' : Element} (he : Fine P m e e') :
    Agree P (Column.parser (L := L) e) (Column.parser e') := by
  unfold Column.parser
  simp (disch := decide) only [he.same.get]
  agree

macro_rules
  | `(tactic| agree_leaf) => `(tactic| with_reducible exact Column.agree (by assumption) (by fine!))

theorem Fig.agree {e e' : Element} (he : Fine P m e e') :
    Agree P (Fig.parser e) (Fig.parser e') := by
  unfold Fig.parser
  rw [he.same.get _ (by decide)]
  agree

macro_rules
  | `(tactic| agree_leaf) => `(tactic| with_reducible exact Fig.agree (by fine!))

theorem RemarksLabel.agree (hL : L.Agrees P m) {e e' : Element} (he : Fine P m e e') :
    Agree P (RemarksLabel.parser (L := L) e) (RemarksLabel.parser e') := by
  unfold RemarksLabel.parser
  agree

macro_rules
  | `(tactic| agree_leaf) => `(tactic| with_reducible exact RemarksLabel.agree (by assumption) (by fine!))

theorem Remarks.agree (hL : L.Agrees P m) {e e' : Element} (he : Fine P m e e') :
    Agree P (Remarks.parser (L := L) e) (Remarks.parser e') := by
  unfold Remarks.parser Remarks.step
  agree
  split <;> agree

macro_rules
  | `(tactic| agree_leaf) => `(tactic| with_reducible exact Remarks.agree (by assumption) (by fine!))

theorem TableHeaderRow.agree (hL : L.Agrees P m) {e e' : Element} (he : Fine P m e e') :
    Agree P (TableHeaderRow.parser (L := L) e) (TableHeaderRow.parser e') := by
  unfold TableHeaderRow.parser
  agree

macro_rules
  | `(tactic| agree_leaf) => `(tactic| with_reducible exact TableHeaderRow.agree (by assumption) (by fine!))

theorem TableRow.agree (hL : L.Agrees P m) {e e' : Element} (he : Fine P m e e') :
    Agree P (TableRow.parser (L := L) e) (TableRow.parser e') := by
  unfold TableRow.parser
  agree

macro_rules
  | `(tactic| agree_leaf) => `(tactic| with_reducible exact TableRow.agree (by assumption) (by fine!))

theorem Table.agree (hL : L.Agrees P m) {e e' : Element} (he : Fine P m e e') :
    Agree P (Table.parser (L := L) e) (Table.parser e') := by
  unfold Table.parser Table.step
  simp (disch := decide) only [he.same.get]
  agree

macro_rules
  | `(tactic| agree_leaf) => `(tactic| with_reducible exact Table.agree (by assumption) (by fine!))

theorem SentenceOrColumnOrTable.agree (hL : L.Agrees P m) {e e' : Element} (he : Fine P m e e') :
    Agree P (SentenceOrColumnOrTable.fromElement (L := L) e) (SentenceOrColumnOrTable.fromElement e') := by
  unfold SentenceOrColumnOrTable.fromElement SentenceOrColumnOrTable.step SentenceOrColumnOrTable.choose
  agree
  split
  · agree
  · split
    · agree
    · split <;> agree

macro_rules
  | `(tactic| agree_leaf) => `(tactic| with_reducible exact SentenceOrColumnOrTable.agree (by assumption) (by fine!))

theorem Style.agree (hL : L.Agrees P m) {e e' : Element} (he : Fine P m e e') :
    Agree P (Style.parser (L := L) e) (Style.parser e') := by
  unfold Style.parser
  agree

macro_rules
  | `(tactic| agree_leaf) => `(tactic| with_reducible exact Style.agree (by assumption) (by fine!))

theorem Note.agree (hL : L.Agrees P m) {e e' : Element} (he : Fine P m e e') :
    Agree P (Note.parser (L := L) e) (Note.parser e') := by
  unfold Note.parser
  agree

macro_rules
  | `(tactic| agree_leaf) => `(tactic| with_reducible exact Note.agree (by assumption) (by fine!))

theorem Format.agree (hL : L.Agrees P m) {e e' : Element} (he : Fine P m e e') :
    Agree P (Format.parser (L := L) e) (Format.parser e') := by
  unfold Format.parser
  agree

macro_rules
  | `(tactic| agree_leaf) => `(tactic| with_reducible exact Format.agree (by assumption) (by fine!))

theorem Text.ofElement_agree (hL : L.Agrees P m) {e e' : Element} (he : Fine P m e e') :
    Agree P (Text.ofElement (L := L) e) (Text.ofElement e') := by
  unfold Text.ofElement
  agree

macro_rules
  | `(tactic| agree_leaf) => `(tactic| with_reducible exact Text.ofElement_agree (by assumption) (by fine!))

theorem BodyStruct.agree (hL : L.Agrees P m) {τ β : Type} {titleP : Element → Res τ}
    {bodyP : Element → Res β}
    (ht : ∀ {e e' : Element}, Fine P m e e' → Agree P (titleP e) (titleP e'))
    (hb : ∀ {e e' : Element}, Fine P m e e' → Agree P (bodyP e) (bodyP e'))
    (tag titleTag bodyTag : String) {e e' : Element} (he : Fine P m e e') :
    Agree P (BodyStruct.parser (L := L) tag titleTag bodyTag titleP bodyP e)
      (BodyStruct.parser tag titleTag bodyTag titleP bodyP e') := by
  unfold BodyStruct.parser BodyStruct.step
  agree
  · exact ht (by fine!)
  · exact hb (by fine!)
  · split <;> agree

theorem NoteStruct.agree (hL : L.Agrees P m) {e e' : Element} (he : Fine P m e e') :
    Agree P (NoteStruct.parser (L := L) e) (NoteStruct.parser e') :=
  BodyStruct.agree hL (Text.ofElement_agree hL) (Note.agree hL) _ _ _ he

macro_rules
  | `(tactic| agree_leaf) => `(tactic| with_reducible exact NoteStruct.agree (by assumption) (by fine!))

theorem StyleStruct.agree (hL : L.Agrees P m) {e e' : Element} (he : Fine P m e e') :
    Agree P (StyleStruct.parser (L := L) e) (StyleStruct.parser e') :=
  BodyStruct.agree hL (Text.ofElement_agree hL) (Style.agree hL) _ _ _ he

macro_rules
  | `(tactic| agree_leaf) => `(tactic| with_reducible exact StyleStruct.agree (by assumption) (by fine!))

theorem FormatStruct.agree (hL : L.Agrees P m) {e e' : Element} (he : Fine P m e e') :
    Agree P (FormatStruct.parser (L := L) e) (FormatStruct.parser e') :=
  BodyStruct.agree hL (Text.ofElement_agree hL) (Format.agree hL) _ _ _ he

macro_rules
  | `(tactic| agree_leaf) => `(tactic| with_reducible exact FormatStruct.agree (by assumption) (by fine!))

theorem FigStruct.agree (hL : L.Agrees P m) {e e' : Element} (he : Fine P m e e') :
    Agree P (FigStruct.parser (L := L) e) (FigStruct.parser e') :=
  BodyStruct.agree hL (Text.ofElement_agree hL) Fig.agree _ _ _ he

macro_rules
  | `(tactic| agree_leaf) => `(tactic| with_reducible exact FigStruct.agree (by assumption) (by fine!))

theorem TableStruct.agree (hL : L.Agrees P m) {e e' : Element} (he : Fine P m e e') :
    Agree P (TableStruct.parser (L := L) e) (TableStruct.parser e') :=
  BodyStruct.agree hL (TextWithWritingMode.agree hL) (Table.agree hL) _ _ _ he

macro_rules
  | `(tactic| agree_leaf) => `(tactic| with_reducible exact TableStruct.agree (by assumption) (by fine!))

theorem listSentences_agree (hL : L.Agrees P m) {e e' : Element} (he : Fine P m e e')
    (hc : KidsAll P m e.children e'.children) (sentTag errName : String) :
    Agree P (listSentences (L := L) sentTag errName e) (listSentences sentTag errName e') := by
  unfold listSentences
  have hw := Agree.wrong (α := List (ListSentence L)) he errName
  generalize e.children = c at hc ⊢
  generalize e'.children = c' at hc ⊢
  cases hc with
  | nil => exact hw
  | @cons x y _ _ hxy _ =>
    cases hxy with
    | elem x y h =>
      refine Agree.ite_name h.fine ?_ hw
      unfold ListSentence.parser
      agree
    | text => exact hw
    | other _ _ hx hy => cases x <;> cases y <;> first | exact hw | (cases hx; done) | cases hy

theorem ListOf.agree (hL : L.Agrees P m) {γ : Type} {childP : Element → Res γ}
    (h : ∀ {e e' : Element}, Fine P m e e' → Agree P (childP e) (childP e'))
    {tag : String} (hp : positionalTags.contains tag = true) (sentTag errName : String)
    {e e' : Element} (he : Fine P m e e') :
    Agree P (ListOf.parser (L := L) tag sentTag errName childP e)
      (ListOf.parser tag sentTag errName childP e') := by
  refine Agree.ite_pos he hp (fun hc => ?_) (.wrong he _)
  refine Agree.bind (listSentences_agree hL he hc _ _) fun _ => ?_
  agree
  exact h (by fine!)

theorem Sublist3.agree (hL : L.Agrees P m) {e e' : Element} (he : Fine P m e e') :
    Agree P (Sublist3.parser (L := L) e) (Sublist3.parser e') := by
  refine Agree.ite_pos he (by decide) (fun hc => ?_) (.wrong he _)
  exact Agree.bind (listSentences_agree hL he hc _ _) fun _ => .ok _

theorem Sublist2.agree (hL : L.Agrees P m) {e e' : Element} (he : Fine P m e e') :
    Agree P (Sublist2.parser (L := L) e) (Sublist2.parser e') :=
  ListOf.agree hL (Sublist3.agree hL) (by decide) _ _ he

macro_rules
  | `(tactic| agree_leaf) => `(tactic| with_reducible exact Sublist2.agree (by assumption) (by fine!))

theorem Sublist1.agree (hL : L.Agrees P m) {e e' : Element} (he : Fine P m e e') :
    Agree P (Sublist1.parser (L := L) e) (Sublist1.parser e') :=
  ListOf.agree hL (Sublist2.agree hL) (by decide) _ _ he

macro_rules
  | `(tactic| agree_leaf) => `(tactic| with_reducible exact Sublist1.agree (by assumption) (by fine!))

theorem LawList.agree (hL : L.Agrees P m) {e e' : Element} (he : Fine P m e e') :
    Agree P (LawList.parser (L := L) e) (LawList.parser e') :=
  ListOf.agree hL (Sublist1.agree hL) (by decide) _ _ he

macro_rules
  | `(tactic| agree_leaf) => `(tactic| with_reducible exact LawList.agree (by assumption) (by fine!))

end JLaw
