import Verif.Stable.Text

/-! # What readers give on clean elements: columns, tables, lists and structures -/

namespace JLaw

variable {L : Lvl} {K : Keep L}

theorem Caption.gives (hL : L.Reads K) {e : Element} (he : Clean e) :
    Gives (Caption.parser e) (Caption.Keeps K) := by
  unfold Caption.parser
  gives
  assumption

macro_rules
  | `(tactic| gives_leaf) => `(tactic| with_reducible exact Caption.gives (by assumption) (by clean))

theorem Column.gives (hL : L.Reads K) {e : Element} (he : Clean e) :
    Gives (Column.parser e) (Column.Keeps K) := by
  unfold Column.parser
  refine .ite (fun _ => .bind .any fun _ _ => .bind .any fun _ _ => ?_) fun _ => .err _
  exact .bind (.readAll he.kids fun x hx => Sentence.gives hL hx) fun l hl => .ok hl

macro_rules
  | `(tactic| gives_leaf) => `(tactic| with_reducible exact Column.gives (by assumption) (by clean))

/-- Remarks without a label are not read. -/
theorem Remarks.gives {e : Element} (he : Clean e) :
    Gives (Remarks.parser (L := L) e) fun _ => False := by
  unfold Remarks.parser Remarks.step
  refine .ite (fun hn => ?_) fun _ => .err _
  refine .bind (.forElems (fun s : Remarks.St L => s.label = none) he.kids rfl ?_) ?_
  · intro s x hm hx hs
    refine .cons (fun hx' => ?_) ?_
    · obtain ⟨n, a, c⟩ := e
      obtain rfl : n = _ := hn
      obtain ⟨m, b, d⟩ := x
      obtain rfl : m = _ := hx'
      exact (he.not_lossy (.remarks hm)).elim
    · gives
  · intro s hs
    rw [hs]
    exact .err _

macro_rules
  | `(tactic| gives_leaf) => `(tactic| with_reducible exact Remarks.gives (by clean))

theorem TableHeaderRow.gives (hL : L.Reads K) {e : Element} (he : Clean e) :
    Gives (TableHeaderRow.parser e) (TableHeaderRow.Keeps K) := by
  unfold TableHeaderRow.parser
  refine .ite (fun _ => ?_) fun _ => .err _
  exact .bind (.readTagged he.kids fun x hx => Text.gives hL hx.kids) fun l hl => .ok hl

macro_rules
  | `(tactic| gives_leaf) => `(tactic| with_reducible exact TableHeaderRow.gives (by assumption) (by clean))

theorem TableRow.gives (hL : L.Reads K) {e : Element} (he : Clean e) :
    Gives (TableRow.parser e) (TableRow.Keeps K) := by
  unfold TableRow.parser
  refine .ite (fun _ => ?_) fun _ => .err _
  exact .bind (.readTagged he.kids fun x hx => hL.column x hx) fun l hl => .ok hl

macro_rules
  | `(tactic| gives_leaf) => `(tactic| with_reducible exact TableRow.gives (by assumption) (by clean))

theorem Table.gives (hL : L.Reads K) {e : Element} (he : Clean e) :
    Gives (Table.parser e) (Table.Keeps K) := by
  unfold Table.parser Table.step
  refine .ite (fun _ => ?_) fun _ => .err _
  refine .bind (.forElems (fun s : Table.St L => (∀ r ∈ s.table_header_row, r.Keeps K) ∧
    ∀ r ∈ s.table_row, r.Keeps K) he.kids ?_ ?_) fun s hs => .ok hs
  · invs
  · rintro s x - hx ⟨h1, h2⟩
    gives <;> invs

macro_rules
  | `(tactic| gives_leaf) => `(tactic| with_reducible exact Table.gives (by assumption) (by clean))

theorem SentenceOrColumnOrTable.gives (hL : L.Reads K) {e : Element} (he : Clean e) :
    Gives (SentenceOrColumnOrTable.fromElement e) (SentenceOrColumnOrTable.Keeps K) := by
  unfold SentenceOrColumnOrTable.fromElement SentenceOrColumnOrTable.step
  refine .bind (.forElems (fun s : SentenceOrColumnOrTable.St L =>
    OptKeeps (fun t => t.Keeps K) s.table ∧
    (∀ r ∈ s.sentence_list, r.Keeps K) ∧ ∀ r ∈ s.column_list, r.Keeps K) he.kids ?_ ?_) ?_
  · invs
  · rintro s x - hx ⟨h1, h2, h3⟩
    gives <;> invs
  · rintro s ⟨h1, h2, h3⟩
    unfold SentenceOrColumnOrTable.choose
    refine .ite (fun h => .ok ⟨h, h3⟩) fun _ => .ite (fun h => .ok ⟨h, h2⟩) fun _ => ?_
    split
    · exact .ok (h1 _ ‹_›)
    · exact .err _

macro_rules
  | `(tactic| gives_leaf) => `(tactic| with_reducible exact SentenceOrColumnOrTable.gives (by assumption) (by clean))

theorem Style.gives (hL : L.Reads K) {e : Element} (he : Clean e) :
    Gives (Style.parser e) (Style.Keeps K) := by
  unfold Style.parser
  gives
  assumption

theorem Note.gives (hL : L.Reads K) {e : Element} (he : Clean e) :
    Gives (Note.parser e) (Note.Keeps K) := by
  unfold Note.parser
  gives
  assumption

theorem Format.gives (hL : L.Reads K) {e : Element} (he : Clean e) :
    Gives (Format.parser e) (Format.Keeps K) := by
  unfold Format.parser
  gives
  assumption

theorem BodyStruct.gives {τ β : Type} {T : τ → Prop} {B : β → Prop} {titleP : Element → Res τ}
    {bodyP : Element → Res β} (hT : ∀ x, Clean x → Gives (titleP x) T)
    (hB : ∀ x, Clean x → Gives (bodyP x) B) (tag titleTag bodyTag : String) {e : Element}
    (he : Clean e) :
    Gives (BodyStruct.parser (L := L) tag titleTag bodyTag titleP bodyP e) (BodyStruct.Keeps T B) := by
  unfold BodyStruct.parser BodyStruct.step
  refine .ite (fun _ => ?_) fun _ => .err _
  refine .bind (.forElems (fun s : BodyStruct.St L τ β => OptKeeps T s.title ∧ s.title_remarks = [] ∧ OptKeeps B s.body ∧
    s.body_remarks = []) he.kids ?_ ?_) ?_
  · exact ⟨OptKeeps.none, rfl, OptKeeps.none, rfl⟩
  · rintro s x - hx ⟨h1, h2, h3, h4⟩
    refine .cons (fun _ => .bind (hT x hx) fun v hv => .ok ?_) <|
      .cons (fun _ => .bind (.skipErr (Remarks.gives hx)) fun o ho => .ok ?_) <|
      .cons (fun _ => .bind (hB x hx) fun v hv => .ok ?_) <| .nil <| .unexpected _ _
    · invs
    · cases o with
      | none => exact ⟨h1, h2, h3, h4⟩
      | some r => exact (ho r rfl).elim
    · invs
  · rintro s ⟨h1, h2, h3, h4⟩
    split
    · exact .ok ⟨h1, h2, h3 _ ‹_›, h4⟩
    · exact .err _

theorem NoteStruct.gives (hL : L.Reads K) {e : Element} (he : Clean e) :
    Gives (NoteStruct.parser e) (NoteStruct.Keeps K) :=
  BodyStruct.gives (fun _ hx => Text.ofElement_gives hL hx) (fun _ hx => Note.gives hL hx) _ _ _ he

theorem StyleStruct.gives (hL : L.Reads K) {e : Element} (he : Clean e) :
    Gives (StyleStruct.parser e) (StyleStruct.Keeps K) :=
  BodyStruct.gives (fun _ hx => Text.ofElement_gives hL hx) (fun _ hx => Style.gives hL hx) _ _ _ he

theorem FormatStruct.gives (hL : L.Reads K) {e : Element} (he : Clean e) :
    Gives (FormatStruct.parser e) (FormatStruct.Keeps K) :=
  BodyStruct.gives (fun _ hx => Text.ofElement_gives hL hx) (fun _ hx => Format.gives hL hx) _ _ _ he

theorem FigStruct.gives (hL : L.Reads K) {e : Element} (he : Clean e) :
    Gives (FigStruct.parser e) (FigStruct.Keeps K) :=
  BodyStruct.gives (fun _ hx => Text.ofElement_gives hL hx) (fun _ _ => .any) _ _ _ he

theorem TableStruct.gives (hL : L.Reads K) {e : Element} (he : Clean e) :
    Gives (TableStruct.parser e) (TableStruct.Keeps K) :=
  BodyStruct.gives (fun _ hx => TextWithWritingMode.gives hL hx) (fun _ hx => Table.gives hL hx)
    _ _ _ he

macro_rules
  | `(tactic| gives_leaf) => `(tactic| with_reducible exact NoteStruct.gives (by assumption) (by clean))
macro_rules
  | `(tactic| gives_leaf) => `(tactic| with_reducible exact StyleStruct.gives (by assumption) (by clean))
macro_rules
  | `(tactic| gives_leaf) => `(tactic| with_reducible exact FormatStruct.gives (by assumption) (by clean))
macro_rules
  | `(tactic| gives_leaf) => `(tactic| with_reducible exact FigStruct.gives (by assumption) (by clean))
macro_rules
  | `(tactic| gives_leaf) => `(tactic| with_reducible exact TableStruct.gives (by assumption) (by clean))

/-! ## Lists -/

theorem ListSentence.gives (hL : L.Reads K) (o : Element) {e : Element} (he : Clean e) :
    Gives (ListSentence.parser o e) (ListSentence.Keeps K) := by
  unfold ListSentence.parser
  gives <;> assumption

theorem listSentences_gives (hL : L.Reads K) (a b : String) {e : Element} (he : Clean e) :
    Gives (listSentences a b e) fun l => ∀ s ∈ l, ListSentence.Keeps K s := by
  unfold listSentences
  split
  · rename_i n a c r heq
    refine .ite (fun _ => ?_) fun _ => .err _
    have hc : Clean ⟨n, a, c⟩ := he.kids.elem (by rw [heq]; simp)
    exact .readAll hc.kids fun x hx => ListSentence.gives hL e hx
  · exact .err _

theorem ListOf.gives (hL : L.Reads K) {γ : Type} {C : γ → Prop} {childP : Element → Res γ}
    (hC : ∀ x, Clean x → Gives (childP x) C) (tag a b : String) {e : Element} (he : Clean e) :
    Gives (ListOf.parser (L := L) tag a b childP e) (ListOf.Keeps K C) := by
  unfold ListOf.parser
  refine .ite (fun _ => ?_) fun _ => .err _
  exact .bind (listSentences_gives hL a b he) fun l hl =>
    .bind (.readAll he.kids.tail hC) fun m hm => .ok ⟨hl, hm⟩

theorem Sublist3.gives (hL : L.Reads K) {e : Element} (he : Clean e) :
    Gives (Sublist3.parser e) (Sublist3.Keeps K) := by
  unfold Sublist3.parser
  refine .ite (fun _ => ?_) fun _ => .err _
  exact .bind (listSentences_gives hL _ _ he) fun l hl => .ok hl

theorem Sublist2.gives (hL : L.Reads K) {e : Element} (he : Clean e) :
    Gives (Sublist2.parser e) (Sublist2.Keeps K) :=
  ListOf.gives hL (fun _ hx => Sublist3.gives hL hx) _ _ _ he

theorem Sublist1.gives (hL : L.Reads K) {e : Element} (he : Clean e) :
    Gives (Sublist1.parser e) (Sublist1.Keeps K) :=
  ListOf.gives hL (fun _ hx => Sublist2.gives hL hx) _ _ _ he

theorem LawList.gives (hL : L.Reads K) {e : Element} (he : Clean e) :
    Gives (LawList.parser e) (LawList.Keeps K) :=
  ListOf.gives hL (fun _ hx => Sublist1.gives hL hx) _ _ _ he

macro_rules
  | `(tactic| gives_leaf) => `(tactic| with_reducible exact LawList.gives (by assumption) (by clean))

end JLaw
