import Verif.RoundTrip.Text

/-! # Round trips: captions, columns, remarks, tables, lists and structures -/

namespace JLaw

variable {L : Lvl} {K : Keep L}

theorem Caption.round_trip (hL : L.Sound K) (x : Caption L) (name : String) :
    Caption.parser (x.toXml name) = .ok x ↔ x.Keeps K := by
  obtain ⟨t, b⟩ := x
  simp only [Caption.Keeps, ← Text.fromChildren_toChildren hL]
  unfold Caption.parser
  rw [getOpt_of_get parseBool boolStr parseBool_boolStr _ _ b (by simp [Caption.toXml])]
  simp [Caption.toXml, Res.bind_eq_ok]

theorem Align.fromAttr_toAttr (o : Option Align) : Align.fromAttr (o.map Align.toAttr) = o := by
  cases o with
  | none => rfl
  | some a => cases a <;> rfl

theorem Column.toXml_name (x : Column L) : x.toXml.name = "Column" := rfl

theorem Column.round_trip (hL : L.Sound K) (x : Column L) :
    Column.parser x.toXml = .ok x ↔ x.Keeps K := by
  obtain ⟨s, n, b, a⟩ := x
  simp only [Column.Keeps, ← Sentence.round_trip hL, ← mapRes_eq_self]
  unfold Column.parser
  rw [if_pos (Column.toXml_name _),
    getOpt_of_get parseUsizeStr usizeStr parseUsizeStr_usizeStr _ _ n (by simp [Column.toXml]),
    getBool_of_some _ _ b (by simp [Column.toXml])]
  simp [Column.toXml, readAll_map, Res.bind_eq_ok, Align.fromAttr_toAttr]

theorem Fig.round_trip (x : Fig) : Fig.parser x.toXml = .ok x := by
  simp [Fig.parser, Fig.toXml, Res.ofOption]

theorem RemarksLabel.toXml_name (x : RemarksLabel L) : x.toXml.name = "RemarksLabel" := rfl

theorem RemarksLabel.round_trip (hL : L.Sound K) (x : RemarksLabel L) :
    RemarksLabel.parser x.toXml = .ok x ↔ x.Keeps K := by
  obtain ⟨t, b⟩ := x
  simp only [RemarksLabel.Keeps, ← Text.fromChildren_toChildren hL]
  unfold RemarksLabel.parser
  rw [if_pos (RemarksLabel.toXml_name ..),
    getBool_of_get _ _ b (by simp [RemarksLabel.toXml])]
  simp [RemarksLabel.toXml, Res.bind_eq_ok]

/-- Reader of one piece of remarks. -/
def RemarksContents.read : RemarksContents L → Res (RemarksContents L)
  | .item v => (L.itemParser (L.itemToXml v)).bind fun v => .ok (.item v)
  | .sentence v => (Sentence.parser v.toXml).bind fun v => .ok (.sentence v)

/-- The children of remarks: the label stays unset. -/
theorem Remarks.fold (hL : L.Sound K) (e : Element) (l : List (RemarksContents L))
    (s : Remarks.St L) :
    forElems (Remarks.step e) s (l.map fun c => c.toXml.node) =
      (mapRes RemarksContents.read l).bind fun ys => .ok { s with children := s.children ++ ys } := by
  refine foldRes_push (fun s : Remarks.St L => s.children) (fun s v => { s with children := v })
    _ _ (fun s x => ?_) (fun _ _ => rfl) (fun _ _ _ => rfl) (fun _ => rfl) l s
  cases x with
  | item v =>
    simp [RemarksContents.toXml, Remarks.step, hL.item_name, RemarksContents.read, Res.bind_assoc]
  | sentence v =>
    simp [RemarksContents.toXml, Remarks.step, Sentence.toXml_name, RemarksContents.read,
      Res.bind_assoc]

theorem Remarks.toXml_name (x : Remarks L) : x.toXml.name = "Remarks" := rfl

/-- What reading written remarks gives. -/
theorem Remarks.parser_toXml (hL : L.Sound K) (r : Remarks L) :
    (Remarks.parser r.toXml : Res (Remarks L)) = (mapRes RemarksContents.read r.children).bind fun _ =>
      .err (.missingRequiredTag "RemarksLabel") := by
  unfold Remarks.parser
  rw [if_pos (Remarks.toXml_name ..)]
  simp only [Remarks.toXml, Remarks.fold hL, Res.bind_assoc, Res.bind_ok]

theorem Remarks.not_ok (hL : L.Sound K) (r x : Remarks L) : Remarks.parser r.toXml ≠ .ok x := by
  rw [Remarks.parser_toXml hL]
  simp [Res.bind_eq_ok]

theorem TableHeaderRow.toXml_name (x : TableHeaderRow L) : x.toXml.name = "TableHeaderRow" := rfl

theorem TableHeaderRow.round_trip (hL : L.Sound K) (x : TableHeaderRow L) :
    TableHeaderRow.parser x.toXml = .ok x ↔ x.Keeps K := by
  obtain ⟨l⟩ := x
  simp only [TableHeaderRow.Keeps, ← Text.round_trip hL _ "TableHeaderColumn", ← mapRes_eq_self]
  unfold TableHeaderRow.parser
  rw [if_pos (TableHeaderRow.toXml_name ..)]
  simp only [TableHeaderRow.toXml]
  rw [readTagged_map _ _ (fun t : Text L => t.toXml "TableHeaderColumn") _ fun _ => rfl]
  simp [Res.bind_eq_ok, Text.ofElement]

theorem TableRow.toXml_name (x : TableRow L) : x.toXml.name = "TableRow" := rfl

theorem TableRow.round_trip (hL : L.Sound K) (x : TableRow L) :
    TableRow.parser x.toXml = .ok x ↔ x.Keeps K := by
  obtain ⟨l⟩ := x
  simp only [TableRow.Keeps, ← hL.column, ← mapRes_eq_self]
  unfold TableRow.parser
  rw [if_pos (TableRow.toXml_name ..)]
  simp only [TableRow.toXml]
  rw [readTagged_map _ _ _ _ fun x => hL.column_name x]
  simp [Res.bind_eq_ok]

theorem Table.writingMode_toAttr (m : WritingMode) : Table.writingMode m.toAttr = m := by
  cases m <;> rfl

theorem Table.fold_header (e : Element) (s : Table.St L) (l : List (TableHeaderRow L)) :
    foldRes (onElem (Table.step e)) s (l.map fun r => r.toXml.node) =
      (mapRes (fun r => TableHeaderRow.parser r.toXml) l).bind fun ys =>
        .ok { s with table_header_row := s.table_header_row ++ ys } :=
  foldRes_push (fun s : Table.St L => s.table_header_row) (fun s v => { s with table_header_row := v })
    (fun r => r.toXml.node) (fun r => TableHeaderRow.parser r.toXml) (fun _ _ => rfl) (fun _ _ => rfl) (fun _ _ _ => rfl) (fun _ => rfl) l s

theorem Table.fold_row (e : Element) (s : Table.St L) (l : List (TableRow L)) :
    foldRes (onElem (Table.step e)) s (l.map fun r => r.toXml.node) =
      (mapRes (fun r => TableRow.parser r.toXml) l).bind fun ys =>
        .ok { s with table_row := s.table_row ++ ys } :=
  foldRes_push (fun s : Table.St L => s.table_row) (fun s v => { s with table_row := v })
    (fun r => r.toXml.node) (fun r => TableRow.parser r.toXml) (fun _ _ => rfl) (fun _ _ => rfl) (fun _ _ _ => rfl) (fun _ => rfl) l s

theorem Table.toXml_name (x : Table L) : x.toXml.name = "Table" := rfl

theorem Table.round_trip (hL : L.Sound K) (x : Table L) :
    Table.parser x.toXml = .ok x ↔ x.Keeps K := by
  obtain ⟨h, r, m⟩ := x
  simp only [Table.Keeps, ← TableHeaderRow.round_trip hL, ← TableRow.round_trip hL,
    ← mapRes_eq_self]
  unfold Table.parser
  rw [if_pos (Table.toXml_name ..)]
  simp only [Table.toXml, forElems, foldRes_append, Table.fold_header, Table.fold_row,
    Res.bind_assoc, Res.bind_ok, Res.bind_eq_ok]
  simp [Table.writingMode_toAttr]

theorem SentenceOrColumnOrTable.fold_sentence (e : Element) (s : SentenceOrColumnOrTable.St L)
    (l : List (Sentence L)) :
    foldRes (onElem (SentenceOrColumnOrTable.step e)) s (l.map fun r => r.toXml.node) =
      (mapRes (fun r => Sentence.parser r.toXml) l).bind fun ys =>
        .ok { s with sentence_list := s.sentence_list ++ ys } :=
  foldRes_push (fun s : SentenceOrColumnOrTable.St L => s.sentence_list)
    (fun s v => { s with sentence_list := v })
    (fun r => r.toXml.node) (fun r => Sentence.parser r.toXml) (fun _ _ => rfl) (fun _ _ => rfl) (fun _ _ _ => rfl) (fun _ => rfl) l s

theorem SentenceOrColumnOrTable.fold_column (e : Element) (s : SentenceOrColumnOrTable.St L)
    (l : List (Column L)) :
    foldRes (onElem (SentenceOrColumnOrTable.step e)) s (l.map fun r => r.toXml.node) =
      (mapRes (fun r => Column.parser r.toXml) l).bind fun ys =>
        .ok { s with column_list := s.column_list ++ ys } :=
  foldRes_push (fun s : SentenceOrColumnOrTable.St L => s.column_list)
    (fun s v => { s with column_list := v })
    (fun r => r.toXml.node) (fun r => Column.parser r.toXml) (fun _ _ => rfl) (fun _ _ => rfl) (fun _ _ _ => rfl) (fun _ => rfl) l s

theorem SentenceOrColumnOrTable.round_trip (hL : L.Sound K) (x : SentenceOrColumnOrTable L)
    (name : String) : SentenceOrColumnOrTable.fromElement (x.toXml name) = .ok x ↔ x.Keeps K := by
  unfold SentenceOrColumnOrTable.fromElement
  cases x with
  | sentence l =>
    simp only [Keeps, ← Sentence.round_trip hL, ← mapRes_eq_self]
    simp only [toXml, toChildren, forElems, fold_sentence, Res.bind_assoc, Res.bind_ok,
      Res.bind_eq_ok, List.nil_append, choose]
    constructor
    · rintro ⟨a, ha, h⟩
      split at h
      · simp at h
      split at h
      · simp only [Res.ok.injEq, sentence.injEq] at h
        subst h
        exact ⟨by assumption, ha⟩
      · simp at h
    · rintro ⟨h1, h2⟩
      exact ⟨l, h2, by simp [h1]⟩
  | column l =>
    simp only [Keeps, ← Column.round_trip hL, ← mapRes_eq_self]
    simp only [toXml, toChildren, forElems, fold_column, Res.bind_assoc, Res.bind_ok,
      Res.bind_eq_ok, List.nil_append, choose]
    constructor
    · rintro ⟨a, ha, h⟩
      split at h
      · simp only [Res.ok.injEq, column.injEq] at h
        subst h
        exact ⟨by assumption, ha⟩
      split at h <;> simp at h
    · rintro ⟨h1, h2⟩
      exact ⟨l, h2, by simp [h1]⟩
  | table v =>
    simp only [Keeps, ← Table.round_trip hL]
    have hs : ∀ e : Element, step e {} v.toXml =
        (Table.parser v.toXml).bind fun v => .ok ({ table := some v } : St L) := fun _ => rfl
    simp [toXml, toChildren, forElems, hs, Res.bind_assoc, Res.bind_eq_ok, choose]

theorem Style.round_trip (hL : L.Sound K) (x : Style L) :
    Style.parser x.toXml = .ok x ↔ x.Keeps K := by
  obtain ⟨c⟩ := x
  unfold Style.parser Style.toXml
  rw [Style.Keeps, ← hL.contents (rawXml "Style" c) c rfl]
  simp [Res.bind_eq_ok]

theorem Note.round_trip (hL : L.Sound K) (x : Note L) :
    Note.parser x.toXml = .ok x ↔ x.Keeps K := by
  obtain ⟨c⟩ := x
  unfold Note.parser Note.toXml
  rw [Note.Keeps, ← hL.contents (rawXml "Note" c) c rfl]
  simp [Res.bind_eq_ok]

theorem Format.round_trip (hL : L.Sound K) (x : Format L) :
    Format.parser x.toXml = .ok x ↔ x.Keeps K := by
  obtain ⟨c⟩ := x
  unfold Format.parser Format.toXml
  rw [Format.Keeps, ← hL.contents (rawXml "Format" c) c rfl]
  simp [Res.bind_eq_ok]

/-! ## Structures with a body -/

section
variable {τ β : Type} {titleTag bodyTag : String} {titleP : Element → Res τ}
  {bodyP : Element → Res β}

/-- Written remarks leave no trace in the state. -/
theorem BodyStruct.fold_remarks (hL : L.Sound K) (ht : titleTag ≠ "Remarks") (e : Element)
    (s s' : BodyStruct.St L τ β) (l : List (Remarks L))
    (h : foldRes (onElem (BodyStruct.step titleTag bodyTag titleP bodyP e)) s
      (l.map fun r => r.toXml.node) = .ok s') : s' = s := by
  induction l with
  | nil => cases h; rfl
  | cons r rs ih =>
    have hn : (Remarks.toXml r).name = "Remarks" := rfl
    simp only [List.map_cons, foldRes_cons, onElem_node, BodyStruct.step, matchTag_cons, hn,
      if_neg ht.symm, if_true] at h
    rw [Remarks.parser_toXml hL] at h
    cases hm : mapRes RemarksContents.read r.children with
    | ok a =>
      rw [hm] at h
      exact ih (by simpa [BodyStruct.addRemarks] using h)
    | err a =>
      rw [hm] at h
      exact ih (by simpa [BodyStruct.addRemarks] using h)
    | panic => rw [hm] at h; simp at h
    | deep => rw [hm] at h; simp at h

theorem BodyStruct.toXml_name (tag : String) (titleXml : τ → Element) (bodyXml : β → Element)
    (x : BodyStruct L τ β) : (BodyStruct.toXml tag titleXml bodyXml x).name = tag := rfl

theorem BodyStruct.round_trip (hL : L.Sound K) {tag : String} {titleXml : τ → Element}
    {bodyXml : β → Element} {T : τ → Prop} {B : β → Prop}
    (hT : ∀ t, titleP (titleXml t) = .ok t ↔ T t) (hB : ∀ b, bodyP (bodyXml b) = .ok b ↔ B b)
    (hTn : ∀ t, (titleXml t).name = titleTag) (hBn : ∀ b, (bodyXml b).name = bodyTag)
    (h1 : titleTag ≠ "Remarks") (h2 : titleTag ≠ bodyTag) (h3 : bodyTag ≠ "Remarks")
    (x : BodyStruct L τ β) :
    BodyStruct.parser tag titleTag bodyTag titleP bodyP (BodyStruct.toXml tag titleXml bodyXml x) =
      .ok x ↔ BodyStruct.Keeps T B x := by
  obtain ⟨t, tr, b, br⟩ := x
  have hfold : ∀ (e : Element) (s : BodyStruct.St L τ β) (o : Option τ),
      foldRes (onElem (BodyStruct.step titleTag bodyTag titleP bodyP e)) s
        (o.toList.map fun t => (titleXml t).node) = match o with
        | none => .ok s
        | some t => (titleP (titleXml t)).bind fun y => .ok { s with title := some y } := by
    intro e s o
    refine foldRes_opt (fun (s : BodyStruct.St L τ β) v => { s with title := v }) _ _ (fun s t => ?_)
      o s
    simp [BodyStruct.step, hTn]
  have hbody : ∀ (e : Element) (s : BodyStruct.St L τ β) (b : β),
      BodyStruct.step titleTag bodyTag titleP bodyP e s (bodyXml b) =
        (bodyP (bodyXml b)).bind fun y => .ok { s with body := some y } := by
    intro e s b
    simp [BodyStruct.step, hBn, h3, h2.symm]
  unfold BodyStruct.parser
  rw [if_pos (BodyStruct.toXml_name ..)]
  simp only [BodyStruct.toXml, BodyStruct.Keeps, forElems, foldRes_append, hfold, ← hB, OptKeeps,
    ← hT, Res.bind_assoc, Res.bind_eq_ok, foldRes_cons, foldRes_nil, onElem_node, hbody,
    Res.bind_ok]
  constructor
  · rintro ⟨s1, hs1, s2, hs2, y, hy, s3, hs3, h⟩
    have e2 := BodyStruct.fold_remarks hL h1 _ _ _ _ hs2
    have e3 := BodyStruct.fold_remarks hL h1 _ _ _ _ hs3
    subst e2 e3
    cases t with
    | none =>
      simp only [Res.ok.injEq] at hs1
      subst hs1
      simp only [Res.ok.injEq, mk.injEq] at h
      obtain ⟨_, h5, rfl, h6⟩ := h
      exact ⟨by simp, h5.symm, hy, h6.symm⟩
    | some t =>
      simp only [Res.bind_eq_ok, Res.ok.injEq] at hs1
      obtain ⟨z, hz, rfl⟩ := hs1
      simp only [Res.ok.injEq, mk.injEq, Option.some.injEq] at h
      obtain ⟨rfl, h5, rfl, h6⟩ := h
      exact ⟨by simpa using hz, h5.symm, hy, h6.symm⟩
  · rintro ⟨ht, rfl, hb, rfl⟩
    cases t with
    | none => exact ⟨_, rfl, _, rfl, b, hb, _, rfl, rfl⟩
    | some t =>
      exact ⟨{ title := some t }, by simp [ht t rfl], _, rfl, b, hb, _, rfl, rfl⟩

/-- Remarks that give an error are skipped. -/
theorem BodyStruct.fold_remarks_err (ht : titleTag ≠ "Remarks") (e : Element)
    (s : BodyStruct.St L τ β) (l : List (Remarks L))
    (h : ∀ r ∈ l, ∃ x, (Remarks.parser r.toXml : Res (Remarks L)) = .err x) :
    foldRes (onElem (BodyStruct.step titleTag bodyTag titleP bodyP e)) s
      (l.map fun r => r.toXml.node) = .ok s := by
  induction l with
  | nil => rfl
  | cons r rs ih =>
    obtain ⟨x, hx⟩ := h r (by simp)
    have hn : (Remarks.toXml r).name = "Remarks" := rfl
    simp only [List.map_cons, foldRes_cons, onElem_node, BodyStruct.step, matchTag_cons, hn,
      if_neg ht.symm, if_true, hx]
    exact ih fun r hr => h r (by simp [hr])

/-- Remarks that give an error are dropped and nothing else changes. -/
theorem BodyStruct.drop_remarks {tag : String} {titleXml : τ → Element}
    {bodyXml : β → Element} {T : τ → Prop} {B : β → Prop}
    (hT : ∀ t, titleP (titleXml t) = .ok t ↔ T t) (hB : ∀ b, bodyP (bodyXml b) = .ok b ↔ B b)
    (hTn : ∀ t, (titleXml t).name = titleTag) (hBn : ∀ b, (bodyXml b).name = bodyTag)
    (h1 : titleTag ≠ "Remarks") (h2 : titleTag ≠ bodyTag) (h3 : bodyTag ≠ "Remarks")
    (x : BodyStruct L τ β) (ht : OptKeeps T x.title) (hb : B x.body)
    (hr : ∀ r ∈ x.title_remarks ++ x.body_remarks,
      ∃ x, (Remarks.parser r.toXml : Res (Remarks L)) = .err x) :
    BodyStruct.parser (L := L) tag titleTag bodyTag titleP bodyP (BodyStruct.toXml tag titleXml bodyXml x) =
      .ok { x with title_remarks := [], body_remarks := [] } := by
  obtain ⟨t, tr, b, br⟩ := x
  have hbody : ∀ (e : Element) (s : BodyStruct.St L τ β) (b : β),
      BodyStruct.step titleTag bodyTag titleP bodyP e s (bodyXml b) =
        (bodyP (bodyXml b)).bind fun y => .ok { s with body := some y } := by
    intro e s b
    simp [BodyStruct.step, hBn, h3, h2.symm]
  have htitle : ∀ (e : Element) (s : BodyStruct.St L τ β) (t : τ),
      BodyStruct.step titleTag bodyTag titleP bodyP e s (titleXml t) =
        (titleP (titleXml t)).bind fun y => .ok { s with title := some y } := by
    intro e s t
    simp [BodyStruct.step, hTn]
  unfold BodyStruct.parser
  rw [if_pos (BodyStruct.toXml_name ..)]
  simp only [BodyStruct.toXml, forElems, foldRes_append, Res.bind_assoc, foldRes_cons, foldRes_nil,
    onElem_node, hbody, Res.bind_ok, (hB b).2 hb,
    BodyStruct.fold_remarks_err h1 _ _ tr (fun r h => hr r (by simp [h])),
    BodyStruct.fold_remarks_err h1 _ _ br (fun r h => hr r (by simp [h]))]
  cases t with
  | none => rfl
  | some t => simp [htitle, (hT t).2 (ht t rfl)]

end

theorem NoteStruct.round_trip (hL : L.Sound K) (x : NoteStruct L) :
    NoteStruct.parser (NoteStruct.toXml x) = .ok x ↔ NoteStruct.Keeps K x :=
  BodyStruct.round_trip hL (fun t => Text.round_trip hL t _) (Note.round_trip hL) (fun _ => rfl)
    (fun _ => rfl) (by decide) (by decide) (by decide) x

theorem StyleStruct.round_trip (hL : L.Sound K) (x : StyleStruct L) :
    StyleStruct.parser (StyleStruct.toXml x) = .ok x ↔ StyleStruct.Keeps K x :=
  BodyStruct.round_trip hL (fun t => Text.round_trip hL t _) (Style.round_trip hL) (fun _ => rfl)
    (fun _ => rfl) (by decide) (by decide) (by decide) x

theorem FormatStruct.round_trip (hL : L.Sound K) (x : FormatStruct L) :
    FormatStruct.parser (FormatStruct.toXml x) = .ok x ↔ FormatStruct.Keeps K x :=
  BodyStruct.round_trip hL (fun t => Text.round_trip hL t _) (Format.round_trip hL) (fun _ => rfl)
    (fun _ => rfl) (by decide) (by decide) (by decide) x

theorem FigStruct.round_trip (hL : L.Sound K) (x : FigStruct L) :
    FigStruct.parser (FigStruct.toXml x) = .ok x ↔ FigStruct.Keeps K x :=
  BodyStruct.round_trip hL (fun t => Text.round_trip hL t _)
    (fun f => iff_of_true (Fig.round_trip f) trivial) (fun _ => rfl)
    (fun _ => rfl) (by decide) (by decide) (by decide) x

theorem TableStruct.round_trip (hL : L.Sound K) (x : TableStruct L) :
    TableStruct.parser (TableStruct.toXml x) = .ok x ↔ TableStruct.Keeps K x :=
  BodyStruct.round_trip hL (fun t => TextWithWritingMode.round_trip hL t _) (Table.round_trip hL)
    (fun _ => rfl) (fun _ => rfl) (by decide) (by decide) (by decide) x

/-! ## Lists -/

theorem ListSentence.round_trip (hL : L.Sound K) (outer : Element) (x : ListSentence L) :
    ListSentence.parser outer x.toXml = .ok x ↔ x.Keeps K := by
  cases x with
  | sentence v => exact elem_arm (Sentence.round_trip hL v) rfl (by inj)
  | column v => exact elem_arm (Column.round_trip hL v) rfl (by inj)

theorem listSentences_round_trip (hL : L.Sound K) (sentTag errName : String) (e : Element)
    (l : List (ListSentence L)) (tl : List XMLNode)
    (he : e.children = (listSentencesXml sentTag l).node :: tl) :
    listSentences sentTag errName e = .ok l ↔ ∀ s ∈ l, s.Keeps K := by
  simp only [← ListSentence.round_trip hL e, ← mapRes_eq_self]
  unfold listSentences
  rw [he]
  simp only [listSentencesXml, Element.node, if_true]
  rw [← readAll_map]
  rfl

theorem ListOf.toXml_name {γ : Type} (tag sentTag : String) (childXml : γ → Element)
    (x : ListOf L γ) : (ListOf.toXml tag sentTag childXml x).name = tag := rfl

theorem ListOf.round_trip {γ : Type} (hL : L.Sound K) {tag sentTag errName : String}
    {childP : Element → Res γ} {childXml : γ → Element} {C : γ → Prop}
    (hC : ∀ c, childP (childXml c) = .ok c ↔ C c) (x : ListOf L γ) :
    ListOf.parser tag sentTag errName childP (ListOf.toXml tag sentTag childXml x) = .ok x ↔
      ListOf.Keeps K C x := by
  obtain ⟨s, c⟩ := x
  simp only [ListOf.Keeps, ← hC, ← mapRes_eq_self (fun c => childP (childXml c))]
  rw [← listSentences_round_trip hL sentTag errName (ListOf.toXml tag sentTag childXml ⟨s, c⟩) s _ rfl]
  unfold ListOf.parser
  rw [if_pos (ListOf.toXml_name ..)]
  simp only [Res.bind_eq_ok, ListOf.toXml, List.tail_cons, readAll_map]
  simp

theorem Sublist3.toXml_name (x : Sublist3 L) : x.toXml.name = "Sublist3" := rfl

theorem Sublist3.round_trip (hL : L.Sound K) (x : Sublist3 L) :
    Sublist3.parser x.toXml = .ok x ↔ x.Keeps K := by
  obtain ⟨s⟩ := x
  rw [Sublist3.Keeps, ← listSentences_round_trip hL "Sublist3Sentence" "Sublist3Sentence"
    (Sublist3.toXml ⟨s⟩) s _ rfl]
  unfold Sublist3.parser
  rw [if_pos (Sublist3.toXml_name ..)]
  simp [Res.bind_eq_ok, Sublist3.toXml]

theorem Sublist2.round_trip (hL : L.Sound K) (x : Sublist2 L) :
    Sublist2.parser (Sublist2.toXml x) = .ok x ↔ Sublist2.Keeps K x :=
  ListOf.round_trip hL (Sublist3.round_trip hL) x

theorem Sublist1.round_trip (hL : L.Sound K) (x : Sublist1 L) :
    Sublist1.parser (Sublist1.toXml x) = .ok x ↔ Sublist1.Keeps K x :=
  ListOf.round_trip hL (Sublist2.round_trip hL) x

theorem LawList.round_trip (hL : L.Sound K) (x : LawList L) :
    LawList.parser (LawList.toXml x) = .ok x ↔ LawList.Keeps K x :=
  ListOf.round_trip hL (Sublist1.round_trip hL) x

theorem Struct.round_trip (hL : L.Sound K) (x : Struct L) :
    Struct.parser x.toXml = .ok x ↔ x.Keeps K := by
  cases x with
  | tableStruct v => exact elem_arm (TableStruct.round_trip hL v) rfl (by inj)
  | figStruct v => exact elem_arm (FigStruct.round_trip hL v) rfl (by inj)
  | styleStruct v => exact elem_arm (StyleStruct.round_trip hL v) rfl (by inj)
  | list v => exact elem_arm (LawList.round_trip hL v) rfl (by inj)

end JLaw
