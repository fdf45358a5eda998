import Verif.Props.Num
import Verif.RoundTrip.Law

/-!
# C14 - C28: which values survive writing and reading

Every theorem is about data of any nesting depth: `lvl n` is the data nested at most `n` times and
`n` is arbitrary. The conditions `Keeps` are in `Verif/Spec/Keep.lean` and `Verif/Spec/KeepLaw.lean`
and mention neither readers nor writers.
-/

namespace JLaw

/-! ## C14: text -/

/-- C14, texts: under any tag. -/
theorem C14_text_survives (n : Nat) (t : Text (lvl n)) (tag : String) :
    Text.ofElement (t.toXml tag) = .ok t ↔ t.Keeps (kcanon n) :=
  Text.round_trip (lvl_sound n) t tag

/-- C14, ruby: exactly when the base text is made of plain strings only. -/
theorem C14_ruby_survives (n : Nat) (base : Text (lvl n)) (rt : String) :
    Ruby.parser (L := lvl (n + 1)) (Ruby.toXml (L := lvl (n + 1)) ⟨base, rt⟩) = .ok ⟨base, rt⟩ ↔
      ∀ c ∈ base.contents, ∃ s, c = .text s :=
  Ruby.round_trip (lvl_sound (n + 1)) ⟨base, rt⟩

/-- C14, superscripts and subscripts always survive. -/
theorem C14_sup_sub_survive (x : Sup) (y : Sub) :
    Sup.parser x.toXml = .ok x ∧ Sub.parser y.toXml = .ok y :=
  ⟨Sup.round_trip x, Sub.round_trip y⟩

/-- A text with a string, a ruby with a plain base and a superscript. -/
def sampleText : Text (lvl 1) :=
  ⟨[.text "第", .ruby ⟨(⟨[.text "漢", .text "字"]⟩ : Text (lvl 0)), "かんじ"⟩, .sup ⟨"2"⟩]⟩

theorem sampleText_keeps : sampleText.Keeps (kcanon 1) := by
  intro c hc
  simp only [sampleText, List.mem_cons, List.not_mem_nil, or_false] at hc
  rcases hc with rfl | rfl | rfl
  · trivial
  · change ∀ c ∈ [TextElement.text "漢", TextElement.text "字"], ∃ s, c = .text s
    simp
  · trivial

example : Text.ofElement (sampleText.toXml "ArticleTitle") = .ok sampleText :=
  (C14_text_survives 1 _ _).2 sampleText_keeps

/-- A ruby whose base holds a superscript does not survive. -/
example : Ruby.parser (L := lvl 1) (Ruby.toXml (L := lvl 1) ⟨(⟨[.sup ⟨"2"⟩]⟩ : Text (lvl 0)), "に"⟩) ≠
    .ok ⟨(⟨[.sup ⟨"2"⟩]⟩ : Text (lvl 0)), "に"⟩ := by
  intro h
  have := (C14_ruby_survives 0 ⟨[.sup ⟨"2"⟩]⟩ "に").1 h (.sup ⟨"2"⟩) (by simp)
  simp at this

/-! ## C15: sentences and lines -/

theorem C15_sentence_survives (n : Nat) (x : Sentence (lvl n)) :
    Sentence.parser x.toXml = .ok x ↔ x.Keeps (kcanon n) :=
  Sentence.round_trip (lvl_sound n) x

theorem C15_line_survives (n : Nat) (x : Line (lvl n)) :
    Line.parser x.toXml = .ok x ↔ x.Keeps (kcanon n) :=
  Line.round_trip (lvl_sound n) x

/-- C15: a double line comes back dotted, with its parts unchanged. -/
theorem C15_double_line_becomes_dotted (n : Nat) (c : List (LineContents (lvl n)))
    (hc : ∀ x ∈ c, x.Keeps (kcanon n)) :
    Line.parser (Line.toXml ⟨c, .double⟩) = .ok ⟨c, .dotted⟩ := by
  simp only [← LineContents.round_trip (lvl_sound n) (Line.toXml ⟨c, .double⟩),
    ← mixed_map_eq_self _ _ LineContents.toNode c LineContents.toNode_shape] at hc
  unfold Line.parser
  rw [if_pos (Line.toXml_name _)]
  rw [show (Line.toXml ⟨c, .double⟩).children = c.map LineContents.toNode from rfl, hc]
  rfl

/-- A sentence with a line around a ruby. -/
def sampleSentence : Sentence (lvl 1) :=
  { contents := [.string "この", .line ⟨[.string "法律", .sub ⟨"1"⟩,
      .ruby ⟨(⟨[.text "施"]⟩ : Text (lvl 0)), "し"⟩], .solid⟩, .sup ⟨"2"⟩],
    num := some 1, function := some .proviso, indent := none, writing_mode := .horizontal }

theorem sampleSentence_keeps : sampleSentence.Keeps (kcanon 1) := by
  intro c hc
  simp only [sampleSentence, List.mem_cons, List.not_mem_nil, or_false] at hc
  rcases hc with rfl | rfl | rfl
  · trivial
  · refine ⟨by decide, fun c hc => ?_⟩
    simp only [List.mem_cons, List.not_mem_nil, or_false] at hc
    rcases hc with rfl | rfl | rfl
    · trivial
    · trivial
    · change ∀ c ∈ [TextElement.text "施"], ∃ s, c = .text s
      simp
  · trivial

example : Sentence.parser sampleSentence.toXml = .ok sampleSentence :=
  (C15_sentence_survives 1 _).2 sampleSentence_keeps
example : Line.parser (L := lvl 1)
    (Line.toXml (L := lvl 1) ⟨[.string "法律", .sub ⟨"1"⟩], .double⟩) =
    .ok ⟨[.string "法律", .sub ⟨"1"⟩], .dotted⟩ :=
  C15_double_line_becomes_dotted 1 _ (by simp [LineContents.Keeps])

/-! ## C16: lists -/

theorem C16_list_survives (n : Nat) (x : LawList (lvl n)) :
    LawList.parser (LawList.toXml x) = .ok x ↔ LawList.Keeps (kcanon n) x :=
  LawList.round_trip (lvl_sound n) x

theorem C16_sublists_survive (n : Nat) :
    (∀ x : Sublist1 (lvl n), Sublist1.parser (Sublist1.toXml x) = .ok x ↔ Sublist1.Keeps (kcanon n) x) ∧
    (∀ x : Sublist2 (lvl n), Sublist2.parser (Sublist2.toXml x) = .ok x ↔ Sublist2.Keeps (kcanon n) x) ∧
    (∀ x : Sublist3 (lvl n), Sublist3.parser (Sublist3.toXml x) = .ok x ↔ Sublist3.Keeps (kcanon n) x) :=
  ⟨Sublist1.round_trip (lvl_sound n), Sublist2.round_trip (lvl_sound n),
    Sublist3.round_trip (lvl_sound n)⟩

/-- A list with an empty sublist in it. -/
example : LawList.parser (L := lvl 1) (LawList.toXml ⟨[.sentence sampleSentence],
    [⟨[.column ⟨[sampleSentence], some 1, true, none⟩], [⟨[], []⟩]⟩]⟩) =
      .ok ⟨[.sentence sampleSentence],
        [⟨[.column ⟨[sampleSentence], some 1, true, none⟩], [⟨[], []⟩]⟩]⟩ := by
  refine (C16_list_survives 1 _).2 ⟨?_, ?_⟩
  · simpa [ListSentence.Keeps] using sampleSentence_keeps
  · simp only [List.mem_singleton, forall_eq]
    refine ⟨?_, ?_⟩
    · simpa [ListSentence.Keeps, Column.Keeps] using sampleSentence_keeps
    · simp [Sublist2.Keeps, ListOf.Keeps]

/-! ## C17: tables -/

theorem C17_table_survives (n : Nat) (x : Table (lvl n)) :
    Table.parser x.toXml = .ok x ↔ x.Keeps (kcanon n) :=
  Table.round_trip (lvl_sound n) x

theorem C17_cell_survives (n : Nat) (x : TableColumn (lvl n)) :
    TableColumn.parser x.toXml = .ok x ↔ x.Keeps (kcanon n) :=
  TableColumn.round_trip (lvl_sound n) x

/-- C17: an aligned cell comes back without alignment, and the alignment replaces the row span: the
vertical alignment if there is one, else the horizontal one. -/
theorem C17_alignment_overwrites_rowspan (n : Nat) (x : TableColumn (lvl n))
    (hx : ({ x with align := none, valign := none } : TableColumn (lvl n)).Keeps (kcanon n)) :
    TableColumn.parser x.toXml = .ok { x with
      align := none
      valign := none
      rowspan := match x.valign, x.align with
        | some v, _ => some v.toAttr
        | none, some a => some a.toAttr
        | none, none => x.rowspan } := by
  obtain ⟨c, b1, b2, b3, b4, rs, cs, al, va⟩ := x
  obtain ⟨hc, h1, h2, h3, h4, -, -⟩ := hx
  replace h1 := (TableColumn.border_of_get (TableColumn.toXml ⟨c, b1, b2, b3, b4, rs, cs, al, va⟩)
    "BorderTop" b1 (by simp [TableColumn.toXml])).2 h1
  replace h2 := (TableColumn.border_of_get (TableColumn.toXml ⟨c, b1, b2, b3, b4, rs, cs, al, va⟩)
    "BorderBottom" b2 (by simp [TableColumn.toXml])).2 h2
  replace h3 := (TableColumn.border_of_get (TableColumn.toXml ⟨c, b1, b2, b3, b4, rs, cs, al, va⟩)
    "BorderLeft" b3 (by simp [TableColumn.toXml])).2 h3
  replace h4 := (TableColumn.border_of_get (TableColumn.toXml ⟨c, b1, b2, b3, b4, rs, cs, al, va⟩)
    "BorderRight" b4 (by simp [TableColumn.toXml])).2 h4
  simp only [← TableColumnContents.round_trip (lvl_sound n)
      (TableColumn.toXml ⟨c, b1, b2, b3, b4, rs, cs, al, va⟩),
    ← mixed_map_eq_self _ _ TableColumnContents.toNode c TableColumnContents.toNode_shape] at hc
  have h9 := getOpt_of_get parseString id (fun _ => rfl)
    (TableColumn.toXml ⟨c, b1, b2, b3, b4, rs, cs, al, va⟩) "colspan" cs
    (by simp [TableColumn.toXml])
  have h10 := getOpt_of_get parseString id (fun _ => rfl)
    (TableColumn.toXml ⟨c, b1, b2, b3, b4, rs, cs, al, va⟩) "rowspan"
    ((va.map Position.toAttr).or ((al.map Align.toAttr).or rs)) (by simp [TableColumn.toXml])
  have h5 : (TableColumn.toXml ⟨c, b1, b2, b3, b4, rs, cs, al, va⟩).attributes.get "Align" =
    none := by simp [TableColumn.toXml]
  have h6 : (TableColumn.toXml ⟨c, b1, b2, b3, b4, rs, cs, al, va⟩).attributes.get "Valign" =
    none := by simp [TableColumn.toXml]
  have h8 : (TableColumn.toXml ⟨c, b1, b2, b3, b4, rs, cs, al, va⟩).children =
    c.map TableColumnContents.toNode := rfl
  unfold TableColumn.parser
  rw [if_pos (TableColumn.toXml_name _), h9, h10, h5, h6, h8, hc, h1, h2, h3, h4]
  cases al <;> cases va <;> rfl

/-- A cell with both alignments and a row span. -/
def sampleCell : TableColumn (lvl 1) :=
  { contents := [.sentence sampleSentence, .string "備考"], border_top := .solid,
    border_bottom := .dotted, border_left := .none, border_right := .solid, rowspan := some "2",
    colspan := none, align := some .center, valign := some .top }

example : TableColumn.parser sampleCell.toXml =
    .ok { sampleCell with align := none, valign := none, rowspan := some "top" } := by
  refine C17_alignment_overwrites_rowspan 1 sampleCell ⟨?_, by decide, by decide, by decide,
    by decide, rfl, rfl⟩
  simp only [sampleCell, List.mem_cons, List.not_mem_nil, or_false]
  rintro c (rfl | rfl)
  · exact sampleSentence_keeps
  · trivial

/-! ## C18: remarks -/

/-- C18: no element written for remarks is ever read, as these or any other remarks. -/
theorem C18_remarks_never_survive (n : Nat) (r x : Remarks (lvl n)) :
    Remarks.parser r.toXml ≠ .ok x :=
  Remarks.not_ok (lvl_sound n) r x

/-- C18: when the sentences and items in the remarks survive, the error names the missing label. -/
theorem C18_remarks_error (n : Nat) (r : Remarks (lvl n))
    (hr : ∀ c ∈ r.children, match c with
      | .item v => (kcanon n).item v
      | .sentence v => v.Keeps (kcanon n)) :
    (Remarks.parser r.toXml : Res (Remarks (lvl n))) =
      .err (.missingRequiredTag "RemarksLabel") := by
  rw [Remarks.parser_toXml (lvl_sound n)]
  have : mapRes RemarksContents.read r.children = .ok r.children := by
    rw [mapRes_eq_self]
    intro c hc
    have := hr c hc
    cases c with
    | item v => simp [RemarksContents.read, ((lvl_sound n).item v).2 this]
    | sentence v => simp [RemarksContents.read, (C15_sentence_survives n v).2 this]
  rw [this]
  rfl

example : (Remarks.parser (Remarks.toXml ⟨⟨sampleText, false⟩, [.sentence sampleSentence]⟩) :
    Res (Remarks (lvl 1))) = .err (.missingRequiredTag "RemarksLabel") :=
  C18_remarks_error 1 _ (by simpa using sampleSentence_keeps)

/-- C18: the label itself, which is not written with the remarks, survives being written on its own
exactly when its text does. -/
theorem C18_label_survives (n : Nat) (x : RemarksLabel (lvl n)) :
    RemarksLabel.parser x.toXml = .ok x ↔ x.text.Keeps (kcanon n) :=
  RemarksLabel.round_trip (lvl_sound n) x

example : RemarksLabel.parser (RemarksLabel.toXml ⟨sampleText, true⟩) = .ok ⟨sampleText, true⟩ :=
  (C18_label_survives 1 _).2 sampleText_keeps

/-! ## C19: figure, note, style, format and table structures -/

theorem C19_structs_survive (n : Nat) :
    (∀ x : FigStruct (lvl n),
      FigStruct.parser (FigStruct.toXml x) = .ok x ↔ FigStruct.Keeps (kcanon n) x) ∧
    (∀ x : NoteStruct (lvl n),
      NoteStruct.parser (NoteStruct.toXml x) = .ok x ↔ NoteStruct.Keeps (kcanon n) x) ∧
    (∀ x : StyleStruct (lvl n),
      StyleStruct.parser (StyleStruct.toXml x) = .ok x ↔ StyleStruct.Keeps (kcanon n) x) ∧
    (∀ x : FormatStruct (lvl n),
      FormatStruct.parser (FormatStruct.toXml x) = .ok x ↔ FormatStruct.Keeps (kcanon n) x) ∧
    (∀ x : TableStruct (lvl n),
      TableStruct.parser (TableStruct.toXml x) = .ok x ↔ TableStruct.Keeps (kcanon n) x) :=
  ⟨FigStruct.round_trip (lvl_sound n), NoteStruct.round_trip (lvl_sound n),
    StyleStruct.round_trip (lvl_sound n), FormatStruct.round_trip (lvl_sound n),
    TableStruct.round_trip (lvl_sound n)⟩

/-- C19: remarks are dropped silently and the rest is unchanged, as long as reading the remarks
fails with an error. By C18 it never succeeds; it panics only if some article in it does. -/
theorem C19_remarks_dropped (n : Nat) :
    (∀ x : FigStruct (lvl n), OptKeeps (fun t => t.Keeps (kcanon n)) x.title →
      (∀ r ∈ x.title_remarks ++ x.body_remarks,
        ∃ e, (Remarks.parser r.toXml : Res (Remarks (lvl n))) = .err e) →
      FigStruct.parser (FigStruct.toXml x) =
        .ok { x with title_remarks := [], body_remarks := [] }) ∧
    (∀ x : NoteStruct (lvl n), OptKeeps (fun t => t.Keeps (kcanon n)) x.title →
      x.body.Keeps (kcanon n) →
      (∀ r ∈ x.title_remarks ++ x.body_remarks,
        ∃ e, (Remarks.parser r.toXml : Res (Remarks (lvl n))) = .err e) →
      NoteStruct.parser (NoteStruct.toXml x) =
        .ok { x with title_remarks := [], body_remarks := [] }) ∧
    (∀ x : StyleStruct (lvl n), OptKeeps (fun t => t.Keeps (kcanon n)) x.title →
      x.body.Keeps (kcanon n) →
      (∀ r ∈ x.title_remarks ++ x.body_remarks,
        ∃ e, (Remarks.parser r.toXml : Res (Remarks (lvl n))) = .err e) →
      StyleStruct.parser (StyleStruct.toXml x) =
        .ok { x with title_remarks := [], body_remarks := [] }) ∧
    (∀ x : FormatStruct (lvl n), OptKeeps (fun t => t.Keeps (kcanon n)) x.title →
      x.body.Keeps (kcanon n) →
      (∀ r ∈ x.title_remarks ++ x.body_remarks,
        ∃ e, (Remarks.parser r.toXml : Res (Remarks (lvl n))) = .err e) →
      FormatStruct.parser (FormatStruct.toXml x) =
        .ok { x with title_remarks := [], body_remarks := [] }) ∧
    (∀ x : TableStruct (lvl n), OptKeeps (fun t => t.Keeps (kcanon n)) x.title →
      x.body.Keeps (kcanon n) →
      (∀ r ∈ x.title_remarks ++ x.body_remarks,
        ∃ e, (Remarks.parser r.toXml : Res (Remarks (lvl n))) = .err e) →
      TableStruct.parser (TableStruct.toXml x) =
        .ok { x with title_remarks := [], body_remarks := [] }) := by
  have hL := lvl_sound n
  refine ⟨fun x ht => ?_, fun x ht hb => ?_, fun x ht hb => ?_, fun x ht hb => ?_,
    fun x ht hb => ?_⟩
  · exact BodyStruct.drop_remarks (fun t => Text.round_trip hL t _)
      (fun f => iff_of_true (Fig.round_trip f) trivial) (fun _ => rfl) (fun _ => rfl) (by decide)
      (by decide) (by decide) x ht trivial
  · exact BodyStruct.drop_remarks (fun t => Text.round_trip hL t _) (Note.round_trip hL)
      (fun _ => rfl) (fun _ => rfl) (by decide) (by decide) (by decide) x ht hb
  · exact BodyStruct.drop_remarks (fun t => Text.round_trip hL t _) (Style.round_trip hL)
      (fun _ => rfl) (fun _ => rfl) (by decide) (by decide) (by decide) x ht hb
  · exact BodyStruct.drop_remarks (fun t => Text.round_trip hL t _) (Format.round_trip hL)
      (fun _ => rfl) (fun _ => rfl) (by decide) (by decide) (by decide) x ht hb
  · exact BodyStruct.drop_remarks (fun t => TextWithWritingMode.round_trip hL t _)
      (Table.round_trip hL) (fun _ => rfl) (fun _ => rfl) (by decide) (by decide) (by decide) x ht hb

/-- A figure with a title and remarks comes back without the remarks. -/
example : FigStruct.parser (L := lvl 1) (FigStruct.toXml ⟨some sampleText, [], ⟨"a.jpg"⟩,
    [⟨⟨sampleText, false⟩, [.sentence sampleSentence]⟩]⟩) =
      .ok ⟨some sampleText, [], ⟨"a.jpg"⟩, []⟩ := by
  refine (C19_remarks_dropped 1).1 ⟨some sampleText, [], ⟨"a.jpg"⟩,
    [⟨⟨sampleText, false⟩, [.sentence sampleSentence]⟩]⟩ ?_ ?_
  · rintro _ ⟨⟩
    exact sampleText_keeps
  · intro r hr
    simp only [List.nil_append, List.mem_singleton] at hr
    subst hr
    exact ⟨_, C18_remarks_error 1 _ (by simpa using sampleSentence_keeps)⟩

/-! ## C20: items and subitems -/

theorem C20_items_survive (n : Nat) :
    (∀ x : Item (lvl n), Item.parser (Item.toXml x) = .ok x ↔ Item.Keeps (kcanon n) x) ∧
    (∀ x : Subitem1 (lvl n),
      Subitem1.parser (Subitem1.toXml x) = .ok x ↔ Subitem1.Keeps (kcanon n) x) ∧
    (∀ x : Subitem2 (lvl n),
      Subitem2.parser (Subitem2.toXml x) = .ok x ↔ Subitem2.Keeps (kcanon n) x) ∧
    (∀ x : Subitem3 (lvl n),
      Subitem3.parser (Subitem3.toXml x) = .ok x ↔ Subitem3.Keeps (kcanon n) x) ∧
    (∀ x : Subitem4 (lvl n),
      Subitem4.parser (Subitem4.toXml x) = .ok x ↔ Subitem4.Keeps (kcanon n) x) ∧
    (∀ x : Subitem5 (lvl n),
      Subitem5.parser (Subitem5.toXml x) = .ok x ↔ Subitem5.Keeps (kcanon n) x) ∧
    (∀ x : Subitem6 (lvl n),
      Subitem6.parser (Subitem6.toXml x) = .ok x ↔ Subitem6.Keeps (kcanon n) x) ∧
    (∀ x : Subitem7 (lvl n),
      Subitem7.parser (Subitem7.toXml x) = .ok x ↔ Subitem7.Keeps (kcanon n) x) ∧
    (∀ x : Subitem8 (lvl n),
      Subitem8.parser (Subitem8.toXml x) = .ok x ↔ Subitem8.Keeps (kcanon n) x) ∧
    (∀ x : Subitem9 (lvl n),
      Subitem9.parser (Subitem9.toXml x) = .ok x ↔ Subitem9.Keeps (kcanon n) x) ∧
    (∀ x : Subitem10 (lvl n),
      Subitem10.parser (Subitem10.toXml x) = .ok x ↔ Subitem10.Keeps (kcanon n) x) :=
  have hL := lvl_sound n
  ⟨Item.round_trip hL, Subitem1.round_trip hL, Subitem2.round_trip hL, Subitem3.round_trip hL,
    Subitem4.round_trip hL, Subitem5.round_trip hL, Subitem6.round_trip hL, Subitem7.round_trip hL,
    Subitem8.round_trip hL, Subitem9.round_trip hL, Subitem10.round_trip hL⟩

/-- C20: an item without a number is written without the attribute the reader requires. -/
theorem C20_item_without_number (n : Nat) (x : Item (lvl n)) (h : x.num = none) :
    (Item.parser (Item.toXml x) : Res (Item (lvl n))) =
      .err (.missingRequiredAttribute "Item" "Num") := by
  obtain ⟨t, s, c, st, num, b1, b2⟩ := x
  subst h
  have hn : (Item.toXml (L := lvl n) ⟨t, s, c, st, none, b1, b2⟩).name = "Item" := rfl
  have : (Item.toXml (L := lvl n) ⟨t, s, c, st, none, b1, b2⟩).attributes.get "Num" = none := by
    simp [Item.toXml, ItemOf.toXml]
  unfold Item.parser ItemOf.parser
  rw [if_pos hn, getAttributeWithParse, this]
  rfl

/-- An item with a title, a sentence and one subitem. -/
def sampleItem : Item (lvl 1) :=
  { title := some sampleText, sentence := .sentence [sampleSentence],
    children := [⟨none, .column [⟨[sampleSentence], none, false, none⟩], [], [], some ⟨1, [], []⟩,
      false, true⟩],
    struct_list := [.figStruct ⟨some sampleText, [], ⟨"a.jpg"⟩, []⟩],
    num := some ⟨1, [2], []⟩, delete := false, hide := false }

theorem sampleItem_keeps : Item.Keeps (kcanon 1) sampleItem := by
  refine ⟨?_, ⟨by simp, ?_⟩, ?_, ?_, _, rfl, .inl rfl⟩
  · rintro _ ⟨⟩
    exact sampleText_keeps
  · simpa using sampleSentence_keeps
  · simp only [sampleItem, List.mem_singleton, forall_eq]
    refine ⟨by simp [OptKeeps], ⟨by simp, ?_⟩, by simp, by simp, _, rfl, .inl rfl⟩
    simpa [Column.Keeps] using sampleSentence_keeps
  · simp only [sampleItem, List.mem_singleton, forall_eq]
    refine ⟨?_, rfl, trivial, rfl⟩
    rintro _ ⟨⟩
    exact sampleText_keeps

example : Item.parser (Item.toXml sampleItem) = .ok sampleItem :=
  (C20_items_survive 1).1 _ |>.2 sampleItem_keeps

/-! ## C21: paragraphs -/

theorem C21_paragraph_survives (n : Nat) (x : Paragraph (lvl n)) :
    Paragraph.parser x.toXml = .ok x ↔ x.Keeps (kcanon n) :=
  Paragraph.round_trip (lvl_sound n) x

def sampleParagraph : Paragraph (lvl 1) :=
  { caption := none, paragraph_num := sampleText, amend_provision := [], class_ := [],
    sentence := [sampleSentence, sampleSentence], struct_list := [], children := [sampleItem],
    num := ⟨1, [], []⟩, old_style := true, old_num := false, hide := false }

theorem sampleParagraph_keeps : sampleParagraph.Keeps (kcanon 1) := by
  refine ⟨by simp [OptKeeps, sampleParagraph], sampleText_keeps, by simp [sampleParagraph],
    by simp [sampleParagraph], ?_, by simp [sampleParagraph], ?_, .inl rfl⟩
  · simpa [sampleParagraph] using sampleSentence_keeps
  · simpa [sampleParagraph] using sampleItem_keeps

example : Paragraph.parser sampleParagraph.toXml = .ok sampleParagraph :=
  (C21_paragraph_survives 1 _).2 sampleParagraph_keeps

/-! ## C22: articles to parts -/

theorem C22_hierarchy_survives (n : Nat) :
    (∀ x : Article (lvl n), Article.parser x.toXml = .ok x ↔ x.Keeps (kcanon n)) ∧
    (∀ x : Division (lvl n),
      Division.parser (Division.toXml x) = .ok x ↔ Division.Keeps (kcanon n) x) ∧
    (∀ x : Subsection (lvl n),
      Subsection.parser (Subsection.toXml x) = .ok x ↔ Subsection.Keeps (kcanon n) x) ∧
    (∀ x : Section (lvl n), Section.parser (Section.toXml x) = .ok x ↔ Section.Keeps (kcanon n) x) ∧
    (∀ x : Chapter (lvl n), Chapter.parser (Chapter.toXml x) = .ok x ↔ Chapter.Keeps (kcanon n) x) ∧
    (∀ x : Part (lvl n), Part.parser (Part.toXml x) = .ok x ↔ Part.Keeps (kcanon n) x) :=
  have hL := lvl_sound n
  ⟨Article.round_trip hL, Division.round_trip hL, Subsection.round_trip hL, Section.round_trip hL,
    Chapter.round_trip hL, Part.round_trip hL⟩

/-- C22: an article with neither paragraphs nor a supplementary note makes the reader panic. -/
theorem C22_empty_article_panics (n : Nat) (x : Article (lvl n)) (hp : x.paragraph = [])
    (hs : x.suppl_note = none) (hc : OptKeeps (fun t => t.Keeps (kcanon n)) x.caption)
    (ht : x.title.Keeps (kcanon n)) :
    (Article.parser x.toXml : Res (Article (lvl n))) = .panic := by
  have hL := lvl_sound n
  obtain ⟨cap, t, p, o, num, b1, b2⟩ := x
  subst hp hs
  obtain ⟨num', hnum⟩ := (C01_num_str_round_trip num).1
  have ht := (Text.round_trip hL t "ArticleTitle").2 ht
  have hc : optRes (fun c => Caption.parser (c.toXml "ArticleCaption")) cap = .ok cap := by
    rw [optRes_eq_self]
    exact fun c h => (Caption.round_trip hL c "ArticleCaption").2 (hc c h)
  unfold Article.parser
  rw [if_pos (Article.toXml_name ..), numAttr_of_get _ num (by simp [Article.toXml]), hnum,
    getBool_of_get _ _ b1 (by simp [Article.toXml]), getBool_of_get _ _ b2 (by simp [Article.toXml])]
  simp only [Article.toXml, List.append_assoc _ (List.map _ _)]
  simp only [Article.head_written, Article.head_rest, hc, ht]
  rfl

/-- An article with a caption and a paragraph. -/
def sampleArticle : Article (lvl 1) :=
  { caption := some ⟨sampleText, none⟩, title := sampleText, paragraph := [sampleParagraph],
    suppl_note := none, num := ⟨9, [2, 3], []⟩, delete := false, hide := false }

theorem sampleArticle_keeps : sampleArticle.Keeps (kcanon 1) := by
  refine ⟨?_, sampleText_keeps, ?_, by simp [OptKeeps, sampleArticle], .inl rfl,
    .inl (by simp [sampleArticle])⟩
  · rintro _ ⟨⟩
    exact sampleText_keeps
  · simpa [sampleArticle] using sampleParagraph_keeps

/-- A chapter with a section that holds an article. -/
def sampleChapter : Chapter (lvl 1) :=
  { title := sampleText,
    children := [.section_ ⟨sampleText, [.article sampleArticle], ⟨1, [], []⟩, false, false⟩],
    num := ⟨4, [], []⟩, delete := false, hide := false }

theorem sampleChapter_keeps : Chapter.Keeps (kcanon 1) sampleChapter := by
  refine ⟨sampleText_keeps, ?_, .inl rfl⟩
  simp only [sampleChapter, List.mem_singleton, forall_eq]
  refine ⟨sampleText_keeps, ?_, .inl rfl⟩
  simp only [List.mem_singleton, forall_eq]
  exact sampleArticle_keeps

example : Chapter.parser (Chapter.toXml sampleChapter) = .ok sampleChapter :=
  (C22_hierarchy_survives 1).2.2.2.2.1 _ |>.2 sampleChapter_keeps
example : (Article.parser (Article.toXml { sampleArticle with paragraph := [] }) :
    Res (Article (lvl 1))) = .panic :=
  C22_empty_article_panics 1 _ rfl rfl sampleArticle_keeps.1 sampleText_keeps

/-! ## C23: tables of contents -/

theorem C23_toc_survives (n : Nat) (x : TOC (lvl n)) :
    TOC.parser x.toXml = .ok x ↔ x.Keeps (kcanon n) :=
  TOC.round_trip (lvl_sound n) x

/-- C23: the label of the preamble comes back in place of the label. -/
theorem C23_preamble_label_replaces_label (n : Nat) (x : TOC (lvl n)) (p : Text (lvl n))
    (hx : ({ x with toc_preamble_label := none } : TOC (lvl n)).Keeps (kcanon n))
    (hp : p.Keeps (kcanon n)) :
    TOC.parser (TOC.toXml { x with toc_preamble_label := some p }) =
      .ok { x with toc_label := some p, toc_preamble_label := none } := by
  have hL := lvl_sound n
  obtain ⟨l, p', m, s, a⟩ := x
  simp only [TOC.Keeps, OptKeeps, ← Text.fromChildren_toChildren hL,
    ← TOCMainContents.round_trip hL, ← TOCSupplProvision.round_trip hL, ← optRes_eq_self,
    ← mapRes_eq_self] at hx
  obtain ⟨h1, -, h2, h3, h4⟩ := hx
  rw [TOC.parser_toXml]
  have hp := (Text.fromChildren_toChildren hL p).2 hp
  have hp : optRes (fun x => Text.fromChildren (L := lvl n) x.toChildren) (some p) = .ok (some p) := by
    simp [optRes, hp]
  simp [Text.ofElement_toXml, h1, h2, h3, h4, hp]

def sampleToc : TOC (lvl 1) :=
  { toc_label := some sampleText, toc_preamble_label := none,
    toc_main_contents := [.tocChapter
      (⟨sampleText, some sampleText, ⟨1, [], []⟩, false, []⟩ : TOCChapter (lvl 1))],
    toc_suppl_provision := some ⟨sampleText, none, []⟩, toc_appdx_table_label := [sampleText] }

theorem sampleToc_keeps : sampleToc.Keeps (kcanon 1) := by
  have h : OptKeeps (fun t => Text.Keeps (kcanon 1) t) (some sampleText) := by
    rintro _ ⟨⟩
    exact sampleText_keeps
  refine ⟨h, rfl, ?_, ?_, ?_⟩
  · simp only [sampleToc, List.mem_singleton, forall_eq]
    exact ⟨sampleText_keeps, h, .inl rfl, by simp⟩
  · rintro _ ⟨⟩
    exact ⟨sampleText_keeps, by simp [OptKeeps], by simp⟩
  · simpa [sampleToc] using sampleText_keeps

example : TOC.parser sampleToc.toXml = .ok sampleToc := (C23_toc_survives 1 _).2 sampleToc_keeps
example : TOC.parser (TOC.toXml { sampleToc with toc_preamble_label := some ⟨[.text "前文"]⟩ }) =
    .ok { sampleToc with toc_label := some ⟨[.text "前文"]⟩ } :=
  C23_preamble_label_replaces_label 1 sampleToc ⟨[.text "前文"]⟩ sampleToc_keeps
    (by simp [Text.Keeps, TextElement.Keeps])

/-! ## C24: appendices -/

theorem C24_appendices_survive (n : Nat) :
    (∀ x : AppdxTable (lvl n),
      AppdxTable.parser (AppdxTable.toXml x) = .ok x ↔ AppdxTable.Keeps (kcanon n) x) ∧
    (∀ x : AppdxNote (lvl n),
      AppdxNote.parser (AppdxNote.toXml x) = .ok x ↔ AppdxNote.Keeps (kcanon n) x) ∧
    (∀ x : AppdxStyle (lvl n),
      AppdxStyle.parser (AppdxStyle.toXml x) = .ok x ↔ AppdxStyle.Keeps (kcanon n) x) ∧
    (∀ x : AppdxFormat (lvl n),
      AppdxFormat.parser (AppdxFormat.toXml x) = .ok x ↔ AppdxFormat.Keeps (kcanon n) x) ∧
    (∀ x : AppdxFig (lvl n), AppdxFig.parser x.toXml = .ok x ↔ x.Keeps (kcanon n)) ∧
    (∀ x : Appdx (lvl n), Appdx.parser x.toXml = .ok x ↔ x.Keeps (kcanon n)) :=
  have hL := lvl_sound n
  ⟨AppdxTable.round_trip hL, AppdxNote.round_trip hL, AppdxStyle.round_trip hL,
    AppdxFormat.round_trip hL, AppdxFig.round_trip hL, Appdx.round_trip hL⟩

/-- An appendix table with a title and an item survives; a formula appendix with a related article
number does not. -/
example : AppdxTable.parser (L := lvl 1)
    (AppdxTable.toXml ⟨none, none, [.item sampleItem], none, some "3"⟩) =
      .ok ⟨none, none, [.item sampleItem], none, some "3"⟩ := by
  refine ((C24_appendices_survive 1).1 _).2 ⟨by simp [OptKeeps], by simp [OptKeeps], ?_, rfl⟩
  simp only [List.mem_singleton, forall_eq]
  exact sampleItem_keeps
example : Appdx.parser (L := lvl 1) (Appdx.toXml ⟨none, some sampleText, [], none⟩) ≠
    .ok ⟨none, some sampleText, [], none⟩ := fun h => by
  have := ((C24_appendices_survive 1).2.2.2.2.2 _).1 h
  simpa using this.2.1

/-! ## C25: supplementary provisions -/

theorem C25_suppl_provision_survives (n : Nat) (x : SupplProvision (lvl n)) :
    SupplProvision.parser x.toXml = .ok x ↔ x.Keeps (kcanon n) :=
  SupplProvision.round_trip (lvl_sound n) x

/-- C25: whatever their contents, tables and formulas of a supplementary provision are written as
elements that are always rejected. -/
theorem C25_appendices_rejected (n : Nat) (x : SupplProvisionAppdxTable (lvl n))
    (y : SupplProvisionAppdx (lvl n)) :
    (∃ e, (SupplProvisionAppdxTable.parser (SupplProvisionAppdxTable.toXml x) :
      Res (SupplProvisionAppdxTable (lvl n))) = .err e) ∧
    (∃ e, (SupplProvisionAppdx.parser y.toXml : Res (SupplProvisionAppdx (lvl n))) = .err e) :=
  ⟨⟨_, SupplProvisionAppdxTable.parser_toXml x⟩, ⟨_, SupplProvisionAppdx.parser_toXml y⟩⟩

def sampleSuppl : SupplProvision (lvl 1) :=
  { label := sampleText, children := [.paragraph sampleParagraph, .article sampleArticle],
    suppl_provision_type := some .amend, amend_law_num := some "昭和二二年法律第一号", extract := some true }

theorem sampleSuppl_keeps : sampleSuppl.Keeps (kcanon 1) := by
  refine ⟨sampleText_keeps, ?_⟩
  simp only [sampleSuppl, List.mem_cons, List.not_mem_nil, or_false]
  rintro c (rfl | rfl)
  · exact sampleParagraph_keeps
  · exact sampleArticle_keeps

example : SupplProvision.parser sampleSuppl.toXml = .ok sampleSuppl :=
  (C25_suppl_provision_survives 1 _).2 sampleSuppl_keeps

/-! ## C26: amendment provisions -/

theorem C26_amend_provision_survives (n : Nat) (x : AmendProvision (lvl n)) :
    AmendProvision.parser x.toXml = .ok x ↔
      x.new_provision = [] ∧ ∀ s, x.sentence = some s → s.Keeps (kcanon n) :=
  (AmendProvision.round_trip (lvl_sound n) x).trans And.comm

example : AmendProvision.parser (AmendProvision.toXml ⟨some sampleSentence, []⟩) =
    .ok ⟨some sampleSentence, []⟩ :=
  (C26_amend_provision_survives 1 _).2 ⟨rfl, by rintro _ ⟨⟩; exact sampleSentence_keeps⟩
example : AmendProvision.parser (AmendProvision.toXml ⟨none, [.article sampleArticle]⟩) ≠
    .ok ⟨none, [.article sampleArticle]⟩ :=
  fun h => by simpa using ((C26_amend_provision_survives 1 _).1 h).1

/-! ## C27: quoted structures and formulas -/

theorem C27_quote_survives (n : Nat) (c : Contents (lvl n)) :
    QuoteStruct.parser (L := lvl (n + 1)) (QuoteStruct.toXml (L := lvl (n + 1)) ⟨c⟩) = .ok ⟨c⟩ ↔
      c.Keeps (kcanon n) :=
  QuoteStruct.round_trip (lvl_sound (n + 1)) ⟨c⟩

theorem C27_formula_survives (n : Nat) (num : Option Usize) (c : Contents (lvl n)) :
    ArithFormula.parser (L := lvl (n + 1)) (ArithFormula.toXml (L := lvl (n + 1)) ⟨num, c⟩) =
      .ok ⟨num, c⟩ ↔ num = none ∧ c.Keeps (kcanon n) :=
  ArithFormula.round_trip (lvl_sound (n + 1)) ⟨num, c⟩

example : QuoteStruct.parser (L := lvl 2) (QuoteStruct.toXml (L := lvl 2)
    ⟨(⟨[.sentence sampleSentence, .item sampleItem, .string "とする。"]⟩ : Contents (lvl 1))⟩) =
    .ok ⟨(⟨[.sentence sampleSentence, .item sampleItem, .string "とする。"]⟩ : Contents (lvl 1))⟩ := by
  refine (C27_quote_survives 1 _).2 ?_
  simp only [Contents.Keeps, List.mem_cons, List.not_mem_nil, or_false]
  rintro c (rfl | rfl | rfl)
  · exact sampleSentence_keeps
  · exact sampleItem_keeps
  · trivial

/-! ## C28: laws -/

theorem C28_law_survives (n : Nat) (x : Law (lvl n)) :
    Law.parser x.toXml = .ok x ↔ x.Keeps (kcanon n) :=
  Law.round_trip (lvl_sound n) x

/-- C28: a law without a number makes the reader panic. -/
theorem C28_law_without_number_panics (n : Nat) (x : Law (lvl n)) (h : x.num = none) :
    (Law.parser x.toXml : Res (Law (lvl n))) = .panic := by
  rw [Law.parser_toXml, h]

def sampleLaw : Law (lvl 1) :=
  { era := .showa, year := 22, num := some ⟨5, [], []⟩, promulgate_month := some 5,
    promulgate_day := none, law_type := .act, lang := .ja, law_num := "昭和二十二年法律第五号",
    law_body :=
      { law_title := some ⟨some "けんぽう", none, none, sampleText⟩, enact_statement := [sampleText],
        subject := some "憲法", toc := some sampleToc, preamble := some ⟨[sampleParagraph]⟩,
        main_provision := ⟨[.chapter sampleChapter, .article sampleArticle], none⟩,
        suppl_provision := [sampleSuppl], appdx_table := [], appdx_note := [], appdx_style := [],
        appdx := [], appdx_fig := [], appdx_format := [] } }

theorem sampleLaw_keeps : sampleLaw.Keeps (kcanon 1) := by
  refine ⟨⟨_, rfl, .inl rfl⟩, ?_⟩
  refine ⟨?_, by simpa [sampleLaw] using sampleText_keeps, ?_, ?_, ?_,
    by simpa [sampleLaw] using sampleSuppl_keeps, ?_⟩
  · rintro _ ⟨⟩
    exact sampleText_keeps
  · rintro _ ⟨⟩
    exact sampleToc_keeps
  · rintro _ ⟨⟩
    intro p hp
    rw [List.mem_singleton.1 hp]
    exact sampleParagraph_keeps
  · simp only [sampleLaw, MainProvision.Keeps, List.mem_cons, List.not_mem_nil, or_false]
    rintro c (rfl | rfl)
    · exact sampleChapter_keeps
    · exact sampleArticle_keeps
  · simp [sampleLaw]

example : Law.parser sampleLaw.toXml = .ok sampleLaw := (C28_law_survives 1 _).2 sampleLaw_keeps

end JLaw
