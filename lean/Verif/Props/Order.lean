import Verif.Props.RoundTrip
import Verif.Reading.Order

/-!
# C36: document order

For every repeated field: one value per element with the right tag, in the order of the document.
-/

namespace JLaw

theorem C36_item (n : Nat) (e : Element) (v : _) (h : Item.parser (L := lvl n) e = .ok v) :
    InOrder Subitem1.parser (named ["Subitem1"] e.children) v.children ∧
    List.Forall₂ Struct.Reads
      (named
        ["TableStruct", "FigStruct", "StyleStruct", "List"]
        e.children) v.struct_list := by
  unfold Item.parser ItemOf.parser at h
  have h := (ite_eq_ok h).2
  obtain ⟨_, -, h⟩ := Res.bind_eq_ok.1 h
  obtain ⟨_, -, h⟩ := Res.bind_eq_ok.1 h
  obtain ⟨_, -, h⟩ := Res.bind_eq_ok.1 h
  obtain ⟨s, hs, h⟩ := Res.bind_eq_ok.1 h
  split at h
  case' h_2 => cases h
  cases h
  exact ⟨forElems_named (fun s => s.children) hs rfl (by field_step ItemOf.step childArms),
    forElems_named (fun s => s.struct_list) hs rfl (by field_step ItemOf.step childArms)⟩

theorem C36_subitem1 (n : Nat) (e : Element) (v : _) (h : Subitem1.parser (L := lvl n) e = .ok v) :
    InOrder Subitem2.parser (named ["Subitem2"] e.children) v.children ∧
    List.Forall₂ Struct.Reads
      (named
        ["TableStruct", "FigStruct", "StyleStruct", "List"]
        e.children) v.struct_list := by
  unfold Subitem1.parser ItemOf.parser at h
  have h := (ite_eq_ok h).2
  obtain ⟨_, -, h⟩ := Res.bind_eq_ok.1 h
  obtain ⟨_, -, h⟩ := Res.bind_eq_ok.1 h
  obtain ⟨_, -, h⟩ := Res.bind_eq_ok.1 h
  obtain ⟨s, hs, h⟩ := Res.bind_eq_ok.1 h
  split at h
  case' h_2 => cases h
  cases h
  exact ⟨forElems_named (fun s => s.children) hs rfl (by field_step ItemOf.step childArms),
    forElems_named (fun s => s.struct_list) hs rfl (by field_step ItemOf.step childArms)⟩

theorem C36_subitem2 (n : Nat) (e : Element) (v : _) (h : Subitem2.parser (L := lvl n) e = .ok v) :
    InOrder Subitem3.parser (named ["Subitem3"] e.children) v.children ∧
    List.Forall₂ Struct.Reads
      (named
        ["TableStruct", "FigStruct", "StyleStruct", "List"]
        e.children) v.struct_list := by
  unfold Subitem2.parser ItemOf.parser at h
  have h := (ite_eq_ok h).2
  obtain ⟨_, -, h⟩ := Res.bind_eq_ok.1 h
  obtain ⟨_, -, h⟩ := Res.bind_eq_ok.1 h
  obtain ⟨_, -, h⟩ := Res.bind_eq_ok.1 h
  obtain ⟨s, hs, h⟩ := Res.bind_eq_ok.1 h
  split at h
  case' h_2 => cases h
  cases h
  exact ⟨forElems_named (fun s => s.children) hs rfl (by field_step ItemOf.step childArms),
    forElems_named (fun s => s.struct_list) hs rfl (by field_step ItemOf.step childArms)⟩

theorem C36_subitem3 (n : Nat) (e : Element) (v : _) (h : Subitem3.parser (L := lvl n) e = .ok v) :
    InOrder Subitem4.parser (named ["Subitem4"] e.children) v.children ∧
    List.Forall₂ Struct.Reads
      (named
        ["TableStruct", "FigStruct", "StyleStruct", "List"]
        e.children) v.struct_list := by
  unfold Subitem3.parser ItemOf.parser at h
  have h := (ite_eq_ok h).2
  obtain ⟨_, -, h⟩ := Res.bind_eq_ok.1 h
  obtain ⟨_, -, h⟩ := Res.bind_eq_ok.1 h
  obtain ⟨_, -, h⟩ := Res.bind_eq_ok.1 h
  obtain ⟨s, hs, h⟩ := Res.bind_eq_ok.1 h
  split at h
  case' h_2 => cases h
  cases h
  exact ⟨forElems_named (fun s => s.children) hs rfl (by field_step ItemOf.step childArms),
    forElems_named (fun s => s.struct_list) hs rfl (by field_step ItemOf.step childArms)⟩

theorem C36_subitem4 (n : Nat) (e : Element) (v : _) (h : Subitem4.parser (L := lvl n) e = .ok v) :
    InOrder Subitem5.parser (named ["Subitem5"] e.children) v.children ∧
    List.Forall₂ Struct.Reads
      (named
        ["TableStruct", "FigStruct", "StyleStruct", "List"]
        e.children) v.struct_list := by
  unfold Subitem4.parser ItemOf.parser at h
  have h := (ite_eq_ok h).2
  obtain ⟨_, -, h⟩ := Res.bind_eq_ok.1 h
  obtain ⟨_, -, h⟩ := Res.bind_eq_ok.1 h
  obtain ⟨_, -, h⟩ := Res.bind_eq_ok.1 h
  obtain ⟨s, hs, h⟩ := Res.bind_eq_ok.1 h
  split at h
  case' h_2 => cases h
  cases h
  exact ⟨forElems_named (fun s => s.children) hs rfl (by field_step ItemOf.step childArms),
    forElems_named (fun s => s.struct_list) hs rfl (by field_step ItemOf.step childArms)⟩

theorem C36_subitem5 (n : Nat) (e : Element) (v : _) (h : Subitem5.parser (L := lvl n) e = .ok v) :
    InOrder Subitem6.parser (named ["Subitem6"] e.children) v.children ∧
    List.Forall₂ Struct.Reads
      (named
        ["TableStruct", "FigStruct", "StyleStruct", "List"]
        e.children) v.struct_list := by
  unfold Subitem5.parser ItemOf.parser at h
  have h := (ite_eq_ok h).2
  obtain ⟨_, -, h⟩ := Res.bind_eq_ok.1 h
  obtain ⟨_, -, h⟩ := Res.bind_eq_ok.1 h
  obtain ⟨_, -, h⟩ := Res.bind_eq_ok.1 h
  obtain ⟨s, hs, h⟩ := Res.bind_eq_ok.1 h
  split at h
  case' h_2 => cases h
  cases h
  exact ⟨forElems_named (fun s => s.children) hs rfl (by field_step ItemOf.step childArms),
    forElems_named (fun s => s.struct_list) hs rfl (by field_step ItemOf.step childArms)⟩

theorem C36_subitem6 (n : Nat) (e : Element) (v : _) (h : Subitem6.parser (L := lvl n) e = .ok v) :
    InOrder Subitem7.parser (named ["Subitem7"] e.children) v.children ∧
    List.Forall₂ Struct.Reads
      (named
        ["TableStruct", "FigStruct", "StyleStruct", "List"]
        e.children) v.struct_list := by
  unfold Subitem6.parser ItemOf.parser at h
  have h := (ite_eq_ok h).2
  obtain ⟨_, -, h⟩ := Res.bind_eq_ok.1 h
  obtain ⟨_, -, h⟩ := Res.bind_eq_ok.1 h
  obtain ⟨_, -, h⟩ := Res.bind_eq_ok.1 h
  obtain ⟨s, hs, h⟩ := Res.bind_eq_ok.1 h
  split at h
  case' h_2 => cases h
  cases h
  exact ⟨forElems_named (fun s => s.children) hs rfl (by field_step ItemOf.step childArms),
    forElems_named (fun s => s.struct_list) hs rfl (by field_step ItemOf.step childArms)⟩

theorem C36_subitem7 (n : Nat) (e : Element) (v : _) (h : Subitem7.parser (L := lvl n) e = .ok v) :
    InOrder Subitem8.parser (named ["Subitem8"] e.children) v.children ∧
    List.Forall₂ Struct.Reads
      (named
        ["TableStruct", "FigStruct", "StyleStruct", "List"]
        e.children) v.struct_list := by
  unfold Subitem7.parser ItemOf.parser at h
  have h := (ite_eq_ok h).2
  obtain ⟨_, -, h⟩ := Res.bind_eq_ok.1 h
  obtain ⟨_, -, h⟩ := Res.bind_eq_ok.1 h
  obtain ⟨_, -, h⟩ := Res.bind_eq_ok.1 h
  obtain ⟨s, hs, h⟩ := Res.bind_eq_ok.1 h
  split at h
  case' h_2 => cases h
  cases h
  exact ⟨forElems_named (fun s => s.children) hs rfl (by field_step ItemOf.step childArms),
    forElems_named (fun s => s.struct_list) hs rfl (by field_step ItemOf.step childArms)⟩

theorem C36_subitem8 (n : Nat) (e : Element) (v : _) (h : Subitem8.parser (L := lvl n) e = .ok v) :
    InOrder Subitem9.parser (named ["Subitem9"] e.children) v.children ∧
    List.Forall₂ Struct.Reads
      (named
        ["TableStruct", "FigStruct", "StyleStruct", "List"]
        e.children) v.struct_list := by
  unfold Subitem8.parser ItemOf.parser at h
  have h := (ite_eq_ok h).2
  obtain ⟨_, -, h⟩ := Res.bind_eq_ok.1 h
  obtain ⟨_, -, h⟩ := Res.bind_eq_ok.1 h
  obtain ⟨_, -, h⟩ := Res.bind_eq_ok.1 h
  obtain ⟨s, hs, h⟩ := Res.bind_eq_ok.1 h
  split at h
  case' h_2 => cases h
  cases h
  exact ⟨forElems_named (fun s => s.children) hs rfl (by field_step ItemOf.step childArms),
    forElems_named (fun s => s.struct_list) hs rfl (by field_step ItemOf.step childArms)⟩

theorem C36_subitem9 (n : Nat) (e : Element) (v : _) (h : Subitem9.parser (L := lvl n) e = .ok v) :
    InOrder Subitem10.parser (named ["Subitem10"] e.children) v.children ∧
    List.Forall₂ Struct.Reads
      (named
        ["TableStruct", "FigStruct", "StyleStruct", "List"]
        e.children) v.struct_list := by
  unfold Subitem9.parser ItemOf.parser at h
  have h := (ite_eq_ok h).2
  obtain ⟨_, -, h⟩ := Res.bind_eq_ok.1 h
  obtain ⟨_, -, h⟩ := Res.bind_eq_ok.1 h
  obtain ⟨_, -, h⟩ := Res.bind_eq_ok.1 h
  obtain ⟨s, hs, h⟩ := Res.bind_eq_ok.1 h
  split at h
  case' h_2 => cases h
  cases h
  exact ⟨forElems_named (fun s => s.children) hs rfl (by field_step ItemOf.step childArms),
    forElems_named (fun s => s.struct_list) hs rfl (by field_step ItemOf.step childArms)⟩

theorem C36_subitem10 (n : Nat) (e : Element) (v : _) (h : Subitem10.parser (L := lvl n) e = .ok v) :
    List.Forall₂ Struct.Reads
      (named
        ["TableStruct", "FigStruct", "StyleStruct", "List"]
        e.children) v.struct_list := by
  unfold Subitem10.parser ItemOf.parser at h
  have h := (ite_eq_ok h).2
  obtain ⟨_, -, h⟩ := Res.bind_eq_ok.1 h
  obtain ⟨_, -, h⟩ := Res.bind_eq_ok.1 h
  obtain ⟨_, -, h⟩ := Res.bind_eq_ok.1 h
  obtain ⟨s, hs, h⟩ := Res.bind_eq_ok.1 h
  split at h
  case' h_2 => cases h
  cases h
  refine forElems_named (fun s => s.struct_list) hs rfl ?_
  field_step ItemOf.step childArms

theorem C36_class (n : Nat) (e : Element) (v : _) (h : Class.parser (L := lvl n) e = .ok v) :
    InOrder Item.parser (named ["Item"] e.children) v.children := by
  unfold Class.parser at h
  have h := (ite_eq_ok h).2
  obtain ⟨_, -, h⟩ := Res.bind_eq_ok.1 h
  obtain ⟨s, hs, h⟩ := Res.bind_eq_ok.1 h
  split at h
  case' h_2 => cases h
  cases h
  refine forElems_named (fun s => s.children) hs rfl ?_
  field_step Class.step

theorem C36_paragraph (n : Nat) (e : Element) (v : _) (h : Paragraph.parser (L := lvl n) e = .ok v) :
    InOrder (lvl n).amendParser (named ["AmendProvision"] e.children) v.amend_provision ∧
    InOrder Class.parser (named ["Class"] e.children) v.class_ ∧
    List.Forall₂ Struct.Reads
      (named
        ["TableStruct", "FigStruct", "StyleStruct", "List"]
        e.children) v.struct_list ∧
    InOrder Item.parser (named ["Item"] e.children) v.children := by
  unfold Paragraph.parser at h
  have h := (ite_eq_ok h).2
  obtain ⟨_, -, h⟩ := Res.bind_eq_ok.1 h
  obtain ⟨_, -, h⟩ := Res.bind_eq_ok.1 h
  obtain ⟨_, -, h⟩ := Res.bind_eq_ok.1 h
  obtain ⟨_, -, h⟩ := Res.bind_eq_ok.1 h
  obtain ⟨s, hs, h⟩ := Res.bind_eq_ok.1 h
  cases h
  exact ⟨forElems_named (fun s => s.amend_provision) hs rfl (by field_step Paragraph.step),
    forElems_named (fun s => s.class_) hs rfl (by field_step Paragraph.step),
    forElems_named (fun s => s.struct_list) hs rfl (by field_step Paragraph.step),
    forElems_named (fun s => s.children) hs rfl (by field_step Paragraph.step)⟩

/-- The sentences of a paragraph, through all its `ParagraphSentence` elements. -/
theorem C36_paragraph_sentences (n : Nat) (e : Element) (v : _)
    (h : Paragraph.parser (L := lvl n) e = .ok v) :
    InOrder Sentence.parser
      ((named ["ParagraphSentence"] e.children).flatMap fun x => elems x.children) v.sentence := by
  unfold Paragraph.parser at h
  have h := (ite_eq_ok h).2
  obtain ⟨_, -, h⟩ := Res.bind_eq_ok.1 h
  obtain ⟨_, -, h⟩ := Res.bind_eq_ok.1 h
  obtain ⟨_, -, h⟩ := Res.bind_eq_ok.1 h
  obtain ⟨_, -, h⟩ := Res.bind_eq_ok.1 h
  obtain ⟨s, hs, h⟩ := Res.bind_eq_ok.1 h
  cases h
  refine forElems_inside (fun s => s.sentence) hs rfl ?_
  inside_step Paragraph.step

theorem C36_article (n : Nat) (e : Element) (v : _) (h : Article.parser (L := lvl n) e = .ok v) :
    InOrder Paragraph.parser (named ["Paragraph"] e.children) v.paragraph := by
  have h := (ite_eq_ok h).2
  obtain ⟨_, -, h⟩ := Res.bind_eq_ok.1 h
  obtain ⟨_, -, h⟩ := Res.bind_eq_ok.1 h
  obtain ⟨_, -, h⟩ := Res.bind_eq_ok.1 h
  obtain ⟨hd, hh, h⟩ := Res.bind_eq_ok.1 h
  obtain ⟨s, hs, h⟩ := Res.bind_eq_ok.1 h
  cases h
  rw [articleHead_named hh]
  refine forElems_named (fun s => s.paragraph) hs rfl ?_
  field_step Article.step

theorem C36_part (n : Nat) (e : Element) (v : _) (h : Part.parser (L := lvl n) e = .ok v) :
    List.Forall₂ PartContents.Reads (named ["Article", "Chapter"] e.children) v.children := by
  exact hier_named h (by arms_reads PartContents.arms) (by decide)

theorem C36_chapter (n : Nat) (e : Element) (v : _) (h : Chapter.parser (L := lvl n) e = .ok v) :
    List.Forall₂ ChapterContents.Reads (named ["Article", "Section"] e.children) v.children := by
  exact hier_named h (by arms_reads ChapterContents.arms) (by decide)

theorem C36_section (n : Nat) (e : Element) (v : _) (h : Section.parser (L := lvl n) e = .ok v) :
    List.Forall₂ SectionContents.Reads
      (named
        ["Article", "Subsection", "Division"]
        e.children) v.children := by
  exact hier_named h (by arms_reads SectionContents.arms) (by decide)

theorem C36_subsection (n : Nat) (e : Element) (v : _) (h : Subsection.parser (L := lvl n) e = .ok v) :
    List.Forall₂ SubsectionContents.Reads (named ["Article", "Division"] e.children) v.children := by
  exact hier_named h (by arms_reads SubsectionContents.arms) (by decide)

theorem C36_division (n : Nat) (e : Element) (v : _) (h : Division.parser (L := lvl n) e = .ok v) :
    InOrder Article.parser (named ["Article"] e.children) v.children := by
  refine hier_named h ?_ (by decide)
  intro y w o hy
  simp only [matchTag_cons, matchTag_nil] at hy
  split at hy
  · exact ⟨by simp [*], hy⟩
  · cases hy

theorem C36_remarks (n : Nat) (e : Element) (v : _) (h : Remarks.parser (L := lvl n) e = .ok v) :
    List.Forall₂ RemarksContents.Reads (named ["Item", "Sentence"] e.children) v.children := by
  unfold Remarks.parser at h
  have h := (ite_eq_ok h).2
  obtain ⟨s, hs, h⟩ := Res.bind_eq_ok.1 h
  split at h
  case' h_2 => cases h
  cases h
  refine forElems_named (fun s => s.children) hs rfl ?_
  field_step Remarks.step

theorem C36_column (n : Nat) (e : Element) (v : _) (h : Column.parser (L := lvl n) e = .ok v) :
    InOrder Sentence.parser (named ["Sentence"] e.children) v.sentence := by
  have h := (ite_eq_ok h).2
  obtain ⟨_, -, h⟩ := Res.bind_eq_ok.1 h
  obtain ⟨_, -, h⟩ := Res.bind_eq_ok.1 h
  obtain ⟨l, hl, h⟩ := Res.bind_eq_ok.1 h
  cases h
  exact readAll_named hl fun x w hw => ⟨by simpa using (ite_eq_ok hw).1, hw⟩

theorem C36_table (n : Nat) (e : Element) (v : _) (h : Table.parser (L := lvl n) e = .ok v) :
    InOrder TableHeaderRow.parser (named ["TableHeaderRow"] e.children) v.table_header_row ∧
    InOrder TableRow.parser (named ["TableRow"] e.children) v.table_row := by
  unfold Table.parser at h
  have h := (ite_eq_ok h).2
  obtain ⟨s, hs, h⟩ := Res.bind_eq_ok.1 h
  cases h
  exact ⟨forElems_named (fun s => s.table_header_row) hs rfl (by field_step Table.step),
    forElems_named (fun s => s.table_row) hs rfl (by field_step Table.step)⟩

theorem C36_table_row (n : Nat) (e : Element) (v : _) (h : TableRow.parser (L := lvl n) e = .ok v) :
    InOrder (lvl n).columnParser (named ["TableColumn"] e.children) v.columns := by
  have h := (ite_eq_ok h).2
  obtain ⟨l, hl, h⟩ := Res.bind_eq_ok.1 h
  cases h
  exact readTagged_named hl

theorem C36_table_header_row (n : Nat) (e : Element) (v : _) (h : TableHeaderRow.parser (L := lvl n) e = .ok v) :
    InOrder (fun x => Text.fromChildren x.children)
      (named
        ["TableHeaderColumn"]
        e.children) v.columns := by
  have h := (ite_eq_ok h).2
  obtain ⟨l, hl, h⟩ := Res.bind_eq_ok.1 h
  cases h
  exact readTagged_named hl

/-- The sentences of an item or a class are its columns if there are any, else its sentences if
there are any, else the last table. -/
theorem C36_sentence_or_column_or_table (n : Nat) (e : Element) (v : _)
    (h : SentenceOrColumnOrTable.fromElement (L := lvl n) e = .ok v) :
    match v with
    | .column l => InOrder Column.parser (named ["Column"] e.children) l
    | .sentence l => named ["Column"] e.children = [] ∧
      InOrder Sentence.parser (named ["Sentence"] e.children) l
    | .table t => named ["Column"] e.children = [] ∧ named ["Sentence"] e.children = [] ∧
      ∃ x, (named ["Table"] e.children).getLast? = some x ∧ Table.parser x = .ok t := by
  obtain ⟨s, hs, h⟩ := Res.bind_eq_ok.1 h
  have h1 : InOrder Column.parser (named ["Column"] e.children) s.column_list :=
    forElems_named (fun s => s.column_list) hs rfl (by field_step SentenceOrColumnOrTable.step)
  have h2 : InOrder Sentence.parser (named ["Sentence"] e.children) s.sentence_list :=
    forElems_named (fun s => s.sentence_list) hs rfl (by field_step SentenceOrColumnOrTable.step)
  have h3 := forElems_last (tags := ["Table"]) (R := fun x t => Table.parser x = .ok t)
    (fun s => s.table) hs rfl (by last_step SentenceOrColumnOrTable.step)
  unfold SentenceOrColumnOrTable.choose at h
  split at h
  · cases h; exact h1
  · next hc =>
    simp only [ne_eq, not_not] at hc
    rw [hc] at h1
    have h1' : named ["Column"] e.children = [] := List.forall₂_nil_right_iff.1 h1
    split at h
    · cases h; exact ⟨h1', h2⟩
    · next hsn =>
      simp only [ne_eq, not_not] at hsn
      rw [hsn] at h2
      split at h
      · next t ht =>
        cases h
        refine ⟨h1', List.forall₂_nil_right_iff.1 h2, ?_⟩
        rw [ht] at h3
        cases hl : (named ["Table"] e.children).getLast? with
        | none => rw [hl] at h3; cases h3
        | some x => rw [hl] at h3; cases h3 with | some h3 => exact ⟨x, rfl, h3⟩
      · cases h

theorem C36_lawlist (n : Nat) (e : Element) (v : _) (h : LawList.parser (L := lvl n) e = .ok v) :
    InOrder Sublist1.parser (named ["Sublist1"] e.children) v.children ∧
    List.Forall₂ ListSentence.Reads
      ((named ["ListSentence"] e.children).flatMap fun x => elems x.children) v.sentence := by
  exact list_named h (by decide) fun x w hw => (ite_eq_ok hw).1

theorem C36_sublist1 (n : Nat) (e : Element) (v : _) (h : Sublist1.parser (L := lvl n) e = .ok v) :
    InOrder Sublist2.parser (named ["Sublist2"] e.children) v.children ∧
    List.Forall₂ ListSentence.Reads
      ((named ["Sublist1Sentence"] e.children).flatMap fun x => elems x.children) v.sentence := by
  exact list_named h (by decide) fun x w hw => (ite_eq_ok hw).1

theorem C36_sublist2 (n : Nat) (e : Element) (v : _) (h : Sublist2.parser (L := lvl n) e = .ok v) :
    InOrder Sublist3.parser (named ["Sublist3"] e.children) v.children ∧
    List.Forall₂ ListSentence.Reads
      ((named ["Sublist2Sentence"] e.children).flatMap fun x => elems x.children) v.sentence := by
  exact list_named h (by decide) fun x w hw => (ite_eq_ok hw).1

theorem C36_sublist3 (n : Nat) (e : Element) (v : _) (h : Sublist3.parser (L := lvl n) e = .ok v) :
    ∃ a c rest, e.children = .element "Sublist3Sentence" a c :: rest ∧
      List.Forall₂ ListSentence.Reads (elems c) v.sentence := by
  have h := (ite_eq_ok h).2
  obtain ⟨l, hl, h⟩ := Res.bind_eq_ok.1 h
  cases h
  obtain ⟨a, c, rest, hc, hl⟩ := listSentences_ok hl
  exact ⟨a, c, rest, hc, listSentences_reads hl⟩

theorem C36_noteStruct (n : Nat) (e : Element) (v : _) (h : NoteStruct.parser (L := lvl n) e = .ok v) :
    InOrder Remarks.parser
      ((named ["Remarks"] e.children).filter (readable (Remarks.parser (L := lvl n))))
      (v.title_remarks ++ v.body_remarks) := by
  exact bodyStruct_remarks (by decide) (by decide) h

theorem C36_styleStruct (n : Nat) (e : Element) (v : _) (h : StyleStruct.parser (L := lvl n) e = .ok v) :
    InOrder Remarks.parser
      ((named ["Remarks"] e.children).filter (readable (Remarks.parser (L := lvl n))))
      (v.title_remarks ++ v.body_remarks) := by
  exact bodyStruct_remarks (by decide) (by decide) h

theorem C36_formatStruct (n : Nat) (e : Element) (v : _) (h : FormatStruct.parser (L := lvl n) e = .ok v) :
    InOrder Remarks.parser
      ((named ["Remarks"] e.children).filter (readable (Remarks.parser (L := lvl n))))
      (v.title_remarks ++ v.body_remarks) := by
  exact bodyStruct_remarks (by decide) (by decide) h

theorem C36_figStruct (n : Nat) (e : Element) (v : _) (h : FigStruct.parser (L := lvl n) e = .ok v) :
    InOrder Remarks.parser
      ((named ["Remarks"] e.children).filter (readable (Remarks.parser (L := lvl n))))
      (v.title_remarks ++ v.body_remarks) := by
  exact bodyStruct_remarks (by decide) (by decide) h

theorem C36_tableStruct (n : Nat) (e : Element) (v : _) (h : TableStruct.parser (L := lvl n) e = .ok v) :
    InOrder Remarks.parser
      ((named ["Remarks"] e.children).filter (readable (Remarks.parser (L := lvl n))))
      (v.title_remarks ++ v.body_remarks) := by
  exact bodyStruct_remarks (by decide) (by decide) h

theorem C36_tocpart (n : Nat) (e : Element) (v : _) (h : TOCPart.parser (L := lvl n) e = .ok v) :
    InOrder TOCChapter.parser (named ["TOCChapter"] e.children) v.children := by
  unfold TOCPart.parser TOCOf.parser at h
  have h := (ite_eq_ok h).2
  obtain ⟨_, -, h⟩ := Res.bind_eq_ok.1 h
  obtain ⟨_, -, h⟩ := Res.bind_eq_ok.1 h
  obtain ⟨s, hs, h⟩ := Res.bind_eq_ok.1 h
  cases h
  refine forElems_named (fun s => s.children) hs rfl ?_
  field_step TOCOf.step childArms

theorem C36_tocchapter (n : Nat) (e : Element) (v : _) (h : TOCChapter.parser (L := lvl n) e = .ok v) :
    InOrder TOCSection.parser (named ["TOCSection"] e.children) v.children := by
  unfold TOCChapter.parser TOCOf.parser at h
  have h := (ite_eq_ok h).2
  obtain ⟨_, -, h⟩ := Res.bind_eq_ok.1 h
  obtain ⟨_, -, h⟩ := Res.bind_eq_ok.1 h
  obtain ⟨s, hs, h⟩ := Res.bind_eq_ok.1 h
  cases h
  refine forElems_named (fun s => s.children) hs rfl ?_
  field_step TOCOf.step childArms

theorem C36_tocsection (n : Nat) (e : Element) (v : _) (h : TOCSection.parser (L := lvl n) e = .ok v) :
    List.Forall₂ TOCSectionContents.Reads
      (named
        ["TOCSubsection", "TOCDivision"]
        e.children) v.children := by
  unfold TOCSection.parser TOCOf.parser at h
  have h := (ite_eq_ok h).2
  obtain ⟨_, -, h⟩ := Res.bind_eq_ok.1 h
  obtain ⟨_, -, h⟩ := Res.bind_eq_ok.1 h
  obtain ⟨s, hs, h⟩ := Res.bind_eq_ok.1 h
  cases h
  refine forElems_named (fun s => s.children) hs rfl ?_
  field_step TOCOf.step childArms TOCSectionContents.arms

theorem C36_tocsubsection (n : Nat) (e : Element) (v : _) (h : TOCSubsection.parser (L := lvl n) e = .ok v) :
    InOrder TOCDivision.parser (named ["TOCDivision"] e.children) v.children := by
  unfold TOCSubsection.parser TOCOf.parser at h
  have h := (ite_eq_ok h).2
  obtain ⟨_, -, h⟩ := Res.bind_eq_ok.1 h
  obtain ⟨_, -, h⟩ := Res.bind_eq_ok.1 h
  obtain ⟨s, hs, h⟩ := Res.bind_eq_ok.1 h
  cases h
  refine forElems_named (fun s => s.children) hs rfl ?_
  field_step TOCOf.step childArms

theorem C36_tocsupplprovision (n : Nat) (e : Element) (v : _) (h : TOCSupplProvision.parser (L := lvl n) e = .ok v) :
    List.Forall₂ TOCSupplProvisionContents.Reads
      (named
        ["TOCArticle", "TOCChapter"]
        e.children) v.children := by
  unfold TOCSupplProvision.parser at h
  have h := (ite_eq_ok h).2
  obtain ⟨s, hs, h⟩ := Res.bind_eq_ok.1 h
  cases h
  refine forElems_named (fun s => s.children) hs rfl ?_
  field_step TOCSupplProvision.step

theorem C36_toc (n : Nat) (e : Element) (v : _) (h : TOC.parser (L := lvl n) e = .ok v) :
    List.Forall₂ TOCMainContents.Reads
      (named
        ["TOCPart", "TOCChapter", "TOCSection", "TOCArticle"]
        e.children) v.toc_main_contents ∧
    InOrder (fun x => Text.fromChildren x.children)
      (named
        ["TOCAppdxTableLabel"]
        e.children) v.toc_appdx_table_label := by
  unfold TOC.parser at h
  have h := (ite_eq_ok h).2
  obtain ⟨s, hs, h⟩ := Res.bind_eq_ok.1 h
  cases h
  exact ⟨forElems_named (fun s => s.main_contents) hs rfl (by field_step TOC.step),
    forElems_named (fun s => s.appdx_table_label) hs rfl (by field_step TOC.step)⟩

theorem C36_appdxtable (n : Nat) (e : Element) (v : _) (h : AppdxTable.parser (L := lvl n) e = .ok v) :
    List.Forall₂ AppdxTableContents.Reads (named ["TableStruct", "Item"] e.children) v.children := by
  unfold AppdxTable.parser AppdxOf.parser at h
  have h := (ite_eq_ok h).2
  obtain ⟨_, -, h⟩ := Res.bind_eq_ok.1 h
  obtain ⟨s, hs, h⟩ := Res.bind_eq_ok.1 h
  cases h
  refine forElems_named (fun s => s.children) hs rfl ?_
  field_step AppdxOf.step childArms AppdxTableContents.arms

theorem C36_appdxnote (n : Nat) (e : Element) (v : _) (h : AppdxNote.parser (L := lvl n) e = .ok v) :
    List.Forall₂ AppdxNoteContents.Reads
      (named
        ["NoteStruct", "FigStruct", "TableStruct"]
        e.children) v.children := by
  unfold AppdxNote.parser AppdxOf.parser at h
  have h := (ite_eq_ok h).2
  obtain ⟨_, -, h⟩ := Res.bind_eq_ok.1 h
  obtain ⟨s, hs, h⟩ := Res.bind_eq_ok.1 h
  cases h
  refine forElems_named (fun s => s.children) hs rfl ?_
  field_step AppdxOf.step childArms AppdxNoteContents.arms

theorem C36_appdxstyle (n : Nat) (e : Element) (v : _) (h : AppdxStyle.parser (L := lvl n) e = .ok v) :
    InOrder StyleStruct.parser (named ["StyleStruct"] e.children) v.children := by
  unfold AppdxStyle.parser AppdxOf.parser at h
  have h := (ite_eq_ok h).2
  obtain ⟨_, -, h⟩ := Res.bind_eq_ok.1 h
  obtain ⟨s, hs, h⟩ := Res.bind_eq_ok.1 h
  cases h
  refine forElems_named (fun s => s.children) hs rfl ?_
  field_step AppdxOf.step childArms

theorem C36_appdxformat (n : Nat) (e : Element) (v : _) (h : AppdxFormat.parser (L := lvl n) e = .ok v) :
    InOrder FormatStruct.parser (named ["FormatStruct"] e.children) v.children := by
  unfold AppdxFormat.parser AppdxOf.parser at h
  have h := (ite_eq_ok h).2
  obtain ⟨_, -, h⟩ := Res.bind_eq_ok.1 h
  obtain ⟨s, hs, h⟩ := Res.bind_eq_ok.1 h
  cases h
  refine forElems_named (fun s => s.children) hs rfl ?_
  field_step AppdxOf.step childArms

theorem C36_appdx (n : Nat) (e : Element) (v : _) (h : Appdx.parser (L := lvl n) e = .ok v) :
    InOrder ArithFormula.parser (named ["ArithFormula"] e.children) v.arith_formula := by
  unfold Appdx.parser at h
  have h := (ite_eq_ok h).2
  obtain ⟨s, hs, h⟩ := Res.bind_eq_ok.1 h
  cases h
  refine forElems_named (fun s => s.arith_formula) hs rfl ?_
  field_step Appdx.step

theorem C36_appdxfig (n : Nat) (e : Element) (v : _) (h : AppdxFig.parser (L := lvl n) e = .ok v) :
    List.Forall₂ AppdxFigContents.Reads
      (named
        ["FigStruct", "TableStruct"]
        e.children) v.children := by
  unfold AppdxFig.parser at h
  have h := (ite_eq_ok h).2
  obtain ⟨_, -, h⟩ := Res.bind_eq_ok.1 h
  obtain ⟨s, hs, h⟩ := Res.bind_eq_ok.1 h
  cases h
  refine forElems_named (fun s => s.children) hs rfl ?_
  field_step AppdxFig.step

theorem C36_supplprovisionappdxtable (n : Nat) (e : Element) (v : _) (h : SupplProvisionAppdxTable.parser (L := lvl n) e = .ok v) :
    InOrder TableStruct.parser (named ["TableStruct"] e.children) v.structs := by
  unfold SupplProvisionAppdxTable.parser SupplAppdxOf.parser at h
  have h := (ite_eq_ok h).2
  obtain ⟨_, -, h⟩ := Res.bind_eq_ok.1 h
  obtain ⟨s, hs, h⟩ := Res.bind_eq_ok.1 h
  split at h
  case' h_2 => cases h
  cases h
  refine forElems_named (fun s => s.structs) hs rfl ?_
  field_step SupplAppdxOf.step

theorem C36_supplprovisionappdxstyle (n : Nat) (e : Element) (v : _) (h : SupplProvisionAppdxStyle.parser (L := lvl n) e = .ok v) :
    InOrder StyleStruct.parser (named ["StyleStruct"] e.children) v.structs := by
  unfold SupplProvisionAppdxStyle.parser SupplAppdxOf.parser at h
  have h := (ite_eq_ok h).2
  obtain ⟨_, -, h⟩ := Res.bind_eq_ok.1 h
  obtain ⟨s, hs, h⟩ := Res.bind_eq_ok.1 h
  split at h
  case' h_2 => cases h
  cases h
  refine forElems_named (fun s => s.structs) hs rfl ?_
  field_step SupplAppdxOf.step

theorem C36_supplprovisionappdx (n : Nat) (e : Element) (v : _) (h : SupplProvisionAppdx.parser (L := lvl n) e = .ok v) :
    InOrder ArithFormula.parser (named ["ArithFormula"] e.children) v.arith_formula := by
  unfold SupplProvisionAppdx.parser at h
  have h := (ite_eq_ok h).2
  obtain ⟨_, -, h⟩ := Res.bind_eq_ok.1 h
  obtain ⟨s, hs, h⟩ := Res.bind_eq_ok.1 h
  cases h
  refine forElems_named (fun s => s.arith_formula) hs rfl ?_
  field_step SupplProvisionAppdx.step

theorem C36_supplprovision (n : Nat) (e : Element) (v : _) (h : SupplProvision.parser (L := lvl n) e = .ok v) :
    List.Forall₂ SupplProvisionChildrenElement.Reads
      (named
        ["Chapter", "Article", "Paragraph", "SupplProvisionAppdxTable",
          "SupplProvisionAppdxStyle", "SupplProvisionAppdx"]
        e.children) v.children := by
  unfold SupplProvision.parser at h
  have h := (ite_eq_ok h).2
  obtain ⟨_, -, h⟩ := Res.bind_eq_ok.1 h
  obtain ⟨_, -, h⟩ := Res.bind_eq_ok.1 h
  obtain ⟨s, hs, h⟩ := Res.bind_eq_ok.1 h
  cases h
  refine forElems_named (fun s => s.children) hs rfl ?_
  field_step SupplProvision.step

theorem C36_preamble (n : Nat) (e : Element) (v : _) (h : Preamble.parser (L := lvl n) e = .ok v) :
    InOrder Paragraph.parser (named ["Paragraph"] e.children) v.children := by
  have h := (ite_eq_ok h).2
  obtain ⟨l, hl, h⟩ := Res.bind_eq_ok.1 h
  cases h
  exact readTagged_named hl

theorem C36_mainprovision (n : Nat) (e : Element) (v : _) (h : MainProvision.parser (L := lvl n) e = .ok v) :
    List.Forall₂ MainProvisionContents.Reads
      (named
        ["Part", "Chapter", "Section", "Article", "Paragraph"]
        e.children) v.children := by
  have h := (ite_eq_ok h).2
  obtain ⟨_, -, h⟩ := Res.bind_eq_ok.1 h
  obtain ⟨l, hl, h⟩ := Res.bind_eq_ok.1 h
  cases h
  refine readAll_named hl ?_
  have key : ∀ (y : Element) (w : MainProvisionContents (lvl n)) (o : Element),
      matchTag MainProvisionContents.arms (unexpected o) y = .ok w →
      y.name ∈ ["Part", "Chapter", "Section", "Article", "Paragraph"] ∧ w.Reads y := by
    arms_reads MainProvisionContents.arms
  exact fun y w hy => key y w e hy

theorem C36_lawbody (n : Nat) (e : Element) (v : _) (h : LawBody.parser (L := lvl n) e = .ok v) :
    InOrder (fun x => Text.fromChildren x.children)
      (named
        ["EnactStatement"]
        e.children) v.enact_statement ∧
    InOrder SupplProvision.parser (named ["SupplProvision"] e.children) v.suppl_provision ∧
    InOrder AppdxTable.parser (named ["AppdxTable"] e.children) v.appdx_table ∧
    InOrder AppdxNote.parser (named ["AppdxNote"] e.children) v.appdx_note ∧
    InOrder AppdxStyle.parser (named ["AppdxStyle"] e.children) v.appdx_style ∧
    InOrder Appdx.parser (named ["Appdx"] e.children) v.appdx ∧
    InOrder AppdxFig.parser (named ["AppdxFig"] e.children) v.appdx_fig ∧
    InOrder AppdxFormat.parser (named ["AppdxFormat"] e.children) v.appdx_format := by
  unfold LawBody.parser at h
  have h := (ite_eq_ok h).2
  obtain ⟨_, -, h⟩ := Res.bind_eq_ok.1 h
  obtain ⟨s, hs, h⟩ := Res.bind_eq_ok.1 h
  split at h
  case' h_2 => cases h
  cases h
  exact ⟨forElems_named (fun s => s.enact_statement) hs rfl (by field_step LawBody.step),
    forElems_named (fun s => s.suppl_provision) hs rfl (by field_step LawBody.step),
    forElems_named (fun s => s.appdx_table) hs rfl (by field_step LawBody.step),
    forElems_named (fun s => s.appdx_note) hs rfl (by field_step LawBody.step),
    forElems_named (fun s => s.appdx_style) hs rfl (by field_step LawBody.step),
    forElems_named (fun s => s.appdx) hs rfl (by field_step LawBody.step),
    forElems_named (fun s => s.appdx_fig) hs rfl (by field_step LawBody.step),
    forElems_named (fun s => s.appdx_format) hs rfl (by field_step LawBody.step)⟩

/-- The new provisions of an amendment, through all its `NewProvision` elements. -/
theorem C36_amendprovision (n : Nat) (e : Element) (v : _)
    (h : AmendProvision.parser (L := lvl n) e = .ok v) :
    List.Forall₂ NewProvision.Reads
      ((named ["NewProvision"] e.children).flatMap fun x => elems x.children) v.new_provision := by
  have h := (ite_eq_ok h).2
  obtain ⟨s, hs, h⟩ := Res.bind_eq_ok.1 h
  cases h
  refine forElems_inside (fun s => s.new_provision) hs rfl ?_
  intro s x s' h
  simp only [AmendProvision.step, matchTag_cons, matchTag_nil] at h
  split at h
  · next hx =>
    obtain ⟨w, -, h⟩ := Res.bind_eq_ok.1 h
    cases h
    exact .inr ⟨by simp [hx], rfl⟩
  · split at h
    · next hx =>
      obtain ⟨l, hl, h⟩ := Res.bind_eq_ok.1 h
      cases h
      exact .inl ⟨by simp [hx], l, (readAll_forall₂ hl).imp fun y w hy =>
        newProvision_reads y w e hy, rfl⟩
    · cases h

theorem C36_sentence (n : Nat) (e : Element) (v : _) (h : Sentence.parser (L := lvl n) e = .ok v) :
    List.Forall₂ SentenceElement.Reads (pieces e.children) v.contents := by
  have h := (ite_eq_ok h).2
  obtain ⟨_, -, h⟩ := Res.bind_eq_ok.1 h
  obtain ⟨_, -, h⟩ := Res.bind_eq_ok.1 h
  obtain ⟨_, -, h⟩ := Res.bind_eq_ok.1 h
  obtain ⟨l, hl, h⟩ := Res.bind_eq_ok.1 h
  cases h
  exact mixed_pieces hl (fun _ => rfl) (by mixed_reads SentenceElement.elem)

theorem C36_line (n : Nat) (e : Element) (v : _) (h : Line.parser (L := lvl n) e = .ok v) :
    List.Forall₂ LineContents.Reads (pieces e.children) v.contents := by
  have h := (ite_eq_ok h).2
  obtain ⟨_, -, h⟩ := Res.bind_eq_ok.1 h
  obtain ⟨l, hl, h⟩ := Res.bind_eq_ok.1 h
  cases h
  exact mixed_pieces hl (fun _ => rfl) (by mixed_reads LineContents.elem)

theorem C36_tablecolumn (n : Nat) (e : Element) (v : _) (h : TableColumn.parser (L := lvl n) e = .ok v) :
    List.Forall₂ TableColumnContents.Reads (pieces e.children) v.contents := by
  have h := (ite_eq_ok h).2
  obtain ⟨_, -, h⟩ := Res.bind_eq_ok.1 h
  obtain ⟨_, -, h⟩ := Res.bind_eq_ok.1 h
  obtain ⟨l, hl, h⟩ := Res.bind_eq_ok.1 h
  cases h
  exact mixed_pieces hl (fun _ => rfl) (by mixed_reads TableColumnContents.arms)

theorem C36_contents (n : Nat) (e : Element) (v : _) (h : Contents.parser (L := lvl n) e = .ok v) :
    List.Forall₂ ContentsElement.Reads (pieces e.children) v.contents := by
  obtain ⟨l, hl, h⟩ := Res.bind_eq_ok.1 h
  cases h
  exact mixed_pieces hl (fun _ => rfl) (by mixed_reads ContentsElement.arms)

/-- The sample paragraph has its items in the order of its document. -/
example : ∃ v : Paragraph (lvl 1), Paragraph.parser sampleParagraph.toXml = .ok v ∧
    InOrder Item.parser (named ["Item"] sampleParagraph.toXml.children) v.children ∧
    v.children ≠ [] := by
  have h := (Paragraph.round_trip (lvl_sound 1) sampleParagraph).2 sampleParagraph_keeps
  exact ⟨_, h, (C36_paragraph 1 _ _ h).2.2.2, by simp [sampleParagraph]⟩

end JLaw
