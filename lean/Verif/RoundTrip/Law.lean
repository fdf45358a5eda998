import Verif.RoundTrip.Appdx

/-! # Round trips: the law, cells, raw contents, amendments, and all levels -/

namespace JLaw

variable {L : Lvl} {K : Keep L}

/-! ## The law -/

theorem LawTitle.toXml_name (x : LawTitle L) : x.toXml.name = "LawTitle" := rfl

theorem LawTitle.round_trip (hL : L.Sound K) (x : LawTitle L) :
    LawTitle.parser x.toXml = .ok x ↔ x.Keeps K := by
  obtain ⟨a, b, c, t⟩ := x
  simp only [LawTitle.Keeps, ← Text.fromChildren_toChildren hL]
  unfold LawTitle.parser
  rw [if_pos (LawTitle.toXml_name ..),
    getOpt_of_get parseString id (fun _ => rfl) _ _ a (by simp [LawTitle.toXml]),
    getOpt_of_get parseString id (fun _ => rfl) _ _ b (by simp [LawTitle.toXml]),
    getOpt_of_get parseString id (fun _ => rfl) _ _ c (by simp [LawTitle.toXml])]
  simp [LawTitle.toXml, Res.bind_eq_ok]

theorem Preamble.toXml_name (x : Preamble L) : x.toXml.name = "Preamble" := rfl

theorem Preamble.round_trip (hL : L.Sound K) (x : Preamble L) :
    Preamble.parser x.toXml = .ok x ↔ x.Keeps K := by
  obtain ⟨l⟩ := x
  simp only [Preamble.Keeps, ← Paragraph.round_trip hL, ← mapRes_eq_self]
  unfold Preamble.parser
  rw [if_pos (Preamble.toXml_name ..)]
  simp only [Preamble.toXml]
  rw [readTagged_map _ _ (fun t : Paragraph L => t.toXml) _ fun _ => rfl]
  simp [Res.bind_eq_ok]

theorem MainProvisionContents.round_trip (hL : L.Sound K)
    (d : Element → Res (MainProvisionContents L)) (x : MainProvisionContents L) :
    matchTag MainProvisionContents.arms d x.toXml = .ok x ↔ x.Keeps K := by
  cases x with
  | part v => exact elem_arm (Part.round_trip hL v) rfl (by inj)
  | chapter v => exact elem_arm (Chapter.round_trip hL v) rfl (by inj)
  | section_ v => exact elem_arm (Section.round_trip hL v) rfl (by inj)
  | article v => exact elem_arm (Article.round_trip hL v) rfl (by inj)
  | paragraph v => exact elem_arm (Paragraph.round_trip hL v) rfl (by inj)

theorem MainProvision.toXml_name (x : MainProvision L) : x.toXml.name = "MainProvision" := rfl

theorem MainProvision.round_trip (hL : L.Sound K) (x : MainProvision L) :
    MainProvision.parser x.toXml = .ok x ↔ x.Keeps K := by
  obtain ⟨l, b⟩ := x
  simp only [MainProvision.Keeps,
    ← MainProvisionContents.round_trip hL (unexpected (MainProvision.toXml ⟨l, b⟩)),
    ← mapRes_eq_self]
  unfold MainProvision.parser
  rw [if_pos (MainProvision.toXml_name ..),
    getOpt_of_get parseBool boolStr parseBool_boolStr _ _ b (by simp [MainProvision.toXml])]
  generalize hE : unexpected (MainProvision.toXml ⟨l, b⟩) = d
  simp [MainProvision.toXml, Res.bind_eq_ok, readAll_map]

theorem LawBody.toXml_name (x : LawBody L) : x.toXml.name = "LawBody" := rfl

theorem LawBody.step_main (e : Element) (s : LawBody.St L) (x : MainProvision L) :
    onElem (LawBody.step e) s x.toXml.node =
      (MainProvision.parser x.toXml).bind fun v => .ok { s with main_provision := some v } := rfl

theorem LawBody.round_trip (hL : L.Sound K) (x : LawBody L) :
    LawBody.parser x.toXml = .ok x ↔ x.Keeps K := by
  obtain ⟨lt, en, su, tc, pr, mp, sp, at_, an, as_, ap, af, ao⟩ := x
  simp only [LawBody.Keeps, OptKeeps, ← LawTitle.round_trip hL,
    ← Text.round_trip hL _ "EnactStatement", ← TOC.round_trip hL, ← Preamble.round_trip hL,
    ← MainProvision.round_trip hL, ← SupplProvision.round_trip hL, ← AppdxTable.round_trip hL,
    ← AppdxNote.round_trip hL, ← AppdxStyle.round_trip hL, ← Appdx.round_trip hL,
    ← AppdxFig.round_trip hL, ← AppdxFormat.round_trip hL, ← optRes_eq_self, ← mapRes_eq_self]
  unfold LawBody.parser
  rw [if_pos (LawBody.toXml_name ..),
    getOpt_of_get parseString id (fun _ => rfl) _ _ su (by simp [LawBody.toXml])]
  simp only [Res.bind_eq_ok, LawBody.toXml, forElems, foldRes_append, foldRes_cons, foldRes_nil,
    LawBody.step_main,
    opt! (LawBody.St L) LawBody.step law_title (fun t : LawTitle L => (t.toXml).node)
      (fun t => LawTitle.parser (t.toXml)) (fun _ _ => rfl),
    opt! (LawBody.St L) LawBody.step toc (fun t : TOC L => (t.toXml).node)
      (fun t => TOC.parser (t.toXml)) (fun _ _ => rfl),
    opt! (LawBody.St L) LawBody.step preamble (fun t : Preamble L => (t.toXml).node)
      (fun t => Preamble.parser (t.toXml)) (fun _ _ => rfl),
    seg! (LawBody.St L) LawBody.step enact_statement (fun t : Text L => (t.toXml "EnactStatement").node)
      (fun t => Text.ofElement (t.toXml "EnactStatement")) (fun _ _ => rfl),
    seg! (LawBody.St L) LawBody.step suppl_provision (fun t : SupplProvision L => (t.toXml).node)
      (fun t => SupplProvision.parser (t.toXml)) (fun _ _ => rfl),
    seg! (LawBody.St L) LawBody.step appdx_table (fun t : AppdxTable L => (AppdxTable.toXml t).node)
      (fun t => AppdxTable.parser (AppdxTable.toXml t)) (fun _ _ => rfl),
    seg! (LawBody.St L) LawBody.step appdx_note (fun t : AppdxNote L => (AppdxNote.toXml t).node)
      (fun t => AppdxNote.parser (AppdxNote.toXml t)) (fun _ _ => rfl),
    seg! (LawBody.St L) LawBody.step appdx_style (fun t : AppdxStyle L => (AppdxStyle.toXml t).node)
      (fun t => AppdxStyle.parser (AppdxStyle.toXml t)) (fun _ _ => rfl),
    seg! (LawBody.St L) LawBody.step appdx_format (fun t : AppdxFormat L => (AppdxFormat.toXml t).node)
      (fun t => AppdxFormat.parser (AppdxFormat.toXml t)) (fun _ _ => rfl),
    seg! (LawBody.St L) LawBody.step appdx (fun t : Appdx L => (t.toXml).node)
      (fun t => Appdx.parser (t.toXml)) (fun _ _ => rfl),
    seg! (LawBody.St L) LawBody.step appdx_fig (fun t : AppdxFig L => (t.toXml).node)
      (fun t => AppdxFig.parser (t.toXml)) (fun _ _ => rfl),
    Res.bind_assoc, Res.bind_ok]
  simp

theorem Era.fromAttr_toAttr (x : Era) : Era.fromAttr (some x.toAttr) = some x := by cases x <;> rfl
theorem LawType.fromAttr_toAttr (x : LawType) : LawType.fromAttr (some x.toAttr) = some x := by
  cases x <;> rfl
theorem Lang.fromAttr_toAttr (x : Lang) : Lang.fromAttr (some x.toAttr) = some x := by
  cases x <;> rfl

theorem numStr_ne_empty (a : ArticleNumber) : a.numStr ≠ "" := by
  intro h
  have hb := digits_ne_nil a.base_number.val
  have := congrArg String.toList h
  simp [ArticleNumber.numStr, ArticleNumber.numChars] at this
  exact hb this.1

theorem usizeStr_ne_empty (n : Usize) : usizeStr n ≠ "" := by
  intro h
  have hb := digits_ne_nil n.val
  have := congrArg String.toList h
  simp [usizeStr] at this
  exact hb this

theorem Law.usizeOf_of_get (e : Element) (k : String) (o : Option Usize)
    (h : e.attributes.get k = o.map usizeStr) : Law.usizeOf e k = .ok o := by
  unfold Law.usizeOf
  rw [h]
  cases o with
  | none => rfl
  | some n => simp [usizeStr_ne_empty]

theorem Law.toXml_name (x : Law L) : x.toXml.name = "Law" := rfl

/-- What reading a written law gives. -/
theorem Law.parser_toXml (x : Law L) :
    (Law.parser x.toXml : Res (Law L)) =
      match x.num with
      | none => .panic
      | some n => (ArticleNumber.fromNumStr n.numStr).bind fun n =>
        (LawBody.parser x.law_body.toXml).bind fun b =>
          .ok { x with num := some n, law_body := b } := by
  obtain ⟨er, y, n, m, d, t, l, ln, b⟩ := x
  unfold Law.parser
  have h1 : ∀ x : Law L, x.toXml.attributes.get "Era" = some x.era.toAttr := by
    intro x; simp [Law.toXml]
  have h2 : ∀ x : Law L, x.toXml.attributes.get "LawType" = some x.law_type.toAttr := by
    intro x; simp [Law.toXml]
  have h3 : ∀ x : Law L, x.toXml.attributes.get "Lang" = some x.lang.toAttr := by
    intro x; simp [Law.toXml]
  have h4 : ∀ x : Law L, x.toXml.attributes.get "Num" = x.num.map ArticleNumber.numStr := by
    intro x; simp [Law.toXml]
  have h5 : ∀ x : Law L, x.toXml.attributes.get "Year" = some (usizeStr x.year) := by
    intro x; simp [Law.toXml]
  have h6 : ∀ x : Law L, Law.lawNumOf x.toXml = .ok x.law_num := by
    intro x; simp [Law.toXml, Law.lawNumOf]
  have h7 : ∀ x : Law L, Law.bodyOf x.toXml = .ok x.law_body.toXml := by
    intro x; simp [Law.toXml, Law.bodyOf, Element.node]
  rw [if_pos (Law.toXml_name ..), h1, h2, h3, Law.usizeOf_of_get _ _ m (by simp [Law.toXml]),
    Law.usizeOf_of_get _ _ d (by simp [Law.toXml]), h6, h7, Law.numOf, h4, getAttributeWithParse, h5]
  simp only [Era.fromAttr_toAttr, LawType.fromAttr_toAttr, Lang.fromAttr_toAttr, Res.ofOption,
    Res.bind_ok, parseUsizeStr_usizeStr]
  cases n with
  | none => rfl
  | some n =>
    simp only [Option.map_some, Res.unwrap, Res.bind_ok, if_neg (numStr_ne_empty n), Res.bind_assoc]

theorem Law.round_trip (hL : L.Sound K) (x : Law L) :
    Law.parser x.toXml = .ok x ↔ x.Keeps K := by
  rw [Law.parser_toXml]
  obtain ⟨er, y, n, m, d, t, l, ln, b⟩ := x
  simp only [Law.Keeps, ← LawBody.round_trip hL, ← ArticleNumber.fromNumStr_numStr]
  cases n with
  | none => simp
  | some n => simp [Res.bind_eq_ok]

/-! ## Cells -/

theorem TableColumnContents.round_trip (hL : L.Sound K) (outer : Element) (x : TableColumnContents L) :
    mixedNode (matchTag TableColumnContents.arms (unexpected outer)) .string x.toNode = .ok [x] ↔ x.Keeps K := by
  cases x with
  | part v => exact mixed_arm (Part.round_trip hL v) rfl (by inj)
  | chapter v => exact mixed_arm (Chapter.round_trip hL v) rfl (by inj)
  | section_ v => exact mixed_arm (Section.round_trip hL v) rfl (by inj)
  | subsection v => exact mixed_arm (Subsection.round_trip hL v) rfl (by inj)
  | division v => exact mixed_arm (Division.round_trip hL v) rfl (by inj)
  | article v => exact mixed_arm (Article.round_trip hL v) rfl (by inj)
  | paragraph v => exact mixed_arm (Paragraph.round_trip hL v) rfl (by inj)
  | item v => exact mixed_arm (Item.round_trip hL v) rfl (by inj)
  | subitem1 v => exact mixed_arm (Subitem1.round_trip hL v) rfl (by inj)
  | subitem2 v => exact mixed_arm (Subitem2.round_trip hL v) rfl (by inj)
  | subitem3 v => exact mixed_arm (Subitem3.round_trip hL v) rfl (by inj)
  | subitem4 v => exact mixed_arm (Subitem4.round_trip hL v) rfl (by inj)
  | subitem5 v => exact mixed_arm (Subitem5.round_trip hL v) rfl (by inj)
  | subitem6 v => exact mixed_arm (Subitem6.round_trip hL v) rfl (by inj)
  | subitem7 v => exact mixed_arm (Subitem7.round_trip hL v) rfl (by inj)
  | subitem8 v => exact mixed_arm (Subitem8.round_trip hL v) rfl (by inj)
  | subitem9 v => exact mixed_arm (Subitem9.round_trip hL v) rfl (by inj)
  | subitem10 v => exact mixed_arm (Subitem10.round_trip hL v) rfl (by inj)
  | figStruct v => exact mixed_arm (FigStruct.round_trip hL v) rfl (by inj)
  | sentence v => exact mixed_arm (Sentence.round_trip hL v) rfl (by inj)
  | remarks v => exact mixed_arm (iff_of_false (Remarks.not_ok hL v v) id) rfl (by inj)
  | column v => exact mixed_arm (Column.round_trip hL v) rfl (by inj)
  | string s => exact iff_of_true rfl trivial

theorem TableColumnContents.toNode_shape (x : TableColumnContents L) :
    (∃ e : Element, x.toNode = e.node) ∨ ∃ s, x.toNode = .text s := by
  cases x <;> first | exact .inl ⟨_, rfl⟩ | exact .inr ⟨_, rfl⟩

theorem TableColumn.toXml_name (x : TableColumn L) : x.toXml.name = "TableColumn" := rfl

theorem TableColumn.border_of_get (e : Element) (k : String) (s : LineStyle)
    (h : e.attributes.get k = some s.toAttr) : TableColumn.border e k = s ↔ s ≠ .double := by
  unfold TableColumn.border
  rw [h]
  cases s <;> decide

theorem TableColumn.round_trip (hL : L.Sound K) (x : TableColumn L) :
    TableColumn.parser x.toXml = .ok x ↔ x.Keeps K := by
  obtain ⟨c, b1, b2, b3, b4, rs, cs, al, va⟩ := x
  have h1 := TableColumn.border_of_get (TableColumn.toXml ⟨c, b1, b2, b3, b4, rs, cs, al, va⟩)
    "BorderTop" b1 (by simp [TableColumn.toXml])
  have h2 := TableColumn.border_of_get (TableColumn.toXml ⟨c, b1, b2, b3, b4, rs, cs, al, va⟩)
    "BorderBottom" b2 (by simp [TableColumn.toXml])
  have h3 := TableColumn.border_of_get (TableColumn.toXml ⟨c, b1, b2, b3, b4, rs, cs, al, va⟩)
    "BorderLeft" b3 (by simp [TableColumn.toXml])
  have h4 := TableColumn.border_of_get (TableColumn.toXml ⟨c, b1, b2, b3, b4, rs, cs, al, va⟩)
    "BorderRight" b4 (by simp [TableColumn.toXml])
  have h5 : (TableColumn.toXml ⟨c, b1, b2, b3, b4, rs, cs, al, va⟩).attributes.get "Align" =
    none := by simp [TableColumn.toXml]
  have h6 : (TableColumn.toXml ⟨c, b1, b2, b3, b4, rs, cs, al, va⟩).attributes.get "Valign" =
    none := by simp [TableColumn.toXml]
  have h7 : (TableColumn.toXml ⟨c, b1, b2, b3, b4, rs, cs, al, va⟩).attributes.get "rowspan" =
    (va.map Position.toAttr).or ((al.map Align.toAttr).or rs) := by simp [TableColumn.toXml]
  have h8 : (TableColumn.toXml ⟨c, b1, b2, b3, b4, rs, cs, al, va⟩).children =
    c.map TableColumnContents.toNode := rfl
  have h9 := getOpt_of_get parseString id (fun _ => rfl)
    (TableColumn.toXml ⟨c, b1, b2, b3, b4, rs, cs, al, va⟩) "colspan" cs
    (by simp [TableColumn.toXml])
  have h10 := getOpt_of_get parseString id (fun _ => rfl)
    (TableColumn.toXml ⟨c, b1, b2, b3, b4, rs, cs, al, va⟩) "rowspan"
    ((va.map Position.toAttr).or ((al.map Align.toAttr).or rs)) (h7.trans (by simp))
  have hn := TableColumn.toXml_name ⟨c, b1, b2, b3, b4, rs, cs, al, va⟩
  simp only [TableColumn.Keeps]
  generalize TableColumn.toXml ⟨c, b1, b2, b3, b4, rs, cs, al, va⟩ = E at *
  simp only [← h1, ← h2, ← h3, ← h4, ← TableColumnContents.round_trip hL E,
    ← mixed_map_eq_self _ _ TableColumnContents.toNode c TableColumnContents.toNode_shape]
  unfold TableColumn.parser
  rw [if_pos hn, h9, h10, h5, h6, h8]
  simp only [Res.bind_ok, Res.bind_eq_ok, Res.ok.injEq, mk.injEq]
  cases al <;> cases va <;> simp [Align.fromAttr, Position.fromAttr]

/-! ## Raw contents -/

theorem ContentsElement.round_trip (hL : L.Sound K) (outer : Element) (x : ContentsElement L) :
    mixedNode (matchTag ContentsElement.arms (unexpected outer)) .string x.toNode = .ok [x] ↔ x.Keeps K := by
  cases x with
  | table v => exact mixed_arm (Table.round_trip hL v) rfl (by inj)
  | tableStruct v => exact mixed_arm (TableStruct.round_trip hL v) rfl (by inj)
  | fig v => exact mixed_arm (iff_of_true (Fig.round_trip v) trivial) rfl (by inj)
  | figStruct v => exact mixed_arm (FigStruct.round_trip hL v) rfl (by inj)
  | quoteStruct v => exact mixed_arm (QuoteStruct.round_trip hL v) rfl (by inj)
  | noteStruct v => exact mixed_arm (NoteStruct.round_trip hL v) rfl (by inj)
  | styleStruct v => exact mixed_arm (StyleStruct.round_trip hL v) rfl (by inj)
  | appdxTable v => exact mixed_arm (AppdxTable.round_trip hL v) rfl (by inj)
  | ruby v => exact mixed_arm (Ruby.round_trip hL v) rfl (by inj)
  | line v => exact mixed_arm (Line.round_trip hL v) rfl (by inj)
  | sup v => exact mixed_arm (iff_of_true (Sup.round_trip v) trivial) rfl (by inj)
  | sub v => exact mixed_arm (iff_of_true (Sub.round_trip v) trivial) rfl (by inj)
  | string s => exact iff_of_true rfl trivial
  | paragraph v => exact mixed_arm (Paragraph.round_trip hL v) rfl (by inj)
  | item v => exact mixed_arm (Item.round_trip hL v) rfl (by inj)
  | subitem1 v => exact mixed_arm (Subitem1.round_trip hL v) rfl (by inj)
  | subitem2 v => exact mixed_arm (Subitem2.round_trip hL v) rfl (by inj)
  | subitem3 v => exact mixed_arm (Subitem3.round_trip hL v) rfl (by inj)
  | subitem4 v => exact mixed_arm (Subitem4.round_trip hL v) rfl (by inj)
  | subitem5 v => exact mixed_arm (Subitem5.round_trip hL v) rfl (by inj)
  | subitem6 v => exact mixed_arm (Subitem6.round_trip hL v) rfl (by inj)
  | subitem7 v => exact mixed_arm (Subitem7.round_trip hL v) rfl (by inj)
  | subitem8 v => exact mixed_arm (Subitem8.round_trip hL v) rfl (by inj)
  | subitem9 v => exact mixed_arm (Subitem9.round_trip hL v) rfl (by inj)
  | subitem10 v => exact mixed_arm (Subitem10.round_trip hL v) rfl (by inj)
  | list v => exact mixed_arm (LawList.round_trip hL v) rfl (by inj)
  | sentence v => exact mixed_arm (Sentence.round_trip hL v) rfl (by inj)
  | arithFormula v => exact mixed_arm (ArithFormula.round_trip hL v) rfl (by inj)
  | remarks v => exact mixed_arm (iff_of_false (Remarks.not_ok hL v v) id) rfl (by inj)
  | toc v => exact mixed_arm (TOC.round_trip hL v) rfl (by inj)
  | tocSection v => exact mixed_arm (TOCSection.round_trip hL v) rfl (by inj)
  | tableRow v => exact mixed_arm (TableRow.round_trip hL v) rfl (by inj)

theorem ContentsElement.toNode_shape (x : ContentsElement L) :
    (∃ e : Element, x.toNode = e.node) ∨ ∃ s, x.toNode = .text s := by
  cases x <;> first | exact .inl ⟨_, rfl⟩ | exact .inr ⟨_, rfl⟩

theorem Contents.round_trip (hL : L.Sound K) (e : Element) (x : Contents L)
    (he : e.children = x.toChildren) : Contents.parser e = .ok x ↔ x.Keeps K := by
  obtain ⟨c⟩ := x
  simp only [Contents.Keeps, ← ContentsElement.round_trip hL e,
    ← mixed_map_eq_self _ _ ContentsElement.toNode c ContentsElement.toNode_shape]
  unfold Contents.parser
  rw [he]
  simp [Contents.toChildren, Res.bind_eq_ok]

/-! ## Amendments -/

theorem AmendProvision.toXml_name (x : AmendProvision L) : x.toXml.name = "AmendProvision" := rfl

theorem AmendProvision.step_wrap (e : Element) (s : AmendProvision.St L) (x : Element) :
    onElem (AmendProvision.step e) s (AmendProvision.wrap x).node =
      (Sentence.parser x).bind fun v => .ok { s with sentence := some v } := rfl

/-- Wrapped new provisions add nothing to the list of new provisions. -/
theorem AmendProvision.fold_wrap (e : Element) (s s' : AmendProvision.St L)
    (l : List (NewProvision L))
    (h : foldRes (onElem (AmendProvision.step e)) s
      (l.map fun p => (AmendProvision.wrap p.toXml).node) = .ok s') :
    s'.new_provision = s.new_provision := by
  induction l generalizing s with
  | nil => cases h; rfl
  | cons p l ih =>
    simp only [List.map_cons, foldRes_cons, AmendProvision.step_wrap, Res.bind_assoc, Res.bind_ok,
      Res.bind_eq_ok] at h
    obtain ⟨v, _, h⟩ := h
    exact ih (s := { s with sentence := some v }) h

theorem AmendProvision.round_trip (hL : L.Sound K) (x : AmendProvision L) :
    AmendProvision.parser x.toXml = .ok x ↔ x.Keeps K := by
  obtain ⟨o, l⟩ := x
  simp only [AmendProvision.Keeps, OptKeeps, ← Sentence.round_trip hL, ← optRes_eq_self]
  unfold AmendProvision.parser
  rw [if_pos (AmendProvision.toXml_name ..)]
  simp only [Res.bind_eq_ok, AmendProvision.toXml, forElems, foldRes_append,
    opt! (AmendProvision.St L) AmendProvision.step sentence
      (fun s : Sentence L => (AmendProvision.wrap s.toXml).node)
      (fun s => Sentence.parser s.toXml) (fun _ _ => rfl), Res.bind_assoc, Res.bind_ok,
    Res.ok.injEq, mk.injEq]
  constructor
  · rintro ⟨y, hy, s, hf, h1, h2⟩
    have := AmendProvision.fold_wrap _ _ _ _ hf
    rw [h2] at this
    simp only at this
    subst this
    simp only [List.map_nil, foldRes_nil, Res.ok.injEq] at hf
    subst hf
    simp only [Option.or_none] at h1
    subst h1
    exact ⟨hy, rfl⟩
  · rintro ⟨hy, rfl⟩
    exact ⟨o, hy, ⟨o, []⟩, by simp, rfl, rfl⟩

/-! ## All levels -/

theorem nodeStrings_toChildren (t : Text L) :
    (⟨(nodeStrings t.toChildren).map .text⟩ : Text L) = t ↔ t.Plain := by
  obtain ⟨l⟩ := t
  simp only [Text.toChildren, Text.mk.injEq, Text.Plain]
  constructor
  · intro h c hc
    rw [← h] at hc
    obtain ⟨s, _, rfl⟩ := List.mem_map.1 hc
    exact ⟨s, rfl⟩
  · intro h
    induction l with
    | nil => rfl
    | cons a l ih =>
      obtain ⟨s, rfl⟩ := h a (by simp)
      simp only [List.map_cons, TextElement.toNode, nodeStrings, List.cons.injEq, true_and]
      exact ih fun c hc => h c (by simp [hc])

theorem Lvl.Sound.succ (hL : L.Sound K) : L.succ.Sound K.succ where
  text t := ⟨fun h => (nodeStrings_toChildren (L := L) t).1 (Res.ok.inj h),
    fun h => congrArg Res.ok ((nodeStrings_toChildren (L := L) t).2 h)⟩
  contents e c h := Contents.round_trip hL e c h
  item := Item.round_trip hL
  item_name := Item.toXml_name
  column := TableColumn.round_trip hL
  column_name := TableColumn.toXml_name
  amend := AmendProvision.round_trip hL
  amend_name := AmendProvision.toXml_name

/-- The conditions describe the survivors of every level. -/
theorem lvl_sound : (n : Nat) → (lvl n).Sound (kcanon n)
  | 0 => { text := fun t => t.elim, contents := fun _ t => t.elim, item := fun t => t.elim,
           item_name := fun t => t.elim, column := fun t => t.elim, column_name := fun t => t.elim,
           amend := fun t => t.elim, amend_name := fun t => t.elim }
  | n + 1 => (lvl_sound n).succ

end JLaw
