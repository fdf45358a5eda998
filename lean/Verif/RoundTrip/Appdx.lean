import Verif.RoundTrip.Toc

/-! # Round trips: appendices and supplementary provisions -/

namespace JLaw

variable {L : Lvl} {K : Keep L}

theorem optRes_none {α β : Type} (p : α → Res β) : optRes p none = .ok none := rfl

/-- Written remarks are never read. -/
theorem optRes_remarks (hL : L.Sound K) (o y : Option (Remarks L)) :
    optRes (fun r => Remarks.parser r.toXml) o = .ok y ↔ o = none ∧ y = none := by
  cases o with
  | none => simp [optRes, eq_comm]
  | some r => simp [optRes, Res.bind_eq_ok, Remarks.not_ok hL]

section
variable {γ : Type} {titleTag : String} {arms : List (String × (Element → Res γ))}

theorem AppdxOf.step_title (e : Element) (s : AppdxOf.St L γ) (t : TextWithWritingMode L) :
    onElem (AppdxOf.step titleTag arms e) s (t.toXml titleTag).node =
      (TextWithWritingMode.parser (t.toXml titleTag)).bind fun v =>
        .ok { s with title := some v } := by
  have hn : (t.toXml titleTag).name = titleTag := rfl
  rw [onElem_node, AppdxOf.step, matchTag_cons, if_pos hn]

theorem AppdxOf.step_related (h : titleTag ≠ "RelatedArticleNum") (e : Element)
    (s : AppdxOf.St L γ) (t : Text L) :
    onElem (AppdxOf.step titleTag arms e) s (t.toXml "RelatedArticleNum").node =
      (Text.ofElement (t.toXml "RelatedArticleNum")).bind fun v =>
        .ok { s with related_article_num := some v } := by
  have hn : (t.toXml "RelatedArticleNum").name = "RelatedArticleNum" := rfl
  rw [onElem_node, AppdxOf.step, matchTag_cons, if_neg (by rw [hn]; exact h.symm), matchTag_cons,
    if_pos hn]

theorem AppdxOf.step_remarks (h : titleTag ≠ "Remarks") (e : Element) (s : AppdxOf.St L γ)
    (r : Remarks L) :
    onElem (AppdxOf.step titleTag arms e) s r.toXml.node =
      (Remarks.parser r.toXml).bind fun v => .ok { s with remarks := some v } := by
  have hn : r.toXml.name = "Remarks" := rfl
  rw [onElem_node, AppdxOf.step, matchTag_cons, if_neg (by rw [hn]; exact h.symm)]
  simp [hn]

theorem AppdxOf.step_child {childXml : γ → Element}
    (hn : ∀ c, (childXml c).name ∈ arms.map Prod.fst)
    (hd : ∀ t ∈ arms.map Prod.fst, t ≠ titleTag ∧ t ≠ "RelatedArticleNum" ∧ t ≠ "Remarks")
    (e : Element) (s : AppdxOf.St L γ) (x : γ) :
    onElem (AppdxOf.step titleTag arms e) s (childXml x).node =
      (matchTag arms (fun _ => .deep) (childXml x)).bind fun v =>
        .ok { s with children := s.children ++ [v] } := by
  obtain ⟨h1, h2, h3⟩ := hd _ (hn x)
  simp only [onElem_node, AppdxOf.step, matchTag_cons, h1, h2, h3, if_false, matchTag_nil]
  exact matchTag_childArms _ _ _ _ _ (hn x)

theorem AppdxOf.toXml_name (tag : String) (childXml : γ → Element) (x : AppdxOf L γ) :
    (AppdxOf.toXml tag titleTag childXml x).name = tag := rfl

theorem AppdxOf.round_trip (hL : L.Sound K) {tag : String} {childXml : γ → Element} {C : γ → Prop}
    (h1 : titleTag ≠ "RelatedArticleNum") (h2 : titleTag ≠ "Remarks")
    (hn : ∀ c, (childXml c).name ∈ arms.map Prod.fst)
    (hd : ∀ t ∈ arms.map Prod.fst, t ≠ titleTag ∧ t ≠ "RelatedArticleNum" ∧ t ≠ "Remarks")
    (hC : ∀ c, matchTag arms (fun _ => .deep) (childXml c) = .ok c ↔ C c) (x : AppdxOf L γ) :
    AppdxOf.parser tag titleTag arms (AppdxOf.toXml tag titleTag childXml x) = .ok x ↔
      AppdxOf.Keeps K C x := by
  obtain ⟨t, r, c, rem, n⟩ := x
  simp only [AppdxOf.Keeps, OptKeeps, ← TextWithWritingMode.round_trip hL _ titleTag,
    ← Text.round_trip hL _ "RelatedArticleNum", ← hC, ← optRes_eq_self, ← mapRes_eq_self]
  unfold AppdxOf.parser
  rw [if_pos (AppdxOf.toXml_name ..),
    getOpt_of_get parseString id (fun _ => rfl) _ _ n (by simp [AppdxOf.toXml])]
  simp only [Res.bind_eq_ok, AppdxOf.toXml, forElems, foldRes_append,
    opt! (AppdxOf.St L γ) (AppdxOf.step titleTag arms) title
      (fun t : TextWithWritingMode L => (t.toXml titleTag).node)
      (fun t => TextWithWritingMode.parser (t.toXml titleTag)) (AppdxOf.step_title _),
    opt! (AppdxOf.St L γ) (AppdxOf.step titleTag arms) related_article_num
      (fun t : Text L => (t.toXml "RelatedArticleNum").node)
      (fun t => Text.ofElement (t.toXml "RelatedArticleNum")) (AppdxOf.step_related h1 _),
    opt! (AppdxOf.St L γ) (AppdxOf.step titleTag arms) remarks
      (fun t : Remarks L => t.toXml.node)
      (fun t => Remarks.parser t.toXml) (AppdxOf.step_remarks h2 _),
    seg! (AppdxOf.St L γ) (AppdxOf.step titleTag arms) children
      (fun c => (childXml c).node) (fun c => matchTag arms (fun _ => .deep) (childXml c))
      (AppdxOf.step_child hn hd _),
    optRes_remarks hL, Res.bind_assoc, Res.bind_ok]
  cases rem <;> simp

end

/-- Same when there is one kind of child. -/
theorem AppdxOf.round_trip_single {γ : Type} (hL : L.Sound K) {tag titleTag childTag : String}
    {childP : Element → Res γ} {childXml : γ → Element}
    {C : γ → Prop} (hn : ∀ c, (childXml c).name = childTag)
    (hC : L.Sound K → ∀ c, childP (childXml c) = .ok c ↔ C c)
    (h1 : titleTag ≠ "RelatedArticleNum") (h2 : titleTag ≠ "Remarks")
    (hd : childTag ≠ titleTag ∧ childTag ≠ "RelatedArticleNum" ∧ childTag ≠ "Remarks")
    (x : AppdxOf L γ) :
    AppdxOf.parser tag titleTag [(childTag, childP)] (AppdxOf.toXml tag titleTag childXml x) =
      .ok x ↔ AppdxOf.Keeps K C x :=
  AppdxOf.round_trip hL h1 h2 (by simp [hn]) (by simpa using hd)
    (fun c => by rw [matchTag_single (hn c)]; exact hC hL c) x

theorem AppdxTableContents.round_trip (hL : L.Sound K) (d : Element → Res (AppdxTableContents L))
    (x : AppdxTableContents L) : matchTag AppdxTableContents.arms d x.toXml = .ok x ↔ x.Keeps K := by
  cases x with
  | tableStruct v => exact elem_arm (TableStruct.round_trip hL v) rfl (by inj)
  | item v => exact elem_arm (Item.round_trip hL v) rfl (by inj)

theorem AppdxTableContents.toXml_name_mem (x : AppdxTableContents L) :
    x.toXml.name ∈ (AppdxTableContents.arms (L := L)).map Prod.fst := by
  cases x with
  | tableStruct v => exact .head _
  | item v => exact .tail _ (.head _)

theorem AppdxTable.round_trip (hL : L.Sound K) (x : AppdxTable L) :
    AppdxTable.parser (AppdxTable.toXml x) = .ok x ↔ AppdxTable.Keeps K x :=
  AppdxOf.round_trip hL (by decide) (by decide) AppdxTableContents.toXml_name_mem
    (by simp [AppdxTableContents.arms]) (AppdxTableContents.round_trip hL _) x

theorem AppdxNoteContents.round_trip (hL : L.Sound K) (d : Element → Res (AppdxNoteContents L))
    (x : AppdxNoteContents L) : matchTag AppdxNoteContents.arms d x.toXml = .ok x ↔ x.Keeps K := by
  cases x with
  | noteStruct v => exact elem_arm (NoteStruct.round_trip hL v) rfl (by inj)
  | figStruct v => exact elem_arm (FigStruct.round_trip hL v) rfl (by inj)
  | tableStruct v => exact elem_arm (TableStruct.round_trip hL v) rfl (by inj)

theorem AppdxNoteContents.toXml_name_mem (x : AppdxNoteContents L) :
    x.toXml.name ∈ (AppdxNoteContents.arms (L := L)).map Prod.fst := by
  cases x with
  | tableStruct v => exact .head _
  | figStruct v => exact .tail _ (.head _)
  | noteStruct v => exact .tail _ (.tail _ (.head _))

theorem AppdxNote.round_trip (hL : L.Sound K) (x : AppdxNote L) :
    AppdxNote.parser (AppdxNote.toXml x) = .ok x ↔ AppdxNote.Keeps K x :=
  AppdxOf.round_trip hL (by decide) (by decide) AppdxNoteContents.toXml_name_mem
    (by simp [AppdxNoteContents.arms]) (AppdxNoteContents.round_trip hL _) x

theorem StyleStruct.toXml_name (x : StyleStruct L) : (StyleStruct.toXml x).name = "StyleStruct" :=
  rfl
theorem FormatStruct.toXml_name (x : FormatStruct L) :
    (FormatStruct.toXml x).name = "FormatStruct" := rfl
theorem FigStruct.toXml_name (x : FigStruct L) : (FigStruct.toXml x).name = "FigStruct" := rfl
theorem TableStruct.toXml_name (x : TableStruct L) : (TableStruct.toXml x).name = "TableStruct" :=
  rfl

theorem AppdxStyle.round_trip (hL : L.Sound K) (x : AppdxStyle L) :
    AppdxStyle.parser (AppdxStyle.toXml x) = .ok x ↔ AppdxStyle.Keeps K x :=
  AppdxOf.round_trip_single hL StyleStruct.toXml_name StyleStruct.round_trip (by decide)
    (by decide) (by decide) x

theorem AppdxFormat.round_trip (hL : L.Sound K) (x : AppdxFormat L) :
    AppdxFormat.parser (AppdxFormat.toXml x) = .ok x ↔ AppdxFormat.Keeps K x :=
  AppdxOf.round_trip_single hL FormatStruct.toXml_name FormatStruct.round_trip (by decide)
    (by decide) (by decide) x

theorem Appdx.toXml_name (x : Appdx L) : x.toXml.name = "Appdx" := rfl

theorem Appdx.round_trip (hL : L.Sound K) (x : Appdx L) :
    Appdx.parser x.toXml = .ok x ↔ x.Keeps K := by
  obtain ⟨a, r, f, rem⟩ := x
  simp only [Appdx.Keeps, OptKeeps, ← Text.round_trip hL _ "ArithFormulaNum",
    ← ArithFormula.round_trip hL, ← optRes_eq_self, ← mapRes_eq_self]
  unfold Appdx.parser
  rw [if_pos (Appdx.toXml_name ..)]
  simp only [Res.bind_eq_ok, Appdx.toXml, forElems, foldRes_append,
    opt! (Appdx.St L) Appdx.step arith_formula_num
      (fun t : Text L => (t.toXml "ArithFormulaNum").node)
      (fun t => Text.ofElement (t.toXml "ArithFormulaNum")) (fun _ _ => rfl),
    opt! (Appdx.St L) Appdx.step remarks (fun t : Remarks L => t.toXml.node)
      (fun t => Remarks.parser t.toXml) (fun _ _ => rfl),
    seg! (Appdx.St L) Appdx.step arith_formula (fun c : ArithFormula L => c.toXml.node)
      (fun c => ArithFormula.parser c.toXml) (fun _ _ => rfl),
    optRes_remarks hL, Res.bind_assoc, Res.bind_ok]
  cases rem <;> cases r <;> simp [optRes_none]

/-- Reader of one child. -/
def AppdxFigContents.read (e : Element) : Res (AppdxFigContents L) :=
  matchTag [
    ("TableStruct", fun e => (TableStruct.parser e).bind fun v => .ok (.tableStruct v)),
    ("FigStruct", fun e => (FigStruct.parser e).bind fun v => .ok (.figStruct v))]
    (fun _ => .deep) e

theorem AppdxFigContents.round_trip (hL : L.Sound K) (x : AppdxFigContents L) :
    AppdxFigContents.read x.toXml = .ok x ↔ x.Keeps K := by
  cases x with
  | figStruct v => exact elem_arm (FigStruct.round_trip hL v) rfl (by inj)
  | tableStruct v => exact elem_arm (TableStruct.round_trip hL v) rfl (by inj)

theorem AppdxFig.step_child (e : Element) (s : AppdxFig.St L) (x : AppdxFigContents L) :
    onElem (AppdxFig.step e) s x.toXml.node =
      (AppdxFigContents.read x.toXml).bind fun v =>
        .ok { s with children := s.children ++ [v] } := by
  cases x <;> simp [AppdxFig.step, AppdxFigContents.toXml, FigStruct.toXml_name,
    TableStruct.toXml_name, AppdxFigContents.read, Res.bind_assoc]

theorem AppdxFig.toXml_name (x : AppdxFig L) : x.toXml.name = "AppdxFig" := rfl

theorem AppdxFig.round_trip (hL : L.Sound K) (x : AppdxFig L) :
    AppdxFig.parser x.toXml = .ok x ↔ x.Keeps K := by
  obtain ⟨t, r, c, n⟩ := x
  simp only [AppdxFig.Keeps, OptKeeps, ← TextWithWritingMode.round_trip hL _ "AppdxFigTitle",
    ← Text.round_trip hL _ "RelatedArticleNum", ← AppdxFigContents.round_trip hL,
    ← optRes_eq_self, ← mapRes_eq_self]
  unfold AppdxFig.parser
  rw [if_pos (AppdxFig.toXml_name ..),
    getOpt_of_get parseString id (fun _ => rfl) _ _ n (by simp [AppdxFig.toXml])]
  simp only [Res.bind_eq_ok, AppdxFig.toXml, forElems, foldRes_append,
    opt! (AppdxFig.St L) AppdxFig.step title
      (fun t : TextWithWritingMode L => (t.toXml "AppdxFigTitle").node)
      (fun t => TextWithWritingMode.parser (t.toXml "AppdxFigTitle")) (fun _ _ => rfl),
    opt! (AppdxFig.St L) AppdxFig.step related_article_num
      (fun t : Text L => (t.toXml "RelatedArticleNum").node)
      (fun t => Text.ofElement (t.toXml "RelatedArticleNum")) (fun _ _ => rfl),
    seg! (AppdxFig.St L) AppdxFig.step children (fun c : AppdxFigContents L => c.toXml.node)
      (fun c => AppdxFigContents.read c.toXml) (AppdxFig.step_child _),
    Res.bind_assoc, Res.bind_ok]
  simp

/-! ## Supplementary provisions -/

theorem SupplProvisionAppdxTable.toXml_name (x : SupplProvisionAppdxTable L) :
    (SupplProvisionAppdxTable.toXml x).name = "SupplProvisionAppdxTable" := rfl

/-- The misspelt title is rejected. -/
theorem SupplProvisionAppdxTable.parser_toXml (x : SupplProvisionAppdxTable L) :
    (SupplProvisionAppdxTable.parser (SupplProvisionAppdxTable.toXml x) :
      Res (SupplProvisionAppdxTable L)) =
      .err (wrongTagName (x.title.toXml "SupplProvisionAppdxTableitle")
        "SupplProvisionAppdxTableitle") := by
  obtain ⟨t, r, s, n⟩ := x
  unfold SupplProvisionAppdxTable.parser SupplAppdxOf.parser
  rw [if_pos (SupplProvisionAppdxTable.toXml_name ..),
    getOpt_of_get parseString id (fun _ => rfl) _ _ n
      (by simp [SupplProvisionAppdxTable.toXml, SupplAppdxOf.toXml])]
  have h : ∀ (st : SupplAppdxOf.St L (TableStruct L)),
      onElem (SupplAppdxOf.step "SupplProvisionAppdxTableTitle" "TableStruct" TableStruct.parser
        fun e => wrongTagName e e.name) st (t.toXml "SupplProvisionAppdxTableitle").node =
      .err (wrongTagName (t.toXml "SupplProvisionAppdxTableitle")
        "SupplProvisionAppdxTableitle") := fun _ => rfl
  simp only [SupplProvisionAppdxTable.toXml, SupplAppdxOf.toXml, forElems, foldRes_append,
    foldRes_cons, h, Res.bind_ok, Res.bind_err]

theorem SupplProvisionAppdxStyle.toXml_name (x : SupplProvisionAppdxStyle L) :
    (SupplProvisionAppdxStyle.toXml x).name = "SupplProvisionAppdxStyle" := rfl

theorem SupplProvisionAppdxStyle.step_title (d : Element → Err)
    (s : SupplAppdxOf.St L (StyleStruct L)) (t : TextWithWritingMode L) :
    onElem (SupplAppdxOf.step "SupplProvisionAppdxStyleTitle" "StyleStruct" StyleStruct.parser d) s
      (t.toXml "SupplProvisionAppdxStyleTitle").node =
      (TextWithWritingMode.parser (t.toXml "SupplProvisionAppdxStyleTitle")).bind fun v =>
        .ok { s with title := some v } := rfl

theorem SupplProvisionAppdxStyle.round_trip (hL : L.Sound K) (x : SupplProvisionAppdxStyle L) :
    SupplProvisionAppdxStyle.parser (SupplProvisionAppdxStyle.toXml x) = .ok x ↔
      SupplProvisionAppdxStyle.Keeps K x := by
  obtain ⟨t, r, c, n⟩ := x
  simp only [SupplProvisionAppdxStyle.Keeps, OptKeeps,
    ← TextWithWritingMode.round_trip hL _ "SupplProvisionAppdxStyleTitle",
    ← Text.round_trip hL _ "RelatedArticleNum", ← StyleStruct.round_trip hL,
    ← optRes_eq_self, ← mapRes_eq_self]
  unfold SupplProvisionAppdxStyle.parser SupplAppdxOf.parser
  rw [if_pos (SupplProvisionAppdxStyle.toXml_name ..),
    getOpt_of_get parseString id (fun _ => rfl) _ _ n
      (by simp [SupplProvisionAppdxStyle.toXml, SupplAppdxOf.toXml])]
  simp only [Res.bind_eq_ok, SupplProvisionAppdxStyle.toXml, SupplAppdxOf.toXml, forElems,
    foldRes_append, foldRes_cons, foldRes_nil, SupplProvisionAppdxStyle.step_title,
    opt! (SupplAppdxOf.St L (StyleStruct L)) (SupplAppdxOf.step "SupplProvisionAppdxStyleTitle"
      "StyleStruct" StyleStruct.parser) related_article_num
      (fun t : Text L => (t.toXml "RelatedArticleNum").node)
      (fun t => Text.ofElement (t.toXml "RelatedArticleNum")) (fun _ _ => rfl),
    seg! (SupplAppdxOf.St L (StyleStruct L)) (SupplAppdxOf.step "SupplProvisionAppdxStyleTitle"
      "StyleStruct" StyleStruct.parser) structs (fun c : StyleStruct L => (StyleStruct.toXml c).node)
      (fun c => StyleStruct.parser (StyleStruct.toXml c)) (fun _ _ => rfl),
    Res.bind_assoc, Res.bind_ok]
  simp

theorem SupplProvisionAppdx.parser_toXml (x : SupplProvisionAppdx L) :
    (SupplProvisionAppdx.parser x.toXml : Res (SupplProvisionAppdx L)) =
      .err (wrongTagName x.toXml "SupplProbisionAppdx") := rfl

/-- Reader of one child. -/
def SupplProvisionChildrenElement.read (outer e : Element) :
    Res (SupplProvisionChildrenElement L) :=
  matchTag [
    ("Chapter", fun e => (Chapter.parser e).bind fun v => .ok (.chapter v)),
    ("Article", fun e => (Article.parser e).bind fun v => .ok (.article v)),
    ("Paragraph", fun e => (Paragraph.parser e).bind fun v => .ok (.paragraph v)),
    ("SupplProvisionAppdxTable", fun e => (SupplProvisionAppdxTable.parser e).bind fun v =>
      .ok (.supplProvisionAppdxTable v)),
    ("SupplProvisionAppdxStyle", fun e => (SupplProvisionAppdxStyle.parser e).bind fun v =>
      .ok (.supplProvisionAppdxStyle v)),
    ("SupplProvisionAppdx", fun e => (SupplProvisionAppdx.parser e).bind fun v =>
      .ok (.supplProvisionAppdx v))]
    (unexpected outer) e

theorem SupplProvisionChildrenElement.round_trip (hL : L.Sound K) (outer : Element)
    (x : SupplProvisionChildrenElement L) :
    SupplProvisionChildrenElement.read outer x.toXml = .ok x ↔ x.Keeps K := by
  cases x with
  | chapter v => exact elem_arm (Chapter.round_trip hL v) rfl (by inj)
  | article v => exact elem_arm (Article.round_trip hL v) rfl (by inj)
  | paragraph v => exact elem_arm (Paragraph.round_trip hL v) rfl (by inj)
  | supplProvisionAppdxTable v =>
    exact elem_arm (by simp [toXml, SupplProvisionAppdxTable.parser_toXml, Keeps]) rfl (by inj)
  | supplProvisionAppdxStyle v =>
    exact elem_arm (SupplProvisionAppdxStyle.round_trip hL v) rfl (by inj)
  | supplProvisionAppdx v =>
    have h : SupplProvisionChildrenElement.read (L := L) outer
        (SupplProvisionChildrenElement.supplProvisionAppdx v).toXml =
        .err (unexpectedTag outer "Appdx") := rfl
    simp [h, Keeps]

theorem Chapter.toXml_name (x : Chapter L) : (Chapter.toXml x).name = "Chapter" := rfl
theorem SupplProvisionAppdx.toXml_name (x : SupplProvisionAppdx L) : x.toXml.name = "Appdx" := rfl

theorem SupplProvision.step_label (e : Element) (s : SupplProvision.St L) (t : Text L) :
    onElem (SupplProvision.step e) s (t.toXml "SupplProvisionLabel").node =
      (Text.ofElement (t.toXml "SupplProvisionLabel")).bind fun v => .ok { s with label := v } :=
  rfl

theorem SupplProvision.step_child (e : Element) (s : SupplProvision.St L)
    (x : SupplProvisionChildrenElement L) :
    onElem (SupplProvision.step e) s x.toXml.node =
      (SupplProvisionChildrenElement.read e x.toXml).bind fun v =>
        .ok { s with children := s.children ++ [v] } := by
  cases x <;> simp [SupplProvision.step, SupplProvisionChildrenElement.toXml, Chapter.toXml_name,
    Article.toXml_name, Paragraph.toXml_name, SupplProvisionAppdxTable.toXml_name,
    SupplProvisionAppdxStyle.toXml_name, SupplProvisionAppdx.toXml_name,
    SupplProvisionChildrenElement.read, Res.bind_assoc, unexpected]

theorem SupplProvisionType.fromAttr_toAttr (o : Option SupplProvisionType) :
    SupplProvisionType.fromAttr (o.map SupplProvisionType.toAttr) = .ok o := by
  cases o with
  | none => rfl
  | some a => cases a <;> rfl

theorem SupplProvision.toXml_name (x : SupplProvision L) : x.toXml.name = "SupplProvision" := rfl

theorem SupplProvision.round_trip (hL : L.Sound K) (x : SupplProvision L) :
    SupplProvision.parser x.toXml = .ok x ↔ x.Keeps K := by
  obtain ⟨l, c, ty, am, ex⟩ := x
  have hty : (SupplProvision.toXml ⟨l, c, ty, am, ex⟩).attributes.get "Type" =
      ty.map SupplProvisionType.toAttr := by simp [SupplProvision.toXml]
  have ham : (SupplProvision.toXml ⟨l, c, ty, am, ex⟩).attributes.get "AmendLawNum" = am := by
    simp [SupplProvision.toXml]
  simp only [SupplProvision.Keeps, ← Text.round_trip hL l "SupplProvisionLabel",
    ← SupplProvisionChildrenElement.round_trip hL (SupplProvision.toXml ⟨l, c, ty, am, ex⟩),
    ← mapRes_eq_self]
  unfold SupplProvision.parser
  rw [if_pos (SupplProvision.toXml_name ..), hty, SupplProvisionType.fromAttr_toAttr,
    getOpt_of_get parseBool boolStr parseBool_boolStr _ _ ex (by simp [SupplProvision.toXml]), ham]
  generalize hE : SupplProvision.toXml ⟨l, c, ty, am, ex⟩ = E
  have hc : E.children = (if l.contents = [] then [] else
      [(l.toXml "SupplProvisionLabel").node]) ++ c.map fun c => c.toXml.node := by
    rw [← hE]; rfl
  rw [hc]
  obtain ⟨l⟩ := l
  cases l with
  | nil =>
    simp only [if_true, List.nil_append, forElems,
      foldRes_push (step := onElem (SupplProvision.step E))
        (fun s : SupplProvision.St L => s.children) (fun s v => { s with children := v })
        (fun c : SupplProvisionChildrenElement L => c.toXml.node)
        (fun c => SupplProvisionChildrenElement.read E c.toXml) (SupplProvision.step_child E)
        (fun _ _ => rfl) (fun _ _ _ => rfl) (fun _ => rfl),
      Res.bind_assoc, Res.bind_ok, Res.bind_eq_ok]
    simp [Text.ofElement, Text.toXml, Text.toChildren, Text.fromChildren, Text.new]
  | cons a l =>
    simp only [reduceCtorEq, if_false, forElems, foldRes_append, foldRes_cons, foldRes_nil,
      SupplProvision.step_label,
      foldRes_push (step := onElem (SupplProvision.step E))
        (fun s : SupplProvision.St L => s.children) (fun s v => { s with children := v })
        (fun c : SupplProvisionChildrenElement L => c.toXml.node)
        (fun c => SupplProvisionChildrenElement.read E c.toXml) (SupplProvision.step_child E)
        (fun _ _ => rfl) (fun _ _ _ => rfl) (fun _ => rfl),
      Res.bind_assoc, Res.bind_ok, Res.bind_eq_ok]
    simp

end JLaw
