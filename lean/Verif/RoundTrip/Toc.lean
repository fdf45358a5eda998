import Verif.RoundTrip.Article

/-! # Round trips: tables of contents -/

namespace JLaw

variable {L : Lvl} {K : Keep L}

/-- A written number read with `get_attribute_with_parse`. -/
theorem getNum_of_get (e : Element) (a : ArticleNumber)
    (h : e.attributes.get "Num" = some a.numStr) :
    getAttributeWithParse ArticleNumber.parse? e "Num" = ArticleNumber.fromNumStr a.numStr := by
  obtain ⟨b, hb⟩ := (C01_num_str_round_trip a).1
  simp only [getAttributeWithParse, h, ArticleNumber.parse?, hb]

section
variable {γ : Type} {titleTag : String} {arms : List (String × (Element → Res γ))}

theorem TOCOf.step_title (e : Element) (s : TOCOf.St L γ) (t : Text L) :
    onElem (TOCOf.step titleTag arms e) s (t.toXml titleTag).node =
      (Text.ofElement (t.toXml titleTag)).bind fun v => .ok { s with title := v } := by
  have hn : (t.toXml titleTag).name = titleTag := rfl
  rw [onElem_node, TOCOf.step, matchTag_cons, if_pos hn]

theorem TOCOf.step_range (h : titleTag ≠ "ArticleRange") (e : Element) (s : TOCOf.St L γ)
    (t : Text L) :
    onElem (TOCOf.step titleTag arms e) s (t.toXml "ArticleRange").node =
      (Text.ofElement (t.toXml "ArticleRange")).bind fun v =>
        .ok { s with article_range := some v } := by
  have hn : (t.toXml "ArticleRange").name = "ArticleRange" := rfl
  rw [onElem_node, TOCOf.step, matchTag_cons, if_neg (by rw [hn]; exact h.symm), matchTag_cons,
    if_pos hn]

theorem TOCOf.step_child {childXml : γ → Element}
    (hn : ∀ c, (childXml c).name ∈ arms.map Prod.fst)
    (hd : ∀ t ∈ arms.map Prod.fst, t ≠ titleTag ∧ t ≠ "ArticleRange") (e : Element)
    (s : TOCOf.St L γ) (x : γ) :
    onElem (TOCOf.step titleTag arms e) s (childXml x).node =
      (matchTag arms (fun _ => .deep) (childXml x)).bind fun v =>
        .ok { s with children := s.children ++ [v] } := by
  obtain ⟨h1, h2⟩ := hd _ (hn x)
  simp only [onElem_node, TOCOf.step, matchTag_cons, h1, h2, if_false, matchTag_nil]
  exact matchTag_childArms _ _ _ _ _ (hn x)

theorem TOCOf.toXml_name (tag : String) (childXml : γ → Element) (x : TOCOf L γ) :
    (TOCOf.toXml tag titleTag childXml x).name = tag := rfl

theorem TOCOf.round_trip (hL : L.Sound K) {tag : String} {childXml : γ → Element} {C : γ → Prop}
    (h1 : titleTag ≠ "ArticleRange") (hn : ∀ c, (childXml c).name ∈ arms.map Prod.fst)
    (hd : ∀ t ∈ arms.map Prod.fst, t ≠ titleTag ∧ t ≠ "ArticleRange")
    (hC : ∀ c, matchTag arms (fun _ => .deep) (childXml c) = .ok c ↔ C c) (x : TOCOf L γ) :
    TOCOf.parser tag titleTag arms (TOCOf.toXml tag titleTag childXml x) = .ok x ↔
      TOCOf.Keeps K C x := by
  obtain ⟨t, r, n, d, c⟩ := x
  simp only [TOCOf.Keeps, OptKeeps, ← Text.round_trip hL t titleTag,
    ← Text.round_trip hL _ "ArticleRange", ← hC,
    ← optRes_eq_self, ← mapRes_eq_self, ← ArticleNumber.fromNumStr_numStr]
  unfold TOCOf.parser
  rw [if_pos (TOCOf.toXml_name ..), getNum_of_get _ n (by simp [TOCOf.toXml]),
    getBool_of_get _ _ d (by simp [TOCOf.toXml])]
  simp only [Res.bind_eq_ok, TOCOf.toXml, forElems,
    foldRes_append, foldRes_cons, foldRes_nil, TOCOf.step_title,
    opt! (TOCOf.St L γ) (TOCOf.step titleTag arms) article_range
      (fun t : Text L => (t.toXml "ArticleRange").node)
      (fun t => Text.ofElement (t.toXml "ArticleRange")) (TOCOf.step_range h1 _),
    seg! (TOCOf.St L γ) (TOCOf.step titleTag arms) children
      (fun c => (childXml c).node) (fun c => matchTag arms (fun _ => .deep) (childXml c))
      (TOCOf.step_child hn hd _),
    Res.bind_assoc, Res.bind_ok]
  simp
  grind

end

/-- Same when there is one kind of child. -/
theorem TOCOf.round_trip_single {γ : Type} (hL : L.Sound K) {tag titleTag childTag : String}
    {childP : Element → Res γ} {childXml : γ → Element}
    {C : γ → Prop} (hn : ∀ c, (childXml c).name = childTag)
    (hC : L.Sound K → ∀ c, childP (childXml c) = .ok c ↔ C c) (h1 : titleTag ≠ "ArticleRange")
    (hd : childTag ≠ titleTag ∧ childTag ≠ "ArticleRange") (x : TOCOf L γ) :
    TOCOf.parser tag titleTag [(childTag, childP)] (TOCOf.toXml tag titleTag childXml x) = .ok x ↔
      TOCOf.Keeps K C x :=
  TOCOf.round_trip hL h1 (by simp [hn]) (by simpa using hd)
    (fun c => by rw [matchTag_single (hn c)]; exact hC hL c) x

theorem TOCDivision.toXml_name (x : TOCDivision L) : (TOCDivision.toXml x).name = "TOCDivision" :=
  rfl

theorem TOCDivision.round_trip (hL : L.Sound K) (x : TOCDivision L) :
    TOCDivision.parser (TOCDivision.toXml x) = .ok x ↔ TOCDivision.Keeps K x :=
  TOCOf.round_trip hL (by decide) (fun c => c.elim) (by simp) (fun c => c.elim) x

theorem TOCSubsection.round_trip (hL : L.Sound K) (x : TOCSubsection L) :
    TOCSubsection.parser (TOCSubsection.toXml x) = .ok x ↔ TOCSubsection.Keeps K x :=
  TOCOf.round_trip_single hL TOCDivision.toXml_name TOCDivision.round_trip (by decide) (by decide) x

theorem TOCSectionContents.round_trip (hL : L.Sound K) (d : Element → Res (TOCSectionContents L))
    (x : TOCSectionContents L) : matchTag TOCSectionContents.arms d x.toXml = .ok x ↔ x.Keeps K := by
  cases x with
  | tocSubsection v => exact elem_arm (TOCSubsection.round_trip hL v) rfl (by inj)
  | tocDivision v => exact elem_arm (TOCDivision.round_trip hL v) rfl (by inj)

theorem TOCSectionContents.toXml_name_mem (x : TOCSectionContents L) :
    x.toXml.name ∈ (TOCSectionContents.arms (L := L)).map Prod.fst := by
  cases x with
  | tocSubsection v => exact .head _
  | tocDivision v => exact .tail _ (.head _)

theorem TOCSection.toXml_name (x : TOCSection L) : (TOCSection.toXml x).name = "TOCSection" := rfl

theorem TOCSection.round_trip (hL : L.Sound K) (x : TOCSection L) :
    TOCSection.parser (TOCSection.toXml x) = .ok x ↔ TOCSection.Keeps K x :=
  TOCOf.round_trip hL (by decide) TOCSectionContents.toXml_name_mem
    (by simp [TOCSectionContents.arms]) (TOCSectionContents.round_trip hL _) x

theorem TOCChapter.toXml_name (x : TOCChapter L) : (TOCChapter.toXml x).name = "TOCChapter" := rfl

theorem TOCChapter.round_trip (hL : L.Sound K) (x : TOCChapter L) :
    TOCChapter.parser (TOCChapter.toXml x) = .ok x ↔ TOCChapter.Keeps K x :=
  TOCOf.round_trip_single hL TOCSection.toXml_name TOCSection.round_trip (by decide) (by decide) x

theorem TOCPart.toXml_name (x : TOCPart L) : (TOCPart.toXml x).name = "TOCPart" := rfl

theorem TOCPart.round_trip (hL : L.Sound K) (x : TOCPart L) :
    TOCPart.parser (TOCPart.toXml x) = .ok x ↔ TOCPart.Keeps K x :=
  TOCOf.round_trip_single hL TOCChapter.toXml_name TOCChapter.round_trip (by decide) (by decide) x

theorem TOCArticle.toXml_name (x : TOCArticle L) : x.toXml.name = "TOCArticle" := rfl

theorem TOCArticle.step_title (e : Element) (s : TOCArticle.St L) (t : Text L) :
    onElem (TOCArticle.step e) s (t.toXml "ArticleTitle").node =
      (Text.ofElement (t.toXml "ArticleTitle")).bind fun v =>
        .ok { s with article_title := v } := rfl

theorem TOCArticle.step_caption (e : Element) (s : TOCArticle.St L) (t : Caption L) :
    onElem (TOCArticle.step e) s (t.toXml "ArticleCaption").node =
      (Caption.parser (t.toXml "ArticleCaption")).bind fun v =>
        .ok { s with article_caption := some v } := rfl

theorem TOCArticle.round_trip (hL : L.Sound K) (x : TOCArticle L) :
    TOCArticle.parser x.toXml = .ok x ↔ x.Keeps K := by
  obtain ⟨t, c, n, d⟩ := x
  simp only [TOCArticle.Keeps, ← Text.round_trip hL t "ArticleTitle",
    ← Caption.round_trip hL _ "ArticleCaption", ← ArticleNumber.fromNumStr_numStr]
  unfold TOCArticle.parser
  rw [if_pos (TOCArticle.toXml_name ..), getNum_of_get _ n (by simp [TOCArticle.toXml]),
    getBool_of_get _ _ d (by simp [TOCArticle.toXml])]
  simp only [Res.bind_eq_ok, TOCArticle.toXml,
    forElems, foldRes_cons, foldRes_nil, TOCArticle.step_title, TOCArticle.step_caption,
    Res.bind_assoc, Res.bind_ok]
  simp
  grind

/-- Reader of one entry of the supplementary provision. -/
def TOCSupplProvisionContents.read (e : Element) : Res (TOCSupplProvisionContents L) :=
  matchTag [
    ("TOCArticle", fun e => (TOCArticle.parser e).bind fun v => .ok (.tocArticle v)),
    ("TOCChapter", fun e => (TOCChapter.parser e).bind fun v => .ok (.tocChapter v))]
    (fun _ => .deep) e

theorem TOCSupplProvisionContents.round_trip (hL : L.Sound K) (x : TOCSupplProvisionContents L) :
    TOCSupplProvisionContents.read x.toXml = .ok x ↔ x.Keeps K := by
  cases x with
  | tocArticle v => exact elem_arm (TOCArticle.round_trip hL v) rfl (by inj)
  | tocChapter v => exact elem_arm (TOCChapter.round_trip hL v) rfl (by inj)

theorem TOCSupplProvision.step_label (e : Element) (s : TOCSupplProvision.St L) (t : Text L) :
    onElem (TOCSupplProvision.step e) s (t.toXml "SupplProvisionLabel").node =
      (Text.ofElement (t.toXml "SupplProvisionLabel")).bind fun v =>
        .ok { s with suppl_provision_label := v } := rfl

theorem TOCSupplProvision.step_child (e : Element) (s : TOCSupplProvision.St L)
    (x : TOCSupplProvisionContents L) :
    onElem (TOCSupplProvision.step e) s x.toXml.node =
      (TOCSupplProvisionContents.read x.toXml).bind fun v =>
        .ok { s with children := s.children ++ [v] } := by
  cases x <;> simp [TOCSupplProvision.step, TOCSupplProvisionContents.toXml, TOCChapter.toXml_name,
    TOCArticle.toXml_name, TOCSupplProvisionContents.read, Res.bind_assoc]

theorem TOCSupplProvision.toXml_name (x : TOCSupplProvision L) :
    x.toXml.name = "TOCSupplProvision" := rfl

theorem TOCSupplProvision.round_trip (hL : L.Sound K) (x : TOCSupplProvision L) :
    TOCSupplProvision.parser x.toXml = .ok x ↔ x.Keeps K := by
  obtain ⟨t, r, c⟩ := x
  simp only [TOCSupplProvision.Keeps, OptKeeps, ← Text.round_trip hL t "SupplProvisionLabel",
    ← Text.round_trip hL _ "ArticleRange", ← TOCSupplProvisionContents.round_trip hL,
    ← optRes_eq_self, ← mapRes_eq_self]
  unfold TOCSupplProvision.parser
  rw [if_pos (TOCSupplProvision.toXml_name ..)]
  simp only [Res.bind_eq_ok, TOCSupplProvision.toXml, forElems,
    foldRes_append, foldRes_cons, foldRes_nil, TOCSupplProvision.step_label,
    opt! (TOCSupplProvision.St L) TOCSupplProvision.step article_range
      (fun t : Text L => (t.toXml "ArticleRange").node)
      (fun t => Text.ofElement (t.toXml "ArticleRange")) (fun _ _ => rfl),
    seg! (TOCSupplProvision.St L) TOCSupplProvision.step children
      (fun c : TOCSupplProvisionContents L => c.toXml.node)
      (fun c => TOCSupplProvisionContents.read c.toXml) (TOCSupplProvision.step_child _),
    Res.bind_assoc, Res.bind_ok]
  simp

/-- Reader of one main entry. -/
def TOCMainContents.read (e : Element) : Res (TOCMainContents L) :=
  matchTag [
    ("TOCPart", fun e => (TOCPart.parser e).bind fun v => .ok (.tocPart v)),
    ("TOCChapter", fun e => (TOCChapter.parser e).bind fun v => .ok (.tocChapter v)),
    ("TOCSection", fun e => (TOCSection.parser e).bind fun v => .ok (.tocSection v)),
    ("TOCArticle", fun e => (TOCArticle.parser e).bind fun v => .ok (.tocArticle v))]
    (fun _ => .deep) e

theorem TOCMainContents.round_trip (hL : L.Sound K) (x : TOCMainContents L) :
    TOCMainContents.read x.toXml = .ok x ↔ x.Keeps K := by
  cases x with
  | tocPart v => exact elem_arm (TOCPart.round_trip hL v) rfl (by inj)
  | tocChapter v => exact elem_arm (TOCChapter.round_trip hL v) rfl (by inj)
  | tocSection v => exact elem_arm (TOCSection.round_trip hL v) rfl (by inj)
  | tocArticle v => exact elem_arm (TOCArticle.round_trip hL v) rfl (by inj)

theorem TOC.step_main (e : Element) (s : TOC.St L) (x : TOCMainContents L) :
    onElem (TOC.step e) s x.toXml.node =
      (TOCMainContents.read x.toXml).bind fun v =>
        .ok { s with main_contents := s.main_contents ++ [v] } := by
  cases x <;> simp [TOC.step, TOCMainContents.toXml, TOCChapter.toXml_name, TOCPart.toXml_name,
    TOCSection.toXml_name, TOCArticle.toXml_name, TOCMainContents.read, Res.bind_assoc]

theorem TOC.toXml_name (x : TOC L) : x.toXml.name = "TOC" := rfl

/-- What reading a written table of contents gives. -/
theorem TOC.parser_toXml (x : TOC L) :
    TOC.parser x.toXml =
      (optRes (fun t => Text.ofElement (t.toXml "TOCLabel")) x.toc_label).bind fun l =>
      (optRes (fun t => Text.ofElement (t.toXml "TOCLabel")) x.toc_preamble_label).bind fun p =>
      (mapRes (fun c => TOCMainContents.read c.toXml) x.toc_main_contents).bind fun m =>
      (optRes (fun c => TOCSupplProvision.parser c.toXml) x.toc_suppl_provision).bind fun s =>
      (mapRes (fun t => Text.ofElement (t.toXml "TOCAppdxTableLabel"))
        x.toc_appdx_table_label).bind fun a =>
      (.ok ⟨p.or l, none, m, s, a⟩ : Res (TOC L)) := by
  unfold TOC.parser
  rw [if_pos (TOC.toXml_name ..)]
  simp only [TOC.toXml, forElems, foldRes_append,
    opt! (TOC.St L) TOC.step label (fun t : Text L => (t.toXml "TOCLabel").node)
      (fun t => Text.ofElement (t.toXml "TOCLabel")) (fun _ _ => rfl),
    opt! (TOC.St L) TOC.step suppl_provision (fun t : TOCSupplProvision L => t.toXml.node)
      (fun t => TOCSupplProvision.parser t.toXml) (fun _ _ => rfl),
    seg! (TOC.St L) TOC.step main_contents (fun c : TOCMainContents L => c.toXml.node)
      (fun c => TOCMainContents.read c.toXml) (TOC.step_main _),
    seg! (TOC.St L) TOC.step appdx_table_label
      (fun t : Text L => (t.toXml "TOCAppdxTableLabel").node)
      (fun t => Text.ofElement (t.toXml "TOCAppdxTableLabel")) (fun _ _ => rfl),
    Res.bind_assoc, Res.bind_ok, Option.or_none, List.nil_append]

theorem Text.ofElement_toXml (t : Text L) (name : String) :
    Text.ofElement (t.toXml name) = Text.fromChildren (L := L) t.toChildren := rfl

theorem TOC.round_trip (hL : L.Sound K) (x : TOC L) : TOC.parser x.toXml = .ok x ↔ x.Keeps K := by
  rw [TOC.parser_toXml]
  obtain ⟨l, p, m, s, a⟩ := x
  simp only [TOC.Keeps, OptKeeps, ← Text.fromChildren_toChildren hL, Text.ofElement_toXml,
    ← TOCMainContents.round_trip hL, ← TOCSupplProvision.round_trip hL, ← optRes_eq_self,
    ← mapRes_eq_self, Res.bind_eq_ok]
  cases p with
  | none =>
    simp [show ∀ p : Text L → Res (Text L), optRes p none = .ok none from fun _ => rfl]
  | some p => simp [optRes]

end JLaw
