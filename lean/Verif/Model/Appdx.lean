import Verif.Model.Article

/-! # Appendices and supplementary provisions, src/appdx.rs and src/suppl_provision.rs -/

namespace JLaw

variable {L : Lvl}

/-! ## src/appdx.rs -/

/-- `AppdxTable`, `AppdxNote`, `AppdxStyle` and `AppdxFormat` have the same fields up to the type of
the children. Source: src/appdx.rs 16-22, 105-111, 200-206, 276-282. -/
structure AppdxOf (L : Lvl) (γ : Type) where
  title : Option (TextWithWritingMode L)
  related_article_num : Option (Text L)
  children : List γ
  remarks : Option (Remarks L)
  num : Option String

/-- State of the loop in the four readers. Source: src/appdx.rs 24-67, 113-160, 208-247, 284-323. -/
structure AppdxOf.St (L : Lvl) (γ : Type) where
  title : Option (TextWithWritingMode L) := none
  related_article_num : Option (Text L) := none
  children : List γ := []
  remarks : Option (Remarks L) := none

/-- Body of the loop in the four readers, e.g. src/appdx.rs 33-54 for `AppdxTable`. -/
def AppdxOf.step {γ : Type} (titleTag : String) (arms : List (String × (Element → Res γ)))
    (outer : Element) (s : AppdxOf.St L γ) : Element → Res (AppdxOf.St L γ) :=
  matchTag [
    (titleTag, fun e => (TextWithWritingMode.parser e).bind fun v => .ok { s with title := some v }),
    ("RelatedArticleNum", fun e => (Text.ofElement e).bind fun v =>
      .ok { s with related_article_num := some v }),
    ("Remarks", fun e => (Remarks.parser e).bind fun v => .ok { s with remarks := some v })]
    (matchTag (childArms arms fun v => .ok { s with children := s.children ++ [v] })
      (unexpected outer))

/-- The common shape of the four readers, e.g. src/appdx.rs 24-67 for `AppdxTable`. -/
def AppdxOf.parser {γ : Type} (tag titleTag : String) (arms : List (String × (Element → Res γ)))
    (e : Element) : Res (AppdxOf L γ) :=
  if e.name = tag then
    (getAttributeOptWithParse parseString e "Num").bind fun num =>
    (forElems (AppdxOf.step titleTag arms e) {} e.children).bind fun s =>
    .ok ⟨s.title, s.related_article_num, s.children, s.remarks, num⟩
  else .err (wrongTagName e tag)

/-- The common shape of the four writers, e.g. src/appdx.rs 69-96 for `AppdxTable`. -/
def AppdxOf.toXml {γ : Type} (tag titleTag : String) (childXml : γ → Element) (x : AppdxOf L γ) :
    Element :=
  { name := tag
    attributes := Attrs.insertOpt [] "Num" x.num
    children := (x.title.toList.map fun t => (t.toXml titleTag).node) ++
      (x.related_article_num.toList.map fun t => (t.toXml "RelatedArticleNum").node) ++
      (x.children.map fun c => (childXml c).node) ++
      x.remarks.toList.map fun r => r.toXml.node }

/-- `AppdxTableContents`, src/appdx.rs 99-102. -/
inductive AppdxTableContents (L : Lvl)
  | tableStruct (v : TableStruct L)
  | item (v : Item L)
/-- Element written for it, src/appdx.rs 83-86. -/
def AppdxTableContents.toXml : AppdxTableContents L → Element
  | .item v => Item.toXml v
  | .tableStruct v => TableStruct.toXml v
/-- Arms of the `match`, src/appdx.rs 40-47. -/
def AppdxTableContents.arms : List (String × (Element → Res (AppdxTableContents L))) := [
  ("TableStruct", fun e => (TableStruct.parser e).bind fun v => .ok (.tableStruct v)),
  ("Item", fun e => (Item.parser e).bind fun v => .ok (.item v))]
/-- `AppdxTable`, src/appdx.rs 16-22. -/
abbrev AppdxTable (L : Lvl) := AppdxOf L (AppdxTableContents L)
/-- `AppdxTable::parser`, src/appdx.rs 24-67. -/
def AppdxTable.parser : Element → Res (AppdxTable L) :=
  AppdxOf.parser "AppdxTable" "AppdxTableTitle" AppdxTableContents.arms
/-- `AppdxTable::to_xml_element`, src/appdx.rs 69-96. -/
def AppdxTable.toXml : AppdxTable L → Element :=
  AppdxOf.toXml "AppdxTable" "AppdxTableTitle" AppdxTableContents.toXml

/-- `AppdxNoteContents`, src/appdx.rs 193-197. -/
inductive AppdxNoteContents (L : Lvl)
  | noteStruct (v : NoteStruct L)
  | figStruct (v : FigStruct L)
  | tableStruct (v : TableStruct L)
/-- Element written for it, src/appdx.rs 176-180. -/
def AppdxNoteContents.toXml : AppdxNoteContents L → Element
  | .noteStruct v => NoteStruct.toXml v
  | .tableStruct v => TableStruct.toXml v
  | .figStruct v => FigStruct.toXml v
/-- Arms of the `match`, src/appdx.rs 129-140. -/
def AppdxNoteContents.arms : List (String × (Element → Res (AppdxNoteContents L))) := [
  ("TableStruct", fun e => (TableStruct.parser e).bind fun v => .ok (.tableStruct v)),
  ("FigStruct", fun e => (FigStruct.parser e).bind fun v => .ok (.figStruct v)),
  ("NoteStruct", fun e => (NoteStruct.parser e).bind fun v => .ok (.noteStruct v))]
/-- `AppdxNote`, src/appdx.rs 105-111. -/
abbrev AppdxNote (L : Lvl) := AppdxOf L (AppdxNoteContents L)
/-- `AppdxNote::parser`, src/appdx.rs 113-160. -/
def AppdxNote.parser : Element → Res (AppdxNote L) :=
  AppdxOf.parser "AppdxNote" "AppdxNoteTitle" AppdxNoteContents.arms
/-- `AppdxNote::to_xml_element`, src/appdx.rs 162-190. -/
def AppdxNote.toXml : AppdxNote L → Element :=
  AppdxOf.toXml "AppdxNote" "AppdxNoteTitle" AppdxNoteContents.toXml

/-- `AppdxStyle`, src/appdx.rs 200-206. -/
abbrev AppdxStyle (L : Lvl) := AppdxOf L (StyleStruct L)
/-- `AppdxStyle::parser`, src/appdx.rs 208-247. -/
def AppdxStyle.parser : Element → Res (AppdxStyle L) :=
  AppdxOf.parser "AppdxStyle" "AppdxStyleTitle" [("StyleStruct", StyleStruct.parser)]
/-- `AppdxStyle::to_xml_element`, src/appdx.rs 249-273. -/
def AppdxStyle.toXml : AppdxStyle L → Element :=
  AppdxOf.toXml "AppdxStyle" "AppdxStyleTitle" StyleStruct.toXml

/-- `AppdxFormat`, src/appdx.rs 276-282. -/
abbrev AppdxFormat (L : Lvl) := AppdxOf L (FormatStruct L)
/-- `AppdxFormat::parser`, src/appdx.rs 284-323. -/
def AppdxFormat.parser : Element → Res (AppdxFormat L) :=
  AppdxOf.parser "AppdxFormat" "AppdxFormatTitle" [("FormatStruct", FormatStruct.parser)]
/-- `AppdxFormat::to_xml_element`, src/appdx.rs 324-348. -/
def AppdxFormat.toXml : AppdxFormat L → Element :=
  AppdxOf.toXml "AppdxFormat" "AppdxFormatTitle" FormatStruct.toXml

/-- `Appdx`, src/appdx.rs 351-356. -/
structure Appdx (L : Lvl) where
  arith_formula_num : Option (Text L)
  related_article_num : Option (Text L)
  arith_formula : List (ArithFormula L)
  remarks : Option (Remarks L)

/-- State of the loop in `Appdx::parser`. Source: src/appdx.rs 358-392. -/
structure Appdx.St (L : Lvl) where
  arith_formula_num : Option (Text L) := none
  related_article_num : Option (Text L) := none
  arith_formula : List (ArithFormula L) := []
  remarks : Option (Remarks L) := none

/-- Body of the loop in `Appdx::parser`, src/appdx.rs 365-380. -/
def Appdx.step (outer : Element) (s : Appdx.St L) : Element → Res (Appdx.St L) :=
  matchTag [
    ("ArithFormulaNum", fun e => (Text.ofElement e).bind fun v =>
      .ok { s with arith_formula_num := some v }),
    ("RelatedArticleNum", fun e => (Text.ofElement e).bind fun v =>
      .ok { s with related_article_num := some v }),
    ("ArithFormula", fun e => (ArithFormula.parser e).bind fun v =>
      .ok { s with arith_formula := s.arith_formula ++ [v] }),
    ("Remarks", fun e => (Remarks.parser e).bind fun v => .ok { s with remarks := some v })]
    (unexpected outer)

/-- `Appdx::parser`, src/appdx.rs 358-392. -/
def Appdx.parser (e : Element) : Res (Appdx L) :=
  if e.name = "Appdx" then
    (forElems (Appdx.step e) {} e.children).bind fun s =>
    .ok ⟨s.arith_formula_num, s.related_article_num, s.arith_formula, s.remarks⟩
  else .err (wrongTagName e "Appdx")

/-- `Appdx::to_xml_element`, src/appdx.rs 394-415; the related article number is written under the
tag of the formula number. -/
def Appdx.toXml (x : Appdx L) : Element :=
  { name := "Appdx"
    children := (x.arith_formula_num.toList.map fun t => (t.toXml "ArithFormulaNum").node) ++
      (x.related_article_num.toList.map fun t => (t.toXml "ArithFormulaNum").node) ++
      (x.arith_formula.map fun c => c.toXml.node) ++
      x.remarks.toList.map fun r => r.toXml.node }

/-- `AppdxFigContents`, src/appdx.rs 490-493. -/
inductive AppdxFigContents (L : Lvl)
  | figStruct (v : FigStruct L)
  | tableStruct (v : TableStruct L)
/-- Element written for it, src/appdx.rs 477-480. -/
def AppdxFigContents.toXml : AppdxFigContents L → Element
  | .figStruct v => FigStruct.toXml v
  | .tableStruct v => TableStruct.toXml v

/-- `AppdxFig`, src/appdx.rs 418-423. -/
structure AppdxFig (L : Lvl) where
  title : Option (TextWithWritingMode L)
  related_article_num : Option (Text L)
  children : List (AppdxFigContents L)
  num : Option String

/-- State of the loop in `AppdxFig::parser`. Source: src/appdx.rs 425-462. -/
structure AppdxFig.St (L : Lvl) where
  title : Option (TextWithWritingMode L) := none
  related_article_num : Option (Text L) := none
  children : List (AppdxFigContents L) := []

/-- Body of the loop in `AppdxFig::parser`, src/appdx.rs 432-449. -/
def AppdxFig.step (outer : Element) (s : AppdxFig.St L) : Element → Res (AppdxFig.St L) :=
  matchTag [
    ("AppdxFigTitle", fun e => (TextWithWritingMode.parser e).bind fun v =>
      .ok { s with title := some v }),
    ("RelatedArticleNum", fun e => (Text.ofElement e).bind fun v =>
      .ok { s with related_article_num := some v }),
    ("TableStruct", fun e => (TableStruct.parser e).bind fun v =>
      .ok { s with children := s.children ++ [.tableStruct v] }),
    ("FigStruct", fun e => (FigStruct.parser e).bind fun v =>
      .ok { s with children := s.children ++ [.figStruct v] })]
    (unexpected outer)

/-- `AppdxFig::parser`, src/appdx.rs 425-462. -/
def AppdxFig.parser (e : Element) : Res (AppdxFig L) :=
  if e.name = "AppdxFig" then
    (getAttributeOptWithParse parseString e "Num").bind fun num =>
    (forElems (AppdxFig.step e) {} e.children).bind fun s =>
    .ok ⟨s.title, s.related_article_num, s.children, num⟩
  else .err (wrongTagName e "AppdxFig")

/-- `AppdxFig::to_xml_element`, src/appdx.rs 463-487. -/
def AppdxFig.toXml (x : AppdxFig L) : Element :=
  { name := "AppdxFig"
    attributes := Attrs.insertOpt [] "Num" x.num
    children := (x.title.toList.map fun t => (t.toXml "AppdxFigTitle").node) ++
      (x.related_article_num.toList.map fun t => (t.toXml "RelatedArticleNum").node) ++
      x.children.map fun c => c.toXml.node }

/-! ## src/suppl_provision.rs -/

/-- `SupplProvisionAppdxTable` and `SupplProvisionAppdxStyle` have the same fields up to the type of
the structures. Source: src/suppl_provision.rs 157-162, 231-236. -/
structure SupplAppdxOf (L : Lvl) (γ : Type) where
  title : TextWithWritingMode L
  related_article_num : Option (Text L)
  structs : List γ
  num : Option String

/-- State of the loop in the two readers. Source: src/suppl_provision.rs 164-205, 238-279. -/
structure SupplAppdxOf.St (L : Lvl) (γ : Type) where
  title : Option (TextWithWritingMode L) := none
  related_article_num : Option (Text L) := none
  structs : List γ := []

/-- Body of the loop in the two readers, src/suppl_provision.rs 171-187 and 245-261. -/
def SupplAppdxOf.step {γ : Type} (titleTag structTag : String) (structP : Element → Res γ)
    (dflt : Element → Err) (s : SupplAppdxOf.St L γ) : Element → Res (SupplAppdxOf.St L γ) :=
  matchTag [
    (titleTag, fun e => (TextWithWritingMode.parser e).bind fun v => .ok { s with title := some v }),
    ("RelatedArticleNum", fun e => (Text.ofElement e).bind fun v =>
      .ok { s with related_article_num := some v }),
    (structTag, fun e => (structP e).bind fun v => .ok { s with structs := s.structs ++ [v] })]
    (fun e => .err (dflt e))

/-- The common shape of the two readers, src/suppl_provision.rs 164-205 and 238-279; `missing` and
`wrong` are the names in the errors. -/
def SupplAppdxOf.parser {γ : Type} (tag titleTag structTag missing wrong : String)
    (structP : Element → Res γ) (dflt : Element → Element → Err) (e : Element) :
    Res (SupplAppdxOf L γ) :=
  if e.name = tag then
    (getAttributeOptWithParse parseString e "Num").bind fun num =>
    (forElems (SupplAppdxOf.step titleTag structTag structP (dflt e)) {} e.children).bind fun s =>
    match s.title with
    | some title => .ok ⟨title, s.related_article_num, s.structs, num⟩
    | none => .err (.missingRequiredTag missing)
  else .err (wrongTagName e wrong)

/-- The common shape of the two writers, src/suppl_provision.rs 207-228 and 281-302. -/
def SupplAppdxOf.toXml {γ : Type} (tag titleTag : String) (structXml : γ → Element)
    (x : SupplAppdxOf L γ) : Element :=
  { name := tag
    attributes := Attrs.insertOpt [] "Num" x.num
    children := [(x.title.toXml titleTag).node] ++
      (x.related_article_num.toList.map fun t => (t.toXml "RelatedArticleNum").node) ++
      x.structs.map fun c => (structXml c).node }

/-- `SupplProvisionAppdxTable`, src/suppl_provision.rs 157-162. -/
abbrev SupplProvisionAppdxTable (L : Lvl) := SupplAppdxOf L (TableStruct L)
/-- `SupplProvisionAppdxTable::parser`, src/suppl_provision.rs 164-205. -/
def SupplProvisionAppdxTable.parser : Element → Res (SupplProvisionAppdxTable L) :=
  SupplAppdxOf.parser "SupplProvisionAppdxTable" "SupplProvisionAppdxTableTitle" "TableStruct"
    "SupplProbisionAddxTableTitle" "SupplProbisionAppdxTable" TableStruct.parser
    (fun _ e => wrongTagName e e.name)
/-- `SupplProvisionAppdxTable::to_xml_element`, src/suppl_provision.rs 207-228; the tag of the title
is misspelt in the source. -/
def SupplProvisionAppdxTable.toXml : SupplProvisionAppdxTable L → Element :=
  SupplAppdxOf.toXml "SupplProvisionAppdxTable" "SupplProvisionAppdxTableitle" TableStruct.toXml

/-- `SupplProvisionAppdxStyle`, src/suppl_provision.rs 231-236. -/
abbrev SupplProvisionAppdxStyle (L : Lvl) := SupplAppdxOf L (StyleStruct L)
/-- `SupplProvisionAppdxStyle::parser`, src/suppl_provision.rs 238-279. -/
def SupplProvisionAppdxStyle.parser : Element → Res (SupplProvisionAppdxStyle L) :=
  SupplAppdxOf.parser "SupplProvisionAppdxStyle" "SupplProvisionAppdxStyleTitle" "StyleStruct"
    "SupplProbivionAppdxStyle" "SupplProbisionAppdxStyle" StyleStruct.parser
    (fun outer e => unexpectedTag outer e.name)
/-- `SupplProvisionAppdxStyle::to_xml_element`, src/suppl_provision.rs 281-302. -/
def SupplProvisionAppdxStyle.toXml : SupplProvisionAppdxStyle L → Element :=
  SupplAppdxOf.toXml "SupplProvisionAppdxStyle" "SupplProvisionAppdxStyleTitle" StyleStruct.toXml

/-- `SupplProvisionAppdx`, src/suppl_provision.rs 305-310. -/
structure SupplProvisionAppdx (L : Lvl) where
  arith_formula_num : Option (Text L)
  related_article_num : Option (Text L)
  arith_formula : List (ArithFormula L)
  num : Option String

/-- State of the loop in `SupplProvisionAppdx::parser`. Source: src/suppl_provision.rs 312-346. -/
structure SupplProvisionAppdx.St (L : Lvl) where
  arith_formula_num : Option (Text L) := none
  related_article_num : Option (Text L) := none
  arith_formula : List (ArithFormula L) := []

/-- Body of the loop in `SupplProvisionAppdx::parser`, src/suppl_provision.rs 319-334. -/
def SupplProvisionAppdx.step (outer : Element) (s : SupplProvisionAppdx.St L) :
    Element → Res (SupplProvisionAppdx.St L) :=
  matchTag [
    ("ArithFormulaNum", fun e => (Text.ofElement e).bind fun v =>
      .ok { s with arith_formula_num := some v }),
    ("RelatedArticleNum", fun e => (Text.ofElement e).bind fun v =>
      .ok { s with related_article_num := some v }),
    ("ArithFormula", fun e => (ArithFormula.parser e).bind fun v =>
      .ok { s with arith_formula := s.arith_formula ++ [v] })]
    (unexpected outer)

/-- `SupplProvisionAppdx::parser`, src/suppl_provision.rs 312-346. -/
def SupplProvisionAppdx.parser (e : Element) : Res (SupplProvisionAppdx L) :=
  if e.name = "SupplProvisionAppdx" then
    (getAttributeOptWithParse parseString e "Num").bind fun num =>
    (forElems (SupplProvisionAppdx.step e) {} e.children).bind fun s =>
    .ok ⟨s.arith_formula_num, s.related_article_num, s.arith_formula, num⟩
  else .err (wrongTagName e "SupplProbisionAppdx")

/-- `SupplProvisionAppdx::to_xml_element`, src/suppl_provision.rs 348-369; written as an `Appdx`
element. -/
def SupplProvisionAppdx.toXml (x : SupplProvisionAppdx L) : Element :=
  { name := "Appdx"
    attributes := Attrs.insertOpt [] "Num" x.num
    children := (x.arith_formula_num.toList.map fun t => (t.toXml "ArithFormulaNum").node) ++
      (x.related_article_num.toList.map fun t => (t.toXml "ArithFormulaNum").node) ++
      x.arith_formula.map fun c => c.toXml.node }

/-- `SupplProvisionType`, src/suppl_provision.rs 151-154. -/
inductive SupplProvisionType
  | new | amend
  deriving DecidableEq, Repr

/-- Attribute of a `SupplProvisionType`, src/suppl_provision.rs 121-128. -/
def SupplProvisionType.toAttr : SupplProvisionType → String
  | .amend => "Amend"
  | .new => "New"

/-- Reading the attribute, src/suppl_provision.rs 28-38. -/
def SupplProvisionType.fromAttr : Option String → Res (Option SupplProvisionType)
  | some "New" => .ok (some .new)
  | some "Amend" => .ok (some .amend)
  | none => .ok none
  | _ => .err (.attributeParseError "SupplProbision" "Type")

/-- `SupplProvisionChildrenElement`, src/suppl_provision.rs 141-148. -/
inductive SupplProvisionChildrenElement (L : Lvl)
  | chapter (v : Chapter L)
  | article (v : Article L)
  | paragraph (v : Paragraph L)
  | supplProvisionAppdxTable (v : SupplProvisionAppdxTable L)
  | supplProvisionAppdxStyle (v : SupplProvisionAppdxStyle L)
  | supplProvisionAppdx (v : SupplProvisionAppdx L)
/-- Element written for it, src/suppl_provision.rs 99-118. -/
def SupplProvisionChildrenElement.toXml : SupplProvisionChildrenElement L → Element
  | .chapter v => Chapter.toXml v
  | .article v => v.toXml
  | .paragraph v => v.toXml
  | .supplProvisionAppdxTable v => SupplProvisionAppdxTable.toXml v
  | .supplProvisionAppdxStyle v => SupplProvisionAppdxStyle.toXml v
  | .supplProvisionAppdx v => v.toXml

/-- `SupplProvision`, src/suppl_provision.rs 17-23. -/
structure SupplProvision (L : Lvl) where
  label : Text L
  children : List (SupplProvisionChildrenElement L)
  suppl_provision_type : Option SupplProvisionType
  amend_law_num : Option String
  extract : Option Bool

/-- State of the loop in `SupplProvision::parser`. Source: src/suppl_provision.rs 25-88. -/
structure SupplProvision.St (L : Lvl) where
  label : Text L := Text.new
  children : List (SupplProvisionChildrenElement L) := []

/-- Body of the loop in `SupplProvision::parser`, src/suppl_provision.rs 43-75. -/
def SupplProvision.step (outer : Element) (s : SupplProvision.St L) :
    Element → Res (SupplProvision.St L) :=
  matchTag [
    ("SupplProvisionLabel", fun e => (Text.ofElement e).bind fun v => .ok { s with label := v }),
    ("Chapter", fun e => (Chapter.parser e).bind fun v =>
      .ok { s with children := s.children ++ [.chapter v] }),
    ("Article", fun e => (Article.parser e).bind fun v =>
      .ok { s with children := s.children ++ [.article v] }),
    ("Paragraph", fun e => (Paragraph.parser e).bind fun v =>
      .ok { s with children := s.children ++ [.paragraph v] }),
    ("SupplProvisionAppdxTable", fun e => (SupplProvisionAppdxTable.parser e).bind fun v =>
      .ok { s with children := s.children ++ [.supplProvisionAppdxTable v] }),
    ("SupplProvisionAppdxStyle", fun e => (SupplProvisionAppdxStyle.parser e).bind fun v =>
      .ok { s with children := s.children ++ [.supplProvisionAppdxStyle v] }),
    ("SupplProvisionAppdx", fun e => (SupplProvisionAppdx.parser e).bind fun v =>
      .ok { s with children := s.children ++ [.supplProvisionAppdx v] })]
    (unexpected outer)

/-- `SupplProvision::parser`, src/suppl_provision.rs 25-88. -/
def SupplProvision.parser (e : Element) : Res (SupplProvision L) :=
  if e.name = "SupplProvision" then
    (SupplProvisionType.fromAttr (e.attributes.get "Type")).bind fun ty =>
    (getAttributeOptWithParse parseBool e "Extract").bind fun extract =>
    (forElems (SupplProvision.step e) {} e.children).bind fun s =>
    .ok ⟨s.label, s.children, ty, e.attributes.get "AmendLawNum", extract⟩
  else .err (wrongTagName e "SupplProbision")

/-- `SupplProvision::to_xml_element`, src/suppl_provision.rs 90-138; an empty label is not
written. -/
def SupplProvision.toXml (x : SupplProvision L) : Element :=
  { name := "SupplProvision"
    attributes := ((Attrs.insertOpt [] "Type"
      (x.suppl_provision_type.map SupplProvisionType.toAttr)).insertOpt "AmendLawNum"
      x.amend_law_num).insertOpt "Extract" (x.extract.map boolStr)
    children := (if x.label.contents = [] then [] else
        [(x.label.toXml "SupplProvisionLabel").node]) ++
      x.children.map fun c => c.toXml.node }

end JLaw
