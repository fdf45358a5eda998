import Verif.Model.Appdx
import Verif.Model.Toc

/-!
# The law itself, table cells, raw contents and amendments

src/law.rs, the cells of src/table.rs, `Contents` of src/contents.rs, and the levels of nesting.
-/

namespace JLaw

variable {L : Lvl}

/-! ## src/law.rs -/

/-- `LawTitle`, src/law.rs 476-485. -/
structure LawTitle (L : Lvl) where
  kana : Option String
  abbrev_ : Option String
  abbrev_kana : Option String
  text : Text L

/-- `LawTitle::parser`, src/law.rs 487-504. -/
def LawTitle.parser (e : Element) : Res (LawTitle L) :=
  if e.name = "LawTitle" then
    (getAttributeOptWithParse parseString e "Kana").bind fun kana =>
    (getAttributeOptWithParse parseString e "Abbrev").bind fun abbrev_ =>
    (getAttributeOptWithParse parseString e "AbbrevKana").bind fun abbrev_kana =>
    (Text.fromChildren e.children).bind fun text =>
    .ok ⟨kana, abbrev_, abbrev_kana, text⟩
  else .err (wrongTagName e "LawTitle")

/-- `LawTitle::to_xml_element`, src/law.rs 506-521. -/
def LawTitle.toXml (x : LawTitle L) : Element :=
  { name := "LawTitle"
    attributes := ((Attrs.insertOpt [] "Kana" x.kana).insertOpt "Abbrev" x.abbrev_).insertOpt
      "AbbrevKana" x.abbrev_kana
    children := x.text.toChildren }

/-- `Preamble`, src/law.rs 525-527. -/
structure Preamble (L : Lvl) where
  children : List (Paragraph L)

/-- `Preamble::parser`, src/law.rs 529-546; other child elements are ignored. -/
def Preamble.parser (e : Element) : Res (Preamble L) :=
  if e.name = "Preamble" then
    (readTagged "Paragraph" Paragraph.parser e.children).bind fun children => .ok ⟨children⟩
  else .err (wrongTagName e "Preamble")

/-- `Preamble::to_xml_element`, src/law.rs 548-556. -/
def Preamble.toXml (x : Preamble L) : Element :=
  { name := "Preamble", children := x.children.map fun p => p.toXml.node }

/-- `MainProvisionContents`, src/law.rs 628-639. -/
inductive MainProvisionContents (L : Lvl)
  | part (v : Part L)
  | chapter (v : Chapter L)
  | section_ (v : Section L)
  | article (v : Article L)
  | paragraph (v : Paragraph L)
/-- Element written for it, src/law.rs 609-617. -/
def MainProvisionContents.toXml : MainProvisionContents L → Element
  | .part v => Part.toXml v
  | .chapter v => Chapter.toXml v
  | .section_ v => Section.toXml v
  | .article v => v.toXml
  | .paragraph v => v.toXml
/-- Arms of the `match`, src/law.rs 573-593. -/
def MainProvisionContents.arms : List (String × (Element → Res (MainProvisionContents L))) := [
  ("Part", fun e => (Part.parser e).bind fun v => .ok (.part v)),
  ("Chapter", fun e => (Chapter.parser e).bind fun v => .ok (.chapter v)),
  ("Section", fun e => (Section.parser e).bind fun v => .ok (.section_ v)),
  ("Article", fun e => (Article.parser e).bind fun v => .ok (.article v)),
  ("Paragraph", fun e => (Paragraph.parser e).bind fun v => .ok (.paragraph v))]

/-- `MainProvision`, src/law.rs 560-564. -/
structure MainProvision (L : Lvl) where
  children : List (MainProvisionContents L)
  extract : Option Bool

/-- `MainProvision::parser`, src/law.rs 566-603. -/
def MainProvision.parser (e : Element) : Res (MainProvision L) :=
  if e.name = "MainProvision" then
    (getAttributeOptWithParse parseBool e "Extract").bind fun extract =>
    (readAll (matchTag MainProvisionContents.arms (unexpected e)) e.children).bind fun children =>
    .ok ⟨children, extract⟩
  else .err (wrongTagName e "MainProvision")

/-- `MainProvision::to_xml_element`, src/law.rs 605-624. -/
def MainProvision.toXml (x : MainProvision L) : Element :=
  { name := "MainProvision"
    attributes := Attrs.insertOpt [] "Extract" (x.extract.map boolStr)
    children := x.children.map fun c => c.toXml.node }

/-- `LawBody`, src/law.rs 305-332. -/
structure LawBody (L : Lvl) where
  law_title : Option (LawTitle L)
  enact_statement : List (Text L)
  subject : Option String
  toc : Option (TOC L)
  preamble : Option (Preamble L)
  main_provision : MainProvision L
  suppl_provision : List (SupplProvision L)
  appdx_table : List (AppdxTable L)
  appdx_note : List (AppdxNote L)
  appdx_style : List (AppdxStyle L)
  appdx : List (Appdx L)
  appdx_fig : List (AppdxFig L)
  appdx_format : List (AppdxFormat L)

/-- State of the loop in `LawBody::parser`. Source: src/law.rs 334-425. -/
structure LawBody.St (L : Lvl) where
  law_title : Option (LawTitle L) := none
  enact_statement : List (Text L) := []
  toc : Option (TOC L) := none
  preamble : Option (Preamble L) := none
  main_provision : Option (MainProvision L) := none
  suppl_provision : List (SupplProvision L) := []
  appdx_table : List (AppdxTable L) := []
  appdx_note : List (AppdxNote L) := []
  appdx_style : List (AppdxStyle L) := []
  appdx : List (Appdx L) := []
  appdx_fig : List (AppdxFig L) := []
  appdx_format : List (AppdxFormat L) := []

/-- Body of the loop in `LawBody::parser`, src/law.rs 350-401. -/
def LawBody.step (outer : Element) (s : LawBody.St L) : Element → Res (LawBody.St L) :=
  matchTag [
    ("LawTitle", fun e => (LawTitle.parser e).bind fun v => .ok { s with law_title := some v }),
    ("EnactStatement", fun e => (Text.ofElement e).bind fun v =>
      .ok { s with enact_statement := s.enact_statement ++ [v] }),
    ("TOC", fun e => (TOC.parser e).bind fun v => .ok { s with toc := some v }),
    ("Preamble", fun e => (Preamble.parser e).bind fun v => .ok { s with preamble := some v }),
    ("MainProvision", fun e => (MainProvision.parser e).bind fun v =>
      .ok { s with main_provision := some v }),
    ("SupplProvision", fun e => (SupplProvision.parser e).bind fun v =>
      .ok { s with suppl_provision := s.suppl_provision ++ [v] }),
    ("AppdxTable", fun e => (AppdxTable.parser e).bind fun v =>
      .ok { s with appdx_table := s.appdx_table ++ [v] }),
    ("AppdxNote", fun e => (AppdxNote.parser e).bind fun v =>
      .ok { s with appdx_note := s.appdx_note ++ [v] }),
    ("AppdxStyle", fun e => (AppdxStyle.parser e).bind fun v =>
      .ok { s with appdx_style := s.appdx_style ++ [v] }),
    ("Appdx", fun e => (Appdx.parser e).bind fun v => .ok { s with appdx := s.appdx ++ [v] }),
    ("AppdxFig", fun e => (AppdxFig.parser e).bind fun v =>
      .ok { s with appdx_fig := s.appdx_fig ++ [v] }),
    ("AppdxFormat", fun e => (AppdxFormat.parser e).bind fun v =>
      .ok { s with appdx_format := s.appdx_format ++ [v] })]
    (unexpected outer)

/-- `LawBody::parser`, src/law.rs 334-425. -/
def LawBody.parser (e : Element) : Res (LawBody L) :=
  if e.name = "LawBody" then
    (getAttributeOptWithParse parseString e "Subject").bind fun subject =>
    (forElems (LawBody.step e) {} e.children).bind fun s =>
    match s.main_provision with
    | some main_provision =>
      .ok { law_title := s.law_title, enact_statement := s.enact_statement, subject := subject,
            toc := s.toc, preamble := s.preamble, main_provision := main_provision,
            suppl_provision := s.suppl_provision, appdx_table := s.appdx_table,
            appdx_note := s.appdx_note, appdx_style := s.appdx_style, appdx := s.appdx,
            appdx_fig := s.appdx_fig, appdx_format := s.appdx_format }
    | none => .err (missingRequiredTag "MainProvision")
  else .err (wrongTagName e "LawBody")

/-- `LawBody::to_xml_element`, src/law.rs 427-472. -/
def LawBody.toXml (x : LawBody L) : Element :=
  { name := "LawBody"
    attributes := Attrs.insertOpt [] "Subject" x.subject
    children := (x.law_title.toList.map fun v => v.toXml.node) ++
      (x.enact_statement.map fun v => (v.toXml "EnactStatement").node) ++
      (x.toc.toList.map fun v => v.toXml.node) ++
      (x.preamble.toList.map fun v => v.toXml.node) ++
      [x.main_provision.toXml.node] ++
      (x.suppl_provision.map fun v => v.toXml.node) ++
      (x.appdx_table.map fun v => (AppdxTable.toXml v).node) ++
      (x.appdx_note.map fun v => (AppdxNote.toXml v).node) ++
      (x.appdx_style.map fun v => (AppdxStyle.toXml v).node) ++
      (x.appdx.map fun v => v.toXml.node) ++
      (x.appdx_fig.map fun v => v.toXml.node) ++
      x.appdx_format.map fun v => (AppdxFormat.toXml v).node }

/-- `Era`, src/law.rs 264-275. -/
inductive Era
  | meiji | taisho | showa | heisei | reiwa
  deriving DecidableEq, Repr
/-- Attribute of an era, src/law.rs 190-206. -/
def Era.toAttr : Era → String
  | .meiji => "Meiji"
  | .taisho => "Taisho"
  | .showa => "Showa"
  | .heisei => "Heisei"
  | .reiwa => "Reiwa"
/-- Era of an attribute, src/law.rs 50-62. -/
def Era.fromAttr : Option String → Option Era
  | some "Meiji" => some .meiji
  | some "Taisho" => some .taisho
  | some "Showa" => some .showa
  | some "Heisei" => some .heisei
  | some "Reiwa" => some .reiwa
  | _ => none

/-- `LawType`, src/law.rs 279-294. -/
inductive LawType
  | constitution | act | cabinetOrder | imperialOrder | ministerialOrdinance | rule | misc
  deriving DecidableEq, Repr
/-- Attribute of a law type, src/law.rs 220-249. -/
def LawType.toAttr : LawType → String
  | .constitution => "Constitution"
  | .act => "Act"
  | .cabinetOrder => "CabinetOrder"
  | .imperialOrder => "ImperialOrder"
  | .ministerialOrdinance => "MinisterialOrdinance"
  | .rule => "Rule"
  | .misc => "Misc"
/-- Law type of an attribute, src/law.rs 99-113. -/
def LawType.fromAttr : Option String → Option LawType
  | some "Constitution" => some .constitution
  | some "Act" => some .act
  | some "CabinetOrder" => some .cabinetOrder
  | some "ImperialOrder" => some .imperialOrder
  | some "MinisterialOrdinance" => some .ministerialOrdinance
  | some "Rule" => some .rule
  | some "Misc" => some .misc
  | _ => none

/-- `Lang`, src/law.rs 298-301. -/
inductive Lang
  | ja | en
  deriving DecidableEq, Repr
/-- Attribute of a language, src/law.rs 250-257. -/
def Lang.toAttr : Lang → String
  | .ja => "ja"
  | .en => "en"
/-- Language of an attribute, src/law.rs 114-123. -/
def Lang.fromAttr : Option String → Option Lang
  | some "ja" => some .ja
  | some "en" => some .en
  | _ => none

/-- `Law`, src/law.rs 26-45. -/
structure Law (L : Lvl) where
  era : Era
  year : Usize
  num : Option ArticleNumber
  promulgate_month : Option Usize
  promulgate_day : Option Usize
  law_type : LawType
  lang : Lang
  law_num : String
  law_body : LawBody L

/-- The number of a law, src/law.rs 64-69: a missing attribute panics. -/
def Law.numOf (e : Element) : Res (Option ArticleNumber) :=
  (Res.unwrap (e.attributes.get "Num")).bind fun s =>
  if s = "" then .ok none else (ArticleNumber.fromNumStr s).bind fun n => .ok (some n)

/-- Month and day, src/law.rs 70-98: an empty attribute counts as absent. -/
def Law.usizeOf (e : Element) (name : String) : Res (Option Usize) :=
  match e.attributes.get name with
  | none => .ok none
  | some s =>
    if s = "" then .ok none
    else match parseUsizeStr s with
      | some n => .ok (some n)
      | none => .err (.parsingError "usize" s)

/-- The first child node, src/law.rs 125-153. -/
def Law.lawNumOf (e : Element) : Res String :=
  match e.children with
  | .element n _ c :: _ =>
    if n = "LawNum" then .ok (nodesText c) else .err (.unexpectedTag n "LawNum")
  | _ => .err (missingRequiredTag "LawNum")

/-- The second child node, src/law.rs 154-163. -/
def Law.bodyOf (e : Element) : Res Element :=
  match e.children with
  | _ :: .element n a c :: _ => .ok ⟨n, a, c⟩
  | _ => .err (missingRequiredTag "LawBody")

/-- `Law::parser`, src/law.rs 47-180. -/
def Law.parser (e : Element) : Res (Law L) :=
  if e.name = "Law" then
    (Res.ofOption (.attributeParseError e.name "Era")
      (Era.fromAttr (e.attributes.get "Era"))).bind fun era =>
    (getAttributeWithParse parseUsizeStr e "Year").bind fun year =>
    (Law.numOf e).bind fun num =>
    (Law.usizeOf e "PromulgateMonth").bind fun month =>
    (Law.usizeOf e "PromulgateDay").bind fun day =>
    (Res.ofOption (.attributeParseError e.name "LawType")
      (LawType.fromAttr (e.attributes.get "LawType"))).bind fun law_type =>
    (Res.ofOption (.attributeParseError e.name "Lang")
      (Lang.fromAttr (e.attributes.get "Lang"))).bind fun lang =>
    (Law.lawNumOf e).bind fun law_num =>
    (Law.bodyOf e).bind fun b =>
    (LawBody.parser b).bind fun law_body =>
    .ok ⟨era, year, num, month, day, law_type, lang, law_num, law_body⟩
  else .err (wrongTagName e "Law")

/-- `Law::to_xml_element`, src/law.rs 182-260. -/
def Law.toXml (x : Law L) : Element :=
  { name := "Law"
    attributes := (((((((Attrs.insert [] "Era" x.era.toAttr).insert "Year"
      (usizeStr x.year)).insertOpt "Num" (x.num.map ArticleNumber.numStr)).insertOpt
      "PromulgateMonth" (x.promulgate_month.map usizeStr)).insertOpt
      "PromulgateDay" (x.promulgate_day.map usizeStr)).insert
      "LawType" x.law_type.toAttr)).insert "Lang" x.lang.toAttr
    children := [({ name := "LawNum", children := [.text x.law_num] } : Element).node,
      x.law_body.toXml.node] }

/-! ## Cells, src/table.rs -/

/-- `TableColumnContents`, src/table.rs 349-373. -/
inductive TableColumnContents (L : Lvl)
  | part (v : Part L)
  | chapter (v : Chapter L)
  | section_ (v : Section L)
  | subsection (v : Subsection L)
  | division (v : Division L)
  | article (v : Article L)
  | paragraph (v : Paragraph L)
  | item (v : Item L)
  | subitem1 (v : Subitem1 L)
  | subitem2 (v : Subitem2 L)
  | subitem3 (v : Subitem3 L)
  | subitem4 (v : Subitem4 L)
  | subitem5 (v : Subitem5 L)
  | subitem6 (v : Subitem6 L)
  | subitem7 (v : Subitem7 L)
  | subitem8 (v : Subitem8 L)
  | subitem9 (v : Subitem9 L)
  | subitem10 (v : Subitem10 L)
  | figStruct (v : FigStruct L)
  | sentence (v : Sentence L)
  | remarks (v : Remarks L)
  | column (v : Column L)
  | string (v : String)

/-- Arms of the `match`, src/table.rs 180-270. -/
def TableColumnContents.arms : List (String × (Element → Res (TableColumnContents L))) := [
  ("Part", fun e => (Part.parser e).bind fun v => .ok (.part v)),
  ("Chapter", fun e => (Chapter.parser e).bind fun v => .ok (.chapter v)),
  ("Section", fun e => (Section.parser e).bind fun v => .ok (.section_ v)),
  ("Subsection", fun e => (Subsection.parser e).bind fun v => .ok (.subsection v)),
  ("Division", fun e => (Division.parser e).bind fun v => .ok (.division v)),
  ("Article", fun e => (Article.parser e).bind fun v => .ok (.article v)),
  ("Paragraph", fun e => (Paragraph.parser e).bind fun v => .ok (.paragraph v)),
  ("Item", fun e => (Item.parser e).bind fun v => .ok (.item v)),
  ("Subitem1", fun e => (Subitem1.parser e).bind fun v => .ok (.subitem1 v)),
  ("Subitem2", fun e => (Subitem2.parser e).bind fun v => .ok (.subitem2 v)),
  ("Subitem3", fun e => (Subitem3.parser e).bind fun v => .ok (.subitem3 v)),
  ("Subitem4", fun e => (Subitem4.parser e).bind fun v => .ok (.subitem4 v)),
  ("Subitem5", fun e => (Subitem5.parser e).bind fun v => .ok (.subitem5 v)),
  ("Subitem6", fun e => (Subitem6.parser e).bind fun v => .ok (.subitem6 v)),
  ("Subitem7", fun e => (Subitem7.parser e).bind fun v => .ok (.subitem7 v)),
  ("Subitem8", fun e => (Subitem8.parser e).bind fun v => .ok (.subitem8 v)),
  ("Subitem9", fun e => (Subitem9.parser e).bind fun v => .ok (.subitem9 v)),
  ("Subitem10", fun e => (Subitem10.parser e).bind fun v => .ok (.subitem10 v)),
  ("FigStruct", fun e => (FigStruct.parser e).bind fun v => .ok (.figStruct v)),
  ("Remarks", fun e => (Remarks.parser e).bind fun v => .ok (.remarks v)),
  ("Sentence", fun e => (Sentence.parser e).bind fun v => .ok (.sentence v)),
  ("Column", fun e => (Column.parser e).bind fun v => .ok (.column v))]

/-- Node written for it, src/table.rs 318-343. -/
def TableColumnContents.toNode : TableColumnContents L → XMLNode
  | .part v => (Part.toXml v).node
  | .chapter v => (Chapter.toXml v).node
  | .section_ v => (Section.toXml v).node
  | .subsection v => (Subsection.toXml v).node
  | .division v => (Division.toXml v).node
  | .article v => (v.toXml).node
  | .paragraph v => (v.toXml).node
  | .item v => (Item.toXml v).node
  | .subitem1 v => (Subitem1.toXml v).node
  | .subitem2 v => (Subitem2.toXml v).node
  | .subitem3 v => (Subitem3.toXml v).node
  | .subitem4 v => (Subitem4.toXml v).node
  | .subitem5 v => (Subitem5.toXml v).node
  | .subitem6 v => (Subitem6.toXml v).node
  | .subitem7 v => (Subitem7.toXml v).node
  | .subitem8 v => (Subitem8.toXml v).node
  | .subitem9 v => (Subitem9.toXml v).node
  | .subitem10 v => (Subitem10.toXml v).node
  | .figStruct v => (FigStruct.toXml v).node
  | .sentence v => (v.toXml).node
  | .remarks v => (v.toXml).node
  | .column v => (v.toXml).node
  | .string v => .text v

/-- `Position`, src/table.rs 376-380. -/
inductive Position
  | top | middle | bottom
  deriving DecidableEq, Repr
/-- `Position::from_attribute`, src/table.rs 383-390. -/
def Position.fromAttr : Option String → Option Position
  | some "top" => some .top
  | some "middle" => some .middle
  | some "bottom" => some .bottom
  | _ => none
/-- `Position::to_attribute`, src/table.rs 392-398. -/
def Position.toAttr : Position → String
  | .bottom => "bottom"
  | .top => "top"
  | .middle => "middle"

/-- `TableColumn`, src/table.rs 150-160. -/
structure TableColumn (L : Lvl) where
  contents : List (TableColumnContents L)
  border_top : LineStyle
  border_bottom : LineStyle
  border_left : LineStyle
  border_right : LineStyle
  rowspan : Option String
  colspan : Option String
  align : Option Align
  valign : Option Position

/-- `LineStyle::from_attribute(..).unwrap_or(LineStyle::Solid)`, src/table.rs 165-172. -/
def TableColumn.border (e : Element) (name : String) : LineStyle :=
  (LineStyle.fromAttr (e.attributes.get name)).getD .solid

/-- `TableColumn::parser`, src/table.rs 162-290. -/
def TableColumn.parser (e : Element) : Res (TableColumn L) :=
  if e.name = "TableColumn" then
    (getAttributeOptWithParse parseString e "rowspan").bind fun rowspan =>
    (getAttributeOptWithParse parseString e "colspan").bind fun colspan =>
    (mixed (matchTag TableColumnContents.arms (unexpected e)) .string e.children).bind
      fun contents =>
    .ok { contents := contents
          border_top := TableColumn.border e "BorderTop"
          border_bottom := TableColumn.border e "BorderBottom"
          border_left := TableColumn.border e "BorderLeft"
          border_right := TableColumn.border e "BorderRight"
          rowspan := rowspan
          colspan := colspan
          align := Align.fromAttr (e.attributes.get "Align")
          valign := Position.fromAttr (e.attributes.get "Valign") }
  else .err (wrongTagName e "TableColumn")

/-- `TableColumn::to_xml_element`, src/table.rs 292-346; the alignments are written under
`rowspan`. -/
def TableColumn.toXml (x : TableColumn L) : Element :=
  { name := "TableColumn"
    attributes := (((((((Attrs.insert [] "BorderTop" x.border_top.toAttr).insert
      "BorderBottom" x.border_bottom.toAttr).insert
      "BorderLeft" x.border_left.toAttr).insert
      "BorderRight" x.border_right.toAttr).insertOpt
      "rowspan" x.rowspan).insertOpt
      "colspan" x.colspan).insertOpt
      "rowspan" (x.align.map Align.toAttr)).insertOpt
      "rowspan" (x.valign.map Position.toAttr)
    children := x.contents.map TableColumnContents.toNode }

/-! ## `Contents`, src/contents.rs -/

/-- `ContentsElement`, src/contents.rs 212-245. -/
inductive ContentsElement (L : Lvl)
  | table (v : Table L)
  | tableStruct (v : TableStruct L)
  | fig (v : Fig)
  | figStruct (v : FigStruct L)
  | quoteStruct (v : QuoteStruct L)
  | noteStruct (v : NoteStruct L)
  | styleStruct (v : StyleStruct L)
  | appdxTable (v : AppdxTable L)
  | ruby (v : Ruby L)
  | line (v : Line L)
  | sup (v : Sup)
  | sub (v : Sub)
  | string (v : String)
  | paragraph (v : Paragraph L)
  | item (v : Item L)
  | subitem1 (v : Subitem1 L)
  | subitem2 (v : Subitem2 L)
  | subitem3 (v : Subitem3 L)
  | subitem4 (v : Subitem4 L)
  | subitem5 (v : Subitem5 L)
  | subitem6 (v : Subitem6 L)
  | subitem7 (v : Subitem7 L)
  | subitem8 (v : Subitem8 L)
  | subitem9 (v : Subitem9 L)
  | subitem10 (v : Subitem10 L)
  | list (v : LawList L)
  | sentence (v : Sentence L)
  | arithFormula (v : ArithFormula L)
  | remarks (v : Remarks L)
  | toc (v : TOC L)
  | tocSection (v : TOCSection L)
  | tableRow (v : TableRow L)

/-- Arms of the `match`, src/contents.rs 32-158. -/
def ContentsElement.arms : List (String × (Element → Res (ContentsElement L))) := [
  ("Table", fun e => (Table.parser e).bind fun v => .ok (.table v)),
  ("TableStruct", fun e => (TableStruct.parser e).bind fun v => .ok (.tableStruct v)),
  ("Fig", fun e => (Fig.parser e).bind fun v => .ok (.fig v)),
  ("FigStruct", fun e => (FigStruct.parser e).bind fun v => .ok (.figStruct v)),
  ("QuoteStruct", fun e => (QuoteStruct.parser e).bind fun v => .ok (.quoteStruct v)),
  ("NoteStruct", fun e => (NoteStruct.parser e).bind fun v => .ok (.noteStruct v)),
  ("StyleStruct", fun e => (StyleStruct.parser e).bind fun v => .ok (.styleStruct v)),
  ("AppdxTable", fun e => (AppdxTable.parser e).bind fun v => .ok (.appdxTable v)),
  ("Ruby", fun e => (Ruby.parser e).bind fun v => .ok (.ruby v)),
  ("Line", fun e => (Line.parser e).bind fun v => .ok (.line v)),
  ("Sup", fun e => (Sup.parser e).bind fun v => .ok (.sup v)),
  ("Sub", fun e => (Sub.parser e).bind fun v => .ok (.sub v)),
  ("Paragraph", fun e => (Paragraph.parser e).bind fun v => .ok (.paragraph v)),
  ("Item", fun e => (Item.parser e).bind fun v => .ok (.item v)),
  ("Subitem1", fun e => (Subitem1.parser e).bind fun v => .ok (.subitem1 v)),
  ("Subitem2", fun e => (Subitem2.parser e).bind fun v => .ok (.subitem2 v)),
  ("Subitem3", fun e => (Subitem3.parser e).bind fun v => .ok (.subitem3 v)),
  ("Subitem4", fun e => (Subitem4.parser e).bind fun v => .ok (.subitem4 v)),
  ("Subitem5", fun e => (Subitem5.parser e).bind fun v => .ok (.subitem5 v)),
  ("Subitem6", fun e => (Subitem6.parser e).bind fun v => .ok (.subitem6 v)),
  ("Subitem7", fun e => (Subitem7.parser e).bind fun v => .ok (.subitem7 v)),
  ("Subitem8", fun e => (Subitem8.parser e).bind fun v => .ok (.subitem8 v)),
  ("Subitem9", fun e => (Subitem9.parser e).bind fun v => .ok (.subitem9 v)),
  ("Subitem10", fun e => (Subitem10.parser e).bind fun v => .ok (.subitem10 v)),
  ("List", fun e => (LawList.parser e).bind fun v => .ok (.list v)),
  ("Sentence", fun e => (Sentence.parser e).bind fun v => .ok (.sentence v)),
  ("ArithFormula", fun e => (ArithFormula.parser e).bind fun v => .ok (.arithFormula v)),
  ("TOC", fun e => (TOC.parser e).bind fun v => .ok (.toc v)),
  ("TOCSection", fun e => (TOCSection.parser e).bind fun v => .ok (.tocSection v)),
  ("Remarks", fun e => (Remarks.parser e).bind fun v => .ok (.remarks v)),
  ("TableRow", fun e => (TableRow.parser e).bind fun v => .ok (.tableRow v))]

/-- Node written for it, src/contents.rs 170-205. -/
def ContentsElement.toNode : ContentsElement L → XMLNode
  | .table v => (v.toXml).node
  | .tableStruct v => (TableStruct.toXml v).node
  | .fig v => (v.toXml).node
  | .figStruct v => (FigStruct.toXml v).node
  | .quoteStruct v => (v.toXml).node
  | .noteStruct v => (NoteStruct.toXml v).node
  | .styleStruct v => (StyleStruct.toXml v).node
  | .appdxTable v => (AppdxTable.toXml v).node
  | .ruby v => (v.toXml).node
  | .line v => (v.toXml).node
  | .sup v => (v.toXml).node
  | .sub v => (v.toXml).node
  | .string v => .text v
  | .paragraph v => (v.toXml).node
  | .item v => (Item.toXml v).node
  | .subitem1 v => (Subitem1.toXml v).node
  | .subitem2 v => (Subitem2.toXml v).node
  | .subitem3 v => (Subitem3.toXml v).node
  | .subitem4 v => (Subitem4.toXml v).node
  | .subitem5 v => (Subitem5.toXml v).node
  | .subitem6 v => (Subitem6.toXml v).node
  | .subitem7 v => (Subitem7.toXml v).node
  | .subitem8 v => (Subitem8.toXml v).node
  | .subitem9 v => (Subitem9.toXml v).node
  | .subitem10 v => (Subitem10.toXml v).node
  | .list v => (LawList.toXml v).node
  | .sentence v => (v.toXml).node
  | .arithFormula v => (v.toXml).node
  | .remarks v => (v.toXml).node
  | .toc v => (v.toXml).node
  | .tocSection v => (TOCSection.toXml v).node
  | .tableRow v => (v.toXml).node

/-- `Contents`, src/contents.rs 23-25. -/
structure Contents (L : Lvl) where
  contents : List (ContentsElement L)

/-- `Contents::parser`, src/contents.rs 27-165; the tag is not looked at. -/
def Contents.parser (e : Element) : Res (Contents L) :=
  (mixed (matchTag ContentsElement.arms (unexpected e)) .string e.children).bind fun l => .ok ⟨l⟩

/-- Children pushed by `Contents::to_xml_element_with_name`, src/contents.rs 167-208. -/
def Contents.toChildren (x : Contents L) : List XMLNode := x.contents.map ContentsElement.toNode

/-! ## Amendments, src/law.rs -/

/-- `NewProvision`, src/law.rs 971-1020. -/
inductive NewProvision (L : Lvl)
  | lawTitle (v : LawTitle L)
  | preamble (v : Preamble L)
  | toc (v : TOC L)
  | part (v : Part L)
  | partTitle (v : Text L)
  | chapter (v : Chapter L)
  | chapterTitle (v : Text L)
  | section_ (v : Section L)
  | sectionTitle (v : Text L)
  | subsection (v : Subsection L)
  | subsectionTitle (v : Text L)
  | division (v : Division L)
  | divisionTitle (v : Text L)
  | article (v : Article L)
  | supplNote (v : Text L)
  | paragraph (v : Paragraph L)
  | item (v : Item L)
  | subitem1 (v : Subitem1 L)
  | subitem2 (v : Subitem2 L)
  | subitem3 (v : Subitem3 L)
  | subitem4 (v : Subitem4 L)
  | subitem5 (v : Subitem5 L)
  | subitem6 (v : Subitem6 L)
  | subitem7 (v : Subitem7 L)
  | subitem8 (v : Subitem8 L)
  | subitem9 (v : Subitem9 L)
  | subitem10 (v : Subitem10 L)
  | list (v : LawList L)
  | sentence (v : Sentence L)
  | amendProvision (v : L.AmendProvision)
  | appdxTable (v : AppdxTable L)
  | appdxNote (v : AppdxNote L)
  | appdxStyle (v : AppdxStyle L)
  | appdx (v : Appdx L)
  | appdxFig (v : AppdxFig L)
  | appdxFormat (v : AppdxFormat L)
  | supplProvisionAppdxStyle (v : SupplProvisionAppdxStyle L)
  | supplProvisionAppdxTable (v : SupplProvisionAppdxTable L)
  | supplProvisionAppdx (v : SupplProvisionAppdx L)
  | tableStruct (v : TableStruct L)
  | tableRow (v : TableRow L)
  | tableColumn (v : TableColumn L)
  | figStruct (v : FigStruct L)
  | noteStruct (v : NoteStruct L)
  | styleStruct (v : StyleStruct L)
  | formatStruct (v : FormatStruct L)
  | remarks (v : Remarks L)
  | lawBody (v : LawBody L)

/-- Arms of the inner `match`, src/law.rs 674-866. -/
def NewProvision.arms : List (String × (Element → Res (NewProvision L))) := [
  ("LawTitle", fun e => (LawTitle.parser e).bind fun v => .ok (.lawTitle v)),
  ("Preamble", fun e => (Preamble.parser e).bind fun v => .ok (.preamble v)),
  ("TOC", fun e => (TOC.parser e).bind fun v => .ok (.toc v)),
  ("Part", fun e => (Part.parser e).bind fun v => .ok (.part v)),
  ("PartTitle", fun e => (Text.ofElement e).bind fun v => .ok (.partTitle v)),
  ("Chapter", fun e => (Chapter.parser e).bind fun v => .ok (.chapter v)),
  ("ChapterTitle", fun e => (Text.ofElement e).bind fun v => .ok (.chapterTitle v)),
  ("Section", fun e => (Section.parser e).bind fun v => .ok (.section_ v)),
  ("SectionTitle", fun e => (Text.ofElement e).bind fun v => .ok (.sectionTitle v)),
  ("Subsection", fun e => (Subsection.parser e).bind fun v => .ok (.subsection v)),
  ("SubsectionTitle", fun e => (Text.ofElement e).bind fun v => .ok (.subsectionTitle v)),
  ("Division", fun e => (Division.parser e).bind fun v => .ok (.division v)),
  ("DivisionTitle", fun e => (Text.ofElement e).bind fun v => .ok (.divisionTitle v)),
  ("Article", fun e => (Article.parser e).bind fun v => .ok (.article v)),
  ("SupplNote", fun e => (Text.ofElement e).bind fun v => .ok (.supplNote v)),
  ("Paragraph", fun e => (Paragraph.parser e).bind fun v => .ok (.paragraph v)),
  ("Item", fun e => (Item.parser e).bind fun v => .ok (.item v)),
  ("Subitem1", fun e => (Subitem1.parser e).bind fun v => .ok (.subitem1 v)),
  ("Subitem2", fun e => (Subitem2.parser e).bind fun v => .ok (.subitem2 v)),
  ("Subitem3", fun e => (Subitem3.parser e).bind fun v => .ok (.subitem3 v)),
  ("Subitem4", fun e => (Subitem4.parser e).bind fun v => .ok (.subitem4 v)),
  ("Subitem5", fun e => (Subitem5.parser e).bind fun v => .ok (.subitem5 v)),
  ("Subitem6", fun e => (Subitem6.parser e).bind fun v => .ok (.subitem6 v)),
  ("Subitem7", fun e => (Subitem7.parser e).bind fun v => .ok (.subitem7 v)),
  ("Subitem8", fun e => (Subitem8.parser e).bind fun v => .ok (.subitem8 v)),
  ("Subitem9", fun e => (Subitem9.parser e).bind fun v => .ok (.subitem9 v)),
  ("Subitem10", fun e => (Subitem10.parser e).bind fun v => .ok (.subitem10 v)),
  ("List", fun e => (LawList.parser e).bind fun v => .ok (.list v)),
  ("Sentence", fun e => (Sentence.parser e).bind fun v => .ok (.sentence v)),
  ("AmendProvision", fun e => (L.amendParser e).bind fun v => .ok (.amendProvision v)),
  ("AppdxTable", fun e => (AppdxTable.parser e).bind fun v => .ok (.appdxTable v)),
  ("AppdxNote", fun e => (AppdxNote.parser e).bind fun v => .ok (.appdxNote v)),
  ("AppdxStyle", fun e => (AppdxStyle.parser e).bind fun v => .ok (.appdxStyle v)),
  ("Appdx", fun e => (Appdx.parser e).bind fun v => .ok (.appdx v)),
  ("AppdxFig", fun e => (AppdxFig.parser e).bind fun v => .ok (.appdxFig v)),
  ("AppdxFormat", fun e => (AppdxFormat.parser e).bind fun v => .ok (.appdxFormat v)),
  ("SupplProvisionAppdxStyle", fun e => (SupplProvisionAppdxStyle.parser e).bind fun v => .ok (.supplProvisionAppdxStyle v)),
  ("SupplProvisionAppdxTable", fun e => (SupplProvisionAppdxTable.parser e).bind fun v => .ok (.supplProvisionAppdxTable v)),
  ("SupplProvisionAppdx", fun e => (SupplProvisionAppdx.parser e).bind fun v => .ok (.supplProvisionAppdx v)),
  ("TableStruct", fun e => (TableStruct.parser e).bind fun v => .ok (.tableStruct v)),
  ("TableRow", fun e => (TableRow.parser e).bind fun v => .ok (.tableRow v)),
  ("TableColumn", fun e => (TableColumn.parser e).bind fun v => .ok (.tableColumn v)),
  ("FigStruct", fun e => (FigStruct.parser e).bind fun v => .ok (.figStruct v)),
  ("NoteStruct", fun e => (NoteStruct.parser e).bind fun v => .ok (.noteStruct v)),
  ("StyleStruct", fun e => (StyleStruct.parser e).bind fun v => .ok (.styleStruct v)),
  ("FormatStruct", fun e => (FormatStruct.parser e).bind fun v => .ok (.formatStruct v)),
  ("Remarks", fun e => (Remarks.parser e).bind fun v => .ok (.remarks v)),
  ("LawBody", fun e => (LawBody.parser e).bind fun v => .ok (.lawBody v))]

/-- Element written for it, src/law.rs 896-963. -/
def NewProvision.toXml : NewProvision L → Element
  | .lawTitle v => v.toXml
  | .preamble v => v.toXml
  | .toc v => v.toXml
  | .part v => Part.toXml v
  | .partTitle v => v.toXml "PartTitle"
  | .chapter v => Chapter.toXml v
  | .chapterTitle v => v.toXml "ChapterTitle"
  | .section_ v => Section.toXml v
  | .sectionTitle v => v.toXml "SectionTitle"
  | .subsection v => Subsection.toXml v
  | .subsectionTitle v => v.toXml "SubsectionTitle"
  | .division v => Division.toXml v
  | .divisionTitle v => v.toXml "DivisionTitle"
  | .article v => v.toXml
  | .supplNote v => v.toXml "SupplNote"
  | .paragraph v => v.toXml
  | .item v => Item.toXml v
  | .subitem1 v => Subitem1.toXml v
  | .subitem2 v => Subitem2.toXml v
  | .subitem3 v => Subitem3.toXml v
  | .subitem4 v => Subitem4.toXml v
  | .subitem5 v => Subitem5.toXml v
  | .subitem6 v => Subitem6.toXml v
  | .subitem7 v => Subitem7.toXml v
  | .subitem8 v => Subitem8.toXml v
  | .subitem9 v => Subitem9.toXml v
  | .subitem10 v => Subitem10.toXml v
  | .list v => LawList.toXml v
  | .sentence v => v.toXml
  | .amendProvision v => L.amendToXml v
  | .appdxTable v => AppdxTable.toXml v
  | .appdxNote v => AppdxNote.toXml v
  | .appdxStyle v => AppdxStyle.toXml v
  | .appdx v => v.toXml
  | .appdxFig v => v.toXml
  | .appdxFormat v => AppdxFormat.toXml v
  | .supplProvisionAppdxStyle v => SupplProvisionAppdxStyle.toXml v
  | .supplProvisionAppdxTable v => SupplProvisionAppdxTable.toXml v
  | .supplProvisionAppdx v => v.toXml
  | .tableStruct v => TableStruct.toXml v
  | .tableRow v => v.toXml
  | .tableColumn v => v.toXml
  | .figStruct v => FigStruct.toXml v
  | .noteStruct v => NoteStruct.toXml v
  | .styleStruct v => StyleStruct.toXml v
  | .formatStruct v => FormatStruct.toXml v
  | .remarks v => v.toXml
  | .lawBody v => v.toXml

/-- `AmendProvision`, src/law.rs 643-646. -/
structure AmendProvision (L : Lvl) where
  sentence : Option (Sentence L)
  new_provision : List (NewProvision L)

/-- State of the loop in `AmendProvision::parser`. Source: src/law.rs 648-884. -/
structure AmendProvision.St (L : Lvl) where
  sentence : Option (Sentence L) := none
  new_provision : List (NewProvision L) := []

/-- Reading an `AmendProvisionSentence`, src/law.rs 656-670: only the first node is looked at. -/
def AmendProvision.sentenceOf (e : Element) : Res (Sentence L) :=
  match e.children with
  | .element n a c :: _ => Sentence.parser ⟨n, a, c⟩
  | _ => .err (missingRequiredTag "AmendProvision")

/-- Body of the loop in `AmendProvision::parser`, src/law.rs 653-875. -/
def AmendProvision.step (outer : Element) (s : AmendProvision.St L) :
    Element → Res (AmendProvision.St L) :=
  matchTag [
    ("AmendProvisionSentence", fun e => (AmendProvision.sentenceOf e).bind fun v =>
      .ok { s with sentence := some v }),
    ("NewProvision", fun e =>
      (readAll (matchTag NewProvision.arms (unexpected outer)) e.children).bind fun l =>
      .ok { s with new_provision := s.new_provision ++ l })]
    (unexpected outer)

/-- `AmendProvision::parser`, src/law.rs 648-884. -/
def AmendProvision.parser (e : Element) : Res (AmendProvision L) :=
  if e.name = "AmendProvision" then
    (forElems (AmendProvision.step e) {} e.children).bind fun s => .ok ⟨s.sentence, s.new_provision⟩
  else .err (wrongTagName e "AmendProvision")

/-- The wrapper written around the sentence and around every new provision, src/law.rs 889-893 and
894-895, 964. -/
def AmendProvision.wrap (e : Element) : Element :=
  { name := "AmendProvisionSentence", children := [e.node] }

/-- `AmendProvision::to_xml_element`, src/law.rs 886-968. -/
def AmendProvision.toXml (x : AmendProvision L) : Element :=
  { name := "AmendProvision"
    children := (x.sentence.toList.map fun s => (AmendProvision.wrap s.toXml).node) ++
      x.new_provision.map fun p => (AmendProvision.wrap p.toXml).node }

/-! ## Tying the knot -/

/-- The level whose five types are the structures over `L`. -/
def Lvl.succ (L : Lvl) : Lvl where
  Text := JLaw.Text L
  textOfStrings l := .ok ⟨l.map .text⟩
  textToChildren := JLaw.Text.toChildren
  Contents := JLaw.Contents L
  contentsParser := JLaw.Contents.parser
  contentsToChildren := JLaw.Contents.toChildren
  Item := JLaw.Item L
  itemParser := JLaw.Item.parser
  itemToXml := JLaw.Item.toXml
  TableColumn := JLaw.TableColumn L
  columnParser := JLaw.TableColumn.parser
  columnToXml := JLaw.TableColumn.toXml
  AmendProvision := JLaw.AmendProvision L
  amendParser := JLaw.AmendProvision.parser
  amendToXml := JLaw.AmendProvision.toXml

/-- Data nested at most `n` times through the five types. Every Rust value is finite, hence lives at
some level; every theorem about the data model is stated for all `n`. -/
def lvl : Nat → Lvl
  | 0 => Lvl.zero
  | n + 1 => Lvl.succ (lvl n)

end JLaw
