import Verif.Model.Text

/-!
# Captions, columns, remarks, tables, lists and structures

src/class.rs (except `Class`), src/fig.rs, src/remarks.rs, src/table.rs (except the cells),
src/list.rs, src/structs.rs and `Style`, `Note`, `Format` of src/contents.rs.
-/

namespace JLaw

variable {L : Lvl}

/-! ## src/class.rs -/

/-- `Caption`, src/class.rs 154-158. -/
structure Caption (L : Lvl) where
  text : Text L
  common_caption : Option Bool

/-- `Caption::parser`, src/class.rs 169-175; the tag is not looked at. -/
def Caption.parser (e : Element) : Res (Caption L) :=
  (Text.fromChildren e.children).bind fun text =>
  (getAttributeOptWithParse parseBool e "CommonCaption").bind fun common_caption =>
  .ok ⟨text, common_caption⟩

/-- `Caption::to_xml_element_with_name`, src/class.rs 177-187. -/
def Caption.toXml (c : Caption L) (name : String) : Element :=
  { name := name
    attributes := Attrs.insertOpt [] "CommonCaption" (c.common_caption.map boolStr)
    children := c.text.toChildren }

/-- `Align`, src/class.rs 240-246. -/
inductive Align
  | left | center | right | justify
  deriving DecidableEq, Repr

/-- `Align::from_attribute`, src/class.rs 249-257. -/
def Align.fromAttr : Option String → Option Align
  | some "left" => some .left
  | some "center" => some .center
  | some "right" => some .right
  | some "justify" => some .justify
  | _ => none

/-- `Align::to_attribute`, src/class.rs 259-266. -/
def Align.toAttr : Align → String
  | .center => "center"
  | .right => "right"
  | .left => "left"
  | .justify => "justify"

/-- `Column`, src/class.rs 189-195. -/
structure Column (L : Lvl) where
  sentence : List (Sentence L)
  num : Option Usize
  line_break : Bool
  align : Option Align

/-- A loop that reads every child element with the same reader and collects the results, other
nodes being skipped (src/class.rs 204-209 and others). -/
def readAll {α : Type} (p : Element → Res α) (nodes : List XMLNode) : Res (List α) :=
  collectRes (fun n => match n with
    | .element n a c => (p ⟨n, a, c⟩).bind fun v => .ok [v]
    | _ => .ok []) nodes

/-- `Column::parser`, src/class.rs 197-220. -/
def Column.parser (e : Element) : Res (Column L) :=
  if e.name = "Column" then
    (getAttributeOptWithParse parseUsizeStr e "Num").bind fun num =>
    (getBool e "LineBreak").bind fun line_break =>
    (readAll Sentence.parser e.children).bind fun sentence =>
    .ok ⟨sentence, num, line_break, Align.fromAttr (e.attributes.get "Align")⟩
  else .err (wrongTagName e "Column")

/-- `Column::to_xml_element`, src/class.rs 222-238. -/
def Column.toXml (c : Column L) : Element :=
  { name := "Column"
    attributes := ((Attrs.insertOpt [] "Num" (c.num.map usizeStr)).insert "LineBreak"
      (boolStr c.line_break)).insertOpt "Align" (c.align.map Align.toAttr)
    children := c.sentence.map fun s => s.toXml.node }

/-! ## src/fig.rs -/

/-- `Fig`, src/fig.rs 9-12. -/
structure Fig where
  src : String
  deriving DecidableEq, Repr

/-- `Fig::parser`, src/fig.rs 14-26; the tag is not looked at. -/
def Fig.parser (e : Element) : Res Fig :=
  (Res.ofOption (.missingRequiredAttribute "Fig" "src") (e.attributes.get "src")).bind fun src =>
  .ok ⟨src⟩

/-- `Fig::to_xml_element`, src/fig.rs 28-34. -/
def Fig.toXml (f : Fig) : Element := { name := "Fig", attributes := Attrs.insert [] "src" f.src }

/-! ## src/remarks.rs -/

/-- `RemarksLabel`, src/remarks.rs 73-77. -/
structure RemarksLabel (L : Lvl) where
  text : Text L
  line_break : Bool

/-- `RemarksLabel::parser`, src/remarks.rs 79-89. -/
def RemarksLabel.parser (e : Element) : Res (RemarksLabel L) :=
  if e.name = "RemarksLabel" then
    (getBool e "LineBreak").bind fun line_break =>
    (Text.fromChildren e.children).bind fun text =>
    .ok ⟨text, line_break⟩
  else .err (wrongTagName e "RemarksLabel")

/-- `RemarksLabel::to_xml_element`, src/remarks.rs 91-101. -/
def RemarksLabel.toXml (r : RemarksLabel L) : Element :=
  { name := "RemarksLabel"
    attributes := Attrs.insertTrue [] "LineBreak" r.line_break
    children := r.text.toChildren }

/-- `RemarksContents`, src/remarks.rs 103-107. -/
inductive RemarksContents (L : Lvl)
  | item (v : L.Item)
  | sentence (v : Sentence L)

/-- `Remarks`, src/remarks.rs 13-17. -/
structure Remarks (L : Lvl) where
  label : RemarksLabel L
  children : List (RemarksContents L)

/-- State of the loop in `Remarks::parser`. Source: src/remarks.rs 19-54. -/
structure Remarks.St (L : Lvl) where
  label : Option (RemarksLabel L) := none
  children : List (RemarksContents L) := []

/-- Body of the loop in `Remarks::parser`, src/remarks.rs 24-42. -/
def Remarks.step (outer : Element) (s : Remarks.St L) : Element → Res (Remarks.St L) :=
  matchTag [
    ("RemarksLabel", fun e => (RemarksLabel.parser e).bind fun v => .ok { s with label := some v }),
    ("Item", fun e =>
      (L.itemParser e).bind fun v => .ok { s with children := s.children ++ [.item v] }),
    ("Sentence", fun e =>
      (Sentence.parser e).bind fun v => .ok { s with children := s.children ++ [.sentence v] })]
    (unexpected outer)

/-- `Remarks::parser`, src/remarks.rs 19-54. -/
def Remarks.parser (e : Element) : Res (Remarks L) :=
  if e.name = "Remarks" then
    (forElems (Remarks.step e) {} e.children).bind fun s =>
    match s.label with
    | some label => .ok ⟨label, s.children⟩
    | none => .err (.missingRequiredTag "RemarksLabel")
  else .err (wrongTagName e "Remarks")

/-- Element written for one piece of remarks, src/remarks.rs 60-67. -/
def RemarksContents.toXml : RemarksContents L → Element
  | .item v => L.itemToXml v
  | .sentence v => v.toXml

/-- `Remarks::to_xml_element`, src/remarks.rs 56-71; the label is not written. -/
def Remarks.toXml (r : Remarks L) : Element :=
  { name := "Remarks", children := r.children.map fun c => c.toXml.node }

/-! ## src/table.rs -/

/-- `TableHeaderRow`, src/table.rs 77-80. -/
structure TableHeaderRow (L : Lvl) where
  columns : List (Text L)

/-- A loop that reads the child elements with one given tag and skips all other nodes
(src/table.rs 86-93, 122-129, src/law.rs 533-540). -/
def readTagged {α : Type} (tag : String) (p : Element → Res α) (nodes : List XMLNode) :
    Res (List α) :=
  collectRes (fun n => match n with
    | .element n a c => if n = tag then (p ⟨n, a, c⟩).bind fun v => .ok [v] else .ok []
    | _ => .ok []) nodes

/-- `TableHeaderRow::parser`, src/table.rs 82-99. -/
def TableHeaderRow.parser (e : Element) : Res (TableHeaderRow L) :=
  if e.name = "TableHeaderRow" then
    (readTagged "TableHeaderColumn" (fun c => Text.fromChildren c.children) e.children).bind
      fun columns => .ok ⟨columns⟩
  else .err (wrongTagName e "TableHeaderRow")

/-- `TableHeaderRow::to_xml_element`, src/table.rs 101-111. -/
def TableHeaderRow.toXml (r : TableHeaderRow L) : Element :=
  { name := "TableHeaderRow"
    children := r.columns.map fun t => (t.toXml "TableHeaderColumn").node }

/-- `TableRow`, src/table.rs 113-116. -/
structure TableRow (L : Lvl) where
  columns : List L.TableColumn

/-- `TableRow::parser`, src/table.rs 118-135. -/
def TableRow.parser (e : Element) : Res (TableRow L) :=
  if e.name = "TableRow" then
    (readTagged "TableColumn" L.columnParser e.children).bind fun columns => .ok ⟨columns⟩
  else .err (wrongTagName e "TableRow")

/-- `TableRow::to_xml_element`, src/table.rs 137-147. -/
def TableRow.toXml (r : TableRow L) : Element :=
  { name := "TableRow", children := r.columns.map fun c => (L.columnToXml c).node }

/-- `Table`, src/table.rs 17-22. -/
structure Table (L : Lvl) where
  table_header_row : List (TableHeaderRow L)
  table_row : List (TableRow L)
  writing_mode : WritingMode

/-- The `match` on the attribute in `Table::parser`, src/table.rs 27-31; `vetical` is in the
source. -/
def Table.writingMode : Option String → WritingMode
  | some "vetical" => .vertical
  | some "horizontal" => .horizontal
  | _ => .vertical

/-- State of the loop in `Table::parser`. Source: src/table.rs 24-58. -/
structure Table.St (L : Lvl) where
  table_header_row : List (TableHeaderRow L) := []
  table_row : List (TableRow L) := []

/-- Body of the loop in `Table::parser`, src/table.rs 34-48. -/
def Table.step (outer : Element) (s : Table.St L) : Element → Res (Table.St L) :=
  matchTag [
    ("TableHeaderRow", fun e => (TableHeaderRow.parser e).bind fun v =>
      .ok { s with table_header_row := s.table_header_row ++ [v] }),
    ("TableRow", fun e => (TableRow.parser e).bind fun v =>
      .ok { s with table_row := s.table_row ++ [v] })]
    (unexpected outer)

/-- `Table::parser`, src/table.rs 24-58. -/
def Table.parser (e : Element) : Res (Table L) :=
  if e.name = "Table" then
    (forElems (Table.step e) {} e.children).bind fun s =>
    .ok ⟨s.table_header_row, s.table_row, Table.writingMode (e.attributes.get "WritingMode")⟩
  else .err (wrongTagName e "Table")

/-- `Table::to_xml_element`, src/table.rs 60-75. -/
def Table.toXml (t : Table L) : Element :=
  { name := "Table"
    attributes := Attrs.insertOpt [] "WritingMode" t.writing_mode.toAttr
    children := (t.table_header_row.map fun r => r.toXml.node) ++
      t.table_row.map fun r => r.toXml.node }

/-! ## `SentenceOrColumnOrTable`, src/class.rs -/

/-- `SentenceOrColumnOrTable`, src/class.rs 85-90. -/
inductive SentenceOrColumnOrTable (L : Lvl)
  | sentence (v : List (Sentence L))
  | column (v : List (Column L))
  | table (v : Table L)

/-- Children written for it, src/class.rs 92-112. -/
def SentenceOrColumnOrTable.toChildren : SentenceOrColumnOrTable L → List XMLNode
  | .column v => v.map fun c => c.toXml.node
  | .sentence v => v.map fun s => s.toXml.node
  | .table v => [v.toXml.node]

/-- `SentenceOrColumnOrTable::to_xml_element_with_name`, src/class.rs 92-112. -/
def SentenceOrColumnOrTable.toXml (x : SentenceOrColumnOrTable L) (name : String) : Element :=
  { name := name, children := x.toChildren }

/-- State of the loop in `from_element`. Source: src/class.rs 115-151. -/
structure SentenceOrColumnOrTable.St (L : Lvl) where
  table : Option (Table L) := none
  sentence_list : List (Sentence L) := []
  column_list : List (Column L) := []

/-- Body of the loop in `from_element`, src/class.rs 119-136. -/
def SentenceOrColumnOrTable.step (outer : Element) (s : SentenceOrColumnOrTable.St L) :
    Element → Res (SentenceOrColumnOrTable.St L) :=
  matchTag [
    ("Sentence", fun e => (Sentence.parser e).bind fun v =>
      .ok { s with sentence_list := s.sentence_list ++ [v] }),
    ("Column", fun e => (Column.parser e).bind fun v =>
      .ok { s with column_list := s.column_list ++ [v] }),
    ("Table", fun e => (Table.parser e).bind fun v => .ok { s with table := some v })]
    (unexpected outer)

/-- Choice after the loop, src/class.rs 138-151: columns before sentences before a table. -/
def SentenceOrColumnOrTable.choose (s : SentenceOrColumnOrTable.St L) :
    Res (SentenceOrColumnOrTable L) :=
  if s.column_list ≠ [] then .ok (.column s.column_list)
  else if s.sentence_list ≠ [] then .ok (.sentence s.sentence_list)
  else match s.table with
    | some v => .ok (.table v)
    | none => .err (.missingRequiredTag "Sentence or Column or Table")

/-- `SentenceOrColumnOrTable::from_element`, src/class.rs 114-152. -/
def SentenceOrColumnOrTable.fromElement (e : Element) : Res (SentenceOrColumnOrTable L) :=
  (forElems (SentenceOrColumnOrTable.step e) {} e.children).bind SentenceOrColumnOrTable.choose

/-! ## src/contents.rs: `Style`, `Note`, `Format` -/

/-- `Style`, src/contents.rs 248-250. -/
structure Style (L : Lvl) where
  contentes : L.Contents

/-- `Style::parser`, src/contents.rs 252-256; the tag is not looked at. -/
def Style.parser (e : Element) : Res (Style L) := (L.contentsParser e).bind fun c => .ok ⟨c⟩

/-- `Style::to_xml_element`, src/contents.rs 258-262. -/
def Style.toXml (x : Style L) : Element := rawXml "Style" x.contentes

/-- `Note`, src/contents.rs 265-267. -/
structure Note (L : Lvl) where
  contentes : L.Contents

/-- `Note::parser`, src/contents.rs 269-273; the tag is not looked at. -/
def Note.parser (e : Element) : Res (Note L) := (L.contentsParser e).bind fun c => .ok ⟨c⟩

/-- `Note::to_xml_element`, src/contents.rs 275-279. -/
def Note.toXml (x : Note L) : Element := rawXml "Note" x.contentes

/-- `Format`, src/contents.rs 283-285. -/
structure Format (L : Lvl) where
  contentes : L.Contents

/-- `Format::parser`, src/contents.rs 287-291; the tag is not looked at. -/
def Format.parser (e : Element) : Res (Format L) := (L.contentsParser e).bind fun c => .ok ⟨c⟩

/-- `Format::to_xml_element`, src/contents.rs 293-297. -/
def Format.toXml (x : Format L) : Element := rawXml "Format" x.contentes

/-! ## src/structs.rs -/

/-- The five `..Struct` types of src/structs.rs have the same fields up to names: an optional title,
remarks before the body, the body, remarks after it. Source: src/structs.rs 65-70, 141-146, 217-222,
293-298, 368-373. -/
structure BodyStruct (L : Lvl) (τ β : Type) where
  title : Option τ
  title_remarks : List (Remarks L)
  body : β
  body_remarks : List (Remarks L)

/-- State of the loop in the five readers. Source: src/structs.rs 72-118, 148-194, 224-270, 300-346,
375-422. -/
structure BodyStruct.St (L : Lvl) (τ β : Type) where
  title : Option τ := none
  title_remarks : List (Remarks L) := []
  body : Option β := none
  body_remarks : List (Remarks L) := []

/-- `if let Ok(r) = Remarks::parser(e) { if body.is_none() { .. } else { .. } }`. -/
def BodyStruct.addRemarks {τ β : Type} (s : BodyStruct.St L τ β) :
    Option (Remarks L) → BodyStruct.St L τ β
  | none => s
  | some r =>
    if s.body.isNone then { s with title_remarks := s.title_remarks ++ [r] }
    else { s with body_remarks := s.body_remarks ++ [r] }

/-- Body of the loop in the five readers, e.g. src/structs.rs 80-100 for `NoteStruct`. -/
def BodyStruct.step {τ β : Type} (titleTag bodyTag : String) (titleP : Element → Res τ)
    (bodyP : Element → Res β) (outer : Element) (s : BodyStruct.St L τ β) :
    Element → Res (BodyStruct.St L τ β) :=
  matchTag [
    (titleTag, fun e => (titleP e).bind fun v => .ok { s with title := some v }),
    ("Remarks", fun e => (Remarks.parser e).skipErr.bind fun o => .ok (BodyStruct.addRemarks s o)),
    (bodyTag, fun e => (bodyP e).bind fun v => .ok { s with body := some v })]
    (unexpected outer)

/-- The common shape of the five readers, e.g. src/structs.rs 72-118 for `NoteStruct`. -/
def BodyStruct.parser {τ β : Type} (tag titleTag bodyTag : String) (titleP : Element → Res τ)
    (bodyP : Element → Res β) (e : Element) : Res (BodyStruct L τ β) :=
  if e.name = tag then
    (forElems (BodyStruct.step titleTag bodyTag titleP bodyP e) {} e.children).bind fun s =>
    match s.body with
    | some body => .ok ⟨s.title, s.title_remarks, body, s.body_remarks⟩
    | none => .err (.missingRequiredTag bodyTag)
  else .err (wrongTagName e tag)

/-- The common shape of the five writers, e.g. src/structs.rs 120-138 for `NoteStruct`. -/
def BodyStruct.toXml {τ β : Type} (tag : String) (titleXml : τ → Element) (bodyXml : β → Element)
    (x : BodyStruct L τ β) : Element :=
  { name := tag
    children := (x.title.toList.map fun t => (titleXml t).node) ++
      (x.title_remarks.map fun r => r.toXml.node) ++ [(bodyXml x.body).node] ++
      (x.body_remarks.map fun r => r.toXml.node) }

/-- `Text::from_children(&e.children)` as used for titles. -/
def Text.ofElement (e : Element) : Res (Text L) := Text.fromChildren e.children

/-- `NoteStruct`, src/structs.rs 64-70. -/
abbrev NoteStruct (L : Lvl) := BodyStruct L (Text L) (Note L)
/-- `NoteStruct::parser`, src/structs.rs 72-117. -/
def NoteStruct.parser : Element → Res (NoteStruct L) :=
  BodyStruct.parser "NoteStruct" "NoteStructTitle" "Note" Text.ofElement Note.parser
/-- `NoteStruct::to_xml_element`, src/structs.rs 120-138. -/
def NoteStruct.toXml : NoteStruct L → Element :=
  BodyStruct.toXml "NoteStruct" (fun t => t.toXml "NoteStructTitle") Note.toXml

/-- `StyleStruct`, src/structs.rs 140-146. -/
abbrev StyleStruct (L : Lvl) := BodyStruct L (Text L) (Style L)
/-- `StyleStruct::parser`, src/structs.rs 148-193. -/
def StyleStruct.parser : Element → Res (StyleStruct L) :=
  BodyStruct.parser "StyleStruct" "StyleStructTitle" "Style" Text.ofElement Style.parser
/-- `StyleStruct::to_xml_element`, src/structs.rs 196-214. -/
def StyleStruct.toXml : StyleStruct L → Element :=
  BodyStruct.toXml "StyleStruct" (fun t => t.toXml "StyleStructTitle") Style.toXml

/-- `FormatStruct`, src/structs.rs 216-222. -/
abbrev FormatStruct (L : Lvl) := BodyStruct L (Text L) (Format L)
/-- `FormatStruct::parser`, src/structs.rs 224-269. -/
def FormatStruct.parser : Element → Res (FormatStruct L) :=
  BodyStruct.parser "FormatStruct" "FormatStructTitle" "Format" Text.ofElement Format.parser
/-- `FormatStruct::to_xml_element`, src/structs.rs 272-290. -/
def FormatStruct.toXml : FormatStruct L → Element :=
  BodyStruct.toXml "FormatStruct" (fun t => t.toXml "FormatStructTitle") Format.toXml

/-- `FigStruct`, src/structs.rs 292-298. -/
abbrev FigStruct (L : Lvl) := BodyStruct L (Text L) Fig
/-- `FigStruct::parser`, src/structs.rs 300-345. -/
def FigStruct.parser : Element → Res (FigStruct L) :=
  BodyStruct.parser "FigStruct" "FigStructTitle" "Fig" Text.ofElement Fig.parser
/-- `FigStruct::to_xml_element`, src/structs.rs 348-365. -/
def FigStruct.toXml : FigStruct L → Element :=
  BodyStruct.toXml "FigStruct" (fun t => t.toXml "FigStructTitle") Fig.toXml

/-- `TableStruct`, src/structs.rs 367-373. -/
abbrev TableStruct (L : Lvl) := BodyStruct L (TextWithWritingMode L) (Table L)
/-- `TableStruct::parser`, src/structs.rs 375-421. -/
def TableStruct.parser : Element → Res (TableStruct L) :=
  BodyStruct.parser "TableStruct" "TableStructTitle" "Table" TextWithWritingMode.parser Table.parser
/-- `TableStruct::to_xml_element`, src/structs.rs 424-442. -/
def TableStruct.toXml : TableStruct L → Element :=
  BodyStruct.toXml "TableStruct" (fun t => t.toXml "TableStructTitle") Table.toXml

/-! ## src/list.rs -/

/-- `ListSentence`, src/list.rs 90-94. -/
inductive ListSentence (L : Lvl)
  | sentence (v : Sentence L)
  | column (v : Column L)

/-- The `match` in the inner loop, src/list.rs 41-53; `outer` is the list element. -/
def ListSentence.parser (outer : Element) : Element → Res (ListSentence L) :=
  matchTag [
    ("Sentence", fun e => (Sentence.parser e).bind fun v => .ok (.sentence v)),
    ("Column", fun e => (Column.parser e).bind fun v => .ok (.column v))]
    (unexpected outer)

/-- Element written for it, src/list.rs 77-80. -/
def ListSentence.toXml : ListSentence L → Element
  | .column v => v.toXml
  | .sentence v => v.toXml

/-- The first part of the four list readers, src/list.rs 28-57: the first child node must be an
element with tag `sentTag`. -/
def listSentences (sentTag errName : String) (e : Element) : Res (List (ListSentence L)) :=
  match e.children with
  | .element n _ c :: _ =>
    if n = sentTag then readAll (ListSentence.parser e) c else .err (wrongTagName e errName)
  | _ => .err (wrongTagName e errName)

/-- `List`, `Sublist1` and `Sublist2` have the same fields up to the type of the children. Source:
src/list.rs 14-17, 97-100, 174-177. -/
structure ListOf (L : Lvl) (γ : Type) where
  sentence : List (ListSentence L)
  children : List γ

/-- The common shape of the readers of `List`, `Sublist1`, `Sublist2`, src/list.rs 25-69. -/
def ListOf.parser {γ : Type} (tag sentTag errName : String) (childP : Element → Res γ)
    (e : Element) : Res (ListOf L γ) :=
  if e.name = tag then
    (listSentences sentTag errName e).bind fun sentence =>
    (readAll childP e.children.tail).bind fun children =>
    .ok ⟨sentence, children⟩
  else .err (wrongTagName e tag)

/-- The element holding the sentences, src/list.rs 75-82. -/
def listSentencesXml (sentTag : String) (l : List (ListSentence L)) : Element :=
  { name := sentTag, children := l.map fun s => s.toXml.node }

/-- The common shape of the writers of `List`, `Sublist1`, `Sublist2`, src/list.rs 72-88. -/
def ListOf.toXml {γ : Type} (tag sentTag : String) (childXml : γ → Element) (x : ListOf L γ) :
    Element :=
  { name := tag
    children := (listSentencesXml sentTag x.sentence).node ::
      x.children.map fun c => (childXml c).node }

/-- `Sublist3`, src/list.rs 250-253. -/
structure Sublist3 (L : Lvl) where
  sentence : List (ListSentence L)

/-- `Sublist3::parser`, src/list.rs 261-298; nodes after the first are ignored. -/
def Sublist3.parser (e : Element) : Res (Sublist3 L) :=
  if e.name = "Sublist3" then
    (listSentences "Sublist3Sentence" "Sublist3Sentence" e).bind fun sentence => .ok ⟨sentence⟩
  else .err (wrongTagName e "Sublist3")

/-- `Sublist3::to_xml_element`, src/list.rs 301-314. -/
def Sublist3.toXml (x : Sublist3 L) : Element :=
  { name := "Sublist3", children := [(listSentencesXml "Sublist3Sentence" x.sentence).node] }

/-- `Sublist2`, src/list.rs 173-177. -/
abbrev Sublist2 (L : Lvl) := ListOf L (Sublist3 L)
/-- `Sublist2::parser`, src/list.rs 185-229. -/
def Sublist2.parser : Element → Res (Sublist2 L) :=
  ListOf.parser "Sublist2" "Sublist2Sentence" "Sublist2Sentence" Sublist3.parser
/-- `Sublist2::to_xml_element`, src/list.rs 232-248. -/
def Sublist2.toXml : Sublist2 L → Element :=
  ListOf.toXml "Sublist2" "Sublist2Sentence" Sublist3.toXml

/-- `Sublist1`, src/list.rs 96-100. -/
abbrev Sublist1 (L : Lvl) := ListOf L (Sublist2 L)
/-- `Sublist1::parser`, src/list.rs 108-152. -/
def Sublist1.parser : Element → Res (Sublist1 L) :=
  ListOf.parser "Sublist1" "Sublist1Sentence" "Sublist1Sentence" Sublist2.parser
/-- `Sublist1::to_xml_element`, src/list.rs 155-171. -/
def Sublist1.toXml : Sublist1 L → Element :=
  ListOf.toXml "Sublist1" "Sublist1Sentence" Sublist2.toXml

/-- `List`, src/list.rs 12-17. -/
abbrev LawList (L : Lvl) := ListOf L (Sublist1 L)
/-- `List::parser`, src/list.rs 25-69; `LiseSentence` is in the source. -/
def LawList.parser : Element → Res (LawList L) :=
  ListOf.parser "List" "ListSentence" "LiseSentence" Sublist1.parser
/-- `List::to_xml_element`, src/list.rs 72-88. -/
def LawList.toXml : LawList L → Element :=
  ListOf.toXml "List" "ListSentence" Sublist1.toXml

/-! ## `Struct`, src/structs.rs -/

/-- `Struct`, src/structs.rs 15-21. -/
inductive Struct (L : Lvl)
  | tableStruct (v : TableStruct L)
  | figStruct (v : FigStruct L)
  | styleStruct (v : StyleStruct L)
  | list (v : LawList L)

/-- `Struct::parser`, src/structs.rs 23-33. -/
def Struct.parser : Element → Res (Struct L) :=
  matchTag [
    ("TableStruct", fun e => (TableStruct.parser e).bind fun v => .ok (.tableStruct v)),
    ("FigStruct", fun e => (FigStruct.parser e).bind fun v => .ok (.figStruct v)),
    ("StyleStruct", fun e => (StyleStruct.parser e).bind fun v => .ok (.styleStruct v)),
    ("List", fun e => (LawList.parser e).bind fun v => .ok (.list v))]
    (fun _ => .err (missingRequiredTag "Struct"))

/-- `Struct::to_xml_element`, src/structs.rs 35-44. -/
def Struct.toXml : Struct L → Element
  | .figStruct v => FigStruct.toXml v
  | .tableStruct v => TableStruct.toXml v
  | .styleStruct v => StyleStruct.toXml v
  | .list v => LawList.toXml v

end JLaw
