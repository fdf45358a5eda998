import Verif.Model.Xml

/-!
# Text, ruby, lines and sentences

src/text.rs, src/line.rs, src/sentence.rs and the small raw-content types of src/structs.rs and
src/contents.rs they need.
-/

namespace JLaw

variable {L : Lvl}

/-! ## src/text.rs -/

/-- `WritingMode`, src/text.rs 178-182. -/
inductive WritingMode
  | vertical
  | horizontal
  deriving DecidableEq, Repr

/-- The `match` on the `WritingMode` attribute, src/text.rs 195-208, src/sentence.rs 57-61. -/
def WritingMode.fromAttr : Option String → WritingMode
  | some "vertical" => .vertical
  | some "horizontal" => .horizontal
  | _ => .vertical

/-- The attribute is written for horizontal text only, src/text.rs 224-227, src/sentence.rs
177-183. -/
def WritingMode.toAttr : WritingMode → Option String
  | .horizontal => some "horizontal"
  | .vertical => none

/-- `Ruby`, src/text.rs 259-266. -/
structure Ruby (L : Lvl) where
  text : L.Text
  ruby : String

/-- State of the loop in `Ruby::parser`. Source: src/text.rs 277-309. -/
structure Ruby.St where
  text : List String := []
  ruby : Option String := none

/-- Body of the loop in `Ruby::parser`, src/text.rs 283-302. -/
def Ruby.step (s : Ruby.St) : XMLNode → Res Ruby.St
  | .element n _ c => if n = "Rt" then .ok { s with ruby := some (nodesText c) } else .ok s
  | .text t => .ok { s with text := s.text ++ [t] }
  | _ => .ok s

/-- `Ruby::parser`, src/text.rs 277-309. The base text holds strings only, so it is kept as a list
of strings during the loop. -/
def Ruby.parser (e : Element) : Res (Ruby L) :=
  if e.name = "Ruby" then
    (foldRes Ruby.step {} e.children).bind fun s =>
      (L.textOfStrings s.text).bind fun t => .ok ⟨t, s.ruby.getD ""⟩
  else .err (wrongTagName e "Ruby")

/-- `Ruby::to_xml_element`, src/text.rs 311-322. -/
def Ruby.toXml (r : Ruby L) : Element :=
  { name := "Ruby"
    children := L.textToChildren r.text ++ [({ name := "Rt", children := [.text r.ruby] } : Element).node] }

/-- `Sup`, src/text.rs 325-328. -/
structure Sup where
  text : String
  deriving DecidableEq, Repr

/-- First child if it is a text node, else the empty string; src/text.rs 333-343. -/
def firstText (c : List XMLNode) : String :=
  match c with
  | .text s :: _ => s
  | _ => ""

/-- `Sup::parser`, src/text.rs 330-349. -/
def Sup.parser (e : Element) : Res Sup :=
  if e.name = "Sup" then .ok ⟨firstText e.children⟩ else .err (wrongTagName e "Sup")

/-- `Sup::to_xml_element`, src/text.rs 351-357. -/
def Sup.toXml (x : Sup) : Element := { name := "Sup", children := [.text x.text] }

/-- `Sub`, src/text.rs 360-363. -/
structure Sub where
  text : String
  deriving DecidableEq, Repr

/-- `Sub::parser`, src/text.rs 365-384. -/
def Sub.parser (e : Element) : Res Sub :=
  if e.name = "Sub" then .ok ⟨firstText e.children⟩ else .err (wrongTagName e "Sub")

/-- `Sub::to_xml_element`, src/text.rs 386-392. -/
def Sub.toXml (x : Sub) : Element := { name := "Sub", children := [.text x.text] }

/-! ## Raw contents -/

/-- Element with the given tag around raw contents: `Contents::to_xml_element_with_name`,
src/contents.rs 167-208 (the attributes stay empty). -/
def rawXml (name : String) (c : L.Contents) : Element :=
  { name := name, children := L.contentsToChildren c }

/-- `QuoteStruct`, src/structs.rs 47-50. -/
structure QuoteStruct (L : Lvl) where
  contentes : L.Contents

/-- `QuoteStruct::parser`, src/structs.rs 52-56; the tag is not looked at. -/
def QuoteStruct.parser (e : Element) : Res (QuoteStruct L) :=
  (L.contentsParser e).bind fun c => .ok ⟨c⟩

/-- `QuoteStruct::to_xml_element`, src/structs.rs 58-62. -/
def QuoteStruct.toXml (q : QuoteStruct L) : Element := rawXml "QuoteStruct" q.contentes

/-- `ArithFormula`, src/contents.rs 301-304. -/
structure ArithFormula (L : Lvl) where
  num : Option Usize
  contentes : L.Contents

/-- `ArithFormula::parser`, src/contents.rs 306-311; the tag is not looked at. -/
def ArithFormula.parser (e : Element) : Res (ArithFormula L) :=
  (getAttributeOptWithParse parseUsizeStr e "Num").bind fun num =>
    (L.contentsParser e).bind fun c => .ok ⟨num, c⟩

/-- `ArithFormula::to_xml_element`, src/contents.rs 313-317; the number is not written. -/
def ArithFormula.toXml (a : ArithFormula L) : Element := rawXml "ArithFormula" a.contentes

/-! ## src/line.rs -/

/-- `LineStyle`, src/line.rs 94-100. -/
inductive LineStyle
  | dotted
  | double
  | solid
  | none
  deriving DecidableEq, Repr

/-- `LineStyle::from_attribute`, src/line.rs 103-111; note the value for `double`. -/
def LineStyle.fromAttr : Option String → Option LineStyle
  | some "solid" => some .solid
  | some "none" => some .none
  | some "dotted" => some .dotted
  | some "double" => some .dotted
  | _ => Option.none

/-- `LineStyle::to_attribute`, src/line.rs 113-120. -/
def LineStyle.toAttr : LineStyle → String
  | .dotted => "dotted"
  | .solid => "solid"
  | .double => "double"
  | .none => "none"

/-- `LineContents`, src/line.rs 83-91. -/
inductive LineContents (L : Lvl)
  | quoteStruct (v : QuoteStruct L)
  | arithFormula (v : ArithFormula L)
  | ruby (v : Ruby L)
  | sup (v : Sup)
  | sub (v : Sub)
  | string (s : String)

/-- `Line`, src/line.rs 12-16. -/
structure Line (L : Lvl) where
  contents : List (LineContents L)
  style : LineStyle

/-- The `match` in `Line::parser`, src/line.rs 29-55. -/
def LineContents.elem (outer : Element) : Element → Res (LineContents L) :=
  matchTag [
    ("QuoteStruct", fun e => (QuoteStruct.parser e).bind fun v => .ok (.quoteStruct v)),
    ("ArithFormula", fun e => (ArithFormula.parser e).bind fun v => .ok (.arithFormula v)),
    ("Ruby", fun e => (Ruby.parser e).bind fun v => .ok (.ruby v)),
    ("Sup", fun e => (Sup.parser e).bind fun v => .ok (.sup v)),
    ("Sub", fun e => (Sub.parser e).bind fun v => .ok (.sub v))]
    (unexpected outer)

/-- `Line::parser`, src/line.rs 18-62. -/
def Line.parser (e : Element) : Res (Line L) :=
  if e.name = "Line" then
    (Res.ofOption (.attributeParseError "Line" "Style")
      (LineStyle.fromAttr (e.attributes.get "Style"))).bind fun style =>
    (mixed (LineContents.elem e) .string e.children).bind fun contents =>
    .ok ⟨contents, style⟩
  else .err (wrongTagName e "Line")

/-- Node written for one piece of a line, src/line.rs 69-78. -/
def LineContents.toNode : LineContents L → XMLNode
  | .arithFormula v => v.toXml.node
  | .quoteStruct v => v.toXml.node
  | .ruby v => v.toXml.node
  | .sub v => v.toXml.node
  | .sup v => v.toXml.node
  | .string s => .text s

/-- `Line::to_xml_element`, src/line.rs 64-81. -/
def Line.toXml (l : Line L) : Element :=
  { name := "Line"
    attributes := Attrs.insert [] "Style" l.style.toAttr
    children := l.contents.map LineContents.toNode }

/-! ## `Text`, src/text.rs -/

/-- `TextElement`, src/text.rs 250-257. -/
inductive TextElement (L : Lvl)
  | ruby (v : Ruby L)
  | line (v : Line L)
  | sup (v : Sup)
  | sub (v : Sub)
  | text (s : String)

/-- `Text`, src/text.rs 12-15. -/
structure Text (L : Lvl) where
  contents : List (TextElement L)

/-- `Text::new`, src/text.rs 20-24. -/
def Text.new : Text L := ⟨[]⟩

/-- Result of `if let Ok(x) = r { push(f x) }`: an error leaves no trace. -/
def pushOk {α β : Type} (f : α → β) (r : Res α) : Res (List β) :=
  r.skipErr.bind fun o => .ok (o.toList.map f)

/-- Body of the loop in `Text::from_children`, src/text.rs 28-56. -/
def TextElement.ofNode : XMLNode → Res (List (TextElement L))
  | .element n a c =>
    matchTag [
      ("Ruby", fun e => pushOk .ruby (Ruby.parser e)),
      ("Line", fun e => pushOk .line (Line.parser e)),
      ("Sup", fun e => pushOk .sup (Sup.parser e)),
      ("Sub", fun e => pushOk .sub (Sub.parser e))]
      (fun _ => .ok []) ⟨n, a, c⟩
  | .text s => .ok [.text s]
  | _ => .ok []

/-- `Text::from_children`, src/text.rs 26-58. It never returns an error; the result type only
carries the nesting bound of the model. -/
def Text.fromChildren (c : List XMLNode) : Res (Text L) :=
  (collectRes TextElement.ofNode c).bind fun l => .ok ⟨l⟩

/-- `Text::from_value` on a string, src/text.rs 61-65. -/
def Text.fromValue (s : String) : Text L := ⟨[.text s]⟩

/-- Node written for one piece of text, src/text.rs 103-109. -/
def TextElement.toNode : TextElement L → XMLNode
  | .text s => .text s
  | .ruby v => v.toXml.node
  | .line v => v.toXml.node
  | .sub v => v.toXml.node
  | .sup v => v.toXml.node

/-- `Text::to_children`, src/text.rs 100-113. -/
def Text.toChildren (t : Text L) : List XMLNode := t.contents.map TextElement.toNode

/-- `Text::to_xml_element_with_name`, src/text.rs 162-176. -/
def Text.toXml (t : Text L) (name : String) : Element := { name := name, children := t.toChildren }

/-- `TextWithWritingMode`, src/text.rs 185-189. -/
structure TextWithWritingMode (L : Lvl) where
  contents : List (TextElement L)
  writing_mode : WritingMode

/-- `TextWithWritingMode::parser`, src/text.rs 191-210; the tag is not looked at. -/
def TextWithWritingMode.parser (e : Element) : Res (TextWithWritingMode L) :=
  (Text.fromChildren e.children).bind fun t =>
    .ok ⟨t.contents, WritingMode.fromAttr (e.attributes.get "WritingMode")⟩

/-- `TextWithWritingMode::to_xml_element_with_name`, src/text.rs 212-230. -/
def TextWithWritingMode.toXml (t : TextWithWritingMode L) (name : String) : Element :=
  { name := name
    attributes := Attrs.insertOpt [] "WritingMode" t.writing_mode.toAttr
    children := t.contents.map TextElement.toNode }

/-! ## src/sentence.rs -/

/-- `SentenceFunction`, src/sentence.rs 210-214. -/
inductive SentenceFunction
  | main
  | proviso
  deriving DecidableEq, Repr

/-- `SentenceIndent`, src/sentence.rs 216-230. -/
inductive SentenceIndent
  | paragraph | item | subitem1 | subitem2 | subitem3 | subitem4 | subitem5 | subitem6 | subitem7
  | subitem8 | subitem9 | subitem10
  deriving DecidableEq, Repr

/-- Names of the functions, src/sentence.rs 25-35. -/
def SentenceFunction.ofStr : String → Option SentenceFunction
  | "main" => some .main
  | "proviso" => some .proviso
  | _ => none

/-- Names written for the functions, src/sentence.rs 115-125. -/
def SentenceFunction.toStr : SentenceFunction → String
  | .main => "main"
  | .proviso => "proviso"

/-- Names of the indents, src/sentence.rs 36-56. -/
def SentenceIndent.ofStr : String → Option SentenceIndent
  | "Paragraph" => some .paragraph
  | "Item" => some .item
  | "Subitem1" => some .subitem1
  | "Subitem2" => some .subitem2
  | "Subitem3" => some .subitem3
  | "Subitem4" => some .subitem4
  | "Subitem5" => some .subitem5
  | "Subitem6" => some .subitem6
  | "Subitem7" => some .subitem7
  | "Subitem8" => some .subitem8
  | "Subitem9" => some .subitem9
  | "Subitem10" => some .subitem10
  | _ => none

/-- Names written for the indents, src/sentence.rs 126-176. -/
def SentenceIndent.toStr : SentenceIndent → String
  | .paragraph => "Paragraph"
  | .item => "Item"
  | .subitem1 => "Subitem1"
  | .subitem2 => "Subitem2"
  | .subitem3 => "Subitem3"
  | .subitem4 => "Subitem4"
  | .subitem5 => "Subitem5"
  | .subitem6 => "Subitem6"
  | .subitem7 => "Subitem7"
  | .subitem8 => "Subitem8"
  | .subitem9 => "Subitem9"
  | .subitem10 => "Subitem10"

/-- `SentenceElement`, src/sentence.rs 199-208. -/
inductive SentenceElement (L : Lvl)
  | line (v : Line L)
  | quoteStruct (v : QuoteStruct L)
  | arithFormula (v : ArithFormula L)
  | ruby (v : Ruby L)
  | sup (v : Sup)
  | sub (v : Sub)
  | string (s : String)

/-- `Sentence`, src/sentence.rs 12-19. -/
structure Sentence (L : Lvl) where
  contents : List (SentenceElement L)
  num : Option Usize
  function : Option SentenceFunction
  indent : Option SentenceIndent
  writing_mode : WritingMode

/-- The `match` in the loop of `Sentence::parser`, src/sentence.rs 65-91. -/
def SentenceElement.elem (outer : Element) : Element → Res (SentenceElement L) :=
  matchTag [
    ("Line", fun e => (Line.parser e).bind fun v => .ok (.line v)),
    ("QuoteStruct", fun e => (QuoteStruct.parser e).bind fun v => .ok (.quoteStruct v)),
    ("ArithFormula", fun e => (ArithFormula.parser e).bind fun v => .ok (.arithFormula v)),
    ("Ruby", fun e => (Ruby.parser e).bind fun v => .ok (.ruby v)),
    ("Sup", fun e => (Sup.parser e).bind fun v => .ok (.sup v)),
    ("Sub", fun e => (Sub.parser e).bind fun v => .ok (.sub v))]
    (unexpected outer)

/-- `Sentence::parser`, src/sentence.rs 21-107. The `match` on an optional attribute with an error
for an unknown value has the outcome of `get_attribute_opt_with_parse`. -/
def Sentence.parser (e : Element) : Res (Sentence L) :=
  if e.name = "Sentence" then
    (getAttributeOptWithParse parseUsizeStr e "Num").bind fun num =>
    (getAttributeOptWithParse SentenceFunction.ofStr e "Function").bind fun function =>
    (getAttributeOptWithParse SentenceIndent.ofStr e "Indent").bind fun indent =>
    (mixed (SentenceElement.elem e) .string e.children).bind fun contents =>
    .ok ⟨contents, num, function, indent, WritingMode.fromAttr (e.attributes.get "WritingMode")⟩
  else .err (wrongTagName e "Sentence")

/-- Node written for one piece of a sentence, src/sentence.rs 185-193. -/
def SentenceElement.toNode : SentenceElement L → XMLNode
  | .arithFormula v => v.toXml.node
  | .quoteStruct v => v.toXml.node
  | .ruby v => v.toXml.node
  | .sup v => v.toXml.node
  | .sub v => v.toXml.node
  | .line v => v.toXml.node
  | .string s => .text s

/-- `Sentence::to_xml_element`, src/sentence.rs 109-197. -/
def Sentence.toXml (s : Sentence L) : Element :=
  { name := "Sentence"
    attributes := (((Attrs.insertOpt [] "Num" (s.num.map usizeStr)).insertOpt "Function"
      (s.function.map SentenceFunction.toStr)).insertOpt "Indent"
      (s.indent.map SentenceIndent.toStr)).insertOpt "WritingMode" s.writing_mode.toAttr
    children := s.contents.map SentenceElement.toNode }

end JLaw
