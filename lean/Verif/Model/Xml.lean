import Verif.Model.Base

/-!
# Shapes shared by all readers

Almost every reader of the crate is a loop over the children of an element with a `match` on the
tag of the child. This file has the loop and the `match` once, and the record of the types through
which the data model refers back to itself.
-/

namespace JLaw

/-- `match e.name.as_str() { "A" => .., "B" => .., s => default }`; the first arm wins. -/
def matchTag {β : Type} (arms : List (String × (Element → Res β))) (dflt : Element → Res β)
    (e : Element) : Res β :=
  match arms.lookup e.name with
  | some h => h e
  | none => dflt e

/-- The default arm `s => return Err(Error::unexpected_tag(element, s))`, where `outer` is the
element whose children are being read. -/
def unexpected {β : Type} (outer : Element) (e : Element) : Res β :=
  .err (unexpectedTag outer e.name)

/-- `if let XMLNode::Element(e) = node { step }`: other nodes leave the state alone. -/
def onElem {σ : Type} (step : σ → Element → Res σ) (s : σ) : XMLNode → Res σ
  | .element n a c => step s ⟨n, a, c⟩
  | _ => .ok s

/-- `for node in nodes { if let XMLNode::Element(e) = node { step } }`. -/
def forElems {σ : Type} (step : σ → Element → Res σ) (s : σ) (nodes : List XMLNode) : Res σ :=
  foldRes (onElem step) s nodes

/-- One step of a loop that keeps both elements and strings:
`if let XMLNode::Element(e) = node { match .. } else if let XMLNode::Text(s) = node { .. }`. -/
def mixedNode {α : Type} (elem : Element → Res α) (str : String → α) : XMLNode → Res (List α)
  | .element n a c => (elem ⟨n, a, c⟩).bind fun x => .ok [x]
  | .text s => .ok [str s]
  | _ => .ok []

/-- The loop around `mixedNode`. -/
def mixed {α : Type} (elem : Element → Res α) (str : String → α) (nodes : List XMLNode) :
    Res (List α) :=
  collectRes (mixedNode elem str) nodes

/-- `if cond { attributes.insert(k, "true") }`. -/
def Attrs.insertTrue (a : Attrs) (k : String) (b : Bool) : Attrs :=
  if b then a.insert k "true" else a

/-- `get_attribute_opt_with_parse(element, name)?.unwrap_or(false)`. -/
def getBool (e : Element) (name : String) : Res Bool :=
  (getAttributeOptWithParse parseBool e name).bind fun o => .ok (o.getD false)

/-- The Rust types refer to each other in a cycle. The cycle is cut at five types; a `Lvl` says what
stands for them and how they are read and written. `Verif.Model.Law` ties the knot: level `n + 1` is
made of the structures over level `n`. Source: src/contents.rs 23-25, src/text.rs 261-266,
src/remarks.rs 14-17, src/table.rs 150-160, src/law.rs 643-646. -/
structure Lvl where
  /-- `Text` as the base text of a `Ruby` -/
  Text : Type
  /-- `Text` made of the given strings -/
  textOfStrings : List String → Res Text
  /-- `Text::to_children` -/
  textToChildren : Text → List XMLNode
  /-- `Contents`, inside `QuoteStruct`, `ArithFormula`, `Style`, `Note`, `Format` -/
  Contents : Type
  /-- `Contents::parser` -/
  contentsParser : Element → Res Contents
  /-- children pushed by `Contents::to_xml_element_with_name` -/
  contentsToChildren : Contents → List XMLNode
  /-- `Item`, inside `Remarks` -/
  Item : Type
  /-- `Item::parser` -/
  itemParser : Element → Res Item
  /-- `Item::to_xml_element` -/
  itemToXml : Item → Element
  /-- `TableColumn`, inside `TableRow` -/
  TableColumn : Type
  /-- `TableColumn::parser` -/
  columnParser : Element → Res TableColumn
  /-- `TableColumn::to_xml_element` -/
  columnToXml : TableColumn → Element
  /-- `AmendProvision`, inside `Paragraph` and `NewProvision` -/
  AmendProvision : Type
  /-- `AmendProvision::parser` -/
  amendParser : Element → Res AmendProvision
  /-- `AmendProvision::to_xml_element` -/
  amendToXml : AmendProvision → Element

/-- The innermost level: nothing is left of the five types, and a reader that gets here reports
that the nesting bound of the model is exhausted. -/
def Lvl.zero : Lvl where
  Text := Empty
  textOfStrings _ := .deep
  textToChildren := Empty.elim
  Contents := Empty
  contentsParser _ := .deep
  contentsToChildren := Empty.elim
  Item := Empty
  itemParser _ := .deep
  itemToXml := Empty.elim
  TableColumn := Empty
  columnParser _ := .deep
  columnToXml := Empty.elim
  AmendProvision := Empty
  amendParser _ := .deep
  amendToXml := Empty.elim

end JLaw
