import Verif.Model.Utils
import Verif.Model.NumText

/-!
# The derived traits `Serialize` and `Deserialize`

Every type of the crate that holds a part of a law derives `Serialize` and `Deserialize` of the crate
`serde`, without any attribute that changes the outcome. What the derived code does is modelled by a
value `Codec` for each type: `ser` gives the value of the data model of `serde` that the derived
`Serialize` hands to a serialiser, `de` is the derived `Deserialize` driven by a deserialiser for JSON.
The rules are those documented for the derive macros: a struct is a map from the names of its fields,
or a sequence of its fields in order; keys that are no field are skipped, a field given twice is an
error, a missing field is an error unless it is an `Option`; an enum is its variant by name. The error
values are not modelled, `none` stands for any of them. The limit of the crate `serde_json` on the
depth of a document is not modelled either.
-/

namespace JLaw

/-- A JSON value as a deserialiser sees it. Numbers that are no integers are kept as their text. -/
inductive Json where
  | null
  | bool (b : Bool)
  | int (n : Int)
  | float (s : String)
  | str (s : String)
  | arr (l : List Json)
  | obj (l : List (String × Json))
  deriving Repr

/-- A value of the data model of `serde`: `serialize_none`, `serialize_bool`, `serialize_u64`,
`serialize_str`, `serialize_seq`, `serialize_struct` with the names and values of the fields,
`serialize_unit_variant`, `serialize_newtype_variant`. `serialize_some` is transparent. -/
inductive SerdeValue where
  | none
  | bool (b : Bool)
  | u64 (n : Nat)
  | str (s : String)
  | seq (l : List SerdeValue)
  | struct (names : List String) (values : List SerdeValue)
  | unitVariant (name : String)
  | newtypeVariant (name : String) (value : SerdeValue)
  deriving Repr

mutual
/-- The JSON value written for a value of the data model, as documented for `serde`. -/
def SerdeValue.toJson : SerdeValue → Json
  | .none => .null
  | .bool b => .bool b
  | .u64 n => .int n
  | .str s => .str s
  | .seq l => .arr (toJsons l)
  | .struct names values => .obj (names.zip (toJsons values))
  | .unitVariant name => .str name
  | .newtypeVariant name value => .obj [(name, value.toJson)]
/-- The JSON values written for a list of values. -/
def SerdeValue.toJsons : List SerdeValue → List Json
  | [] => []
  | v :: r => v.toJson :: toJsons r
end

/-- The derived code of one type. `missing` is the value taken for a field of this type that is not
there. -/
structure Codec (α : Type) where
  ser : α → SerdeValue
  de : Json → Option α
  missing : Option α := none

namespace Codec

variable {α β : Type}

/-- `usize`. -/
def usize : Codec Usize where
  ser n := .u64 n.val
  de
    | .int n => if h : 0 ≤ n ∧ n < 18446744073709551616 then some ⟨n.toNat, by omega⟩ else none
    | _ => none

/-- `bool`. -/
def bool : Codec Bool where
  ser := .bool
  de
    | .bool b => some b
    | _ => none

/-- `String`. -/
def str : Codec String where
  ser := .str
  de
    | .str s => some s
    | _ => none

/-- A type without values, at the bottom of the levels. -/
def empty : Codec Empty where
  ser := Empty.elim
  de _ := none

/-- `Option<T>`. -/
def option (c : Codec α) : Codec (Option α) where
  ser
    | some a => c.ser a
    | none => .none
  de
    | .null => some none
    | j => (c.de j).map some
  missing := some none

/-- Read all elements of an array. -/
def deAll (f : Json → Option α) : List Json → Option (List α)
  | [] => some []
  | j :: r => (f j).bind fun a => (deAll f r).bind fun l => some (a :: l)

/-- `Vec<T>`. -/
def list (c : Codec α) : Codec (List α) where
  ser l := .seq (l.map c.ser)
  de
    | .arr l => deAll c.de l
    | _ => none

/-- The values given for a key. -/
def valuesOf (k : String) (l : List (String × Json)) : List Json :=
  l.filterMap fun p => if p.1 = k then some p.2 else none

/-- The value of a field. -/
def deField (c : Codec α) (k : String) (l : List (String × Json)) : Option α :=
  match valuesOf k l with
  | [] => c.missing
  | [j] => c.de j
  | _ => none

end Codec

/-- The fields of a struct, as a nested pair. -/
structure Fields (α : Type) where
  names : List String
  ser : α → List SerdeValue
  deMap : List (String × Json) → Option α
  deSeq : List Json → Option α

/-- No field left. -/
def Fields.done : Fields Unit where
  names := []
  ser _ := []
  deMap _ := some ()
  deSeq
    | [] => some ()
    | _ => none

/-- One more field in front. -/
def Fields.field {α β : Type} (name : String) (c : Codec α) (r : Fields β) : Fields (α × β) where
  names := name :: r.names
  ser x := c.ser x.1 :: r.ser x.2
  deMap l := (c.deField name l).bind fun a => (r.deMap l).bind fun b => some (a, b)
  deSeq
    | [] => none
    | j :: l => (c.de j).bind fun a => (r.deSeq l).bind fun b => some (a, b)

/-- A struct whose fields are `f`. -/
def Codec.struct {α β : Type} (f : Fields β) (toFields : α → β) (ofFields : β → α) : Codec α where
  ser x := .struct f.names (f.ser (toFields x))
  de
    | .obj l => (f.deMap l).map ofFields
    | .arr l => (f.deSeq l).map ofFields
    | _ => none

/-- The variants of an enum, as a nested sum. `deName` reads a variant given by its name alone, `dePair`
a variant given as an object with one entry. -/
structure Variants (α : Type) where
  names : List String
  ser : α → SerdeValue
  deName : String → Option α
  dePair : String → Json → Option α

/-- No variant left. -/
def Variants.done : Variants Empty where
  names := []
  ser := Empty.elim
  deName _ := none
  dePair _ _ := none

/-- One more variant without data in front. Written as an object, its value has to be `null`. -/
def Variants.unit {β : Type} (name : String) (r : Variants β) : Variants (Unit ⊕ β) where
  names := name :: r.names
  ser
    | .inl _ => .unitVariant name
    | .inr b => r.ser b
  deName s := if s = name then some (.inl ()) else (r.deName s).map .inr
  dePair s j :=
    if s = name then
      match j with
      | .null => some (.inl ())
      | _ => none
    else (r.dePair s j).map .inr

/-- One more variant with data in front. -/
def Variants.newtype {α β : Type} (name : String) (c : Codec α) (r : Variants β) :
    Variants (α ⊕ β) where
  names := name :: r.names
  ser
    | .inl a => .newtypeVariant name (c.ser a)
    | .inr b => r.ser b
  deName s := if s = name then none else (r.deName s).map .inr
  dePair s j := if s = name then (c.de j).map .inl else (r.dePair s j).map .inr

/-- An enum whose variants are `v`. -/
def Codec.enum {α β : Type} (v : Variants β) (toSum : α → β) (ofSum : β → α) : Codec α where
  ser x := v.ser (toSum x)
  de
    | .str s => (v.deName s).map ofSum
    | .obj [(s, j)] => (v.dePair s j).map ofSum
    | _ => none

/-- The derived code of the five types of a level. -/
structure LvlCodec (L : Lvl) where
  text : Codec L.Text
  contents : Codec L.Contents
  item : Codec L.Item
  tableColumn : Codec L.TableColumn
  amendProvision : Codec L.AmendProvision

variable {L : Lvl}

/-- Derived `Serialize` and `Deserialize` of `Ruby`, src/text.rs 260-266. -/
def Ruby.codec (S : LvlCodec L) : Codec (Ruby L) :=
  .struct (
    .field "text" S.text <|
    .field "ruby" .str <|
    .done)
    (fun x => (x.text, x.ruby, ()))
    (fun (text, ruby, _) => { text := text, ruby := ruby })

/-- Derived `Serialize` and `Deserialize` of `QuoteStruct`, src/structs.rs 47-50. -/
def QuoteStruct.codec (S : LvlCodec L) : Codec (QuoteStruct L) :=
  .struct (
    .field "contentes" S.contents <|
    .done)
    (fun x => (x.contentes, ()))
    (fun (contentes, _) => { contentes := contentes })

/-- Derived `Serialize` and `Deserialize` of `ArithFormula`, src/contents.rs 300-304. -/
def ArithFormula.codec (S : LvlCodec L) : Codec (ArithFormula L) :=
  .struct (
    .field "num" (.option .usize) <|
    .field "contentes" S.contents <|
    .done)
    (fun x => (x.num, x.contentes, ()))
    (fun (num, contentes, _) => { num := num, contentes := contentes })

/-- Derived `Serialize` and `Deserialize` of `Sup`, src/text.rs 325-328. -/
def Sup.codec : Codec (Sup) :=
  .struct (
    .field "text" .str <|
    .done)
    (fun x => (x.text, ()))
    (fun (text, _) => { text := text })

/-- Derived `Serialize` and `Deserialize` of `Sub`, src/text.rs 360-363. -/
def Sub.codec : Codec (Sub) :=
  .struct (
    .field "text" .str <|
    .done)
    (fun x => (x.text, ()))
    (fun (text, _) => { text := text })

/-- Derived `Serialize` and `Deserialize` of `LineContents`, src/line.rs 83-91. -/
def LineContents.codec (S : LvlCodec L) : Codec (LineContents L) :=
  .enum (
    .newtype "QuoteStruct" (QuoteStruct.codec S) <|
    .newtype "ArithFormula" (ArithFormula.codec S) <|
    .newtype "Ruby" (Ruby.codec S) <|
    .newtype "Sup" Sup.codec <|
    .newtype "Sub" Sub.codec <|
    .newtype "String" .str <|
    .done)
    (fun
      | .quoteStruct v => .inl v
      | .arithFormula v => .inr (.inl v)
      | .ruby v => .inr (.inr (.inl v))
      | .sup v => .inr (.inr (.inr (.inl v)))
      | .sub v => .inr (.inr (.inr (.inr (.inl v))))
      | .string v => .inr (.inr (.inr (.inr (.inr (.inl v))))))
    (fun
      | .inl v => .quoteStruct v
      | .inr (.inl v) => .arithFormula v
      | .inr (.inr (.inl v)) => .ruby v
      | .inr (.inr (.inr (.inl v))) => .sup v
      | .inr (.inr (.inr (.inr (.inl v)))) => .sub v
      | .inr (.inr (.inr (.inr (.inr (.inl v))))) => .string v)

/-- Derived `Serialize` and `Deserialize` of `LineStyle`, src/line.rs 94-100. -/
def LineStyle.codec : Codec (LineStyle) :=
  .enum (
    .unit "Dotted" <|
    .unit "Double" <|
    .unit "Solid" <|
    .unit "None" <|
    .done)
    (fun
      | .dotted => .inl ()
      | .double => .inr (.inl ())
      | .solid => .inr (.inr (.inl ()))
      | .none => .inr (.inr (.inr (.inl ()))))
    (fun
      | .inl _ => .dotted
      | .inr (.inl _) => .double
      | .inr (.inr (.inl _)) => .solid
      | .inr (.inr (.inr (.inl _))) => .none)

/-- Derived `Serialize` and `Deserialize` of `Line`, src/line.rs 12-16. -/
def Line.codec (S : LvlCodec L) : Codec (Line L) :=
  .struct (
    .field "contents" (.list (LineContents.codec S)) <|
    .field "style" LineStyle.codec <|
    .done)
    (fun x => (x.contents, x.style, ()))
    (fun (contents, style, _) => { contents := contents, style := style })

/-- Derived `Serialize` and `Deserialize` of `TextElement`, src/text.rs 250-257. -/
def TextElement.codec (S : LvlCodec L) : Codec (TextElement L) :=
  .enum (
    .newtype "Ruby" (Ruby.codec S) <|
    .newtype "Line" (Line.codec S) <|
    .newtype "Sup" Sup.codec <|
    .newtype "Sub" Sub.codec <|
    .newtype "Text" .str <|
    .done)
    (fun
      | .ruby v => .inl v
      | .line v => .inr (.inl v)
      | .sup v => .inr (.inr (.inl v))
      | .sub v => .inr (.inr (.inr (.inl v)))
      | .text v => .inr (.inr (.inr (.inr (.inl v)))))
    (fun
      | .inl v => .ruby v
      | .inr (.inl v) => .line v
      | .inr (.inr (.inl v)) => .sup v
      | .inr (.inr (.inr (.inl v))) => .sub v
      | .inr (.inr (.inr (.inr (.inl v)))) => .text v)

/-- Derived `Serialize` and `Deserialize` of `WritingMode`, src/text.rs 178-182. -/
def WritingMode.codec : Codec (WritingMode) :=
  .enum (
    .unit "Vertical" <|
    .unit "Horizontal" <|
    .done)
    (fun
      | .vertical => .inl ()
      | .horizontal => .inr (.inl ()))
    (fun
      | .inl _ => .vertical
      | .inr (.inl _) => .horizontal)

/-- Derived `Serialize` and `Deserialize` of `TextWithWritingMode`, src/text.rs 185-189. -/
def TextWithWritingMode.codec (S : LvlCodec L) : Codec (TextWithWritingMode L) :=
  .struct (
    .field "contents" (.list (TextElement.codec S)) <|
    .field "writing_mode" WritingMode.codec <|
    .done)
    (fun x => (x.contents, x.writing_mode, ()))
    (fun (contents, writing_mode, _) => { contents := contents, writing_mode := writing_mode })

/-- Derived `Serialize` and `Deserialize` of `Text`, src/text.rs 12-15. -/
def Text.codec (S : LvlCodec L) : Codec (Text L) :=
  .struct (
    .field "contents" (.list (TextElement.codec S)) <|
    .done)
    (fun x => (x.contents, ()))
    (fun (contents, _) => { contents := contents })

/-- Derived `Serialize` and `Deserialize` of `RemarksLabel`, src/remarks.rs 73-77. -/
def RemarksLabel.codec (S : LvlCodec L) : Codec (RemarksLabel L) :=
  .struct (
    .field "text" (Text.codec S) <|
    .field "line_break" .bool <|
    .done)
    (fun x => (x.text, x.line_break, ()))
    (fun (text, line_break, _) => { text := text, line_break := line_break })

/-- Derived `Serialize` and `Deserialize` of `SentenceElement`, src/sentence.rs 199-208. -/
def SentenceElement.codec (S : LvlCodec L) : Codec (SentenceElement L) :=
  .enum (
    .newtype "Line" (Line.codec S) <|
    .newtype "QuoteStruct" (QuoteStruct.codec S) <|
    .newtype "ArithFormula" (ArithFormula.codec S) <|
    .newtype "Ruby" (Ruby.codec S) <|
    .newtype "Sup" Sup.codec <|
    .newtype "Sub" Sub.codec <|
    .newtype "String" .str <|
    .done)
    (fun
      | .line v => .inl v
      | .quoteStruct v => .inr (.inl v)
      | .arithFormula v => .inr (.inr (.inl v))
      | .ruby v => .inr (.inr (.inr (.inl v)))
      | .sup v => .inr (.inr (.inr (.inr (.inl v))))
      | .sub v => .inr (.inr (.inr (.inr (.inr (.inl v)))))
      | .string v => .inr (.inr (.inr (.inr (.inr (.inr (.inl v)))))))
    (fun
      | .inl v => .line v
      | .inr (.inl v) => .quoteStruct v
      | .inr (.inr (.inl v)) => .arithFormula v
      | .inr (.inr (.inr (.inl v))) => .ruby v
      | .inr (.inr (.inr (.inr (.inl v)))) => .sup v
      | .inr (.inr (.inr (.inr (.inr (.inl v))))) => .sub v
      | .inr (.inr (.inr (.inr (.inr (.inr (.inl v)))))) => .string v)

/-- Derived `Serialize` and `Deserialize` of `SentenceFunction`, src/sentence.rs 210-214. -/
def SentenceFunction.codec : Codec (SentenceFunction) :=
  .enum (
    .unit "Main" <|
    .unit "Proviso" <|
    .done)
    (fun
      | .main => .inl ()
      | .proviso => .inr (.inl ()))
    (fun
      | .inl _ => .main
      | .inr (.inl _) => .proviso)

/-- Derived `Serialize` and `Deserialize` of `SentenceIndent`, src/sentence.rs 216-230. -/
def SentenceIndent.codec : Codec (SentenceIndent) :=
  .enum (
    .unit "Paragraph" <|
    .unit "Item" <|
    .unit "Subitem1" <|
    .unit "Subitem2" <|
    .unit "Subitem3" <|
    .unit "Subitem4" <|
    .unit "Subitem5" <|
    .unit "Subitem6" <|
    .unit "Subitem7" <|
    .unit "Subitem8" <|
    .unit "Subitem9" <|
    .unit "Subitem10" <|
    .done)
    (fun
      | .paragraph => .inl ()
      | .item => .inr (.inl ())
      | .subitem1 => .inr (.inr (.inl ()))
      | .subitem2 => .inr (.inr (.inr (.inl ())))
      | .subitem3 => .inr (.inr (.inr (.inr (.inl ()))))
      | .subitem4 => .inr (.inr (.inr (.inr (.inr (.inl ())))))
      | .subitem5 => .inr (.inr (.inr (.inr (.inr (.inr (.inl ()))))))
      | .subitem6 => .inr (.inr (.inr (.inr (.inr (.inr (.inr (.inl ())))))))
      | .subitem7 => .inr (.inr (.inr (.inr (.inr (.inr (.inr (.inr (.inl ()))))))))
      | .subitem8 => .inr (.inr (.inr (.inr (.inr (.inr (.inr (.inr (.inr (.inl ())))))))))
      | .subitem9 => .inr (.inr (.inr (.inr (.inr (.inr (.inr (.inr (.inr (.inr (.inl ()))))))))))
      | .subitem10 => .inr (.inr (.inr (.inr (.inr (.inr (.inr (.inr (.inr (.inr (.inr (.inl ()))))))))))))
    (fun
      | .inl _ => .paragraph
      | .inr (.inl _) => .item
      | .inr (.inr (.inl _)) => .subitem1
      | .inr (.inr (.inr (.inl _))) => .subitem2
      | .inr (.inr (.inr (.inr (.inl _)))) => .subitem3
      | .inr (.inr (.inr (.inr (.inr (.inl _))))) => .subitem4
      | .inr (.inr (.inr (.inr (.inr (.inr (.inl _)))))) => .subitem5
      | .inr (.inr (.inr (.inr (.inr (.inr (.inr (.inl _))))))) => .subitem6
      | .inr (.inr (.inr (.inr (.inr (.inr (.inr (.inr (.inl _)))))))) => .subitem7
      | .inr (.inr (.inr (.inr (.inr (.inr (.inr (.inr (.inr (.inl _))))))))) => .subitem8
      | .inr (.inr (.inr (.inr (.inr (.inr (.inr (.inr (.inr (.inr (.inl _)))))))))) => .subitem9
      | .inr (.inr (.inr (.inr (.inr (.inr (.inr (.inr (.inr (.inr (.inr (.inl _))))))))))) => .subitem10)

/-- Derived `Serialize` and `Deserialize` of `Sentence`, src/sentence.rs 12-19. -/
def Sentence.codec (S : LvlCodec L) : Codec (Sentence L) :=
  .struct (
    .field "contents" (.list (SentenceElement.codec S)) <|
    .field "num" (.option .usize) <|
    .field "function" (.option SentenceFunction.codec) <|
    .field "indent" (.option SentenceIndent.codec) <|
    .field "writing_mode" WritingMode.codec <|
    .done)
    (fun x => (x.contents, x.num, x.function, x.indent, x.writing_mode, ()))
    (fun (contents, num, function, indent, writing_mode, _) =>
      { contents := contents, num := num, function := function, indent := indent
        writing_mode := writing_mode })

/-- Derived `Serialize` and `Deserialize` of `RemarksContents`, src/remarks.rs 103-107. -/
def RemarksContents.codec (S : LvlCodec L) : Codec (RemarksContents L) :=
  .enum (
    .newtype "Item" S.item <|
    .newtype "Sentence" (Sentence.codec S) <|
    .done)
    (fun
      | .item v => .inl v
      | .sentence v => .inr (.inl v))
    (fun
      | .inl v => .item v
      | .inr (.inl v) => .sentence v)

/-- Derived `Serialize` and `Deserialize` of `Remarks`, src/remarks.rs 13-17. -/
def Remarks.codec (S : LvlCodec L) : Codec (Remarks L) :=
  .struct (
    .field "label" (RemarksLabel.codec S) <|
    .field "children" (.list (RemarksContents.codec S)) <|
    .done)
    (fun x => (x.label, x.children, ()))
    (fun (label, children, _) => { label := label, children := children })

/-- Derived `Serialize` and `Deserialize` of `TableHeaderRow`, src/table.rs 77-80. -/
def TableHeaderRow.codec (S : LvlCodec L) : Codec (TableHeaderRow L) :=
  .struct (
    .field "columns" (.list (Text.codec S)) <|
    .done)
    (fun x => (x.columns, ()))
    (fun (columns, _) => { columns := columns })

/-- Derived `Serialize` and `Deserialize` of `TableRow`, src/table.rs 113-116. -/
def TableRow.codec (S : LvlCodec L) : Codec (TableRow L) :=
  .struct (
    .field "columns" (.list S.tableColumn) <|
    .done)
    (fun x => (x.columns, ()))
    (fun (columns, _) => { columns := columns })

/-- Derived `Serialize` and `Deserialize` of `Table`, src/table.rs 17-22. -/
def Table.codec (S : LvlCodec L) : Codec (Table L) :=
  .struct (
    .field "table_header_row" (.list (TableHeaderRow.codec S)) <|
    .field "table_row" (.list (TableRow.codec S)) <|
    .field "writing_mode" WritingMode.codec <|
    .done)
    (fun x => (x.table_header_row, x.table_row, x.writing_mode, ()))
    (fun (table_header_row, table_row, writing_mode, _) =>
      { table_header_row := table_header_row, table_row := table_row
        writing_mode := writing_mode })

/-- Derived `Serialize` and `Deserialize` of `TableStruct`, src/structs.rs 367-373. -/
def TableStruct.codec (S : LvlCodec L) : Codec (TableStruct L) :=
  .struct (
    .field "title" (.option (TextWithWritingMode.codec S)) <|
    .field "title_remarks" (.list (Remarks.codec S)) <|
    .field "table" (Table.codec S) <|
    .field "table_remarks" (.list (Remarks.codec S)) <|
    .done)
    (fun x => (x.title, x.title_remarks, x.body, x.body_remarks, ()))
    (fun (title, title_remarks, body, body_remarks, _) =>
      { title := title, title_remarks := title_remarks, body := body
        body_remarks := body_remarks })

/-- Derived `Serialize` and `Deserialize` of `Align`, src/class.rs 240-246. -/
def Align.codec : Codec (Align) :=
  .enum (
    .unit "Left" <|
    .unit "Center" <|
    .unit "Right" <|
    .unit "Justify" <|
    .done)
    (fun
      | .left => .inl ()
      | .center => .inr (.inl ())
      | .right => .inr (.inr (.inl ()))
      | .justify => .inr (.inr (.inr (.inl ()))))
    (fun
      | .inl _ => .left
      | .inr (.inl _) => .center
      | .inr (.inr (.inl _)) => .right
      | .inr (.inr (.inr (.inl _))) => .justify)

/-- Derived `Serialize` and `Deserialize` of `Column`, src/class.rs 189-195. -/
def Column.codec (S : LvlCodec L) : Codec (Column L) :=
  .struct (
    .field "sentence" (.list (Sentence.codec S)) <|
    .field "num" (.option .usize) <|
    .field "line_break" .bool <|
    .field "align" (.option Align.codec) <|
    .done)
    (fun x => (x.sentence, x.num, x.line_break, x.align, ()))
    (fun (sentence, num, line_break, align, _) =>
      { sentence := sentence, num := num, line_break := line_break, align := align })

/-- Derived `Serialize` and `Deserialize` of `SentenceOrColumnOrTable`, src/class.rs 85-90. -/
def SentenceOrColumnOrTable.codec (S : LvlCodec L) : Codec (SentenceOrColumnOrTable L) :=
  .enum (
    .newtype "Sentence" (.list (Sentence.codec S)) <|
    .newtype "Column" (.list (Column.codec S)) <|
    .newtype "Table" (Table.codec S) <|
    .done)
    (fun
      | .sentence v => .inl v
      | .column v => .inr (.inl v)
      | .table v => .inr (.inr (.inl v)))
    (fun
      | .inl v => .sentence v
      | .inr (.inl v) => .column v
      | .inr (.inr (.inl v)) => .table v)

/-- Derived `Serialize` and `Deserialize` of `Fig`, src/fig.rs 9-12. -/
def Fig.codec : Codec (Fig) :=
  .struct (
    .field "src" .str <|
    .done)
    (fun x => (x.src, ()))
    (fun (src, _) => { src := src })

/-- Derived `Serialize` and `Deserialize` of `FigStruct`, src/structs.rs 292-298. -/
def FigStruct.codec (S : LvlCodec L) : Codec (FigStruct L) :=
  .struct (
    .field "title" (.option (Text.codec S)) <|
    .field "title_remarks" (.list (Remarks.codec S)) <|
    .field "fig" Fig.codec <|
    .field "fig_remarks" (.list (Remarks.codec S)) <|
    .done)
    (fun x => (x.title, x.title_remarks, x.body, x.body_remarks, ()))
    (fun (title, title_remarks, body, body_remarks, _) =>
      { title := title, title_remarks := title_remarks, body := body
        body_remarks := body_remarks })

/-- Derived `Serialize` and `Deserialize` of `Style`, src/contents.rs 247-250. -/
def Style.codec (S : LvlCodec L) : Codec (Style L) :=
  .struct (
    .field "contentes" S.contents <|
    .done)
    (fun x => (x.contentes, ()))
    (fun (contentes, _) => { contentes := contentes })

/-- Derived `Serialize` and `Deserialize` of `StyleStruct`, src/structs.rs 140-146. -/
def StyleStruct.codec (S : LvlCodec L) : Codec (StyleStruct L) :=
  .struct (
    .field "title" (.option (Text.codec S)) <|
    .field "title_remarks" (.list (Remarks.codec S)) <|
    .field "style" (Style.codec S) <|
    .field "style_remarks" (.list (Remarks.codec S)) <|
    .done)
    (fun x => (x.title, x.title_remarks, x.body, x.body_remarks, ()))
    (fun (title, title_remarks, body, body_remarks, _) =>
      { title := title, title_remarks := title_remarks, body := body
        body_remarks := body_remarks })

/-- Derived `Serialize` and `Deserialize` of `ListSentence`, src/list.rs 90-94. -/
def ListSentence.codec (S : LvlCodec L) : Codec (ListSentence L) :=
  .enum (
    .newtype "Sentence" (Sentence.codec S) <|
    .newtype "Column" (Column.codec S) <|
    .done)
    (fun
      | .sentence v => .inl v
      | .column v => .inr (.inl v))
    (fun
      | .inl v => .sentence v
      | .inr (.inl v) => .column v)

/-- Derived `Serialize` and `Deserialize` of `Sublist3`, src/list.rs 250-253. -/
def Sublist3.codec (S : LvlCodec L) : Codec (Sublist3 L) :=
  .struct (
    .field "sentence" (.list (ListSentence.codec S)) <|
    .done)
    (fun x => (x.sentence, ()))
    (fun (sentence, _) => { sentence := sentence })

/-- Derived `Serialize` and `Deserialize` of `Sublist2`, src/list.rs 173-177. -/
def Sublist2.codec (S : LvlCodec L) : Codec (Sublist2 L) :=
  .struct (
    .field "sentence" (.list (ListSentence.codec S)) <|
    .field "children" (.list (Sublist3.codec S)) <|
    .done)
    (fun x => (x.sentence, x.children, ()))
    (fun (sentence, children, _) => { sentence := sentence, children := children })

/-- Derived `Serialize` and `Deserialize` of `Sublist1`, src/list.rs 96-100. -/
def Sublist1.codec (S : LvlCodec L) : Codec (Sublist1 L) :=
  .struct (
    .field "sentence" (.list (ListSentence.codec S)) <|
    .field "children" (.list (Sublist2.codec S)) <|
    .done)
    (fun x => (x.sentence, x.children, ()))
    (fun (sentence, children, _) => { sentence := sentence, children := children })

/-- Derived `Serialize` and `Deserialize` of `List`, src/list.rs 13-17. -/
def LawList.codec (S : LvlCodec L) : Codec (LawList L) :=
  .struct (
    .field "sentence" (.list (ListSentence.codec S)) <|
    .field "children" (.list (Sublist1.codec S)) <|
    .done)
    (fun x => (x.sentence, x.children, ()))
    (fun (sentence, children, _) => { sentence := sentence, children := children })

/-- Derived `Serialize` and `Deserialize` of `Struct`, src/structs.rs 15-21. -/
def Struct.codec (S : LvlCodec L) : Codec (Struct L) :=
  .enum (
    .newtype "TableStruct" (TableStruct.codec S) <|
    .newtype "FigStruct" (FigStruct.codec S) <|
    .newtype "StyleStruct" (StyleStruct.codec S) <|
    .newtype "List" (LawList.codec S) <|
    .done)
    (fun
      | .tableStruct v => .inl v
      | .figStruct v => .inr (.inl v)
      | .styleStruct v => .inr (.inr (.inl v))
      | .list v => .inr (.inr (.inr (.inl v))))
    (fun
      | .inl v => .tableStruct v
      | .inr (.inl v) => .figStruct v
      | .inr (.inr (.inl v)) => .styleStruct v
      | .inr (.inr (.inr (.inl v))) => .list v)

/-- Derived `Serialize` and `Deserialize` of `ArticleNumber`, src/article_number.rs 11-19. -/
def ArticleNumber.codec : Codec (ArticleNumber) :=
  .struct (
    .field "base_number" .usize <|
    .field "eda_numbers" (.list .usize) <|
    .field "range_end_numbers" (.list .usize) <|
    .done)
    (fun x => (x.base_number, x.eda_numbers, x.range_end_numbers, ()))
    (fun (base_number, eda_numbers, range_end_numbers, _) =>
      { base_number := base_number, eda_numbers := eda_numbers
        range_end_numbers := range_end_numbers })

/-- Derived `Serialize` and `Deserialize` of `Subitem10`, src/paragraph.rs 1603-1611. -/
def Subitem10.codec (S : LvlCodec L) : Codec (Subitem10 L) :=
  .struct (
    .field "title" (.option (Text.codec S)) <|
    .field "sentence" (SentenceOrColumnOrTable.codec S) <|
    .field "struct_list" (.list (Struct.codec S)) <|
    .field "num" (.option ArticleNumber.codec) <|
    .field "delete" .bool <|
    .field "hide" .bool <|
    .done)
    (fun x => (x.title, x.sentence, x.struct_list, x.num, x.delete, x.hide, ()))
    (fun (title, sentence, struct_list, num, delete, hide, _) =>
      { title := title, sentence := sentence, struct_list := struct_list, num := num
        delete := delete, hide := hide, children := [] })

/-- Derived `Serialize` and `Deserialize` of `Subitem9`, src/paragraph.rs 1459-1468. -/
def Subitem9.codec (S : LvlCodec L) : Codec (Subitem9 L) :=
  .struct (
    .field "title" (.option (Text.codec S)) <|
    .field "sentence" (SentenceOrColumnOrTable.codec S) <|
    .field "children" (.list (Subitem10.codec S)) <|
    .field "struct_list" (.list (Struct.codec S)) <|
    .field "num" (.option ArticleNumber.codec) <|
    .field "delete" .bool <|
    .field "hide" .bool <|
    .done)
    (fun x => (x.title, x.sentence, x.children, x.struct_list, x.num, x.delete, x.hide, ()))
    (fun (title, sentence, children, struct_list, num, delete, hide, _) =>
      { title := title, sentence := sentence, children := children, struct_list := struct_list
        num := num, delete := delete, hide := hide })

/-- Derived `Serialize` and `Deserialize` of `Subitem8`, src/paragraph.rs 1315-1324. -/
def Subitem8.codec (S : LvlCodec L) : Codec (Subitem8 L) :=
  .struct (
    .field "title" (.option (Text.codec S)) <|
    .field "sentence" (SentenceOrColumnOrTable.codec S) <|
    .field "children" (.list (Subitem9.codec S)) <|
    .field "struct_list" (.list (Struct.codec S)) <|
    .field "num" (.option ArticleNumber.codec) <|
    .field "delete" .bool <|
    .field "hide" .bool <|
    .done)
    (fun x => (x.title, x.sentence, x.children, x.struct_list, x.num, x.delete, x.hide, ()))
    (fun (title, sentence, children, struct_list, num, delete, hide, _) =>
      { title := title, sentence := sentence, children := children, struct_list := struct_list
        num := num, delete := delete, hide := hide })

/-- Derived `Serialize` and `Deserialize` of `Subitem7`, src/paragraph.rs 1171-1180. -/
def Subitem7.codec (S : LvlCodec L) : Codec (Subitem7 L) :=
  .struct (
    .field "title" (.option (Text.codec S)) <|
    .field "sentence" (SentenceOrColumnOrTable.codec S) <|
    .field "children" (.list (Subitem8.codec S)) <|
    .field "struct_list" (.list (Struct.codec S)) <|
    .field "num" (.option ArticleNumber.codec) <|
    .field "delete" .bool <|
    .field "hide" .bool <|
    .done)
    (fun x => (x.title, x.sentence, x.children, x.struct_list, x.num, x.delete, x.hide, ()))
    (fun (title, sentence, children, struct_list, num, delete, hide, _) =>
      { title := title, sentence := sentence, children := children, struct_list := struct_list
        num := num, delete := delete, hide := hide })

/-- Derived `Serialize` and `Deserialize` of `Subitem6`, src/paragraph.rs 1027-1036. -/
def Subitem6.codec (S : LvlCodec L) : Codec (Subitem6 L) :=
  .struct (
    .field "title" (.option (Text.codec S)) <|
    .field "sentence" (SentenceOrColumnOrTable.codec S) <|
    .field "children" (.list (Subitem7.codec S)) <|
    .field "struct_list" (.list (Struct.codec S)) <|
    .field "num" (.option ArticleNumber.codec) <|
    .field "delete" .bool <|
    .field "hide" .bool <|
    .done)
    (fun x => (x.title, x.sentence, x.children, x.struct_list, x.num, x.delete, x.hide, ()))
    (fun (title, sentence, children, struct_list, num, delete, hide, _) =>
      { title := title, sentence := sentence, children := children, struct_list := struct_list
        num := num, delete := delete, hide := hide })

/-- Derived `Serialize` and `Deserialize` of `Subitem5`, src/paragraph.rs 883-892. -/
def Subitem5.codec (S : LvlCodec L) : Codec (Subitem5 L) :=
  .struct (
    .field "title" (.option (Text.codec S)) <|
    .field "sentence" (SentenceOrColumnOrTable.codec S) <|
    .field "children" (.list (Subitem6.codec S)) <|
    .field "struct_list" (.list (Struct.codec S)) <|
    .field "num" (.option ArticleNumber.codec) <|
    .field "delete" .bool <|
    .field "hide" .bool <|
    .done)
    (fun x => (x.title, x.sentence, x.children, x.struct_list, x.num, x.delete, x.hide, ()))
    (fun (title, sentence, children, struct_list, num, delete, hide, _) =>
      { title := title, sentence := sentence, children := children, struct_list := struct_list
        num := num, delete := delete, hide := hide })

/-- Derived `Serialize` and `Deserialize` of `Subitem4`, src/paragraph.rs 739-748. -/
def Subitem4.codec (S : LvlCodec L) : Codec (Subitem4 L) :=
  .struct (
    .field "title" (.option (Text.codec S)) <|
    .field "sentence" (SentenceOrColumnOrTable.codec S) <|
    .field "children" (.list (Subitem5.codec S)) <|
    .field "struct_list" (.list (Struct.codec S)) <|
    .field "num" (.option ArticleNumber.codec) <|
    .field "delete" .bool <|
    .field "hide" .bool <|
    .done)
    (fun x => (x.title, x.sentence, x.children, x.struct_list, x.num, x.delete, x.hide, ()))
    (fun (title, sentence, children, struct_list, num, delete, hide, _) =>
      { title := title, sentence := sentence, children := children, struct_list := struct_list
        num := num, delete := delete, hide := hide })

/-- Derived `Serialize` and `Deserialize` of `Subitem3`, src/paragraph.rs 595-604. -/
def Subitem3.codec (S : LvlCodec L) : Codec (Subitem3 L) :=
  .struct (
    .field "title" (.option (Text.codec S)) <|
    .field "sentence" (SentenceOrColumnOrTable.codec S) <|
    .field "children" (.list (Subitem4.codec S)) <|
    .field "struct_list" (.list (Struct.codec S)) <|
    .field "num" (.option ArticleNumber.codec) <|
    .field "delete" .bool <|
    .field "hide" .bool <|
    .done)
    (fun x => (x.title, x.sentence, x.children, x.struct_list, x.num, x.delete, x.hide, ()))
    (fun (title, sentence, children, struct_list, num, delete, hide, _) =>
      { title := title, sentence := sentence, children := children, struct_list := struct_list
        num := num, delete := delete, hide := hide })

/-- Derived `Serialize` and `Deserialize` of `Subitem2`, src/paragraph.rs 451-460. -/
def Subitem2.codec (S : LvlCodec L) : Codec (Subitem2 L) :=
  .struct (
    .field "title" (.option (Text.codec S)) <|
    .field "sentence" (SentenceOrColumnOrTable.codec S) <|
    .field "children" (.list (Subitem3.codec S)) <|
    .field "struct_list" (.list (Struct.codec S)) <|
    .field "num" (.option ArticleNumber.codec) <|
    .field "delete" .bool <|
    .field "hide" .bool <|
    .done)
    (fun x => (x.title, x.sentence, x.children, x.struct_list, x.num, x.delete, x.hide, ()))
    (fun (title, sentence, children, struct_list, num, delete, hide, _) =>
      { title := title, sentence := sentence, children := children, struct_list := struct_list
        num := num, delete := delete, hide := hide })

/-- Derived `Serialize` and `Deserialize` of `Subitem1`, src/paragraph.rs 307-316. -/
def Subitem1.codec (S : LvlCodec L) : Codec (Subitem1 L) :=
  .struct (
    .field "title" (.option (Text.codec S)) <|
    .field "sentence" (SentenceOrColumnOrTable.codec S) <|
    .field "children" (.list (Subitem2.codec S)) <|
    .field "struct_list" (.list (Struct.codec S)) <|
    .field "num" (.option ArticleNumber.codec) <|
    .field "delete" .bool <|
    .field "hide" .bool <|
    .done)
    (fun x => (x.title, x.sentence, x.children, x.struct_list, x.num, x.delete, x.hide, ()))
    (fun (title, sentence, children, struct_list, num, delete, hide, _) =>
      { title := title, sentence := sentence, children := children, struct_list := struct_list
        num := num, delete := delete, hide := hide })

/-- Derived `Serialize` and `Deserialize` of `Item`, src/paragraph.rs 163-172. -/
def Item.codec (S : LvlCodec L) : Codec (Item L) :=
  .struct (
    .field "title" (.option (Text.codec S)) <|
    .field "sentence" (SentenceOrColumnOrTable.codec S) <|
    .field "children" (.list (Subitem1.codec S)) <|
    .field "struct_list" (.list (Struct.codec S)) <|
    .field "num" (.option ArticleNumber.codec) <|
    .field "delete" .bool <|
    .field "hide" .bool <|
    .done)
    (fun x => (x.title, x.sentence, x.children, x.struct_list, x.num, x.delete, x.hide, ()))
    (fun (title, sentence, children, struct_list, num, delete, hide, _) =>
      { title := title, sentence := sentence, children := children, struct_list := struct_list
        num := num, delete := delete, hide := hide })

/-- Derived `Serialize` and `Deserialize` of `AppdxTableContents`, src/appdx.rs 98-102. -/
def AppdxTableContents.codec (S : LvlCodec L) : Codec (AppdxTableContents L) :=
  .enum (
    .newtype "TableStruct" (TableStruct.codec S) <|
    .newtype "Item" (Item.codec S) <|
    .done)
    (fun
      | .tableStruct v => .inl v
      | .item v => .inr (.inl v))
    (fun
      | .inl v => .tableStruct v
      | .inr (.inl v) => .item v)

/-- Derived `Serialize` and `Deserialize` of `AppdxTable`, src/appdx.rs 15-22. -/
def AppdxTable.codec (S : LvlCodec L) : Codec (AppdxTable L) :=
  .struct (
    .field "title" (.option (TextWithWritingMode.codec S)) <|
    .field "related_article_num" (.option (Text.codec S)) <|
    .field "children" (.list (AppdxTableContents.codec S)) <|
    .field "remarks" (.option (Remarks.codec S)) <|
    .field "num" (.option .str) <|
    .done)
    (fun x => (x.title, x.related_article_num, x.children, x.remarks, x.num, ()))
    (fun (title, related_article_num, children, remarks, num, _) =>
      { title := title, related_article_num := related_article_num, children := children
        remarks := remarks, num := num })

/-- Derived `Serialize` and `Deserialize` of `Note`, src/contents.rs 264-267. -/
def Note.codec (S : LvlCodec L) : Codec (Note L) :=
  .struct (
    .field "contentes" S.contents <|
    .done)
    (fun x => (x.contentes, ()))
    (fun (contentes, _) => { contentes := contentes })

/-- Derived `Serialize` and `Deserialize` of `NoteStruct`, src/structs.rs 64-70. -/
def NoteStruct.codec (S : LvlCodec L) : Codec (NoteStruct L) :=
  .struct (
    .field "title" (.option (Text.codec S)) <|
    .field "title_remarks" (.list (Remarks.codec S)) <|
    .field "note" (Note.codec S) <|
    .field "note_remarks" (.list (Remarks.codec S)) <|
    .done)
    (fun x => (x.title, x.title_remarks, x.body, x.body_remarks, ()))
    (fun (title, title_remarks, body, body_remarks, _) =>
      { title := title, title_remarks := title_remarks, body := body
        body_remarks := body_remarks })

/-- Derived `Serialize` and `Deserialize` of `AppdxNoteContents`, src/appdx.rs 192-197. -/
def AppdxNoteContents.codec (S : LvlCodec L) : Codec (AppdxNoteContents L) :=
  .enum (
    .newtype "NoteStruct" (NoteStruct.codec S) <|
    .newtype "FigStruct" (FigStruct.codec S) <|
    .newtype "TableStruct" (TableStruct.codec S) <|
    .done)
    (fun
      | .noteStruct v => .inl v
      | .figStruct v => .inr (.inl v)
      | .tableStruct v => .inr (.inr (.inl v)))
    (fun
      | .inl v => .noteStruct v
      | .inr (.inl v) => .figStruct v
      | .inr (.inr (.inl v)) => .tableStruct v)

/-- Derived `Serialize` and `Deserialize` of `AppdxNote`, src/appdx.rs 104-111. -/
def AppdxNote.codec (S : LvlCodec L) : Codec (AppdxNote L) :=
  .struct (
    .field "title" (.option (TextWithWritingMode.codec S)) <|
    .field "related_article_num" (.option (Text.codec S)) <|
    .field "children" (.list (AppdxNoteContents.codec S)) <|
    .field "remarks" (.option (Remarks.codec S)) <|
    .field "num" (.option .str) <|
    .done)
    (fun x => (x.title, x.related_article_num, x.children, x.remarks, x.num, ()))
    (fun (title, related_article_num, children, remarks, num, _) =>
      { title := title, related_article_num := related_article_num, children := children
        remarks := remarks, num := num })

/-- Derived `Serialize` and `Deserialize` of `AppdxStyle`, src/appdx.rs 199-206. -/
def AppdxStyle.codec (S : LvlCodec L) : Codec (AppdxStyle L) :=
  .struct (
    .field "title" (.option (TextWithWritingMode.codec S)) <|
    .field "related_article_num" (.option (Text.codec S)) <|
    .field "children" (.list (StyleStruct.codec S)) <|
    .field "remarks" (.option (Remarks.codec S)) <|
    .field "num" (.option .str) <|
    .done)
    (fun x => (x.title, x.related_article_num, x.children, x.remarks, x.num, ()))
    (fun (title, related_article_num, children, remarks, num, _) =>
      { title := title, related_article_num := related_article_num, children := children
        remarks := remarks, num := num })

/-- Derived `Serialize` and `Deserialize` of `Format`, src/contents.rs 282-285. -/
def Format.codec (S : LvlCodec L) : Codec (Format L) :=
  .struct (
    .field "contentes" S.contents <|
    .done)
    (fun x => (x.contentes, ()))
    (fun (contentes, _) => { contentes := contentes })

/-- Derived `Serialize` and `Deserialize` of `FormatStruct`, src/structs.rs 216-222. -/
def FormatStruct.codec (S : LvlCodec L) : Codec (FormatStruct L) :=
  .struct (
    .field "title" (.option (Text.codec S)) <|
    .field "title_remarks" (.list (Remarks.codec S)) <|
    .field "format" (Format.codec S) <|
    .field "format_remarks" (.list (Remarks.codec S)) <|
    .done)
    (fun x => (x.title, x.title_remarks, x.body, x.body_remarks, ()))
    (fun (title, title_remarks, body, body_remarks, _) =>
      { title := title, title_remarks := title_remarks, body := body
        body_remarks := body_remarks })

/-- Derived `Serialize` and `Deserialize` of `AppdxFormat`, src/appdx.rs 275-282. -/
def AppdxFormat.codec (S : LvlCodec L) : Codec (AppdxFormat L) :=
  .struct (
    .field "title" (.option (TextWithWritingMode.codec S)) <|
    .field "related_article_num" (.option (Text.codec S)) <|
    .field "children" (.list (FormatStruct.codec S)) <|
    .field "remarks" (.option (Remarks.codec S)) <|
    .field "num" (.option .str) <|
    .done)
    (fun x => (x.title, x.related_article_num, x.children, x.remarks, x.num, ()))
    (fun (title, related_article_num, children, remarks, num, _) =>
      { title := title, related_article_num := related_article_num, children := children
        remarks := remarks, num := num })

/-- Derived `Serialize` and `Deserialize` of `Appdx`, src/appdx.rs 350-356. -/
def Appdx.codec (S : LvlCodec L) : Codec (Appdx L) :=
  .struct (
    .field "arith_formula_num" (.option (Text.codec S)) <|
    .field "related_article_num" (.option (Text.codec S)) <|
    .field "arith_formula" (.list (ArithFormula.codec S)) <|
    .field "remarks" (.option (Remarks.codec S)) <|
    .done)
    (fun x => (x.arith_formula_num, x.related_article_num, x.arith_formula, x.remarks, ()))
    (fun (arith_formula_num, related_article_num, arith_formula, remarks, _) =>
      { arith_formula_num := arith_formula_num, related_article_num := related_article_num
        arith_formula := arith_formula, remarks := remarks })

/-- Derived `Serialize` and `Deserialize` of `AppdxFigContents`, src/appdx.rs 489-493. -/
def AppdxFigContents.codec (S : LvlCodec L) : Codec (AppdxFigContents L) :=
  .enum (
    .newtype "FigStruct" (FigStruct.codec S) <|
    .newtype "TableStruct" (TableStruct.codec S) <|
    .done)
    (fun
      | .figStruct v => .inl v
      | .tableStruct v => .inr (.inl v))
    (fun
      | .inl v => .figStruct v
      | .inr (.inl v) => .tableStruct v)

/-- Derived `Serialize` and `Deserialize` of `AppdxFig`, src/appdx.rs 417-423. -/
def AppdxFig.codec (S : LvlCodec L) : Codec (AppdxFig L) :=
  .struct (
    .field "title" (.option (TextWithWritingMode.codec S)) <|
    .field "related_article_num" (.option (Text.codec S)) <|
    .field "children" (.list (AppdxFigContents.codec S)) <|
    .field "num" (.option .str) <|
    .done)
    (fun x => (x.title, x.related_article_num, x.children, x.num, ()))
    (fun (title, related_article_num, children, num, _) =>
      { title := title, related_article_num := related_article_num, children := children
        num := num })

/-- Derived `Serialize` and `Deserialize` of `Caption`, src/class.rs 154-158. -/
def Caption.codec (S : LvlCodec L) : Codec (Caption L) :=
  .struct (
    .field "text" (Text.codec S) <|
    .field "common_caption" (.option .bool) <|
    .done)
    (fun x => (x.text, x.common_caption, ()))
    (fun (text, common_caption, _) => { text := text, common_caption := common_caption })

/-- Derived `Serialize` and `Deserialize` of `Class`, src/class.rs 15-21. -/
def Class.codec (S : LvlCodec L) : Codec (Class L) :=
  .struct (
    .field "class_title" (.option (Text.codec S)) <|
    .field "class_sentence" (SentenceOrColumnOrTable.codec S) <|
    .field "children" (.list (Item.codec S)) <|
    .field "num" .str <|
    .done)
    (fun x => (x.class_title, x.class_sentence, x.children, x.num, ()))
    (fun (class_title, class_sentence, children, num, _) =>
      { class_title := class_title, class_sentence := class_sentence, children := children
        num := num })

/-- Derived `Serialize` and `Deserialize` of `Paragraph`, src/paragraph.rs 17-30. -/
def Paragraph.codec (S : LvlCodec L) : Codec (Paragraph L) :=
  .struct (
    .field "caption" (.option (Caption.codec S)) <|
    .field "paragraph_num" (Text.codec S) <|
    .field "amend_provision" (.list S.amendProvision) <|
    .field "class" (.list (Class.codec S)) <|
    .field "sentence" (.list (Sentence.codec S)) <|
    .field "struct_list" (.list (Struct.codec S)) <|
    .field "children" (.list (Item.codec S)) <|
    .field "num" ArticleNumber.codec <|
    .field "old_style" .bool <|
    .field "old_num" .bool <|
    .field "hide" .bool <|
    .done)
    (fun x => (x.caption, x.paragraph_num, x.amend_provision, x.class_, x.sentence, x.struct_list,
    x.children, x.num, x.old_style, x.old_num, x.hide, ()))
    (fun (caption, paragraph_num, amend_provision, class_, sentence, struct_list, children, num,
    old_style, old_num, hide, _) =>
      { caption := caption, paragraph_num := paragraph_num, amend_provision := amend_provision
        class_ := class_, sentence := sentence, struct_list := struct_list
        children := children, num := num, old_style := old_style, old_num := old_num
        hide := hide })

/-- Derived `Serialize` and `Deserialize` of `Article`, src/article.rs 600-609. -/
def Article.codec (S : LvlCodec L) : Codec (Article L) :=
  .struct (
    .field "caption" (.option (Caption.codec S)) <|
    .field "title" (Text.codec S) <|
    .field "paragraph" (.list (Paragraph.codec S)) <|
    .field "suppl_note" (.option (Text.codec S)) <|
    .field "num" ArticleNumber.codec <|
    .field "delete" .bool <|
    .field "hide" .bool <|
    .done)
    (fun x => (x.caption, x.title, x.paragraph, x.suppl_note, x.num, x.delete, x.hide, ()))
    (fun (caption, title, paragraph, suppl_note, num, delete, hide, _) =>
      { caption := caption, title := title, paragraph := paragraph, suppl_note := suppl_note
        num := num, delete := delete, hide := hide })

/-- Derived `Serialize` and `Deserialize` of `Division`, src/article.rs 497-504. -/
def Division.codec (S : LvlCodec L) : Codec (Division L) :=
  .struct (
    .field "division_title" (Text.codec S) <|
    .field "children" (.list (Article.codec S)) <|
    .field "num" ArticleNumber.codec <|
    .field "delete" .bool <|
    .field "hide" .bool <|
    .done)
    (fun x => (x.title, x.children, x.num, x.delete, x.hide, ()))
    (fun (title, children, num, delete, hide, _) =>
      { title := title, children := children, num := num, delete := delete, hide := hide })

/-- Derived `Serialize` and `Deserialize` of `SubsectionContents`, src/article.rs 490-494. -/
def SubsectionContents.codec (S : LvlCodec L) : Codec (SubsectionContents L) :=
  .enum (
    .newtype "Article" (Article.codec S) <|
    .newtype "Division" (Division.codec S) <|
    .done)
    (fun
      | .article v => .inl v
      | .division v => .inr (.inl v))
    (fun
      | .inl v => .article v
      | .inr (.inl v) => .division v)

/-- Derived `Serialize` and `Deserialize` of `Subsection`, src/article.rs 377-384. -/
def Subsection.codec (S : LvlCodec L) : Codec (Subsection L) :=
  .struct (
    .field "subsection_title" (Text.codec S) <|
    .field "children" (.list (SubsectionContents.codec S)) <|
    .field "num" ArticleNumber.codec <|
    .field "delete" .bool <|
    .field "hide" .bool <|
    .done)
    (fun x => (x.title, x.children, x.num, x.delete, x.hide, ()))
    (fun (title, children, num, delete, hide, _) =>
      { title := title, children := children, num := num, delete := delete, hide := hide })

/-- Derived `Serialize` and `Deserialize` of `SectionContents`, src/article.rs 369-374. -/
def SectionContents.codec (S : LvlCodec L) : Codec (SectionContents L) :=
  .enum (
    .newtype "Article" (Article.codec S) <|
    .newtype "Subsection" (Subsection.codec S) <|
    .newtype "Division" (Division.codec S) <|
    .done)
    (fun
      | .article v => .inl v
      | .subsection v => .inr (.inl v)
      | .division v => .inr (.inr (.inl v)))
    (fun
      | .inl v => .article v
      | .inr (.inl v) => .subsection v
      | .inr (.inr (.inl v)) => .division v)

/-- Derived `Serialize` and `Deserialize` of `Section`, src/article.rs 251-258. -/
def Section.codec (S : LvlCodec L) : Codec (Section L) :=
  .struct (
    .field "section_title" (Text.codec S) <|
    .field "children" (.list (SectionContents.codec S)) <|
    .field "num" ArticleNumber.codec <|
    .field "delete" .bool <|
    .field "hide" .bool <|
    .done)
    (fun x => (x.title, x.children, x.num, x.delete, x.hide, ()))
    (fun (title, children, num, delete, hide, _) =>
      { title := title, children := children, num := num, delete := delete, hide := hide })

/-- Derived `Serialize` and `Deserialize` of `ChapterContents`, src/article.rs 244-248. -/
def ChapterContents.codec (S : LvlCodec L) : Codec (ChapterContents L) :=
  .enum (
    .newtype "Article" (Article.codec S) <|
    .newtype "Section" (Section.codec S) <|
    .done)
    (fun
      | .article v => .inl v
      | .section_ v => .inr (.inl v))
    (fun
      | .inl v => .article v
      | .inr (.inl v) => .section_ v)

/-- Derived `Serialize` and `Deserialize` of `Chapter`, src/article.rs 133-140. -/
def Chapter.codec (S : LvlCodec L) : Codec (Chapter L) :=
  .struct (
    .field "chapter_title" (Text.codec S) <|
    .field "children" (.list (ChapterContents.codec S)) <|
    .field "num" ArticleNumber.codec <|
    .field "delete" .bool <|
    .field "hide" .bool <|
    .done)
    (fun x => (x.title, x.children, x.num, x.delete, x.hide, ()))
    (fun (title, children, num, delete, hide, _) =>
      { title := title, children := children, num := num, delete := delete, hide := hide })

/-- Derived `Serialize` and `Deserialize` of `PartContents`, src/article.rs 126-130. -/
def PartContents.codec (S : LvlCodec L) : Codec (PartContents L) :=
  .enum (
    .newtype "Article" (Article.codec S) <|
    .newtype "Chapter" (Chapter.codec S) <|
    .done)
    (fun
      | .article v => .inl v
      | .chapter v => .inr (.inl v))
    (fun
      | .inl v => .article v
      | .inr (.inl v) => .chapter v)

/-- Derived `Serialize` and `Deserialize` of `Part`, src/article.rs 15-22. -/
def Part.codec (S : LvlCodec L) : Codec (Part L) :=
  .struct (
    .field "part_title" (Text.codec S) <|
    .field "children" (.list (PartContents.codec S)) <|
    .field "num" ArticleNumber.codec <|
    .field "delete" .bool <|
    .field "hide" .bool <|
    .done)
    (fun x => (x.title, x.children, x.num, x.delete, x.hide, ()))
    (fun (title, children, num, delete, hide, _) =>
      { title := title, children := children, num := num, delete := delete, hide := hide })

/-- Derived `Serialize` and `Deserialize` of `ItemPattern`, src/article_number.rs 332-366. -/
def ItemPattern.codec : Codec (ItemPattern) :=
  .enum (
    .unit "NoParenKansuji" <|
    .unit "NoParenIrohaKatakana" <|
    .unit "NoParenIrohaHiragana" <|
    .unit "NoParenZenkakuNum" <|
    .unit "NoParenZenkakuRomanUpper" <|
    .unit "NoParenZenkakuRomanLower" <|
    .unit "NoParenZenkakuUpper" <|
    .unit "NoParenZenkakuLower" <|
    .unit "ParenKansuji" <|
    .unit "ParenIrohaKatakana" <|
    .unit "ParenIrohaHiragana" <|
    .unit "ParenZenkakuNum" <|
    .unit "ParenZenkakuRomanUpper" <|
    .unit "ParenZenkakuRomanLower" <|
    .unit "ParenZenkakuUpper" <|
    .unit "ParenZenkakuLower" <|
    .done)
    (fun
      | .noParenKansuji => .inl ()
      | .noParenIrohaKatakana => .inr (.inl ())
      | .noParenIrohaHiragana => .inr (.inr (.inl ()))
      | .noParenZenkakuNum => .inr (.inr (.inr (.inl ())))
      | .noParenZenkakuRomanUpper => .inr (.inr (.inr (.inr (.inl ()))))
      | .noParenZenkakuRomanLower => .inr (.inr (.inr (.inr (.inr (.inl ())))))
      | .noParenZenkakuUpper => .inr (.inr (.inr (.inr (.inr (.inr (.inl ()))))))
      | .noParenZenkakuLower => .inr (.inr (.inr (.inr (.inr (.inr (.inr (.inl ())))))))
      | .parenKansuji => .inr (.inr (.inr (.inr (.inr (.inr (.inr (.inr (.inl ()))))))))
      | .parenIrohaKatakana => .inr (.inr (.inr (.inr (.inr (.inr (.inr (.inr (.inr (.inl ())))))))))
      | .parenIrohaHiragana => .inr (.inr (.inr (.inr (.inr (.inr (.inr (.inr (.inr (.inr (.inl ()))))))))))
      | .parenZenkakuNum => .inr (.inr (.inr (.inr (.inr (.inr (.inr (.inr (.inr (.inr (.inr (.inl ())))))))))))
      | .parenZenkakuRomanUpper => .inr (.inr (.inr (.inr (.inr (.inr (.inr (.inr (.inr (.inr (.inr (.inr (.inl ()))))))))))))
      | .parenZenkakuRomanLower => .inr (.inr (.inr (.inr (.inr (.inr (.inr (.inr (.inr (.inr (.inr (.inr (.inr (.inl ())))))))))))))
      | .parenZenkakuUpper => .inr (.inr (.inr (.inr (.inr (.inr (.inr (.inr (.inr (.inr (.inr (.inr (.inr (.inr (.inl ()))))))))))))))
      | .parenZenkakuLower => .inr (.inr (.inr (.inr (.inr (.inr (.inr (.inr (.inr (.inr (.inr (.inr (.inr (.inr (.inr (.inl ()))))))))))))))))
    (fun
      | .inl _ => .noParenKansuji
      | .inr (.inl _) => .noParenIrohaKatakana
      | .inr (.inr (.inl _)) => .noParenIrohaHiragana
      | .inr (.inr (.inr (.inl _))) => .noParenZenkakuNum
      | .inr (.inr (.inr (.inr (.inl _)))) => .noParenZenkakuRomanUpper
      | .inr (.inr (.inr (.inr (.inr (.inl _))))) => .noParenZenkakuRomanLower
      | .inr (.inr (.inr (.inr (.inr (.inr (.inl _)))))) => .noParenZenkakuUpper
      | .inr (.inr (.inr (.inr (.inr (.inr (.inr (.inl _))))))) => .noParenZenkakuLower
      | .inr (.inr (.inr (.inr (.inr (.inr (.inr (.inr (.inl _)))))))) => .parenKansuji
      | .inr (.inr (.inr (.inr (.inr (.inr (.inr (.inr (.inr (.inl _))))))))) => .parenIrohaKatakana
      | .inr (.inr (.inr (.inr (.inr (.inr (.inr (.inr (.inr (.inr (.inl _)))))))))) => .parenIrohaHiragana
      | .inr (.inr (.inr (.inr (.inr (.inr (.inr (.inr (.inr (.inr (.inr (.inl _))))))))))) => .parenZenkakuNum
      | .inr (.inr (.inr (.inr (.inr (.inr (.inr (.inr (.inr (.inr (.inr (.inr (.inl _)))))))))))) => .parenZenkakuRomanUpper
      | .inr (.inr (.inr (.inr (.inr (.inr (.inr (.inr (.inr (.inr (.inr (.inr (.inr (.inl _))))))))))))) => .parenZenkakuRomanLower
      | .inr (.inr (.inr (.inr (.inr (.inr (.inr (.inr (.inr (.inr (.inr (.inr (.inr (.inr (.inl _)))))))))))))) => .parenZenkakuUpper
      | .inr (.inr (.inr (.inr (.inr (.inr (.inr (.inr (.inr (.inr (.inr (.inr (.inr (.inr (.inr (.inl _))))))))))))))) => .parenZenkakuLower)

/-- Derived `Serialize` and `Deserialize` of `ItemNumber`, src/article_number.rs 319-329. -/
def ItemNumber.codec : Codec (ItemNumber) :=
  .struct (
    .field "str" .str <|
    .field "base_number" .usize <|
    .field "eda_numbers" (.list .usize) <|
    .field "range_end_numbers" (.list .usize) <|
    .field "pattern" ItemPattern.codec <|
    .done)
    (fun x => (String.ofList x.str, x.base_number, x.eda_numbers, x.range_end_numbers, x.pattern,
    ()))
    (fun (str, base_number, eda_numbers, range_end_numbers, pattern, _) =>
      { str := str.toList, base_number := base_number, eda_numbers := eda_numbers
        range_end_numbers := range_end_numbers, pattern := pattern })

/-- Derived `Serialize` and `Deserialize` of `TOCDivision`, src/table_of_contents.rs 452-462. -/
def TOCDivision.codec (S : LvlCodec L) : Codec (TOCDivision L) :=
  .struct (
    .field "division_title" (Text.codec S) <|
    .field "article_range" (.option (Text.codec S)) <|
    .field "num" ArticleNumber.codec <|
    .field "delete" .bool <|
    .done)
    (fun x => (x.title, x.article_range, x.num, x.delete, ()))
    (fun (title, article_range, num, delete, _) =>
      { title := title, article_range := article_range, num := num, delete := delete
        children := [] })

/-- Derived `Serialize` and `Deserialize` of `TOCSubsection`, src/table_of_contents.rs 374-386. -/
def TOCSubsection.codec (S : LvlCodec L) : Codec (TOCSubsection L) :=
  .struct (
    .field "subsection_title" (Text.codec S) <|
    .field "article_range" (.option (Text.codec S)) <|
    .field "num" ArticleNumber.codec <|
    .field "delete" .bool <|
    .field "children" (.list (TOCDivision.codec S)) <|
    .done)
    (fun x => (x.title, x.article_range, x.num, x.delete, x.children, ()))
    (fun (title, article_range, num, delete, children, _) =>
      { title := title, article_range := article_range, num := num, delete := delete
        children := children })

/-- Derived `Serialize` and `Deserialize` of `TOCSectionContents`, src/table_of_contents.rs 365-371. -/
def TOCSectionContents.codec (S : LvlCodec L) : Codec (TOCSectionContents L) :=
  .enum (
    .newtype "TOCSubsection" (TOCSubsection.codec S) <|
    .newtype "TOCDivision" (TOCDivision.codec S) <|
    .done)
    (fun
      | .tocSubsection v => .inl v
      | .tocDivision v => .inr (.inl v))
    (fun
      | .inl v => .tocSubsection v
      | .inr (.inl v) => .tocDivision v)

/-- Derived `Serialize` and `Deserialize` of `TOCSection`, src/table_of_contents.rs 280-292. -/
def TOCSection.codec (S : LvlCodec L) : Codec (TOCSection L) :=
  .struct (
    .field "section_title" (Text.codec S) <|
    .field "article_range" (.option (Text.codec S)) <|
    .field "num" ArticleNumber.codec <|
    .field "delete" .bool <|
    .field "children" (.list (TOCSectionContents.codec S)) <|
    .done)
    (fun x => (x.title, x.article_range, x.num, x.delete, x.children, ()))
    (fun (title, article_range, num, delete, children, _) =>
      { title := title, article_range := article_range, num := num, delete := delete
        children := children })

/-- Derived `Serialize` and `Deserialize` of `TOCChapter`, src/table_of_contents.rs 204-216. -/
def TOCChapter.codec (S : LvlCodec L) : Codec (TOCChapter L) :=
  .struct (
    .field "chapter_title" (Text.codec S) <|
    .field "article_range" (.option (Text.codec S)) <|
    .field "num" ArticleNumber.codec <|
    .field "delete" .bool <|
    .field "children" (.list (TOCSection.codec S)) <|
    .done)
    (fun x => (x.title, x.article_range, x.num, x.delete, x.children, ()))
    (fun (title, article_range, num, delete, children, _) =>
      { title := title, article_range := article_range, num := num, delete := delete
        children := children })

/-- Derived `Serialize` and `Deserialize` of `TOCPart`, src/table_of_contents.rs 128-140. -/
def TOCPart.codec (S : LvlCodec L) : Codec (TOCPart L) :=
  .struct (
    .field "part_title" (Text.codec S) <|
    .field "article_range" (.option (Text.codec S)) <|
    .field "num" ArticleNumber.codec <|
    .field "delete" .bool <|
    .field "children" (.list (TOCChapter.codec S)) <|
    .done)
    (fun x => (x.title, x.article_range, x.num, x.delete, x.children, ()))
    (fun (title, article_range, num, delete, children, _) =>
      { title := title, article_range := article_range, num := num, delete := delete
        children := children })

/-- Derived `Serialize` and `Deserialize` of `TOCArticle`, src/table_of_contents.rs 519-529. -/
def TOCArticle.codec (S : LvlCodec L) : Codec (TOCArticle L) :=
  .struct (
    .field "article_title" (Text.codec S) <|
    .field "article_caption" (Caption.codec S) <|
    .field "num" ArticleNumber.codec <|
    .field "delete" .bool <|
    .done)
    (fun x => (x.article_title, x.article_caption, x.num, x.delete, ()))
    (fun (article_title, article_caption, num, delete, _) =>
      { article_title := article_title, article_caption := article_caption, num := num
        delete := delete })

/-- Derived `Serialize` and `Deserialize` of `TOCMainContents`, src/table_of_contents.rs 115-125. -/
def TOCMainContents.codec (S : LvlCodec L) : Codec (TOCMainContents L) :=
  .enum (
    .newtype "TOCPart" (TOCPart.codec S) <|
    .newtype "TOCChapter" (TOCChapter.codec S) <|
    .newtype "TOCSection" (TOCSection.codec S) <|
    .newtype "TOCArticle" (TOCArticle.codec S) <|
    .done)
    (fun
      | .tocPart v => .inl v
      | .tocChapter v => .inr (.inl v)
      | .tocSection v => .inr (.inr (.inl v))
      | .tocArticle v => .inr (.inr (.inr (.inl v))))
    (fun
      | .inl v => .tocPart v
      | .inr (.inl v) => .tocChapter v
      | .inr (.inr (.inl v)) => .tocSection v
      | .inr (.inr (.inr (.inl v))) => .tocArticle v)

/-- Derived `Serialize` and `Deserialize` of `TOCSupplProvisionContents`, src/table_of_contents.rs 667-673. -/
def TOCSupplProvisionContents.codec (S : LvlCodec L) : Codec (TOCSupplProvisionContents L) :=
  .enum (
    .newtype "TOCArticle" (TOCArticle.codec S) <|
    .newtype "TOCChapter" (TOCChapter.codec S) <|
    .done)
    (fun
      | .tocArticle v => .inl v
      | .tocChapter v => .inr (.inl v))
    (fun
      | .inl v => .tocArticle v
      | .inr (.inl v) => .tocChapter v)

/-- Derived `Serialize` and `Deserialize` of `TOCSupplProvision`, src/table_of_contents.rs 591-599. -/
def TOCSupplProvision.codec (S : LvlCodec L) : Codec (TOCSupplProvision L) :=
  .struct (
    .field "suppl_provision_label" (Text.codec S) <|
    .field "article_range" (.option (Text.codec S)) <|
    .field "children" (.list (TOCSupplProvisionContents.codec S)) <|
    .done)
    (fun x => (x.suppl_provision_label, x.article_range, x.children, ()))
    (fun (suppl_provision_label, article_range, children, _) =>
      { suppl_provision_label := suppl_provision_label, article_range := article_range
        children := children })

/-- Derived `Serialize` and `Deserialize` of `TOC`, src/table_of_contents.rs 13-25. -/
def TOC.codec (S : LvlCodec L) : Codec (TOC L) :=
  .struct (
    .field "toc_label" (.option (Text.codec S)) <|
    .field "toc_preamble_label" (.option (Text.codec S)) <|
    .field "toc_main_contents" (.list (TOCMainContents.codec S)) <|
    .field "toc_suppl_provision" (.option (TOCSupplProvision.codec S)) <|
    .field "toc_appdx_table_label" (.list (Text.codec S)) <|
    .done)
    (fun x => (x.toc_label, x.toc_preamble_label, x.toc_main_contents, x.toc_suppl_provision,
    x.toc_appdx_table_label, ()))
    (fun (toc_label, toc_preamble_label, toc_main_contents, toc_suppl_provision,
    toc_appdx_table_label, _) =>
      { toc_label := toc_label, toc_preamble_label := toc_preamble_label
        toc_main_contents := toc_main_contents, toc_suppl_provision := toc_suppl_provision
        toc_appdx_table_label := toc_appdx_table_label })

/-- Derived `Serialize` and `Deserialize` of `ContentsElement`, src/contents.rs 211-245. -/
def ContentsElement.codec (S : LvlCodec L) : Codec (ContentsElement L) :=
  .enum (
    .newtype "Table" (Table.codec S) <|
    .newtype "TableStruct" (TableStruct.codec S) <|
    .newtype "Fig" Fig.codec <|
    .newtype "FigStruct" (FigStruct.codec S) <|
    .newtype "QuoteStruct" (QuoteStruct.codec S) <|
    .newtype "NoteStruct" (NoteStruct.codec S) <|
    .newtype "StyleStruct" (StyleStruct.codec S) <|
    .newtype "AppdxTable" (AppdxTable.codec S) <|
    .newtype "Ruby" (Ruby.codec S) <|
    .newtype "Line" (Line.codec S) <|
    .newtype "Sup" Sup.codec <|
    .newtype "Sub" Sub.codec <|
    .newtype "String" .str <|
    .newtype "Paragraph" (Paragraph.codec S) <|
    .newtype "Item" (Item.codec S) <|
    .newtype "Subitem1" (Subitem1.codec S) <|
    .newtype "Subitem2" (Subitem2.codec S) <|
    .newtype "Subitem3" (Subitem3.codec S) <|
    .newtype "Subitem4" (Subitem4.codec S) <|
    .newtype "Subitem5" (Subitem5.codec S) <|
    .newtype "Subitem6" (Subitem6.codec S) <|
    .newtype "Subitem7" (Subitem7.codec S) <|
    .newtype "Subitem8" (Subitem8.codec S) <|
    .newtype "Subitem9" (Subitem9.codec S) <|
    .newtype "Subitem10" (Subitem10.codec S) <|
    .newtype "List" (LawList.codec S) <|
    .newtype "Sentence" (Sentence.codec S) <|
    .newtype "ArithFormula" (ArithFormula.codec S) <|
    .newtype "Remarks" (Remarks.codec S) <|
    .newtype "TOC" (TOC.codec S) <|
    .newtype "TOCSection" (TOCSection.codec S) <|
    .newtype "TableRow" (TableRow.codec S) <|
    .done)
    (fun
      | .table v => .inl v
      | .tableStruct v => .inr (.inl v)
      | .fig v => .inr (.inr (.inl v))
      | .figStruct v => .inr (.inr (.inr (.inl v)))
      | .quoteStruct v => .inr (.inr (.inr (.inr (.inl v))))
      | .noteStruct v => .inr (.inr (.inr (.inr (.inr (.inl v)))))
      | .styleStruct v => .inr (.inr (.inr (.inr (.inr (.inr (.inl v))))))
      | .appdxTable v => .inr (.inr (.inr (.inr (.inr (.inr (.inr (.inl v)))))))
      | .ruby v => .inr (.inr (.inr (.inr (.inr (.inr (.inr (.inr (.inl v))))))))
      | .line v => .inr (.inr (.inr (.inr (.inr (.inr (.inr (.inr (.inr (.inl v)))))))))
      | .sup v => .inr (.inr (.inr (.inr (.inr (.inr (.inr (.inr (.inr (.inr (.inl v))))))))))
      | .sub v => .inr (.inr (.inr (.inr (.inr (.inr (.inr (.inr (.inr (.inr (.inr (.inl v)))))))))))
      | .string v => .inr (.inr (.inr (.inr (.inr (.inr (.inr (.inr (.inr (.inr (.inr (.inr (.inl v))))))))))))
      | .paragraph v => .inr (.inr (.inr (.inr (.inr (.inr (.inr (.inr (.inr (.inr (.inr (.inr (.inr (.inl v)))))))))))))
      | .item v => .inr (.inr (.inr (.inr (.inr (.inr (.inr (.inr (.inr (.inr (.inr (.inr (.inr (.inr (.inl v))))))))))))))
      | .subitem1 v => .inr (.inr (.inr (.inr (.inr (.inr (.inr (.inr (.inr (.inr (.inr (.inr (.inr (.inr (.inr (.inl v)))))))))))))))
      | .subitem2 v => .inr (.inr (.inr (.inr (.inr (.inr (.inr (.inr (.inr (.inr (.inr (.inr (.inr (.inr (.inr (.inr (.inl v))))))))))))))))
      | .subitem3 v => .inr (.inr (.inr (.inr (.inr (.inr (.inr (.inr (.inr (.inr (.inr (.inr (.inr (.inr (.inr (.inr (.inr (.inl v)))))))))))))))))
      | .subitem4 v => .inr (.inr (.inr (.inr (.inr (.inr (.inr (.inr (.inr (.inr (.inr (.inr (.inr (.inr (.inr (.inr (.inr (.inr (.inl v))))))))))))))))))
      | .subitem5 v => .inr (.inr (.inr (.inr (.inr (.inr (.inr (.inr (.inr (.inr (.inr (.inr (.inr (.inr (.inr (.inr (.inr (.inr (.inr (.inl v)))))))))))))))))))
      | .subitem6 v => .inr (.inr (.inr (.inr (.inr (.inr (.inr (.inr (.inr (.inr (.inr (.inr (.inr (.inr (.inr (.inr (.inr (.inr (.inr (.inr (.inl v))))))))))))))))))))
      | .subitem7 v => .inr (.inr (.inr (.inr (.inr (.inr (.inr (.inr (.inr (.inr (.inr (.inr (.inr (.inr (.inr (.inr (.inr (.inr (.inr (.inr (.inr (.inl v)))))))))))))))))))))
      | .subitem8 v => .inr (.inr (.inr (.inr (.inr (.inr (.inr (.inr (.inr (.inr (.inr (.inr (.inr (.inr (.inr (.inr (.inr (.inr (.inr (.inr (.inr (.inr (.inl v))))))))))))))))))))))
      | .subitem9 v => .inr (.inr (.inr (.inr (.inr (.inr (.inr (.inr (.inr (.inr (.inr (.inr (.inr (.inr (.inr (.inr (.inr (.inr (.inr (.inr (.inr (.inr (.inr (.inl v)))))))))))))))))))))))
      | .subitem10 v => .inr (.inr (.inr (.inr (.inr (.inr (.inr (.inr (.inr (.inr (.inr (.inr (.inr (.inr (.inr (.inr (.inr (.inr (.inr (.inr (.inr (.inr (.inr (.inr (.inl v))))))))))))))))))))))))
      | .list v => .inr (.inr (.inr (.inr (.inr (.inr (.inr (.inr (.inr (.inr (.inr (.inr (.inr (.inr (.inr (.inr (.inr (.inr (.inr (.inr (.inr (.inr (.inr (.inr (.inr (.inl v)))))))))))))))))))))))))
      | .sentence v => .inr (.inr (.inr (.inr (.inr (.inr (.inr (.inr (.inr (.inr (.inr (.inr (.inr (.inr (.inr (.inr (.inr (.inr (.inr (.inr (.inr (.inr (.inr (.inr (.inr (.inr (.inl v))))))))))))))))))))))))))
      | .arithFormula v => .inr (.inr (.inr (.inr (.inr (.inr (.inr (.inr (.inr (.inr (.inr (.inr (.inr (.inr (.inr (.inr (.inr (.inr (.inr (.inr (.inr (.inr (.inr (.inr (.inr (.inr (.inr (.inl v)))))))))))))))))))))))))))
      | .remarks v => .inr (.inr (.inr (.inr (.inr (.inr (.inr (.inr (.inr (.inr (.inr (.inr (.inr (.inr (.inr (.inr (.inr (.inr (.inr (.inr (.inr (.inr (.inr (.inr (.inr (.inr (.inr (.inr (.inl v))))))))))))))))))))))))))))
      | .toc v => .inr (.inr (.inr (.inr (.inr (.inr (.inr (.inr (.inr (.inr (.inr (.inr (.inr (.inr (.inr (.inr (.inr (.inr (.inr (.inr (.inr (.inr (.inr (.inr (.inr (.inr (.inr (.inr (.inr (.inl v)))))))))))))))))))))))))))))
      | .tocSection v => .inr (.inr (.inr (.inr (.inr (.inr (.inr (.inr (.inr (.inr (.inr (.inr (.inr (.inr (.inr (.inr (.inr (.inr (.inr (.inr (.inr (.inr (.inr (.inr (.inr (.inr (.inr (.inr (.inr (.inr (.inl v))))))))))))))))))))))))))))))
      | .tableRow v => .inr (.inr (.inr (.inr (.inr (.inr (.inr (.inr (.inr (.inr (.inr (.inr (.inr (.inr (.inr (.inr (.inr (.inr (.inr (.inr (.inr (.inr (.inr (.inr (.inr (.inr (.inr (.inr (.inr (.inr (.inr (.inl v))))))))))))))))))))))))))))))))
    (fun
      | .inl v => .table v
      | .inr (.inl v) => .tableStruct v
      | .inr (.inr (.inl v)) => .fig v
      | .inr (.inr (.inr (.inl v))) => .figStruct v
      | .inr (.inr (.inr (.inr (.inl v)))) => .quoteStruct v
      | .inr (.inr (.inr (.inr (.inr (.inl v))))) => .noteStruct v
      | .inr (.inr (.inr (.inr (.inr (.inr (.inl v)))))) => .styleStruct v
      | .inr (.inr (.inr (.inr (.inr (.inr (.inr (.inl v))))))) => .appdxTable v
      | .inr (.inr (.inr (.inr (.inr (.inr (.inr (.inr (.inl v)))))))) => .ruby v
      | .inr (.inr (.inr (.inr (.inr (.inr (.inr (.inr (.inr (.inl v))))))))) => .line v
      | .inr (.inr (.inr (.inr (.inr (.inr (.inr (.inr (.inr (.inr (.inl v)))))))))) => .sup v
      | .inr (.inr (.inr (.inr (.inr (.inr (.inr (.inr (.inr (.inr (.inr (.inl v))))))))))) => .sub v
      | .inr (.inr (.inr (.inr (.inr (.inr (.inr (.inr (.inr (.inr (.inr (.inr (.inl v)))))))))))) => .string v
      | .inr (.inr (.inr (.inr (.inr (.inr (.inr (.inr (.inr (.inr (.inr (.inr (.inr (.inl v))))))))))))) => .paragraph v
      | .inr (.inr (.inr (.inr (.inr (.inr (.inr (.inr (.inr (.inr (.inr (.inr (.inr (.inr (.inl v)))))))))))))) => .item v
      | .inr (.inr (.inr (.inr (.inr (.inr (.inr (.inr (.inr (.inr (.inr (.inr (.inr (.inr (.inr (.inl v))))))))))))))) => .subitem1 v
      | .inr (.inr (.inr (.inr (.inr (.inr (.inr (.inr (.inr (.inr (.inr (.inr (.inr (.inr (.inr (.inr (.inl v)))))))))))))))) => .subitem2 v
      | .inr (.inr (.inr (.inr (.inr (.inr (.inr (.inr (.inr (.inr (.inr (.inr (.inr (.inr (.inr (.inr (.inr (.inl v))))))))))))))))) => .subitem3 v
      | .inr (.inr (.inr (.inr (.inr (.inr (.inr (.inr (.inr (.inr (.inr (.inr (.inr (.inr (.inr (.inr (.inr (.inr (.inl v)))))))))))))))))) => .subitem4 v
      | .inr (.inr (.inr (.inr (.inr (.inr (.inr (.inr (.inr (.inr (.inr (.inr (.inr (.inr (.inr (.inr (.inr (.inr (.inr (.inl v))))))))))))))))))) => .subitem5 v
      | .inr (.inr (.inr (.inr (.inr (.inr (.inr (.inr (.inr (.inr (.inr (.inr (.inr (.inr (.inr (.inr (.inr (.inr (.inr (.inr (.inl v)))))))))))))))))))) => .subitem6 v
      | .inr (.inr (.inr (.inr (.inr (.inr (.inr (.inr (.inr (.inr (.inr (.inr (.inr (.inr (.inr (.inr (.inr (.inr (.inr (.inr (.inr (.inl v))))))))))))))))))))) => .subitem7 v
      | .inr (.inr (.inr (.inr (.inr (.inr (.inr (.inr (.inr (.inr (.inr (.inr (.inr (.inr (.inr (.inr (.inr (.inr (.inr (.inr (.inr (.inr (.inl v)))))))))))))))))))))) => .subitem8 v
      | .inr (.inr (.inr (.inr (.inr (.inr (.inr (.inr (.inr (.inr (.inr (.inr (.inr (.inr (.inr (.inr (.inr (.inr (.inr (.inr (.inr (.inr (.inr (.inl v))))))))))))))))))))))) => .subitem9 v
      | .inr (.inr (.inr (.inr (.inr (.inr (.inr (.inr (.inr (.inr (.inr (.inr (.inr (.inr (.inr (.inr (.inr (.inr (.inr (.inr (.inr (.inr (.inr (.inr (.inl v)))))))))))))))))))))))) => .subitem10 v
      | .inr (.inr (.inr (.inr (.inr (.inr (.inr (.inr (.inr (.inr (.inr (.inr (.inr (.inr (.inr (.inr (.inr (.inr (.inr (.inr (.inr (.inr (.inr (.inr (.inr (.inl v))))))))))))))))))))))))) => .list v
      | .inr (.inr (.inr (.inr (.inr (.inr (.inr (.inr (.inr (.inr (.inr (.inr (.inr (.inr (.inr (.inr (.inr (.inr (.inr (.inr (.inr (.inr (.inr (.inr (.inr (.inr (.inl v)))))))))))))))))))))))))) => .sentence v
      | .inr (.inr (.inr (.inr (.inr (.inr (.inr (.inr (.inr (.inr (.inr (.inr (.inr (.inr (.inr (.inr (.inr (.inr (.inr (.inr (.inr (.inr (.inr (.inr (.inr (.inr (.inr (.inl v))))))))))))))))))))))))))) => .arithFormula v
      | .inr (.inr (.inr (.inr (.inr (.inr (.inr (.inr (.inr (.inr (.inr (.inr (.inr (.inr (.inr (.inr (.inr (.inr (.inr (.inr (.inr (.inr (.inr (.inr (.inr (.inr (.inr (.inr (.inl v)))))))))))))))))))))))))))) => .remarks v
      | .inr (.inr (.inr (.inr (.inr (.inr (.inr (.inr (.inr (.inr (.inr (.inr (.inr (.inr (.inr (.inr (.inr (.inr (.inr (.inr (.inr (.inr (.inr (.inr (.inr (.inr (.inr (.inr (.inr (.inl v))))))))))))))))))))))))))))) => .toc v
      | .inr (.inr (.inr (.inr (.inr (.inr (.inr (.inr (.inr (.inr (.inr (.inr (.inr (.inr (.inr (.inr (.inr (.inr (.inr (.inr (.inr (.inr (.inr (.inr (.inr (.inr (.inr (.inr (.inr (.inr (.inl v)))))))))))))))))))))))))))))) => .tocSection v
      | .inr (.inr (.inr (.inr (.inr (.inr (.inr (.inr (.inr (.inr (.inr (.inr (.inr (.inr (.inr (.inr (.inr (.inr (.inr (.inr (.inr (.inr (.inr (.inr (.inr (.inr (.inr (.inr (.inr (.inr (.inr (.inl v))))))))))))))))))))))))))))))) => .tableRow v)

/-- Derived `Serialize` and `Deserialize` of `Contents`, src/contents.rs 22-25. -/
def Contents.codec (S : LvlCodec L) : Codec (Contents L) :=
  .struct (
    .field "contents" (.list (ContentsElement.codec S)) <|
    .done)
    (fun x => (x.contents, ()))
    (fun (contents, _) => { contents := contents })

/-- Derived `Serialize` and `Deserialize` of `Era`, src/law.rs 263-275. -/
def Era.codec : Codec (Era) :=
  .enum (
    .unit "Meiji" <|
    .unit "Taisho" <|
    .unit "Showa" <|
    .unit "Heisei" <|
    .unit "Reiwa" <|
    .done)
    (fun
      | .meiji => .inl ()
      | .taisho => .inr (.inl ())
      | .showa => .inr (.inr (.inl ()))
      | .heisei => .inr (.inr (.inr (.inl ())))
      | .reiwa => .inr (.inr (.inr (.inr (.inl ())))))
    (fun
      | .inl _ => .meiji
      | .inr (.inl _) => .taisho
      | .inr (.inr (.inl _)) => .showa
      | .inr (.inr (.inr (.inl _))) => .heisei
      | .inr (.inr (.inr (.inr (.inl _)))) => .reiwa)

/-- Derived `Serialize` and `Deserialize` of `LawType`, src/law.rs 278-294. -/
def LawType.codec : Codec (LawType) :=
  .enum (
    .unit "Constitution" <|
    .unit "Act" <|
    .unit "CabinetOrder" <|
    .unit "ImperialOrder" <|
    .unit "MinisterialOrdinance" <|
    .unit "Rule" <|
    .unit "Misc" <|
    .done)
    (fun
      | .constitution => .inl ()
      | .act => .inr (.inl ())
      | .cabinetOrder => .inr (.inr (.inl ()))
      | .imperialOrder => .inr (.inr (.inr (.inl ())))
      | .ministerialOrdinance => .inr (.inr (.inr (.inr (.inl ()))))
      | .rule => .inr (.inr (.inr (.inr (.inr (.inl ())))))
      | .misc => .inr (.inr (.inr (.inr (.inr (.inr (.inl ())))))))
    (fun
      | .inl _ => .constitution
      | .inr (.inl _) => .act
      | .inr (.inr (.inl _)) => .cabinetOrder
      | .inr (.inr (.inr (.inl _))) => .imperialOrder
      | .inr (.inr (.inr (.inr (.inl _)))) => .ministerialOrdinance
      | .inr (.inr (.inr (.inr (.inr (.inl _))))) => .rule
      | .inr (.inr (.inr (.inr (.inr (.inr (.inl _)))))) => .misc)

/-- Derived `Serialize` and `Deserialize` of `Lang`, src/law.rs 297-301. -/
def Lang.codec : Codec (Lang) :=
  .enum (
    .unit "Ja" <|
    .unit "En" <|
    .done)
    (fun
      | .ja => .inl ()
      | .en => .inr (.inl ()))
    (fun
      | .inl _ => .ja
      | .inr (.inl _) => .en)

/-- Derived `Serialize` and `Deserialize` of `LawTitle`, src/law.rs 475-485. -/
def LawTitle.codec (S : LvlCodec L) : Codec (LawTitle L) :=
  .struct (
    .field "kana" (.option .str) <|
    .field "abbrev" (.option .str) <|
    .field "abbrev_kana" (.option .str) <|
    .field "text" (Text.codec S) <|
    .done)
    (fun x => (x.kana, x.abbrev_, x.abbrev_kana, x.text, ()))
    (fun (kana, abbrev_, abbrev_kana, text, _) =>
      { kana := kana, abbrev_ := abbrev_, abbrev_kana := abbrev_kana, text := text })

/-- Derived `Serialize` and `Deserialize` of `Preamble`, src/law.rs 524-527. -/
def Preamble.codec (S : LvlCodec L) : Codec (Preamble L) :=
  .struct (
    .field "children" (.list (Paragraph.codec S)) <|
    .done)
    (fun x => (x.children, ()))
    (fun (children, _) => { children := children })

/-- Derived `Serialize` and `Deserialize` of `MainProvisionContents`, src/law.rs 627-639. -/
def MainProvisionContents.codec (S : LvlCodec L) : Codec (MainProvisionContents L) :=
  .enum (
    .newtype "Part" (Part.codec S) <|
    .newtype "Chapter" (Chapter.codec S) <|
    .newtype "Section" (Section.codec S) <|
    .newtype "Article" (Article.codec S) <|
    .newtype "Paragraph" (Paragraph.codec S) <|
    .done)
    (fun
      | .part v => .inl v
      | .chapter v => .inr (.inl v)
      | .section_ v => .inr (.inr (.inl v))
      | .article v => .inr (.inr (.inr (.inl v)))
      | .paragraph v => .inr (.inr (.inr (.inr (.inl v)))))
    (fun
      | .inl v => .part v
      | .inr (.inl v) => .chapter v
      | .inr (.inr (.inl v)) => .section_ v
      | .inr (.inr (.inr (.inl v))) => .article v
      | .inr (.inr (.inr (.inr (.inl v)))) => .paragraph v)

/-- Derived `Serialize` and `Deserialize` of `MainProvision`, src/law.rs 559-564. -/
def MainProvision.codec (S : LvlCodec L) : Codec (MainProvision L) :=
  .struct (
    .field "children" (.list (MainProvisionContents.codec S)) <|
    .field "extract" (.option .bool) <|
    .done)
    (fun x => (x.children, x.extract, ()))
    (fun (children, extract, _) => { children := children, extract := extract })

/-- Derived `Serialize` and `Deserialize` of `SupplProvisionAppdxTable`, src/suppl_provision.rs 156-162. -/
def SupplProvisionAppdxTable.codec (S : LvlCodec L) : Codec (SupplProvisionAppdxTable L) :=
  .struct (
    .field "title" (TextWithWritingMode.codec S) <|
    .field "related_article_num" (.option (Text.codec S)) <|
    .field "table_struct" (.list (TableStruct.codec S)) <|
    .field "num" (.option .str) <|
    .done)
    (fun x => (x.title, x.related_article_num, x.structs, x.num, ()))
    (fun (title, related_article_num, structs, num, _) =>
      { title := title, related_article_num := related_article_num, structs := structs
        num := num })

/-- Derived `Serialize` and `Deserialize` of `SupplProvisionAppdxStyle`, src/suppl_provision.rs 230-236. -/
def SupplProvisionAppdxStyle.codec (S : LvlCodec L) : Codec (SupplProvisionAppdxStyle L) :=
  .struct (
    .field "title" (TextWithWritingMode.codec S) <|
    .field "related_article_num" (.option (Text.codec S)) <|
    .field "style_struct" (.list (StyleStruct.codec S)) <|
    .field "num" (.option .str) <|
    .done)
    (fun x => (x.title, x.related_article_num, x.structs, x.num, ()))
    (fun (title, related_article_num, structs, num, _) =>
      { title := title, related_article_num := related_article_num, structs := structs
        num := num })

/-- Derived `Serialize` and `Deserialize` of `SupplProvisionAppdx`, src/suppl_provision.rs 304-310. -/
def SupplProvisionAppdx.codec (S : LvlCodec L) : Codec (SupplProvisionAppdx L) :=
  .struct (
    .field "arith_formula_num" (.option (Text.codec S)) <|
    .field "related_article_num" (.option (Text.codec S)) <|
    .field "arith_formula" (.list (ArithFormula.codec S)) <|
    .field "num" (.option .str) <|
    .done)
    (fun x => (x.arith_formula_num, x.related_article_num, x.arith_formula, x.num, ()))
    (fun (arith_formula_num, related_article_num, arith_formula, num, _) =>
      { arith_formula_num := arith_formula_num, related_article_num := related_article_num
        arith_formula := arith_formula, num := num })

/-- Derived `Serialize` and `Deserialize` of `SupplProvisionChildrenElement`, src/suppl_provision.rs 140-148. -/
def SupplProvisionChildrenElement.codec (S : LvlCodec L) : Codec (SupplProvisionChildrenElement L) :=
  .enum (
    .newtype "Chapter" (Chapter.codec S) <|
    .newtype "Article" (Article.codec S) <|
    .newtype "Paragraph" (Paragraph.codec S) <|
    .newtype "SupplProvisionAppdxTable" (SupplProvisionAppdxTable.codec S) <|
    .newtype "SupplProvisionAppdxStyle" (SupplProvisionAppdxStyle.codec S) <|
    .newtype "SupplProvisionAppdx" (SupplProvisionAppdx.codec S) <|
    .done)
    (fun
      | .chapter v => .inl v
      | .article v => .inr (.inl v)
      | .paragraph v => .inr (.inr (.inl v))
      | .supplProvisionAppdxTable v => .inr (.inr (.inr (.inl v)))
      | .supplProvisionAppdxStyle v => .inr (.inr (.inr (.inr (.inl v))))
      | .supplProvisionAppdx v => .inr (.inr (.inr (.inr (.inr (.inl v))))))
    (fun
      | .inl v => .chapter v
      | .inr (.inl v) => .article v
      | .inr (.inr (.inl v)) => .paragraph v
      | .inr (.inr (.inr (.inl v))) => .supplProvisionAppdxTable v
      | .inr (.inr (.inr (.inr (.inl v)))) => .supplProvisionAppdxStyle v
      | .inr (.inr (.inr (.inr (.inr (.inl v))))) => .supplProvisionAppdx v)

/-- Derived `Serialize` and `Deserialize` of `SupplProvisionType`, src/suppl_provision.rs 150-154. -/
def SupplProvisionType.codec : Codec (SupplProvisionType) :=
  .enum (
    .unit "New" <|
    .unit "Amend" <|
    .done)
    (fun
      | .new => .inl ()
      | .amend => .inr (.inl ()))
    (fun
      | .inl _ => .new
      | .inr (.inl _) => .amend)

/-- Derived `Serialize` and `Deserialize` of `SupplProvision`, src/suppl_provision.rs 16-23. -/
def SupplProvision.codec (S : LvlCodec L) : Codec (SupplProvision L) :=
  .struct (
    .field "label" (Text.codec S) <|
    .field "children" (.list (SupplProvisionChildrenElement.codec S)) <|
    .field "suppl_provision_type" (.option SupplProvisionType.codec) <|
    .field "amend_law_num" (.option .str) <|
    .field "extract" (.option .bool) <|
    .done)
    (fun x => (x.label, x.children, x.suppl_provision_type, x.amend_law_num, x.extract, ()))
    (fun (label, children, suppl_provision_type, amend_law_num, extract, _) =>
      { label := label, children := children, suppl_provision_type := suppl_provision_type
        amend_law_num := amend_law_num, extract := extract })

/-- Derived `Serialize` and `Deserialize` of `LawBody`, src/law.rs 304-332. -/
def LawBody.codec (S : LvlCodec L) : Codec (LawBody L) :=
  .struct (
    .field "law_title" (.option (LawTitle.codec S)) <|
    .field "enact_statement" (.list (Text.codec S)) <|
    .field "subject" (.option .str) <|
    .field "toc" (.option (TOC.codec S)) <|
    .field "preamble" (.option (Preamble.codec S)) <|
    .field "main_provision" (MainProvision.codec S) <|
    .field "suppl_provision" (.list (SupplProvision.codec S)) <|
    .field "appdx_table" (.list (AppdxTable.codec S)) <|
    .field "appdx_note" (.list (AppdxNote.codec S)) <|
    .field "appdx_style" (.list (AppdxStyle.codec S)) <|
    .field "appdx" (.list (Appdx.codec S)) <|
    .field "appdx_fig" (.list (AppdxFig.codec S)) <|
    .field "appdx_format" (.list (AppdxFormat.codec S)) <|
    .done)
    (fun x => (x.law_title, x.enact_statement, x.subject, x.toc, x.preamble, x.main_provision,
    x.suppl_provision, x.appdx_table, x.appdx_note, x.appdx_style, x.appdx, x.appdx_fig,
    x.appdx_format, ()))
    (fun (law_title, enact_statement, subject, toc, preamble, main_provision, suppl_provision,
    appdx_table, appdx_note, appdx_style, appdx, appdx_fig, appdx_format, _) =>
      { law_title := law_title, enact_statement := enact_statement, subject := subject
        toc := toc, preamble := preamble, main_provision := main_provision
        suppl_provision := suppl_provision, appdx_table := appdx_table
        appdx_note := appdx_note, appdx_style := appdx_style, appdx := appdx
        appdx_fig := appdx_fig, appdx_format := appdx_format })

/-- Derived `Serialize` and `Deserialize` of `Law`, src/law.rs 25-45. -/
def Law.codec (S : LvlCodec L) : Codec (Law L) :=
  .struct (
    .field "era" Era.codec <|
    .field "year" .usize <|
    .field "num" (.option ArticleNumber.codec) <|
    .field "promulgate_month" (.option .usize) <|
    .field "promulgate_day" (.option .usize) <|
    .field "law_type" LawType.codec <|
    .field "lang" Lang.codec <|
    .field "law_num" .str <|
    .field "law_body" (LawBody.codec S) <|
    .done)
    (fun x => (x.era, x.year, x.num, x.promulgate_month, x.promulgate_day, x.law_type, x.lang,
    x.law_num, x.law_body, ()))
    (fun (era, year, num, promulgate_month, promulgate_day, law_type, lang, law_num, law_body, _) =>
      { era := era, year := year, num := num, promulgate_month := promulgate_month
        promulgate_day := promulgate_day, law_type := law_type, lang := lang
        law_num := law_num, law_body := law_body })

/-- Derived `Serialize` and `Deserialize` of `TableColumnContents`, src/table.rs 348-373. -/
def TableColumnContents.codec (S : LvlCodec L) : Codec (TableColumnContents L) :=
  .enum (
    .newtype "Part" (Part.codec S) <|
    .newtype "Chapter" (Chapter.codec S) <|
    .newtype "Section" (Section.codec S) <|
    .newtype "Subsection" (Subsection.codec S) <|
    .newtype "Division" (Division.codec S) <|
    .newtype "Article" (Article.codec S) <|
    .newtype "Paragraph" (Paragraph.codec S) <|
    .newtype "Item" (Item.codec S) <|
    .newtype "Subitem1" (Subitem1.codec S) <|
    .newtype "Subitem2" (Subitem2.codec S) <|
    .newtype "Subitem3" (Subitem3.codec S) <|
    .newtype "Subitem4" (Subitem4.codec S) <|
    .newtype "Subitem5" (Subitem5.codec S) <|
    .newtype "Subitem6" (Subitem6.codec S) <|
    .newtype "Subitem7" (Subitem7.codec S) <|
    .newtype "Subitem8" (Subitem8.codec S) <|
    .newtype "Subitem9" (Subitem9.codec S) <|
    .newtype "Subitem10" (Subitem10.codec S) <|
    .newtype "FigStruct" (FigStruct.codec S) <|
    .newtype "Sentence" (Sentence.codec S) <|
    .newtype "Remarks" (Remarks.codec S) <|
    .newtype "Column" (Column.codec S) <|
    .newtype "String" .str <|
    .done)
    (fun
      | .part v => .inl v
      | .chapter v => .inr (.inl v)
      | .section_ v => .inr (.inr (.inl v))
      | .subsection v => .inr (.inr (.inr (.inl v)))
      | .division v => .inr (.inr (.inr (.inr (.inl v))))
      | .article v => .inr (.inr (.inr (.inr (.inr (.inl v)))))
      | .paragraph v => .inr (.inr (.inr (.inr (.inr (.inr (.inl v))))))
      | .item v => .inr (.inr (.inr (.inr (.inr (.inr (.inr (.inl v)))))))
      | .subitem1 v => .inr (.inr (.inr (.inr (.inr (.inr (.inr (.inr (.inl v))))))))
      | .subitem2 v => .inr (.inr (.inr (.inr (.inr (.inr (.inr (.inr (.inr (.inl v)))))))))
      | .subitem3 v => .inr (.inr (.inr (.inr (.inr (.inr (.inr (.inr (.inr (.inr (.inl v))))))))))
      | .subitem4 v => .inr (.inr (.inr (.inr (.inr (.inr (.inr (.inr (.inr (.inr (.inr (.inl v)))))))))))
      | .subitem5 v => .inr (.inr (.inr (.inr (.inr (.inr (.inr (.inr (.inr (.inr (.inr (.inr (.inl v))))))))))))
      | .subitem6 v => .inr (.inr (.inr (.inr (.inr (.inr (.inr (.inr (.inr (.inr (.inr (.inr (.inr (.inl v)))))))))))))
      | .subitem7 v => .inr (.inr (.inr (.inr (.inr (.inr (.inr (.inr (.inr (.inr (.inr (.inr (.inr (.inr (.inl v))))))))))))))
      | .subitem8 v => .inr (.inr (.inr (.inr (.inr (.inr (.inr (.inr (.inr (.inr (.inr (.inr (.inr (.inr (.inr (.inl v)))))))))))))))
      | .subitem9 v => .inr (.inr (.inr (.inr (.inr (.inr (.inr (.inr (.inr (.inr (.inr (.inr (.inr (.inr (.inr (.inr (.inl v))))))))))))))))
      | .subitem10 v => .inr (.inr (.inr (.inr (.inr (.inr (.inr (.inr (.inr (.inr (.inr (.inr (.inr (.inr (.inr (.inr (.inr (.inl v)))))))))))))))))
      | .figStruct v => .inr (.inr (.inr (.inr (.inr (.inr (.inr (.inr (.inr (.inr (.inr (.inr (.inr (.inr (.inr (.inr (.inr (.inr (.inl v))))))))))))))))))
      | .sentence v => .inr (.inr (.inr (.inr (.inr (.inr (.inr (.inr (.inr (.inr (.inr (.inr (.inr (.inr (.inr (.inr (.inr (.inr (.inr (.inl v)))))))))))))))))))
      | .remarks v => .inr (.inr (.inr (.inr (.inr (.inr (.inr (.inr (.inr (.inr (.inr (.inr (.inr (.inr (.inr (.inr (.inr (.inr (.inr (.inr (.inl v))))))))))))))))))))
      | .column v => .inr (.inr (.inr (.inr (.inr (.inr (.inr (.inr (.inr (.inr (.inr (.inr (.inr (.inr (.inr (.inr (.inr (.inr (.inr (.inr (.inr (.inl v)))))))))))))))))))))
      | .string v => .inr (.inr (.inr (.inr (.inr (.inr (.inr (.inr (.inr (.inr (.inr (.inr (.inr (.inr (.inr (.inr (.inr (.inr (.inr (.inr (.inr (.inr (.inl v)))))))))))))))))))))))
    (fun
      | .inl v => .part v
      | .inr (.inl v) => .chapter v
      | .inr (.inr (.inl v)) => .section_ v
      | .inr (.inr (.inr (.inl v))) => .subsection v
      | .inr (.inr (.inr (.inr (.inl v)))) => .division v
      | .inr (.inr (.inr (.inr (.inr (.inl v))))) => .article v
      | .inr (.inr (.inr (.inr (.inr (.inr (.inl v)))))) => .paragraph v
      | .inr (.inr (.inr (.inr (.inr (.inr (.inr (.inl v))))))) => .item v
      | .inr (.inr (.inr (.inr (.inr (.inr (.inr (.inr (.inl v)))))))) => .subitem1 v
      | .inr (.inr (.inr (.inr (.inr (.inr (.inr (.inr (.inr (.inl v))))))))) => .subitem2 v
      | .inr (.inr (.inr (.inr (.inr (.inr (.inr (.inr (.inr (.inr (.inl v)))))))))) => .subitem3 v
      | .inr (.inr (.inr (.inr (.inr (.inr (.inr (.inr (.inr (.inr (.inr (.inl v))))))))))) => .subitem4 v
      | .inr (.inr (.inr (.inr (.inr (.inr (.inr (.inr (.inr (.inr (.inr (.inr (.inl v)))))))))))) => .subitem5 v
      | .inr (.inr (.inr (.inr (.inr (.inr (.inr (.inr (.inr (.inr (.inr (.inr (.inr (.inl v))))))))))))) => .subitem6 v
      | .inr (.inr (.inr (.inr (.inr (.inr (.inr (.inr (.inr (.inr (.inr (.inr (.inr (.inr (.inl v)))))))))))))) => .subitem7 v
      | .inr (.inr (.inr (.inr (.inr (.inr (.inr (.inr (.inr (.inr (.inr (.inr (.inr (.inr (.inr (.inl v))))))))))))))) => .subitem8 v
      | .inr (.inr (.inr (.inr (.inr (.inr (.inr (.inr (.inr (.inr (.inr (.inr (.inr (.inr (.inr (.inr (.inl v)))))))))))))))) => .subitem9 v
      | .inr (.inr (.inr (.inr (.inr (.inr (.inr (.inr (.inr (.inr (.inr (.inr (.inr (.inr (.inr (.inr (.inr (.inl v))))))))))))))))) => .subitem10 v
      | .inr (.inr (.inr (.inr (.inr (.inr (.inr (.inr (.inr (.inr (.inr (.inr (.inr (.inr (.inr (.inr (.inr (.inr (.inl v)))))))))))))))))) => .figStruct v
      | .inr (.inr (.inr (.inr (.inr (.inr (.inr (.inr (.inr (.inr (.inr (.inr (.inr (.inr (.inr (.inr (.inr (.inr (.inr (.inl v))))))))))))))))))) => .sentence v
      | .inr (.inr (.inr (.inr (.inr (.inr (.inr (.inr (.inr (.inr (.inr (.inr (.inr (.inr (.inr (.inr (.inr (.inr (.inr (.inr (.inl v)))))))))))))))))))) => .remarks v
      | .inr (.inr (.inr (.inr (.inr (.inr (.inr (.inr (.inr (.inr (.inr (.inr (.inr (.inr (.inr (.inr (.inr (.inr (.inr (.inr (.inr (.inl v))))))))))))))))))))) => .column v
      | .inr (.inr (.inr (.inr (.inr (.inr (.inr (.inr (.inr (.inr (.inr (.inr (.inr (.inr (.inr (.inr (.inr (.inr (.inr (.inr (.inr (.inr (.inl v)))))))))))))))))))))) => .string v)

/-- Derived `Serialize` and `Deserialize` of `Position`, src/table.rs 375-380. -/
def Position.codec : Codec (Position) :=
  .enum (
    .unit "Top" <|
    .unit "Middle" <|
    .unit "Bottom" <|
    .done)
    (fun
      | .top => .inl ()
      | .middle => .inr (.inl ())
      | .bottom => .inr (.inr (.inl ())))
    (fun
      | .inl _ => .top
      | .inr (.inl _) => .middle
      | .inr (.inr (.inl _)) => .bottom)

/-- Derived `Serialize` and `Deserialize` of `TableColumn`, src/table.rs 149-160. -/
def TableColumn.codec (S : LvlCodec L) : Codec (TableColumn L) :=
  .struct (
    .field "contents" (.list (TableColumnContents.codec S)) <|
    .field "border_top" LineStyle.codec <|
    .field "border_bottom" LineStyle.codec <|
    .field "border_left" LineStyle.codec <|
    .field "border_right" LineStyle.codec <|
    .field "rowspan" (.option .str) <|
    .field "colspan" (.option .str) <|
    .field "align" (.option Align.codec) <|
    .field "valign" (.option Position.codec) <|
    .done)
    (fun x => (x.contents, x.border_top, x.border_bottom, x.border_left, x.border_right, x.rowspan,
    x.colspan, x.align, x.valign, ()))
    (fun (contents, border_top, border_bottom, border_left, border_right, rowspan, colspan, align,
    valign, _) =>
      { contents := contents, border_top := border_top, border_bottom := border_bottom
        border_left := border_left, border_right := border_right, rowspan := rowspan
        colspan := colspan, align := align, valign := valign })

/-- Derived `Serialize` and `Deserialize` of `NewProvision`, src/law.rs 970-1020. -/
def NewProvision.codec (S : LvlCodec L) : Codec (NewProvision L) :=
  .enum (
    .newtype "LawTitle" (LawTitle.codec S) <|
    .newtype "Preamble" (Preamble.codec S) <|
    .newtype "TOC" (TOC.codec S) <|
    .newtype "Part" (Part.codec S) <|
    .newtype "PartTitle" (Text.codec S) <|
    .newtype "Chapter" (Chapter.codec S) <|
    .newtype "ChapterTitle" (Text.codec S) <|
    .newtype "Section" (Section.codec S) <|
    .newtype "SectionTitle" (Text.codec S) <|
    .newtype "Subsection" (Subsection.codec S) <|
    .newtype "SubsectionTitle" (Text.codec S) <|
    .newtype "Division" (Division.codec S) <|
    .newtype "DivisionTitle" (Text.codec S) <|
    .newtype "Article" (Article.codec S) <|
    .newtype "SupplNote" (Text.codec S) <|
    .newtype "Paragraph" (Paragraph.codec S) <|
    .newtype "Item" (Item.codec S) <|
    .newtype "Subitem1" (Subitem1.codec S) <|
    .newtype "Subitem2" (Subitem2.codec S) <|
    .newtype "Subitem3" (Subitem3.codec S) <|
    .newtype "Subitem4" (Subitem4.codec S) <|
    .newtype "Subitem5" (Subitem5.codec S) <|
    .newtype "Subitem6" (Subitem6.codec S) <|
    .newtype "Subitem7" (Subitem7.codec S) <|
    .newtype "Subitem8" (Subitem8.codec S) <|
    .newtype "Subitem9" (Subitem9.codec S) <|
    .newtype "Subitem10" (Subitem10.codec S) <|
    .newtype "List" (LawList.codec S) <|
    .newtype "Sentence" (Sentence.codec S) <|
    .newtype "AmendProvision" S.amendProvision <|
    .newtype "AppdxTable" (AppdxTable.codec S) <|
    .newtype "AppdxNote" (AppdxNote.codec S) <|
    .newtype "AppdxStyle" (AppdxStyle.codec S) <|
    .newtype "Appdx" (Appdx.codec S) <|
    .newtype "AppdxFig" (AppdxFig.codec S) <|
    .newtype "AppdxFormat" (AppdxFormat.codec S) <|
    .newtype "SupplProvisionAppdxStyle" (SupplProvisionAppdxStyle.codec S) <|
    .newtype "SupplProvisionAppdxTable" (SupplProvisionAppdxTable.codec S) <|
    .newtype "SupplProvisionAppdx" (SupplProvisionAppdx.codec S) <|
    .newtype "TableStruct" (TableStruct.codec S) <|
    .newtype "TableRow" (TableRow.codec S) <|
    .newtype "TableColumn" (TableColumn.codec S) <|
    .newtype "FigStruct" (FigStruct.codec S) <|
    .newtype "NoteStruct" (NoteStruct.codec S) <|
    .newtype "StyleStruct" (StyleStruct.codec S) <|
    .newtype "FormatStruct" (FormatStruct.codec S) <|
    .newtype "Remarks" (Remarks.codec S) <|
    .newtype "LawBody" (LawBody.codec S) <|
    .done)
    (fun
      | .lawTitle v => .inl v
      | .preamble v => .inr (.inl v)
      | .toc v => .inr (.inr (.inl v))
      | .part v => .inr (.inr (.inr (.inl v)))
      | .partTitle v => .inr (.inr (.inr (.inr (.inl v))))
      | .chapter v => .inr (.inr (.inr (.inr (.inr (.inl v)))))
      | .chapterTitle v => .inr (.inr (.inr (.inr (.inr (.inr (.inl v))))))
      | .section_ v => .inr (.inr (.inr (.inr (.inr (.inr (.inr (.inl v)))))))
      | .sectionTitle v => .inr (.inr (.inr (.inr (.inr (.inr (.inr (.inr (.inl v))))))))
      | .subsection v => .inr (.inr (.inr (.inr (.inr (.inr (.inr (.inr (.inr (.inl v)))))))))
      | .subsectionTitle v => .inr (.inr (.inr (.inr (.inr (.inr (.inr (.inr (.inr (.inr (.inl v))))))))))
      | .division v => .inr (.inr (.inr (.inr (.inr (.inr (.inr (.inr (.inr (.inr (.inr (.inl v)))))))))))
      | .divisionTitle v => .inr (.inr (.inr (.inr (.inr (.inr (.inr (.inr (.inr (.inr (.inr (.inr (.inl v))))))))))))
      | .article v => .inr (.inr (.inr (.inr (.inr (.inr (.inr (.inr (.inr (.inr (.inr (.inr (.inr (.inl v)))))))))))))
      | .supplNote v => .inr (.inr (.inr (.inr (.inr (.inr (.inr (.inr (.inr (.inr (.inr (.inr (.inr (.inr (.inl v))))))))))))))
      | .paragraph v => .inr (.inr (.inr (.inr (.inr (.inr (.inr (.inr (.inr (.inr (.inr (.inr (.inr (.inr (.inr (.inl v)))))))))))))))
      | .item v => .inr (.inr (.inr (.inr (.inr (.inr (.inr (.inr (.inr (.inr (.inr (.inr (.inr (.inr (.inr (.inr (.inl v))))))))))))))))
      | .subitem1 v => .inr (.inr (.inr (.inr (.inr (.inr (.inr (.inr (.inr (.inr (.inr (.inr (.inr (.inr (.inr (.inr (.inr (.inl v)))))))))))))))))
      | .subitem2 v => .inr (.inr (.inr (.inr (.inr (.inr (.inr (.inr (.inr (.inr (.inr (.inr (.inr (.inr (.inr (.inr (.inr (.inr (.inl v))))))))))))))))))
      | .subitem3 v => .inr (.inr (.inr (.inr (.inr (.inr (.inr (.inr (.inr (.inr (.inr (.inr (.inr (.inr (.inr (.inr (.inr (.inr (.inr (.inl v)))))))))))))))))))
      | .subitem4 v => .inr (.inr (.inr (.inr (.inr (.inr (.inr (.inr (.inr (.inr (.inr (.inr (.inr (.inr (.inr (.inr (.inr (.inr (.inr (.inr (.inl v))))))))))))))))))))
      | .subitem5 v => .inr (.inr (.inr (.inr (.inr (.inr (.inr (.inr (.inr (.inr (.inr (.inr (.inr (.inr (.inr (.inr (.inr (.inr (.inr (.inr (.inr (.inl v)))))))))))))))))))))
      | .subitem6 v => .inr (.inr (.inr (.inr (.inr (.inr (.inr (.inr (.inr (.inr (.inr (.inr (.inr (.inr (.inr (.inr (.inr (.inr (.inr (.inr (.inr (.inr (.inl v))))))))))))))))))))))
      | .subitem7 v => .inr (.inr (.inr (.inr (.inr (.inr (.inr (.inr (.inr (.inr (.inr (.inr (.inr (.inr (.inr (.inr (.inr (.inr (.inr (.inr (.inr (.inr (.inr (.inl v)))))))))))))))))))))))
      | .subitem8 v => .inr (.inr (.inr (.inr (.inr (.inr (.inr (.inr (.inr (.inr (.inr (.inr (.inr (.inr (.inr (.inr (.inr (.inr (.inr (.inr (.inr (.inr (.inr (.inr (.inl v))))))))))))))))))))))))
      | .subitem9 v => .inr (.inr (.inr (.inr (.inr (.inr (.inr (.inr (.inr (.inr (.inr (.inr (.inr (.inr (.inr (.inr (.inr (.inr (.inr (.inr (.inr (.inr (.inr (.inr (.inr (.inl v)))))))))))))))))))))))))
      | .subitem10 v => .inr (.inr (.inr (.inr (.inr (.inr (.inr (.inr (.inr (.inr (.inr (.inr (.inr (.inr (.inr (.inr (.inr (.inr (.inr (.inr (.inr (.inr (.inr (.inr (.inr (.inr (.inl v))))))))))))))))))))))))))
      | .list v => .inr (.inr (.inr (.inr (.inr (.inr (.inr (.inr (.inr (.inr (.inr (.inr (.inr (.inr (.inr (.inr (.inr (.inr (.inr (.inr (.inr (.inr (.inr (.inr (.inr (.inr (.inr (.inl v)))))))))))))))))))))))))))
      | .sentence v => .inr (.inr (.inr (.inr (.inr (.inr (.inr (.inr (.inr (.inr (.inr (.inr (.inr (.inr (.inr (.inr (.inr (.inr (.inr (.inr (.inr (.inr (.inr (.inr (.inr (.inr (.inr (.inr (.inl v))))))))))))))))))))))))))))
      | .amendProvision v => .inr (.inr (.inr (.inr (.inr (.inr (.inr (.inr (.inr (.inr (.inr (.inr (.inr (.inr (.inr (.inr (.inr (.inr (.inr (.inr (.inr (.inr (.inr (.inr (.inr (.inr (.inr (.inr (.inr (.inl v)))))))))))))))))))))))))))))
      | .appdxTable v => .inr (.inr (.inr (.inr (.inr (.inr (.inr (.inr (.inr (.inr (.inr (.inr (.inr (.inr (.inr (.inr (.inr (.inr (.inr (.inr (.inr (.inr (.inr (.inr (.inr (.inr (.inr (.inr (.inr (.inr (.inl v))))))))))))))))))))))))))))))
      | .appdxNote v => .inr (.inr (.inr (.inr (.inr (.inr (.inr (.inr (.inr (.inr (.inr (.inr (.inr (.inr (.inr (.inr (.inr (.inr (.inr (.inr (.inr (.inr (.inr (.inr (.inr (.inr (.inr (.inr (.inr (.inr (.inr (.inl v)))))))))))))))))))))))))))))))
      | .appdxStyle v => .inr (.inr (.inr (.inr (.inr (.inr (.inr (.inr (.inr (.inr (.inr (.inr (.inr (.inr (.inr (.inr (.inr (.inr (.inr (.inr (.inr (.inr (.inr (.inr (.inr (.inr (.inr (.inr (.inr (.inr (.inr (.inr (.inl v))))))))))))))))))))))))))))))))
      | .appdx v => .inr (.inr (.inr (.inr (.inr (.inr (.inr (.inr (.inr (.inr (.inr (.inr (.inr (.inr (.inr (.inr (.inr (.inr (.inr (.inr (.inr (.inr (.inr (.inr (.inr (.inr (.inr (.inr (.inr (.inr (.inr (.inr (.inr (.inl v)))))))))))))))))))))))))))))))))
      | .appdxFig v => .inr (.inr (.inr (.inr (.inr (.inr (.inr (.inr (.inr (.inr (.inr (.inr (.inr (.inr (.inr (.inr (.inr (.inr (.inr (.inr (.inr (.inr (.inr (.inr (.inr (.inr (.inr (.inr (.inr (.inr (.inr (.inr (.inr (.inr (.inl v))))))))))))))))))))))))))))))))))
      | .appdxFormat v => .inr (.inr (.inr (.inr (.inr (.inr (.inr (.inr (.inr (.inr (.inr (.inr (.inr (.inr (.inr (.inr (.inr (.inr (.inr (.inr (.inr (.inr (.inr (.inr (.inr (.inr (.inr (.inr (.inr (.inr (.inr (.inr (.inr (.inr (.inr (.inl v)))))))))))))))))))))))))))))))))))
      | .supplProvisionAppdxStyle v => .inr (.inr (.inr (.inr (.inr (.inr (.inr (.inr (.inr (.inr (.inr (.inr (.inr (.inr (.inr (.inr (.inr (.inr (.inr (.inr (.inr (.inr (.inr (.inr (.inr (.inr (.inr (.inr (.inr (.inr (.inr (.inr (.inr (.inr (.inr (.inr (.inl v))))))))))))))))))))))))))))))))))))
      | .supplProvisionAppdxTable v => .inr (.inr (.inr (.inr (.inr (.inr (.inr (.inr (.inr (.inr (.inr (.inr (.inr (.inr (.inr (.inr (.inr (.inr (.inr (.inr (.inr (.inr (.inr (.inr (.inr (.inr (.inr (.inr (.inr (.inr (.inr (.inr (.inr (.inr (.inr (.inr (.inr (.inl v)))))))))))))))))))))))))))))))))))))
      | .supplProvisionAppdx v => .inr (.inr (.inr (.inr (.inr (.inr (.inr (.inr (.inr (.inr (.inr (.inr (.inr (.inr (.inr (.inr (.inr (.inr (.inr (.inr (.inr (.inr (.inr (.inr (.inr (.inr (.inr (.inr (.inr (.inr (.inr (.inr (.inr (.inr (.inr (.inr (.inr (.inr (.inl v))))))))))))))))))))))))))))))))))))))
      | .tableStruct v => .inr (.inr (.inr (.inr (.inr (.inr (.inr (.inr (.inr (.inr (.inr (.inr (.inr (.inr (.inr (.inr (.inr (.inr (.inr (.inr (.inr (.inr (.inr (.inr (.inr (.inr (.inr (.inr (.inr (.inr (.inr (.inr (.inr (.inr (.inr (.inr (.inr (.inr (.inr (.inl v)))))))))))))))))))))))))))))))))))))))
      | .tableRow v => .inr (.inr (.inr (.inr (.inr (.inr (.inr (.inr (.inr (.inr (.inr (.inr (.inr (.inr (.inr (.inr (.inr (.inr (.inr (.inr (.inr (.inr (.inr (.inr (.inr (.inr (.inr (.inr (.inr (.inr (.inr (.inr (.inr (.inr (.inr (.inr (.inr (.inr (.inr (.inr (.inl v))))))))))))))))))))))))))))))))))))))))
      | .tableColumn v => .inr (.inr (.inr (.inr (.inr (.inr (.inr (.inr (.inr (.inr (.inr (.inr (.inr (.inr (.inr (.inr (.inr (.inr (.inr (.inr (.inr (.inr (.inr (.inr (.inr (.inr (.inr (.inr (.inr (.inr (.inr (.inr (.inr (.inr (.inr (.inr (.inr (.inr (.inr (.inr (.inr (.inl v)))))))))))))))))))))))))))))))))))))))))
      | .figStruct v => .inr (.inr (.inr (.inr (.inr (.inr (.inr (.inr (.inr (.inr (.inr (.inr (.inr (.inr (.inr (.inr (.inr (.inr (.inr (.inr (.inr (.inr (.inr (.inr (.inr (.inr (.inr (.inr (.inr (.inr (.inr (.inr (.inr (.inr (.inr (.inr (.inr (.inr (.inr (.inr (.inr (.inr (.inl v))))))))))))))))))))))))))))))))))))))))))
      | .noteStruct v => .inr (.inr (.inr (.inr (.inr (.inr (.inr (.inr (.inr (.inr (.inr (.inr (.inr (.inr (.inr (.inr (.inr (.inr (.inr (.inr (.inr (.inr (.inr (.inr (.inr (.inr (.inr (.inr (.inr (.inr (.inr (.inr (.inr (.inr (.inr (.inr (.inr (.inr (.inr (.inr (.inr (.inr (.inr (.inl v)))))))))))))))))))))))))))))))))))))))))))
      | .styleStruct v => .inr (.inr (.inr (.inr (.inr (.inr (.inr (.inr (.inr (.inr (.inr (.inr (.inr (.inr (.inr (.inr (.inr (.inr (.inr (.inr (.inr (.inr (.inr (.inr (.inr (.inr (.inr (.inr (.inr (.inr (.inr (.inr (.inr (.inr (.inr (.inr (.inr (.inr (.inr (.inr (.inr (.inr (.inr (.inr (.inl v))))))))))))))))))))))))))))))))))))))))))))
      | .formatStruct v => .inr (.inr (.inr (.inr (.inr (.inr (.inr (.inr (.inr (.inr (.inr (.inr (.inr (.inr (.inr (.inr (.inr (.inr (.inr (.inr (.inr (.inr (.inr (.inr (.inr (.inr (.inr (.inr (.inr (.inr (.inr (.inr (.inr (.inr (.inr (.inr (.inr (.inr (.inr (.inr (.inr (.inr (.inr (.inr (.inr (.inl v)))))))))))))))))))))))))))))))))))))))))))))
      | .remarks v => .inr (.inr (.inr (.inr (.inr (.inr (.inr (.inr (.inr (.inr (.inr (.inr (.inr (.inr (.inr (.inr (.inr (.inr (.inr (.inr (.inr (.inr (.inr (.inr (.inr (.inr (.inr (.inr (.inr (.inr (.inr (.inr (.inr (.inr (.inr (.inr (.inr (.inr (.inr (.inr (.inr (.inr (.inr (.inr (.inr (.inr (.inl v))))))))))))))))))))))))))))))))))))))))))))))
      | .lawBody v => .inr (.inr (.inr (.inr (.inr (.inr (.inr (.inr (.inr (.inr (.inr (.inr (.inr (.inr (.inr (.inr (.inr (.inr (.inr (.inr (.inr (.inr (.inr (.inr (.inr (.inr (.inr (.inr (.inr (.inr (.inr (.inr (.inr (.inr (.inr (.inr (.inr (.inr (.inr (.inr (.inr (.inr (.inr (.inr (.inr (.inr (.inr (.inl v))))))))))))))))))))))))))))))))))))))))))))))))
    (fun
      | .inl v => .lawTitle v
      | .inr (.inl v) => .preamble v
      | .inr (.inr (.inl v)) => .toc v
      | .inr (.inr (.inr (.inl v))) => .part v
      | .inr (.inr (.inr (.inr (.inl v)))) => .partTitle v
      | .inr (.inr (.inr (.inr (.inr (.inl v))))) => .chapter v
      | .inr (.inr (.inr (.inr (.inr (.inr (.inl v)))))) => .chapterTitle v
      | .inr (.inr (.inr (.inr (.inr (.inr (.inr (.inl v))))))) => .section_ v
      | .inr (.inr (.inr (.inr (.inr (.inr (.inr (.inr (.inl v)))))))) => .sectionTitle v
      | .inr (.inr (.inr (.inr (.inr (.inr (.inr (.inr (.inr (.inl v))))))))) => .subsection v
      | .inr (.inr (.inr (.inr (.inr (.inr (.inr (.inr (.inr (.inr (.inl v)))))))))) => .subsectionTitle v
      | .inr (.inr (.inr (.inr (.inr (.inr (.inr (.inr (.inr (.inr (.inr (.inl v))))))))))) => .division v
      | .inr (.inr (.inr (.inr (.inr (.inr (.inr (.inr (.inr (.inr (.inr (.inr (.inl v)))))))))))) => .divisionTitle v
      | .inr (.inr (.inr (.inr (.inr (.inr (.inr (.inr (.inr (.inr (.inr (.inr (.inr (.inl v))))))))))))) => .article v
      | .inr (.inr (.inr (.inr (.inr (.inr (.inr (.inr (.inr (.inr (.inr (.inr (.inr (.inr (.inl v)))))))))))))) => .supplNote v
      | .inr (.inr (.inr (.inr (.inr (.inr (.inr (.inr (.inr (.inr (.inr (.inr (.inr (.inr (.inr (.inl v))))))))))))))) => .paragraph v
      | .inr (.inr (.inr (.inr (.inr (.inr (.inr (.inr (.inr (.inr (.inr (.inr (.inr (.inr (.inr (.inr (.inl v)))))))))))))))) => .item v
      | .inr (.inr (.inr (.inr (.inr (.inr (.inr (.inr (.inr (.inr (.inr (.inr (.inr (.inr (.inr (.inr (.inr (.inl v))))))))))))))))) => .subitem1 v
      | .inr (.inr (.inr (.inr (.inr (.inr (.inr (.inr (.inr (.inr (.inr (.inr (.inr (.inr (.inr (.inr (.inr (.inr (.inl v)))))))))))))))))) => .subitem2 v
      | .inr (.inr (.inr (.inr (.inr (.inr (.inr (.inr (.inr (.inr (.inr (.inr (.inr (.inr (.inr (.inr (.inr (.inr (.inr (.inl v))))))))))))))))))) => .subitem3 v
      | .inr (.inr (.inr (.inr (.inr (.inr (.inr (.inr (.inr (.inr (.inr (.inr (.inr (.inr (.inr (.inr (.inr (.inr (.inr (.inr (.inl v)))))))))))))))))))) => .subitem4 v
      | .inr (.inr (.inr (.inr (.inr (.inr (.inr (.inr (.inr (.inr (.inr (.inr (.inr (.inr (.inr (.inr (.inr (.inr (.inr (.inr (.inr (.inl v))))))))))))))))))))) => .subitem5 v
      | .inr (.inr (.inr (.inr (.inr (.inr (.inr (.inr (.inr (.inr (.inr (.inr (.inr (.inr (.inr (.inr (.inr (.inr (.inr (.inr (.inr (.inr (.inl v)))))))))))))))))))))) => .subitem6 v
      | .inr (.inr (.inr (.inr (.inr (.inr (.inr (.inr (.inr (.inr (.inr (.inr (.inr (.inr (.inr (.inr (.inr (.inr (.inr (.inr (.inr (.inr (.inr (.inl v))))))))))))))))))))))) => .subitem7 v
      | .inr (.inr (.inr (.inr (.inr (.inr (.inr (.inr (.inr (.inr (.inr (.inr (.inr (.inr (.inr (.inr (.inr (.inr (.inr (.inr (.inr (.inr (.inr (.inr (.inl v)))))))))))))))))))))))) => .subitem8 v
      | .inr (.inr (.inr (.inr (.inr (.inr (.inr (.inr (.inr (.inr (.inr (.inr (.inr (.inr (.inr (.inr (.inr (.inr (.inr (.inr (.inr (.inr (.inr (.inr (.inr (.inl v))))))))))))))))))))))))) => .subitem9 v
      | .inr (.inr (.inr (.inr (.inr (.inr (.inr (.inr (.inr (.inr (.inr (.inr (.inr (.inr (.inr (.inr (.inr (.inr (.inr (.inr (.inr (.inr (.inr (.inr (.inr (.inr (.inl v)))))))))))))))))))))))))) => .subitem10 v
      | .inr (.inr (.inr (.inr (.inr (.inr (.inr (.inr (.inr (.inr (.inr (.inr (.inr (.inr (.inr (.inr (.inr (.inr (.inr (.inr (.inr (.inr (.inr (.inr (.inr (.inr (.inr (.inl v))))))))))))))))))))))))))) => .list v
      | .inr (.inr (.inr (.inr (.inr (.inr (.inr (.inr (.inr (.inr (.inr (.inr (.inr (.inr (.inr (.inr (.inr (.inr (.inr (.inr (.inr (.inr (.inr (.inr (.inr (.inr (.inr (.inr (.inl v)))))))))))))))))))))))))))) => .sentence v
      | .inr (.inr (.inr (.inr (.inr (.inr (.inr (.inr (.inr (.inr (.inr (.inr (.inr (.inr (.inr (.inr (.inr (.inr (.inr (.inr (.inr (.inr (.inr (.inr (.inr (.inr (.inr (.inr (.inr (.inl v))))))))))))))))))))))))))))) => .amendProvision v
      | .inr (.inr (.inr (.inr (.inr (.inr (.inr (.inr (.inr (.inr (.inr (.inr (.inr (.inr (.inr (.inr (.inr (.inr (.inr (.inr (.inr (.inr (.inr (.inr (.inr (.inr (.inr (.inr (.inr (.inr (.inl v)))))))))))))))))))))))))))))) => .appdxTable v
      | .inr (.inr (.inr (.inr (.inr (.inr (.inr (.inr (.inr (.inr (.inr (.inr (.inr (.inr (.inr (.inr (.inr (.inr (.inr (.inr (.inr (.inr (.inr (.inr (.inr (.inr (.inr (.inr (.inr (.inr (.inr (.inl v))))))))))))))))))))))))))))))) => .appdxNote v
      | .inr (.inr (.inr (.inr (.inr (.inr (.inr (.inr (.inr (.inr (.inr (.inr (.inr (.inr (.inr (.inr (.inr (.inr (.inr (.inr (.inr (.inr (.inr (.inr (.inr (.inr (.inr (.inr (.inr (.inr (.inr (.inr (.inl v)))))))))))))))))))))))))))))))) => .appdxStyle v
      | .inr (.inr (.inr (.inr (.inr (.inr (.inr (.inr (.inr (.inr (.inr (.inr (.inr (.inr (.inr (.inr (.inr (.inr (.inr (.inr (.inr (.inr (.inr (.inr (.inr (.inr (.inr (.inr (.inr (.inr (.inr (.inr (.inr (.inl v))))))))))))))))))))))))))))))))) => .appdx v
      | .inr (.inr (.inr (.inr (.inr (.inr (.inr (.inr (.inr (.inr (.inr (.inr (.inr (.inr (.inr (.inr (.inr (.inr (.inr (.inr (.inr (.inr (.inr (.inr (.inr (.inr (.inr (.inr (.inr (.inr (.inr (.inr (.inr (.inr (.inl v)))))))))))))))))))))))))))))))))) => .appdxFig v
      | .inr (.inr (.inr (.inr (.inr (.inr (.inr (.inr (.inr (.inr (.inr (.inr (.inr (.inr (.inr (.inr (.inr (.inr (.inr (.inr (.inr (.inr (.inr (.inr (.inr (.inr (.inr (.inr (.inr (.inr (.inr (.inr (.inr (.inr (.inr (.inl v))))))))))))))))))))))))))))))))))) => .appdxFormat v
      | .inr (.inr (.inr (.inr (.inr (.inr (.inr (.inr (.inr (.inr (.inr (.inr (.inr (.inr (.inr (.inr (.inr (.inr (.inr (.inr (.inr (.inr (.inr (.inr (.inr (.inr (.inr (.inr (.inr (.inr (.inr (.inr (.inr (.inr (.inr (.inr (.inl v)))))))))))))))))))))))))))))))))))) => .supplProvisionAppdxStyle v
      | .inr (.inr (.inr (.inr (.inr (.inr (.inr (.inr (.inr (.inr (.inr (.inr (.inr (.inr (.inr (.inr (.inr (.inr (.inr (.inr (.inr (.inr (.inr (.inr (.inr (.inr (.inr (.inr (.inr (.inr (.inr (.inr (.inr (.inr (.inr (.inr (.inr (.inl v))))))))))))))))))))))))))))))))))))) => .supplProvisionAppdxTable v
      | .inr (.inr (.inr (.inr (.inr (.inr (.inr (.inr (.inr (.inr (.inr (.inr (.inr (.inr (.inr (.inr (.inr (.inr (.inr (.inr (.inr (.inr (.inr (.inr (.inr (.inr (.inr (.inr (.inr (.inr (.inr (.inr (.inr (.inr (.inr (.inr (.inr (.inr (.inl v)))))))))))))))))))))))))))))))))))))) => .supplProvisionAppdx v
      | .inr (.inr (.inr (.inr (.inr (.inr (.inr (.inr (.inr (.inr (.inr (.inr (.inr (.inr (.inr (.inr (.inr (.inr (.inr (.inr (.inr (.inr (.inr (.inr (.inr (.inr (.inr (.inr (.inr (.inr (.inr (.inr (.inr (.inr (.inr (.inr (.inr (.inr (.inr (.inl v))))))))))))))))))))))))))))))))))))))) => .tableStruct v
      | .inr (.inr (.inr (.inr (.inr (.inr (.inr (.inr (.inr (.inr (.inr (.inr (.inr (.inr (.inr (.inr (.inr (.inr (.inr (.inr (.inr (.inr (.inr (.inr (.inr (.inr (.inr (.inr (.inr (.inr (.inr (.inr (.inr (.inr (.inr (.inr (.inr (.inr (.inr (.inr (.inl v)))))))))))))))))))))))))))))))))))))))) => .tableRow v
      | .inr (.inr (.inr (.inr (.inr (.inr (.inr (.inr (.inr (.inr (.inr (.inr (.inr (.inr (.inr (.inr (.inr (.inr (.inr (.inr (.inr (.inr (.inr (.inr (.inr (.inr (.inr (.inr (.inr (.inr (.inr (.inr (.inr (.inr (.inr (.inr (.inr (.inr (.inr (.inr (.inr (.inl v))))))))))))))))))))))))))))))))))))))))) => .tableColumn v
      | .inr (.inr (.inr (.inr (.inr (.inr (.inr (.inr (.inr (.inr (.inr (.inr (.inr (.inr (.inr (.inr (.inr (.inr (.inr (.inr (.inr (.inr (.inr (.inr (.inr (.inr (.inr (.inr (.inr (.inr (.inr (.inr (.inr (.inr (.inr (.inr (.inr (.inr (.inr (.inr (.inr (.inr (.inl v)))))))))))))))))))))))))))))))))))))))))) => .figStruct v
      | .inr (.inr (.inr (.inr (.inr (.inr (.inr (.inr (.inr (.inr (.inr (.inr (.inr (.inr (.inr (.inr (.inr (.inr (.inr (.inr (.inr (.inr (.inr (.inr (.inr (.inr (.inr (.inr (.inr (.inr (.inr (.inr (.inr (.inr (.inr (.inr (.inr (.inr (.inr (.inr (.inr (.inr (.inr (.inl v))))))))))))))))))))))))))))))))))))))))))) => .noteStruct v
      | .inr (.inr (.inr (.inr (.inr (.inr (.inr (.inr (.inr (.inr (.inr (.inr (.inr (.inr (.inr (.inr (.inr (.inr (.inr (.inr (.inr (.inr (.inr (.inr (.inr (.inr (.inr (.inr (.inr (.inr (.inr (.inr (.inr (.inr (.inr (.inr (.inr (.inr (.inr (.inr (.inr (.inr (.inr (.inr (.inl v)))))))))))))))))))))))))))))))))))))))))))) => .styleStruct v
      | .inr (.inr (.inr (.inr (.inr (.inr (.inr (.inr (.inr (.inr (.inr (.inr (.inr (.inr (.inr (.inr (.inr (.inr (.inr (.inr (.inr (.inr (.inr (.inr (.inr (.inr (.inr (.inr (.inr (.inr (.inr (.inr (.inr (.inr (.inr (.inr (.inr (.inr (.inr (.inr (.inr (.inr (.inr (.inr (.inr (.inl v))))))))))))))))))))))))))))))))))))))))))))) => .formatStruct v
      | .inr (.inr (.inr (.inr (.inr (.inr (.inr (.inr (.inr (.inr (.inr (.inr (.inr (.inr (.inr (.inr (.inr (.inr (.inr (.inr (.inr (.inr (.inr (.inr (.inr (.inr (.inr (.inr (.inr (.inr (.inr (.inr (.inr (.inr (.inr (.inr (.inr (.inr (.inr (.inr (.inr (.inr (.inr (.inr (.inr (.inr (.inl v)))))))))))))))))))))))))))))))))))))))))))))) => .remarks v
      | .inr (.inr (.inr (.inr (.inr (.inr (.inr (.inr (.inr (.inr (.inr (.inr (.inr (.inr (.inr (.inr (.inr (.inr (.inr (.inr (.inr (.inr (.inr (.inr (.inr (.inr (.inr (.inr (.inr (.inr (.inr (.inr (.inr (.inr (.inr (.inr (.inr (.inr (.inr (.inr (.inr (.inr (.inr (.inr (.inr (.inr (.inr (.inl v))))))))))))))))))))))))))))))))))))))))))))))) => .lawBody v)

/-- Derived `Serialize` and `Deserialize` of `AmendProvision`, src/law.rs 642-646. -/
def AmendProvision.codec (S : LvlCodec L) : Codec (AmendProvision L) :=
  .struct (
    .field "sentence" (.option (Sentence.codec S)) <|
    .field "new_provision" (.list (NewProvision.codec S)) <|
    .done)
    (fun x => (x.sentence, x.new_provision, ()))
    (fun (sentence, new_provision, _) => { sentence := sentence, new_provision := new_provision })

/-- Derived `Serialize` and `Deserialize` of `TextIndex`, src/utils.rs 329-336. -/
def TextIndex.codec : Codec (TextIndex) :=
  .struct (
    .field "paragraph" ArticleNumber.codec <|
    .field "items" (.list (.option ArticleNumber.codec)) <|
    .done)
    (fun x => (x.paragraph, x.items, ()))
    (fun (paragraph, items, _) => { paragraph := paragraph, items := items })

/-- The derived code, level by level. -/
def codecs : (n : Nat) → LvlCodec (lvl n)
  | 0 => ⟨.empty, .empty, .empty, .empty, .empty⟩
  | n + 1 =>
    { text := Text.codec (codecs n)
      contents := Contents.codec (codecs n)
      item := Item.codec (codecs n)
      tableColumn := TableColumn.codec (codecs n)
      amendProvision := AmendProvision.codec (codecs n) }

end JLaw
