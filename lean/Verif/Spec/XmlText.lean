import Verif.Spec.Settle

/-!
# XML as text

A writer and a reader of XML texts, to have an instance of what the theorems on files assume about the
crate `xmltree`. Neither is code of the repository: they do what `write_with_config` with
`perform_indent(true)` (src/lib.rs 137-139) and `Element::parse` are used for, for elements, attributes
and texts. Characters that XML does not allow are written and read like any others.
-/

namespace JLaw.Spec

/-! ## Writing -/

/-- Characters that mean something else in XML. -/
def escapeChar (c : Char) : List Char :=
  if c = '&' then "&amp;".toList
  else if c = '<' then "&lt;".toList
  else if c = '>' then "&gt;".toList
  else if c = '"' then "&quot;".toList
  else [c]

/-- A string as it stands in the text. -/
def escape (s : List Char) : List Char := s.flatMap escapeChar

/-- A new line with two blanks per level. -/
def indent (level : Nat) : List Char := '\n' :: List.replicate (2 * level) ' '

/-- The attributes of a tag. -/
def writeAttrs (a : Attrs) : List Char :=
  a.flatMap fun p => ' ' :: p.1.toList ++ '=' :: '"' :: escape p.2.toList ++ ['"']

mutual
/-- An element, of which the start tag has been indented. -/
def writeNode (level : Nat) : XMLNode → List Char
  | .element n a c =>
    '<' :: n.toList ++ writeAttrs a ++
      match c with
      | [] => " />".toList
      | _ => '>' :: writeNodes (level + 1) false c ++ "</".toList ++ n.toList ++ ['>']
  | _ => []
/-- The content of an element: a new line before every tag, but for tags after a text. -/
def writeNodes (level : Nat) (afterText : Bool) : List XMLNode → List Char
  | [] => if afterText then [] else indent (level - 1)
  | .text s :: c => escape s.toList ++ writeNodes level true c
  | .element n a d :: c =>
    (if afterText then [] else indent level) ++ writeNode level (.element n a d) ++
      writeNodes level false c
  | _ :: c => writeNodes level afterText c
end

/-- The first line of the text. -/
def declaration : List Char := "<?xml version=\"1.0\" encoding=\"UTF-8\"?>".toList

/-- A document as text. -/
def writeXml (e : Element) : List Char := declaration ++ indent 0 ++ writeNode 0 e.node

/-! ## Reading -/

/-- The string that stands in the text. -/
def unescape : List Char → Option (List Char)
  | [] => some []
  | '&' :: 'a' :: 'm' :: 'p' :: ';' :: r => (unescape r).map ('&' :: ·)
  | '&' :: 'l' :: 't' :: ';' :: r => (unescape r).map ('<' :: ·)
  | '&' :: 'g' :: 't' :: ';' :: r => (unescape r).map ('>' :: ·)
  | '&' :: 'q' :: 'u' :: 'o' :: 't' :: ';' :: r => (unescape r).map ('"' :: ·)
  | c :: r => if c = '&' then none else (unescape r).map (c :: ·)

/-- An element whose end tag has not been read. -/
structure Frame where
  name : String
  attributes : Attrs
  children : List XMLNode

/-- Where the reader is; strings are what has been read of them. -/
inductive Mode
  /-- between tags -/
  | text (raw : List Char)
  /-- in the name of a start tag -/
  | start (name : List Char)
  /-- in a start tag, before an attribute -/
  | attrs (name : String) (a : Attrs)
  /-- in the name of an attribute -/
  | key (name : String) (a : Attrs) (k : List Char)
  /-- before the value of an attribute -/
  | quote (name : String) (a : Attrs) (k : String)
  /-- in the value of an attribute -/
  | value (name : String) (a : Attrs) (k : String) (raw : List Char)
  /-- after the slash at the end of an empty element -/
  | slash (name : String) (a : Attrs)
  /-- in the name of an end tag -/
  | close (name : List Char)

/-- A state of the reader: the open elements, the document if it has been read, and where it is. -/
structure Reader where
  stack : List Frame
  root : Option Element
  mode : Mode

/-- A text that is not blank. -/
def textNode (s : List Char) : List XMLNode :=
  if blank (String.ofList s) then [] else [.text (String.ofList s)]

/-- A text has been read. -/
def addText (s : List Char) (stack : List Frame) : Option (List Frame) :=
  match stack with
  | f :: r => some ({ f with children := f.children ++ textNode s } :: r)
  | [] => if blank (String.ofList s) then some [] else none

/-- An element has been read. -/
def addElement (e : Element) (stack : List Frame) : Option Reader :=
  match stack with
  | f :: r => some ⟨{ f with children := f.children ++ [e.node] } :: r, none, .text []⟩
  | [] => some ⟨[], some e, .text []⟩

/-- One character. -/
def readChar (q : Reader) (c : Char) : Option Reader :=
  match q.mode with
  | .text raw =>
    if c = '<' then
      if q.root.isSome then none
      else (unescape raw).bind fun s => (addText s q.stack).bind fun st => some ⟨st, none, .start []⟩
    else some { q with mode := .text (raw ++ [c]) }
  | .start n =>
    if n = [] ∧ c = '/' then some { q with mode := .close [] }
    else if c = ' ' then some { q with mode := .attrs (String.ofList n) [] }
    else if c = '>' then some ⟨⟨String.ofList n, [], []⟩ :: q.stack, none, .text []⟩
    else if c = '/' then some { q with mode := .slash (String.ofList n) [] }
    else some { q with mode := .start (n ++ [c]) }
  | .attrs n a =>
    if c = ' ' then some q
    else if c = '>' then some ⟨⟨n, a, []⟩ :: q.stack, none, .text []⟩
    else if c = '/' then some { q with mode := .slash n a }
    else some { q with mode := .key n a [c] }
  | .key n a k =>
    if c = '=' then some { q with mode := .quote n a (String.ofList k) }
    else some { q with mode := .key n a (k ++ [c]) }
  | .quote n a k => if c = '"' then some { q with mode := .value n a k [] } else none
  | .value n a k raw =>
    if c = '"' then
      (unescape raw).bind fun v => some { q with mode := .attrs n (a ++ [(k, String.ofList v)]) }
    else some { q with mode := .value n a k (raw ++ [c]) }
  | .slash n a => if c = '>' then addElement ⟨n, a, []⟩ q.stack else none
  | .close n =>
    if c = '>' then
      match q.stack with
      | f :: r => if f.name = String.ofList n then addElement ⟨f.name, f.attributes, f.children⟩ r else none
      | [] => none
    else some { q with mode := .close (n ++ [c]) }

/-- All characters. -/
def readChars (q : Reader) (cs : List Char) : Option Reader := cs.foldlM readChar q

/-- What follows the declaration, if there is one. -/
def afterDeclaration : List Char → List Char
  | '<' :: '?' :: r => (r.dropWhile (· ≠ '>')).tail
  | cs => cs

/-- The document that stands in a text. -/
def readXml (cs : List Char) : Option Element :=
  (readChars ⟨[], none, .text []⟩ (afterDeclaration cs)).bind fun q =>
    match q with
    | ⟨[], some e, .text raw⟩ =>
      (unescape raw).bind fun s => if blank (String.ofList s) then some e else none
    | _ => none

/-! ## Names -/

/-- Letters and digits, at least one. -/
def SimpleName (s : String) : Prop := s.toList ≠ [] ∧ ∀ c ∈ s.toList, c.isAlphanum = true

/-- All names of tags and attributes in the document are simple. -/
def SimpleNames (e : Element) : Prop :=
  ∀ n a c, Within (.element n a c) e.node → SimpleName n ∧ ∀ p ∈ a, SimpleName p.1

end JLaw.Spec
