/-!
# Base of the model

Outcomes, XML elements, attribute maps and the small pieces of the Rust
standard library used everywhere.
-/

namespace JLaw

/-- Error values. Models `Error` in src/result.rs lines 7-38. -/
inductive Err
  | missingRequiredAttribute (tagName attributeName : String)
  | missingRequiredTag (tagName : String)
  | attributeParseError (tagName attributeName : String)
  | wrongTagName (wrongName expectedName : String)
  | unexpectedTag (wrongName tag : String)
  | xmlParsing
  | parsingError (what text : String)
  | io
  deriving DecidableEq, Repr

/-- Outcome of running a Rust function that may return `Err`, may panic, or (a
model artefact, see DESIGN.md) may hit the nesting bound of the model. -/
inductive Res (α : Type) where
  | ok (a : α)
  | err (e : Err)
  | panic
  | deep
  deriving DecidableEq, Repr

namespace Res

/-- Rust's `?`: continue on `Ok`, stop otherwise. -/
def bind {α β : Type} : Res α → (α → Res β) → Res β
  | ok a, f => f a
  | err e, _ => err e
  | panic, _ => panic
  | deep, _ => deep

instance : Monad Res where
  pure := ok
  bind := bind

/-- `if let Ok(x) = r { .. }`: an error is swallowed, a panic is not. -/
def skipErr {α : Type} : Res α → Res (Option α)
  | ok a => ok (some a)
  | err _ => ok none
  | panic => panic
  | deep => deep

/-- `Option::unwrap`. -/
def unwrap {α : Type} : Option α → Res α
  | some a => ok a
  | none => panic

/-- `Option::ok_or(e)`. -/
def ofOption {α : Type} (e : Err) : Option α → Res α
  | some a => ok a
  | none => err e

end Res

/-- A `for` loop over a slice with a mutable state `s` and early return through `?`. -/
def foldRes {σ α : Type} (step : σ → α → Res σ) : σ → List α → Res σ
  | s, [] => .ok s
  | s, a :: as => (step s a).bind fun s' => foldRes step s' as

/-- A `for` loop that pushes the results for each element on one vector. -/
def mapRes {α β : Type} (f : α → Res β) : List α → Res (List β)
  | [] => .ok []
  | a :: as => (f a).bind fun b => (mapRes f as).bind fun bs => .ok (b :: bs)

/-- A `for` loop in which each element pushes any number of results on one vector. -/
def collectRes {α β : Type} (f : α → Res (List β)) : List α → Res (List β)
  | [] => .ok []
  | a :: as => (f a).bind fun b => (collectRes f as).bind fun bs => .ok (b ++ bs)

/-! ## usize -/

/-- `usize` on a 64 bit target. -/
abbrev Usize := Fin 18446744073709551616

/-- The ASCII digit of a number below ten. -/
def digitChar (d : Nat) : Char := Char.ofNat (48 + d)

/-- Decimal digits, most significant first: `n.to_string()`. -/
def digits (n : Nat) : List Char :=
  if n < 10 then [digitChar n] else digits (n / 10) ++ [digitChar (n % 10)]

/-- `char::is_ascii_digit`. -/
def isDigit (c : Char) : Bool := 48 ≤ c.toNat && c.toNat ≤ 57

/-- Value of a digit string read from the left. -/
def digitsVal (acc : Nat) : List Char → Nat
  | [] => acc
  | c :: cs => digitsVal (acc * 10 + (c.toNat - 48)) cs

/-- The optional leading `+` accepted by `usize::from_str`. -/
def stripPlus : List Char → List Char
  | [] => []
  | c :: r => if c = '+' then r else c :: r

/-- `str::parse::<usize>().ok()`: optional `+`, at least one decimal digit, no overflow. -/
def parseUsize (s : List Char) : Option Usize :=
  if stripPlus s = [] then none
  else if (stripPlus s).all isDigit then
    if h : digitsVal 0 (stripPlus s) < 18446744073709551616 then some ⟨digitsVal 0 (stripPlus s), h⟩
    else none
  else none

/-- `usize::to_string`. -/
def usizeStr (n : Usize) : String := String.ofList (digits n.val)

/-- `bool::to_string`. -/
def boolStr : Bool → String
  | true => "true"
  | false => "false"

/-- `str::parse::<bool>().ok()`. -/
def parseBool (s : String) : Option Bool :=
  if s = "true" then some true else if s = "false" then some false else none

/-- `str::parse::<usize>().ok()` on a `String`. -/
def parseUsizeStr (s : String) : Option Usize := parseUsize s.toList

/-- `str::parse::<String>().ok()`, which never fails. -/
def parseString (s : String) : Option String := some s

/-- `str::split(c)` for a single character. -/
def splitC (c : Char) : List Char → List (List Char)
  | [] => [[]]
  | x :: xs =>
    if x = c then [] :: splitC c xs
    else match splitC c xs with
      | [] => [[x]]
      | w :: ws => (x :: w) :: ws

/-! ## XML -/

/-- Attribute map, `HashMap<String, String>` in xmltree. Only `insert` and `get` are used. -/
abbrev Attrs := List (String × String)

namespace Attrs

/-- `HashMap::get`. -/
def get : Attrs → String → Option String
  | [], _ => none
  | (k', v) :: r, k => if k' = k then some v else get r k

/-- `HashMap::insert`: replaces an existing entry. -/
def insert (a : Attrs) (k v : String) : Attrs :=
  (k, v) :: a.filter fun p => p.1 ≠ k

/-- `if let Some(v) = o { attributes.insert(k, v) }`. -/
def insertOpt (a : Attrs) (k : String) : Option String → Attrs
  | some v => a.insert k v
  | none => a

end Attrs

/-- `xmltree::XMLNode`; an element node is given by its name, attributes and children. -/
inductive XMLNode where
  | element (name : String) (attributes : Attrs) (children : List XMLNode)
  | text (s : String)
  | comment (s : String)
  | cdata (s : String)
  | processingInstruction (target : String) (data : Option String)
  deriving Repr

/-- `xmltree::Element` without namespace data (never read or written by the crate). -/
structure Element where
  name : String
  attributes : Attrs := []
  children : List XMLNode := []
  deriving Repr

/-- `XMLNode::Element(e)`. -/
def Element.node (e : Element) : XMLNode := .element e.name e.attributes e.children

/-- The text of a text node, the empty string for any other node. -/
def XMLNode.textOrEmpty : XMLNode → String
  | .text s => s
  | _ => ""

/-- `children.iter().map(text or "").collect::<String>()`. -/
def nodesText : List XMLNode → String
  | [] => ""
  | n :: ns => n.textOrEmpty ++ nodesText ns

/-- `Error::missing_required_tag`, src/result.rs 41-45. -/
def missingRequiredTag (tag : String) : Err := .missingRequiredTag tag

/-- `Error::wrong_tag_name`, src/result.rs 47-52. -/
def wrongTagName (e : Element) (expected : String) : Err := .wrongTagName e.name expected

/-- `Error::unexpected_tag`, src/result.rs 54-59. -/
def unexpectedTag (e : Element) (wrong : String) : Err := .unexpectedTag wrong e.name

/-- `get_attribute`, src/lib.rs 161-170. -/
def getAttribute (e : Element) (name : String) : Res String :=
  match e.attributes.get name with
  | some s => .ok s
  | none => .err (.missingRequiredAttribute e.name name)

/-- `get_attribute_with_parse`, src/lib.rs 172-193. -/
def getAttributeWithParse {α : Type} (parse : String → Option α) (e : Element) (name : String) :
    Res α :=
  match e.attributes.get name with
  | some s =>
    match parse s with
    | some t => .ok t
    | none => .err (.attributeParseError e.name name)
  | none => .err (.missingRequiredAttribute e.name name)

/-- `get_attribute_opt_with_parse`, src/lib.rs 195-213. -/
def getAttributeOptWithParse {α : Type} (parse : String → Option α) (e : Element) (name : String) :
    Res (Option α) :=
  match e.attributes.get name with
  | some s =>
    match parse s with
    | some t => .ok (some t)
    | none => .err (.attributeParseError e.name name)
  | none => .ok none

end JLaw
