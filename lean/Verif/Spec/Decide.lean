import Verif.Spec.Accept

/-!
# Deciding whether a document is accepted

A program that goes through a document once and checks the rules of `Spec.rules`.
-/

namespace JLaw.Spec

/-! ## Numbers -/

/-- Decimal digits without leading zeros. -/
def plainDigits (ds : List Char) : List Char :=
  match ds.dropWhile (· == '0') with
  | [] => ['0']
  | r => r

/-- A literal without its sign. -/
def unsigned : List Char → List Char
  | '+' :: r => r
  | s => s

/-- The digits of a literal of a number below 2^64, without sign and leading zeros; `none` if it is
not such a literal. -/
def literal? (s : List Char) : Option (List Char) :=
  let ds := unsigned s
  if ds ≠ [] ∧ (∀ c ∈ ds, '0'.toNat ≤ c.toNat ∧ c.toNat ≤ '9'.toNat) ∧ decimal ds < 2 ^ 64 then
    some (plainDigits ds)
  else none

/-- The parts of a string between the separators. -/
def fields (sep : Char) (s : List Char) : List (List Char) :=
  s.foldr (fun c ws => if c = sep then [] :: ws else (c :: ws.headD []) :: ws.tail) [[]]

/-- The literals of a string of literals separated by underscores. -/
def literals? (s : List Char) : Option (List (List Char)) :=
  (fields '_' s).mapM literal?

/-- How the number of an article is written again. What follows a second colon is lost; the range
is repeated after each branch number and lost if there is none. `none` if it is no such number. -/
def number? (s : List Char) : Option (List Char) :=
  match fields ':' s with
  | [] => none
  | [a] => (literals? a).map (List.intercalate ['_'])
  | a :: b :: _ =>
    match literals? a, literals? b with
    | some (n :: ns), some rs =>
      some (n ++ ns.flatMap fun k => '_' :: k ++ ':' :: List.intercalate ['_'] rs)
    | _, _ => none

/-! ## Rules -/

/-- Whether the condition holds. -/
def AttrRule.check : AttrRule → Option String → Bool
  | .bool, o => o == none || o == some "true" || o == some "false"
  | .count, o => o.all fun s => (literal? s.toList).isSome
  | .mustCount, o => o.any fun s => (literal? s.toList).isSome
  | .countOrEmpty, o => o.all fun s => s == "" || (literal? s.toList).isSome
  | .mustNumber, o => o.any fun s => (number? s.toList).isSome
  | .numberOrEmpty, o => o.any fun s => s == "" || (number? s.toList).isSome
  | .oneOf values, o => o.all fun s => values.contains s
  | .mustOneOf values, o => o.any fun s => values.contains s
  | .present, o => o.isSome

/-- Whether the first nodes are elements with the given tags. -/
def startsWith : List String → List XMLNode → Bool
  | [], _ => true
  | t :: ts, .element n _ _ :: c => n == t && startsWith ts c
  | _ :: _, _ => false

/-- Whether the child elements after the first nodes come in the right order. -/
def Rule.checkSequence (r : Rule) (l : List Element) : Bool :=
  (l.dropWhile fun x => r.heads.contains x.name).all fun x =>
    r.kids.contains x.name || r.skipped.all fun t => t.contains x.name

/-- Whether a node after the first ones is accepted if it is read. -/
def Rule.checkNode (r : Rule) : XMLNode × Bool → Bool
  | (.element n _ _, ok) => !(r.heads ++ r.kids).contains n || ok
  | _ => true

/-- Whether the rule is obeyed; the child nodes come with whether they are accepted. -/
def Rule.check (r : Rule) (a : Attrs) (c : List (XMLNode × Bool)) : Bool :=
  let rest := elems ((c.map Prod.fst).drop r.first.length)
  r.attrs.all (fun p => p.2.check (a.get p.1)) && startsWith r.first (c.map Prod.fst) &&
  r.checkSequence rest && r.must.all (fun g => rest.any fun x => g.contains x.name) &&
  (c.take r.first.length).all Prod.snd &&
  (c.drop r.first.length).all r.checkNode

mutual
/-- Whether a node is accepted; nodes other than elements are. -/
def accepts : XMLNode → Bool
  | .element n a c =>
    match rules.lookup n with
    | some r => r.check a (acceptsList c)
    | none => false
  | _ => true
/-- The nodes, and whether each is accepted. -/
def acceptsList : List XMLNode → List (XMLNode × Bool)
  | [] => []
  | x :: c => (x, accepts x) :: acceptsList c
end

end JLaw.Spec
