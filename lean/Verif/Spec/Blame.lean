import Verif.Spec.Verdict

/-!
# What is wrong with a document that is reported

`Reached d x` says that the element `x` of the document `d` is read. `Err.TrueOf` says that a report
is true of an element when it is taken literally, and `Misreport` lists the reports that are made and
are not. Nothing here mentions a reader or the order in which things are looked at.
-/

namespace JLaw.Spec

/-- The second element is the first one or is read below it. -/
inductive Reached : Element → Element → Prop
  | here (e : Element) : Reached e e
  | step {e x y : Element} {r : Rule} : rules.lookup e.name = some r → x ∈ r.read e → Reached x y →
      Reached e y

/-- A separator in the number of an article. -/
def IsSep (c : Char) : Prop := c = ':' ∨ c = '_'

/-- `w` stands in `s` between separators. -/
def IsField (w s : List Char) : Prop :=
  ∃ pre suf, s = pre ++ w ++ suf ∧ (∀ c ∈ w, ¬ IsSep c) ∧
    (pre = [] ∨ ∃ p c, IsSep c ∧ pre = p ++ [c]) ∧ (suf = [] ∨ ∃ c q, IsSep c ∧ suf = c :: q)

/-- The child elements after the first nodes. -/
def Rule.rest (r : Rule) (x : Element) : List Element := elems (x.children.drop r.first.length)

/-- An element that is not the first ones and may not stand in `x`. -/
def Rule.Stranger (r : Rule) (x y : Element) : Prop :=
  y ∈ r.rest x ∧ y.name ∉ r.kids ∧ ∃ t, r.skipped = some t ∧ y.name ∉ t

/-- The node at the place `i` is an element with the tag `n`. -/
def TagAt (x : Element) (i : Nat) (n : String) : Prop := ∃ a d, x.children[i]? = some (.element n a d)

/-- One of the tags in `g` is needed, and there is none. -/
def Rule.Lacks (r : Rule) (x : Element) (g : List String) : Prop :=
  g ∈ r.must ∧ ∀ y ∈ r.rest x, y.name ∉ g

/-- The report, taken literally, is true of the element `x` for which there is the rule `r`. -/
def _root_.JLaw.Err.TrueOf (x : Element) (r : Rule) : Err → Prop
  | .missingRequiredAttribute t k =>
    x.name = t ∧ x.attributes.get k = none ∧ ∃ a, (k, a) ∈ r.attrs ∧ ¬ a.Holds none
  | .attributeParseError t k =>
    x.name = t ∧ ∃ a, (k, a) ∈ r.attrs ∧ ¬ a.Holds (x.attributes.get k)
  | .missingRequiredTag t =>
    (∃ g, r.Lacks x g ∧ t ∈ g) ∨ ∃ i, r.first[i]? = some t ∧ ∀ n, ¬ TagAt x i n
  | .unexpectedTag n t => x.name = t ∧ ∃ y, r.Stranger x y ∧ y.name = n
  | .wrongTagName n t => n ≠ t ∧
    ((r.kids = [t] ∧ ∃ y, r.Stranger x y ∧ y.name = n) ∨ ∃ i, r.first[i]? = some t ∧ TagAt x i n)
  | .parsingError what w => what = "usize" ∧ ¬ IsCount w ∧ ∃ k a v, (k, a) ∈ r.attrs ∧
    x.attributes.get k = some v ∧ ((a = .countOrEmpty ∧ v = w) ∨
      ((a = .mustNumber ∨ a = .numberOrEmpty) ∧ IsField w.toList v.toList))
  | .xmlParsing => False
  | .io => False

/-- Elements for which strangers are reported in the element around them. -/
def outerTags : List (String × String) := [
  ("ListSentence", "List"), ("Sublist1Sentence", "Sublist1"), ("Sublist2Sentence", "Sublist2"),
  ("Sublist3Sentence", "Sublist3"), ("NewProvision", "AmendProvision")]

/-- Something is wrong with the element `x`, and the report names something else. -/
inductive Misreport (x : Element) (r : Rule) : Err → Prop
  /-- the kind of a supplementary provision: the tag in the report is misspelt -/
  | type : x.name = "SupplProvision" →
      ¬ (AttrRule.oneOf ["New", "Amend"]).Holds (x.attributes.get "Type") →
      Misreport x r (.attributeParseError "SupplProbision" "Type")
  /-- an element is missing, and the report does not give its tag -/
  | missing {g : List String} {name : String} : r.Lacks x g →
      missingNames.lookup x.name = some name → Misreport x r (.missingRequiredTag name)
  /-- the sentence is missing, and the report has the tag of the element around it -/
  | amendSentence : x.name = "AmendProvisionSentence" → (∀ n, ¬ TagAt x 0 n) →
      Misreport x r (.missingRequiredTag "AmendProvision")
  /-- the sentences of a list do not come first, and the report has the tag of the list -/
  | list {s : String} : listParts.lookup x.name = some s → ¬ Starts r.first x.children →
      (x.name = "List" ∨ ¬ TagAt x 0 x.name) → Misreport x r (.wrongTagName x.name s)
  /-- another element stands at the place of a title or of the number of the law, and the report
  is that it stands in it -/
  | first {i : Nat} {n t : String} : r.first[i]? = some t → TagAt x i n → n ≠ t →
      Misreport x r (.unexpectedTag n t)
  /-- an element is reported in the element around the one it stands in -/
  | outer {y : Element} {t : String} : outerTags.lookup x.name = some t → r.Stranger x y →
      Misreport x r (.unexpectedTag y.name t)
  /-- the tag is said to be wrong and to be the one expected -/
  | same {y : Element} : x.name = "SupplProvisionAppdxTable" → r.Stranger x y →
      Misreport x r (.wrongTagName y.name y.name)

end JLaw.Spec
