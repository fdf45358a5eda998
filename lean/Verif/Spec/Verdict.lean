import Verif.Spec.Decide

/-!
# What reading a document leads to

`Spec.rules` says which documents are accepted. Here is what becomes of the others: which error is
reported, or whether the program panics. An element is judged from the verdicts on its child
elements. Nothing here mentions a reader.
-/

namespace JLaw.Spec

/-- A value, an error or a panic. -/
inductive Verdict
  | fine
  | wrong (e : Err)
  | crash
  deriving DecidableEq, Repr

namespace Verdict

/-- The first verdict that is not fine counts. -/
def andThen : Verdict → Verdict → Verdict
  | .fine, v => v
  | v, _ => v

/-- The first verdict that is not fine counts. -/
def all : List Verdict → Verdict
  | [] => .fine
  | v :: vs => v.andThen (all vs)

/-- Errors are passed over, panics are not. -/
def tolerated : Verdict → Verdict
  | .crash => .crash
  | _ => .fine

/-- An error unless the condition holds. -/
def require (ok : Bool) (e : Err) : Verdict := if ok then .fine else .wrong e

end Verdict

open Verdict

/-! ## Attributes -/

/-- Parts of the number of an article: the first part that is not a number is reported. -/
def partsVerdict (ws : List (List Char)) : Verdict :=
  match ws.find? fun w => (literal? w).isNone with
  | some w => .wrong (.parsingError "usize" (String.ofList w))
  | none => .fine

/-- The number of an article. What follows a second colon is not looked at. -/
def numberVerdict (s : String) : Verdict :=
  partsVerdict (((fields ':' s.toList).take 2).flatMap (fields '_'))

/-- Tags for which a wrong number is reported by the name of the attribute. -/
def tocEntryTags : List String :=
  ["TOCPart", "TOCChapter", "TOCSection", "TOCSubsection", "TOCDivision", "TOCArticle"]

/-- The tag that is named in the report on an attribute. -/
def blamed (tag k : String) : String :=
  if tag = "SupplProvision" ∧ k = "Type" then "SupplProbision" else tag

/-- The verdict on the value of the attribute `k` of an element. -/
def AttrRule.verdict (tag k : String) (r : AttrRule) (o : Option String) : Verdict :=
  match r with
  | .bool | .count | .oneOf _ | .mustOneOf _ =>
    require (r.check o) (.attributeParseError (blamed tag k) k)
  | .mustCount => o.elim (.wrong (.missingRequiredAttribute tag k)) fun s =>
    require (literal? s.toList).isSome (.attributeParseError tag k)
  | .countOrEmpty => o.elim .fine fun s =>
    require (s == "" || (literal? s.toList).isSome) (.parsingError "usize" s)
  | .mustNumber => o.elim (.wrong (.missingRequiredAttribute tag k)) fun s =>
    if tocEntryTags.contains tag then
      require (number? s.toList).isSome (.attributeParseError tag k)
    else numberVerdict s
  | .numberOrEmpty => o.elim .crash fun s => if s = "" then .fine else numberVerdict s
  | .present => require o.isSome (.missingRequiredAttribute tag k)

/-! ## Child elements -/

/-- Reports on a child element with an unexpected tag that do not say that the tag of the child is
unexpected in the element; the argument is the tag of the child. -/
def strangers : List (String × (String → Err)) := [
  ("Column", fun n => .wrongTagName n "Sentence"),
  ("ParagraphSentence", fun n => .wrongTagName n "Sentence"),
  ("List", fun n => .wrongTagName n "Sublist1"),
  ("Sublist1", fun n => .wrongTagName n "Sublist2"),
  ("Sublist2", fun n => .wrongTagName n "Sublist3"),
  ("ListSentence", fun n => .unexpectedTag n "List"),
  ("Sublist1Sentence", fun n => .unexpectedTag n "Sublist1"),
  ("Sublist2Sentence", fun n => .unexpectedTag n "Sublist2"),
  ("Sublist3Sentence", fun n => .unexpectedTag n "Sublist3"),
  ("NewProvision", fun n => .unexpectedTag n "AmendProvision"),
  ("SupplProvisionAppdxTable", fun n => .wrongTagName n n)]

/-- The report on a child element with an unexpected tag `n`. -/
def stranger (tag n : String) : Err :=
  match strangers.lookup tag with
  | some f => f n
  | none => .unexpectedTag n tag

/-- The element that is missing according to the report on a list. -/
def listParts : List (String × String) := [
  ("List", "LiseSentence"), ("Sublist1", "Sublist1Sentence"), ("Sublist2", "Sublist2Sentence"),
  ("Sublist3", "Sublist3Sentence")]

/-- The report when one of the first nodes should have the tag `t` and has the tag `n`. -/
def wrongFirst (tag t n : String) : Err :=
  match listParts.lookup tag with
  | some s => .wrongTagName tag s
  | none => if ["LawBody", "Sentence"].contains t then .wrongTagName n t else .unexpectedTag n t

/-- The report when one of the first nodes should have the tag `t` and is no element or missing. -/
def noFirst (tag t : String) : Err :=
  match listParts.lookup tag with
  | some s => .wrongTagName tag s
  | none => .missingRequiredTag (if tag = "AmendProvisionSentence" then "AmendProvision" else t)

/-- The names in reports on missing elements that are not the tag of the missing element. -/
def missingNames : List (String × String) :=
  itemTags.map (fun t => (t, "Sentence or Column or Table")) ++
  itemTags.map (fun t => (t ++ "Sentence", "Sentence or Column or Table")) ++ [
  ("ClassSentence", "Sentence or Column or Table"),
  ("Class", "Sentence or Column"),
  ("TOCArticle", "Caption"),
  ("SupplProvisionAppdxTable", "SupplProbisionAddxTableTitle"),
  ("SupplProvisionAppdxStyle", "SupplProbivionAppdxStyle")]

/-- The report when there is no child element with one of the tags. -/
def missing (tag : String) (g : List String) : Err :=
  .missingRequiredTag ((missingNames.lookup tag).getD (g.headD ""))

/-- Tags of elements in which child elements that are not read are not looked at. In the others,
which hold text, lines are tried. -/
def blindTags : List String :=
  ["Law", "LawNum", "Preamble", "AmendProvisionSentence", "Ruby", "Sup", "Sub", "Fig",
    "TableHeaderRow", "TableRow", "Sublist3"]

/-- The verdict on a node after the first ones and after the heads. -/
def Rule.judgeNode (tag : String) (r : Rule) : XMLNode × Verdict → Verdict
  | (.element n _ _, v) =>
    if r.kids.contains n then v
    else match r.skipped with
      | some t => if t.contains n then v.tolerated else .wrong (stranger tag n)
      | none => if n == "Line" && !blindTags.contains tag then v.tolerated else .fine
  | _ => .fine

/-- The verdict on the nodes after the first ones if there are heads: when nothing but heads follows,
the program panics. -/
def Rule.judgeHeads (tag : String) (r : Rule) : List (XMLNode × Verdict) → Verdict
  | [] => .crash
  | (.element n a d, v) :: c =>
    if r.heads.contains n then v.andThen (r.judgeHeads tag c)
    else all (((XMLNode.element n a d, v) :: c).map (r.judgeNode tag))
  | _ :: c => r.judgeHeads tag c

/-- The verdict on the nodes after the first ones. -/
def Rule.judgeRest (tag : String) (r : Rule) (c : List (XMLNode × Verdict)) : Verdict :=
  if r.heads = [] then all (c.map (r.judgeNode tag)) else r.judgeHeads tag c

/-- The verdict on the first nodes. -/
def judgeFirst (tag : String) : List String → List (XMLNode × Verdict) → Verdict
  | [], _ => .fine
  | t :: ts, (.element n _ _, v) :: c =>
    if n = t then v.andThen (judgeFirst tag ts c) else .wrong (wrongFirst tag t n)
  | t :: _, _ => .wrong (noFirst tag t)

/-- The verdict on the attributes. -/
def Rule.judgeAttrs (tag : String) (r : Rule) (a : Attrs) : Verdict :=
  all (r.attrs.map fun p => p.2.verdict tag p.1 (a.get p.1))

/-- The verdict on the elements that have to be there. -/
def Rule.judgeMust (tag : String) (r : Rule) (c : List XMLNode) : Verdict :=
  all (r.must.map fun g => require ((elems c).any fun x => g.contains x.name) (missing tag g))

/-- The tags of captions: their attributes come last. -/
def captionTags : List String := ["ArticleCaption", "ParagraphCaption"]

/-- The verdict on an element; the child nodes come with the verdicts on them. -/
def Rule.judge (tag : String) (r : Rule) (a : Attrs) (c : List (XMLNode × Verdict)) : Verdict :=
  let rest := c.drop r.first.length
  if captionTags.contains tag then (r.judgeRest tag rest).andThen (r.judgeAttrs tag a)
  else
    (r.judgeAttrs tag a).andThen ((judgeFirst tag r.first c).andThen
      ((r.judgeRest tag rest).andThen (r.judgeMust tag (rest.map Prod.fst))))

mutual
/-- The verdict on a node. -/
def judge : XMLNode → Verdict
  | .element n a c =>
    match rules.lookup n with
    | some r => r.judge n a (judgeList c)
    | none => .fine
  | _ => .fine
/-- The nodes with the verdicts on them. -/
def judgeList : List XMLNode → List (XMLNode × Verdict)
  | [] => []
  | x :: c => (x, judge x) :: judgeList c
end

/-- The verdict on a document. -/
def judgeLaw (e : Element) : Verdict :=
  if e.name = "Law" then judge e.node else .wrong (.wrongTagName e.name "Law")

end JLaw.Spec
