import Verif.Spec.Rewrite
import Verif.Spec.Tree

/-!
# What an XML file keeps of a document

An XML reader sees neither where one text ends and the next one begins nor texts of white space
between tags. Nothing here mentions a reader or a writer of laws.
-/

namespace JLaw.Spec

/-- Whether a text is nothing but white space. -/
def blank (s : String) : Bool :=
  s.toList.all fun c => c == ' ' || c == '\t' || c == '\n' || c == '\r'

/-- Each run of texts becomes one text. -/
def joinTexts : List XMLNode → List XMLNode
  | [] => []
  | .text s :: c =>
    match joinTexts c with
    | .text t :: d => .text (s ++ t) :: d
    | d => .text s :: d
  | x :: c => x :: joinTexts c

/-- Whether a node is a text of white space. -/
def isBlank : XMLNode → Bool
  | .text s => blank s
  | _ => false

/-- The nodes as they are found in a file. -/
def tidy (c : List XMLNode) : List XMLNode := (joinTexts c).filter fun x => !isBlank x

mutual
/-- The node as it is found in a file after it has been written there. -/
def settleNode : XMLNode → XMLNode
  | .element n a c => .element n a (tidy (settleEach c))
  | x => x
/-- Each of the nodes on its own. -/
def settleEach : List XMLNode → List XMLNode
  | [] => []
  | x :: c => settleNode x :: settleEach c
end

/-- The document as it is found in a file after it has been written there. -/
def settle (e : Element) : Element := ⟨e.name, e.attributes, tidy (settleEach e.children)⟩

/-- No text follows another text. -/
def Apart : List XMLNode → Prop
  | .text _ :: .text _ :: _ => False
  | _ :: c => Apart c
  | [] => True

/-- A document as it is found in a file: no text follows another one, and no text is blank. -/
def Settled (e : Element) : Prop :=
  ∀ n a c, Within (.element n a c) e.node → Apart c ∧ ∀ s, .text s ∈ c → blank s = false

/-- The elements that are read as one string, which is empty if there is none. -/
def stringTags : List String := ["LawNum", "Rt", "Sup", "Sub"]

/-- No text follows another one, and no text is blank apart from empty texts in `stringTags`. -/
def Quiet (e : Element) : Prop :=
  ∀ n a c, Within (.element n a c) e.node →
    Apart c ∧ ∀ s, .text s ∈ c → blank s = true → s = "" ∧ n ∈ stringTags

/-- Neither comments nor processing instructions nor CDATA sections. -/
def NoComments (e : Element) : Prop := ∀ x, Within x e.node → x.isOther = false

/-- The elements whose content is a text. -/
def textElements : List String :=
  (layouts.filter fun p => p.2.parts.any fun | .text => true | _ => false).map Prod.fst

/-- No text is cut in two by an element that is not read: there are only ruby, superscripts,
subscripts and accepted lines in a text, and only one string in a ruby. -/
def WholeTexts (e : Element) : Prop :=
  ∀ n a c, Within (.element n a c) e.node →
    (n ∈ textElements → ∀ m b d, .element m b d ∈ c →
      m ∈ ["Ruby", "Sup", "Sub"] ∨ m = "Line" ∧ accepts (.element m b d) = true) ∧
    (n = "Ruby" → (c.filter isString).length ≤ 1)

end JLaw.Spec
