import Verif.Model.Base

/-!
# XML trees: depth, parts and articles without contents
-/

namespace JLaw

mutual
/-- Number of nested elements. -/
def XMLNode.height : XMLNode → Nat
  | .element _ _ c => heightList c + 1
  | _ => 0
/-- The largest height in a list of nodes. -/
def heightList : List XMLNode → Nat
  | [] => 0
  | n :: ns => max n.height (heightList ns)
end

/-- `Within x y`: the node `x` is `y` or stands somewhere below `y`. -/
inductive Within (x : XMLNode) : XMLNode → Prop
  | refl : Within x x
  | child (n : String) (a : Attrs) (c : List XMLNode) (y : XMLNode) :
      y ∈ c → Within x y → Within x (.element n a c)

/-- An `Article` element none of whose child elements is anything but a caption or a title. -/
def BareArticle (x : XMLNode) : Prop :=
  ∃ a c, x = .element "Article" a c ∧
    ∀ n' a' c', .element n' a' c' ∈ c → n' = "ArticleCaption" ∨ n' = "ArticleTitle"

/-- Some article in the tree has no contents. -/
def Element.HasBareArticle (e : Element) : Prop := ∃ x, Within x e.node ∧ BareArticle x

/-- An XML tree without the order of attributes and without what comments, processing instructions
and CDATA sections contain. -/
inductive NTree
  | element (name : String) (attrs : String → Option String) (children : List NTree)
  | text (s : String)
  | other

/-- Elements of which some reader takes the first child nodes by position: a comment there shifts
the others. -/
def positionalTags : List String :=
  ["Sup", "Sub", "List", "Sublist1", "Sublist2", "Sublist3", "Part", "Chapter", "Section",
    "Subsection", "Division", "AmendProvisionSentence", "Law"]

/-- The names of attributes that some reader looks at. -/
def knownAttrs : List String :=
  ["Abbrev", "AbbrevKana", "Align", "AmendLawNum", "BorderBottom", "BorderLeft", "BorderRight",
    "BorderTop", "CommonCaption", "Delete", "Era", "Extract", "Function", "Hide", "Indent", "Kana",
    "Lang", "LawType", "LineBreak", "Num", "OldNum", "OldStyle", "PromulgateDay",
    "PromulgateMonth", "Style", "Subject", "Type", "Valign", "WritingMode", "Year", "colspan",
    "rowspan", "src"]

/-- Neither an element nor a text. -/
def XMLNode.isOther : XMLNode → Bool
  | .element .. | .text _ => false
  | _ => true

mutual
/-- What of a node may matter: the known attributes as a map, and for elements other than
`positionalTags` only those children that are elements or texts. -/
def XMLNode.norm : XMLNode → NTree
  | .element n a c => .element n (fun k => if knownAttrs.contains k then a.get k else none)
    (normList (positionalTags.contains n) c)
  | .text s => .text s
  | _ => .other
def normList (keep : Bool) : List XMLNode → List NTree
  | [] => []
  | x :: xs => if x.isOther && !keep then normList keep xs else x.norm :: normList keep xs
end

/-- The two elements differ at most in the order of attributes, in unknown attributes, and by comments, processing
instructions and CDATA sections, outside of the elements in `positionalTags`. -/
def Element.Same (e e' : Element) : Prop := e.node.norm = e'.node.norm

end JLaw
