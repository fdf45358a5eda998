import Verif.Spec.Rewrite

/-!
# Plain text, articles and numbers of a document

What the functions of src/utils.rs give for a document, said of the document itself: which elements
are the articles, and what the text of a paragraph is. Nothing here mentions a reader, a writer or
one of the types of the crate.
-/

namespace JLaw.Spec.Doc

/-- How the base text of ruby and the number of a unit are taken from a document. -/
structure Way where
  /-- the text of the children of a ruby -/
  ruby : List XMLNode → String
  /-- the number for the attribute `Num` -/
  num : Option String → Option String

/-- The children that are elements with the given tag. -/
def tagged (tag : String) (c : List XMLNode) : List XMLNode := c.filter (isNamed [tag])

/-- The value of an attribute. -/
def attrOf (k : String) : XMLNode → Option String
  | .element _ a _ => a.get k
  | _ => none

/-- The first node if it is a string, or else the empty string. -/
def firstString : List XMLNode → String
  | .text s :: _ => s
  | _ => ""

mutual
/-- The text of a piece of the base text of a ruby, with the ruby in it. -/
def nestedPiece : XMLNode → String
  | .text s => s
  | .element n _ c =>
    if n = "Ruby" then nestedText c
    else if n = "Sup" ∨ n = "Sub" then firstString c
    else ""
  | _ => ""
/-- The base text of a ruby, with the ruby in it. -/
def nestedText : List XMLNode → String
  | [] => ""
  | x :: c => nestedPiece x ++ nestedText c
end

/-- For what is written. -/
def asWritten : Way where
  ruby := nestedText
  num o := o

/-- For what is read: elements within a ruby do not count, and a number is read and written again. -/
def asRead : Way where
  ruby c := String.join (c.map string)
  num := Change.number.apply

variable (w : Way)

/-- The text of a piece of a title. -/
def titlePiece : XMLNode → String
  | .text s => s
  | .element n _ c =>
    if n = "Ruby" then w.ruby c
    else if n = "Sup" ∨ n = "Sub" then firstString c
    else ""
  | _ => ""

/-- The text of a title with the given children. -/
def titleText (c : List XMLNode) : String := String.join (c.map (titlePiece w))

/-- The text of a piece of a formula or quotation: superscripts and subscripts are marked. -/
def quotedPiece : XMLNode → String
  | .text s => s
  | .element n _ c =>
    if n = "Ruby" then w.ruby c
    else if n = "Sub" then "_{" ++ firstString c ++ "}"
    else if n = "Sup" then "^{" ++ firstString c ++ "}"
    else ""
  | _ => ""

/-- The text of a piece of a sentence. -/
def sentencePiece : XMLNode → String
  | .element n a c =>
    if n = "ArithFormula" ∨ n = "QuoteStruct" then String.join (c.map (quotedPiece w))
    else quotedPiece w (.element n a c)
  | x => quotedPiece w x

/-- The text of a sentence. -/
def sentenceText (x : XMLNode) : String := String.join ((kidsOf x).map (sentencePiece w))

/-- The text of the sentences among the nodes. -/
def sentencesText (c : List XMLNode) : String :=
  String.join ((tagged "Sentence" c).map (sentenceText w))

/-- The text of a piece of a cell. -/
def cellPiece : XMLNode → String
  | .text s => s
  | .element n a c =>
    if n = "Sentence" then sentenceText w (.element n a c)
    else if n = "Column" then sentencesText w c
    else ""
  | _ => ""

/-- The text of a cell. -/
def cellText (x : XMLNode) : String := String.join ((kidsOf x).map (cellPiece w))

/-- The text of a table: the headers in one line, then a line for each row. -/
def tableText (x : XMLNode) : String :=
  String.intercalate " " ((tagged "TableHeaderRow" (kidsOf x)).map fun r =>
    String.join ((tagged "TableHeaderColumn" (kidsOf r)).map fun h => titleText w (kidsOf h))) ++
  "\n" ++
  String.intercalate "\n" ((tagged "TableRow" (kidsOf x)).map fun r =>
    String.intercalate " " ((tagged "TableColumn" (kidsOf r)).map (cellText w)))

/-- The text of an item: columns are preferred to sentences and sentences to the last table. -/
def bodyText (tables : Bool) (c : List XMLNode) : String :=
  if tagged "Column" c ≠ [] then
    String.intercalate " " ((tagged "Column" c).flatMap fun x =>
      (tagged "Sentence" (kidsOf x)).map (sentenceText w))
  else if tagged "Sentence" c ≠ [] then sentencesText w c
  else match (tagged "Table" c).getLast? with
    | some t => if tables then tableText w t else ""
    | none => ""

/-- A piece of text and where it stands: the number of the paragraph, and those of the items around
it. -/
structure Entry where
  para : Option String
  items : List (Option String)
  text : String
  deriving DecidableEq, Repr

/-- The tags of items. -/
def levelTags : List String :=
  ["Item", "Subitem1", "Subitem2", "Subitem3", "Subitem4", "Subitem5", "Subitem6", "Subitem7",
    "Subitem8", "Subitem9", "Subitem10"]

/-- The entries for the items with the first of the tags among the nodes, and for the items with the
next tags in them. Tables at the sixth level of subitems have no text. -/
def itemEntries (para : Option String) : List (Option String) → List String → List XMLNode →
    List Entry
  | _, [], _ => []
  | around, tag :: tags, c => (tagged tag c).flatMap fun x =>
    ⟨para, around ++ [w.num (attrOf "Num" x)], match (tagged (tag ++ "Sentence") (kidsOf x)).getLast? with
      | some s => bodyText w (tag ≠ "Subitem6") (kidsOf s)
      | none => ""⟩ ::
    itemEntries para (around ++ [w.num (attrOf "Num" x)]) tags (kidsOf x)

/-- The entries for a paragraph. -/
def paragraphEntries (x : XMLNode) : List Entry :=
  ⟨w.num (attrOf "Num" x), [],
    sentencesText w ((tagged "ParagraphSentence" (kidsOf x)).flatMap kidsOf)⟩ ::
  itemEntries w (w.num (attrOf "Num" x)) [] levelTags (kidsOf x)

/-- The text of paragraphs: one line for each entry. -/
def paragraphsText (c : List XMLNode) : String :=
  String.intercalate "\n" ((c.flatMap (paragraphEntries w)).map fun e => e.text)

/-- The text of an article. -/
def articleText (x : XMLNode) : String := paragraphsText w (tagged "Paragraph" (kidsOf x))

/-! ## Articles -/

/-- The tags of units that hold articles. -/
def unitTags : List String := ["Part", "Chapter", "Section", "Subsection", "Division"]

mutual
/-- The articles in a node. -/
def articlesIn : XMLNode → List XMLNode
  | .element n a c =>
    if n = "Article" then [.element n a c] else if unitTags.contains n then articlesAmong c else []
  | _ => []
/-- The articles in the nodes, in their order. -/
def articlesAmong : List XMLNode → List XMLNode
  | [] => []
  | x :: c => articlesIn x ++ articlesAmong c
end

/-- The paragraphs among the nodes, with a new group after each node that meets the condition. -/
def paragraphGroups (cut : XMLNode → Bool) : List XMLNode → List XMLNode → List (List XMLNode)
  | group, [] => [group]
  | group, x :: c =>
    if cut x then group :: paragraphGroups cut [] c
    else if isNamed ["Paragraph"] x then paragraphGroups cut (group ++ [x]) c
    else paragraphGroups cut group c

/-- Whether an element ends a group of paragraphs in a main provision. -/
def cutsMain : XMLNode → Bool := isNamed ["Part", "Chapter", "Section", "Article"]

/-- Whether an element ends a group of paragraphs in a supplementary provision. -/
def cutsSuppl : XMLNode → Bool := isNamed ["Chapter", "Article"]

/-- An article with the numbers that are reported for the units around it. -/
structure Numbered where
  nums : List (String × Option String)
  article : XMLNode

mutual
/-- The articles in a node with the numbers that are reported. A division is reported with its own
number, and the other units with that of the part of them on the way to the article. -/
def numberedIn : XMLNode → List Numbered
  | .element n a c =>
    if n = "Article" then [⟨[], .element n a c⟩]
    else if n = "Division" then
      (articlesAmong c).map fun x => ⟨[(n, w.num (a.get "Num"))], x⟩
    else if unitTags.contains n then numberedAmong n c
    else []
  | _ => []
/-- The articles in the nodes, with the number of the node they come from for the tag. -/
def numberedAmong (tag : String) : List XMLNode → List Numbered
  | [] => []
  | x :: c => ((numberedIn x).map fun r => { r with nums := (tag, w.num (attrOf "Num" x)) :: r.nums }) ++
    numberedAmong tag c
end

/-! ## Units -/

/-- A unit without what it holds. -/
structure LawUnit where
  tag : String
  num : Option String
  title : String
  deriving DecidableEq, Repr

/-- The unit with the given tag, attributes and children. -/
def unitOf (n : String) (a : Attrs) (c : List XMLNode) : LawUnit :=
  ⟨n, w.num (a.get "Num"), match (tagged (n ++ "Title") c).getLast? with
    | some t => titleText w (kidsOf t)
    | none => ""⟩

mutual
/-- The units in a node, with the units around them from the outside in. -/
def unitsIn (around : List LawUnit) : XMLNode → List (List LawUnit × LawUnit)
  | .element n a c =>
    if n = "Article" then [(around, unitOf w n a c)]
    else if unitTags.contains n then
      (around, unitOf w n a c) :: unitsAmong (around ++ [unitOf w n a c]) c
    else []
  | _ => []
/-- The units in the nodes, in their order. -/
def unitsAmong (around : List LawUnit) : List XMLNode → List (List LawUnit × LawUnit)
  | [] => []
  | x :: c => unitsIn around x ++ unitsAmong around c
end

/-- The number of the unit with the given tag on the way down to a unit, which itself counts. -/
def numberOn (tag : String) (p : List LawUnit × LawUnit) : Option String :=
  ((p.1 ++ [p.2]).find? fun u => u.tag = tag).bind fun u => u.num

/-! ## Provisions of a document -/

/-- The children of the body of a law. -/
def bodyOf (e : Element) : List XMLNode := ((e.children[1]?).map kidsOf).getD []

/-- The children of the main provision of a law, the last one if there are several. -/
def mainOf (e : Element) : List XMLNode :=
  (((tagged "MainProvision" (bodyOf e)).getLast?).map kidsOf).getD []

/-- The supplementary provisions of a law. -/
def supplsOf (e : Element) : List XMLNode := tagged "SupplProvision" (bodyOf e)

/-- The chapters, articles and paragraphs of a supplementary provision. -/
def supplKids (x : XMLNode) : List XMLNode :=
  (kidsOf x).filter (isNamed ["Chapter", "Article", "Paragraph"])

end JLaw.Spec.Doc
