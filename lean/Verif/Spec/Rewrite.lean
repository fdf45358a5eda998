import Verif.Spec.Decide

/-!
# What becomes of a document that is read and written again

One table that says for every tag which attributes and children are written, and one definition
that applies it to a whole document. Nothing here mentions a reader or a writer.
-/

namespace JLaw.Spec

/-! ## Attributes -/

/-- What becomes of the value of an attribute. -/
inductive Change
  /-- it stays -/
  | same
  /-- it stays if it is one of the given values and is lost otherwise -/
  | only (values : List String)
  /-- it stays; if there is none, the given value is written -/
  | orElse (value : String)
  /-- a number loses its sign and leading zeros; an empty value is lost -/
  | count
  /-- the number of an article is written again by `number?`; anything else is lost -/
  | number
  /-- `double` becomes `dotted` -/
  | style
  /-- `double` becomes `dotted`; anything that is no style, or nothing, becomes `solid` -/
  | border
  deriving DecidableEq

/-- `double` becomes `dotted`. -/
def dotted (s : String) : String := if s = "double" then "dotted" else s

/-- The value that is written for the value that is there. -/
def Change.apply : Change → Option String → Option String
  | .same, o => o
  | .only values, o => o.filter fun s => values.contains s
  | .orElse value, o => some (o.getD value)
  | .count, o => o.bind fun s => (literal? s.toList).map String.ofList
  | .number, o => o.bind fun s => (number? s.toList).map String.ofList
  | .style, o => o.map dotted
  | .border, o => some (((o.filter fun s => lineStyles.contains s).map dotted).getD "solid")

/-- An attribute of what is written: its name, and the attribute its value comes from. -/
structure Copy where
  name : String
  source : String := name
  change : Change := .same

/-! ## Children -/

/-- Some of the children of what is written. -/
inductive Portion
  /-- the elements with these tags -/
  | each (tags : List String)
  /-- all elements -/
  | elements
  /-- the first nodes -/
  | first (n : Nat)
  /-- the last element with this tag -/
  | last (tag : String)
  /-- the last element with this tag, under another tag -/
  | lastUnder (tag under : String)
  /-- the last element with this tag, or else one with these children and no attributes -/
  | lastOr (tag : String) (children : List XMLNode := [])
  /-- the last element with this tag, unless nothing of its children is written -/
  | lastUnlessEmpty (tag : String)
  /-- one element with what is written of the children of all elements with this tag -/
  | merged (tag : String)
  /-- what is written of the children of the elements with this tag, each in an element of its own
  with another tag -/
  | wrapped (tag wrapper : String)
  /-- the strings -/
  | strings
  /-- strings and elements -/
  | mixed
  /-- strings, ruby, superscripts, subscripts, and the lines that are accepted -/
  | text
  /-- the text of the children, as one string -/
  | joined
  /-- the first child if it is a string, or else an empty string -/
  | firstString
  /-- the accepted elements with this tag that come before any element with the other tag -/
  | before (tag other : String)
  /-- the accepted elements with this tag that come after the first element with the other tag -/
  | after (tag other : String)
  /-- the first of two if it is not empty, or else the second -/
  | either (p q : Portion)

/-- Whether a node is an element with one of the given tags. -/
def isNamed (tags : List String) : XMLNode → Bool
  | .element n _ _ => tags.contains n
  | _ => false

/-- Whether a node is an element. -/
def isElement : XMLNode → Bool
  | .element .. => true
  | _ => false

/-- Whether a node is a string. -/
def isString : XMLNode → Bool
  | .text _ => true
  | _ => false

/-- The string of a node, empty if it is none. -/
def string : XMLNode → String
  | .text s => s
  | _ => ""

/-- The children of a node. -/
def kidsOf : XMLNode → List XMLNode
  | .element _ _ c => c
  | _ => []

/-- The node with another tag. -/
def retag (t : String) : XMLNode → XMLNode
  | .element _ a c => .element t a c
  | x => x

/-- What is written of the children that meet the condition; each child comes with what is written
of it. -/
def pick (p : XMLNode → Bool) (c : List (XMLNode × XMLNode)) : List XMLNode :=
  (c.filter fun x => p x.1).map Prod.snd

/-- The nodes that are written; each child comes with what is written of it. -/
def Portion.nodes (c : List (XMLNode × XMLNode)) : Portion → List XMLNode
  | .each tags => pick (isNamed tags) c
  | .elements => pick isElement c
  | .first n => (c.take n).map Prod.snd
  | .last tag => (pick (isNamed [tag]) c).getLast?.toList
  | .lastUnder tag under => ((pick (isNamed [tag]) c).getLast?.map (retag under)).toList
  | .lastOr tag children => [(pick (isNamed [tag]) c).getLast?.getD (.element tag [] children)]
  | .lastUnlessEmpty tag =>
    ((pick (isNamed [tag]) c).getLast?.filter fun x => !(kidsOf x).isEmpty).toList
  | .merged tag => [.element tag [] ((pick (isNamed [tag]) c).flatMap kidsOf)]
  | .wrapped tag wrapper =>
    ((pick (isNamed [tag]) c).flatMap kidsOf).map fun x => .element wrapper [] [x]
  | .strings => pick isString c
  | .mixed => pick (fun x => isString x || isElement x) c
  | .text => pick (fun x => isString x || isNamed ["Ruby", "Sup", "Sub"] x ||
      (isNamed ["Line"] x && accepts x)) c
  | .joined => [.text (String.join (c.map fun x => string x.1))]
  | .firstString => [.text ((c.head?.map fun x => string x.1).getD "")]
  | .before tag other =>
    pick (fun x => isNamed [tag] x && accepts x) (c.takeWhile fun x => !isNamed [other] x.1)
  | .after tag other =>
    pick (fun x => isNamed [tag] x && accepts x) (c.dropWhile fun x => !isNamed [other] x.1)
  | .either p q => if (p.nodes c).isEmpty then q.nodes c else p.nodes c

/-! ## Elements -/

/-- What is written for the elements with one tag. -/
structure Layout where
  /-- the tag that is written, if it is another one -/
  tag : Option String := none
  /-- attributes, in the order in which they are set -/
  attrs : List Copy := []
  /-- children -/
  parts : List Portion := []

/-- The values of the attribute for the alignment. -/
def alignValues : List String := ["left", "center", "right", "justify"]

/-- The values of the attribute for the vertical alignment. -/
def valignValues : List String := ["top", "middle", "bottom"]

/-- Written only if it is `true`. -/
def flagCopy (name : String) : Copy := { name := name, change := .only ["true"] }

/-- Written only if it is `horizontal`. -/
def writingMode : Copy := { name := "WritingMode", change := .only ["horizontal"] }

/-- A title, label or other text. -/
def textLayout : Layout where parts := [.text]

/-- A text with a direction. -/
def directedLayout : Layout where attrs := [writingMode]; parts := [.text]

/-- A caption. -/
def captionLayout : Layout where attrs := [{ name := "CommonCaption" }]; parts := [.text]

/-- A mixed content without attributes. -/
def mixedLayout : Layout where parts := [.mixed]

/-- The number of an article, part, chapter and so on, and whether it is deleted and hidden. -/
def unitCopies : List Copy :=
  [{ name := "Num", change := .number }, flagCopy "Delete", flagCopy "Hide"]

/-- A part, chapter, section, subsection or division. -/
def unitLayout : Layout where attrs := unitCopies; parts := [.elements]

/-- An item or subitem. -/
def itemLayout (title sentence : String) (kids : List String) : Layout where
  attrs := unitCopies
  parts := [.last title, .last sentence, .each kids, .each structTags]

/-- The element around the sentences of an item. -/
def itemSentenceLayout : Layout where
  parts := [.either (.each ["Column"]) (.either (.each ["Sentence"]) (.last "Table"))]

/-- A figure, note, style, format or table with a title and remarks. -/
def structLayout (title body : String) : Layout where
  parts := [.last title, .before "Remarks" body, .last body, .after "Remarks" body]

/-- An entry of a table of contents. -/
def tocLayout (title : String) (kids : List String) : Layout where
  attrs := [{ name := "Num", change := .number }, flagCopy "Delete"]
  parts := [.lastOr title, .last "ArticleRange", .each kids]

/-- An appendix with remarks. -/
def appdxLayout (title : String) (kids : List String) : Layout where
  attrs := [{ name := "Num" }]
  parts := [.last title, .last "RelatedArticleNum", .each kids, .last "Remarks"]

/-- The layouts. -/
def layouts : List (String × Layout) := [
  -- src/law.rs
  ("Law", { attrs := [{ name := "Era" }, { name := "Year", change := .count },
              { name := "Num", change := .number }, { name := "PromulgateMonth", change := .count },
              { name := "PromulgateDay", change := .count }, { name := "LawType" },
              { name := "Lang" }]
            parts := [.first 2] }),
  ("LawNum", { parts := [.joined] }),
  ("LawBody", { attrs := [{ name := "Subject" }]
                parts := [.last "LawTitle", .each ["EnactStatement"], .last "TOC",
                  .last "Preamble", .last "MainProvision", .each ["SupplProvision"],
                  .each ["AppdxTable"], .each ["AppdxNote"], .each ["AppdxStyle"], .each ["Appdx"],
                  .each ["AppdxFig"], .each ["AppdxFormat"]] }),
  ("LawTitle", { attrs := [{ name := "Kana" }, { name := "Abbrev" }, { name := "AbbrevKana" }]
                 parts := [.text] }),
  ("EnactStatement", textLayout),
  ("Preamble", { parts := [.each ["Paragraph"]] }),
  ("MainProvision", { attrs := [{ name := "Extract" }], parts := [.elements] }),
  ("AmendProvision", { parts := [.last "AmendProvisionSentence",
                         .wrapped "NewProvision" "AmendProvisionSentence"] }),
  ("AmendProvisionSentence", { parts := [.first 1] }),
  ("NewProvision", { parts := [.elements] }),
  -- src/article.rs
  ("Part", unitLayout),
  ("Chapter", unitLayout),
  ("Section", unitLayout),
  ("Subsection", unitLayout),
  ("Division", unitLayout),
  ("PartTitle", textLayout),
  ("ChapterTitle", textLayout),
  ("SectionTitle", textLayout),
  ("SubsectionTitle", textLayout),
  ("DivisionTitle", textLayout),
  ("Article", { attrs := unitCopies
                parts := [.last "ArticleCaption", .lastOr "ArticleTitle", .each ["Paragraph"],
                  .last "SupplNote"] }),
  ("ArticleCaption", captionLayout),
  ("ArticleTitle", textLayout),
  ("SupplNote", textLayout),
  -- src/paragraph.rs
  ("Paragraph", { attrs := [{ name := "Num", change := .number }, flagCopy "OldStyle",
                    flagCopy "OldNum", flagCopy "Hide"]
                  parts := [.last "ParagraphCaption", .lastOr "ParagraphNum",
                    .merged "ParagraphSentence", .each ["AmendProvision"], .each ["Class"],
                    .each structTags, .each ["Item"]] }),
  ("ParagraphCaption", captionLayout),
  ("ParagraphNum", textLayout),
  ("ParagraphSentence", { parts := [.elements] }),
  ("Item", itemLayout "ItemTitle" "ItemSentence" ["Subitem1"]),
  ("Subitem1", itemLayout "Subitem1Title" "Subitem1Sentence" ["Subitem2"]),
  ("Subitem2", itemLayout "Subitem2Title" "Subitem2Sentence" ["Subitem3"]),
  ("Subitem3", itemLayout "Subitem3Title" "Subitem3Sentence" ["Subitem4"]),
  ("Subitem4", itemLayout "Subitem4Title" "Subitem4Sentence" ["Subitem5"]),
  ("Subitem5", itemLayout "Subitem5Title" "Subitem5Sentence" ["Subitem6"]),
  ("Subitem6", itemLayout "Subitem6Title" "Subitem6Sentence" ["Subitem7"]),
  ("Subitem7", itemLayout "Subitem7Title" "Subitem7Sentence" ["Subitem8"]),
  ("Subitem8", itemLayout "Subitem8Title" "Subitem8Sentence" ["Subitem9"]),
  ("Subitem9", itemLayout "Subitem9Title" "Subitem9Sentence" ["Subitem10"]),
  ("Subitem10", itemLayout "Subitem10Title" "Subitem10Sentence" []),
  ("ItemTitle", textLayout),
  ("Subitem1Title", textLayout),
  ("Subitem2Title", textLayout),
  ("Subitem3Title", textLayout),
  ("Subitem4Title", textLayout),
  ("Subitem5Title", textLayout),
  ("Subitem6Title", textLayout),
  ("Subitem7Title", textLayout),
  ("Subitem8Title", textLayout),
  ("Subitem9Title", textLayout),
  ("Subitem10Title", textLayout),
  ("ItemSentence", itemSentenceLayout),
  ("Subitem1Sentence", itemSentenceLayout),
  ("Subitem2Sentence", itemSentenceLayout),
  ("Subitem3Sentence", itemSentenceLayout),
  ("Subitem4Sentence", itemSentenceLayout),
  ("Subitem5Sentence", itemSentenceLayout),
  ("Subitem6Sentence", itemSentenceLayout),
  ("Subitem7Sentence", itemSentenceLayout),
  ("Subitem8Sentence", itemSentenceLayout),
  ("Subitem9Sentence", itemSentenceLayout),
  ("Subitem10Sentence", itemSentenceLayout),
  -- src/class.rs
  ("Class", { attrs := [{ name := "Num" }]
              parts := [.last "ClassTitle", .last "ClassSentence", .each ["Item"]] }),
  ("ClassTitle", textLayout),
  ("ClassSentence", itemSentenceLayout),
  ("Column", { attrs := [{ name := "Num", change := .count },
                 { name := "LineBreak", change := .orElse "false" },
                 { name := "Align", change := .only alignValues }]
               parts := [.elements] }),
  -- src/sentence.rs, src/line.rs, src/text.rs
  ("Sentence", { attrs := [{ name := "Num", change := .count }, { name := "Function" },
                   { name := "Indent" }, writingMode]
                 parts := [.mixed] }),
  ("Line", { attrs := [{ name := "Style", change := .style }], parts := [.mixed] }),
  ("Ruby", { parts := [.strings, .lastOr "Rt" [.text ""]] }),
  ("Rt", { parts := [.joined] }),
  ("Sup", { parts := [.firstString] }),
  ("Sub", { parts := [.firstString] }),
  -- src/contents.rs, src/structs.rs, src/fig.rs
  ("QuoteStruct", mixedLayout),
  ("ArithFormula", mixedLayout),
  ("Style", mixedLayout),
  ("Note", mixedLayout),
  ("Format", mixedLayout),
  ("Fig", { attrs := [{ name := "src" }] }),
  ("NoteStruct", structLayout "NoteStructTitle" "Note"),
  ("StyleStruct", structLayout "StyleStructTitle" "Style"),
  ("FormatStruct", structLayout "FormatStructTitle" "Format"),
  ("FigStruct", structLayout "FigStructTitle" "Fig"),
  ("TableStruct", structLayout "TableStructTitle" "Table"),
  ("NoteStructTitle", textLayout),
  ("StyleStructTitle", textLayout),
  ("FormatStructTitle", textLayout),
  ("FigStructTitle", textLayout),
  ("TableStructTitle", directedLayout),
  -- src/remarks.rs
  ("Remarks", { parts := [.each ["Item", "Sentence"]] }),
  -- src/table.rs
  ("Table", { attrs := [writingMode]
              parts := [.each ["TableHeaderRow"], .each ["TableRow"]] }),
  ("TableHeaderRow", { parts := [.each ["TableHeaderColumn"]] }),
  ("TableHeaderColumn", textLayout),
  ("TableRow", { parts := [.each ["TableColumn"]] }),
  ("TableColumn", { attrs := [{ name := "BorderTop", change := .border },
                      { name := "BorderBottom", change := .border },
                      { name := "BorderLeft", change := .border },
                      { name := "BorderRight", change := .border }, { name := "rowspan" },
                      { name := "colspan" },
                      { name := "rowspan", source := "Align", change := .only alignValues },
                      { name := "rowspan", source := "Valign", change := .only valignValues }]
                    parts := [.mixed] }),
  -- src/list.rs
  ("List", { parts := [.elements] }),
  ("Sublist1", { parts := [.elements] }),
  ("Sublist2", { parts := [.elements] }),
  ("Sublist3", { parts := [.first 1] }),
  ("ListSentence", { parts := [.elements] }),
  ("Sublist1Sentence", { parts := [.elements] }),
  ("Sublist2Sentence", { parts := [.elements] }),
  ("Sublist3Sentence", { parts := [.elements] }),
  -- src/table_of_contents.rs
  ("TOC", { parts := [.last "TOCLabel", .lastUnder "TOCPreambleLabel" "TOCLabel",
              .each ["TOCPart", "TOCChapter", "TOCSection", "TOCArticle"],
              .last "TOCSupplProvision", .each ["TOCAppdxTableLabel"]] }),
  ("TOCLabel", textLayout),
  ("TOCPreambleLabel", textLayout),
  ("TOCAppdxTableLabel", textLayout),
  ("TOCPart", tocLayout "PartTitle" ["TOCChapter"]),
  ("TOCChapter", tocLayout "ChapterTitle" ["TOCSection"]),
  ("TOCSection", tocLayout "SectionTitle" ["TOCSubsection", "TOCDivision"]),
  ("TOCSubsection", tocLayout "SubsectionTitle" ["TOCDivision"]),
  ("TOCDivision", tocLayout "DivisionTitle" []),
  ("ArticleRange", textLayout),
  ("TOCArticle", { attrs := [{ name := "Num", change := .number }, flagCopy "Delete"]
                   parts := [.lastOr "ArticleTitle", .last "ArticleCaption"] }),
  ("TOCSupplProvision", { parts := [.lastOr "SupplProvisionLabel", .last "ArticleRange",
                            .each ["TOCArticle", "TOCChapter"]] }),
  ("SupplProvisionLabel", textLayout),
  -- src/appdx.rs
  ("AppdxTable", appdxLayout "AppdxTableTitle" ["TableStruct", "Item"]),
  ("AppdxNote", appdxLayout "AppdxNoteTitle" ["NoteStruct", "FigStruct", "TableStruct"]),
  ("AppdxStyle", appdxLayout "AppdxStyleTitle" ["StyleStruct"]),
  ("AppdxFormat", appdxLayout "AppdxFormatTitle" ["FormatStruct"]),
  ("AppdxFig", { attrs := [{ name := "Num" }]
                 parts := [.last "AppdxFigTitle", .last "RelatedArticleNum",
                   .each ["FigStruct", "TableStruct"]] }),
  ("Appdx", { parts := [.last "ArithFormulaNum",
                .lastUnder "RelatedArticleNum" "ArithFormulaNum", .each ["ArithFormula"],
                .last "Remarks"] }),
  ("AppdxTableTitle", directedLayout),
  ("AppdxNoteTitle", directedLayout),
  ("AppdxStyleTitle", directedLayout),
  ("AppdxFormatTitle", directedLayout),
  ("AppdxFigTitle", directedLayout),
  ("RelatedArticleNum", textLayout),
  ("ArithFormulaNum", textLayout),
  -- src/suppl_provision.rs
  ("SupplProvision", { attrs := [{ name := "Type" }, { name := "AmendLawNum" },
                         { name := "Extract" }]
                       parts := [.lastUnlessEmpty "SupplProvisionLabel",
                         .each ["Chapter", "Article", "Paragraph", "SupplProvisionAppdxTable",
                           "SupplProvisionAppdxStyle", "SupplProvisionAppdx"]] }),
  ("SupplProvisionAppdxTable", { attrs := [{ name := "Num" }]
                                 parts := [.lastUnder "SupplProvisionAppdxTableTitle"
                                     "SupplProvisionAppdxTableitle",
                                   .last "RelatedArticleNum", .each ["TableStruct"]] }),
  ("SupplProvisionAppdxStyle", { attrs := [{ name := "Num" }]
                                 parts := [.last "SupplProvisionAppdxStyleTitle",
                                   .last "RelatedArticleNum", .each ["StyleStruct"]] }),
  ("SupplProvisionAppdx", { tag := some "Appdx"
                            attrs := [{ name := "Num" }]
                            parts := [.last "ArithFormulaNum",
                              .lastUnder "RelatedArticleNum" "ArithFormulaNum",
                              .each ["ArithFormula"]] }),
  ("SupplProvisionAppdxTableTitle", directedLayout),
  ("SupplProvisionAppdxStyleTitle", directedLayout)]

/-- The attributes that are written. -/
def Layout.setAttrs (l : Layout) (a : Attrs) : Attrs :=
  l.attrs.foldl (fun b x => b.insertOpt x.name (x.change.apply (a.get x.source))) []

/-- What is written for an element; each child comes with what is written of it. -/
def rebuild (n : String) (a : Attrs) (c : List (XMLNode × XMLNode)) : Element :=
  match layouts.lookup n with
  | some l => ⟨l.tag.getD n, l.setAttrs a, l.parts.flatMap fun p => p.nodes c⟩
  | none => ⟨n, [], []⟩

mutual
/-- What is written of a node. -/
def rewriteNode : XMLNode → XMLNode
  | .element n a c => (rebuild n a (rewriteList c)).node
  | x => x
/-- The nodes, each with what is written of it. -/
def rewriteList : List XMLNode → List (XMLNode × XMLNode)
  | [] => []
  | x :: c => (x, rewriteNode x) :: rewriteList c
end

/-- What is written of a document that is read. -/
def rewrite (e : Element) : Element := rebuild e.name e.attributes (rewriteList e.children)

end JLaw.Spec
