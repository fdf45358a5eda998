import Verif.Spec.Num
import Verif.Spec.Order

/-!
# Which documents are accepted

One table with a rule for every tag, and one definition of what it means that an element obeys the
rules. Nothing here mentions a reader.
-/

namespace JLaw.Spec

/-- A condition on one attribute. -/
inductive AttrRule
  /-- absent, `true` or `false` -/
  | bool
  /-- absent or a number -/
  | count
  /-- a number -/
  | mustCount
  /-- absent, empty or a number -/
  | countOrEmpty
  /-- a number of an article -/
  | mustNumber
  /-- empty or a number of an article -/
  | numberOrEmpty
  /-- absent or one of the given values -/
  | oneOf (values : List String)
  /-- one of the given values -/
  | mustOneOf (values : List String)
  /-- not absent -/
  | present
  deriving DecidableEq

/-- A literal of a number below 2^64. -/
def IsCount (s : String) : Prop := ∃ n, IsLiteral s.toList n

/-- A string that denotes the number of an article. -/
def IsNumber (s : String) : Prop := ∃ a, Denotes s.toList a

/-- The condition holds of the value of the attribute, `none` if the attribute is absent. -/
def AttrRule.Holds : AttrRule → Option String → Prop
  | .bool, o => o = none ∨ o = some "true" ∨ o = some "false"
  | .count, o => ∀ s, o = some s → IsCount s
  | .mustCount, o => ∃ s, o = some s ∧ IsCount s
  | .countOrEmpty, o => ∀ s, o = some s → s = "" ∨ IsCount s
  | .mustNumber, o => ∃ s, o = some s ∧ IsNumber s
  | .numberOrEmpty, o => ∃ s, o = some s ∧ (s = "" ∨ IsNumber s)
  | .oneOf values, o => ∀ s, o = some s → s ∈ values
  | .mustOneOf values, o => ∃ s, o = some s ∧ s ∈ values
  | .present, o => o ≠ none

/-- A rule for the elements with one tag. -/
structure Rule where
  /-- conditions on attributes; all other attributes are free -/
  attrs : List (String × AttrRule) := []
  /-- the tags of the first child nodes, which have to be elements -/
  first : List String := []
  /-- the tags of elements that may come before all others only -/
  heads : List String := []
  /-- the tags of the child elements that are read -/
  kids : List String := []
  /-- the tags of the child elements that may be there and are not read, `none` for all other
  tags -/
  skipped : Option (List String) := some []
  /-- of each of these lists there has to be a child element -/
  must : List (List String) := []
  deriving DecidableEq

/-- Anything goes. -/
def free : Rule := { skipped := none }

/-- The child elements after the first nodes: some with tags in `heads`, then those with tags in
`kids` and those that are skipped. -/
def Rule.Sequence (r : Rule) (l : List Element) : Prop :=
  ∃ hs ks, l = hs ++ ks ∧ (∀ x ∈ hs, x.name ∈ r.heads) ∧
    ∀ x ∈ ks, x.name ∈ r.kids ∨ ∀ t, r.skipped = some t → x.name ∈ t

/-- The first nodes are elements with the given tags. -/
def Starts : List String → List XMLNode → Prop
  | [], _ => True
  | t :: ts, .element n _ _ :: c => n = t ∧ Starts ts c
  | _ :: _, _ => False

/-- The element obeys the rule, apart from what is said about its child elements by their own
rules. -/
structure Rule.Obeyed (r : Rule) (e : Element) : Prop where
  attrs : ∀ p ∈ r.attrs, p.2.Holds (e.attributes.get p.1)
  first : Starts r.first e.children
  sequence : r.Sequence (elems (e.children.drop r.first.length))
  must : ∀ g ∈ r.must, ∃ x ∈ elems (e.children.drop r.first.length), x.name ∈ g

/-- The child elements that are read: the first ones, and those with tags in `heads` and `kids`. -/
def Rule.read (r : Rule) (e : Element) : List Element :=
  elems (e.children.take r.first.length) ++
    (elems (e.children.drop r.first.length)).filter fun x => x.name ∈ r.heads ++ r.kids

/-! ## The table -/

/-- The values of the attribute for the style of a line. -/
def lineStyles : List String := ["solid", "none", "dotted", "double"]

/-- The tags from `Item` to `Subitem10`. -/
def itemTags : List String :=
  ["Item", "Subitem1", "Subitem2", "Subitem3", "Subitem4", "Subitem5", "Subitem6", "Subitem7",
    "Subitem8", "Subitem9", "Subitem10"]

/-- What may stand in quotations, formulas, styles, notes and formats. -/
def contentsTags : List String :=
  ["Table", "TableStruct", "Fig", "FigStruct", "QuoteStruct", "NoteStruct", "StyleStruct",
    "AppdxTable", "Ruby", "Line", "Sup", "Sub", "Paragraph"] ++ itemTags ++
  ["List", "Sentence", "ArithFormula", "TOC", "TOCSection", "Remarks", "TableRow"]

/-- What may stand in a cell. -/
def cellTags : List String :=
  ["Part", "Chapter", "Section", "Subsection", "Division", "Article", "Paragraph"] ++ itemTags ++
  ["FigStruct", "Remarks", "Sentence", "Column"]

/-- What may stand in a new provision. -/
def newProvisionTags : List String :=
  ["LawTitle", "Preamble", "TOC", "Part", "PartTitle", "Chapter", "ChapterTitle", "Section",
    "SectionTitle", "Subsection", "SubsectionTitle", "Division", "DivisionTitle", "Article",
    "SupplNote", "Paragraph"] ++ itemTags ++
  ["List", "Sentence", "AmendProvision", "AppdxTable", "AppdxNote", "AppdxStyle", "Appdx",
    "AppdxFig", "AppdxFormat", "SupplProvisionAppdxStyle", "SupplProvisionAppdxTable",
    "SupplProvisionAppdx", "TableStruct", "TableRow", "TableColumn", "FigStruct", "NoteStruct",
    "StyleStruct", "FormatStruct", "Remarks", "LawBody"]

/-- What may stand in a sentence, apart from lines. -/
def inlineTags : List String := ["QuoteStruct", "ArithFormula", "Ruby", "Sup", "Sub"]

/-- The structures below paragraphs and items. -/
def structTags : List String := ["TableStruct", "FigStruct", "StyleStruct", "List"]

/-- An item or subitem. -/
def itemRule (title sentence : String) (kids : List String) : Rule where
  attrs := [("Num", .present), ("Delete", .bool), ("Hide", .bool)]
  kids := [title, sentence] ++ structTags ++ kids
  must := [[sentence]]

/-- The element around the sentences of an item. -/
def itemSentence : Rule where
  kids := ["Sentence", "Column", "Table"]
  must := [["Sentence", "Column", "Table"]]

/-- A figure, note, style, format or table with a title and remarks; remarks are never an error. -/
def structRule (title body : String) : Rule where
  kids := [title, body]
  skipped := some ["Remarks"]
  must := [[body]]

/-- A part, chapter, section, subsection or division. -/
def unitRule (title : String) (kids : List String) : Rule where
  attrs := [("Num", .mustNumber), ("Delete", .bool), ("Hide", .bool)]
  first := [title]
  kids := kids

/-- An entry of a table of contents. -/
def tocRule (title : String) (kids : List String) : Rule where
  attrs := [("Num", .mustNumber), ("Delete", .bool)]
  kids := [title, "ArticleRange"] ++ kids

/-- An appendix. -/
def appdxRule (title : String) (kids : List String) : Rule where
  kids := [title, "RelatedArticleNum", "Remarks"] ++ kids

/-- A list: the element around the sentences comes first. -/
def listRule (sentence : String) (kids : List String) : Rule where
  first := [sentence]
  kids := kids

/-- A caption. -/
def captionRule : Rule where attrs := [("CommonCaption", .bool)]; skipped := none

/-- The rules. -/
def rules : List (String × Rule) := [
  -- src/law.rs
  ("Law", { attrs := [("Era", .mustOneOf ["Meiji", "Taisho", "Showa", "Heisei", "Reiwa"]),
              ("Year", .mustCount), ("Num", .numberOrEmpty), ("PromulgateMonth", .countOrEmpty),
              ("PromulgateDay", .countOrEmpty),
              ("LawType", .mustOneOf ["Constitution", "Act", "CabinetOrder", "ImperialOrder",
                "MinisterialOrdinance", "Rule", "Misc"]),
              ("Lang", .mustOneOf ["ja", "en"])]
            first := ["LawNum", "LawBody"], skipped := none }),
  ("LawNum", free),
  ("LawBody", { kids := ["LawTitle", "EnactStatement", "TOC", "Preamble", "MainProvision",
                  "SupplProvision", "AppdxTable", "AppdxNote", "AppdxStyle", "Appdx", "AppdxFig",
                  "AppdxFormat"]
                must := [["MainProvision"]] }),
  ("LawTitle", free),
  ("EnactStatement", free),
  ("Preamble", { kids := ["Paragraph"], skipped := none }),
  ("MainProvision", { attrs := [("Extract", .bool)]
                      kids := ["Part", "Chapter", "Section", "Article", "Paragraph"] }),
  ("AmendProvision", { kids := ["AmendProvisionSentence", "NewProvision"] }),
  ("AmendProvisionSentence", { first := ["Sentence"], skipped := none }),
  ("NewProvision", { kids := newProvisionTags }),
  -- src/article.rs
  ("Part", unitRule "PartTitle" ["Chapter", "Article"]),
  ("Chapter", unitRule "ChapterTitle" ["Section", "Article"]),
  ("Section", unitRule "SectionTitle" ["Subsection", "Article", "Division"]),
  ("Subsection", unitRule "SubsectionTitle" ["Division", "Article"]),
  ("Division", unitRule "DivisionTitle" ["Article"]),
  ("PartTitle", free),
  ("ChapterTitle", free),
  ("SectionTitle", free),
  ("SubsectionTitle", free),
  ("DivisionTitle", free),
  ("Article", { attrs := [("Num", .mustNumber), ("Delete", .bool), ("Hide", .bool)]
                heads := ["ArticleCaption", "ArticleTitle"]
                kids := ["Paragraph", "SupplNote"]
                must := [["Paragraph", "SupplNote"]] }),
  ("ArticleCaption", captionRule),
  ("ArticleTitle", free),
  ("SupplNote", free),
  -- src/paragraph.rs
  ("Paragraph", { attrs := [("Num", .mustNumber), ("OldStyle", .bool), ("OldNum", .bool),
                    ("Hide", .bool)]
                  kids := ["ParagraphCaption", "ParagraphNum", "ParagraphSentence",
                    "AmendProvision", "Class"] ++ structTags ++ ["Item"] }),
  ("ParagraphCaption", captionRule),
  ("ParagraphNum", free),
  ("ParagraphSentence", { kids := ["Sentence"] }),
  ("Item", itemRule "ItemTitle" "ItemSentence" ["Subitem1"]),
  ("Subitem1", itemRule "Subitem1Title" "Subitem1Sentence" ["Subitem2"]),
  ("Subitem2", itemRule "Subitem2Title" "Subitem2Sentence" ["Subitem3"]),
  ("Subitem3", itemRule "Subitem3Title" "Subitem3Sentence" ["Subitem4"]),
  ("Subitem4", itemRule "Subitem4Title" "Subitem4Sentence" ["Subitem5"]),
  ("Subitem5", itemRule "Subitem5Title" "Subitem5Sentence" ["Subitem6"]),
  ("Subitem6", itemRule "Subitem6Title" "Subitem6Sentence" ["Subitem7"]),
  ("Subitem7", itemRule "Subitem7Title" "Subitem7Sentence" ["Subitem8"]),
  ("Subitem8", itemRule "Subitem8Title" "Subitem8Sentence" ["Subitem9"]),
  ("Subitem9", itemRule "Subitem9Title" "Subitem9Sentence" ["Subitem10"]),
  ("Subitem10", itemRule "Subitem10Title" "Subitem10Sentence" []),
  ("ItemTitle", free),
  ("Subitem1Title", free),
  ("Subitem2Title", free),
  ("Subitem3Title", free),
  ("Subitem4Title", free),
  ("Subitem5Title", free),
  ("Subitem6Title", free),
  ("Subitem7Title", free),
  ("Subitem8Title", free),
  ("Subitem9Title", free),
  ("Subitem10Title", free),
  ("ItemSentence", itemSentence),
  ("Subitem1Sentence", itemSentence),
  ("Subitem2Sentence", itemSentence),
  ("Subitem3Sentence", itemSentence),
  ("Subitem4Sentence", itemSentence),
  ("Subitem5Sentence", itemSentence),
  ("Subitem6Sentence", itemSentence),
  ("Subitem7Sentence", itemSentence),
  ("Subitem8Sentence", itemSentence),
  ("Subitem9Sentence", itemSentence),
  ("Subitem10Sentence", itemSentence),
  -- src/class.rs
  ("Class", { attrs := [("Num", .present)]
              kids := ["ClassTitle", "ClassSentence", "Item"]
              must := [["ClassSentence"]] }),
  ("ClassTitle", free),
  ("ClassSentence", itemSentence),
  ("Column", { attrs := [("Num", .count), ("LineBreak", .bool)], kids := ["Sentence"] }),
  -- src/sentence.rs, src/line.rs, src/text.rs
  ("Sentence", { attrs := [("Num", .count), ("Function", .oneOf ["main", "proviso"]),
                   ("Indent", .oneOf ["Paragraph", "Item", "Subitem1", "Subitem2", "Subitem3",
                     "Subitem4", "Subitem5", "Subitem6", "Subitem7", "Subitem8", "Subitem9",
                     "Subitem10"])]
                 kids := "Line" :: inlineTags }),
  ("Line", { attrs := [("Style", .mustOneOf lineStyles)], kids := inlineTags }),
  ("Ruby", free),
  ("Sup", free),
  ("Sub", free),
  -- src/contents.rs, src/structs.rs, src/fig.rs
  ("QuoteStruct", { kids := contentsTags }),
  ("ArithFormula", { attrs := [("Num", .count)], kids := contentsTags }),
  ("Style", { kids := contentsTags }),
  ("Note", { kids := contentsTags }),
  ("Format", { kids := contentsTags }),
  ("Fig", { attrs := [("src", .present)], skipped := none }),
  ("NoteStruct", structRule "NoteStructTitle" "Note"),
  ("StyleStruct", structRule "StyleStructTitle" "Style"),
  ("FormatStruct", structRule "FormatStructTitle" "Format"),
  ("FigStruct", structRule "FigStructTitle" "Fig"),
  ("TableStruct", structRule "TableStructTitle" "Table"),
  ("NoteStructTitle", free),
  ("StyleStructTitle", free),
  ("FormatStructTitle", free),
  ("FigStructTitle", free),
  ("TableStructTitle", free),
  -- src/remarks.rs
  ("Remarks", { kids := ["RemarksLabel", "Item", "Sentence"], must := [["RemarksLabel"]] }),
  ("RemarksLabel", { attrs := [("LineBreak", .bool)], skipped := none }),
  -- src/table.rs
  ("Table", { kids := ["TableHeaderRow", "TableRow"] }),
  ("TableHeaderRow", { kids := ["TableHeaderColumn"], skipped := none }),
  ("TableHeaderColumn", free),
  ("TableRow", { kids := ["TableColumn"], skipped := none }),
  ("TableColumn", { kids := cellTags }),
  -- src/list.rs
  ("List", listRule "ListSentence" ["Sublist1"]),
  ("Sublist1", listRule "Sublist1Sentence" ["Sublist2"]),
  ("Sublist2", listRule "Sublist2Sentence" ["Sublist3"]),
  ("Sublist3", { first := ["Sublist3Sentence"], skipped := none }),
  ("ListSentence", { kids := ["Sentence", "Column"] }),
  ("Sublist1Sentence", { kids := ["Sentence", "Column"] }),
  ("Sublist2Sentence", { kids := ["Sentence", "Column"] }),
  ("Sublist3Sentence", { kids := ["Sentence", "Column"] }),
  -- src/table_of_contents.rs
  ("TOC", { kids := ["TOCLabel", "TOCPreambleLabel", "TOCPart", "TOCChapter", "TOCSection",
              "TOCArticle", "TOCSupplProvision", "TOCAppdxTableLabel"] }),
  ("TOCLabel", free),
  ("TOCPreambleLabel", free),
  ("TOCAppdxTableLabel", free),
  ("TOCPart", tocRule "PartTitle" ["TOCChapter"]),
  ("TOCChapter", tocRule "ChapterTitle" ["TOCSection"]),
  ("TOCSection", tocRule "SectionTitle" ["TOCSubsection", "TOCDivision"]),
  ("TOCSubsection", tocRule "SubsectionTitle" ["TOCDivision"]),
  ("TOCDivision", tocRule "DivisionTitle" []),
  ("ArticleRange", free),
  ("TOCArticle", { attrs := [("Num", .mustNumber), ("Delete", .bool)]
                   kids := ["ArticleTitle", "ArticleCaption"]
                   must := [["ArticleCaption"]] }),
  ("TOCSupplProvision", { kids := ["SupplProvisionLabel", "ArticleRange", "TOCArticle",
                            "TOCChapter"] }),
  ("SupplProvisionLabel", free),
  -- src/appdx.rs
  ("AppdxTable", appdxRule "AppdxTableTitle" ["TableStruct", "Item"]),
  ("AppdxNote", appdxRule "AppdxNoteTitle" ["TableStruct", "FigStruct", "NoteStruct"]),
  ("AppdxStyle", appdxRule "AppdxStyleTitle" ["StyleStruct"]),
  ("AppdxFormat", appdxRule "AppdxFormatTitle" ["FormatStruct"]),
  ("AppdxFig", { kids := ["AppdxFigTitle", "RelatedArticleNum", "TableStruct", "FigStruct"] }),
  ("Appdx", { kids := ["ArithFormulaNum", "RelatedArticleNum", "ArithFormula", "Remarks"] }),
  ("AppdxTableTitle", free),
  ("AppdxNoteTitle", free),
  ("AppdxStyleTitle", free),
  ("AppdxFormatTitle", free),
  ("AppdxFigTitle", free),
  ("RelatedArticleNum", free),
  ("ArithFormulaNum", free),
  -- src/suppl_provision.rs
  ("SupplProvision", { attrs := [("Type", .oneOf ["New", "Amend"]), ("Extract", .bool)]
                       kids := ["SupplProvisionLabel", "Chapter", "Article", "Paragraph",
                         "SupplProvisionAppdxTable", "SupplProvisionAppdxStyle",
                         "SupplProvisionAppdx"] }),
  ("SupplProvisionAppdxTable", { kids := ["SupplProvisionAppdxTableTitle", "RelatedArticleNum",
                                   "TableStruct"]
                                 must := [["SupplProvisionAppdxTableTitle"]] }),
  ("SupplProvisionAppdxStyle", { kids := ["SupplProvisionAppdxStyleTitle", "RelatedArticleNum",
                                   "StyleStruct"]
                                 must := [["SupplProvisionAppdxStyleTitle"]] }),
  ("SupplProvisionAppdx", { kids := ["ArithFormulaNum", "RelatedArticleNum", "ArithFormula"] }),
  ("SupplProvisionAppdxTableTitle", free),
  ("SupplProvisionAppdxStyleTitle", free)]

/-- The element and all elements below it that are read obey the rule for their tag. -/
inductive Accepted : Element → Prop
  | intro (e : Element) (r : Rule) : rules.lookup e.name = some r → r.Obeyed e →
      (∀ x ∈ r.read e, Accepted x) → Accepted e

end JLaw.Spec
