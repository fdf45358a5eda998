import Verif.Spec.Accept
import Verif.Spec.Clean

/-!
# A schema of the documents that are written

One table with the possible forms of the elements with each tag: the attributes and their values, and
the sequence of child nodes. Nothing here mentions a writer.
-/

namespace JLaw.Spec

/-- The values of an attribute. -/
inductive Values
  /-- any string -/
  | any
  /-- one of the given strings -/
  | oneOf (values : List String)
  /-- a number in decimal digits without sign and leading zeros -/
  | count
  /-- a number of an article, such as `3_2` or `3_2:5` -/
  | number

/-- A number below 2^64 as it is usually written. -/
def IsPlainCount (s : String) : Prop :=
  IsCount s ∧ s.toList.head? ≠ some '+' ∧ (s.toList.head? = some '0' → s = "0")

/-- A number of an article that has no range end or exactly one branch number, in digits,
underscores and colons. -/
def IsPlainNumber (s : String) : Prop :=
  GoodNumber s ∧ ∀ c ∈ s.toList, c.isDigit ∨ c = '_' ∨ c = ':'

/-- The value is allowed. -/
def Values.Holds : Values → String → Prop
  | .any, _ => True
  | .oneOf values, s => s ∈ values
  | .count, s => IsPlainCount s
  | .number, s => IsPlainNumber s

/-- An attribute that an element may have, or has to have. -/
structure Attribute where
  name : String
  values : Values
  required : Bool := false

/-- The attributes are as listed: no name twice, no other names, allowed values only, and the
required ones are there. -/
structure AttributesOk (l : List Attribute) (a : Attrs) : Prop where
  nodup : (a.map Prod.fst).Nodup
  listed : ∀ p ∈ a, ∃ t ∈ l, t.name = p.1 ∧ t.values.Holds p.2
  required : ∀ t ∈ l, t.required = true → ∃ v, (t.name, v) ∈ a

/-- A piece of the sequence of child nodes. -/
inductive Particle
  /-- one element with one of the tags -/
  | one (tags : List String)
  /-- at most one element with one of the tags -/
  | opt (tags : List String)
  /-- any number of elements with one of the tags each -/
  | many (tags : List String)
  /-- any number of texts and elements with one of the tags each -/
  | mixed (tags : List String)
  /-- one text -/
  | text

/-- The node is an element with one of the tags. -/
def HasTag (tags : List String) : XMLNode → Prop
  | .element n _ _ => n ∈ tags
  | _ => False

/-- The nodes are as the particle says. -/
def Particle.Holds : Particle → List XMLNode → Prop
  | .one tags, c => ∃ x, c = [x] ∧ HasTag tags x
  | .opt tags, c => c = [] ∨ ∃ x, c = [x] ∧ HasTag tags x
  | .many tags, c => ∀ x ∈ c, HasTag tags x
  | .mixed tags, c => ∀ x ∈ c, HasTag tags x ∨ ∃ s, x = .text s
  | .text, c => ∃ s, c = [.text s]

/-- The nodes are a sequence of pieces, one for each particle. -/
def Sequence : List Particle → List XMLNode → Prop
  | [], c => c = []
  | p :: ps, c => ∃ c1 c2, c = c1 ++ c2 ∧ p.Holds c1 ∧ Sequence ps c2

/-- A form of an element. -/
structure Form where
  attrs : List Attribute := []
  content : List Particle := []

/-! ## The table -/

/-- An optional attribute written only if it is true. -/
def flag (name : String) : Attribute := ⟨name, .oneOf ["true"], false⟩

/-- An optional attribute that is true or false. -/
def yesNo (name : String) : Attribute := ⟨name, .oneOf ["true", "false"], false⟩

/-- The direction of the text. -/
def direction : Attribute := ⟨"WritingMode", .oneOf ["horizontal"], false⟩

/-- The elements in a text. -/
def textTags : List String := ["Ruby", "Line", "Sub", "Sup"]

/-- A text. -/
def textForm : Form where content := [.mixed textTags]

/-- A text with a direction. -/
def directedForm : Form where
  attrs := [direction]
  content := [.mixed textTags]

/-- A caption. -/
def captionForm : Form where
  attrs := [yesNo "CommonCaption"]
  content := [.mixed textTags]

/-- Nothing but one text. -/
def stringForm : Form where content := [.text]

/-- The elements and texts of quotations, formulas, styles, notes and formats. -/
def contentsForm : Form where content := [.mixed contentsTags]

/-- The number of a unit and its flags. -/
def unitAttrs : List Attribute := [⟨"Num", .number, true⟩, flag "Delete", flag "Hide"]

/-- An item or subitem. -/
def itemForm (title sentence : String) (kids : List String) : Form where
  attrs := [⟨"Num", .number, false⟩, flag "Delete", flag "Hide"]
  content := [.opt [title], .one [sentence], .many kids, .many structTags]

/-- The sentences of an item: columns, or sentences, or one table. -/
def itemSentenceForms : List Form :=
  [{ content := [.many ["Column"]] }, { content := [.many ["Sentence"]] },
    { content := [.one ["Table"]] }]

/-- A figure, note, style, format or table with a title and remarks. -/
def structForm (title body : String) : Form where
  content := [.opt [title], .many ["Remarks"], .one [body], .many ["Remarks"]]

/-- A part, chapter, section, subsection or division. -/
def unitForm (title : String) (kids : List String) : Form where
  attrs := unitAttrs
  content := [.one [title], .many kids]

/-- An entry of a table of contents. -/
def tocForm (title : String) (kids : List String) : Form where
  attrs := [⟨"Num", .number, true⟩, flag "Delete"]
  content := [.one [title], .opt ["ArticleRange"], .many kids]

/-- An appendix. -/
def appdxForm (title : String) (kids : List String) : Form where
  attrs := [⟨"Num", .any, false⟩]
  content := [.opt [title], .opt ["RelatedArticleNum"], .many kids, .opt ["Remarks"]]

/-- A table or style of a supplementary provision. -/
def supplAppdxForm (title : String) (kids : List String) : Form where
  attrs := [⟨"Num", .any, false⟩]
  content := [.one [title], .opt ["RelatedArticleNum"], .many kids]

/-- A list. -/
def listForm (sentence : String) (kids : List String) : Form where
  content := [.one [sentence], .many kids]

/-- A new provision. -/
def provisionTags : List String :=
  newProvisionTags.filter (· != "SupplProvisionAppdx")

/-- The forms of the elements with each tag. -/
def schema : List (String × List Form) := [
  -- src/law.rs
  ("Law", [{ attrs := [⟨"Era", .oneOf ["Meiji", "Taisho", "Showa", "Heisei", "Reiwa"], true⟩,
              ⟨"Year", .count, true⟩, ⟨"Num", .number, false⟩, ⟨"PromulgateMonth", .count, false⟩,
              ⟨"PromulgateDay", .count, false⟩,
              ⟨"LawType", .oneOf ["Constitution", "Act", "CabinetOrder", "ImperialOrder",
                "MinisterialOrdinance", "Rule", "Misc"], true⟩,
              ⟨"Lang", .oneOf ["ja", "en"], true⟩]
             content := [.one ["LawNum"], .one ["LawBody"]] }]),
  ("LawNum", [stringForm]),
  ("LawBody", [{ attrs := [⟨"Subject", .any, false⟩]
                 content := [.opt ["LawTitle"], .many ["EnactStatement"], .opt ["TOC"],
                   .opt ["Preamble"], .one ["MainProvision"], .many ["SupplProvision"],
                   .many ["AppdxTable"], .many ["AppdxNote"], .many ["AppdxStyle"],
                   .many ["Appdx"], .many ["AppdxFig"], .many ["AppdxFormat"]] }]),
  ("LawTitle", [{ attrs := [⟨"Kana", .any, false⟩, ⟨"Abbrev", .any, false⟩,
                    ⟨"AbbrevKana", .any, false⟩]
                  content := [.mixed textTags] }]),
  ("EnactStatement", [textForm]),
  ("Preamble", [{ content := [.many ["Paragraph"]] }]),
  ("MainProvision", [{ attrs := [yesNo "Extract"]
                       content := [.many ["Part", "Chapter", "Section", "Article", "Paragraph"]] }]),
  -- the sentence, then new provisions
  ("AmendProvision", [{ content := [.opt ["AmendProvisionSentence"],
                          .many ["AmendProvisionSentence"]] }]),
  ("AmendProvisionSentence", [{ content := [.one provisionTags] }]),
  -- src/article.rs
  ("Part", [unitForm "PartTitle" ["Chapter", "Article"]]),
  ("Chapter", [unitForm "ChapterTitle" ["Section", "Article"]]),
  ("Section", [unitForm "SectionTitle" ["Subsection", "Article", "Division"]]),
  ("Subsection", [unitForm "SubsectionTitle" ["Division", "Article"]]),
  ("Division", [unitForm "DivisionTitle" ["Article"]]),
  ("PartTitle", [textForm]),
  ("ChapterTitle", [textForm]),
  ("SectionTitle", [textForm]),
  ("SubsectionTitle", [textForm]),
  ("DivisionTitle", [textForm]),
  ("Article", [{ attrs := unitAttrs
                 content := [.opt ["ArticleCaption"], .one ["ArticleTitle"], .many ["Paragraph"],
                   .opt ["SupplNote"]] }]),
  ("ArticleCaption", [captionForm]),
  ("ArticleTitle", [textForm]),
  ("SupplNote", [textForm]),
  -- src/paragraph.rs
  ("Paragraph", [{ attrs := [⟨"Num", .number, true⟩, flag "OldStyle", flag "OldNum", flag "Hide"]
                   content := [.opt ["ParagraphCaption"], .one ["ParagraphNum"],
                     .one ["ParagraphSentence"], .many ["AmendProvision"], .many ["Class"],
                     .many structTags, .many ["Item"]] }]),
  ("ParagraphCaption", [captionForm]),
  ("ParagraphNum", [textForm]),
  ("ParagraphSentence", [{ content := [.many ["Sentence"]] }]),
  ("Item", [itemForm "ItemTitle" "ItemSentence" ["Subitem1"]]),
  ("Subitem1", [itemForm "Subitem1Title" "Subitem1Sentence" ["Subitem2"]]),
  ("Subitem2", [itemForm "Subitem2Title" "Subitem2Sentence" ["Subitem3"]]),
  ("Subitem3", [itemForm "Subitem3Title" "Subitem3Sentence" ["Subitem4"]]),
  ("Subitem4", [itemForm "Subitem4Title" "Subitem4Sentence" ["Subitem5"]]),
  ("Subitem5", [itemForm "Subitem5Title" "Subitem5Sentence" ["Subitem6"]]),
  ("Subitem6", [itemForm "Subitem6Title" "Subitem6Sentence" ["Subitem7"]]),
  ("Subitem7", [itemForm "Subitem7Title" "Subitem7Sentence" ["Subitem8"]]),
  ("Subitem8", [itemForm "Subitem8Title" "Subitem8Sentence" ["Subitem9"]]),
  ("Subitem9", [itemForm "Subitem9Title" "Subitem9Sentence" ["Subitem10"]]),
  ("Subitem10", [itemForm "Subitem10Title" "Subitem10Sentence" []]),
  ("ItemTitle", [textForm]),
  ("Subitem1Title", [textForm]),
  ("Subitem2Title", [textForm]),
  ("Subitem3Title", [textForm]),
  ("Subitem4Title", [textForm]),
  ("Subitem5Title", [textForm]),
  ("Subitem6Title", [textForm]),
  ("Subitem7Title", [textForm]),
  ("Subitem8Title", [textForm]),
  ("Subitem9Title", [textForm]),
  ("Subitem10Title", [textForm]),
  ("ItemSentence", itemSentenceForms),
  ("Subitem1Sentence", itemSentenceForms),
  ("Subitem2Sentence", itemSentenceForms),
  ("Subitem3Sentence", itemSentenceForms),
  ("Subitem4Sentence", itemSentenceForms),
  ("Subitem5Sentence", itemSentenceForms),
  ("Subitem6Sentence", itemSentenceForms),
  ("Subitem7Sentence", itemSentenceForms),
  ("Subitem8Sentence", itemSentenceForms),
  ("Subitem9Sentence", itemSentenceForms),
  ("Subitem10Sentence", itemSentenceForms),
  -- src/class.rs
  ("Class", [{ attrs := [⟨"Num", .any, true⟩]
               content := [.opt ["ClassTitle"], .one ["ClassSentence"], .many ["Item"]] }]),
  ("ClassTitle", [textForm]),
  ("ClassSentence", itemSentenceForms),
  ("Column", [{ attrs := [⟨"Num", .count, false⟩, ⟨"LineBreak", .oneOf ["true", "false"], true⟩,
                  ⟨"Align", .oneOf ["left", "center", "right", "justify"], false⟩]
                content := [.many ["Sentence"]] }]),
  -- src/sentence.rs, src/line.rs, src/text.rs
  ("Sentence", [{ attrs := [⟨"Num", .count, false⟩,
                    ⟨"Function", .oneOf ["main", "proviso"], false⟩,
                    ⟨"Indent", .oneOf ("Paragraph" :: itemTags), false⟩, direction]
                  content := [.mixed ("Line" :: inlineTags)] }]),
  ("Line", [{ attrs := [⟨"Style", .oneOf lineStyles, true⟩], content := [.mixed inlineTags] }]),
  ("Ruby", [{ content := [.mixed textTags, .one ["Rt"]] }]),
  ("Rt", [stringForm]),
  ("Sup", [stringForm]),
  ("Sub", [stringForm]),
  -- src/contents.rs, src/structs.rs, src/fig.rs
  ("QuoteStruct", [contentsForm]),
  ("ArithFormula", [contentsForm]),
  ("Style", [contentsForm]),
  ("Note", [contentsForm]),
  ("Format", [contentsForm]),
  ("Fig", [{ attrs := [⟨"src", .any, true⟩] }]),
  ("NoteStruct", [structForm "NoteStructTitle" "Note"]),
  ("StyleStruct", [structForm "StyleStructTitle" "Style"]),
  ("FormatStruct", [structForm "FormatStructTitle" "Format"]),
  ("FigStruct", [structForm "FigStructTitle" "Fig"]),
  ("TableStruct", [structForm "TableStructTitle" "Table"]),
  ("NoteStructTitle", [textForm]),
  ("StyleStructTitle", [textForm]),
  ("FormatStructTitle", [textForm]),
  ("FigStructTitle", [textForm]),
  ("TableStructTitle", [directedForm]),
  -- src/remarks.rs
  ("Remarks", [{ content := [.many ["Item", "Sentence"]] }]),
  -- src/table.rs
  ("Table", [{ attrs := [direction], content := [.many ["TableHeaderRow"], .many ["TableRow"]] }]),
  ("TableHeaderRow", [{ content := [.many ["TableHeaderColumn"]] }]),
  ("TableHeaderColumn", [textForm]),
  ("TableRow", [{ content := [.many ["TableColumn"]] }]),
  ("TableColumn", [{ attrs := [⟨"BorderTop", .oneOf lineStyles, true⟩,
                       ⟨"BorderBottom", .oneOf lineStyles, true⟩,
                       ⟨"BorderLeft", .oneOf lineStyles, true⟩,
                       ⟨"BorderRight", .oneOf lineStyles, true⟩, ⟨"rowspan", .any, false⟩,
                       ⟨"colspan", .any, false⟩]
                     content := [.mixed cellTags] }]),
  -- src/list.rs
  ("List", [listForm "ListSentence" ["Sublist1"]]),
  ("Sublist1", [listForm "Sublist1Sentence" ["Sublist2"]]),
  ("Sublist2", [listForm "Sublist2Sentence" ["Sublist3"]]),
  ("Sublist3", [{ content := [.one ["Sublist3Sentence"]] }]),
  ("ListSentence", [{ content := [.many ["Sentence", "Column"]] }]),
  ("Sublist1Sentence", [{ content := [.many ["Sentence", "Column"]] }]),
  ("Sublist2Sentence", [{ content := [.many ["Sentence", "Column"]] }]),
  ("Sublist3Sentence", [{ content := [.many ["Sentence", "Column"]] }]),
  -- src/table_of_contents.rs
  ("TOC", [{ content := [.opt ["TOCLabel"], .opt ["TOCLabel"],
               .many ["TOCPart", "TOCChapter", "TOCSection", "TOCArticle"],
               .opt ["TOCSupplProvision"], .many ["TOCAppdxTableLabel"]] }]),
  ("TOCLabel", [textForm]),
  ("TOCAppdxTableLabel", [textForm]),
  ("TOCPart", [tocForm "PartTitle" ["TOCChapter"]]),
  ("TOCChapter", [tocForm "ChapterTitle" ["TOCSection"]]),
  ("TOCSection", [tocForm "SectionTitle" ["TOCSubsection", "TOCDivision"]]),
  ("TOCSubsection", [tocForm "SubsectionTitle" ["TOCDivision"]]),
  ("TOCDivision", [tocForm "DivisionTitle" []]),
  ("ArticleRange", [textForm]),
  ("TOCArticle", [{ attrs := [⟨"Num", .number, true⟩, flag "Delete"]
                    content := [.one ["ArticleTitle"], .one ["ArticleCaption"]] }]),
  ("TOCSupplProvision", [{ content := [.one ["SupplProvisionLabel"], .opt ["ArticleRange"],
                             .many ["TOCArticle", "TOCChapter"]] }]),
  ("SupplProvisionLabel", [textForm]),
  -- src/appdx.rs
  ("AppdxTable", [appdxForm "AppdxTableTitle" ["TableStruct", "Item"]]),
  ("AppdxNote", [appdxForm "AppdxNoteTitle" ["TableStruct", "FigStruct", "NoteStruct"]]),
  ("AppdxStyle", [appdxForm "AppdxStyleTitle" ["StyleStruct"]]),
  ("AppdxFormat", [appdxForm "AppdxFormatTitle" ["FormatStruct"]]),
  ("AppdxFig", [{ attrs := [⟨"Num", .any, false⟩]
                  content := [.opt ["AppdxFigTitle"], .opt ["RelatedArticleNum"],
                    .many ["TableStruct", "FigStruct"]] }]),
  -- the second form is that of a supplementary provision
  ("Appdx", [{ content := [.opt ["ArithFormulaNum"], .opt ["ArithFormulaNum"],
                 .many ["ArithFormula"], .opt ["Remarks"]] },
             { attrs := [⟨"Num", .any, false⟩]
               content := [.opt ["ArithFormulaNum"], .opt ["ArithFormulaNum"],
                 .many ["ArithFormula"]] }]),
  ("AppdxTableTitle", [directedForm]),
  ("AppdxNoteTitle", [directedForm]),
  ("AppdxStyleTitle", [directedForm]),
  ("AppdxFormatTitle", [directedForm]),
  ("AppdxFigTitle", [directedForm]),
  ("RelatedArticleNum", [textForm]),
  ("ArithFormulaNum", [textForm]),
  -- src/suppl_provision.rs
  ("SupplProvision", [{ attrs := [⟨"Type", .oneOf ["New", "Amend"], false⟩,
                          ⟨"AmendLawNum", .any, false⟩, yesNo "Extract"]
                        content := [.opt ["SupplProvisionLabel"],
                          .many ["Chapter", "Article", "Paragraph", "SupplProvisionAppdxTable",
                            "SupplProvisionAppdxStyle", "Appdx"]] }]),
  ("SupplProvisionAppdxTable", [supplAppdxForm "SupplProvisionAppdxTableitle" ["TableStruct"]]),
  ("SupplProvisionAppdxStyle", [supplAppdxForm "SupplProvisionAppdxStyleTitle" ["StyleStruct"]]),
  ("SupplProvisionAppdxTableitle", [directedForm]),
  ("SupplProvisionAppdxStyleTitle", [directedForm])]

/-- The element and all elements below it have one of the forms for their tag. -/
inductive Conforms : Element → Prop
  | intro (e : Element) (forms : List Form) (f : Form) : schema.lookup e.name = some forms →
      f ∈ forms → AttributesOk f.attrs e.attributes → Sequence f.content e.children →
      (∀ x ∈ elems e.children, Conforms x) → Conforms e

end JLaw.Spec
