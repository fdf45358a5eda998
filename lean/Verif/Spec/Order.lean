import Mathlib.Data.List.Forall2
import Verif.Model.Law

/-!
# Document order

Which elements of a list of nodes are meant, and what it is for an element to be read as a value
of one of the enumerations. Tags and readers are spelt out for every variant.
-/

namespace JLaw

/-- The elements in a list of nodes, in order. -/
def elems (c : List XMLNode) : List Element :=
  c.filterMap fun
    | .element n a d => some ⟨n, a, d⟩
    | _ => none

/-- The elements with one of the given tags, in order. -/
def named (tags : List String) (c : List XMLNode) : List Element :=
  (elems c).filter fun x => x.name ∈ tags

/-- The elements and strings in a list of nodes, in order. -/
def pieces (c : List XMLNode) : List XMLNode :=
  c.filter fun
    | .element .. => true
    | .text _ => true
    | _ => false

/-- One value for each element, in order. -/
abbrev InOrder {α : Type} (p : Element → Res α) (xs : List Element) (vs : List α) : Prop :=
  List.Forall₂ (fun x v => p x = .ok v) xs vs

/-- The reader accepts the element. -/
def readable {α : Type} (p : Element → Res α) (x : Element) : Bool :=
  match p x with
  | .ok _ => true
  | _ => false

variable {L : Lvl}

/-- The element `x` is read as the given value. -/
def Struct.Reads (x : Element) : Struct L → Prop
  | .tableStruct v => x.name = "TableStruct" ∧ TableStruct.parser x = .ok v
  | .figStruct v => x.name = "FigStruct" ∧ FigStruct.parser x = .ok v
  | .styleStruct v => x.name = "StyleStruct" ∧ StyleStruct.parser x = .ok v
  | .list v => x.name = "List" ∧ LawList.parser x = .ok v

/-- The element `x` is read as the given value. -/
def SubsectionContents.Reads (x : Element) : SubsectionContents L → Prop
  | .article v => x.name = "Article" ∧ Article.parser x = .ok v
  | .division v => x.name = "Division" ∧ Division.parser x = .ok v

/-- The element `x` is read as the given value. -/
def SectionContents.Reads (x : Element) : SectionContents L → Prop
  | .article v => x.name = "Article" ∧ Article.parser x = .ok v
  | .subsection v => x.name = "Subsection" ∧ Subsection.parser x = .ok v
  | .division v => x.name = "Division" ∧ Division.parser x = .ok v

/-- The element `x` is read as the given value. -/
def ChapterContents.Reads (x : Element) : ChapterContents L → Prop
  | .article v => x.name = "Article" ∧ Article.parser x = .ok v
  | .section_ v => x.name = "Section" ∧ Section.parser x = .ok v

/-- The element `x` is read as the given value. -/
def PartContents.Reads (x : Element) : PartContents L → Prop
  | .article v => x.name = "Article" ∧ Article.parser x = .ok v
  | .chapter v => x.name = "Chapter" ∧ Chapter.parser x = .ok v

/-- The element `x` is read as the given value. -/
def RemarksContents.Reads (x : Element) : RemarksContents L → Prop
  | .item v => x.name = "Item" ∧ L.itemParser x = .ok v
  | .sentence v => x.name = "Sentence" ∧ Sentence.parser x = .ok v

/-- The element `x` is read as the given value. -/
def ListSentence.Reads (x : Element) : ListSentence L → Prop
  | .sentence v => x.name = "Sentence" ∧ Sentence.parser x = .ok v
  | .column v => x.name = "Column" ∧ Column.parser x = .ok v

/-- The element `x` is read as the given value. -/
def TOCSectionContents.Reads (x : Element) : TOCSectionContents L → Prop
  | .tocSubsection v => x.name = "TOCSubsection" ∧ TOCSubsection.parser x = .ok v
  | .tocDivision v => x.name = "TOCDivision" ∧ TOCDivision.parser x = .ok v

/-- The element `x` is read as the given value. -/
def TOCSupplProvisionContents.Reads (x : Element) : TOCSupplProvisionContents L → Prop
  | .tocArticle v => x.name = "TOCArticle" ∧ TOCArticle.parser x = .ok v
  | .tocChapter v => x.name = "TOCChapter" ∧ TOCChapter.parser x = .ok v

/-- The element `x` is read as the given value. -/
def TOCMainContents.Reads (x : Element) : TOCMainContents L → Prop
  | .tocPart v => x.name = "TOCPart" ∧ TOCPart.parser x = .ok v
  | .tocChapter v => x.name = "TOCChapter" ∧ TOCChapter.parser x = .ok v
  | .tocSection v => x.name = "TOCSection" ∧ TOCSection.parser x = .ok v
  | .tocArticle v => x.name = "TOCArticle" ∧ TOCArticle.parser x = .ok v

/-- The element `x` is read as the given value. -/
def AppdxTableContents.Reads (x : Element) : AppdxTableContents L → Prop
  | .tableStruct v => x.name = "TableStruct" ∧ TableStruct.parser x = .ok v
  | .item v => x.name = "Item" ∧ Item.parser x = .ok v

/-- The element `x` is read as the given value. -/
def AppdxNoteContents.Reads (x : Element) : AppdxNoteContents L → Prop
  | .noteStruct v => x.name = "NoteStruct" ∧ NoteStruct.parser x = .ok v
  | .figStruct v => x.name = "FigStruct" ∧ FigStruct.parser x = .ok v
  | .tableStruct v => x.name = "TableStruct" ∧ TableStruct.parser x = .ok v

/-- The element `x` is read as the given value. -/
def AppdxFigContents.Reads (x : Element) : AppdxFigContents L → Prop
  | .figStruct v => x.name = "FigStruct" ∧ FigStruct.parser x = .ok v
  | .tableStruct v => x.name = "TableStruct" ∧ TableStruct.parser x = .ok v

/-- The element `x` is read as the given value. -/
def SupplProvisionChildrenElement.Reads (x : Element) : SupplProvisionChildrenElement L → Prop
  | .chapter v => x.name = "Chapter" ∧ Chapter.parser x = .ok v
  | .article v => x.name = "Article" ∧ Article.parser x = .ok v
  | .paragraph v => x.name = "Paragraph" ∧ Paragraph.parser x = .ok v
  | .supplProvisionAppdxTable v => x.name = "SupplProvisionAppdxTable" ∧ SupplProvisionAppdxTable.parser x = .ok v
  | .supplProvisionAppdxStyle v => x.name = "SupplProvisionAppdxStyle" ∧ SupplProvisionAppdxStyle.parser x = .ok v
  | .supplProvisionAppdx v => x.name = "SupplProvisionAppdx" ∧ SupplProvisionAppdx.parser x = .ok v

/-- The element `x` is read as the given value. -/
def MainProvisionContents.Reads (x : Element) : MainProvisionContents L → Prop
  | .part v => x.name = "Part" ∧ Part.parser x = .ok v
  | .chapter v => x.name = "Chapter" ∧ Chapter.parser x = .ok v
  | .section_ v => x.name = "Section" ∧ Section.parser x = .ok v
  | .article v => x.name = "Article" ∧ Article.parser x = .ok v
  | .paragraph v => x.name = "Paragraph" ∧ Paragraph.parser x = .ok v

/-- The element `x` is read as the given value. -/
def NewProvision.Reads (x : Element) : NewProvision L → Prop
  | .lawTitle v => x.name = "LawTitle" ∧ LawTitle.parser x = .ok v
  | .preamble v => x.name = "Preamble" ∧ Preamble.parser x = .ok v
  | .toc v => x.name = "TOC" ∧ TOC.parser x = .ok v
  | .part v => x.name = "Part" ∧ Part.parser x = .ok v
  | .partTitle v => x.name = "PartTitle" ∧ Text.fromChildren x.children = .ok v
  | .chapter v => x.name = "Chapter" ∧ Chapter.parser x = .ok v
  | .chapterTitle v => x.name = "ChapterTitle" ∧ Text.fromChildren x.children = .ok v
  | .section_ v => x.name = "Section" ∧ Section.parser x = .ok v
  | .sectionTitle v => x.name = "SectionTitle" ∧ Text.fromChildren x.children = .ok v
  | .subsection v => x.name = "Subsection" ∧ Subsection.parser x = .ok v
  | .subsectionTitle v => x.name = "SubsectionTitle" ∧ Text.fromChildren x.children = .ok v
  | .division v => x.name = "Division" ∧ Division.parser x = .ok v
  | .divisionTitle v => x.name = "DivisionTitle" ∧ Text.fromChildren x.children = .ok v
  | .article v => x.name = "Article" ∧ Article.parser x = .ok v
  | .supplNote v => x.name = "SupplNote" ∧ Text.fromChildren x.children = .ok v
  | .paragraph v => x.name = "Paragraph" ∧ Paragraph.parser x = .ok v
  | .item v => x.name = "Item" ∧ Item.parser x = .ok v
  | .subitem1 v => x.name = "Subitem1" ∧ Subitem1.parser x = .ok v
  | .subitem2 v => x.name = "Subitem2" ∧ Subitem2.parser x = .ok v
  | .subitem3 v => x.name = "Subitem3" ∧ Subitem3.parser x = .ok v
  | .subitem4 v => x.name = "Subitem4" ∧ Subitem4.parser x = .ok v
  | .subitem5 v => x.name = "Subitem5" ∧ Subitem5.parser x = .ok v
  | .subitem6 v => x.name = "Subitem6" ∧ Subitem6.parser x = .ok v
  | .subitem7 v => x.name = "Subitem7" ∧ Subitem7.parser x = .ok v
  | .subitem8 v => x.name = "Subitem8" ∧ Subitem8.parser x = .ok v
  | .subitem9 v => x.name = "Subitem9" ∧ Subitem9.parser x = .ok v
  | .subitem10 v => x.name = "Subitem10" ∧ Subitem10.parser x = .ok v
  | .list v => x.name = "List" ∧ LawList.parser x = .ok v
  | .sentence v => x.name = "Sentence" ∧ Sentence.parser x = .ok v
  | .amendProvision v => x.name = "AmendProvision" ∧ L.amendParser x = .ok v
  | .appdxTable v => x.name = "AppdxTable" ∧ AppdxTable.parser x = .ok v
  | .appdxNote v => x.name = "AppdxNote" ∧ AppdxNote.parser x = .ok v
  | .appdxStyle v => x.name = "AppdxStyle" ∧ AppdxStyle.parser x = .ok v
  | .appdx v => x.name = "Appdx" ∧ Appdx.parser x = .ok v
  | .appdxFig v => x.name = "AppdxFig" ∧ AppdxFig.parser x = .ok v
  | .appdxFormat v => x.name = "AppdxFormat" ∧ AppdxFormat.parser x = .ok v
  | .supplProvisionAppdxStyle v => x.name = "SupplProvisionAppdxStyle" ∧ SupplProvisionAppdxStyle.parser x = .ok v
  | .supplProvisionAppdxTable v => x.name = "SupplProvisionAppdxTable" ∧ SupplProvisionAppdxTable.parser x = .ok v
  | .supplProvisionAppdx v => x.name = "SupplProvisionAppdx" ∧ SupplProvisionAppdx.parser x = .ok v
  | .tableStruct v => x.name = "TableStruct" ∧ TableStruct.parser x = .ok v
  | .tableRow v => x.name = "TableRow" ∧ TableRow.parser x = .ok v
  | .tableColumn v => x.name = "TableColumn" ∧ TableColumn.parser x = .ok v
  | .figStruct v => x.name = "FigStruct" ∧ FigStruct.parser x = .ok v
  | .noteStruct v => x.name = "NoteStruct" ∧ NoteStruct.parser x = .ok v
  | .styleStruct v => x.name = "StyleStruct" ∧ StyleStruct.parser x = .ok v
  | .formatStruct v => x.name = "FormatStruct" ∧ FormatStruct.parser x = .ok v
  | .remarks v => x.name = "Remarks" ∧ Remarks.parser x = .ok v
  | .lawBody v => x.name = "LawBody" ∧ LawBody.parser x = .ok v

/-- The node is read as the given value: strings as they are, elements by their readers. -/
def LineContents.Reads : XMLNode → LineContents L → Prop
  | .text s, v => v = .string s
  | .element n a c, .quoteStruct v => n = "QuoteStruct" ∧ QuoteStruct.parser ⟨n, a, c⟩ = .ok v
  | .element n a c, .arithFormula v => n = "ArithFormula" ∧ ArithFormula.parser ⟨n, a, c⟩ = .ok v
  | .element n a c, .ruby v => n = "Ruby" ∧ Ruby.parser ⟨n, a, c⟩ = .ok v
  | .element n a c, .sup v => n = "Sup" ∧ Sup.parser ⟨n, a, c⟩ = .ok v
  | .element n a c, .sub v => n = "Sub" ∧ Sub.parser ⟨n, a, c⟩ = .ok v
  | _, _ => False

/-- The node is read as the given value: strings as they are, elements by their readers. -/
def SentenceElement.Reads : XMLNode → SentenceElement L → Prop
  | .text s, v => v = .string s
  | .element n a c, .line v => n = "Line" ∧ Line.parser ⟨n, a, c⟩ = .ok v
  | .element n a c, .quoteStruct v => n = "QuoteStruct" ∧ QuoteStruct.parser ⟨n, a, c⟩ = .ok v
  | .element n a c, .arithFormula v => n = "ArithFormula" ∧ ArithFormula.parser ⟨n, a, c⟩ = .ok v
  | .element n a c, .ruby v => n = "Ruby" ∧ Ruby.parser ⟨n, a, c⟩ = .ok v
  | .element n a c, .sup v => n = "Sup" ∧ Sup.parser ⟨n, a, c⟩ = .ok v
  | .element n a c, .sub v => n = "Sub" ∧ Sub.parser ⟨n, a, c⟩ = .ok v
  | _, _ => False

/-- The node is read as the given value: strings as they are, elements by their readers. -/
def TableColumnContents.Reads : XMLNode → TableColumnContents L → Prop
  | .text s, v => v = .string s
  | .element n a c, .part v => n = "Part" ∧ Part.parser ⟨n, a, c⟩ = .ok v
  | .element n a c, .chapter v => n = "Chapter" ∧ Chapter.parser ⟨n, a, c⟩ = .ok v
  | .element n a c, .section_ v => n = "Section" ∧ Section.parser ⟨n, a, c⟩ = .ok v
  | .element n a c, .subsection v => n = "Subsection" ∧ Subsection.parser ⟨n, a, c⟩ = .ok v
  | .element n a c, .division v => n = "Division" ∧ Division.parser ⟨n, a, c⟩ = .ok v
  | .element n a c, .article v => n = "Article" ∧ Article.parser ⟨n, a, c⟩ = .ok v
  | .element n a c, .paragraph v => n = "Paragraph" ∧ Paragraph.parser ⟨n, a, c⟩ = .ok v
  | .element n a c, .item v => n = "Item" ∧ Item.parser ⟨n, a, c⟩ = .ok v
  | .element n a c, .subitem1 v => n = "Subitem1" ∧ Subitem1.parser ⟨n, a, c⟩ = .ok v
  | .element n a c, .subitem2 v => n = "Subitem2" ∧ Subitem2.parser ⟨n, a, c⟩ = .ok v
  | .element n a c, .subitem3 v => n = "Subitem3" ∧ Subitem3.parser ⟨n, a, c⟩ = .ok v
  | .element n a c, .subitem4 v => n = "Subitem4" ∧ Subitem4.parser ⟨n, a, c⟩ = .ok v
  | .element n a c, .subitem5 v => n = "Subitem5" ∧ Subitem5.parser ⟨n, a, c⟩ = .ok v
  | .element n a c, .subitem6 v => n = "Subitem6" ∧ Subitem6.parser ⟨n, a, c⟩ = .ok v
  | .element n a c, .subitem7 v => n = "Subitem7" ∧ Subitem7.parser ⟨n, a, c⟩ = .ok v
  | .element n a c, .subitem8 v => n = "Subitem8" ∧ Subitem8.parser ⟨n, a, c⟩ = .ok v
  | .element n a c, .subitem9 v => n = "Subitem9" ∧ Subitem9.parser ⟨n, a, c⟩ = .ok v
  | .element n a c, .subitem10 v => n = "Subitem10" ∧ Subitem10.parser ⟨n, a, c⟩ = .ok v
  | .element n a c, .figStruct v => n = "FigStruct" ∧ FigStruct.parser ⟨n, a, c⟩ = .ok v
  | .element n a c, .sentence v => n = "Sentence" ∧ Sentence.parser ⟨n, a, c⟩ = .ok v
  | .element n a c, .remarks v => n = "Remarks" ∧ Remarks.parser ⟨n, a, c⟩ = .ok v
  | .element n a c, .column v => n = "Column" ∧ Column.parser ⟨n, a, c⟩ = .ok v
  | _, _ => False

/-- The node is read as the given value: strings as they are, elements by their readers. -/
def ContentsElement.Reads : XMLNode → ContentsElement L → Prop
  | .text s, v => v = .string s
  | .element n a c, .table v => n = "Table" ∧ Table.parser ⟨n, a, c⟩ = .ok v
  | .element n a c, .tableStruct v => n = "TableStruct" ∧ TableStruct.parser ⟨n, a, c⟩ = .ok v
  | .element n a c, .fig v => n = "Fig" ∧ Fig.parser ⟨n, a, c⟩ = .ok v
  | .element n a c, .figStruct v => n = "FigStruct" ∧ FigStruct.parser ⟨n, a, c⟩ = .ok v
  | .element n a c, .quoteStruct v => n = "QuoteStruct" ∧ QuoteStruct.parser ⟨n, a, c⟩ = .ok v
  | .element n a c, .noteStruct v => n = "NoteStruct" ∧ NoteStruct.parser ⟨n, a, c⟩ = .ok v
  | .element n a c, .styleStruct v => n = "StyleStruct" ∧ StyleStruct.parser ⟨n, a, c⟩ = .ok v
  | .element n a c, .appdxTable v => n = "AppdxTable" ∧ AppdxTable.parser ⟨n, a, c⟩ = .ok v
  | .element n a c, .ruby v => n = "Ruby" ∧ Ruby.parser ⟨n, a, c⟩ = .ok v
  | .element n a c, .line v => n = "Line" ∧ Line.parser ⟨n, a, c⟩ = .ok v
  | .element n a c, .sup v => n = "Sup" ∧ Sup.parser ⟨n, a, c⟩ = .ok v
  | .element n a c, .sub v => n = "Sub" ∧ Sub.parser ⟨n, a, c⟩ = .ok v
  | .element n a c, .paragraph v => n = "Paragraph" ∧ Paragraph.parser ⟨n, a, c⟩ = .ok v
  | .element n a c, .item v => n = "Item" ∧ Item.parser ⟨n, a, c⟩ = .ok v
  | .element n a c, .subitem1 v => n = "Subitem1" ∧ Subitem1.parser ⟨n, a, c⟩ = .ok v
  | .element n a c, .subitem2 v => n = "Subitem2" ∧ Subitem2.parser ⟨n, a, c⟩ = .ok v
  | .element n a c, .subitem3 v => n = "Subitem3" ∧ Subitem3.parser ⟨n, a, c⟩ = .ok v
  | .element n a c, .subitem4 v => n = "Subitem4" ∧ Subitem4.parser ⟨n, a, c⟩ = .ok v
  | .element n a c, .subitem5 v => n = "Subitem5" ∧ Subitem5.parser ⟨n, a, c⟩ = .ok v
  | .element n a c, .subitem6 v => n = "Subitem6" ∧ Subitem6.parser ⟨n, a, c⟩ = .ok v
  | .element n a c, .subitem7 v => n = "Subitem7" ∧ Subitem7.parser ⟨n, a, c⟩ = .ok v
  | .element n a c, .subitem8 v => n = "Subitem8" ∧ Subitem8.parser ⟨n, a, c⟩ = .ok v
  | .element n a c, .subitem9 v => n = "Subitem9" ∧ Subitem9.parser ⟨n, a, c⟩ = .ok v
  | .element n a c, .subitem10 v => n = "Subitem10" ∧ Subitem10.parser ⟨n, a, c⟩ = .ok v
  | .element n a c, .list v => n = "List" ∧ LawList.parser ⟨n, a, c⟩ = .ok v
  | .element n a c, .sentence v => n = "Sentence" ∧ Sentence.parser ⟨n, a, c⟩ = .ok v
  | .element n a c, .arithFormula v => n = "ArithFormula" ∧ ArithFormula.parser ⟨n, a, c⟩ = .ok v
  | .element n a c, .remarks v => n = "Remarks" ∧ Remarks.parser ⟨n, a, c⟩ = .ok v
  | .element n a c, .toc v => n = "TOC" ∧ TOC.parser ⟨n, a, c⟩ = .ok v
  | .element n a c, .tocSection v => n = "TOCSection" ∧ TOCSection.parser ⟨n, a, c⟩ = .ok v
  | .element n a c, .tableRow v => n = "TableRow" ∧ TableRow.parser ⟨n, a, c⟩ = .ok v
  | _, _ => False

end JLaw
