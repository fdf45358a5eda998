import Verif.Model.Law
import Verif.Spec.Keep

/-!
# Which values survive writing and reading: items and everything above them
-/

namespace JLaw

variable {L : Lvl}

/-! ## Items, paragraphs, articles -/

/-- A missing number cannot be written. -/
def ItemOf.Keeps {γ : Type} (K : Keep L) (C : γ → Prop) (x : ItemOf L γ) : Prop :=
  OptKeeps (fun t => t.Keeps K) x.title ∧ x.sentence.Keeps K ∧ (∀ c ∈ x.children, C c) ∧
    (∀ s ∈ x.struct_list, s.Keeps K) ∧ ∃ n, x.num = some n ∧ n.Keeps

def Subitem10.Keeps (K : Keep L) (x : Subitem10 L) : Prop := ItemOf.Keeps K (fun _ => True) x
def Subitem9.Keeps (K : Keep L) (x : Subitem9 L) : Prop := ItemOf.Keeps K (Subitem10.Keeps K) x
def Subitem8.Keeps (K : Keep L) (x : Subitem8 L) : Prop := ItemOf.Keeps K (Subitem9.Keeps K) x
def Subitem7.Keeps (K : Keep L) (x : Subitem7 L) : Prop := ItemOf.Keeps K (Subitem8.Keeps K) x
def Subitem6.Keeps (K : Keep L) (x : Subitem6 L) : Prop := ItemOf.Keeps K (Subitem7.Keeps K) x
def Subitem5.Keeps (K : Keep L) (x : Subitem5 L) : Prop := ItemOf.Keeps K (Subitem6.Keeps K) x
def Subitem4.Keeps (K : Keep L) (x : Subitem4 L) : Prop := ItemOf.Keeps K (Subitem5.Keeps K) x
def Subitem3.Keeps (K : Keep L) (x : Subitem3 L) : Prop := ItemOf.Keeps K (Subitem4.Keeps K) x
def Subitem2.Keeps (K : Keep L) (x : Subitem2 L) : Prop := ItemOf.Keeps K (Subitem3.Keeps K) x
def Subitem1.Keeps (K : Keep L) (x : Subitem1 L) : Prop := ItemOf.Keeps K (Subitem2.Keeps K) x
def Item.Keeps (K : Keep L) (x : Item L) : Prop := ItemOf.Keeps K (Subitem1.Keeps K) x

def Class.Keeps (K : Keep L) (x : Class L) : Prop :=
  OptKeeps (fun t => t.Keeps K) x.class_title ∧ x.class_sentence.Keeps K ∧
    ∀ c ∈ x.children, Item.Keeps K c

def Paragraph.Keeps (K : Keep L) (x : Paragraph L) : Prop :=
  OptKeeps (fun t => t.Keeps K) x.caption ∧ x.paragraph_num.Keeps K ∧
    (∀ v ∈ x.amend_provision, K.amend v) ∧ (∀ v ∈ x.class_, v.Keeps K) ∧
    (∀ v ∈ x.sentence, v.Keeps K) ∧ (∀ v ∈ x.struct_list, v.Keeps K) ∧
    (∀ v ∈ x.children, Item.Keeps K v) ∧ x.num.Keeps

/-- An article without paragraphs needs a supplementary note. -/
def Article.Keeps (K : Keep L) (x : Article L) : Prop :=
  OptKeeps (fun t => t.Keeps K) x.caption ∧ x.title.Keeps K ∧ (∀ v ∈ x.paragraph, v.Keeps K) ∧
    OptKeeps (fun t => t.Keeps K) x.suppl_note ∧ x.num.Keeps ∧
    (x.paragraph ≠ [] ∨ x.suppl_note ≠ none)

def HierOf.Keeps {γ : Type} (K : Keep L) (C : γ → Prop) (x : HierOf L γ) : Prop :=
  x.title.Keeps K ∧ (∀ c ∈ x.children, C c) ∧ x.num.Keeps

def Division.Keeps (K : Keep L) (x : Division L) : Prop := HierOf.Keeps K (fun a => a.Keeps K) x
def SubsectionContents.Keeps (K : Keep L) : SubsectionContents L → Prop
  | .article v => v.Keeps K
  | .division v => Division.Keeps K v
def Subsection.Keeps (K : Keep L) (x : Subsection L) : Prop := HierOf.Keeps K (fun c => c.Keeps K) x
def SectionContents.Keeps (K : Keep L) : SectionContents L → Prop
  | .article v => v.Keeps K
  | .subsection v => Subsection.Keeps K v
  | .division v => Division.Keeps K v
def Section.Keeps (K : Keep L) (x : Section L) : Prop := HierOf.Keeps K (fun c => c.Keeps K) x
def ChapterContents.Keeps (K : Keep L) : ChapterContents L → Prop
  | .article v => v.Keeps K
  | .section_ v => Section.Keeps K v
def Chapter.Keeps (K : Keep L) (x : Chapter L) : Prop := HierOf.Keeps K (fun c => c.Keeps K) x
def PartContents.Keeps (K : Keep L) : PartContents L → Prop
  | .article v => v.Keeps K
  | .chapter v => Chapter.Keeps K v
def Part.Keeps (K : Keep L) (x : Part L) : Prop := HierOf.Keeps K (fun c => c.Keeps K) x

/-! ## Tables of contents -/

def TOCOf.Keeps {γ : Type} (K : Keep L) (C : γ → Prop) (x : TOCOf L γ) : Prop :=
  x.title.Keeps K ∧ OptKeeps (fun t => t.Keeps K) x.article_range ∧ x.num.Keeps ∧
    ∀ c ∈ x.children, C c

def TOCDivision.Keeps (K : Keep L) (x : TOCDivision L) : Prop := TOCOf.Keeps K (fun _ => True) x
def TOCSubsection.Keeps (K : Keep L) (x : TOCSubsection L) : Prop :=
  TOCOf.Keeps K (TOCDivision.Keeps K) x
def TOCSectionContents.Keeps (K : Keep L) : TOCSectionContents L → Prop
  | .tocSubsection v => TOCSubsection.Keeps K v
  | .tocDivision v => TOCDivision.Keeps K v
def TOCSection.Keeps (K : Keep L) (x : TOCSection L) : Prop := TOCOf.Keeps K (fun c => c.Keeps K) x
def TOCChapter.Keeps (K : Keep L) (x : TOCChapter L) : Prop := TOCOf.Keeps K (TOCSection.Keeps K) x
def TOCPart.Keeps (K : Keep L) (x : TOCPart L) : Prop := TOCOf.Keeps K (TOCChapter.Keeps K) x
def TOCArticle.Keeps (K : Keep L) (x : TOCArticle L) : Prop :=
  x.article_title.Keeps K ∧ x.article_caption.Keeps K ∧ x.num.Keeps
def TOCSupplProvisionContents.Keeps (K : Keep L) : TOCSupplProvisionContents L → Prop
  | .tocArticle v => v.Keeps K
  | .tocChapter v => TOCChapter.Keeps K v
def TOCSupplProvision.Keeps (K : Keep L) (x : TOCSupplProvision L) : Prop :=
  x.suppl_provision_label.Keeps K ∧ OptKeeps (fun t => t.Keeps K) x.article_range ∧
    ∀ c ∈ x.children, c.Keeps K
def TOCMainContents.Keeps (K : Keep L) : TOCMainContents L → Prop
  | .tocPart v => TOCPart.Keeps K v
  | .tocChapter v => TOCChapter.Keeps K v
  | .tocSection v => TOCSection.Keeps K v
  | .tocArticle v => v.Keeps K

/-- The label of the preamble is lost. -/
def TOC.Keeps (K : Keep L) (x : TOC L) : Prop :=
  OptKeeps (fun t => t.Keeps K) x.toc_label ∧ x.toc_preamble_label = none ∧
    (∀ c ∈ x.toc_main_contents, c.Keeps K) ∧ OptKeeps (fun t => t.Keeps K) x.toc_suppl_provision ∧
    ∀ t ∈ x.toc_appdx_table_label, t.Keeps K

/-! ## Appendices and supplementary provisions -/

/-- Remarks make the element unreadable. -/
def AppdxOf.Keeps {γ : Type} (K : Keep L) (C : γ → Prop) (x : AppdxOf L γ) : Prop :=
  OptKeeps (fun t => t.Keeps K) x.title ∧ OptKeeps (fun t => t.Keeps K) x.related_article_num ∧
    (∀ c ∈ x.children, C c) ∧ x.remarks = none

def AppdxTableContents.Keeps (K : Keep L) : AppdxTableContents L → Prop
  | .tableStruct v => TableStruct.Keeps K v
  | .item v => Item.Keeps K v
def AppdxTable.Keeps (K : Keep L) (x : AppdxTable L) : Prop := AppdxOf.Keeps K (fun c => c.Keeps K) x
def AppdxNoteContents.Keeps (K : Keep L) : AppdxNoteContents L → Prop
  | .noteStruct v => NoteStruct.Keeps K v
  | .figStruct v => FigStruct.Keeps K v
  | .tableStruct v => TableStruct.Keeps K v
def AppdxNote.Keeps (K : Keep L) (x : AppdxNote L) : Prop := AppdxOf.Keeps K (fun c => c.Keeps K) x
def AppdxStyle.Keeps (K : Keep L) (x : AppdxStyle L) : Prop := AppdxOf.Keeps K (StyleStruct.Keeps K) x
def AppdxFormat.Keeps (K : Keep L) (x : AppdxFormat L) : Prop :=
  AppdxOf.Keeps K (FormatStruct.Keeps K) x

/-- The related article number is lost. -/
def Appdx.Keeps (K : Keep L) (x : Appdx L) : Prop :=
  OptKeeps (fun t => t.Keeps K) x.arith_formula_num ∧ x.related_article_num = none ∧
    (∀ c ∈ x.arith_formula, c.Keeps K) ∧ x.remarks = none

def AppdxFigContents.Keeps (K : Keep L) : AppdxFigContents L → Prop
  | .figStruct v => FigStruct.Keeps K v
  | .tableStruct v => TableStruct.Keeps K v
def AppdxFig.Keeps (K : Keep L) (x : AppdxFig L) : Prop :=
  OptKeeps (fun t => t.Keeps K) x.title ∧ OptKeeps (fun t => t.Keeps K) x.related_article_num ∧
    ∀ c ∈ x.children, c.Keeps K

def SupplProvisionAppdxStyle.Keeps (K : Keep L) (x : SupplProvisionAppdxStyle L) : Prop :=
  x.title.Keeps K ∧ OptKeeps (fun t => t.Keeps K) x.related_article_num ∧
    ∀ c ∈ x.structs, StyleStruct.Keeps K c

/-- Tables and formulas of a supplementary provision are lost. -/
def SupplProvisionChildrenElement.Keeps (K : Keep L) : SupplProvisionChildrenElement L → Prop
  | .chapter v => Chapter.Keeps K v
  | .article v => v.Keeps K
  | .paragraph v => v.Keeps K
  | .supplProvisionAppdxTable _ => False
  | .supplProvisionAppdxStyle v => SupplProvisionAppdxStyle.Keeps K v
  | .supplProvisionAppdx _ => False

def SupplProvision.Keeps (K : Keep L) (x : SupplProvision L) : Prop :=
  x.label.Keeps K ∧ ∀ c ∈ x.children, c.Keeps K

/-! ## The law -/

def LawTitle.Keeps (K : Keep L) (x : LawTitle L) : Prop := x.text.Keeps K
def Preamble.Keeps (K : Keep L) (x : Preamble L) : Prop := ∀ p ∈ x.children, p.Keeps K
def MainProvisionContents.Keeps (K : Keep L) : MainProvisionContents L → Prop
  | .part v => Part.Keeps K v
  | .chapter v => Chapter.Keeps K v
  | .section_ v => Section.Keeps K v
  | .article v => v.Keeps K
  | .paragraph v => v.Keeps K
def MainProvision.Keeps (K : Keep L) (x : MainProvision L) : Prop := ∀ c ∈ x.children, c.Keeps K

def LawBody.Keeps (K : Keep L) (x : LawBody L) : Prop :=
  OptKeeps (fun t => t.Keeps K) x.law_title ∧ (∀ t ∈ x.enact_statement, t.Keeps K) ∧
    OptKeeps (fun t => t.Keeps K) x.toc ∧ OptKeeps (fun t => t.Keeps K) x.preamble ∧
    x.main_provision.Keeps K ∧ (∀ v ∈ x.suppl_provision, v.Keeps K) ∧
    (∀ v ∈ x.appdx_table, AppdxTable.Keeps K v) ∧ (∀ v ∈ x.appdx_note, AppdxNote.Keeps K v) ∧
    (∀ v ∈ x.appdx_style, AppdxStyle.Keeps K v) ∧ (∀ v ∈ x.appdx, v.Keeps K) ∧
    (∀ v ∈ x.appdx_fig, v.Keeps K) ∧ ∀ v ∈ x.appdx_format, AppdxFormat.Keeps K v

/-- A law without a number is unreadable. -/
def Law.Keeps (K : Keep L) (x : Law L) : Prop :=
  (∃ n, x.num = some n ∧ n.Keeps) ∧ x.law_body.Keeps K

/-! ## Cells, raw contents, amendments -/

/-- Remarks inside a cell make it unreadable. -/
def TableColumnContents.Keeps (K : Keep L) : TableColumnContents L → Prop
  | .part v => Part.Keeps K v
  | .chapter v => Chapter.Keeps K v
  | .section_ v => Section.Keeps K v
  | .subsection v => Subsection.Keeps K v
  | .division v => Division.Keeps K v
  | .article v => v.Keeps K
  | .paragraph v => v.Keeps K
  | .item v => Item.Keeps K v
  | .subitem1 v => Subitem1.Keeps K v
  | .subitem2 v => Subitem2.Keeps K v
  | .subitem3 v => Subitem3.Keeps K v
  | .subitem4 v => Subitem4.Keeps K v
  | .subitem5 v => Subitem5.Keeps K v
  | .subitem6 v => Subitem6.Keeps K v
  | .subitem7 v => Subitem7.Keeps K v
  | .subitem8 v => Subitem8.Keeps K v
  | .subitem9 v => Subitem9.Keeps K v
  | .subitem10 v => Subitem10.Keeps K v
  | .figStruct v => FigStruct.Keeps K v
  | .sentence v => v.Keeps K
  | .remarks _ => False
  | .column v => v.Keeps K
  | .string _ => True

/-- Alignments are written under the wrong name; double borders come back dotted. -/
def TableColumn.Keeps (K : Keep L) (x : TableColumn L) : Prop :=
  (∀ c ∈ x.contents, c.Keeps K) ∧ x.border_top ≠ .double ∧ x.border_bottom ≠ .double ∧
    x.border_left ≠ .double ∧ x.border_right ≠ .double ∧ x.align = none ∧ x.valign = none

/-- Remarks inside raw contents make them unreadable. -/
def ContentsElement.Keeps (K : Keep L) : ContentsElement L → Prop
  | .table v => v.Keeps K
  | .tableStruct v => TableStruct.Keeps K v
  | .fig _ => True
  | .figStruct v => FigStruct.Keeps K v
  | .quoteStruct v => v.Keeps K
  | .noteStruct v => NoteStruct.Keeps K v
  | .styleStruct v => StyleStruct.Keeps K v
  | .appdxTable v => AppdxTable.Keeps K v
  | .ruby v => v.Keeps K
  | .line v => v.Keeps K
  | .sup _ => True
  | .sub _ => True
  | .string _ => True
  | .paragraph v => v.Keeps K
  | .item v => Item.Keeps K v
  | .subitem1 v => Subitem1.Keeps K v
  | .subitem2 v => Subitem2.Keeps K v
  | .subitem3 v => Subitem3.Keeps K v
  | .subitem4 v => Subitem4.Keeps K v
  | .subitem5 v => Subitem5.Keeps K v
  | .subitem6 v => Subitem6.Keeps K v
  | .subitem7 v => Subitem7.Keeps K v
  | .subitem8 v => Subitem8.Keeps K v
  | .subitem9 v => Subitem9.Keeps K v
  | .subitem10 v => Subitem10.Keeps K v
  | .list v => LawList.Keeps K v
  | .sentence v => v.Keeps K
  | .arithFormula v => v.Keeps K
  | .remarks _ => False
  | .toc v => v.Keeps K
  | .tocSection v => TOCSection.Keeps K v
  | .tableRow v => v.Keeps K

def Contents.Keeps (K : Keep L) (x : Contents L) : Prop := ∀ c ∈ x.contents, c.Keeps K

/-- New provisions are lost. -/
def AmendProvision.Keeps (K : Keep L) (x : AmendProvision L) : Prop :=
  OptKeeps (fun s => s.Keeps K) x.sentence ∧ x.new_provision = []

/-! ## All levels -/

/-- The conditions one level up. -/
def Keep.succ (K : Keep L) : Keep L.succ where
  plain := Text.Plain (L := L)
  contents := Contents.Keeps K
  item := Item.Keeps K
  column := TableColumn.Keeps K
  amend := AmendProvision.Keeps K

/-- The conditions at level `n`; at level 0 there is nothing to keep. -/
def kcanon : (n : Nat) → Keep (lvl n)
  | 0 => { plain := Empty.elim, contents := Empty.elim, item := Empty.elim, column := Empty.elim,
           amend := Empty.elim }
  | n + 1 => (kcanon n).succ

end JLaw
