import Verif.Model.Law

/-!
# Lists of articles, plain text and generated tables of contents

Models src/utils.rs and `Text::to_string` of src/text.rs.
-/

namespace JLaw

variable {L : Lvl}

/-! ## Plain text -/

/-- How the three types of a level that occur inside sentences and tables are turned into text. -/
structure Render (L : Lvl) where
  /-- `Text::to_string` of the base text of a ruby -/
  text : L.Text → String
  /-- the loop over raw contents in `sentence_element_to_str`, pushing on a string -/
  contents : String → L.Contents → String
  /-- the text of a cell in `table_to_str` -/
  column : L.TableColumn → String

/-- One step of the loop in `Text::to_string`, src/text.rs 120-126. -/
def TextElement.push (R : Render L) (s : String) : TextElement L → String
  | .sub x => s ++ x.text
  | .sup x => s ++ x.text
  | .ruby r => s ++ R.text r.text
  | .line _ => s
  | .text t => s ++ t

/-- `Text::to_string`, src/text.rs 116-130. -/
def Text.toStr (R : Render L) (t : Text L) : String := t.contents.foldl (TextElement.push R) ""

/-- `TextWithWritingMode::to_string`, src/text.rs 233-247. -/
def TextWithWritingMode.toStr (R : Render L) (t : TextWithWritingMode L) : String :=
  t.contents.foldl (TextElement.push R) ""

/-- One step of the loop over raw contents, src/utils.rs 868-884 and 890-906. -/
def ContentsElement.push (R : Render L) (s : String) : ContentsElement L → String
  | .string t => s ++ t
  | .ruby r => s ++ R.text r.text
  | .sub x => ((s ++ "_{") ++ x.text) ++ "}"
  | .sup x => ((s ++ "^{") ++ x.text) ++ "}"
  | _ => s

/-- The loop over raw contents, src/utils.rs 868-885 and 889-906. -/
def Contents.push (R : Render L) (s : String) (c : Contents L) : String :=
  c.contents.foldl (ContentsElement.push R) s

/-- One step of the loop in `sentence_element_to_str`, src/utils.rs 850-910. -/
def SentenceElement.push (R : Render L) (s : String) : SentenceElement L → String
  | .string t => s ++ t
  | .ruby r => s ++ R.text r.text
  | .sub x => ((s ++ "_{") ++ x.text) ++ "}"
  | .sup x => ((s ++ "^{") ++ x.text) ++ "}"
  | .arithFormula a => R.contents s a.contentes
  | .quoteStruct q => R.contents s q.contentes
  | _ => s

/-- `sentence_element_to_str`, src/utils.rs 847-913. -/
def sentenceElementToStr (R : Render L) (l : List (SentenceElement L)) : String :=
  l.foldl (SentenceElement.push R) ""

/-- `iter().map(|sentence| sentence_element_to_str(&sentence.contents)).collect::<String>()`. -/
def sentencesToStr (R : Render L) (l : List (Sentence L)) : String :=
  String.join (l.map fun s => sentenceElementToStr R s.contents)

/-- The text of one piece of a cell, src/utils.rs 826-835. -/
def TableColumnContents.toStr (R : Render L) : TableColumnContents L → String
  | .string s => s
  | .sentence se => sentenceElementToStr R se.contents
  | .column c => sentencesToStr R c.sentence
  | _ => ""

/-- The text of a cell, src/utils.rs 821-838. -/
def TableColumn.toStr (R : Render L) (c : TableColumn L) : String :=
  String.join (c.contents.map (TableColumnContents.toStr R))

/-- `table_to_str`, src/utils.rs 801-845. -/
def tableToStr (R : Render L) (t : Table L) : String :=
  let header := String.intercalate " "
    (t.table_header_row.map fun row => String.join (row.columns.map (Text.toStr R)))
  let rows := String.intercalate "\n"
    (t.table_row.map fun row => String.intercalate " " (row.columns.map R.column))
  header ++ "\n" ++ rows

/-- Turning data into text, level by level. -/
def render : (n : Nat) → Render (lvl n)
  | 0 => ⟨Empty.elim, fun _ => Empty.elim, Empty.elim⟩
  | n + 1 =>
    { text := fun t => Text.toStr (render n) t
      contents := fun s c => Contents.push (render n) s c
      column := fun c => TableColumn.toStr (render n) c }

/-- The `match` on the sentences of an item, src/utils.rs 381-397 and others. The table case is a
parameter because it differs at one level. -/
def SentenceOrColumnOrTable.toStr (R : Render L) (tableStr : Table L → String) :
    SentenceOrColumnOrTable L → String
  | .sentence se => sentencesToStr R se
  | .column cs => String.intercalate " "
      (cs.flatMap fun c => c.sentence.map fun s => sentenceElementToStr R s.contents)
  | .table t => tableStr t

/-- `TextIndex`, src/utils.rs 330-336. -/
structure TextIndex where
  paragraph : ArticleNumber
  items : List (Option ArticleNumber)
  deriving DecidableEq, Repr

/-- The common shape of `text_list_from_subitem1` to `text_list_from_subitem10`, src/utils.rs
413-799. Source: src/utils.rs 413-450, 452-489, 491-528, 530-567, 569-606, 608-645, 647-684,
686-723, 725-762, 764-799. -/
def textListFromItems {γ : Type} (R : Render L) (tableStr : Table L → String)
    (inner : ArticleNumber → List (Option ArticleNumber) → List γ → List (TextIndex × String))
    (para : ArticleNumber) (items : List (Option ArticleNumber)) (l : List (ItemOf L γ)) :
    List (TextIndex × String) :=
  l.flatMap fun t =>
    (⟨para, items ++ [t.num]⟩, t.sentence.toStr R tableStr) ::
      inner para (items ++ [t.num]) t.children

/-- `text_list_from_subitem10`, src/utils.rs 764-799. -/
def textListFromSubitem10 (R : Render L) (p : ArticleNumber) (i : List (Option ArticleNumber))
    (l : List (Subitem10 L)) : List (TextIndex × String) :=
  textListFromItems R (tableToStr R) (fun _ _ _ => []) p i l
/-- `text_list_from_subitem9`, src/utils.rs 725-762. -/
def textListFromSubitem9 (R : Render L) (p : ArticleNumber) (i : List (Option ArticleNumber))
    (l : List (Subitem9 L)) : List (TextIndex × String) :=
  textListFromItems R (tableToStr R) (textListFromSubitem10 R) p i l
/-- `text_list_from_subitem8`, src/utils.rs 686-723. -/
def textListFromSubitem8 (R : Render L) (p : ArticleNumber) (i : List (Option ArticleNumber))
    (l : List (Subitem8 L)) : List (TextIndex × String) :=
  textListFromItems R (tableToStr R) (textListFromSubitem9 R) p i l
/-- `text_list_from_subitem7`, src/utils.rs 647-684. -/
def textListFromSubitem7 (R : Render L) (p : ArticleNumber) (i : List (Option ArticleNumber))
    (l : List (Subitem7 L)) : List (TextIndex × String) :=
  textListFromItems R (tableToStr R) (textListFromSubitem8 R) p i l
/-- `text_list_from_subitem6`, src/utils.rs 608-645; the text of a table is the empty string. -/
def textListFromSubitem6 (R : Render L) (p : ArticleNumber) (i : List (Option ArticleNumber))
    (l : List (Subitem6 L)) : List (TextIndex × String) :=
  textListFromItems R (fun _ => "") (textListFromSubitem7 R) p i l
/-- `text_list_from_subitem5`, src/utils.rs 569-606. -/
def textListFromSubitem5 (R : Render L) (p : ArticleNumber) (i : List (Option ArticleNumber))
    (l : List (Subitem5 L)) : List (TextIndex × String) :=
  textListFromItems R (tableToStr R) (textListFromSubitem6 R) p i l
/-- `text_list_from_subitem4`, src/utils.rs 530-567. -/
def textListFromSubitem4 (R : Render L) (p : ArticleNumber) (i : List (Option ArticleNumber))
    (l : List (Subitem4 L)) : List (TextIndex × String) :=
  textListFromItems R (tableToStr R) (textListFromSubitem5 R) p i l
/-- `text_list_from_subitem3`, src/utils.rs 491-528. -/
def textListFromSubitem3 (R : Render L) (p : ArticleNumber) (i : List (Option ArticleNumber))
    (l : List (Subitem3 L)) : List (TextIndex × String) :=
  textListFromItems R (tableToStr R) (textListFromSubitem4 R) p i l
/-- `text_list_from_subitem2`, src/utils.rs 452-489. -/
def textListFromSubitem2 (R : Render L) (p : ArticleNumber) (i : List (Option ArticleNumber))
    (l : List (Subitem2 L)) : List (TextIndex × String) :=
  textListFromItems R (tableToStr R) (textListFromSubitem3 R) p i l
/-- `text_list_from_subitem1`, src/utils.rs 413-450. -/
def textListFromSubitem1 (R : Render L) (p : ArticleNumber) (i : List (Option ArticleNumber))
    (l : List (Subitem1 L)) : List (TextIndex × String) :=
  textListFromItems R (tableToStr R) (textListFromSubitem2 R) p i l

/-- One round of the loop over the items of a paragraph, src/utils.rs 378-408. The state is the
list of numbers `items` and the result. -/
def paragraphItemStep (R : Render L) (para : ArticleNumber)
    (s : List (Option ArticleNumber) × List (TextIndex × String)) (item : Item L) :
    List (Option ArticleNumber) × List (TextIndex × String) :=
  let items := s.1 ++ [item.num]
  (items.dropLast, s.2 ++ [(⟨para, items⟩, item.sentence.toStr R (tableToStr R))] ++
    textListFromSubitem1 R para items item.children)

/-- `text_info_list_from_paragraph`, src/utils.rs 360-411. -/
def textInfoListFromParagraph (R : Render L) (l : List (Paragraph L)) : List (TextIndex × String) :=
  l.foldl (fun v para =>
    (para.children.foldl (paragraphItemStep R para.num)
      ([], v ++ [(⟨para.num, []⟩, sentencesToStr R para.sentence)])).2) []

/-- `text_from_article`, src/utils.rs 339-346. -/
def textFromArticle (R : Render L) (a : Article L) : String :=
  String.intercalate "\n" ((textInfoListFromParagraph R a.paragraph).map Prod.snd)

/-- `text_from_paragraph_list`, src/utils.rs 349-356. -/
def textFromParagraphList (R : Render L) (l : List (Paragraph L)) : String :=
  String.intercalate "\n" ((textInfoListFromParagraph R l).map Prod.snd)

/-! ## Lists of articles -/

/-- `WithNumberArticle`, src/utils.rs 25-32. -/
structure WithNumberArticle (L : Lvl) where
  part : Option ArticleNumber := none
  chapter : Option ArticleNumber := none
  section_ : Option ArticleNumber := none
  subsection : Option ArticleNumber := none
  division : Option ArticleNumber := none
  article : Article L

/-- `article_list_from_division`, src/utils.rs 318-326. -/
def articleListFromDivision (t : Division L) : List (WithNumberArticle L) :=
  t.children.map fun a => { article := a, division := some t.num }

/-- `article_list_from_subsection`, src/utils.rs 292-315. The variable `t` of each arm hides the
subsection, as in the source. -/
def articleListFromSubsection (t : Subsection L) : List (WithNumberArticle L) :=
  t.children.flatMap fun
    | .division t => (articleListFromDivision t).map fun w => { w with subsection := some t.num }
    | .article t => [{ article := t, subsection := some t.num }]

/-- `article_list_from_section`, src/utils.rs 255-289. -/
def articleListFromSection (t : Section L) : List (WithNumberArticle L) :=
  t.children.flatMap fun
    | .subsection t => (articleListFromSubsection t).map fun w => { w with section_ := some t.num }
    | .division t => (articleListFromDivision t).map fun w => { w with section_ := some t.num }
    | .article t => [{ article := t, section_ := some t.num }]

/-- `article_list_from_chapter`, src/utils.rs 230-253. -/
def articleListFromChapter (t : Chapter L) : List (WithNumberArticle L) :=
  t.children.flatMap fun
    | .section_ t => (articleListFromSection t).map fun w => { w with chapter := some t.num }
    | .article t => [{ article := t, chapter := some t.num }]

/-- `article_list_from_part`, src/utils.rs 205-228. -/
def articleListFromPart (t : Part L) : List (WithNumberArticle L) :=
  t.children.flatMap fun
    | .chapter t => (articleListFromChapter t).map fun w => { w with part := some t.num }
    | .article t => [{ article := t, part := some t.num }]

/-- State of the loops over provisions: articles, finished groups of paragraphs, open group. Source:
src/utils.rs 86-91, 142-146, 176-180. -/
structure ListSt (α : Type) (L : Lvl) where
  v : List α := []
  para_v : List (List (Paragraph L)) := []
  para_v_tmp : List (Paragraph L) := []

/-- `para_v.push(para_v_tmp); para_v_tmp = Vec::new(); v.append(..)`. -/
def ListSt.close {α : Type} (s : ListSt α L) (l : List α) : ListSt α L :=
  ⟨s.v ++ l, s.para_v ++ [s.para_v_tmp], []⟩

/-- `para_v_tmp.push(t.clone())`. -/
def ListSt.keep {α : Type} (s : ListSt α L) (p : Paragraph L) : ListSt α L :=
  { s with para_v_tmp := s.para_v_tmp ++ [p] }

/-- `para_v.push(para_v_tmp); (v, para_v)`. -/
def ListSt.finish {α : Type} (s : ListSt α L) : List α × List (List (Paragraph L)) :=
  (s.v, s.para_v ++ [s.para_v_tmp])

/-- Body of the loop in `with_number_article_list_from_main_provision`, src/utils.rs 92-119. -/
def mainProvisionStep (s : ListSt (WithNumberArticle L) L) :
    MainProvisionContents L → ListSt (WithNumberArticle L) L
  | .article t => s.close [{ article := t }]
  | .part t => s.close (articleListFromPart t)
  | .chapter t => s.close (articleListFromChapter t)
  | .section_ t => s.close (articleListFromSection t)
  | .paragraph t => s.keep t

/-- `with_number_article_list_from_main_provision`, src/utils.rs 85-124. -/
def withNumberArticleListFromMainProvision (m : MainProvision L) :
    List (WithNumberArticle L) × List (List (Paragraph L)) :=
  (m.children.foldl mainProvisionStep {}).finish

/-- `article_list_from_main_provision`, src/utils.rs 128-137. -/
def articleListFromMainProvision (m : MainProvision L) :
    List (Article L) × List (List (Paragraph L)) :=
  let r := withNumberArticleListFromMainProvision m
  (r.1.map fun w => w.article, r.2)

/-- Body of the loop in `article_list_from_suppl_provision`, src/utils.rs 147-168. -/
def supplProvisionStep (s : ListSt (Article L) L) :
    SupplProvisionChildrenElement L → ListSt (Article L) L
  | .article t => s.close [t]
  | .chapter t => s.close ((articleListFromChapter t).map fun w => w.article)
  | .paragraph t => s.keep t
  | _ => s

/-- `article_list_from_suppl_provision`, src/utils.rs 141-171. -/
def articleListFromSupplProvision (x : SupplProvision L) :
    List (Article L) × List (List (Paragraph L)) :=
  (x.children.foldl supplProvisionStep {}).finish

/-- Body of the loop in `with_number_article_list_from_suppl_provision`, src/utils.rs 181-199. -/
def withNumberSupplProvisionStep (s : ListSt (WithNumberArticle L) L) :
    SupplProvisionChildrenElement L → ListSt (WithNumberArticle L) L
  | .article t => s.close [{ article := t }]
  | .chapter t => s.close (articleListFromChapter t)
  | .paragraph t => s.keep t
  | _ => s

/-- `with_number_article_list_from_suppl_provision`, src/utils.rs 175-203. -/
def withNumberArticleListFromSupplProvision (x : SupplProvision L) :
    List (WithNumberArticle L) × List (List (Paragraph L)) :=
  (x.children.foldl withNumberSupplProvisionStep {}).finish

/-! ## Generated tables of contents -/

/-- `Toc`, src/utils.rs 915-924. -/
structure Toc where
  part_number : Option ArticleNumber := none
  chapter_number : Option ArticleNumber := none
  section_number : Option ArticleNumber := none
  subsection_number : Option ArticleNumber := none
  division_number : Option ArticleNumber := none
  article_number : Option ArticleNumber := none
  title : Option String := none
  deriving DecidableEq, Repr

/-- `Toc::set_article`, src/utils.rs 942-944: it writes the division number. -/
def Toc.setArticle (t : Toc) (num : Option ArticleNumber) : Toc := { t with division_number := num }

/-- `set_article(Some(num)); set_title(Some(title.to_string()))`. -/
def Toc.forArticle (R : Render L) (t : Toc) (a : Article L) : Toc :=
  { t.setArticle (some a.num) with title := some (a.title.toStr R) }

/-- State of the loops: the shared entry and the entries pushed. Source: src/utils.rs 971-999. -/
abbrev TocSt := Toc × List Toc

/-- `toc.set_article(..); toc.set_title(..); v.push(toc.clone())`. -/
def tocArticleStep (R : Render L) (s : TocSt) (a : Article L) : TocSt :=
  (s.1.forArticle R a, s.2 ++ [s.1.forArticle R a])

/-- `toc_list_from_division`, src/utils.rs 1115-1127, on a copy of the shared entry. -/
def tocListFromDivision (R : Render L) (t : Division L) (toc : Toc) : List Toc :=
  let toc := { toc with division_number := some t.num, title := some (t.title.toStr R) }
  (t.children.foldl (tocArticleStep R) (toc, [toc])).2

/-- Body of the loop in `toc_list_from_subsection`, src/utils.rs 1099-1111. -/
def tocSubsectionStep (R : Render L) (s : TocSt) : SubsectionContents L → TocSt
  | .article t => tocArticleStep R s t
  | .division t => (s.1, s.2 ++ tocListFromDivision R t s.1)

/-- `toc_list_from_subsection`, src/utils.rs 1093-1113, on a copy of the shared entry. -/
def tocListFromSubsection (R : Render L) (t : Subsection L) (toc : Toc) : List Toc :=
  let toc := { toc with subsection_number := some t.num, title := some (t.title.toStr R) }
  (t.children.foldl (tocSubsectionStep R) (toc, [toc])).2

/-- Body of the loop in `toc_list_from_section`, src/utils.rs 1073-1089. -/
def tocSectionStep (R : Render L) (s : TocSt) : SectionContents L → TocSt
  | .article t => tocArticleStep R s t
  | .subsection t => (s.1, s.2 ++ tocListFromSubsection R t s.1)
  | .division t => (s.1, s.2 ++ tocListFromDivision R t s.1)

/-- `toc_list_from_section`, src/utils.rs 1067-1091, on a copy of the shared entry. -/
def tocListFromSection (R : Render L) (t : Section L) (toc : Toc) : List Toc :=
  let toc := { toc with section_number := some t.num, title := some (t.title.toStr R) }
  (t.children.foldl (tocSectionStep R) (toc, [toc])).2

/-- Body of the loop in `toc_list_from_chapter`, src/utils.rs 1051-1063. -/
def tocChapterStep (R : Render L) (s : TocSt) : ChapterContents L → TocSt
  | .article t => tocArticleStep R s t
  | .section_ t => (s.1, s.2 ++ tocListFromSection R t s.1)

/-- `toc_list_from_chapter`, src/utils.rs 1045-1065; gives the shared entry after the call and the
entries. -/
def tocListFromChapter (R : Render L) (t : Chapter L) (toc : Toc) : TocSt :=
  let toc := { toc with chapter_number := some t.num, title := some (t.title.toStr R) }
  t.children.foldl (tocChapterStep R) (toc, [toc])

/-- Body of the loop in `toc_list_from_part`, src/utils.rs 1029-1041: the chapter works on the
shared entry itself. -/
def tocPartStep (R : Render L) (s : TocSt) : PartContents L → TocSt
  | .article t => tocArticleStep R s t
  | .chapter t =>
    let r := tocListFromChapter R t s.1
    (r.1, s.2 ++ r.2)

/-- `toc_list_from_part`, src/utils.rs 1022-1043. -/
def tocListFromPart (R : Render L) (t : Part L) : List Toc :=
  let toc : Toc := { part_number := some t.num, title := some (t.title.toStr R) }
  (t.children.foldl (tocPartStep R) (toc, [toc])).2

/-- `toc_list_from_main_provision`, src/utils.rs 971-999. -/
def tocListFromMainProvision (R : Render L) (m : MainProvision L) : List Toc :=
  m.children.flatMap fun
    | .article t => [Toc.forArticle R {} t]
    | .part t => tocListFromPart R t
    | .chapter t => (tocListFromChapter R t {}).2
    | .section_ t => tocListFromSection R t {}
    | .paragraph _ => []

/-- `toc_list_from_suppl_provision`, src/utils.rs 1001-1020. -/
def tocListFromSupplProvision (R : Render L) (x : SupplProvision L) : List Toc :=
  x.children.flatMap fun
    | .article t => [Toc.forArticle R {} t]
    | .chapter t => (tocListFromChapter R t {}).2
    | _ => []

end JLaw
