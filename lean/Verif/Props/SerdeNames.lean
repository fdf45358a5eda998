import Verif.Props.Serde

/-!
# C99: names in JSON documents

For every struct, an object is read as `x` exactly if it gives every field of `x` by the name of the
field. For every enum, a variant is given by its name.
-/

namespace JLaw

open Spec

theorem newtype_iff {α β : Type} {c : Codec α} {d : Codec β} (hc : Lawful c) (hd : Lawful d)
    {name : String} {x : β} {y : α} (h : c.ser y = .newtypeVariant name (d.ser x)) (j : Json) :
    c.de (.obj [(name, j)]) = some y ↔ d.de j = some x := by
  rw [hc.exact, hd.exact, h]
  simp only [Says]
  exact ⟨fun ⟨_, e, h⟩ => by cases e; exact h, fun h => ⟨j, rfl, h⟩⟩

/-- **C99.** The names of the fields and variants in `src/appdx.rs`. -/
theorem C99_names_appdx (n : Nat) :
    (∀ l (x : AppdxTable (lvl n)), (AppdxTable.codec (codecs n)).de (.obj l) = some x ↔
      Gives l "title" ((Codec.option (TextWithWritingMode.codec (codecs n))).ser x.title) ∧
      Gives l "related_article_num" ((Codec.option (Text.codec (codecs n))).ser
      x.related_article_num) ∧
      Gives l "children" ((Codec.list (AppdxTableContents.codec (codecs n))).ser x.children) ∧
      Gives l "remarks" ((Codec.option (Remarks.codec (codecs n))).ser x.remarks) ∧
      Gives l "num" ((Codec.option Codec.str).ser x.num)) ∧
    (∀ j x, (AppdxTableContents.codec (codecs n)).de (.obj [("TableStruct", j)]) = some
      (.tableStruct x) ↔ (TableStruct.codec (codecs n)).de j = some x) ∧
    (∀ j x, (AppdxTableContents.codec (codecs n)).de (.obj [("Item", j)]) = some (.item x) ↔
      (Item.codec (codecs n)).de j = some x) ∧
    (∀ l (x : AppdxNote (lvl n)), (AppdxNote.codec (codecs n)).de (.obj l) = some x ↔
      Gives l "title" ((Codec.option (TextWithWritingMode.codec (codecs n))).ser x.title) ∧
      Gives l "related_article_num" ((Codec.option (Text.codec (codecs n))).ser
      x.related_article_num) ∧
      Gives l "children" ((Codec.list (AppdxNoteContents.codec (codecs n))).ser x.children) ∧
      Gives l "remarks" ((Codec.option (Remarks.codec (codecs n))).ser x.remarks) ∧
      Gives l "num" ((Codec.option Codec.str).ser x.num)) ∧
    (∀ j x, (AppdxNoteContents.codec (codecs n)).de (.obj [("NoteStruct", j)]) = some (.noteStruct
      x) ↔ (NoteStruct.codec (codecs n)).de j = some x) ∧
    (∀ j x, (AppdxNoteContents.codec (codecs n)).de (.obj [("FigStruct", j)]) = some (.figStruct x)
      ↔ (FigStruct.codec (codecs n)).de j = some x) ∧
    (∀ j x, (AppdxNoteContents.codec (codecs n)).de (.obj [("TableStruct", j)]) = some
      (.tableStruct x) ↔ (TableStruct.codec (codecs n)).de j = some x) ∧
    (∀ l (x : AppdxStyle (lvl n)), (AppdxStyle.codec (codecs n)).de (.obj l) = some x ↔
      Gives l "title" ((Codec.option (TextWithWritingMode.codec (codecs n))).ser x.title) ∧
      Gives l "related_article_num" ((Codec.option (Text.codec (codecs n))).ser
      x.related_article_num) ∧
      Gives l "children" ((Codec.list (StyleStruct.codec (codecs n))).ser x.children) ∧
      Gives l "remarks" ((Codec.option (Remarks.codec (codecs n))).ser x.remarks) ∧
      Gives l "num" ((Codec.option Codec.str).ser x.num)) ∧
    (∀ l (x : AppdxFormat (lvl n)), (AppdxFormat.codec (codecs n)).de (.obj l) = some x ↔
      Gives l "title" ((Codec.option (TextWithWritingMode.codec (codecs n))).ser x.title) ∧
      Gives l "related_article_num" ((Codec.option (Text.codec (codecs n))).ser
      x.related_article_num) ∧
      Gives l "children" ((Codec.list (FormatStruct.codec (codecs n))).ser x.children) ∧
      Gives l "remarks" ((Codec.option (Remarks.codec (codecs n))).ser x.remarks) ∧
      Gives l "num" ((Codec.option Codec.str).ser x.num)) ∧
    (∀ l (x : Appdx (lvl n)), (Appdx.codec (codecs n)).de (.obj l) = some x ↔
      Gives l "arith_formula_num" ((Codec.option (Text.codec (codecs n))).ser x.arith_formula_num) ∧
      Gives l "related_article_num" ((Codec.option (Text.codec (codecs n))).ser
      x.related_article_num) ∧
      Gives l "arith_formula" ((Codec.list (ArithFormula.codec (codecs n))).ser x.arith_formula) ∧
      Gives l "remarks" ((Codec.option (Remarks.codec (codecs n))).ser x.remarks)) ∧
    (∀ l (x : AppdxFig (lvl n)), (AppdxFig.codec (codecs n)).de (.obj l) = some x ↔
      Gives l "title" ((Codec.option (TextWithWritingMode.codec (codecs n))).ser x.title) ∧
      Gives l "related_article_num" ((Codec.option (Text.codec (codecs n))).ser
      x.related_article_num) ∧
      Gives l "children" ((Codec.list (AppdxFigContents.codec (codecs n))).ser x.children) ∧
      Gives l "num" ((Codec.option Codec.str).ser x.num)) ∧
    (∀ j x, (AppdxFigContents.codec (codecs n)).de (.obj [("FigStruct", j)]) = some (.figStruct x)
      ↔ (FigStruct.codec (codecs n)).de j = some x) ∧
    (∀ j x, (AppdxFigContents.codec (codecs n)).de (.obj [("TableStruct", j)]) = some (.tableStruct
      x) ↔ (TableStruct.codec (codecs n)).de j = some x) := by
  refine ⟨?_, ?_, ?_, ?_, ?_, ?_, ?_, ?_, ?_, ?_, ?_, ?_, ?_⟩
  · exact fun l x => ((AppdxTable.lawful (codecs_lawful n)).exact _ x).trans ⟨fun ⟨a0, a1, a2, a3,
      a4, _⟩ => ⟨a0, a1, a2, a3, a4⟩, fun ⟨a0, a1, a2, a3, a4⟩ => ⟨a0, a1, a2, a3, a4, trivial⟩⟩
  · exact fun j x => newtype_iff (AppdxTableContents.lawful (codecs_lawful n)) (TableStruct.lawful
      (codecs_lawful n)) rfl j
  · exact fun j x => newtype_iff (AppdxTableContents.lawful (codecs_lawful n)) (Item.lawful
      (codecs_lawful n)) rfl j
  · exact fun l x => ((AppdxNote.lawful (codecs_lawful n)).exact _ x).trans ⟨fun ⟨a0, a1, a2, a3,
      a4, _⟩ => ⟨a0, a1, a2, a3, a4⟩, fun ⟨a0, a1, a2, a3, a4⟩ => ⟨a0, a1, a2, a3, a4, trivial⟩⟩
  · exact fun j x => newtype_iff (AppdxNoteContents.lawful (codecs_lawful n)) (NoteStruct.lawful
      (codecs_lawful n)) rfl j
  · exact fun j x => newtype_iff (AppdxNoteContents.lawful (codecs_lawful n)) (FigStruct.lawful
      (codecs_lawful n)) rfl j
  · exact fun j x => newtype_iff (AppdxNoteContents.lawful (codecs_lawful n)) (TableStruct.lawful
      (codecs_lawful n)) rfl j
  · exact fun l x => ((AppdxStyle.lawful (codecs_lawful n)).exact _ x).trans ⟨fun ⟨a0, a1, a2, a3,
      a4, _⟩ => ⟨a0, a1, a2, a3, a4⟩, fun ⟨a0, a1, a2, a3, a4⟩ => ⟨a0, a1, a2, a3, a4, trivial⟩⟩
  · exact fun l x => ((AppdxFormat.lawful (codecs_lawful n)).exact _ x).trans ⟨fun ⟨a0, a1, a2, a3,
      a4, _⟩ => ⟨a0, a1, a2, a3, a4⟩, fun ⟨a0, a1, a2, a3, a4⟩ => ⟨a0, a1, a2, a3, a4, trivial⟩⟩
  · exact fun l x => ((Appdx.lawful (codecs_lawful n)).exact _ x).trans ⟨fun ⟨a0, a1, a2, a3, _⟩ =>
      ⟨a0, a1, a2, a3⟩, fun ⟨a0, a1, a2, a3⟩ => ⟨a0, a1, a2, a3, trivial⟩⟩
  · exact fun l x => ((AppdxFig.lawful (codecs_lawful n)).exact _ x).trans ⟨fun ⟨a0, a1, a2, a3, _⟩
      => ⟨a0, a1, a2, a3⟩, fun ⟨a0, a1, a2, a3⟩ => ⟨a0, a1, a2, a3, trivial⟩⟩
  · exact fun j x => newtype_iff (AppdxFigContents.lawful (codecs_lawful n)) (FigStruct.lawful
      (codecs_lawful n)) rfl j
  · exact fun j x => newtype_iff (AppdxFigContents.lawful (codecs_lawful n)) (TableStruct.lawful
      (codecs_lawful n)) rfl j

/-- **C99.** The names of the fields and variants in `src/article.rs`. -/
theorem C99_names_article (n : Nat) :
    (∀ l (x : Part (lvl n)), (Part.codec (codecs n)).de (.obj l) = some x ↔
      Gives l "part_title" ((Text.codec (codecs n)).ser x.title) ∧
      Gives l "children" ((Codec.list (PartContents.codec (codecs n))).ser x.children) ∧
      Gives l "num" (ArticleNumber.codec.ser x.num) ∧
      Gives l "delete" (Codec.bool.ser x.delete) ∧
      Gives l "hide" (Codec.bool.ser x.hide)) ∧
    (∀ j x, (PartContents.codec (codecs n)).de (.obj [("Article", j)]) = some (.article x) ↔
      (Article.codec (codecs n)).de j = some x) ∧
    (∀ j x, (PartContents.codec (codecs n)).de (.obj [("Chapter", j)]) = some (.chapter x) ↔
      (Chapter.codec (codecs n)).de j = some x) ∧
    (∀ l (x : Chapter (lvl n)), (Chapter.codec (codecs n)).de (.obj l) = some x ↔
      Gives l "chapter_title" ((Text.codec (codecs n)).ser x.title) ∧
      Gives l "children" ((Codec.list (ChapterContents.codec (codecs n))).ser x.children) ∧
      Gives l "num" (ArticleNumber.codec.ser x.num) ∧
      Gives l "delete" (Codec.bool.ser x.delete) ∧
      Gives l "hide" (Codec.bool.ser x.hide)) ∧
    (∀ j x, (ChapterContents.codec (codecs n)).de (.obj [("Article", j)]) = some (.article x) ↔
      (Article.codec (codecs n)).de j = some x) ∧
    (∀ j x, (ChapterContents.codec (codecs n)).de (.obj [("Section", j)]) = some (.section_ x) ↔
      (Section.codec (codecs n)).de j = some x) ∧
    (∀ l (x : Section (lvl n)), (Section.codec (codecs n)).de (.obj l) = some x ↔
      Gives l "section_title" ((Text.codec (codecs n)).ser x.title) ∧
      Gives l "children" ((Codec.list (SectionContents.codec (codecs n))).ser x.children) ∧
      Gives l "num" (ArticleNumber.codec.ser x.num) ∧
      Gives l "delete" (Codec.bool.ser x.delete) ∧
      Gives l "hide" (Codec.bool.ser x.hide)) ∧
    (∀ j x, (SectionContents.codec (codecs n)).de (.obj [("Article", j)]) = some (.article x) ↔
      (Article.codec (codecs n)).de j = some x) ∧
    (∀ j x, (SectionContents.codec (codecs n)).de (.obj [("Subsection", j)]) = some (.subsection x)
      ↔ (Subsection.codec (codecs n)).de j = some x) ∧
    (∀ j x, (SectionContents.codec (codecs n)).de (.obj [("Division", j)]) = some (.division x) ↔
      (Division.codec (codecs n)).de j = some x) ∧
    (∀ l (x : Subsection (lvl n)), (Subsection.codec (codecs n)).de (.obj l) = some x ↔
      Gives l "subsection_title" ((Text.codec (codecs n)).ser x.title) ∧
      Gives l "children" ((Codec.list (SubsectionContents.codec (codecs n))).ser x.children) ∧
      Gives l "num" (ArticleNumber.codec.ser x.num) ∧
      Gives l "delete" (Codec.bool.ser x.delete) ∧
      Gives l "hide" (Codec.bool.ser x.hide)) ∧
    (∀ j x, (SubsectionContents.codec (codecs n)).de (.obj [("Article", j)]) = some (.article x) ↔
      (Article.codec (codecs n)).de j = some x) ∧
    (∀ j x, (SubsectionContents.codec (codecs n)).de (.obj [("Division", j)]) = some (.division x)
      ↔ (Division.codec (codecs n)).de j = some x) ∧
    (∀ l (x : Division (lvl n)), (Division.codec (codecs n)).de (.obj l) = some x ↔
      Gives l "division_title" ((Text.codec (codecs n)).ser x.title) ∧
      Gives l "children" ((Codec.list (Article.codec (codecs n))).ser x.children) ∧
      Gives l "num" (ArticleNumber.codec.ser x.num) ∧
      Gives l "delete" (Codec.bool.ser x.delete) ∧
      Gives l "hide" (Codec.bool.ser x.hide)) ∧
    (∀ l (x : Article (lvl n)), (Article.codec (codecs n)).de (.obj l) = some x ↔
      Gives l "caption" ((Codec.option (Caption.codec (codecs n))).ser x.caption) ∧
      Gives l "title" ((Text.codec (codecs n)).ser x.title) ∧
      Gives l "paragraph" ((Codec.list (Paragraph.codec (codecs n))).ser x.paragraph) ∧
      Gives l "suppl_note" ((Codec.option (Text.codec (codecs n))).ser x.suppl_note) ∧
      Gives l "num" (ArticleNumber.codec.ser x.num) ∧
      Gives l "delete" (Codec.bool.ser x.delete) ∧
      Gives l "hide" (Codec.bool.ser x.hide)) := by
  refine ⟨?_, ?_, ?_, ?_, ?_, ?_, ?_, ?_, ?_, ?_, ?_, ?_, ?_, ?_, ?_⟩
  · exact fun l x => ((Part.lawful (codecs_lawful n)).exact _ x).trans ⟨fun ⟨a0, a1, a2, a3, a4, _⟩
      => ⟨a0, a1, a2, a3, a4⟩, fun ⟨a0, a1, a2, a3, a4⟩ => ⟨a0, a1, a2, a3, a4, trivial⟩⟩
  · exact fun j x => newtype_iff (PartContents.lawful (codecs_lawful n)) (Article.lawful
      (codecs_lawful n)) rfl j
  · exact fun j x => newtype_iff (PartContents.lawful (codecs_lawful n)) (Chapter.lawful
      (codecs_lawful n)) rfl j
  · exact fun l x => ((Chapter.lawful (codecs_lawful n)).exact _ x).trans ⟨fun ⟨a0, a1, a2, a3, a4,
      _⟩ => ⟨a0, a1, a2, a3, a4⟩, fun ⟨a0, a1, a2, a3, a4⟩ => ⟨a0, a1, a2, a3, a4, trivial⟩⟩
  · exact fun j x => newtype_iff (ChapterContents.lawful (codecs_lawful n)) (Article.lawful
      (codecs_lawful n)) rfl j
  · exact fun j x => newtype_iff (ChapterContents.lawful (codecs_lawful n)) (Section.lawful
      (codecs_lawful n)) rfl j
  · exact fun l x => ((Section.lawful (codecs_lawful n)).exact _ x).trans ⟨fun ⟨a0, a1, a2, a3, a4,
      _⟩ => ⟨a0, a1, a2, a3, a4⟩, fun ⟨a0, a1, a2, a3, a4⟩ => ⟨a0, a1, a2, a3, a4, trivial⟩⟩
  · exact fun j x => newtype_iff (SectionContents.lawful (codecs_lawful n)) (Article.lawful
      (codecs_lawful n)) rfl j
  · exact fun j x => newtype_iff (SectionContents.lawful (codecs_lawful n)) (Subsection.lawful
      (codecs_lawful n)) rfl j
  · exact fun j x => newtype_iff (SectionContents.lawful (codecs_lawful n)) (Division.lawful
      (codecs_lawful n)) rfl j
  · exact fun l x => ((Subsection.lawful (codecs_lawful n)).exact _ x).trans ⟨fun ⟨a0, a1, a2, a3,
      a4, _⟩ => ⟨a0, a1, a2, a3, a4⟩, fun ⟨a0, a1, a2, a3, a4⟩ => ⟨a0, a1, a2, a3, a4, trivial⟩⟩
  · exact fun j x => newtype_iff (SubsectionContents.lawful (codecs_lawful n)) (Article.lawful
      (codecs_lawful n)) rfl j
  · exact fun j x => newtype_iff (SubsectionContents.lawful (codecs_lawful n)) (Division.lawful
      (codecs_lawful n)) rfl j
  · exact fun l x => ((Division.lawful (codecs_lawful n)).exact _ x).trans ⟨fun ⟨a0, a1, a2, a3,
      a4, _⟩ => ⟨a0, a1, a2, a3, a4⟩, fun ⟨a0, a1, a2, a3, a4⟩ => ⟨a0, a1, a2, a3, a4, trivial⟩⟩
  · exact fun l x => ((Article.lawful (codecs_lawful n)).exact _ x).trans ⟨fun ⟨a0, a1, a2, a3, a4,
      a5, a6, _⟩ => ⟨a0, a1, a2, a3, a4, a5, a6⟩, fun ⟨a0, a1, a2, a3, a4, a5, a6⟩ => ⟨a0, a1, a2,
      a3, a4, a5, a6, trivial⟩⟩

/-- **C99.** The names of the fields and variants in `src/article_number.rs`. -/
theorem C99_names_article_number :
    (∀ l (x : ArticleNumber), ArticleNumber.codec.de (.obj l) = some x ↔
      Gives l "base_number" (Codec.usize.ser x.base_number) ∧
      Gives l "eda_numbers" ((Codec.list Codec.usize).ser x.eda_numbers) ∧
      Gives l "range_end_numbers" ((Codec.list Codec.usize).ser x.range_end_numbers)) ∧
    (∀ l (x : ItemNumber), ItemNumber.codec.de (.obj l) = some x ↔
      Gives l "str" (Codec.str.ser (String.ofList x.str)) ∧
      Gives l "base_number" (Codec.usize.ser x.base_number) ∧
      Gives l "eda_numbers" ((Codec.list Codec.usize).ser x.eda_numbers) ∧
      Gives l "range_end_numbers" ((Codec.list Codec.usize).ser x.range_end_numbers) ∧
      Gives l "pattern" (ItemPattern.codec.ser x.pattern)) ∧
    ItemPattern.codec.de (.str "NoParenKansuji") = some .noParenKansuji ∧
    ItemPattern.codec.de (.str "NoParenIrohaKatakana") = some .noParenIrohaKatakana ∧
    ItemPattern.codec.de (.str "NoParenIrohaHiragana") = some .noParenIrohaHiragana ∧
    ItemPattern.codec.de (.str "NoParenZenkakuNum") = some .noParenZenkakuNum ∧
    ItemPattern.codec.de (.str "NoParenZenkakuRomanUpper") = some .noParenZenkakuRomanUpper ∧
    ItemPattern.codec.de (.str "NoParenZenkakuRomanLower") = some .noParenZenkakuRomanLower ∧
    ItemPattern.codec.de (.str "NoParenZenkakuUpper") = some .noParenZenkakuUpper ∧
    ItemPattern.codec.de (.str "NoParenZenkakuLower") = some .noParenZenkakuLower ∧
    ItemPattern.codec.de (.str "ParenKansuji") = some .parenKansuji ∧
    ItemPattern.codec.de (.str "ParenIrohaKatakana") = some .parenIrohaKatakana ∧
    ItemPattern.codec.de (.str "ParenIrohaHiragana") = some .parenIrohaHiragana ∧
    ItemPattern.codec.de (.str "ParenZenkakuNum") = some .parenZenkakuNum ∧
    ItemPattern.codec.de (.str "ParenZenkakuRomanUpper") = some .parenZenkakuRomanUpper ∧
    ItemPattern.codec.de (.str "ParenZenkakuRomanLower") = some .parenZenkakuRomanLower ∧
    ItemPattern.codec.de (.str "ParenZenkakuUpper") = some .parenZenkakuUpper ∧
    ItemPattern.codec.de (.str "ParenZenkakuLower") = some .parenZenkakuLower := by
  refine ⟨?_, ?_, ?_, ?_, ?_, ?_, ?_, ?_, ?_, ?_, ?_, ?_, ?_, ?_, ?_, ?_, ?_, ?_⟩
  · exact fun l x => (ArticleNumber.lawful.exact _ x).trans ⟨fun ⟨a0, a1, a2, _⟩ => ⟨a0, a1, a2⟩,
      fun ⟨a0, a1, a2⟩ => ⟨a0, a1, a2, trivial⟩⟩
  · exact fun l x => (ItemNumber.lawful.exact _ x).trans ⟨fun ⟨a0, a1, a2, a3, a4, _⟩ => ⟨a0, a1,
      a2, a3, a4⟩, fun ⟨a0, a1, a2, a3, a4⟩ => ⟨a0, a1, a2, a3, a4, trivial⟩⟩
  · exact (ItemPattern.lawful.exact _ _).2 rfl
  · exact (ItemPattern.lawful.exact _ _).2 rfl
  · exact (ItemPattern.lawful.exact _ _).2 rfl
  · exact (ItemPattern.lawful.exact _ _).2 rfl
  · exact (ItemPattern.lawful.exact _ _).2 rfl
  · exact (ItemPattern.lawful.exact _ _).2 rfl
  · exact (ItemPattern.lawful.exact _ _).2 rfl
  · exact (ItemPattern.lawful.exact _ _).2 rfl
  · exact (ItemPattern.lawful.exact _ _).2 rfl
  · exact (ItemPattern.lawful.exact _ _).2 rfl
  · exact (ItemPattern.lawful.exact _ _).2 rfl
  · exact (ItemPattern.lawful.exact _ _).2 rfl
  · exact (ItemPattern.lawful.exact _ _).2 rfl
  · exact (ItemPattern.lawful.exact _ _).2 rfl
  · exact (ItemPattern.lawful.exact _ _).2 rfl
  · exact (ItemPattern.lawful.exact _ _).2 rfl

/-- **C99.** The names of the fields and variants in `src/class.rs`. -/
theorem C99_names_class (n : Nat) :
    (∀ l (x : Class (lvl n)), (Class.codec (codecs n)).de (.obj l) = some x ↔
      Gives l "class_title" ((Codec.option (Text.codec (codecs n))).ser x.class_title) ∧
      Gives l "class_sentence" ((SentenceOrColumnOrTable.codec (codecs n)).ser x.class_sentence) ∧
      Gives l "children" ((Codec.list (Item.codec (codecs n))).ser x.children) ∧
      Gives l "num" (Codec.str.ser x.num)) ∧
    (∀ j x, (SentenceOrColumnOrTable.codec (codecs n)).de (.obj [("Sentence", j)]) = some
      (.sentence x) ↔ (Codec.list (Sentence.codec (codecs n))).de j = some x) ∧
    (∀ j x, (SentenceOrColumnOrTable.codec (codecs n)).de (.obj [("Column", j)]) = some (.column x)
      ↔ (Codec.list (Column.codec (codecs n))).de j = some x) ∧
    (∀ j x, (SentenceOrColumnOrTable.codec (codecs n)).de (.obj [("Table", j)]) = some (.table x) ↔
      (Table.codec (codecs n)).de j = some x) ∧
    (∀ l (x : Caption (lvl n)), (Caption.codec (codecs n)).de (.obj l) = some x ↔
      Gives l "text" ((Text.codec (codecs n)).ser x.text) ∧
      Gives l "common_caption" ((Codec.option Codec.bool).ser x.common_caption)) ∧
    (∀ l (x : Column (lvl n)), (Column.codec (codecs n)).de (.obj l) = some x ↔
      Gives l "sentence" ((Codec.list (Sentence.codec (codecs n))).ser x.sentence) ∧
      Gives l "num" ((Codec.option Codec.usize).ser x.num) ∧
      Gives l "line_break" (Codec.bool.ser x.line_break) ∧
      Gives l "align" ((Codec.option Align.codec).ser x.align)) ∧
    Align.codec.de (.str "Left") = some .left ∧
    Align.codec.de (.str "Center") = some .center ∧
    Align.codec.de (.str "Right") = some .right ∧
    Align.codec.de (.str "Justify") = some .justify := by
  refine ⟨?_, ?_, ?_, ?_, ?_, ?_, ?_, ?_, ?_, ?_⟩
  · exact fun l x => ((Class.lawful (codecs_lawful n)).exact _ x).trans ⟨fun ⟨a0, a1, a2, a3, _⟩ =>
      ⟨a0, a1, a2, a3⟩, fun ⟨a0, a1, a2, a3⟩ => ⟨a0, a1, a2, a3, trivial⟩⟩
  · exact fun j x => newtype_iff (SentenceOrColumnOrTable.lawful (codecs_lawful n)) (Lawful.list
      (Sentence.lawful (codecs_lawful n))) rfl j
  · exact fun j x => newtype_iff (SentenceOrColumnOrTable.lawful (codecs_lawful n)) (Lawful.list
      (Column.lawful (codecs_lawful n))) rfl j
  · exact fun j x => newtype_iff (SentenceOrColumnOrTable.lawful (codecs_lawful n)) (Table.lawful
      (codecs_lawful n)) rfl j
  · exact fun l x => ((Caption.lawful (codecs_lawful n)).exact _ x).trans ⟨fun ⟨a0, a1, _⟩ => ⟨a0,
      a1⟩, fun ⟨a0, a1⟩ => ⟨a0, a1, trivial⟩⟩
  · exact fun l x => ((Column.lawful (codecs_lawful n)).exact _ x).trans ⟨fun ⟨a0, a1, a2, a3, _⟩
      => ⟨a0, a1, a2, a3⟩, fun ⟨a0, a1, a2, a3⟩ => ⟨a0, a1, a2, a3, trivial⟩⟩
  · exact (Align.lawful.exact _ _).2 rfl
  · exact (Align.lawful.exact _ _).2 rfl
  · exact (Align.lawful.exact _ _).2 rfl
  · exact (Align.lawful.exact _ _).2 rfl

/-- **C99.** The names of the fields and variants in `src/contents.rs`. -/
theorem C99_names_contents (n : Nat) :
    (∀ l (x : Contents (lvl n)), (Contents.codec (codecs n)).de (.obj l) = some x ↔
      Gives l "contents" ((Codec.list (ContentsElement.codec (codecs n))).ser x.contents)) ∧
    (∀ j x, (ContentsElement.codec (codecs n)).de (.obj [("Table", j)]) = some (.table x) ↔
      (Table.codec (codecs n)).de j = some x) ∧
    (∀ j x, (ContentsElement.codec (codecs n)).de (.obj [("TableStruct", j)]) = some (.tableStruct
      x) ↔ (TableStruct.codec (codecs n)).de j = some x) ∧
    (∀ j x, (ContentsElement.codec (codecs n)).de (.obj [("Fig", j)]) = some (.fig x) ↔
      Fig.codec.de j = some x) ∧
    (∀ j x, (ContentsElement.codec (codecs n)).de (.obj [("FigStruct", j)]) = some (.figStruct x) ↔
      (FigStruct.codec (codecs n)).de j = some x) ∧
    (∀ j x, (ContentsElement.codec (codecs n)).de (.obj [("QuoteStruct", j)]) = some (.quoteStruct
      x) ↔ (QuoteStruct.codec (codecs n)).de j = some x) ∧
    (∀ j x, (ContentsElement.codec (codecs n)).de (.obj [("NoteStruct", j)]) = some (.noteStruct x)
      ↔ (NoteStruct.codec (codecs n)).de j = some x) ∧
    (∀ j x, (ContentsElement.codec (codecs n)).de (.obj [("StyleStruct", j)]) = some (.styleStruct
      x) ↔ (StyleStruct.codec (codecs n)).de j = some x) ∧
    (∀ j x, (ContentsElement.codec (codecs n)).de (.obj [("AppdxTable", j)]) = some (.appdxTable x)
      ↔ (AppdxTable.codec (codecs n)).de j = some x) ∧
    (∀ j x, (ContentsElement.codec (codecs n)).de (.obj [("Ruby", j)]) = some (.ruby x) ↔
      (Ruby.codec (codecs n)).de j = some x) ∧
    (∀ j x, (ContentsElement.codec (codecs n)).de (.obj [("Line", j)]) = some (.line x) ↔
      (Line.codec (codecs n)).de j = some x) ∧
    (∀ j x, (ContentsElement.codec (codecs n)).de (.obj [("Sup", j)]) = some (.sup x) ↔
      Sup.codec.de j = some x) ∧
    (∀ j x, (ContentsElement.codec (codecs n)).de (.obj [("Sub", j)]) = some (.sub x) ↔
      Sub.codec.de j = some x) ∧
    (∀ j x, (ContentsElement.codec (codecs n)).de (.obj [("String", j)]) = some (.string x) ↔
      Codec.str.de j = some x) ∧
    (∀ j x, (ContentsElement.codec (codecs n)).de (.obj [("Paragraph", j)]) = some (.paragraph x) ↔
      (Paragraph.codec (codecs n)).de j = some x) ∧
    (∀ j x, (ContentsElement.codec (codecs n)).de (.obj [("Item", j)]) = some (.item x) ↔
      (Item.codec (codecs n)).de j = some x) ∧
    (∀ j x, (ContentsElement.codec (codecs n)).de (.obj [("Subitem1", j)]) = some (.subitem1 x) ↔
      (Subitem1.codec (codecs n)).de j = some x) ∧
    (∀ j x, (ContentsElement.codec (codecs n)).de (.obj [("Subitem2", j)]) = some (.subitem2 x) ↔
      (Subitem2.codec (codecs n)).de j = some x) ∧
    (∀ j x, (ContentsElement.codec (codecs n)).de (.obj [("Subitem3", j)]) = some (.subitem3 x) ↔
      (Subitem3.codec (codecs n)).de j = some x) ∧
    (∀ j x, (ContentsElement.codec (codecs n)).de (.obj [("Subitem4", j)]) = some (.subitem4 x) ↔
      (Subitem4.codec (codecs n)).de j = some x) ∧
    (∀ j x, (ContentsElement.codec (codecs n)).de (.obj [("Subitem5", j)]) = some (.subitem5 x) ↔
      (Subitem5.codec (codecs n)).de j = some x) ∧
    (∀ j x, (ContentsElement.codec (codecs n)).de (.obj [("Subitem6", j)]) = some (.subitem6 x) ↔
      (Subitem6.codec (codecs n)).de j = some x) ∧
    (∀ j x, (ContentsElement.codec (codecs n)).de (.obj [("Subitem7", j)]) = some (.subitem7 x) ↔
      (Subitem7.codec (codecs n)).de j = some x) ∧
    (∀ j x, (ContentsElement.codec (codecs n)).de (.obj [("Subitem8", j)]) = some (.subitem8 x) ↔
      (Subitem8.codec (codecs n)).de j = some x) ∧
    (∀ j x, (ContentsElement.codec (codecs n)).de (.obj [("Subitem9", j)]) = some (.subitem9 x) ↔
      (Subitem9.codec (codecs n)).de j = some x) ∧
    (∀ j x, (ContentsElement.codec (codecs n)).de (.obj [("Subitem10", j)]) = some (.subitem10 x) ↔
      (Subitem10.codec (codecs n)).de j = some x) ∧
    (∀ j x, (ContentsElement.codec (codecs n)).de (.obj [("List", j)]) = some (.list x) ↔
      (LawList.codec (codecs n)).de j = some x) ∧
    (∀ j x, (ContentsElement.codec (codecs n)).de (.obj [("Sentence", j)]) = some (.sentence x) ↔
      (Sentence.codec (codecs n)).de j = some x) ∧
    (∀ j x, (ContentsElement.codec (codecs n)).de (.obj [("ArithFormula", j)]) = some
      (.arithFormula x) ↔ (ArithFormula.codec (codecs n)).de j = some x) ∧
    (∀ j x, (ContentsElement.codec (codecs n)).de (.obj [("Remarks", j)]) = some (.remarks x) ↔
      (Remarks.codec (codecs n)).de j = some x) ∧
    (∀ j x, (ContentsElement.codec (codecs n)).de (.obj [("TOC", j)]) = some (.toc x) ↔ (TOC.codec
      (codecs n)).de j = some x) ∧
    (∀ j x, (ContentsElement.codec (codecs n)).de (.obj [("TOCSection", j)]) = some (.tocSection x)
      ↔ (TOCSection.codec (codecs n)).de j = some x) ∧
    (∀ j x, (ContentsElement.codec (codecs n)).de (.obj [("TableRow", j)]) = some (.tableRow x) ↔
      (TableRow.codec (codecs n)).de j = some x) ∧
    (∀ l (x : Style (lvl n)), (Style.codec (codecs n)).de (.obj l) = some x ↔
      Gives l "contentes" ((codecs n).contents.ser x.contentes)) ∧
    (∀ l (x : Note (lvl n)), (Note.codec (codecs n)).de (.obj l) = some x ↔
      Gives l "contentes" ((codecs n).contents.ser x.contentes)) ∧
    (∀ l (x : Format (lvl n)), (Format.codec (codecs n)).de (.obj l) = some x ↔
      Gives l "contentes" ((codecs n).contents.ser x.contentes)) ∧
    (∀ l (x : ArithFormula (lvl n)), (ArithFormula.codec (codecs n)).de (.obj l) = some x ↔
      Gives l "num" ((Codec.option Codec.usize).ser x.num) ∧
      Gives l "contentes" ((codecs n).contents.ser x.contentes)) := by
  refine ⟨?_, ?_, ?_, ?_, ?_, ?_, ?_, ?_, ?_, ?_, ?_, ?_, ?_, ?_, ?_, ?_, ?_, ?_, ?_, ?_, ?_, ?_,
    ?_, ?_, ?_, ?_, ?_, ?_, ?_, ?_, ?_, ?_, ?_, ?_, ?_, ?_, ?_⟩
  · exact fun l x => ((Contents.lawful (codecs_lawful n)).exact _ x).trans ⟨fun ⟨a0, _⟩ => a0, fun
      a0 => ⟨a0, trivial⟩⟩
  · exact fun j x => newtype_iff (ContentsElement.lawful (codecs_lawful n)) (Table.lawful
      (codecs_lawful n)) rfl j
  · exact fun j x => newtype_iff (ContentsElement.lawful (codecs_lawful n)) (TableStruct.lawful
      (codecs_lawful n)) rfl j
  · exact fun j x => newtype_iff (ContentsElement.lawful (codecs_lawful n)) Fig.lawful rfl j
  · exact fun j x => newtype_iff (ContentsElement.lawful (codecs_lawful n)) (FigStruct.lawful
      (codecs_lawful n)) rfl j
  · exact fun j x => newtype_iff (ContentsElement.lawful (codecs_lawful n)) (QuoteStruct.lawful
      (codecs_lawful n)) rfl j
  · exact fun j x => newtype_iff (ContentsElement.lawful (codecs_lawful n)) (NoteStruct.lawful
      (codecs_lawful n)) rfl j
  · exact fun j x => newtype_iff (ContentsElement.lawful (codecs_lawful n)) (StyleStruct.lawful
      (codecs_lawful n)) rfl j
  · exact fun j x => newtype_iff (ContentsElement.lawful (codecs_lawful n)) (AppdxTable.lawful
      (codecs_lawful n)) rfl j
  · exact fun j x => newtype_iff (ContentsElement.lawful (codecs_lawful n)) (Ruby.lawful
      (codecs_lawful n)) rfl j
  · exact fun j x => newtype_iff (ContentsElement.lawful (codecs_lawful n)) (Line.lawful
      (codecs_lawful n)) rfl j
  · exact fun j x => newtype_iff (ContentsElement.lawful (codecs_lawful n)) Sup.lawful rfl j
  · exact fun j x => newtype_iff (ContentsElement.lawful (codecs_lawful n)) Sub.lawful rfl j
  · exact fun j x => newtype_iff (ContentsElement.lawful (codecs_lawful n)) Lawful.str rfl j
  · exact fun j x => newtype_iff (ContentsElement.lawful (codecs_lawful n)) (Paragraph.lawful
      (codecs_lawful n)) rfl j
  · exact fun j x => newtype_iff (ContentsElement.lawful (codecs_lawful n)) (Item.lawful
      (codecs_lawful n)) rfl j
  · exact fun j x => newtype_iff (ContentsElement.lawful (codecs_lawful n)) (Subitem1.lawful
      (codecs_lawful n)) rfl j
  · exact fun j x => newtype_iff (ContentsElement.lawful (codecs_lawful n)) (Subitem2.lawful
      (codecs_lawful n)) rfl j
  · exact fun j x => newtype_iff (ContentsElement.lawful (codecs_lawful n)) (Subitem3.lawful
      (codecs_lawful n)) rfl j
  · exact fun j x => newtype_iff (ContentsElement.lawful (codecs_lawful n)) (Subitem4.lawful
      (codecs_lawful n)) rfl j
  · exact fun j x => newtype_iff (ContentsElement.lawful (codecs_lawful n)) (Subitem5.lawful
      (codecs_lawful n)) rfl j
  · exact fun j x => newtype_iff (ContentsElement.lawful (codecs_lawful n)) (Subitem6.lawful
      (codecs_lawful n)) rfl j
  · exact fun j x => newtype_iff (ContentsElement.lawful (codecs_lawful n)) (Subitem7.lawful
      (codecs_lawful n)) rfl j
  · exact fun j x => newtype_iff (ContentsElement.lawful (codecs_lawful n)) (Subitem8.lawful
      (codecs_lawful n)) rfl j
  · exact fun j x => newtype_iff (ContentsElement.lawful (codecs_lawful n)) (Subitem9.lawful
      (codecs_lawful n)) rfl j
  · exact fun j x => newtype_iff (ContentsElement.lawful (codecs_lawful n)) (Subitem10.lawful
      (codecs_lawful n)) rfl j
  · exact fun j x => newtype_iff (ContentsElement.lawful (codecs_lawful n)) (LawList.lawful
      (codecs_lawful n)) rfl j
  · exact fun j x => newtype_iff (ContentsElement.lawful (codecs_lawful n)) (Sentence.lawful
      (codecs_lawful n)) rfl j
  · exact fun j x => newtype_iff (ContentsElement.lawful (codecs_lawful n)) (ArithFormula.lawful
      (codecs_lawful n)) rfl j
  · exact fun j x => newtype_iff (ContentsElement.lawful (codecs_lawful n)) (Remarks.lawful
      (codecs_lawful n)) rfl j
  · exact fun j x => newtype_iff (ContentsElement.lawful (codecs_lawful n)) (TOC.lawful
      (codecs_lawful n)) rfl j
  · exact fun j x => newtype_iff (ContentsElement.lawful (codecs_lawful n)) (TOCSection.lawful
      (codecs_lawful n)) rfl j
  · exact fun j x => newtype_iff (ContentsElement.lawful (codecs_lawful n)) (TableRow.lawful
      (codecs_lawful n)) rfl j
  · exact fun l x => ((Style.lawful (codecs_lawful n)).exact _ x).trans ⟨fun ⟨a0, _⟩ => a0, fun a0
      => ⟨a0, trivial⟩⟩
  · exact fun l x => ((Note.lawful (codecs_lawful n)).exact _ x).trans ⟨fun ⟨a0, _⟩ => a0, fun a0
      => ⟨a0, trivial⟩⟩
  · exact fun l x => ((Format.lawful (codecs_lawful n)).exact _ x).trans ⟨fun ⟨a0, _⟩ => a0, fun a0
      => ⟨a0, trivial⟩⟩
  · exact fun l x => ((ArithFormula.lawful (codecs_lawful n)).exact _ x).trans ⟨fun ⟨a0, a1, _⟩ =>
      ⟨a0, a1⟩, fun ⟨a0, a1⟩ => ⟨a0, a1, trivial⟩⟩

/-- **C99.** The names of the fields and variants in `src/fig.rs`. -/
theorem C99_names_fig :
    (∀ l (x : Fig), Fig.codec.de (.obj l) = some x ↔
      Gives l "src" (Codec.str.ser x.src)) := by
  exact fun l x => (Fig.lawful.exact _ x).trans ⟨fun ⟨a0, _⟩ => a0, fun a0 => ⟨a0, trivial⟩⟩

/-- **C99.** The names of the fields and variants in `src/law.rs`. -/
theorem C99_names_law (n : Nat) :
    (∀ l (x : Law (lvl n)), (Law.codec (codecs n)).de (.obj l) = some x ↔
      Gives l "era" (Era.codec.ser x.era) ∧
      Gives l "year" (Codec.usize.ser x.year) ∧
      Gives l "num" ((Codec.option ArticleNumber.codec).ser x.num) ∧
      Gives l "promulgate_month" ((Codec.option Codec.usize).ser x.promulgate_month) ∧
      Gives l "promulgate_day" ((Codec.option Codec.usize).ser x.promulgate_day) ∧
      Gives l "law_type" (LawType.codec.ser x.law_type) ∧
      Gives l "lang" (Lang.codec.ser x.lang) ∧
      Gives l "law_num" (Codec.str.ser x.law_num) ∧
      Gives l "law_body" ((LawBody.codec (codecs n)).ser x.law_body)) ∧
    Era.codec.de (.str "Meiji") = some .meiji ∧
    Era.codec.de (.str "Taisho") = some .taisho ∧
    Era.codec.de (.str "Showa") = some .showa ∧
    Era.codec.de (.str "Heisei") = some .heisei ∧
    Era.codec.de (.str "Reiwa") = some .reiwa ∧
    LawType.codec.de (.str "Constitution") = some .constitution ∧
    LawType.codec.de (.str "Act") = some .act ∧
    LawType.codec.de (.str "CabinetOrder") = some .cabinetOrder ∧
    LawType.codec.de (.str "ImperialOrder") = some .imperialOrder ∧
    LawType.codec.de (.str "MinisterialOrdinance") = some .ministerialOrdinance ∧
    LawType.codec.de (.str "Rule") = some .rule ∧
    LawType.codec.de (.str "Misc") = some .misc ∧
    Lang.codec.de (.str "Ja") = some .ja ∧
    Lang.codec.de (.str "En") = some .en ∧
    (∀ l (x : LawBody (lvl n)), (LawBody.codec (codecs n)).de (.obj l) = some x ↔
      Gives l "law_title" ((Codec.option (LawTitle.codec (codecs n))).ser x.law_title) ∧
      Gives l "enact_statement" ((Codec.list (Text.codec (codecs n))).ser x.enact_statement) ∧
      Gives l "subject" ((Codec.option Codec.str).ser x.subject) ∧
      Gives l "toc" ((Codec.option (TOC.codec (codecs n))).ser x.toc) ∧
      Gives l "preamble" ((Codec.option (Preamble.codec (codecs n))).ser x.preamble) ∧
      Gives l "main_provision" ((MainProvision.codec (codecs n)).ser x.main_provision) ∧
      Gives l "suppl_provision" ((Codec.list (SupplProvision.codec (codecs n))).ser
      x.suppl_provision) ∧
      Gives l "appdx_table" ((Codec.list (AppdxTable.codec (codecs n))).ser x.appdx_table) ∧
      Gives l "appdx_note" ((Codec.list (AppdxNote.codec (codecs n))).ser x.appdx_note) ∧
      Gives l "appdx_style" ((Codec.list (AppdxStyle.codec (codecs n))).ser x.appdx_style) ∧
      Gives l "appdx" ((Codec.list (Appdx.codec (codecs n))).ser x.appdx) ∧
      Gives l "appdx_fig" ((Codec.list (AppdxFig.codec (codecs n))).ser x.appdx_fig) ∧
      Gives l "appdx_format" ((Codec.list (AppdxFormat.codec (codecs n))).ser x.appdx_format)) ∧
    (∀ l (x : LawTitle (lvl n)), (LawTitle.codec (codecs n)).de (.obj l) = some x ↔
      Gives l "kana" ((Codec.option Codec.str).ser x.kana) ∧
      Gives l "abbrev" ((Codec.option Codec.str).ser x.abbrev_) ∧
      Gives l "abbrev_kana" ((Codec.option Codec.str).ser x.abbrev_kana) ∧
      Gives l "text" ((Text.codec (codecs n)).ser x.text)) ∧
    (∀ l (x : Preamble (lvl n)), (Preamble.codec (codecs n)).de (.obj l) = some x ↔
      Gives l "children" ((Codec.list (Paragraph.codec (codecs n))).ser x.children)) ∧
    (∀ l (x : MainProvision (lvl n)), (MainProvision.codec (codecs n)).de (.obj l) = some x ↔
      Gives l "children" ((Codec.list (MainProvisionContents.codec (codecs n))).ser x.children) ∧
      Gives l "extract" ((Codec.option Codec.bool).ser x.extract)) ∧
    (∀ j x, (MainProvisionContents.codec (codecs n)).de (.obj [("Part", j)]) = some (.part x) ↔
      (Part.codec (codecs n)).de j = some x) ∧
    (∀ j x, (MainProvisionContents.codec (codecs n)).de (.obj [("Chapter", j)]) = some (.chapter x)
      ↔ (Chapter.codec (codecs n)).de j = some x) ∧
    (∀ j x, (MainProvisionContents.codec (codecs n)).de (.obj [("Section", j)]) = some (.section_
      x) ↔ (Section.codec (codecs n)).de j = some x) ∧
    (∀ j x, (MainProvisionContents.codec (codecs n)).de (.obj [("Article", j)]) = some (.article x)
      ↔ (Article.codec (codecs n)).de j = some x) ∧
    (∀ j x, (MainProvisionContents.codec (codecs n)).de (.obj [("Paragraph", j)]) = some
      (.paragraph x) ↔ (Paragraph.codec (codecs n)).de j = some x) ∧
    (∀ l (x : AmendProvision (lvl n)), (AmendProvision.codec (codecs n)).de (.obj l) = some x ↔
      Gives l "sentence" ((Codec.option (Sentence.codec (codecs n))).ser x.sentence) ∧
      Gives l "new_provision" ((Codec.list (NewProvision.codec (codecs n))).ser x.new_provision)) ∧
    (∀ j x, (NewProvision.codec (codecs n)).de (.obj [("LawTitle", j)]) = some (.lawTitle x) ↔
      (LawTitle.codec (codecs n)).de j = some x) ∧
    (∀ j x, (NewProvision.codec (codecs n)).de (.obj [("Preamble", j)]) = some (.preamble x) ↔
      (Preamble.codec (codecs n)).de j = some x) ∧
    (∀ j x, (NewProvision.codec (codecs n)).de (.obj [("TOC", j)]) = some (.toc x) ↔ (TOC.codec
      (codecs n)).de j = some x) ∧
    (∀ j x, (NewProvision.codec (codecs n)).de (.obj [("Part", j)]) = some (.part x) ↔ (Part.codec
      (codecs n)).de j = some x) ∧
    (∀ j x, (NewProvision.codec (codecs n)).de (.obj [("PartTitle", j)]) = some (.partTitle x) ↔
      (Text.codec (codecs n)).de j = some x) ∧
    (∀ j x, (NewProvision.codec (codecs n)).de (.obj [("Chapter", j)]) = some (.chapter x) ↔
      (Chapter.codec (codecs n)).de j = some x) ∧
    (∀ j x, (NewProvision.codec (codecs n)).de (.obj [("ChapterTitle", j)]) = some (.chapterTitle
      x) ↔ (Text.codec (codecs n)).de j = some x) ∧
    (∀ j x, (NewProvision.codec (codecs n)).de (.obj [("Section", j)]) = some (.section_ x) ↔
      (Section.codec (codecs n)).de j = some x) ∧
    (∀ j x, (NewProvision.codec (codecs n)).de (.obj [("SectionTitle", j)]) = some (.sectionTitle
      x) ↔ (Text.codec (codecs n)).de j = some x) ∧
    (∀ j x, (NewProvision.codec (codecs n)).de (.obj [("Subsection", j)]) = some (.subsection x) ↔
      (Subsection.codec (codecs n)).de j = some x) ∧
    (∀ j x, (NewProvision.codec (codecs n)).de (.obj [("SubsectionTitle", j)]) = some
      (.subsectionTitle x) ↔ (Text.codec (codecs n)).de j = some x) ∧
    (∀ j x, (NewProvision.codec (codecs n)).de (.obj [("Division", j)]) = some (.division x) ↔
      (Division.codec (codecs n)).de j = some x) ∧
    (∀ j x, (NewProvision.codec (codecs n)).de (.obj [("DivisionTitle", j)]) = some (.divisionTitle
      x) ↔ (Text.codec (codecs n)).de j = some x) ∧
    (∀ j x, (NewProvision.codec (codecs n)).de (.obj [("Article", j)]) = some (.article x) ↔
      (Article.codec (codecs n)).de j = some x) ∧
    (∀ j x, (NewProvision.codec (codecs n)).de (.obj [("SupplNote", j)]) = some (.supplNote x) ↔
      (Text.codec (codecs n)).de j = some x) ∧
    (∀ j x, (NewProvision.codec (codecs n)).de (.obj [("Paragraph", j)]) = some (.paragraph x) ↔
      (Paragraph.codec (codecs n)).de j = some x) ∧
    (∀ j x, (NewProvision.codec (codecs n)).de (.obj [("Item", j)]) = some (.item x) ↔ (Item.codec
      (codecs n)).de j = some x) ∧
    (∀ j x, (NewProvision.codec (codecs n)).de (.obj [("Subitem1", j)]) = some (.subitem1 x) ↔
      (Subitem1.codec (codecs n)).de j = some x) ∧
    (∀ j x, (NewProvision.codec (codecs n)).de (.obj [("Subitem2", j)]) = some (.subitem2 x) ↔
      (Subitem2.codec (codecs n)).de j = some x) ∧
    (∀ j x, (NewProvision.codec (codecs n)).de (.obj [("Subitem3", j)]) = some (.subitem3 x) ↔
      (Subitem3.codec (codecs n)).de j = some x) ∧
    (∀ j x, (NewProvision.codec (codecs n)).de (.obj [("Subitem4", j)]) = some (.subitem4 x) ↔
      (Subitem4.codec (codecs n)).de j = some x) ∧
    (∀ j x, (NewProvision.codec (codecs n)).de (.obj [("Subitem5", j)]) = some (.subitem5 x) ↔
      (Subitem5.codec (codecs n)).de j = some x) ∧
    (∀ j x, (NewProvision.codec (codecs n)).de (.obj [("Subitem6", j)]) = some (.subitem6 x) ↔
      (Subitem6.codec (codecs n)).de j = some x) ∧
    (∀ j x, (NewProvision.codec (codecs n)).de (.obj [("Subitem7", j)]) = some (.subitem7 x) ↔
      (Subitem7.codec (codecs n)).de j = some x) ∧
    (∀ j x, (NewProvision.codec (codecs n)).de (.obj [("Subitem8", j)]) = some (.subitem8 x) ↔
      (Subitem8.codec (codecs n)).de j = some x) ∧
    (∀ j x, (NewProvision.codec (codecs n)).de (.obj [("Subitem9", j)]) = some (.subitem9 x) ↔
      (Subitem9.codec (codecs n)).de j = some x) ∧
    (∀ j x, (NewProvision.codec (codecs n)).de (.obj [("Subitem10", j)]) = some (.subitem10 x) ↔
      (Subitem10.codec (codecs n)).de j = some x) ∧
    (∀ j x, (NewProvision.codec (codecs n)).de (.obj [("List", j)]) = some (.list x) ↔
      (LawList.codec (codecs n)).de j = some x) ∧
    (∀ j x, (NewProvision.codec (codecs n)).de (.obj [("Sentence", j)]) = some (.sentence x) ↔
      (Sentence.codec (codecs n)).de j = some x) ∧
    (∀ j x, (NewProvision.codec (codecs n)).de (.obj [("AmendProvision", j)]) = some
      (.amendProvision x) ↔ (codecs n).amendProvision.de j = some x) ∧
    (∀ j x, (NewProvision.codec (codecs n)).de (.obj [("AppdxTable", j)]) = some (.appdxTable x) ↔
      (AppdxTable.codec (codecs n)).de j = some x) ∧
    (∀ j x, (NewProvision.codec (codecs n)).de (.obj [("AppdxNote", j)]) = some (.appdxNote x) ↔
      (AppdxNote.codec (codecs n)).de j = some x) ∧
    (∀ j x, (NewProvision.codec (codecs n)).de (.obj [("AppdxStyle", j)]) = some (.appdxStyle x) ↔
      (AppdxStyle.codec (codecs n)).de j = some x) ∧
    (∀ j x, (NewProvision.codec (codecs n)).de (.obj [("Appdx", j)]) = some (.appdx x) ↔
      (Appdx.codec (codecs n)).de j = some x) ∧
    (∀ j x, (NewProvision.codec (codecs n)).de (.obj [("AppdxFig", j)]) = some (.appdxFig x) ↔
      (AppdxFig.codec (codecs n)).de j = some x) ∧
    (∀ j x, (NewProvision.codec (codecs n)).de (.obj [("AppdxFormat", j)]) = some (.appdxFormat x)
      ↔ (AppdxFormat.codec (codecs n)).de j = some x) ∧
    (∀ j x, (NewProvision.codec (codecs n)).de (.obj [("SupplProvisionAppdxStyle", j)]) = some
      (.supplProvisionAppdxStyle x) ↔ (SupplProvisionAppdxStyle.codec (codecs n)).de j = some x) ∧
    (∀ j x, (NewProvision.codec (codecs n)).de (.obj [("SupplProvisionAppdxTable", j)]) = some
      (.supplProvisionAppdxTable x) ↔ (SupplProvisionAppdxTable.codec (codecs n)).de j = some x) ∧
    (∀ j x, (NewProvision.codec (codecs n)).de (.obj [("SupplProvisionAppdx", j)]) = some
      (.supplProvisionAppdx x) ↔ (SupplProvisionAppdx.codec (codecs n)).de j = some x) ∧
    (∀ j x, (NewProvision.codec (codecs n)).de (.obj [("TableStruct", j)]) = some (.tableStruct x)
      ↔ (TableStruct.codec (codecs n)).de j = some x) ∧
    (∀ j x, (NewProvision.codec (codecs n)).de (.obj [("TableRow", j)]) = some (.tableRow x) ↔
      (TableRow.codec (codecs n)).de j = some x) ∧
    (∀ j x, (NewProvision.codec (codecs n)).de (.obj [("TableColumn", j)]) = some (.tableColumn x)
      ↔ (TableColumn.codec (codecs n)).de j = some x) ∧
    (∀ j x, (NewProvision.codec (codecs n)).de (.obj [("FigStruct", j)]) = some (.figStruct x) ↔
      (FigStruct.codec (codecs n)).de j = some x) ∧
    (∀ j x, (NewProvision.codec (codecs n)).de (.obj [("NoteStruct", j)]) = some (.noteStruct x) ↔
      (NoteStruct.codec (codecs n)).de j = some x) ∧
    (∀ j x, (NewProvision.codec (codecs n)).de (.obj [("StyleStruct", j)]) = some (.styleStruct x)
      ↔ (StyleStruct.codec (codecs n)).de j = some x) ∧
    (∀ j x, (NewProvision.codec (codecs n)).de (.obj [("FormatStruct", j)]) = some (.formatStruct
      x) ↔ (FormatStruct.codec (codecs n)).de j = some x) ∧
    (∀ j x, (NewProvision.codec (codecs n)).de (.obj [("Remarks", j)]) = some (.remarks x) ↔
      (Remarks.codec (codecs n)).de j = some x) ∧
    (∀ j x, (NewProvision.codec (codecs n)).de (.obj [("LawBody", j)]) = some (.lawBody x) ↔
      (LawBody.codec (codecs n)).de j = some x) := by
  refine ⟨?_, ?_, ?_, ?_, ?_, ?_, ?_, ?_, ?_, ?_, ?_, ?_, ?_, ?_, ?_, ?_, ?_, ?_, ?_, ?_, ?_, ?_,
    ?_, ?_, ?_, ?_, ?_, ?_, ?_, ?_, ?_, ?_, ?_, ?_, ?_, ?_, ?_, ?_, ?_, ?_, ?_, ?_, ?_, ?_, ?_, ?_,
    ?_, ?_, ?_, ?_, ?_, ?_, ?_, ?_, ?_, ?_, ?_, ?_, ?_, ?_, ?_, ?_, ?_, ?_, ?_, ?_, ?_, ?_, ?_, ?_,
    ?_, ?_, ?_⟩
  · exact fun l x => ((Law.lawful (codecs_lawful n)).exact _ x).trans ⟨fun ⟨a0, a1, a2, a3, a4, a5,
      a6, a7, a8, _⟩ => ⟨a0, a1, a2, a3, a4, a5, a6, a7, a8⟩, fun ⟨a0, a1, a2, a3, a4, a5, a6, a7,
      a8⟩ => ⟨a0, a1, a2, a3, a4, a5, a6, a7, a8, trivial⟩⟩
  · exact (Era.lawful.exact _ _).2 rfl
  · exact (Era.lawful.exact _ _).2 rfl
  · exact (Era.lawful.exact _ _).2 rfl
  · exact (Era.lawful.exact _ _).2 rfl
  · exact (Era.lawful.exact _ _).2 rfl
  · exact (LawType.lawful.exact _ _).2 rfl
  · exact (LawType.lawful.exact _ _).2 rfl
  · exact (LawType.lawful.exact _ _).2 rfl
  · exact (LawType.lawful.exact _ _).2 rfl
  · exact (LawType.lawful.exact _ _).2 rfl
  · exact (LawType.lawful.exact _ _).2 rfl
  · exact (LawType.lawful.exact _ _).2 rfl
  · exact (Lang.lawful.exact _ _).2 rfl
  · exact (Lang.lawful.exact _ _).2 rfl
  · exact fun l x => ((LawBody.lawful (codecs_lawful n)).exact _ x).trans ⟨fun ⟨a0, a1, a2, a3, a4,
      a5, a6, a7, a8, a9, a10, a11, a12, _⟩ => ⟨a0, a1, a2, a3, a4, a5, a6, a7, a8, a9, a10, a11,
      a12⟩, fun ⟨a0, a1, a2, a3, a4, a5, a6, a7, a8, a9, a10, a11, a12⟩ => ⟨a0, a1, a2, a3, a4, a5,
      a6, a7, a8, a9, a10, a11, a12, trivial⟩⟩
  · exact fun l x => ((LawTitle.lawful (codecs_lawful n)).exact _ x).trans ⟨fun ⟨a0, a1, a2, a3, _⟩
      => ⟨a0, a1, a2, a3⟩, fun ⟨a0, a1, a2, a3⟩ => ⟨a0, a1, a2, a3, trivial⟩⟩
  · exact fun l x => ((Preamble.lawful (codecs_lawful n)).exact _ x).trans ⟨fun ⟨a0, _⟩ => a0, fun
      a0 => ⟨a0, trivial⟩⟩
  · exact fun l x => ((MainProvision.lawful (codecs_lawful n)).exact _ x).trans ⟨fun ⟨a0, a1, _⟩ =>
      ⟨a0, a1⟩, fun ⟨a0, a1⟩ => ⟨a0, a1, trivial⟩⟩
  · exact fun j x => newtype_iff (MainProvisionContents.lawful (codecs_lawful n)) (Part.lawful
      (codecs_lawful n)) rfl j
  · exact fun j x => newtype_iff (MainProvisionContents.lawful (codecs_lawful n)) (Chapter.lawful
      (codecs_lawful n)) rfl j
  · exact fun j x => newtype_iff (MainProvisionContents.lawful (codecs_lawful n)) (Section.lawful
      (codecs_lawful n)) rfl j
  · exact fun j x => newtype_iff (MainProvisionContents.lawful (codecs_lawful n)) (Article.lawful
      (codecs_lawful n)) rfl j
  · exact fun j x => newtype_iff (MainProvisionContents.lawful (codecs_lawful n)) (Paragraph.lawful
      (codecs_lawful n)) rfl j
  · exact fun l x => ((AmendProvision.lawful (codecs_lawful n)).exact _ x).trans ⟨fun ⟨a0, a1, _⟩
      => ⟨a0, a1⟩, fun ⟨a0, a1⟩ => ⟨a0, a1, trivial⟩⟩
  · exact fun j x => newtype_iff (NewProvision.lawful (codecs_lawful n)) (LawTitle.lawful
      (codecs_lawful n)) rfl j
  · exact fun j x => newtype_iff (NewProvision.lawful (codecs_lawful n)) (Preamble.lawful
      (codecs_lawful n)) rfl j
  · exact fun j x => newtype_iff (NewProvision.lawful (codecs_lawful n)) (TOC.lawful (codecs_lawful
      n)) rfl j
  · exact fun j x => newtype_iff (NewProvision.lawful (codecs_lawful n)) (Part.lawful
      (codecs_lawful n)) rfl j
  · exact fun j x => newtype_iff (NewProvision.lawful (codecs_lawful n)) (Text.lawful
      (codecs_lawful n)) rfl j
  · exact fun j x => newtype_iff (NewProvision.lawful (codecs_lawful n)) (Chapter.lawful
      (codecs_lawful n)) rfl j
  · exact fun j x => newtype_iff (NewProvision.lawful (codecs_lawful n)) (Text.lawful
      (codecs_lawful n)) rfl j
  · exact fun j x => newtype_iff (NewProvision.lawful (codecs_lawful n)) (Section.lawful
      (codecs_lawful n)) rfl j
  · exact fun j x => newtype_iff (NewProvision.lawful (codecs_lawful n)) (Text.lawful
      (codecs_lawful n)) rfl j
  · exact fun j x => newtype_iff (NewProvision.lawful (codecs_lawful n)) (Subsection.lawful
      (codecs_lawful n)) rfl j
  · exact fun j x => newtype_iff (NewProvision.lawful (codecs_lawful n)) (Text.lawful
      (codecs_lawful n)) rfl j
  · exact fun j x => newtype_iff (NewProvision.lawful (codecs_lawful n)) (Division.lawful
      (codecs_lawful n)) rfl j
  · exact fun j x => newtype_iff (NewProvision.lawful (codecs_lawful n)) (Text.lawful
      (codecs_lawful n)) rfl j
  · exact fun j x => newtype_iff (NewProvision.lawful (codecs_lawful n)) (Article.lawful
      (codecs_lawful n)) rfl j
  · exact fun j x => newtype_iff (NewProvision.lawful (codecs_lawful n)) (Text.lawful
      (codecs_lawful n)) rfl j
  · exact fun j x => newtype_iff (NewProvision.lawful (codecs_lawful n)) (Paragraph.lawful
      (codecs_lawful n)) rfl j
  · exact fun j x => newtype_iff (NewProvision.lawful (codecs_lawful n)) (Item.lawful
      (codecs_lawful n)) rfl j
  · exact fun j x => newtype_iff (NewProvision.lawful (codecs_lawful n)) (Subitem1.lawful
      (codecs_lawful n)) rfl j
  · exact fun j x => newtype_iff (NewProvision.lawful (codecs_lawful n)) (Subitem2.lawful
      (codecs_lawful n)) rfl j
  · exact fun j x => newtype_iff (NewProvision.lawful (codecs_lawful n)) (Subitem3.lawful
      (codecs_lawful n)) rfl j
  · exact fun j x => newtype_iff (NewProvision.lawful (codecs_lawful n)) (Subitem4.lawful
      (codecs_lawful n)) rfl j
  · exact fun j x => newtype_iff (NewProvision.lawful (codecs_lawful n)) (Subitem5.lawful
      (codecs_lawful n)) rfl j
  · exact fun j x => newtype_iff (NewProvision.lawful (codecs_lawful n)) (Subitem6.lawful
      (codecs_lawful n)) rfl j
  · exact fun j x => newtype_iff (NewProvision.lawful (codecs_lawful n)) (Subitem7.lawful
      (codecs_lawful n)) rfl j
  · exact fun j x => newtype_iff (NewProvision.lawful (codecs_lawful n)) (Subitem8.lawful
      (codecs_lawful n)) rfl j
  · exact fun j x => newtype_iff (NewProvision.lawful (codecs_lawful n)) (Subitem9.lawful
      (codecs_lawful n)) rfl j
  · exact fun j x => newtype_iff (NewProvision.lawful (codecs_lawful n)) (Subitem10.lawful
      (codecs_lawful n)) rfl j
  · exact fun j x => newtype_iff (NewProvision.lawful (codecs_lawful n)) (LawList.lawful
      (codecs_lawful n)) rfl j
  · exact fun j x => newtype_iff (NewProvision.lawful (codecs_lawful n)) (Sentence.lawful
      (codecs_lawful n)) rfl j
  · exact fun j x => newtype_iff (NewProvision.lawful (codecs_lawful n)) (codecs_lawful
      n).amendProvision rfl j
  · exact fun j x => newtype_iff (NewProvision.lawful (codecs_lawful n)) (AppdxTable.lawful
      (codecs_lawful n)) rfl j
  · exact fun j x => newtype_iff (NewProvision.lawful (codecs_lawful n)) (AppdxNote.lawful
      (codecs_lawful n)) rfl j
  · exact fun j x => newtype_iff (NewProvision.lawful (codecs_lawful n)) (AppdxStyle.lawful
      (codecs_lawful n)) rfl j
  · exact fun j x => newtype_iff (NewProvision.lawful (codecs_lawful n)) (Appdx.lawful
      (codecs_lawful n)) rfl j
  · exact fun j x => newtype_iff (NewProvision.lawful (codecs_lawful n)) (AppdxFig.lawful
      (codecs_lawful n)) rfl j
  · exact fun j x => newtype_iff (NewProvision.lawful (codecs_lawful n)) (AppdxFormat.lawful
      (codecs_lawful n)) rfl j
  · exact fun j x => newtype_iff (NewProvision.lawful (codecs_lawful n))
      (SupplProvisionAppdxStyle.lawful (codecs_lawful n)) rfl j
  · exact fun j x => newtype_iff (NewProvision.lawful (codecs_lawful n))
      (SupplProvisionAppdxTable.lawful (codecs_lawful n)) rfl j
  · exact fun j x => newtype_iff (NewProvision.lawful (codecs_lawful n))
      (SupplProvisionAppdx.lawful (codecs_lawful n)) rfl j
  · exact fun j x => newtype_iff (NewProvision.lawful (codecs_lawful n)) (TableStruct.lawful
      (codecs_lawful n)) rfl j
  · exact fun j x => newtype_iff (NewProvision.lawful (codecs_lawful n)) (TableRow.lawful
      (codecs_lawful n)) rfl j
  · exact fun j x => newtype_iff (NewProvision.lawful (codecs_lawful n)) (TableColumn.lawful
      (codecs_lawful n)) rfl j
  · exact fun j x => newtype_iff (NewProvision.lawful (codecs_lawful n)) (FigStruct.lawful
      (codecs_lawful n)) rfl j
  · exact fun j x => newtype_iff (NewProvision.lawful (codecs_lawful n)) (NoteStruct.lawful
      (codecs_lawful n)) rfl j
  · exact fun j x => newtype_iff (NewProvision.lawful (codecs_lawful n)) (StyleStruct.lawful
      (codecs_lawful n)) rfl j
  · exact fun j x => newtype_iff (NewProvision.lawful (codecs_lawful n)) (FormatStruct.lawful
      (codecs_lawful n)) rfl j
  · exact fun j x => newtype_iff (NewProvision.lawful (codecs_lawful n)) (Remarks.lawful
      (codecs_lawful n)) rfl j
  · exact fun j x => newtype_iff (NewProvision.lawful (codecs_lawful n)) (LawBody.lawful
      (codecs_lawful n)) rfl j

/-- **C99.** The names of the fields and variants in `src/line.rs`. -/
theorem C99_names_line (n : Nat) :
    (∀ l (x : Line (lvl n)), (Line.codec (codecs n)).de (.obj l) = some x ↔
      Gives l "contents" ((Codec.list (LineContents.codec (codecs n))).ser x.contents) ∧
      Gives l "style" (LineStyle.codec.ser x.style)) ∧
    (∀ j x, (LineContents.codec (codecs n)).de (.obj [("QuoteStruct", j)]) = some (.quoteStruct x)
      ↔ (QuoteStruct.codec (codecs n)).de j = some x) ∧
    (∀ j x, (LineContents.codec (codecs n)).de (.obj [("ArithFormula", j)]) = some (.arithFormula
      x) ↔ (ArithFormula.codec (codecs n)).de j = some x) ∧
    (∀ j x, (LineContents.codec (codecs n)).de (.obj [("Ruby", j)]) = some (.ruby x) ↔ (Ruby.codec
      (codecs n)).de j = some x) ∧
    (∀ j x, (LineContents.codec (codecs n)).de (.obj [("Sup", j)]) = some (.sup x) ↔ Sup.codec.de j
      = some x) ∧
    (∀ j x, (LineContents.codec (codecs n)).de (.obj [("Sub", j)]) = some (.sub x) ↔ Sub.codec.de j
      = some x) ∧
    (∀ j x, (LineContents.codec (codecs n)).de (.obj [("String", j)]) = some (.string x) ↔
      Codec.str.de j = some x) ∧
    LineStyle.codec.de (.str "Dotted") = some .dotted ∧
    LineStyle.codec.de (.str "Double") = some .double ∧
    LineStyle.codec.de (.str "Solid") = some .solid ∧
    LineStyle.codec.de (.str "None") = some .none := by
  refine ⟨?_, ?_, ?_, ?_, ?_, ?_, ?_, ?_, ?_, ?_, ?_⟩
  · exact fun l x => ((Line.lawful (codecs_lawful n)).exact _ x).trans ⟨fun ⟨a0, a1, _⟩ => ⟨a0,
      a1⟩, fun ⟨a0, a1⟩ => ⟨a0, a1, trivial⟩⟩
  · exact fun j x => newtype_iff (LineContents.lawful (codecs_lawful n)) (QuoteStruct.lawful
      (codecs_lawful n)) rfl j
  · exact fun j x => newtype_iff (LineContents.lawful (codecs_lawful n)) (ArithFormula.lawful
      (codecs_lawful n)) rfl j
  · exact fun j x => newtype_iff (LineContents.lawful (codecs_lawful n)) (Ruby.lawful
      (codecs_lawful n)) rfl j
  · exact fun j x => newtype_iff (LineContents.lawful (codecs_lawful n)) Sup.lawful rfl j
  · exact fun j x => newtype_iff (LineContents.lawful (codecs_lawful n)) Sub.lawful rfl j
  · exact fun j x => newtype_iff (LineContents.lawful (codecs_lawful n)) Lawful.str rfl j
  · exact (LineStyle.lawful.exact _ _).2 rfl
  · exact (LineStyle.lawful.exact _ _).2 rfl
  · exact (LineStyle.lawful.exact _ _).2 rfl
  · exact (LineStyle.lawful.exact _ _).2 rfl

/-- **C99.** The names of the fields and variants in `src/list.rs`. -/
theorem C99_names_list (n : Nat) :
    (∀ l (x : LawList (lvl n)), (LawList.codec (codecs n)).de (.obj l) = some x ↔
      Gives l "sentence" ((Codec.list (ListSentence.codec (codecs n))).ser x.sentence) ∧
      Gives l "children" ((Codec.list (Sublist1.codec (codecs n))).ser x.children)) ∧
    (∀ j x, (ListSentence.codec (codecs n)).de (.obj [("Sentence", j)]) = some (.sentence x) ↔
      (Sentence.codec (codecs n)).de j = some x) ∧
    (∀ j x, (ListSentence.codec (codecs n)).de (.obj [("Column", j)]) = some (.column x) ↔
      (Column.codec (codecs n)).de j = some x) ∧
    (∀ l (x : Sublist1 (lvl n)), (Sublist1.codec (codecs n)).de (.obj l) = some x ↔
      Gives l "sentence" ((Codec.list (ListSentence.codec (codecs n))).ser x.sentence) ∧
      Gives l "children" ((Codec.list (Sublist2.codec (codecs n))).ser x.children)) ∧
    (∀ l (x : Sublist2 (lvl n)), (Sublist2.codec (codecs n)).de (.obj l) = some x ↔
      Gives l "sentence" ((Codec.list (ListSentence.codec (codecs n))).ser x.sentence) ∧
      Gives l "children" ((Codec.list (Sublist3.codec (codecs n))).ser x.children)) ∧
    (∀ l (x : Sublist3 (lvl n)), (Sublist3.codec (codecs n)).de (.obj l) = some x ↔
      Gives l "sentence" ((Codec.list (ListSentence.codec (codecs n))).ser x.sentence)) := by
  refine ⟨?_, ?_, ?_, ?_, ?_, ?_⟩
  · exact fun l x => ((LawList.lawful (codecs_lawful n)).exact _ x).trans ⟨fun ⟨a0, a1, _⟩ => ⟨a0,
      a1⟩, fun ⟨a0, a1⟩ => ⟨a0, a1, trivial⟩⟩
  · exact fun j x => newtype_iff (ListSentence.lawful (codecs_lawful n)) (Sentence.lawful
      (codecs_lawful n)) rfl j
  · exact fun j x => newtype_iff (ListSentence.lawful (codecs_lawful n)) (Column.lawful
      (codecs_lawful n)) rfl j
  · exact fun l x => ((Sublist1.lawful (codecs_lawful n)).exact _ x).trans ⟨fun ⟨a0, a1, _⟩ => ⟨a0,
      a1⟩, fun ⟨a0, a1⟩ => ⟨a0, a1, trivial⟩⟩
  · exact fun l x => ((Sublist2.lawful (codecs_lawful n)).exact _ x).trans ⟨fun ⟨a0, a1, _⟩ => ⟨a0,
      a1⟩, fun ⟨a0, a1⟩ => ⟨a0, a1, trivial⟩⟩
  · exact fun l x => ((Sublist3.lawful (codecs_lawful n)).exact _ x).trans ⟨fun ⟨a0, _⟩ => a0, fun
      a0 => ⟨a0, trivial⟩⟩

/-- **C99.** The names of the fields and variants in `src/paragraph.rs`. -/
theorem C99_names_paragraph (n : Nat) :
    (∀ l (x : Paragraph (lvl n)), (Paragraph.codec (codecs n)).de (.obj l) = some x ↔
      Gives l "caption" ((Codec.option (Caption.codec (codecs n))).ser x.caption) ∧
      Gives l "paragraph_num" ((Text.codec (codecs n)).ser x.paragraph_num) ∧
      Gives l "amend_provision" ((Codec.list (codecs n).amendProvision).ser x.amend_provision) ∧
      Gives l "class" ((Codec.list (Class.codec (codecs n))).ser x.class_) ∧
      Gives l "sentence" ((Codec.list (Sentence.codec (codecs n))).ser x.sentence) ∧
      Gives l "struct_list" ((Codec.list (Struct.codec (codecs n))).ser x.struct_list) ∧
      Gives l "children" ((Codec.list (Item.codec (codecs n))).ser x.children) ∧
      Gives l "num" (ArticleNumber.codec.ser x.num) ∧
      Gives l "old_style" (Codec.bool.ser x.old_style) ∧
      Gives l "old_num" (Codec.bool.ser x.old_num) ∧
      Gives l "hide" (Codec.bool.ser x.hide)) ∧
    (∀ l (x : Item (lvl n)), (Item.codec (codecs n)).de (.obj l) = some x ↔
      Gives l "title" ((Codec.option (Text.codec (codecs n))).ser x.title) ∧
      Gives l "sentence" ((SentenceOrColumnOrTable.codec (codecs n)).ser x.sentence) ∧
      Gives l "children" ((Codec.list (Subitem1.codec (codecs n))).ser x.children) ∧
      Gives l "struct_list" ((Codec.list (Struct.codec (codecs n))).ser x.struct_list) ∧
      Gives l "num" ((Codec.option ArticleNumber.codec).ser x.num) ∧
      Gives l "delete" (Codec.bool.ser x.delete) ∧
      Gives l "hide" (Codec.bool.ser x.hide)) ∧
    (∀ l (x : Subitem1 (lvl n)), (Subitem1.codec (codecs n)).de (.obj l) = some x ↔
      Gives l "title" ((Codec.option (Text.codec (codecs n))).ser x.title) ∧
      Gives l "sentence" ((SentenceOrColumnOrTable.codec (codecs n)).ser x.sentence) ∧
      Gives l "children" ((Codec.list (Subitem2.codec (codecs n))).ser x.children) ∧
      Gives l "struct_list" ((Codec.list (Struct.codec (codecs n))).ser x.struct_list) ∧
      Gives l "num" ((Codec.option ArticleNumber.codec).ser x.num) ∧
      Gives l "delete" (Codec.bool.ser x.delete) ∧
      Gives l "hide" (Codec.bool.ser x.hide)) ∧
    (∀ l (x : Subitem2 (lvl n)), (Subitem2.codec (codecs n)).de (.obj l) = some x ↔
      Gives l "title" ((Codec.option (Text.codec (codecs n))).ser x.title) ∧
      Gives l "sentence" ((SentenceOrColumnOrTable.codec (codecs n)).ser x.sentence) ∧
      Gives l "children" ((Codec.list (Subitem3.codec (codecs n))).ser x.children) ∧
      Gives l "struct_list" ((Codec.list (Struct.codec (codecs n))).ser x.struct_list) ∧
      Gives l "num" ((Codec.option ArticleNumber.codec).ser x.num) ∧
      Gives l "delete" (Codec.bool.ser x.delete) ∧
      Gives l "hide" (Codec.bool.ser x.hide)) ∧
    (∀ l (x : Subitem3 (lvl n)), (Subitem3.codec (codecs n)).de (.obj l) = some x ↔
      Gives l "title" ((Codec.option (Text.codec (codecs n))).ser x.title) ∧
      Gives l "sentence" ((SentenceOrColumnOrTable.codec (codecs n)).ser x.sentence) ∧
      Gives l "children" ((Codec.list (Subitem4.codec (codecs n))).ser x.children) ∧
      Gives l "struct_list" ((Codec.list (Struct.codec (codecs n))).ser x.struct_list) ∧
      Gives l "num" ((Codec.option ArticleNumber.codec).ser x.num) ∧
      Gives l "delete" (Codec.bool.ser x.delete) ∧
      Gives l "hide" (Codec.bool.ser x.hide)) ∧
    (∀ l (x : Subitem4 (lvl n)), (Subitem4.codec (codecs n)).de (.obj l) = some x ↔
      Gives l "title" ((Codec.option (Text.codec (codecs n))).ser x.title) ∧
      Gives l "sentence" ((SentenceOrColumnOrTable.codec (codecs n)).ser x.sentence) ∧
      Gives l "children" ((Codec.list (Subitem5.codec (codecs n))).ser x.children) ∧
      Gives l "struct_list" ((Codec.list (Struct.codec (codecs n))).ser x.struct_list) ∧
      Gives l "num" ((Codec.option ArticleNumber.codec).ser x.num) ∧
      Gives l "delete" (Codec.bool.ser x.delete) ∧
      Gives l "hide" (Codec.bool.ser x.hide)) ∧
    (∀ l (x : Subitem5 (lvl n)), (Subitem5.codec (codecs n)).de (.obj l) = some x ↔
      Gives l "title" ((Codec.option (Text.codec (codecs n))).ser x.title) ∧
      Gives l "sentence" ((SentenceOrColumnOrTable.codec (codecs n)).ser x.sentence) ∧
      Gives l "children" ((Codec.list (Subitem6.codec (codecs n))).ser x.children) ∧
      Gives l "struct_list" ((Codec.list (Struct.codec (codecs n))).ser x.struct_list) ∧
      Gives l "num" ((Codec.option ArticleNumber.codec).ser x.num) ∧
      Gives l "delete" (Codec.bool.ser x.delete) ∧
      Gives l "hide" (Codec.bool.ser x.hide)) ∧
    (∀ l (x : Subitem6 (lvl n)), (Subitem6.codec (codecs n)).de (.obj l) = some x ↔
      Gives l "title" ((Codec.option (Text.codec (codecs n))).ser x.title) ∧
      Gives l "sentence" ((SentenceOrColumnOrTable.codec (codecs n)).ser x.sentence) ∧
      Gives l "children" ((Codec.list (Subitem7.codec (codecs n))).ser x.children) ∧
      Gives l "struct_list" ((Codec.list (Struct.codec (codecs n))).ser x.struct_list) ∧
      Gives l "num" ((Codec.option ArticleNumber.codec).ser x.num) ∧
      Gives l "delete" (Codec.bool.ser x.delete) ∧
      Gives l "hide" (Codec.bool.ser x.hide)) ∧
    (∀ l (x : Subitem7 (lvl n)), (Subitem7.codec (codecs n)).de (.obj l) = some x ↔
      Gives l "title" ((Codec.option (Text.codec (codecs n))).ser x.title) ∧
      Gives l "sentence" ((SentenceOrColumnOrTable.codec (codecs n)).ser x.sentence) ∧
      Gives l "children" ((Codec.list (Subitem8.codec (codecs n))).ser x.children) ∧
      Gives l "struct_list" ((Codec.list (Struct.codec (codecs n))).ser x.struct_list) ∧
      Gives l "num" ((Codec.option ArticleNumber.codec).ser x.num) ∧
      Gives l "delete" (Codec.bool.ser x.delete) ∧
      Gives l "hide" (Codec.bool.ser x.hide)) ∧
    (∀ l (x : Subitem8 (lvl n)), (Subitem8.codec (codecs n)).de (.obj l) = some x ↔
      Gives l "title" ((Codec.option (Text.codec (codecs n))).ser x.title) ∧
      Gives l "sentence" ((SentenceOrColumnOrTable.codec (codecs n)).ser x.sentence) ∧
      Gives l "children" ((Codec.list (Subitem9.codec (codecs n))).ser x.children) ∧
      Gives l "struct_list" ((Codec.list (Struct.codec (codecs n))).ser x.struct_list) ∧
      Gives l "num" ((Codec.option ArticleNumber.codec).ser x.num) ∧
      Gives l "delete" (Codec.bool.ser x.delete) ∧
      Gives l "hide" (Codec.bool.ser x.hide)) ∧
    (∀ l (x : Subitem9 (lvl n)), (Subitem9.codec (codecs n)).de (.obj l) = some x ↔
      Gives l "title" ((Codec.option (Text.codec (codecs n))).ser x.title) ∧
      Gives l "sentence" ((SentenceOrColumnOrTable.codec (codecs n)).ser x.sentence) ∧
      Gives l "children" ((Codec.list (Subitem10.codec (codecs n))).ser x.children) ∧
      Gives l "struct_list" ((Codec.list (Struct.codec (codecs n))).ser x.struct_list) ∧
      Gives l "num" ((Codec.option ArticleNumber.codec).ser x.num) ∧
      Gives l "delete" (Codec.bool.ser x.delete) ∧
      Gives l "hide" (Codec.bool.ser x.hide)) ∧
    (∀ l (x : Subitem10 (lvl n)), (Subitem10.codec (codecs n)).de (.obj l) = some x ↔
      Gives l "title" ((Codec.option (Text.codec (codecs n))).ser x.title) ∧
      Gives l "sentence" ((SentenceOrColumnOrTable.codec (codecs n)).ser x.sentence) ∧
      Gives l "struct_list" ((Codec.list (Struct.codec (codecs n))).ser x.struct_list) ∧
      Gives l "num" ((Codec.option ArticleNumber.codec).ser x.num) ∧
      Gives l "delete" (Codec.bool.ser x.delete) ∧
      Gives l "hide" (Codec.bool.ser x.hide)) := by
  refine ⟨?_, ?_, ?_, ?_, ?_, ?_, ?_, ?_, ?_, ?_, ?_, ?_⟩
  · exact fun l x => ((Paragraph.lawful (codecs_lawful n)).exact _ x).trans ⟨fun ⟨a0, a1, a2, a3,
      a4, a5, a6, a7, a8, a9, a10, _⟩ => ⟨a0, a1, a2, a3, a4, a5, a6, a7, a8, a9, a10⟩, fun ⟨a0,
      a1, a2, a3, a4, a5, a6, a7, a8, a9, a10⟩ => ⟨a0, a1, a2, a3, a4, a5, a6, a7, a8, a9, a10,
      trivial⟩⟩
  · exact fun l x => ((Item.lawful (codecs_lawful n)).exact _ x).trans ⟨fun ⟨a0, a1, a2, a3, a4,
      a5, a6, _⟩ => ⟨a0, a1, a2, a3, a4, a5, a6⟩, fun ⟨a0, a1, a2, a3, a4, a5, a6⟩ => ⟨a0, a1, a2,
      a3, a4, a5, a6, trivial⟩⟩
  · exact fun l x => ((Subitem1.lawful (codecs_lawful n)).exact _ x).trans ⟨fun ⟨a0, a1, a2, a3,
      a4, a5, a6, _⟩ => ⟨a0, a1, a2, a3, a4, a5, a6⟩, fun ⟨a0, a1, a2, a3, a4, a5, a6⟩ => ⟨a0, a1,
      a2, a3, a4, a5, a6, trivial⟩⟩
  · exact fun l x => ((Subitem2.lawful (codecs_lawful n)).exact _ x).trans ⟨fun ⟨a0, a1, a2, a3,
      a4, a5, a6, _⟩ => ⟨a0, a1, a2, a3, a4, a5, a6⟩, fun ⟨a0, a1, a2, a3, a4, a5, a6⟩ => ⟨a0, a1,
      a2, a3, a4, a5, a6, trivial⟩⟩
  · exact fun l x => ((Subitem3.lawful (codecs_lawful n)).exact _ x).trans ⟨fun ⟨a0, a1, a2, a3,
      a4, a5, a6, _⟩ => ⟨a0, a1, a2, a3, a4, a5, a6⟩, fun ⟨a0, a1, a2, a3, a4, a5, a6⟩ => ⟨a0, a1,
      a2, a3, a4, a5, a6, trivial⟩⟩
  · exact fun l x => ((Subitem4.lawful (codecs_lawful n)).exact _ x).trans ⟨fun ⟨a0, a1, a2, a3,
      a4, a5, a6, _⟩ => ⟨a0, a1, a2, a3, a4, a5, a6⟩, fun ⟨a0, a1, a2, a3, a4, a5, a6⟩ => ⟨a0, a1,
      a2, a3, a4, a5, a6, trivial⟩⟩
  · exact fun l x => ((Subitem5.lawful (codecs_lawful n)).exact _ x).trans ⟨fun ⟨a0, a1, a2, a3,
      a4, a5, a6, _⟩ => ⟨a0, a1, a2, a3, a4, a5, a6⟩, fun ⟨a0, a1, a2, a3, a4, a5, a6⟩ => ⟨a0, a1,
      a2, a3, a4, a5, a6, trivial⟩⟩
  · exact fun l x => ((Subitem6.lawful (codecs_lawful n)).exact _ x).trans ⟨fun ⟨a0, a1, a2, a3,
      a4, a5, a6, _⟩ => ⟨a0, a1, a2, a3, a4, a5, a6⟩, fun ⟨a0, a1, a2, a3, a4, a5, a6⟩ => ⟨a0, a1,
      a2, a3, a4, a5, a6, trivial⟩⟩
  · exact fun l x => ((Subitem7.lawful (codecs_lawful n)).exact _ x).trans ⟨fun ⟨a0, a1, a2, a3,
      a4, a5, a6, _⟩ => ⟨a0, a1, a2, a3, a4, a5, a6⟩, fun ⟨a0, a1, a2, a3, a4, a5, a6⟩ => ⟨a0, a1,
      a2, a3, a4, a5, a6, trivial⟩⟩
  · exact fun l x => ((Subitem8.lawful (codecs_lawful n)).exact _ x).trans ⟨fun ⟨a0, a1, a2, a3,
      a4, a5, a6, _⟩ => ⟨a0, a1, a2, a3, a4, a5, a6⟩, fun ⟨a0, a1, a2, a3, a4, a5, a6⟩ => ⟨a0, a1,
      a2, a3, a4, a5, a6, trivial⟩⟩
  · exact fun l x => ((Subitem9.lawful (codecs_lawful n)).exact _ x).trans ⟨fun ⟨a0, a1, a2, a3,
      a4, a5, a6, _⟩ => ⟨a0, a1, a2, a3, a4, a5, a6⟩, fun ⟨a0, a1, a2, a3, a4, a5, a6⟩ => ⟨a0, a1,
      a2, a3, a4, a5, a6, trivial⟩⟩
  · exact fun l x => ((Subitem10.lawful (codecs_lawful n)).exact _ x).trans ⟨fun ⟨a0, a1, a2, a3,
      a4, a5, _⟩ => ⟨a0, a1, a2, a3, a4, a5⟩, fun ⟨a0, a1, a2, a3, a4, a5⟩ => ⟨a0, a1, a2, a3, a4,
      a5, trivial⟩⟩

/-- **C99.** The names of the fields and variants in `src/remarks.rs`. -/
theorem C99_names_remarks (n : Nat) :
    (∀ l (x : Remarks (lvl n)), (Remarks.codec (codecs n)).de (.obj l) = some x ↔
      Gives l "label" ((RemarksLabel.codec (codecs n)).ser x.label) ∧
      Gives l "children" ((Codec.list (RemarksContents.codec (codecs n))).ser x.children)) ∧
    (∀ l (x : RemarksLabel (lvl n)), (RemarksLabel.codec (codecs n)).de (.obj l) = some x ↔
      Gives l "text" ((Text.codec (codecs n)).ser x.text) ∧
      Gives l "line_break" (Codec.bool.ser x.line_break)) ∧
    (∀ j x, (RemarksContents.codec (codecs n)).de (.obj [("Item", j)]) = some (.item x) ↔ (codecs
      n).item.de j = some x) ∧
    (∀ j x, (RemarksContents.codec (codecs n)).de (.obj [("Sentence", j)]) = some (.sentence x) ↔
      (Sentence.codec (codecs n)).de j = some x) := by
  refine ⟨?_, ?_, ?_, ?_⟩
  · exact fun l x => ((Remarks.lawful (codecs_lawful n)).exact _ x).trans ⟨fun ⟨a0, a1, _⟩ => ⟨a0,
      a1⟩, fun ⟨a0, a1⟩ => ⟨a0, a1, trivial⟩⟩
  · exact fun l x => ((RemarksLabel.lawful (codecs_lawful n)).exact _ x).trans ⟨fun ⟨a0, a1, _⟩ =>
      ⟨a0, a1⟩, fun ⟨a0, a1⟩ => ⟨a0, a1, trivial⟩⟩
  · exact fun j x => newtype_iff (RemarksContents.lawful (codecs_lawful n)) (codecs_lawful n).item
      rfl j
  · exact fun j x => newtype_iff (RemarksContents.lawful (codecs_lawful n)) (Sentence.lawful
      (codecs_lawful n)) rfl j

/-- **C99.** The names of the fields and variants in `src/sentence.rs`. -/
theorem C99_names_sentence (n : Nat) :
    (∀ l (x : Sentence (lvl n)), (Sentence.codec (codecs n)).de (.obj l) = some x ↔
      Gives l "contents" ((Codec.list (SentenceElement.codec (codecs n))).ser x.contents) ∧
      Gives l "num" ((Codec.option Codec.usize).ser x.num) ∧
      Gives l "function" ((Codec.option SentenceFunction.codec).ser x.function) ∧
      Gives l "indent" ((Codec.option SentenceIndent.codec).ser x.indent) ∧
      Gives l "writing_mode" (WritingMode.codec.ser x.writing_mode)) ∧
    (∀ j x, (SentenceElement.codec (codecs n)).de (.obj [("Line", j)]) = some (.line x) ↔
      (Line.codec (codecs n)).de j = some x) ∧
    (∀ j x, (SentenceElement.codec (codecs n)).de (.obj [("QuoteStruct", j)]) = some (.quoteStruct
      x) ↔ (QuoteStruct.codec (codecs n)).de j = some x) ∧
    (∀ j x, (SentenceElement.codec (codecs n)).de (.obj [("ArithFormula", j)]) = some
      (.arithFormula x) ↔ (ArithFormula.codec (codecs n)).de j = some x) ∧
    (∀ j x, (SentenceElement.codec (codecs n)).de (.obj [("Ruby", j)]) = some (.ruby x) ↔
      (Ruby.codec (codecs n)).de j = some x) ∧
    (∀ j x, (SentenceElement.codec (codecs n)).de (.obj [("Sup", j)]) = some (.sup x) ↔
      Sup.codec.de j = some x) ∧
    (∀ j x, (SentenceElement.codec (codecs n)).de (.obj [("Sub", j)]) = some (.sub x) ↔
      Sub.codec.de j = some x) ∧
    (∀ j x, (SentenceElement.codec (codecs n)).de (.obj [("String", j)]) = some (.string x) ↔
      Codec.str.de j = some x) ∧
    SentenceFunction.codec.de (.str "Main") = some .main ∧
    SentenceFunction.codec.de (.str "Proviso") = some .proviso ∧
    SentenceIndent.codec.de (.str "Paragraph") = some .paragraph ∧
    SentenceIndent.codec.de (.str "Item") = some .item ∧
    SentenceIndent.codec.de (.str "Subitem1") = some .subitem1 ∧
    SentenceIndent.codec.de (.str "Subitem2") = some .subitem2 ∧
    SentenceIndent.codec.de (.str "Subitem3") = some .subitem3 ∧
    SentenceIndent.codec.de (.str "Subitem4") = some .subitem4 ∧
    SentenceIndent.codec.de (.str "Subitem5") = some .subitem5 ∧
    SentenceIndent.codec.de (.str "Subitem6") = some .subitem6 ∧
    SentenceIndent.codec.de (.str "Subitem7") = some .subitem7 ∧
    SentenceIndent.codec.de (.str "Subitem8") = some .subitem8 ∧
    SentenceIndent.codec.de (.str "Subitem9") = some .subitem9 ∧
    SentenceIndent.codec.de (.str "Subitem10") = some .subitem10 := by
  refine ⟨?_, ?_, ?_, ?_, ?_, ?_, ?_, ?_, ?_, ?_, ?_, ?_, ?_, ?_, ?_, ?_, ?_, ?_, ?_, ?_, ?_, ?_⟩
  · exact fun l x => ((Sentence.lawful (codecs_lawful n)).exact _ x).trans ⟨fun ⟨a0, a1, a2, a3,
      a4, _⟩ => ⟨a0, a1, a2, a3, a4⟩, fun ⟨a0, a1, a2, a3, a4⟩ => ⟨a0, a1, a2, a3, a4, trivial⟩⟩
  · exact fun j x => newtype_iff (SentenceElement.lawful (codecs_lawful n)) (Line.lawful
      (codecs_lawful n)) rfl j
  · exact fun j x => newtype_iff (SentenceElement.lawful (codecs_lawful n)) (QuoteStruct.lawful
      (codecs_lawful n)) rfl j
  · exact fun j x => newtype_iff (SentenceElement.lawful (codecs_lawful n)) (ArithFormula.lawful
      (codecs_lawful n)) rfl j
  · exact fun j x => newtype_iff (SentenceElement.lawful (codecs_lawful n)) (Ruby.lawful
      (codecs_lawful n)) rfl j
  · exact fun j x => newtype_iff (SentenceElement.lawful (codecs_lawful n)) Sup.lawful rfl j
  · exact fun j x => newtype_iff (SentenceElement.lawful (codecs_lawful n)) Sub.lawful rfl j
  · exact fun j x => newtype_iff (SentenceElement.lawful (codecs_lawful n)) Lawful.str rfl j
  · exact (SentenceFunction.lawful.exact _ _).2 rfl
  · exact (SentenceFunction.lawful.exact _ _).2 rfl
  · exact (SentenceIndent.lawful.exact _ _).2 rfl
  · exact (SentenceIndent.lawful.exact _ _).2 rfl
  · exact (SentenceIndent.lawful.exact _ _).2 rfl
  · exact (SentenceIndent.lawful.exact _ _).2 rfl
  · exact (SentenceIndent.lawful.exact _ _).2 rfl
  · exact (SentenceIndent.lawful.exact _ _).2 rfl
  · exact (SentenceIndent.lawful.exact _ _).2 rfl
  · exact (SentenceIndent.lawful.exact _ _).2 rfl
  · exact (SentenceIndent.lawful.exact _ _).2 rfl
  · exact (SentenceIndent.lawful.exact _ _).2 rfl
  · exact (SentenceIndent.lawful.exact _ _).2 rfl
  · exact (SentenceIndent.lawful.exact _ _).2 rfl

/-- **C99.** The names of the fields and variants in `src/structs.rs`. -/
theorem C99_names_structs (n : Nat) :
    (∀ j x, (Struct.codec (codecs n)).de (.obj [("TableStruct", j)]) = some (.tableStruct x) ↔
      (TableStruct.codec (codecs n)).de j = some x) ∧
    (∀ j x, (Struct.codec (codecs n)).de (.obj [("FigStruct", j)]) = some (.figStruct x) ↔
      (FigStruct.codec (codecs n)).de j = some x) ∧
    (∀ j x, (Struct.codec (codecs n)).de (.obj [("StyleStruct", j)]) = some (.styleStruct x) ↔
      (StyleStruct.codec (codecs n)).de j = some x) ∧
    (∀ j x, (Struct.codec (codecs n)).de (.obj [("List", j)]) = some (.list x) ↔ (LawList.codec
      (codecs n)).de j = some x) ∧
    (∀ l (x : QuoteStruct (lvl n)), (QuoteStruct.codec (codecs n)).de (.obj l) = some x ↔
      Gives l "contentes" ((codecs n).contents.ser x.contentes)) ∧
    (∀ l (x : NoteStruct (lvl n)), (NoteStruct.codec (codecs n)).de (.obj l) = some x ↔
      Gives l "title" ((Codec.option (Text.codec (codecs n))).ser x.title) ∧
      Gives l "title_remarks" ((Codec.list (Remarks.codec (codecs n))).ser x.title_remarks) ∧
      Gives l "note" ((Note.codec (codecs n)).ser x.body) ∧
      Gives l "note_remarks" ((Codec.list (Remarks.codec (codecs n))).ser x.body_remarks)) ∧
    (∀ l (x : StyleStruct (lvl n)), (StyleStruct.codec (codecs n)).de (.obj l) = some x ↔
      Gives l "title" ((Codec.option (Text.codec (codecs n))).ser x.title) ∧
      Gives l "title_remarks" ((Codec.list (Remarks.codec (codecs n))).ser x.title_remarks) ∧
      Gives l "style" ((Style.codec (codecs n)).ser x.body) ∧
      Gives l "style_remarks" ((Codec.list (Remarks.codec (codecs n))).ser x.body_remarks)) ∧
    (∀ l (x : FormatStruct (lvl n)), (FormatStruct.codec (codecs n)).de (.obj l) = some x ↔
      Gives l "title" ((Codec.option (Text.codec (codecs n))).ser x.title) ∧
      Gives l "title_remarks" ((Codec.list (Remarks.codec (codecs n))).ser x.title_remarks) ∧
      Gives l "format" ((Format.codec (codecs n)).ser x.body) ∧
      Gives l "format_remarks" ((Codec.list (Remarks.codec (codecs n))).ser x.body_remarks)) ∧
    (∀ l (x : FigStruct (lvl n)), (FigStruct.codec (codecs n)).de (.obj l) = some x ↔
      Gives l "title" ((Codec.option (Text.codec (codecs n))).ser x.title) ∧
      Gives l "title_remarks" ((Codec.list (Remarks.codec (codecs n))).ser x.title_remarks) ∧
      Gives l "fig" (Fig.codec.ser x.body) ∧
      Gives l "fig_remarks" ((Codec.list (Remarks.codec (codecs n))).ser x.body_remarks)) ∧
    (∀ l (x : TableStruct (lvl n)), (TableStruct.codec (codecs n)).de (.obj l) = some x ↔
      Gives l "title" ((Codec.option (TextWithWritingMode.codec (codecs n))).ser x.title) ∧
      Gives l "title_remarks" ((Codec.list (Remarks.codec (codecs n))).ser x.title_remarks) ∧
      Gives l "table" ((Table.codec (codecs n)).ser x.body) ∧
      Gives l "table_remarks" ((Codec.list (Remarks.codec (codecs n))).ser x.body_remarks)) := by
  refine ⟨?_, ?_, ?_, ?_, ?_, ?_, ?_, ?_, ?_, ?_⟩
  · exact fun j x => newtype_iff (Struct.lawful (codecs_lawful n)) (TableStruct.lawful
      (codecs_lawful n)) rfl j
  · exact fun j x => newtype_iff (Struct.lawful (codecs_lawful n)) (FigStruct.lawful (codecs_lawful
      n)) rfl j
  · exact fun j x => newtype_iff (Struct.lawful (codecs_lawful n)) (StyleStruct.lawful
      (codecs_lawful n)) rfl j
  · exact fun j x => newtype_iff (Struct.lawful (codecs_lawful n)) (LawList.lawful (codecs_lawful
      n)) rfl j
  · exact fun l x => ((QuoteStruct.lawful (codecs_lawful n)).exact _ x).trans ⟨fun ⟨a0, _⟩ => a0,
      fun a0 => ⟨a0, trivial⟩⟩
  · exact fun l x => ((NoteStruct.lawful (codecs_lawful n)).exact _ x).trans ⟨fun ⟨a0, a1, a2, a3,
      _⟩ => ⟨a0, a1, a2, a3⟩, fun ⟨a0, a1, a2, a3⟩ => ⟨a0, a1, a2, a3, trivial⟩⟩
  · exact fun l x => ((StyleStruct.lawful (codecs_lawful n)).exact _ x).trans ⟨fun ⟨a0, a1, a2, a3,
      _⟩ => ⟨a0, a1, a2, a3⟩, fun ⟨a0, a1, a2, a3⟩ => ⟨a0, a1, a2, a3, trivial⟩⟩
  · exact fun l x => ((FormatStruct.lawful (codecs_lawful n)).exact _ x).trans ⟨fun ⟨a0, a1, a2,
      a3, _⟩ => ⟨a0, a1, a2, a3⟩, fun ⟨a0, a1, a2, a3⟩ => ⟨a0, a1, a2, a3, trivial⟩⟩
  · exact fun l x => ((FigStruct.lawful (codecs_lawful n)).exact _ x).trans ⟨fun ⟨a0, a1, a2, a3,
      _⟩ => ⟨a0, a1, a2, a3⟩, fun ⟨a0, a1, a2, a3⟩ => ⟨a0, a1, a2, a3, trivial⟩⟩
  · exact fun l x => ((TableStruct.lawful (codecs_lawful n)).exact _ x).trans ⟨fun ⟨a0, a1, a2, a3,
      _⟩ => ⟨a0, a1, a2, a3⟩, fun ⟨a0, a1, a2, a3⟩ => ⟨a0, a1, a2, a3, trivial⟩⟩

/-- **C99.** The names of the fields and variants in `src/suppl_provision.rs`. -/
theorem C99_names_suppl_provision (n : Nat) :
    (∀ l (x : SupplProvision (lvl n)), (SupplProvision.codec (codecs n)).de (.obj l) = some x ↔
      Gives l "label" ((Text.codec (codecs n)).ser x.label) ∧
      Gives l "children" ((Codec.list (SupplProvisionChildrenElement.codec (codecs n))).ser
      x.children) ∧
      Gives l "suppl_provision_type" ((Codec.option SupplProvisionType.codec).ser
      x.suppl_provision_type) ∧
      Gives l "amend_law_num" ((Codec.option Codec.str).ser x.amend_law_num) ∧
      Gives l "extract" ((Codec.option Codec.bool).ser x.extract)) ∧
    (∀ j x, (SupplProvisionChildrenElement.codec (codecs n)).de (.obj [("Chapter", j)]) = some
      (.chapter x) ↔ (Chapter.codec (codecs n)).de j = some x) ∧
    (∀ j x, (SupplProvisionChildrenElement.codec (codecs n)).de (.obj [("Article", j)]) = some
      (.article x) ↔ (Article.codec (codecs n)).de j = some x) ∧
    (∀ j x, (SupplProvisionChildrenElement.codec (codecs n)).de (.obj [("Paragraph", j)]) = some
      (.paragraph x) ↔ (Paragraph.codec (codecs n)).de j = some x) ∧
    (∀ j x, (SupplProvisionChildrenElement.codec (codecs n)).de (.obj [("SupplProvisionAppdxTable",
      j)]) = some (.supplProvisionAppdxTable x) ↔ (SupplProvisionAppdxTable.codec (codecs n)).de j
      = some x) ∧
    (∀ j x, (SupplProvisionChildrenElement.codec (codecs n)).de (.obj [("SupplProvisionAppdxStyle",
      j)]) = some (.supplProvisionAppdxStyle x) ↔ (SupplProvisionAppdxStyle.codec (codecs n)).de j
      = some x) ∧
    (∀ j x, (SupplProvisionChildrenElement.codec (codecs n)).de (.obj [("SupplProvisionAppdx", j)])
      = some (.supplProvisionAppdx x) ↔ (SupplProvisionAppdx.codec (codecs n)).de j = some x) ∧
    SupplProvisionType.codec.de (.str "New") = some .new ∧
    SupplProvisionType.codec.de (.str "Amend") = some .amend ∧
    (∀ l (x : SupplProvisionAppdxTable (lvl n)), (SupplProvisionAppdxTable.codec (codecs n)).de
      (.obj l) = some x ↔
      Gives l "title" ((TextWithWritingMode.codec (codecs n)).ser x.title) ∧
      Gives l "related_article_num" ((Codec.option (Text.codec (codecs n))).ser
      x.related_article_num) ∧
      Gives l "table_struct" ((Codec.list (TableStruct.codec (codecs n))).ser x.structs) ∧
      Gives l "num" ((Codec.option Codec.str).ser x.num)) ∧
    (∀ l (x : SupplProvisionAppdxStyle (lvl n)), (SupplProvisionAppdxStyle.codec (codecs n)).de
      (.obj l) = some x ↔
      Gives l "title" ((TextWithWritingMode.codec (codecs n)).ser x.title) ∧
      Gives l "related_article_num" ((Codec.option (Text.codec (codecs n))).ser
      x.related_article_num) ∧
      Gives l "style_struct" ((Codec.list (StyleStruct.codec (codecs n))).ser x.structs) ∧
      Gives l "num" ((Codec.option Codec.str).ser x.num)) ∧
    (∀ l (x : SupplProvisionAppdx (lvl n)), (SupplProvisionAppdx.codec (codecs n)).de (.obj l) =
      some x ↔
      Gives l "arith_formula_num" ((Codec.option (Text.codec (codecs n))).ser x.arith_formula_num) ∧
      Gives l "related_article_num" ((Codec.option (Text.codec (codecs n))).ser
      x.related_article_num) ∧
      Gives l "arith_formula" ((Codec.list (ArithFormula.codec (codecs n))).ser x.arith_formula) ∧
      Gives l "num" ((Codec.option Codec.str).ser x.num)) := by
  refine ⟨?_, ?_, ?_, ?_, ?_, ?_, ?_, ?_, ?_, ?_, ?_, ?_⟩
  · exact fun l x => ((SupplProvision.lawful (codecs_lawful n)).exact _ x).trans ⟨fun ⟨a0, a1, a2,
      a3, a4, _⟩ => ⟨a0, a1, a2, a3, a4⟩, fun ⟨a0, a1, a2, a3, a4⟩ => ⟨a0, a1, a2, a3, a4, trivial⟩⟩
  · exact fun j x => newtype_iff (SupplProvisionChildrenElement.lawful (codecs_lawful n))
      (Chapter.lawful (codecs_lawful n)) rfl j
  · exact fun j x => newtype_iff (SupplProvisionChildrenElement.lawful (codecs_lawful n))
      (Article.lawful (codecs_lawful n)) rfl j
  · exact fun j x => newtype_iff (SupplProvisionChildrenElement.lawful (codecs_lawful n))
      (Paragraph.lawful (codecs_lawful n)) rfl j
  · exact fun j x => newtype_iff (SupplProvisionChildrenElement.lawful (codecs_lawful n))
      (SupplProvisionAppdxTable.lawful (codecs_lawful n)) rfl j
  · exact fun j x => newtype_iff (SupplProvisionChildrenElement.lawful (codecs_lawful n))
      (SupplProvisionAppdxStyle.lawful (codecs_lawful n)) rfl j
  · exact fun j x => newtype_iff (SupplProvisionChildrenElement.lawful (codecs_lawful n))
      (SupplProvisionAppdx.lawful (codecs_lawful n)) rfl j
  · exact (SupplProvisionType.lawful.exact _ _).2 rfl
  · exact (SupplProvisionType.lawful.exact _ _).2 rfl
  · exact fun l x => ((SupplProvisionAppdxTable.lawful (codecs_lawful n)).exact _ x).trans ⟨fun
      ⟨a0, a1, a2, a3, _⟩ => ⟨a0, a1, a2, a3⟩, fun ⟨a0, a1, a2, a3⟩ => ⟨a0, a1, a2, a3, trivial⟩⟩
  · exact fun l x => ((SupplProvisionAppdxStyle.lawful (codecs_lawful n)).exact _ x).trans ⟨fun
      ⟨a0, a1, a2, a3, _⟩ => ⟨a0, a1, a2, a3⟩, fun ⟨a0, a1, a2, a3⟩ => ⟨a0, a1, a2, a3, trivial⟩⟩
  · exact fun l x => ((SupplProvisionAppdx.lawful (codecs_lawful n)).exact _ x).trans ⟨fun ⟨a0, a1,
      a2, a3, _⟩ => ⟨a0, a1, a2, a3⟩, fun ⟨a0, a1, a2, a3⟩ => ⟨a0, a1, a2, a3, trivial⟩⟩

/-- **C99.** The names of the fields and variants in `src/table.rs`. -/
theorem C99_names_table (n : Nat) :
    (∀ l (x : Table (lvl n)), (Table.codec (codecs n)).de (.obj l) = some x ↔
      Gives l "table_header_row" ((Codec.list (TableHeaderRow.codec (codecs n))).ser
      x.table_header_row) ∧
      Gives l "table_row" ((Codec.list (TableRow.codec (codecs n))).ser x.table_row) ∧
      Gives l "writing_mode" (WritingMode.codec.ser x.writing_mode)) ∧
    (∀ l (x : TableHeaderRow (lvl n)), (TableHeaderRow.codec (codecs n)).de (.obj l) = some x ↔
      Gives l "columns" ((Codec.list (Text.codec (codecs n))).ser x.columns)) ∧
    (∀ l (x : TableRow (lvl n)), (TableRow.codec (codecs n)).de (.obj l) = some x ↔
      Gives l "columns" ((Codec.list (codecs n).tableColumn).ser x.columns)) ∧
    (∀ l (x : TableColumn (lvl n)), (TableColumn.codec (codecs n)).de (.obj l) = some x ↔
      Gives l "contents" ((Codec.list (TableColumnContents.codec (codecs n))).ser x.contents) ∧
      Gives l "border_top" (LineStyle.codec.ser x.border_top) ∧
      Gives l "border_bottom" (LineStyle.codec.ser x.border_bottom) ∧
      Gives l "border_left" (LineStyle.codec.ser x.border_left) ∧
      Gives l "border_right" (LineStyle.codec.ser x.border_right) ∧
      Gives l "rowspan" ((Codec.option Codec.str).ser x.rowspan) ∧
      Gives l "colspan" ((Codec.option Codec.str).ser x.colspan) ∧
      Gives l "align" ((Codec.option Align.codec).ser x.align) ∧
      Gives l "valign" ((Codec.option Position.codec).ser x.valign)) ∧
    (∀ j x, (TableColumnContents.codec (codecs n)).de (.obj [("Part", j)]) = some (.part x) ↔
      (Part.codec (codecs n)).de j = some x) ∧
    (∀ j x, (TableColumnContents.codec (codecs n)).de (.obj [("Chapter", j)]) = some (.chapter x) ↔
      (Chapter.codec (codecs n)).de j = some x) ∧
    (∀ j x, (TableColumnContents.codec (codecs n)).de (.obj [("Section", j)]) = some (.section_ x)
      ↔ (Section.codec (codecs n)).de j = some x) ∧
    (∀ j x, (TableColumnContents.codec (codecs n)).de (.obj [("Subsection", j)]) = some
      (.subsection x) ↔ (Subsection.codec (codecs n)).de j = some x) ∧
    (∀ j x, (TableColumnContents.codec (codecs n)).de (.obj [("Division", j)]) = some (.division x)
      ↔ (Division.codec (codecs n)).de j = some x) ∧
    (∀ j x, (TableColumnContents.codec (codecs n)).de (.obj [("Article", j)]) = some (.article x) ↔
      (Article.codec (codecs n)).de j = some x) ∧
    (∀ j x, (TableColumnContents.codec (codecs n)).de (.obj [("Paragraph", j)]) = some (.paragraph
      x) ↔ (Paragraph.codec (codecs n)).de j = some x) ∧
    (∀ j x, (TableColumnContents.codec (codecs n)).de (.obj [("Item", j)]) = some (.item x) ↔
      (Item.codec (codecs n)).de j = some x) ∧
    (∀ j x, (TableColumnContents.codec (codecs n)).de (.obj [("Subitem1", j)]) = some (.subitem1 x)
      ↔ (Subitem1.codec (codecs n)).de j = some x) ∧
    (∀ j x, (TableColumnContents.codec (codecs n)).de (.obj [("Subitem2", j)]) = some (.subitem2 x)
      ↔ (Subitem2.codec (codecs n)).de j = some x) ∧
    (∀ j x, (TableColumnContents.codec (codecs n)).de (.obj [("Subitem3", j)]) = some (.subitem3 x)
      ↔ (Subitem3.codec (codecs n)).de j = some x) ∧
    (∀ j x, (TableColumnContents.codec (codecs n)).de (.obj [("Subitem4", j)]) = some (.subitem4 x)
      ↔ (Subitem4.codec (codecs n)).de j = some x) ∧
    (∀ j x, (TableColumnContents.codec (codecs n)).de (.obj [("Subitem5", j)]) = some (.subitem5 x)
      ↔ (Subitem5.codec (codecs n)).de j = some x) ∧
    (∀ j x, (TableColumnContents.codec (codecs n)).de (.obj [("Subitem6", j)]) = some (.subitem6 x)
      ↔ (Subitem6.codec (codecs n)).de j = some x) ∧
    (∀ j x, (TableColumnContents.codec (codecs n)).de (.obj [("Subitem7", j)]) = some (.subitem7 x)
      ↔ (Subitem7.codec (codecs n)).de j = some x) ∧
    (∀ j x, (TableColumnContents.codec (codecs n)).de (.obj [("Subitem8", j)]) = some (.subitem8 x)
      ↔ (Subitem8.codec (codecs n)).de j = some x) ∧
    (∀ j x, (TableColumnContents.codec (codecs n)).de (.obj [("Subitem9", j)]) = some (.subitem9 x)
      ↔ (Subitem9.codec (codecs n)).de j = some x) ∧
    (∀ j x, (TableColumnContents.codec (codecs n)).de (.obj [("Subitem10", j)]) = some (.subitem10
      x) ↔ (Subitem10.codec (codecs n)).de j = some x) ∧
    (∀ j x, (TableColumnContents.codec (codecs n)).de (.obj [("FigStruct", j)]) = some (.figStruct
      x) ↔ (FigStruct.codec (codecs n)).de j = some x) ∧
    (∀ j x, (TableColumnContents.codec (codecs n)).de (.obj [("Sentence", j)]) = some (.sentence x)
      ↔ (Sentence.codec (codecs n)).de j = some x) ∧
    (∀ j x, (TableColumnContents.codec (codecs n)).de (.obj [("Remarks", j)]) = some (.remarks x) ↔
      (Remarks.codec (codecs n)).de j = some x) ∧
    (∀ j x, (TableColumnContents.codec (codecs n)).de (.obj [("Column", j)]) = some (.column x) ↔
      (Column.codec (codecs n)).de j = some x) ∧
    (∀ j x, (TableColumnContents.codec (codecs n)).de (.obj [("String", j)]) = some (.string x) ↔
      Codec.str.de j = some x) ∧
    Position.codec.de (.str "Top") = some .top ∧
    Position.codec.de (.str "Middle") = some .middle ∧
    Position.codec.de (.str "Bottom") = some .bottom := by
  refine ⟨?_, ?_, ?_, ?_, ?_, ?_, ?_, ?_, ?_, ?_, ?_, ?_, ?_, ?_, ?_, ?_, ?_, ?_, ?_, ?_, ?_, ?_,
    ?_, ?_, ?_, ?_, ?_, ?_, ?_, ?_⟩
  · exact fun l x => ((Table.lawful (codecs_lawful n)).exact _ x).trans ⟨fun ⟨a0, a1, a2, _⟩ =>
      ⟨a0, a1, a2⟩, fun ⟨a0, a1, a2⟩ => ⟨a0, a1, a2, trivial⟩⟩
  · exact fun l x => ((TableHeaderRow.lawful (codecs_lawful n)).exact _ x).trans ⟨fun ⟨a0, _⟩ =>
      a0, fun a0 => ⟨a0, trivial⟩⟩
  · exact fun l x => ((TableRow.lawful (codecs_lawful n)).exact _ x).trans ⟨fun ⟨a0, _⟩ => a0, fun
      a0 => ⟨a0, trivial⟩⟩
  · exact fun l x => ((TableColumn.lawful (codecs_lawful n)).exact _ x).trans ⟨fun ⟨a0, a1, a2, a3,
      a4, a5, a6, a7, a8, _⟩ => ⟨a0, a1, a2, a3, a4, a5, a6, a7, a8⟩, fun ⟨a0, a1, a2, a3, a4, a5,
      a6, a7, a8⟩ => ⟨a0, a1, a2, a3, a4, a5, a6, a7, a8, trivial⟩⟩
  · exact fun j x => newtype_iff (TableColumnContents.lawful (codecs_lawful n)) (Part.lawful
      (codecs_lawful n)) rfl j
  · exact fun j x => newtype_iff (TableColumnContents.lawful (codecs_lawful n)) (Chapter.lawful
      (codecs_lawful n)) rfl j
  · exact fun j x => newtype_iff (TableColumnContents.lawful (codecs_lawful n)) (Section.lawful
      (codecs_lawful n)) rfl j
  · exact fun j x => newtype_iff (TableColumnContents.lawful (codecs_lawful n)) (Subsection.lawful
      (codecs_lawful n)) rfl j
  · exact fun j x => newtype_iff (TableColumnContents.lawful (codecs_lawful n)) (Division.lawful
      (codecs_lawful n)) rfl j
  · exact fun j x => newtype_iff (TableColumnContents.lawful (codecs_lawful n)) (Article.lawful
      (codecs_lawful n)) rfl j
  · exact fun j x => newtype_iff (TableColumnContents.lawful (codecs_lawful n)) (Paragraph.lawful
      (codecs_lawful n)) rfl j
  · exact fun j x => newtype_iff (TableColumnContents.lawful (codecs_lawful n)) (Item.lawful
      (codecs_lawful n)) rfl j
  · exact fun j x => newtype_iff (TableColumnContents.lawful (codecs_lawful n)) (Subitem1.lawful
      (codecs_lawful n)) rfl j
  · exact fun j x => newtype_iff (TableColumnContents.lawful (codecs_lawful n)) (Subitem2.lawful
      (codecs_lawful n)) rfl j
  · exact fun j x => newtype_iff (TableColumnContents.lawful (codecs_lawful n)) (Subitem3.lawful
      (codecs_lawful n)) rfl j
  · exact fun j x => newtype_iff (TableColumnContents.lawful (codecs_lawful n)) (Subitem4.lawful
      (codecs_lawful n)) rfl j
  · exact fun j x => newtype_iff (TableColumnContents.lawful (codecs_lawful n)) (Subitem5.lawful
      (codecs_lawful n)) rfl j
  · exact fun j x => newtype_iff (TableColumnContents.lawful (codecs_lawful n)) (Subitem6.lawful
      (codecs_lawful n)) rfl j
  · exact fun j x => newtype_iff (TableColumnContents.lawful (codecs_lawful n)) (Subitem7.lawful
      (codecs_lawful n)) rfl j
  · exact fun j x => newtype_iff (TableColumnContents.lawful (codecs_lawful n)) (Subitem8.lawful
      (codecs_lawful n)) rfl j
  · exact fun j x => newtype_iff (TableColumnContents.lawful (codecs_lawful n)) (Subitem9.lawful
      (codecs_lawful n)) rfl j
  · exact fun j x => newtype_iff (TableColumnContents.lawful (codecs_lawful n)) (Subitem10.lawful
      (codecs_lawful n)) rfl j
  · exact fun j x => newtype_iff (TableColumnContents.lawful (codecs_lawful n)) (FigStruct.lawful
      (codecs_lawful n)) rfl j
  · exact fun j x => newtype_iff (TableColumnContents.lawful (codecs_lawful n)) (Sentence.lawful
      (codecs_lawful n)) rfl j
  · exact fun j x => newtype_iff (TableColumnContents.lawful (codecs_lawful n)) (Remarks.lawful
      (codecs_lawful n)) rfl j
  · exact fun j x => newtype_iff (TableColumnContents.lawful (codecs_lawful n)) (Column.lawful
      (codecs_lawful n)) rfl j
  · exact fun j x => newtype_iff (TableColumnContents.lawful (codecs_lawful n)) Lawful.str rfl j
  · exact (Position.lawful.exact _ _).2 rfl
  · exact (Position.lawful.exact _ _).2 rfl
  · exact (Position.lawful.exact _ _).2 rfl

/-- **C99.** The names of the fields and variants in `src/table_of_contents.rs`. -/
theorem C99_names_table_of_contents (n : Nat) :
    (∀ l (x : TOC (lvl n)), (TOC.codec (codecs n)).de (.obj l) = some x ↔
      Gives l "toc_label" ((Codec.option (Text.codec (codecs n))).ser x.toc_label) ∧
      Gives l "toc_preamble_label" ((Codec.option (Text.codec (codecs n))).ser
      x.toc_preamble_label) ∧
      Gives l "toc_main_contents" ((Codec.list (TOCMainContents.codec (codecs n))).ser
      x.toc_main_contents) ∧
      Gives l "toc_suppl_provision" ((Codec.option (TOCSupplProvision.codec (codecs n))).ser
      x.toc_suppl_provision) ∧
      Gives l "toc_appdx_table_label" ((Codec.list (Text.codec (codecs n))).ser
      x.toc_appdx_table_label)) ∧
    (∀ j x, (TOCMainContents.codec (codecs n)).de (.obj [("TOCPart", j)]) = some (.tocPart x) ↔
      (TOCPart.codec (codecs n)).de j = some x) ∧
    (∀ j x, (TOCMainContents.codec (codecs n)).de (.obj [("TOCChapter", j)]) = some (.tocChapter x)
      ↔ (TOCChapter.codec (codecs n)).de j = some x) ∧
    (∀ j x, (TOCMainContents.codec (codecs n)).de (.obj [("TOCSection", j)]) = some (.tocSection x)
      ↔ (TOCSection.codec (codecs n)).de j = some x) ∧
    (∀ j x, (TOCMainContents.codec (codecs n)).de (.obj [("TOCArticle", j)]) = some (.tocArticle x)
      ↔ (TOCArticle.codec (codecs n)).de j = some x) ∧
    (∀ l (x : TOCPart (lvl n)), (TOCPart.codec (codecs n)).de (.obj l) = some x ↔
      Gives l "part_title" ((Text.codec (codecs n)).ser x.title) ∧
      Gives l "article_range" ((Codec.option (Text.codec (codecs n))).ser x.article_range) ∧
      Gives l "num" (ArticleNumber.codec.ser x.num) ∧
      Gives l "delete" (Codec.bool.ser x.delete) ∧
      Gives l "children" ((Codec.list (TOCChapter.codec (codecs n))).ser x.children)) ∧
    (∀ l (x : TOCChapter (lvl n)), (TOCChapter.codec (codecs n)).de (.obj l) = some x ↔
      Gives l "chapter_title" ((Text.codec (codecs n)).ser x.title) ∧
      Gives l "article_range" ((Codec.option (Text.codec (codecs n))).ser x.article_range) ∧
      Gives l "num" (ArticleNumber.codec.ser x.num) ∧
      Gives l "delete" (Codec.bool.ser x.delete) ∧
      Gives l "children" ((Codec.list (TOCSection.codec (codecs n))).ser x.children)) ∧
    (∀ l (x : TOCSection (lvl n)), (TOCSection.codec (codecs n)).de (.obj l) = some x ↔
      Gives l "section_title" ((Text.codec (codecs n)).ser x.title) ∧
      Gives l "article_range" ((Codec.option (Text.codec (codecs n))).ser x.article_range) ∧
      Gives l "num" (ArticleNumber.codec.ser x.num) ∧
      Gives l "delete" (Codec.bool.ser x.delete) ∧
      Gives l "children" ((Codec.list (TOCSectionContents.codec (codecs n))).ser x.children)) ∧
    (∀ j x, (TOCSectionContents.codec (codecs n)).de (.obj [("TOCSubsection", j)]) = some
      (.tocSubsection x) ↔ (TOCSubsection.codec (codecs n)).de j = some x) ∧
    (∀ j x, (TOCSectionContents.codec (codecs n)).de (.obj [("TOCDivision", j)]) = some
      (.tocDivision x) ↔ (TOCDivision.codec (codecs n)).de j = some x) ∧
    (∀ l (x : TOCSubsection (lvl n)), (TOCSubsection.codec (codecs n)).de (.obj l) = some x ↔
      Gives l "subsection_title" ((Text.codec (codecs n)).ser x.title) ∧
      Gives l "article_range" ((Codec.option (Text.codec (codecs n))).ser x.article_range) ∧
      Gives l "num" (ArticleNumber.codec.ser x.num) ∧
      Gives l "delete" (Codec.bool.ser x.delete) ∧
      Gives l "children" ((Codec.list (TOCDivision.codec (codecs n))).ser x.children)) ∧
    (∀ l (x : TOCDivision (lvl n)), (TOCDivision.codec (codecs n)).de (.obj l) = some x ↔
      Gives l "division_title" ((Text.codec (codecs n)).ser x.title) ∧
      Gives l "article_range" ((Codec.option (Text.codec (codecs n))).ser x.article_range) ∧
      Gives l "num" (ArticleNumber.codec.ser x.num) ∧
      Gives l "delete" (Codec.bool.ser x.delete)) ∧
    (∀ l (x : TOCArticle (lvl n)), (TOCArticle.codec (codecs n)).de (.obj l) = some x ↔
      Gives l "article_title" ((Text.codec (codecs n)).ser x.article_title) ∧
      Gives l "article_caption" ((Caption.codec (codecs n)).ser x.article_caption) ∧
      Gives l "num" (ArticleNumber.codec.ser x.num) ∧
      Gives l "delete" (Codec.bool.ser x.delete)) ∧
    (∀ l (x : TOCSupplProvision (lvl n)), (TOCSupplProvision.codec (codecs n)).de (.obj l) = some x
      ↔
      Gives l "suppl_provision_label" ((Text.codec (codecs n)).ser x.suppl_provision_label) ∧
      Gives l "article_range" ((Codec.option (Text.codec (codecs n))).ser x.article_range) ∧
      Gives l "children" ((Codec.list (TOCSupplProvisionContents.codec (codecs n))).ser x.children)) ∧
    (∀ j x, (TOCSupplProvisionContents.codec (codecs n)).de (.obj [("TOCArticle", j)]) = some
      (.tocArticle x) ↔ (TOCArticle.codec (codecs n)).de j = some x) ∧
    (∀ j x, (TOCSupplProvisionContents.codec (codecs n)).de (.obj [("TOCChapter", j)]) = some
      (.tocChapter x) ↔ (TOCChapter.codec (codecs n)).de j = some x) := by
  refine ⟨?_, ?_, ?_, ?_, ?_, ?_, ?_, ?_, ?_, ?_, ?_, ?_, ?_, ?_, ?_, ?_⟩
  · exact fun l x => ((TOC.lawful (codecs_lawful n)).exact _ x).trans ⟨fun ⟨a0, a1, a2, a3, a4, _⟩
      => ⟨a0, a1, a2, a3, a4⟩, fun ⟨a0, a1, a2, a3, a4⟩ => ⟨a0, a1, a2, a3, a4, trivial⟩⟩
  · exact fun j x => newtype_iff (TOCMainContents.lawful (codecs_lawful n)) (TOCPart.lawful
      (codecs_lawful n)) rfl j
  · exact fun j x => newtype_iff (TOCMainContents.lawful (codecs_lawful n)) (TOCChapter.lawful
      (codecs_lawful n)) rfl j
  · exact fun j x => newtype_iff (TOCMainContents.lawful (codecs_lawful n)) (TOCSection.lawful
      (codecs_lawful n)) rfl j
  · exact fun j x => newtype_iff (TOCMainContents.lawful (codecs_lawful n)) (TOCArticle.lawful
      (codecs_lawful n)) rfl j
  · exact fun l x => ((TOCPart.lawful (codecs_lawful n)).exact _ x).trans ⟨fun ⟨a0, a1, a2, a3, a4,
      _⟩ => ⟨a0, a1, a2, a3, a4⟩, fun ⟨a0, a1, a2, a3, a4⟩ => ⟨a0, a1, a2, a3, a4, trivial⟩⟩
  · exact fun l x => ((TOCChapter.lawful (codecs_lawful n)).exact _ x).trans ⟨fun ⟨a0, a1, a2, a3,
      a4, _⟩ => ⟨a0, a1, a2, a3, a4⟩, fun ⟨a0, a1, a2, a3, a4⟩ => ⟨a0, a1, a2, a3, a4, trivial⟩⟩
  · exact fun l x => ((TOCSection.lawful (codecs_lawful n)).exact _ x).trans ⟨fun ⟨a0, a1, a2, a3,
      a4, _⟩ => ⟨a0, a1, a2, a3, a4⟩, fun ⟨a0, a1, a2, a3, a4⟩ => ⟨a0, a1, a2, a3, a4, trivial⟩⟩
  · exact fun j x => newtype_iff (TOCSectionContents.lawful (codecs_lawful n))
      (TOCSubsection.lawful (codecs_lawful n)) rfl j
  · exact fun j x => newtype_iff (TOCSectionContents.lawful (codecs_lawful n)) (TOCDivision.lawful
      (codecs_lawful n)) rfl j
  · exact fun l x => ((TOCSubsection.lawful (codecs_lawful n)).exact _ x).trans ⟨fun ⟨a0, a1, a2,
      a3, a4, _⟩ => ⟨a0, a1, a2, a3, a4⟩, fun ⟨a0, a1, a2, a3, a4⟩ => ⟨a0, a1, a2, a3, a4, trivial⟩⟩
  · exact fun l x => ((TOCDivision.lawful (codecs_lawful n)).exact _ x).trans ⟨fun ⟨a0, a1, a2, a3,
      _⟩ => ⟨a0, a1, a2, a3⟩, fun ⟨a0, a1, a2, a3⟩ => ⟨a0, a1, a2, a3, trivial⟩⟩
  · exact fun l x => ((TOCArticle.lawful (codecs_lawful n)).exact _ x).trans ⟨fun ⟨a0, a1, a2, a3,
      _⟩ => ⟨a0, a1, a2, a3⟩, fun ⟨a0, a1, a2, a3⟩ => ⟨a0, a1, a2, a3, trivial⟩⟩
  · exact fun l x => ((TOCSupplProvision.lawful (codecs_lawful n)).exact _ x).trans ⟨fun ⟨a0, a1,
      a2, _⟩ => ⟨a0, a1, a2⟩, fun ⟨a0, a1, a2⟩ => ⟨a0, a1, a2, trivial⟩⟩
  · exact fun j x => newtype_iff (TOCSupplProvisionContents.lawful (codecs_lawful n))
      (TOCArticle.lawful (codecs_lawful n)) rfl j
  · exact fun j x => newtype_iff (TOCSupplProvisionContents.lawful (codecs_lawful n))
      (TOCChapter.lawful (codecs_lawful n)) rfl j

/-- **C99.** The names of the fields and variants in `src/text.rs`. -/
theorem C99_names_text (n : Nat) :
    (∀ l (x : Text (lvl n)), (Text.codec (codecs n)).de (.obj l) = some x ↔
      Gives l "contents" ((Codec.list (TextElement.codec (codecs n))).ser x.contents)) ∧
    WritingMode.codec.de (.str "Vertical") = some .vertical ∧
    WritingMode.codec.de (.str "Horizontal") = some .horizontal ∧
    (∀ l (x : TextWithWritingMode (lvl n)), (TextWithWritingMode.codec (codecs n)).de (.obj l) =
      some x ↔
      Gives l "contents" ((Codec.list (TextElement.codec (codecs n))).ser x.contents) ∧
      Gives l "writing_mode" (WritingMode.codec.ser x.writing_mode)) ∧
    (∀ j x, (TextElement.codec (codecs n)).de (.obj [("Ruby", j)]) = some (.ruby x) ↔ (Ruby.codec
      (codecs n)).de j = some x) ∧
    (∀ j x, (TextElement.codec (codecs n)).de (.obj [("Line", j)]) = some (.line x) ↔ (Line.codec
      (codecs n)).de j = some x) ∧
    (∀ j x, (TextElement.codec (codecs n)).de (.obj [("Sup", j)]) = some (.sup x) ↔ Sup.codec.de j
      = some x) ∧
    (∀ j x, (TextElement.codec (codecs n)).de (.obj [("Sub", j)]) = some (.sub x) ↔ Sub.codec.de j
      = some x) ∧
    (∀ j x, (TextElement.codec (codecs n)).de (.obj [("Text", j)]) = some (.text x) ↔ Codec.str.de
      j = some x) ∧
    (∀ l (x : Ruby (lvl n)), (Ruby.codec (codecs n)).de (.obj l) = some x ↔
      Gives l "text" ((codecs n).text.ser x.text) ∧
      Gives l "ruby" (Codec.str.ser x.ruby)) ∧
    (∀ l (x : Sup), Sup.codec.de (.obj l) = some x ↔
      Gives l "text" (Codec.str.ser x.text)) ∧
    (∀ l (x : Sub), Sub.codec.de (.obj l) = some x ↔
      Gives l "text" (Codec.str.ser x.text)) := by
  refine ⟨?_, ?_, ?_, ?_, ?_, ?_, ?_, ?_, ?_, ?_, ?_, ?_⟩
  · exact fun l x => ((Text.lawful (codecs_lawful n)).exact _ x).trans ⟨fun ⟨a0, _⟩ => a0, fun a0
      => ⟨a0, trivial⟩⟩
  · exact (WritingMode.lawful.exact _ _).2 rfl
  · exact (WritingMode.lawful.exact _ _).2 rfl
  · exact fun l x => ((TextWithWritingMode.lawful (codecs_lawful n)).exact _ x).trans ⟨fun ⟨a0, a1,
      _⟩ => ⟨a0, a1⟩, fun ⟨a0, a1⟩ => ⟨a0, a1, trivial⟩⟩
  · exact fun j x => newtype_iff (TextElement.lawful (codecs_lawful n)) (Ruby.lawful (codecs_lawful
      n)) rfl j
  · exact fun j x => newtype_iff (TextElement.lawful (codecs_lawful n)) (Line.lawful (codecs_lawful
      n)) rfl j
  · exact fun j x => newtype_iff (TextElement.lawful (codecs_lawful n)) Sup.lawful rfl j
  · exact fun j x => newtype_iff (TextElement.lawful (codecs_lawful n)) Sub.lawful rfl j
  · exact fun j x => newtype_iff (TextElement.lawful (codecs_lawful n)) Lawful.str rfl j
  · exact fun l x => ((Ruby.lawful (codecs_lawful n)).exact _ x).trans ⟨fun ⟨a0, a1, _⟩ => ⟨a0,
      a1⟩, fun ⟨a0, a1⟩ => ⟨a0, a1, trivial⟩⟩
  · exact fun l x => (Sup.lawful.exact _ x).trans ⟨fun ⟨a0, _⟩ => a0, fun a0 => ⟨a0, trivial⟩⟩
  · exact fun l x => (Sub.lawful.exact _ x).trans ⟨fun ⟨a0, _⟩ => a0, fun a0 => ⟨a0, trivial⟩⟩

/-- **C99.** The names of the fields and variants in `src/utils.rs`. -/
theorem C99_names_utils :
    (∀ l (x : TextIndex), TextIndex.codec.de (.obj l) = some x ↔
      Gives l "paragraph" (ArticleNumber.codec.ser x.paragraph) ∧
      Gives l "items" ((Codec.list (Codec.option ArticleNumber.codec)).ser x.items)) := by
  exact fun l x => (TextIndex.lawful.exact _ x).trans ⟨fun ⟨a0, a1, _⟩ => ⟨a0, a1⟩, fun ⟨a0, a1⟩ => ⟨a0, a1, trivial⟩⟩

/-- A sentence given by hand. -/
example : (Sentence.codec (codecs 0)).de (.obj [("writing_mode", .str "Vertical"), ("num", .int 1),
    ("contents", .arr [.obj [("String", .str "甲")]]), ("function", .str "Proviso")]) =
    some ⟨[.string "甲"], some 1, some .proviso, none, .vertical⟩ := by with_unfolding_all rfl

/-- `Gives`, for a field that is there, one that is `None` and one that is not there. -/
example : Gives [("a", .int 1), ("b", .null)] "a" (.u64 1) ∧ Gives [("a", .int 1), ("b", .null)] "b" .none ∧
    Gives [("a", .int 1), ("b", .null)] "c" .none ∧ ¬ Gives [("a", .int 1), ("b", .null)] "c" (.u64 1) := by
  simp [Gives, given, Says]

end JLaw
