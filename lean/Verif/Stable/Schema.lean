import Verif.Stable.Fits

/-! # Written elements conform to the schema -/

namespace JLaw

open Spec

/-- What is written for the five types of `L` conforms to the schema. -/
structure Lvl.Outs (L : Lvl) : Prop where
  text : ∀ v, ∀ x ∈ L.textToChildren v, OutNode textTags x
  contents : ∀ v, ∀ x ∈ L.contentsToChildren v, OutNode contentsTags x
  item : ∀ v, Out ["Item"] (L.itemToXml v)
  column : ∀ v, Out ["TableColumn"] (L.columnToXml v)
  amend : ∀ v, Out ["AmendProvision"] (L.amendToXml v)

/-- Writers treated so far. -/
syntax "out_leaf" : tactic

macro_rules
  | `(tactic| out_leaf) => `(tactic| exact Lvl.Outs.item (by assumption) _)
macro_rules
  | `(tactic| out_leaf) => `(tactic| exact Lvl.Outs.column (by assumption) _)
macro_rules
  | `(tactic| out_leaf) => `(tactic| exact Lvl.Outs.amend (by assumption) _)

/-- Goes through the children of a written element. -/
macro "fits" : tactic => `(tactic| (
  try simp only [forms, List.append_assoc, List.cons_append, List.nil_append]
  repeat' with_reducible first
    | exact Fits.nil
    | exact OutNode.text _
    | assumption
    | exact Out.mem (by out_leaf) (by decide)
    | refine Fits.text ?_
    | refine Fits.one ?_ ?_
    | refine Fits.opt (fun _ => ?_) ?_
    | refine Fits.optIte ?_ ?_
    | refine Fits.many (fun _ => ?_) ?_
    | refine Fits.mixed (fun _ => ?_) ?_
    | refine OutNode.elem ?_
    | refine Fits.lastMap ?_))

/-- A written element with the only form for its tag. -/
macro "form" : tactic => `(tactic|
  (refine Out.mk _ _ (by rfl) (.head _) ?_ ?_; (· attrs); (· fits)))

variable {L : Lvl}

theorem Sup.out (x : Sup) : Out ["Sup"] x.toXml := by
  unfold Sup.toXml
  form

macro_rules
  | `(tactic| out_leaf) => `(tactic| exact Sup.out _)

theorem Sub.out (x : Sub) : Out ["Sub"] x.toXml := by
  unfold Sub.toXml
  form

macro_rules
  | `(tactic| out_leaf) => `(tactic| exact Sub.out _)

theorem rt_out (s : String) : Out ["Rt"] { name := "Rt", children := [.text s] } := by
  form

macro_rules
  | `(tactic| out_leaf) => `(tactic| exact rt_out _)

theorem Ruby.out (hL : L.Outs) (x : Ruby L) : Out ["Ruby"] x.toXml := by
  unfold Ruby.toXml
  refine Out.mk _ _ (by rfl) (.head _) (by attrs) (Fits.nodes (hL.text _) ?_)
  fits

macro_rules
  | `(tactic| out_leaf) => `(tactic| exact Ruby.out (by assumption) _)

theorem rawXml_out (hL : L.Outs) {t : String} (h : schema.lookup t = some [contentsForm])
    (x : L.Contents) : Out [t] (rawXml t x) :=
  Out.mk _ _ h (.head _) (by attrs) (Fits.last (Fits.nodes (hL.contents _) Fits.nil))

theorem QuoteStruct.out (hL : L.Outs) (x : QuoteStruct L) : Out ["QuoteStruct"] x.toXml :=
  rawXml_out hL rfl _

macro_rules
  | `(tactic| out_leaf) => `(tactic| exact QuoteStruct.out (by assumption) _)

theorem ArithFormula.out (hL : L.Outs) (x : ArithFormula L) : Out ["ArithFormula"] x.toXml :=
  rawXml_out hL rfl _

macro_rules
  | `(tactic| out_leaf) => `(tactic| exact ArithFormula.out (by assumption) _)

theorem LineContents.out (hL : L.Outs) (x : LineContents L) : OutNode inlineTags x.toNode := by
  cases x <;> simp only [LineContents.toNode] <;> fits

theorem Line.out (hL : L.Outs) (x : Line L) : Out ["Line"] x.toXml := by
  unfold Line.toXml
  refine Out.mk _ _ (by rfl) (.head _) ?_ (Fits.last (Fits.mixed (LineContents.out hL) Fits.nil))
  cases x.style <;> attrs

macro_rules
  | `(tactic| out_leaf) => `(tactic| exact Line.out (by assumption) _)

theorem TextElement.out (hL : L.Outs) (x : TextElement L) : OutNode textTags x.toNode := by
  cases x <;> simp only [TextElement.toNode] <;> fits

theorem Text.children_out (hL : L.Outs) (x : Text L) : ∀ y ∈ x.toChildren, OutNode textTags y := by
  intro y hy
  obtain ⟨v, -, rfl⟩ := List.mem_map.1 hy
  exact v.out hL

theorem Text.fits (hL : L.Outs) (x : Text L) : Fits [.mixed textTags] x.toChildren :=
  Fits.last (Fits.nodes (x.children_out hL) Fits.nil)

theorem Text.out (hL : L.Outs) (t : String) (x : Text L)
    (h : schema.lookup t = some [textForm]) : Out [t] (x.toXml t) :=
  Out.mk _ _ h (.head _) (by attrs) (x.fits hL)

/-- A text may also stand where the caption of an article stands. -/
theorem Text.out_caption (hL : L.Outs) (t : String) (x : Text L)
    (h : schema.lookup t = some [captionForm]) : Out [t] (x.toXml t) :=
  Out.mk _ _ h (.head _) ⟨by simp, by simp, by simp [captionForm, yesNo]⟩ (x.fits hL)

macro_rules
  | `(tactic| out_leaf) => `(tactic| exact Text.out (by assumption) _ _ (by assumption))
macro_rules
  | `(tactic| out_leaf) => `(tactic| exact Text.out_caption (by assumption) _ _ (by with_unfolding_all rfl))
macro_rules
  | `(tactic| out_leaf) => `(tactic| exact Text.out (by assumption) _ _ (by with_unfolding_all rfl))

theorem TextWithWritingMode.out (hL : L.Outs) (t : String) (x : TextWithWritingMode L)
    (h : schema.lookup t = some [directedForm]) : Out [t] (x.toXml t) := by
  unfold TextWithWritingMode.toXml
  refine Out.mk _ _ h (.head _) ?_ (Fits.last (Fits.mixed (TextElement.out hL) Fits.nil))
  cases x.writing_mode <;> simp only [directedForm, WritingMode.toAttr] <;> attrs

macro_rules
  | `(tactic| out_leaf) =>
    `(tactic| exact TextWithWritingMode.out (by assumption) _ _ (by assumption))
macro_rules
  | `(tactic| out_leaf) =>
    `(tactic| exact TextWithWritingMode.out (by assumption) _ _ (by with_unfolding_all rfl))

theorem SentenceElement.out (hL : L.Outs) (x : SentenceElement L) :
    OutNode ("Line" :: inlineTags) x.toNode := by
  cases x <;> simp only [SentenceElement.toNode] <;> fits

theorem Sentence.out (hL : L.Outs) (x : Sentence L) : Out ["Sentence"] x.toXml := by
  unfold Sentence.toXml
  refine Out.mk _ _ (by rfl) (.head _) ?_ (Fits.last (Fits.mixed (SentenceElement.out hL) Fits.nil))
  cases x.writing_mode <;> simp only [WritingMode.toAttr] <;> attrs

macro_rules
  | `(tactic| out_leaf) => `(tactic| exact Sentence.out (by assumption) _)

theorem Caption.out (hL : L.Outs) (t : String) (x : Caption L)
    (h : schema.lookup t = some [captionForm]) : Out [t] (x.toXml t) := by
  unfold Caption.toXml
  refine Out.mk _ _ h (.head _) ?_ (x.text.fits hL)
  attrs

macro_rules
  | `(tactic| out_leaf) => `(tactic| exact Caption.out (by assumption) _ _ (by with_unfolding_all rfl))

theorem Column.out (hL : L.Outs) (x : Column L) : Out ["Column"] x.toXml := by
  unfold Column.toXml
  form

macro_rules
  | `(tactic| out_leaf) => `(tactic| exact Column.out (by assumption) _)

theorem Fig.out (x : Fig) : Out ["Fig"] x.toXml := by
  unfold Fig.toXml
  form

macro_rules
  | `(tactic| out_leaf) => `(tactic| exact Fig.out _)

theorem RemarksContents.out (hL : L.Outs) (x : RemarksContents L) :
    Out ["Item", "Sentence"] x.toXml := by
  cases x <;> simp only [RemarksContents.toXml] <;> fits

macro_rules
  | `(tactic| out_leaf) => `(tactic| exact RemarksContents.out (by assumption) _)

theorem Remarks.out (hL : L.Outs) (x : Remarks L) : Out ["Remarks"] x.toXml := by
  unfold Remarks.toXml
  refine Out.mk _ _ (by rfl) (.head _) (by attrs)
    (Fits.last (Fits.many (RemarksContents.out hL) Fits.nil))

macro_rules
  | `(tactic| out_leaf) => `(tactic| exact Remarks.out (by assumption) _)

theorem TableHeaderRow.out (hL : L.Outs) (x : TableHeaderRow L) : Out ["TableHeaderRow"] x.toXml := by
  unfold TableHeaderRow.toXml
  form

macro_rules
  | `(tactic| out_leaf) => `(tactic| exact TableHeaderRow.out (by assumption) _)

theorem TableRow.out (hL : L.Outs) (x : TableRow L) : Out ["TableRow"] x.toXml := by
  unfold TableRow.toXml
  form

macro_rules
  | `(tactic| out_leaf) => `(tactic| exact TableRow.out (by assumption) _)

theorem Table.out (hL : L.Outs) (x : Table L) : Out ["Table"] x.toXml := by
  unfold Table.toXml
  refine Out.mk _ _ (by rfl) (.head _) ?_ (by fits)
  cases x.writing_mode <;> simp only [WritingMode.toAttr] <;> attrs

macro_rules
  | `(tactic| out_leaf) => `(tactic| exact Table.out (by assumption) _)

theorem SentenceOrColumnOrTable.out (hL : L.Outs) (t : String) (x : SentenceOrColumnOrTable L)
    (h : schema.lookup t = some itemSentenceForms) : Out [t] (x.toXml t) := by
  unfold SentenceOrColumnOrTable.toXml
  cases x with
  | column v => exact Out.mk _ _ h (.head _) (by attrs) (by
      simp only [SentenceOrColumnOrTable.toChildren]; fits)
  | sentence v => exact Out.mk _ _ h (.tail _ (.head _)) (by attrs) (by
      simp only [SentenceOrColumnOrTable.toChildren]; fits)
  | table v => exact Out.mk _ _ h (.tail _ (.tail _ (.head _))) (by attrs) (by
      simp only [SentenceOrColumnOrTable.toChildren]; fits)

macro_rules
  | `(tactic| out_leaf) =>
    `(tactic| exact SentenceOrColumnOrTable.out (by assumption) _ _ (by assumption))
macro_rules
  | `(tactic| out_leaf) =>
    `(tactic| exact SentenceOrColumnOrTable.out (by assumption) _ _ (by with_unfolding_all rfl))

theorem Style.out (hL : L.Outs) (x : Style L) : Out ["Style"] x.toXml := rawXml_out hL rfl _

macro_rules
  | `(tactic| out_leaf) => `(tactic| exact Style.out (by assumption) _)

theorem Note.out (hL : L.Outs) (x : Note L) : Out ["Note"] x.toXml := rawXml_out hL rfl _

macro_rules
  | `(tactic| out_leaf) => `(tactic| exact Note.out (by assumption) _)

theorem Format.out (hL : L.Outs) (x : Format L) : Out ["Format"] x.toXml := rawXml_out hL rfl _

macro_rules
  | `(tactic| out_leaf) => `(tactic| exact Format.out (by assumption) _)

theorem BodyStruct.out (hL : L.Outs) {τ β : Type} {tag titleTag bodyTag : String}
    {titleXml : τ → Element} {bodyXml : β → Element}
    (h : schema.lookup tag = some [structForm titleTag bodyTag])
    (h1 : ∀ t, Out [titleTag] (titleXml t)) (h2 : ∀ b, Out [bodyTag] (bodyXml b))
    (x : BodyStruct L τ β) : Out [tag] (BodyStruct.toXml tag titleXml bodyXml x) := by
  unfold BodyStruct.toXml
  refine Out.mk _ _ h (.head _) (by attrs) ?_
  simp only [structForm, List.append_assoc, List.cons_append, List.nil_append]
  exact Fits.opt h1 (Fits.many (Remarks.out hL) (Fits.one (h2 _) (Fits.last (Fits.many
    (Remarks.out hL) Fits.nil))))

theorem NoteStruct.out (hL : L.Outs) (x : NoteStruct L) : Out ["NoteStruct"] (NoteStruct.toXml x) :=
  BodyStruct.out hL rfl (fun t => Text.out hL _ t rfl) (Note.out hL) x

macro_rules
  | `(tactic| out_leaf) => `(tactic| exact NoteStruct.out (by assumption) _)

theorem StyleStruct.out (hL : L.Outs) (x : StyleStruct L) : Out ["StyleStruct"] (StyleStruct.toXml x) :=
  BodyStruct.out hL rfl (fun t => Text.out hL _ t rfl) (Style.out hL) x

macro_rules
  | `(tactic| out_leaf) => `(tactic| exact StyleStruct.out (by assumption) _)

theorem FormatStruct.out (hL : L.Outs) (x : FormatStruct L) : Out ["FormatStruct"] (FormatStruct.toXml x) :=
  BodyStruct.out hL rfl (fun t => Text.out hL _ t rfl) (Format.out hL) x

macro_rules
  | `(tactic| out_leaf) => `(tactic| exact FormatStruct.out (by assumption) _)

theorem FigStruct.out (hL : L.Outs) (x : FigStruct L) : Out ["FigStruct"] (FigStruct.toXml x) :=
  BodyStruct.out hL rfl (fun t => Text.out hL _ t rfl) (Fig.out) x

macro_rules
  | `(tactic| out_leaf) => `(tactic| exact FigStruct.out (by assumption) _)

theorem TableStruct.out (hL : L.Outs) (x : TableStruct L) : Out ["TableStruct"] (TableStruct.toXml x) :=
  BodyStruct.out hL rfl (fun t => TextWithWritingMode.out hL _ t rfl) (Table.out hL) x

macro_rules
  | `(tactic| out_leaf) => `(tactic| exact TableStruct.out (by assumption) _)

theorem ListSentence.out (hL : L.Outs) (x : ListSentence L) :
    Out ["Sentence", "Column"] x.toXml := by
  cases x <;> simp only [ListSentence.toXml] <;> fits

theorem listSentencesXml_out (hL : L.Outs) {t : String} (l : List (ListSentence L))
    (h : schema.lookup t = some [{ content := [.many ["Sentence", "Column"]] }]) :
    Out [t] (listSentencesXml t l) :=
  Out.mk _ _ h (.head _) (by attrs) (Fits.last (Fits.many (ListSentence.out hL) Fits.nil))

theorem ListOf.out (hL : L.Outs) {γ : Type} {tag sentTag kid : String} {childXml : γ → Element}
    (h : schema.lookup tag = some [listForm sentTag [kid]])
    (hs : schema.lookup sentTag = some [{ content := [.many ["Sentence", "Column"]] }])
    (hc : ∀ c, Out [kid] (childXml c)) (x : ListOf L γ) :
    Out [tag] (ListOf.toXml tag sentTag childXml x) :=
  Out.mk _ _ h (.head _) (by attrs) (Fits.one (listSentencesXml_out hL _ hs)
    (Fits.last (Fits.many hc Fits.nil)))

theorem Sublist3.out (hL : L.Outs) (x : Sublist3 L) : Out ["Sublist3"] x.toXml :=
  Out.mk _ _ rfl (.head _) (by attrs) (Fits.one (listSentencesXml_out hL _ rfl) Fits.nil)

theorem Sublist2.out (hL : L.Outs) (x : Sublist2 L) : Out ["Sublist2"] (Sublist2.toXml x) :=
  ListOf.out hL rfl rfl (Sublist3.out hL) x

theorem Sublist1.out (hL : L.Outs) (x : Sublist1 L) : Out ["Sublist1"] (Sublist1.toXml x) :=
  ListOf.out hL rfl rfl (Sublist2.out hL) x

theorem LawList.out (hL : L.Outs) (x : LawList L) : Out ["List"] (LawList.toXml x) :=
  ListOf.out hL rfl rfl (Sublist1.out hL) x

macro_rules
  | `(tactic| out_leaf) => `(tactic| exact LawList.out (by assumption) _)

theorem Struct.out (hL : L.Outs) (x : Struct L) : Out structTags x.toXml := by
  cases x <;> simp only [Struct.toXml] <;> fits

theorem ItemOf.out (hL : L.Outs) {γ : Type} {tag titleTag sentTag : String} {kids : List String}
    {childXml : γ → Element} (h : schema.lookup tag = some [itemForm titleTag sentTag kids])
    (ht : schema.lookup titleTag = some [textForm])
    (hs : schema.lookup sentTag = some itemSentenceForms)
    (hc : ∀ c, Out kids (childXml c)) (x : ItemOf L γ) :
    Out [tag] (ItemOf.toXml tag titleTag sentTag childXml x) := by
  unfold ItemOf.toXml
  refine Out.mk _ _ h (.head _) (by attrs) ?_
  simp only [itemForm, List.append_assoc, List.cons_append, List.nil_append]
  exact Fits.opt (fun t => t.out hL _ ht) (Fits.one (x.sentence.out hL _ hs)
    (Fits.many hc (Fits.last (Fits.many (Struct.out hL) Fits.nil))))

theorem Subitem10.out (hL : L.Outs) (x : Subitem10 L) : Out ["Subitem10"] (Subitem10.toXml x) :=
  ItemOf.out hL rfl rfl rfl (fun c => c.elim) x

macro_rules
  | `(tactic| out_leaf) => `(tactic| exact Subitem10.out (by assumption) _)

theorem Subitem9.out (hL : L.Outs) (x : Subitem9 L) : Out ["Subitem9"] (Subitem9.toXml x) :=
  ItemOf.out hL rfl rfl rfl (Subitem10.out hL) x

macro_rules
  | `(tactic| out_leaf) => `(tactic| exact Subitem9.out (by assumption) _)

theorem Subitem8.out (hL : L.Outs) (x : Subitem8 L) : Out ["Subitem8"] (Subitem8.toXml x) :=
  ItemOf.out hL rfl rfl rfl (Subitem9.out hL) x

macro_rules
  | `(tactic| out_leaf) => `(tactic| exact Subitem8.out (by assumption) _)

theorem Subitem7.out (hL : L.Outs) (x : Subitem7 L) : Out ["Subitem7"] (Subitem7.toXml x) :=
  ItemOf.out hL rfl rfl rfl (Subitem8.out hL) x

macro_rules
  | `(tactic| out_leaf) => `(tactic| exact Subitem7.out (by assumption) _)

theorem Subitem6.out (hL : L.Outs) (x : Subitem6 L) : Out ["Subitem6"] (Subitem6.toXml x) :=
  ItemOf.out hL rfl rfl rfl (Subitem7.out hL) x

macro_rules
  | `(tactic| out_leaf) => `(tactic| exact Subitem6.out (by assumption) _)

theorem Subitem5.out (hL : L.Outs) (x : Subitem5 L) : Out ["Subitem5"] (Subitem5.toXml x) :=
  ItemOf.out hL rfl rfl rfl (Subitem6.out hL) x

macro_rules
  | `(tactic| out_leaf) => `(tactic| exact Subitem5.out (by assumption) _)

theorem Subitem4.out (hL : L.Outs) (x : Subitem4 L) : Out ["Subitem4"] (Subitem4.toXml x) :=
  ItemOf.out hL rfl rfl rfl (Subitem5.out hL) x

macro_rules
  | `(tactic| out_leaf) => `(tactic| exact Subitem4.out (by assumption) _)

theorem Subitem3.out (hL : L.Outs) (x : Subitem3 L) : Out ["Subitem3"] (Subitem3.toXml x) :=
  ItemOf.out hL rfl rfl rfl (Subitem4.out hL) x

macro_rules
  | `(tactic| out_leaf) => `(tactic| exact Subitem3.out (by assumption) _)

theorem Subitem2.out (hL : L.Outs) (x : Subitem2 L) : Out ["Subitem2"] (Subitem2.toXml x) :=
  ItemOf.out hL rfl rfl rfl (Subitem3.out hL) x

macro_rules
  | `(tactic| out_leaf) => `(tactic| exact Subitem2.out (by assumption) _)

theorem Subitem1.out (hL : L.Outs) (x : Subitem1 L) : Out ["Subitem1"] (Subitem1.toXml x) :=
  ItemOf.out hL rfl rfl rfl (Subitem2.out hL) x

macro_rules
  | `(tactic| out_leaf) => `(tactic| exact Subitem1.out (by assumption) _)

theorem Item.out (hL : L.Outs) (x : Item L) : Out ["Item"] (Item.toXml x) :=
  ItemOf.out hL rfl rfl rfl (Subitem1.out hL) x

macro_rules
  | `(tactic| out_leaf) => `(tactic| exact Item.out (by assumption) _)

theorem Class.out (hL : L.Outs) (x : Class L) : Out ["Class"] x.toXml := by
  unfold Class.toXml
  form

macro_rules
  | `(tactic| out_leaf) => `(tactic| exact Class.out (by assumption) _)

theorem Paragraph.sentence_out (hL : L.Outs) (l : List (Sentence L)) :
    Out ["ParagraphSentence"] (Paragraph.sentenceXml l) := by
  unfold Paragraph.sentenceXml
  form

macro_rules
  | `(tactic| out_leaf) => `(tactic| exact Paragraph.sentence_out (by assumption) _)

theorem Paragraph.out (hL : L.Outs) (x : Paragraph L) : Out ["Paragraph"] x.toXml := by
  unfold Paragraph.toXml
  have hs : ∀ v : Struct L, Out structTags v.toXml := Struct.out hL
  refine Out.mk _ _ (by rfl) (.head _) (by attrs) ?_
  simp only [List.append_assoc, List.cons_append, List.nil_append]
  refine Fits.opt (fun _ => ?_) (Fits.one ?_ (Fits.one ?_ (Fits.many (fun _ => ?_)
    (Fits.many (fun _ => ?_) (Fits.many hs (Fits.last (Fits.many (fun _ => ?_) Fits.nil)))))))
  all_goals fits

macro_rules
  | `(tactic| out_leaf) => `(tactic| exact Paragraph.out (by assumption) _)

theorem Article.out (hL : L.Outs) (x : Article L) : Out ["Article"] x.toXml := by
  unfold Article.toXml
  form

macro_rules
  | `(tactic| out_leaf) => `(tactic| exact Article.out (by assumption) _)

theorem HierOf.out (hL : L.Outs) {γ : Type} {tag titleTag : String} {kids : List String}
    {childXml : γ → Element} (h : schema.lookup tag = some [unitForm titleTag kids])
    (ht : schema.lookup titleTag = some [textForm])
    (hc : ∀ c, Out kids (childXml c)) (x : HierOf L γ) :
    Out [tag] (HierOf.toXml tag titleTag childXml x) := by
  unfold HierOf.toXml
  exact Out.mk _ _ h (.head _) (by attrs)
    (Fits.one (x.title.out hL _ ht) (Fits.last (Fits.many hc Fits.nil)))

theorem Division.out (hL : L.Outs) (x : Division L) : Out ["Division"] (Division.toXml x) :=
  HierOf.out hL rfl rfl (Article.out hL) x

macro_rules
  | `(tactic| out_leaf) => `(tactic| exact Division.out (by assumption) _)

theorem SubsectionContents.out (hL : L.Outs) (x : SubsectionContents L) : Out ["Division", "Article"] x.toXml := by
  cases x <;> simp only [SubsectionContents.toXml] <;> fits

theorem Subsection.out (hL : L.Outs) (x : Subsection L) : Out ["Subsection"] (Subsection.toXml x) :=
  HierOf.out hL rfl rfl (SubsectionContents.out hL) x

macro_rules
  | `(tactic| out_leaf) => `(tactic| exact Subsection.out (by assumption) _)

theorem SectionContents.out (hL : L.Outs) (x : SectionContents L) : Out ["Subsection", "Article", "Division"] x.toXml := by
  cases x <;> simp only [SectionContents.toXml] <;> fits

theorem Section.out (hL : L.Outs) (x : Section L) : Out ["Section"] (Section.toXml x) :=
  HierOf.out hL rfl rfl (SectionContents.out hL) x

macro_rules
  | `(tactic| out_leaf) => `(tactic| exact Section.out (by assumption) _)

theorem ChapterContents.out (hL : L.Outs) (x : ChapterContents L) : Out ["Section", "Article"] x.toXml := by
  cases x <;> simp only [ChapterContents.toXml] <;> fits

theorem Chapter.out (hL : L.Outs) (x : Chapter L) : Out ["Chapter"] (Chapter.toXml x) :=
  HierOf.out hL rfl rfl (ChapterContents.out hL) x

macro_rules
  | `(tactic| out_leaf) => `(tactic| exact Chapter.out (by assumption) _)

theorem PartContents.out (hL : L.Outs) (x : PartContents L) : Out ["Chapter", "Article"] x.toXml := by
  cases x <;> simp only [PartContents.toXml] <;> fits

theorem Part.out (hL : L.Outs) (x : Part L) : Out ["Part"] (Part.toXml x) :=
  HierOf.out hL rfl rfl (PartContents.out hL) x

macro_rules
  | `(tactic| out_leaf) => `(tactic| exact Part.out (by assumption) _)

theorem TOCOf.out (hL : L.Outs) {γ : Type} {tag titleTag : String} {kids : List String}
    {childXml : γ → Element} (h : schema.lookup tag = some [tocForm titleTag kids])
    (ht : schema.lookup titleTag = some [textForm])
    (hc : ∀ c, Out kids (childXml c)) (x : TOCOf L γ) :
    Out [tag] (TOCOf.toXml tag titleTag childXml x) := by
  unfold TOCOf.toXml
  refine Out.mk _ _ h (.head _) (by attrs) ?_
  simp only [tocForm, List.cons_append, List.nil_append]
  exact Fits.one (x.title.out hL _ ht) (Fits.opt (fun t => t.out hL _ rfl)
    (Fits.last (Fits.many hc Fits.nil)))

theorem TOCDivision.out (hL : L.Outs) (x : TOCDivision L) :
    Out ["TOCDivision"] (TOCDivision.toXml x) :=
  TOCOf.out hL rfl rfl (fun c => c.elim) x

macro_rules
  | `(tactic| out_leaf) => `(tactic| exact TOCDivision.out (by assumption) _)

theorem TOCSubsection.out (hL : L.Outs) (x : TOCSubsection L) :
    Out ["TOCSubsection"] (TOCSubsection.toXml x) :=
  TOCOf.out hL rfl rfl (TOCDivision.out hL) x

macro_rules
  | `(tactic| out_leaf) => `(tactic| exact TOCSubsection.out (by assumption) _)

theorem TOCSectionContents.out (hL : L.Outs) (x : TOCSectionContents L) :
    Out ["TOCSubsection", "TOCDivision"] x.toXml := by
  cases x <;> simp only [TOCSectionContents.toXml] <;> fits

theorem TOCSection.out (hL : L.Outs) (x : TOCSection L) : Out ["TOCSection"] (TOCSection.toXml x) :=
  TOCOf.out hL rfl rfl (TOCSectionContents.out hL) x

macro_rules
  | `(tactic| out_leaf) => `(tactic| exact TOCSection.out (by assumption) _)

theorem TOCChapter.out (hL : L.Outs) (x : TOCChapter L) : Out ["TOCChapter"] (TOCChapter.toXml x) :=
  TOCOf.out hL rfl rfl (TOCSection.out hL) x

macro_rules
  | `(tactic| out_leaf) => `(tactic| exact TOCChapter.out (by assumption) _)

theorem TOCPart.out (hL : L.Outs) (x : TOCPart L) : Out ["TOCPart"] (TOCPart.toXml x) :=
  TOCOf.out hL rfl rfl (TOCChapter.out hL) x

macro_rules
  | `(tactic| out_leaf) => `(tactic| exact TOCPart.out (by assumption) _)

theorem TOCArticle.out (hL : L.Outs) (x : TOCArticle L) : Out ["TOCArticle"] x.toXml := by
  unfold TOCArticle.toXml
  form

macro_rules
  | `(tactic| out_leaf) => `(tactic| exact TOCArticle.out (by assumption) _)

theorem TOCSupplProvisionContents.out (hL : L.Outs) (x : TOCSupplProvisionContents L) :
    Out ["TOCArticle", "TOCChapter"] x.toXml := by
  cases x <;> simp only [TOCSupplProvisionContents.toXml] <;> fits

theorem TOCSupplProvision.out (hL : L.Outs) (x : TOCSupplProvision L) :
    Out ["TOCSupplProvision"] x.toXml := by
  unfold TOCSupplProvision.toXml
  refine Out.mk _ _ (by rfl) (.head _) (by attrs) ?_
  simp only [List.cons_append, List.nil_append]
  exact Fits.one (Text.out hL _ _ rfl) (Fits.opt (fun t => t.out hL _ rfl)
    (Fits.last (Fits.many (TOCSupplProvisionContents.out hL) Fits.nil)))

macro_rules
  | `(tactic| out_leaf) => `(tactic| exact TOCSupplProvision.out (by assumption) _)

theorem TOCMainContents.out (hL : L.Outs) (x : TOCMainContents L) :
    Out ["TOCPart", "TOCChapter", "TOCSection", "TOCArticle"] x.toXml := by
  cases x <;> simp only [TOCMainContents.toXml] <;> fits

theorem TOC.out (hL : L.Outs) (x : TOC L) : Out ["TOC"] x.toXml := by
  unfold TOC.toXml
  refine Out.mk _ _ (by rfl) (.head _) (by attrs) ?_
  simp only [List.append_assoc]
  exact Fits.opt (fun t => t.out hL _ rfl) (Fits.opt (fun t => t.out hL _ rfl)
    (Fits.many (TOCMainContents.out hL) (Fits.opt (TOCSupplProvision.out hL)
    (Fits.last (Fits.many (fun t => Text.out hL _ t rfl) Fits.nil)))))

macro_rules
  | `(tactic| out_leaf) => `(tactic| exact TOC.out (by assumption) _)

theorem AppdxOf.out (hL : L.Outs) {γ : Type} {tag titleTag : String} {kids : List String}
    {childXml : γ → Element} (h : schema.lookup tag = some [appdxForm titleTag kids])
    (ht : schema.lookup titleTag = some [directedForm])
    (hc : ∀ c, Out kids (childXml c)) (x : AppdxOf L γ) :
    Out [tag] (AppdxOf.toXml tag titleTag childXml x) := by
  unfold AppdxOf.toXml
  refine Out.mk _ _ h (.head _) (by attrs) ?_
  simp only [appdxForm, List.append_assoc]
  exact Fits.opt (fun t => t.out hL _ ht) (Fits.opt (fun t => t.out hL _ rfl)
    (Fits.many hc (Fits.last (Fits.opt (Remarks.out hL) Fits.nil))))

theorem AppdxTableContents.out (hL : L.Outs) (x : AppdxTableContents L) :
    Out ["TableStruct", "Item"] x.toXml := by
  cases x <;> simp only [AppdxTableContents.toXml] <;> fits

theorem AppdxTable.out (hL : L.Outs) (x : AppdxTable L) : Out ["AppdxTable"] (AppdxTable.toXml x) :=
  AppdxOf.out hL rfl rfl (AppdxTableContents.out hL) x

macro_rules
  | `(tactic| out_leaf) => `(tactic| exact AppdxTable.out (by assumption) _)

theorem AppdxNoteContents.out (hL : L.Outs) (x : AppdxNoteContents L) :
    Out ["TableStruct", "FigStruct", "NoteStruct"] x.toXml := by
  cases x <;> simp only [AppdxNoteContents.toXml] <;> fits

theorem AppdxNote.out (hL : L.Outs) (x : AppdxNote L) : Out ["AppdxNote"] (AppdxNote.toXml x) :=
  AppdxOf.out hL rfl rfl (AppdxNoteContents.out hL) x

macro_rules
  | `(tactic| out_leaf) => `(tactic| exact AppdxNote.out (by assumption) _)

theorem AppdxStyle.out (hL : L.Outs) (x : AppdxStyle L) : Out ["AppdxStyle"] (AppdxStyle.toXml x) :=
  AppdxOf.out hL rfl rfl (StyleStruct.out hL) x

macro_rules
  | `(tactic| out_leaf) => `(tactic| exact AppdxStyle.out (by assumption) _)

theorem AppdxFormat.out (hL : L.Outs) (x : AppdxFormat L) : Out ["AppdxFormat"] (AppdxFormat.toXml x) :=
  AppdxOf.out hL rfl rfl (FormatStruct.out hL) x

macro_rules
  | `(tactic| out_leaf) => `(tactic| exact AppdxFormat.out (by assumption) _)

theorem Appdx.out (hL : L.Outs) (x : Appdx L) : Out ["Appdx"] x.toXml := by
  unfold Appdx.toXml
  form

macro_rules
  | `(tactic| out_leaf) => `(tactic| exact Appdx.out (by assumption) _)

theorem AppdxFigContents.out (hL : L.Outs) (x : AppdxFigContents L) :
    Out ["TableStruct", "FigStruct"] x.toXml := by
  cases x <;> simp only [AppdxFigContents.toXml] <;> fits

theorem AppdxFig.out (hL : L.Outs) (x : AppdxFig L) : Out ["AppdxFig"] x.toXml := by
  unfold AppdxFig.toXml
  refine Out.mk _ _ (by rfl) (.head _) (by attrs) ?_
  simp only [List.append_assoc]
  exact Fits.opt (fun t => t.out hL _ rfl) (Fits.opt (fun t => t.out hL _ rfl)
    (Fits.last (Fits.many (AppdxFigContents.out hL) Fits.nil)))

macro_rules
  | `(tactic| out_leaf) => `(tactic| exact AppdxFig.out (by assumption) _)

theorem SupplAppdxOf.out (hL : L.Outs) {γ : Type} {tag titleTag : String} {kids : List String}
    {structXml : γ → Element} (h : schema.lookup tag = some [supplAppdxForm titleTag kids])
    (ht : schema.lookup titleTag = some [directedForm])
    (hc : ∀ c, Out kids (structXml c)) (x : SupplAppdxOf L γ) :
    Out [tag] (SupplAppdxOf.toXml tag titleTag structXml x) := by
  unfold SupplAppdxOf.toXml
  refine Out.mk _ _ h (.head _) (by attrs) ?_
  simp only [supplAppdxForm, List.cons_append, List.nil_append]
  exact Fits.one (x.title.out hL _ ht) (Fits.opt (fun t => t.out hL _ rfl)
    (Fits.last (Fits.many hc Fits.nil)))

theorem SupplProvisionAppdxTable.out (hL : L.Outs) (x : SupplProvisionAppdxTable L) :
    Out ["SupplProvisionAppdxTable"] (SupplProvisionAppdxTable.toXml x) :=
  SupplAppdxOf.out hL rfl rfl (TableStruct.out hL) x

macro_rules
  | `(tactic| out_leaf) => `(tactic| exact SupplProvisionAppdxTable.out (by assumption) _)

theorem SupplProvisionAppdxStyle.out (hL : L.Outs) (x : SupplProvisionAppdxStyle L) :
    Out ["SupplProvisionAppdxStyle"] (SupplProvisionAppdxStyle.toXml x) :=
  SupplAppdxOf.out hL rfl rfl (StyleStruct.out hL) x

macro_rules
  | `(tactic| out_leaf) => `(tactic| exact SupplProvisionAppdxStyle.out (by assumption) _)

theorem SupplProvisionAppdx.out (hL : L.Outs) (x : SupplProvisionAppdx L) :
    Out ["Appdx"] x.toXml := by
  unfold SupplProvisionAppdx.toXml
  exact Out.mk _ _ rfl (.tail _ (.head _)) (by attrs) (by fits)

macro_rules
  | `(tactic| out_leaf) => `(tactic| exact SupplProvisionAppdx.out (by assumption) _)

theorem SupplProvisionChildrenElement.out (hL : L.Outs) (x : SupplProvisionChildrenElement L) :
    Out ["Chapter", "Article", "Paragraph", "SupplProvisionAppdxTable",
      "SupplProvisionAppdxStyle", "Appdx"] x.toXml := by
  cases x <;> simp only [SupplProvisionChildrenElement.toXml] <;> fits

theorem SupplProvision.out (hL : L.Outs) (x : SupplProvision L) :
    Out ["SupplProvision"] x.toXml := by
  unfold SupplProvision.toXml
  exact Out.mk _ _ rfl (.head _) (by attrs) (Fits.optIte (Text.out hL _ _ rfl)
    (Fits.last (Fits.many (SupplProvisionChildrenElement.out hL) Fits.nil)))

macro_rules
  | `(tactic| out_leaf) => `(tactic| exact SupplProvision.out (by assumption) _)

theorem LawTitle.out (hL : L.Outs) (x : LawTitle L) : Out ["LawTitle"] x.toXml := by
  unfold LawTitle.toXml
  exact Out.mk _ _ rfl (.head _) (by attrs) (x.text.fits hL)

macro_rules
  | `(tactic| out_leaf) => `(tactic| exact LawTitle.out (by assumption) _)

theorem Preamble.out (hL : L.Outs) (x : Preamble L) : Out ["Preamble"] x.toXml := by
  unfold Preamble.toXml
  form

macro_rules
  | `(tactic| out_leaf) => `(tactic| exact Preamble.out (by assumption) _)

theorem MainProvisionContents.out (hL : L.Outs) (x : MainProvisionContents L) :
    Out ["Part", "Chapter", "Section", "Article", "Paragraph"] x.toXml := by
  cases x <;> simp only [MainProvisionContents.toXml] <;> fits

theorem MainProvision.out (hL : L.Outs) (x : MainProvision L) : Out ["MainProvision"] x.toXml := by
  unfold MainProvision.toXml
  exact Out.mk _ _ rfl (.head _) (by attrs)
    (Fits.last (Fits.many (MainProvisionContents.out hL) Fits.nil))

macro_rules
  | `(tactic| out_leaf) => `(tactic| exact MainProvision.out (by assumption) _)

theorem LawBody.out (hL : L.Outs) (x : LawBody L) : Out ["LawBody"] x.toXml := by
  unfold LawBody.toXml
  form

macro_rules
  | `(tactic| out_leaf) => `(tactic| exact LawBody.out (by assumption) _)

theorem lawNum_out (s : String) : Out ["LawNum"] { name := "LawNum", children := [.text s] } := by
  form

macro_rules
  | `(tactic| out_leaf) => `(tactic| exact lawNum_out _)

theorem Law.out (hL : L.Outs) (x : Law L) : Out ["Law"] x.toXml := by
  unfold Law.toXml
  refine Out.mk _ _ (by rfl) (.head _) ?_ (by fits)
  attrs

theorem TableColumnContents.out (hL : L.Outs) (x : TableColumnContents L) :
    OutNode cellTags x.toNode := by
  cases x <;> simp only [TableColumnContents.toNode] <;> fits

theorem TableColumn.out (hL : L.Outs) (x : TableColumn L) : Out ["TableColumn"] x.toXml := by
  unfold TableColumn.toXml
  refine Out.mk _ _ (by rfl) (.head _) ?_
    (Fits.last (Fits.mixed (TableColumnContents.out hL) Fits.nil))
  attrs

macro_rules
  | `(tactic| out_leaf) => `(tactic| exact TableColumn.out (by assumption) _)

theorem ContentsElement.out (hL : L.Outs) (x : ContentsElement L) :
    OutNode contentsTags x.toNode := by
  cases x <;> simp only [ContentsElement.toNode] <;> fits

theorem NewProvision.out (hL : L.Outs) (x : NewProvision L) : Out provisionTags x.toXml := by
  cases x <;> simp only [NewProvision.toXml] <;> fits

theorem AmendProvision.wrap_out {e : Element} (h : Out provisionTags e) :
    Out ["AmendProvisionSentence"] (AmendProvision.wrap e) :=
  Out.mk _ _ rfl (.head _) (by attrs) (Fits.one h Fits.nil)

theorem AmendProvision.out (hL : L.Outs) (x : AmendProvision L) :
    Out ["AmendProvision"] x.toXml := by
  refine Out.mk _ _ rfl (.head _) (by attrs) (Fits.opt (fun s => wrap_out ?_)
    (Fits.last (Fits.many (fun p => wrap_out (p.out hL)) Fits.nil)))
  fits

theorem Lvl.Outs.zero : Lvl.zero.Outs :=
  ⟨fun v => v.elim, fun v => v.elim, fun v => v.elim, fun v => v.elim, fun v => v.elim⟩

theorem Lvl.Outs.succ (hL : L.Outs) : L.succ.Outs where
  text := Text.children_out hL
  contents v x hx := by
    obtain ⟨y, -, rfl⟩ := List.mem_map.1 hx
    exact y.out hL
  item := Item.out hL
  column := TableColumn.out hL
  amend := AmendProvision.out hL

theorem lvl_outs : ∀ n, (lvl n).Outs
  | 0 => .zero
  | n + 1 => (lvl_outs n).succ

end JLaw
