import Verif.Props.RoundTrip
import Verif.Reading.Fails

/-!
# C31, C32: tags of elements and of their children

The expected tags are spelt out here; nothing is taken from the tables of the model.
-/

namespace JLaw

/-! ## C31: wrong tags -/

/-- `p` rejects every element whose tag is not `tag`, with an error that names the tag found and
`shown`. -/
def Rejects {α : Type} (p : Element → Res α) (tag shown : String) : Prop :=
  ∀ e, e.name ≠ tag → p e = .err (.wrongTagName e.name shown)

/-- C31 for texts, tables, structures, lists, items, paragraphs and articles. -/
theorem C31_text_and_articles (n : Nat) :
    Rejects (Ruby.parser (L := lvl n)) "Ruby" "Ruby" ∧
    Rejects (Line.parser (L := lvl n)) "Line" "Line" ∧
    Rejects (Sentence.parser (L := lvl n)) "Sentence" "Sentence" ∧
    Rejects (Column.parser (L := lvl n)) "Column" "Column" ∧
    Rejects (RemarksLabel.parser (L := lvl n)) "RemarksLabel" "RemarksLabel" ∧
    Rejects (Remarks.parser (L := lvl n)) "Remarks" "Remarks" ∧
    Rejects (TableHeaderRow.parser (L := lvl n)) "TableHeaderRow" "TableHeaderRow" ∧
    Rejects (TableRow.parser (L := lvl n)) "TableRow" "TableRow" ∧
    Rejects (Table.parser (L := lvl n)) "Table" "Table" ∧
    Rejects (NoteStruct.parser (L := lvl n)) "NoteStruct" "NoteStruct" ∧
    Rejects (StyleStruct.parser (L := lvl n)) "StyleStruct" "StyleStruct" ∧
    Rejects (FormatStruct.parser (L := lvl n)) "FormatStruct" "FormatStruct" ∧
    Rejects (FigStruct.parser (L := lvl n)) "FigStruct" "FigStruct" ∧
    Rejects (TableStruct.parser (L := lvl n)) "TableStruct" "TableStruct" ∧
    Rejects (LawList.parser (L := lvl n)) "List" "List" ∧
    Rejects (Sublist1.parser (L := lvl n)) "Sublist1" "Sublist1" ∧
    Rejects (Sublist2.parser (L := lvl n)) "Sublist2" "Sublist2" ∧
    Rejects (Sublist3.parser (L := lvl n)) "Sublist3" "Sublist3" ∧
    Rejects (Item.parser (L := lvl n)) "Item" "Item" ∧
    Rejects (Subitem1.parser (L := lvl n)) "Subitem1" "Subitem1" ∧
    Rejects (Subitem2.parser (L := lvl n)) "Subitem2" "Subitem2" ∧
    Rejects (Subitem3.parser (L := lvl n)) "Subitem3" "Subitem3" ∧
    Rejects (Subitem4.parser (L := lvl n)) "Subitem4" "Subitem4" ∧
    Rejects (Subitem5.parser (L := lvl n)) "Subitem5" "Subitem5" ∧
    Rejects (Subitem6.parser (L := lvl n)) "Subitem6" "Subitem6" ∧
    Rejects (Subitem7.parser (L := lvl n)) "Subitem7" "Subitem7" ∧
    Rejects (Subitem8.parser (L := lvl n)) "Subitem8" "Subitem8" ∧
    Rejects (Subitem9.parser (L := lvl n)) "Subitem9" "Subitem9" ∧
    Rejects (Subitem10.parser (L := lvl n)) "Subitem10" "Subitem10" ∧
    Rejects (Class.parser (L := lvl n)) "Class" "Class" ∧
    Rejects (Paragraph.parser (L := lvl n)) "Paragraph" "Paragraph" ∧
    Rejects (Article.parser (L := lvl n)) "Article" "Article" ∧
    Rejects (Part.parser (L := lvl n)) "Part" "Part" ∧
    Rejects (Chapter.parser (L := lvl n)) "Chapter" "Chapter" ∧
    Rejects (Section.parser (L := lvl n)) "Section" "Section" ∧
    Rejects (Subsection.parser (L := lvl n)) "Subsection" "Subsection" ∧
    Rejects (Division.parser (L := lvl n)) "Division" "Division" :=
  ⟨fun _ h => if_neg h, fun _ h => if_neg h, fun _ h => if_neg h, fun _ h => if_neg h,
    fun _ h => if_neg h, fun _ h => if_neg h, fun _ h => if_neg h, fun _ h => if_neg h,
    fun _ h => if_neg h, fun _ h => if_neg h, fun _ h => if_neg h, fun _ h => if_neg h,
    fun _ h => if_neg h, fun _ h => if_neg h, fun _ h => if_neg h, fun _ h => if_neg h,
    fun _ h => if_neg h, fun _ h => if_neg h, fun _ h => if_neg h, fun _ h => if_neg h,
    fun _ h => if_neg h, fun _ h => if_neg h, fun _ h => if_neg h, fun _ h => if_neg h,
    fun _ h => if_neg h, fun _ h => if_neg h, fun _ h => if_neg h, fun _ h => if_neg h,
    fun _ h => if_neg h, fun _ h => if_neg h, fun _ h => if_neg h, fun _ h => if_neg h,
    fun _ h => if_neg h, fun _ h => if_neg h, fun _ h => if_neg h, fun _ h => if_neg h,
    fun _ h => if_neg h⟩

/-- C31 for tables of contents, appendices, supplementary provisions, the law and its parts. Five
readers show a misspelt tag in the error. -/
theorem C31_rest (n : Nat) :
    Rejects (TOC.parser (L := lvl n)) "TOC" "TOC" ∧
    Rejects (TOCPart.parser (L := lvl n)) "TOCPart" "TOCPart" ∧
    Rejects (TOCChapter.parser (L := lvl n)) "TOCChapter" "TOCChapter" ∧
    Rejects (TOCSection.parser (L := lvl n)) "TOCSection" "TOCSection" ∧
    Rejects (TOCSubsection.parser (L := lvl n)) "TOCSubsection" "TOCSubsection" ∧
    Rejects (TOCDivision.parser (L := lvl n)) "TOCDivision" "TOCDivision" ∧
    Rejects (TOCArticle.parser (L := lvl n)) "TOCArticle" "TOCArticle" ∧
    Rejects (TOCSupplProvision.parser (L := lvl n)) "TOCSupplProvision" "TOCSupplProbision" ∧
    Rejects (AppdxTable.parser (L := lvl n)) "AppdxTable" "AppdxTable" ∧
    Rejects (AppdxNote.parser (L := lvl n)) "AppdxNote" "AppdxNote" ∧
    Rejects (AppdxStyle.parser (L := lvl n)) "AppdxStyle" "AppdxStyle" ∧
    Rejects (AppdxFormat.parser (L := lvl n)) "AppdxFormat" "AppdxFormat" ∧
    Rejects (Appdx.parser (L := lvl n)) "Appdx" "Appdx" ∧
    Rejects (AppdxFig.parser (L := lvl n)) "AppdxFig" "AppdxFig" ∧
    Rejects (SupplProvision.parser (L := lvl n)) "SupplProvision" "SupplProbision" ∧
    Rejects (SupplProvisionAppdxTable.parser (L := lvl n)) "SupplProvisionAppdxTable" "SupplProbisionAppdxTable" ∧
    Rejects (SupplProvisionAppdxStyle.parser (L := lvl n)) "SupplProvisionAppdxStyle" "SupplProbisionAppdxStyle" ∧
    Rejects (SupplProvisionAppdx.parser (L := lvl n)) "SupplProvisionAppdx" "SupplProbisionAppdx" ∧
    Rejects (LawTitle.parser (L := lvl n)) "LawTitle" "LawTitle" ∧
    Rejects (Preamble.parser (L := lvl n)) "Preamble" "Preamble" ∧
    Rejects (MainProvision.parser (L := lvl n)) "MainProvision" "MainProvision" ∧
    Rejects (LawBody.parser (L := lvl n)) "LawBody" "LawBody" ∧
    Rejects (Law.parser (L := lvl n)) "Law" "Law" ∧
    Rejects (TableColumn.parser (L := lvl n)) "TableColumn" "TableColumn" ∧
    Rejects (AmendProvision.parser (L := lvl n)) "AmendProvision" "AmendProvision" :=
  ⟨fun _ h => if_neg h, fun _ h => if_neg h, fun _ h => if_neg h, fun _ h => if_neg h,
    fun _ h => if_neg h, fun _ h => if_neg h, fun _ h => if_neg h, fun _ h => if_neg h,
    fun _ h => if_neg h, fun _ h => if_neg h, fun _ h => if_neg h, fun _ h => if_neg h,
    fun _ h => if_neg h, fun _ h => if_neg h, fun _ h => if_neg h, fun _ h => if_neg h,
    fun _ h => if_neg h, fun _ h => if_neg h, fun _ h => if_neg h, fun _ h => if_neg h,
    fun _ h => if_neg h, fun _ h => if_neg h, fun _ h => if_neg h, fun _ h => if_neg h,
    fun _ h => if_neg h⟩

/-- C31 for superscripts and subscripts. -/
theorem C31_sup_sub : Rejects Sup.parser "Sup" "Sup" ∧ Rejects Sub.parser "Sub" "Sub" :=
  ⟨fun _ h => if_neg h, fun _ h => if_neg h⟩

/-- `p` reads an element in the same way whatever its tag is. -/
def TagBlind {α : Type} (p : Element → Res α) : Prop :=
  ∀ (t t' : String) (a : Attrs) (c : List XMLNode) (v : α), p ⟨t, a, c⟩ = .ok v → p ⟨t', a, c⟩ = .ok v

theorem TagBlind.attr {α β : Type} {f : String → Option α} {k : String}
    {g : Element → Option α → Res β}
    (hg : ∀ x, TagBlind fun e => g e x) :
    TagBlind fun e => (getAttributeOptWithParse f e k).bind (g e) := by
  intro t t' a c v hv
  obtain ⟨x, hx, hv⟩ := Res.bind_eq_ok.1 hv
  refine Res.bind_eq_ok.2 ⟨x, ?_, hg x t t' a c v hv⟩
  unfold getAttributeOptWithParse at hx ⊢
  simp only at hx ⊢
  split at hx
  · split at hx
    · next h1 _ h2 => simp_all
    · cases hx
  · next h1 => simp_all

theorem collectRes_mono {α β : Type} {f g : α → Res (List β)} (l : List α)
    (h : ∀ a ∈ l, ∀ v, f a = .ok v → g a = .ok v) (v : List β) (hv : collectRes f l = .ok v) :
    collectRes g l = .ok v := by
  induction l generalizing v with
  | nil => exact hv
  | cons a l ih =>
    obtain ⟨x, hx, hv⟩ := Res.bind_eq_ok.1 hv
    obtain ⟨y, hy, hv⟩ := Res.bind_eq_ok.1 hv
    exact Res.bind_eq_ok.2 ⟨x, h a (by simp) x hx, Res.bind_eq_ok.2
      ⟨y, ih (fun b hb => h b (by simp [hb])) y hy, hv⟩⟩

theorem matchTag_mono {α : Type} {arms : List (String × (Element → Res α))}
    {d d' : Element → Res α} {x : Element} (h : (d x).Fails) (v : α)
    (hv : matchTag arms d x = .ok v) : matchTag arms d' x = .ok v := by
  induction arms with
  | nil => exact absurd hv (h v)
  | cons b arms ih =>
    rw [matchTag_cons] at hv ⊢
    split at hv
    · next hb => rw [if_pos hb]; exact hv
    · next hb => rw [if_neg hb]; exact ih hv

theorem contents_tagBlind (n : Nat) : TagBlind (lvl n).contentsParser := by
  cases n with
  | zero => intro t t' a c v hv; cases hv
  | succ n =>
    intro t t' a c v hv
    obtain ⟨x, hx, hv⟩ := Res.bind_eq_ok.1 hv
    refine Res.bind_eq_ok.2 ⟨x, collectRes_mono _ (fun y _ w hw => ?_) _ hx, hv⟩
    cases y with
    | element m b d =>
      obtain ⟨z, hz, hw⟩ := Res.bind_eq_ok.1 hw
      exact Res.bind_eq_ok.2 ⟨z, matchTag_mono (Fails.unexpected _ _) _ hz, hw⟩
    | _ => exact hw

theorem TagBlind.bind {α β : Type} {p : Element → Res α} (h : TagBlind p) (g : α → Res β) :
    TagBlind fun e => (p e).bind g := by
  intro t t' a c v hv
  obtain ⟨x, hx, hv⟩ := Res.bind_eq_ok.1 hv
  exact Res.bind_eq_ok.2 ⟨x, h t t' a c x hx, hv⟩

/-- The exceptions: captions, figures, titles with a writing mode, and the elements with raw
contents are read whatever their tag is. -/
theorem C31_tag_not_looked_at (n : Nat) :
    TagBlind (Caption.parser (L := lvl n)) ∧ TagBlind Fig.parser ∧
    TagBlind (TextWithWritingMode.parser (L := lvl n)) ∧
    TagBlind (QuoteStruct.parser (L := lvl n)) ∧ TagBlind (ArithFormula.parser (L := lvl n)) ∧
    TagBlind (Style.parser (L := lvl n)) ∧ TagBlind (Note.parser (L := lvl n)) ∧
    TagBlind (Format.parser (L := lvl n)) := by
  refine ⟨?_, ?_, ?_, (contents_tagBlind n).bind _, ?_, (contents_tagBlind n).bind _,
    (contents_tagBlind n).bind _, (contents_tagBlind n).bind _⟩
  · intro t t' a c v hv
    obtain ⟨x, hx, hv⟩ := Res.bind_eq_ok.1 hv
    have := TagBlind.attr (f := parseBool) (k := "CommonCaption")
      (g := fun _ y => (.ok ⟨x, y⟩ : Res (Caption (lvl n)))) (fun _ _ _ _ _ _ h => h) t t' a c v hv
    exact Res.bind_eq_ok.2 ⟨x, hx, this⟩
  · intro t t' a c v hv; exact hv
  · intro t t' a c v hv; exact hv
  · exact TagBlind.attr fun x => (contents_tagBlind n).bind _

/-- A chapter is not read as a part, and an element `Sup` not as a `Sub`. -/
example : Part.parser (L := lvl 3) ⟨"Chapter", [("Num", "1")], []⟩ =
    .err (.wrongTagName "Chapter" "Part") :=
  (C31_text_and_articles 3).2.2.2.2.2.2.2.2.2.2.2.2.2.2.2.2.2.2.2.2.2.2.2.2.2.2.2.2.2.2.2.2.1 _
    (by decide)

/-! ## C32: foreign children -/

/-- `p` gives no value for an element with a child element whose tag is not in `tags`. -/
def Closed {α : Type} (p : Element → Res α) (tags : List String) : Prop :=
  ∀ e x : Element, x.node ∈ e.children → x.name ∉ tags → ∀ v, p e ≠ .ok v

theorem Fails.itemOf {L : Lvl} {γ : Type} {tag titleTag sentTag : String}
    {arms : List (String × (Element → Res γ))} {e x : Element} (hx : x.node ∈ e.children)
    (hn : x.name ∉ titleTag :: sentTag :: ["TableStruct", "FigStruct", "StyleStruct", "List"] ++
      arms.map Prod.fst) :
    (ItemOf.parser (L := L) tag titleTag sentTag arms e).Fails := by
  refine Fails.ite ?_ (Fails.err _)
  refine Fails.bind_right fun _ => Fails.bind_right fun _ => Fails.bind_right fun _ =>
    Fails.bind_left (Fails.forElems hx (fun _ => ?_) _)
  refine Fails.matchTag (by not_tag hn) (Fails.matchTag ?_ (Fails.unexpected _ _))
  rw [Fails.childArms_fst]
  exact fun h => hn (List.mem_append_right _ h)

theorem Fails.tocOf {L : Lvl} {γ : Type} {tag titleTag : String}
    {arms : List (String × (Element → Res γ))} {e x : Element} (hx : x.node ∈ e.children)
    (hn : x.name ∉ titleTag :: "ArticleRange" :: arms.map Prod.fst) :
    (TOCOf.parser (L := L) tag titleTag arms e).Fails := by
  refine Fails.ite ?_ (Fails.err _)
  refine Fails.bind_right fun _ => Fails.bind_right fun _ =>
    Fails.bind_left (Fails.forElems hx (fun _ => ?_) _)
  refine Fails.matchTag (by not_tag hn) (Fails.matchTag ?_ (Fails.unexpected _ _))
  rw [Fails.childArms_fst]
  exact fun h => hn (by simp [h])

theorem Fails.appdxOf {L : Lvl} {γ : Type} {tag titleTag : String}
    {arms : List (String × (Element → Res γ))} {e x : Element} (hx : x.node ∈ e.children)
    (hn : x.name ∉ titleTag :: "RelatedArticleNum" :: "Remarks" :: arms.map Prod.fst) :
    (AppdxOf.parser (L := L) tag titleTag arms e).Fails := by
  refine Fails.ite ?_ (Fails.err _)
  refine Fails.bind_right fun _ =>
    Fails.bind_left (Fails.forElems hx (fun _ => ?_) _)
  refine Fails.matchTag (by not_tag hn) (Fails.matchTag ?_ (Fails.unexpected _ _))
  rw [Fails.childArms_fst]
  exact fun h => hn (by simp [h])

theorem Fails.hierOf {L : Lvl} {γ : Type} {tag titleTag : String}
    {arms : List (String × (Element → Res γ))} {e x : Element} (hx : x.node ∈ e.children)
    (hn : x.name ∉ titleTag :: arms.map Prod.fst) :
    (HierOf.parser (L := L) tag titleTag arms e).Fails := by
  refine Fails.ite ?_ (Fails.err _)
  refine Fails.bind_right fun _ => Fails.bind_right fun _ => Fails.bind_right fun _ => ?_
  cases hc : e.children with
  | nil => rw [hc] at hx; cases hx
  | cons y c =>
    rw [hc] at hx
    cases hx with
    | head =>
      refine Fails.bind_left ?_
      unfold HierOf.titleOf
      rw [hc]
      simp only [Element.node]
      rw [if_neg fun h => hn (by simp [h])]
      exact Fails.err _
    | tail _ hx =>
      exact Fails.bind_right fun _ => Fails.bind_left (Fails.readAll hx
        (Fails.matchTag (fun h => hn (List.mem_cons_of_mem _ h)) (Fails.unexpected _ _)))

theorem Fails.listOf {L : Lvl} {γ : Type} {tag sentTag errName : String} {childP : Element → Res γ}
    {e x : Element} (hx : x.node ∈ e.children) (hn : x.name ≠ sentTag) (hp : (childP x).Fails) :
    (ListOf.parser (L := L) tag sentTag errName childP e).Fails := by
  refine Fails.ite ?_ (Fails.err _)
  cases hc : e.children with
  | nil => rw [hc] at hx; cases hx
  | cons y c =>
    rw [hc] at hx
    cases hx with
    | head =>
      refine Fails.bind_left ?_
      unfold listSentences
      rw [hc]
      simp only [Element.node]
      rw [if_neg hn]
      exact Fails.err _
    | tail _ hx =>
      exact Fails.bind_right fun _ => Fails.bind_left (Fails.readAll hx hp)

theorem C32_line (n : Nat) : Closed (Line.parser (L := lvl n))
    ["QuoteStruct", "ArithFormula", "Ruby", "Sup", "Sub"] := by
  intro e x hx hn
  fails hx, hn

theorem C32_sentence (n : Nat) : Closed (Sentence.parser (L := lvl n))
    ["Line", "QuoteStruct", "ArithFormula", "Ruby", "Sup", "Sub"] := by
  intro e x hx hn
  fails hx, hn

theorem C32_column (n : Nat) : Closed (Column.parser (L := lvl n))
    ["Sentence"] := by
  intro e x hx hn
  fails hx, hn
  rw [Sentence.parser, if_neg (by not_tag hn)]
  exact Fails.err _

theorem C32_remarks (n : Nat) : Closed (Remarks.parser (L := lvl n))
    ["RemarksLabel", "Item", "Sentence"] := by
  intro e x hx hn
  fails hx, hn

theorem C32_table (n : Nat) : Closed (Table.parser (L := lvl n))
    ["TableHeaderRow", "TableRow"] := by
  intro e x hx hn
  fails hx, hn

/-- The sentences of an item or a class. -/
theorem C32_sentence_or_column_or_table (n : Nat) : Closed (SentenceOrColumnOrTable.fromElement (L := lvl n))
    ["Sentence", "Column", "Table"] := by
  intro e x hx hn
  exact Fails.bind_left (Fails.forElems hx (fun _ => Fails.matchTag (by not_tag hn)
    (Fails.unexpected _ _)) _)

theorem C32_note_struct (n : Nat) : Closed (NoteStruct.parser (L := lvl n))
    ["NoteStructTitle", "Remarks", "Note"] := by
  intro e x hx hn
  fails hx, hn

theorem C32_style_struct (n : Nat) : Closed (StyleStruct.parser (L := lvl n))
    ["StyleStructTitle", "Remarks", "Style"] := by
  intro e x hx hn
  fails hx, hn

theorem C32_format_struct (n : Nat) : Closed (FormatStruct.parser (L := lvl n))
    ["FormatStructTitle", "Remarks", "Format"] := by
  intro e x hx hn
  fails hx, hn

theorem C32_fig_struct (n : Nat) : Closed (FigStruct.parser (L := lvl n))
    ["FigStructTitle", "Remarks", "Fig"] := by
  intro e x hx hn
  fails hx, hn

theorem C32_table_struct (n : Nat) : Closed (TableStruct.parser (L := lvl n))
    ["TableStructTitle", "Remarks", "Table"] := by
  intro e x hx hn
  fails hx, hn

theorem Fails.listTag {L : Lvl} {γ : Type} {tag sentTag errName : String}
    {childP : Element → Res γ} {x : Element} (hn : x.name ≠ tag) :
    (ListOf.parser (L := L) tag sentTag errName childP x).Fails := by
  rw [ListOf.parser, if_neg hn]
  exact Fails.err _

theorem C32_list (n : Nat) : Closed (LawList.parser (L := lvl n))
    ["ListSentence", "Sublist1"] := by
  intro e x hx hn
  exact Fails.listOf hx (by not_tag hn) (Fails.listTag (by not_tag hn))

theorem C32_sublist1 (n : Nat) : Closed (Sublist1.parser (L := lvl n))
    ["Sublist1Sentence", "Sublist2"] := by
  intro e x hx hn
  exact Fails.listOf hx (by not_tag hn) (Fails.listTag (by not_tag hn))

theorem C32_sublist2 (n : Nat) : Closed (Sublist2.parser (L := lvl n))
    ["Sublist2Sentence", "Sublist3"] := by
  intro e x hx hn
  refine Fails.listOf hx (by not_tag hn) ?_
  rw [Sublist3.parser, if_neg (by not_tag hn)]
  exact Fails.err _

theorem C32_item (n : Nat) : Closed (Item.parser (L := lvl n))
    ["ItemTitle", "ItemSentence", "TableStruct", "FigStruct", "StyleStruct", "List",
      "Subitem1"] := by
  intro e x hx hn
  exact Fails.itemOf hx (by not_tag hn)

theorem C32_subitem1 (n : Nat) : Closed (Subitem1.parser (L := lvl n))
    ["Subitem1Title", "Subitem1Sentence", "TableStruct", "FigStruct", "StyleStruct", "List",
      "Subitem2"] := by
  intro e x hx hn
  exact Fails.itemOf hx (by not_tag hn)

theorem C32_subitem2 (n : Nat) : Closed (Subitem2.parser (L := lvl n))
    ["Subitem2Title", "Subitem2Sentence", "TableStruct", "FigStruct", "StyleStruct", "List",
      "Subitem3"] := by
  intro e x hx hn
  exact Fails.itemOf hx (by not_tag hn)

theorem C32_subitem3 (n : Nat) : Closed (Subitem3.parser (L := lvl n))
    ["Subitem3Title", "Subitem3Sentence", "TableStruct", "FigStruct", "StyleStruct", "List",
      "Subitem4"] := by
  intro e x hx hn
  exact Fails.itemOf hx (by not_tag hn)

theorem C32_subitem4 (n : Nat) : Closed (Subitem4.parser (L := lvl n))
    ["Subitem4Title", "Subitem4Sentence", "TableStruct", "FigStruct", "StyleStruct", "List",
      "Subitem5"] := by
  intro e x hx hn
  exact Fails.itemOf hx (by not_tag hn)

theorem C32_subitem5 (n : Nat) : Closed (Subitem5.parser (L := lvl n))
    ["Subitem5Title", "Subitem5Sentence", "TableStruct", "FigStruct", "StyleStruct", "List",
      "Subitem6"] := by
  intro e x hx hn
  exact Fails.itemOf hx (by not_tag hn)

theorem C32_subitem6 (n : Nat) : Closed (Subitem6.parser (L := lvl n))
    ["Subitem6Title", "Subitem6Sentence", "TableStruct", "FigStruct", "StyleStruct", "List",
      "Subitem7"] := by
  intro e x hx hn
  exact Fails.itemOf hx (by not_tag hn)

theorem C32_subitem7 (n : Nat) : Closed (Subitem7.parser (L := lvl n))
    ["Subitem7Title", "Subitem7Sentence", "TableStruct", "FigStruct", "StyleStruct", "List",
      "Subitem8"] := by
  intro e x hx hn
  exact Fails.itemOf hx (by not_tag hn)

theorem C32_subitem8 (n : Nat) : Closed (Subitem8.parser (L := lvl n))
    ["Subitem8Title", "Subitem8Sentence", "TableStruct", "FigStruct", "StyleStruct", "List",
      "Subitem9"] := by
  intro e x hx hn
  exact Fails.itemOf hx (by not_tag hn)

theorem C32_subitem9 (n : Nat) : Closed (Subitem9.parser (L := lvl n))
    ["Subitem9Title", "Subitem9Sentence", "TableStruct", "FigStruct", "StyleStruct", "List",
      "Subitem10"] := by
  intro e x hx hn
  exact Fails.itemOf hx (by not_tag hn)

theorem C32_subitem10 (n : Nat) : Closed (Subitem10.parser (L := lvl n))
    ["Subitem10Title", "Subitem10Sentence", "TableStruct", "FigStruct", "StyleStruct",
      "List"] := by
  intro e x hx hn
  exact Fails.itemOf hx (by not_tag hn)

theorem C32_class (n : Nat) : Closed (Class.parser (L := lvl n))
    ["ClassTitle", "ClassSentence", "Item"] := by
  intro e x hx hn
  fails hx, hn

theorem C32_paragraph (n : Nat) : Closed (Paragraph.parser (L := lvl n))
    ["ParagraphCaption", "ParagraphNum", "ParagraphSentence", "AmendProvision", "Class",
      "TableStruct", "FigStruct", "StyleStruct", "List", "Item"] := by
  intro e x hx hn
  fails hx, hn

theorem Fails.articleHead {L : Lvl} {β : Type} {x : Element} {c : List XMLNode} (hx : x.node ∈ c)
    (h1 : x.name ≠ "ArticleCaption") (h2 : x.name ≠ "ArticleTitle")
    {k : Option (Caption L) × Text L × List XMLNode → Res β}
    (hk : ∀ cap t rest, x.node ∈ rest → (k (cap, t, rest)).Fails) (cap : Option (Caption L))
    (title : Text L) : ((Article.head cap title c).bind k).Fails := by
  induction c generalizing cap title with
  | nil => cases hx
  | cons y c ih =>
    cases y with
    | element n a d =>
      simp only [Article.head]
      split
      · exact hk _ _ _ hx
      · next hnot =>
        have hx' : x.node ∈ c := by
          cases hx with
          | head => exact absurd ⟨h1, h2⟩ hnot
          | tail _ h => exact h
        split
        · rw [Res.bind_assoc]
          exact Fails.bind_right fun _ => ih hx' _ _
        · rw [Res.bind_assoc]
          exact Fails.bind_right fun _ => ih hx' _ _
    | _ =>
      cases hx with
      | tail _ h => exact ih h cap title

theorem C32_article (n : Nat) : Closed (Article.parser (L := lvl n))
    ["ArticleCaption", "ArticleTitle", "Paragraph", "SupplNote"] := by
  intro e x hx hn
  refine Fails.ite ?_ (Fails.err _)
  refine Fails.bind_right fun _ => Fails.bind_right fun _ => Fails.bind_right fun _ =>
    Fails.articleHead hx (by not_tag hn) (by not_tag hn) (fun _ _ rest hr => ?_) _ _
  exact Fails.bind_left (Fails.forElems hr (fun _ => Fails.matchTag (by not_tag hn)
    (Fails.unexpected _ _)) _)

theorem C32_part (n : Nat) : Closed (Part.parser (L := lvl n))
    ["PartTitle", "Chapter", "Article"] := by
  intro e x hx hn
  exact Fails.hierOf hx (by unfold PartContents.arms; not_tag hn)

theorem C32_chapter (n : Nat) : Closed (Chapter.parser (L := lvl n))
    ["ChapterTitle", "Section", "Article"] := by
  intro e x hx hn
  exact Fails.hierOf hx (by unfold ChapterContents.arms; not_tag hn)

theorem C32_section (n : Nat) : Closed (Section.parser (L := lvl n))
    ["SectionTitle", "Subsection", "Article", "Division"] := by
  intro e x hx hn
  exact Fails.hierOf hx (by unfold SectionContents.arms; not_tag hn)

theorem C32_subsection (n : Nat) : Closed (Subsection.parser (L := lvl n))
    ["SubsectionTitle", "Division", "Article"] := by
  intro e x hx hn
  exact Fails.hierOf hx (by unfold SubsectionContents.arms; not_tag hn)

theorem C32_division (n : Nat) : Closed (Division.parser (L := lvl n))
    ["DivisionTitle", "Article"] := by
  intro e x hx hn
  exact Fails.hierOf hx (by not_tag hn)

theorem C32_tocpart (n : Nat) : Closed (TOCPart.parser (L := lvl n))
    ["PartTitle", "ArticleRange", "TOCChapter"] := by
  intro e x hx hn
  exact Fails.tocOf hx (by not_tag hn)

theorem C32_tocchapter (n : Nat) : Closed (TOCChapter.parser (L := lvl n))
    ["ChapterTitle", "ArticleRange", "TOCSection"] := by
  intro e x hx hn
  exact Fails.tocOf hx (by not_tag hn)

theorem C32_tocsection (n : Nat) : Closed (TOCSection.parser (L := lvl n))
    ["SectionTitle", "ArticleRange", "TOCSubsection", "TOCDivision"] := by
  intro e x hx hn
  exact Fails.tocOf hx (by unfold TOCSectionContents.arms; not_tag hn)

theorem C32_tocsubsection (n : Nat) : Closed (TOCSubsection.parser (L := lvl n))
    ["SubsectionTitle", "ArticleRange", "TOCDivision"] := by
  intro e x hx hn
  exact Fails.tocOf hx (by not_tag hn)

theorem C32_tocdivision (n : Nat) : Closed (TOCDivision.parser (L := lvl n))
    ["DivisionTitle", "ArticleRange"] := by
  intro e x hx hn
  exact Fails.tocOf hx (by not_tag hn)

theorem C32_tocarticle (n : Nat) : Closed (TOCArticle.parser (L := lvl n))
    ["ArticleTitle", "ArticleCaption"] := by
  intro e x hx hn
  fails hx, hn

theorem C32_tocsupplprovision (n : Nat) : Closed (TOCSupplProvision.parser (L := lvl n))
    ["SupplProvisionLabel", "ArticleRange", "TOCArticle", "TOCChapter"] := by
  intro e x hx hn
  fails hx, hn

theorem C32_toc (n : Nat) : Closed (TOC.parser (L := lvl n))
    ["TOCLabel", "TOCPreambleLabel", "TOCPart", "TOCChapter", "TOCSection", "TOCArticle",
      "TOCSupplProvision", "TOCAppdxTableLabel"] := by
  intro e x hx hn
  fails hx, hn

theorem C32_appdxtable (n : Nat) : Closed (AppdxTable.parser (L := lvl n))
    ["AppdxTableTitle", "RelatedArticleNum", "Remarks", "TableStruct", "Item"] := by
  intro e x hx hn
  exact Fails.appdxOf hx (by unfold AppdxTableContents.arms; not_tag hn)

theorem C32_appdxnote (n : Nat) : Closed (AppdxNote.parser (L := lvl n))
    ["AppdxNoteTitle", "RelatedArticleNum", "Remarks", "TableStruct", "FigStruct",
      "NoteStruct"] := by
  intro e x hx hn
  exact Fails.appdxOf hx (by unfold AppdxNoteContents.arms; not_tag hn)

theorem C32_appdxstyle (n : Nat) : Closed (AppdxStyle.parser (L := lvl n))
    ["AppdxStyleTitle", "RelatedArticleNum", "Remarks", "StyleStruct"] := by
  intro e x hx hn
  exact Fails.appdxOf hx (by not_tag hn)

theorem C32_appdxformat (n : Nat) : Closed (AppdxFormat.parser (L := lvl n))
    ["AppdxFormatTitle", "RelatedArticleNum", "Remarks", "FormatStruct"] := by
  intro e x hx hn
  exact Fails.appdxOf hx (by not_tag hn)

theorem C32_appdx (n : Nat) : Closed (Appdx.parser (L := lvl n))
    ["ArithFormulaNum", "RelatedArticleNum", "ArithFormula", "Remarks"] := by
  intro e x hx hn
  fails hx, hn

theorem C32_appdxfig (n : Nat) : Closed (AppdxFig.parser (L := lvl n))
    ["AppdxFigTitle", "RelatedArticleNum", "TableStruct", "FigStruct"] := by
  intro e x hx hn
  fails hx, hn

theorem C32_supplprovisionappdxtable (n : Nat) : Closed (SupplProvisionAppdxTable.parser (L := lvl n))
    ["SupplProvisionAppdxTableTitle", "RelatedArticleNum", "TableStruct"] := by
  intro e x hx hn
  fails hx, hn

theorem C32_supplprovisionappdxstyle (n : Nat) : Closed (SupplProvisionAppdxStyle.parser (L := lvl n))
    ["SupplProvisionAppdxStyleTitle", "RelatedArticleNum", "StyleStruct"] := by
  intro e x hx hn
  fails hx, hn

theorem C32_supplprovisionappdx (n : Nat) : Closed (SupplProvisionAppdx.parser (L := lvl n))
    ["ArithFormulaNum", "RelatedArticleNum", "ArithFormula"] := by
  intro e x hx hn
  fails hx, hn

theorem C32_supplprovision (n : Nat) : Closed (SupplProvision.parser (L := lvl n))
    ["SupplProvisionLabel", "Chapter", "Article", "Paragraph", "SupplProvisionAppdxTable",
      "SupplProvisionAppdxStyle", "SupplProvisionAppdx"] := by
  intro e x hx hn
  fails hx, hn

theorem C32_mainprovision (n : Nat) : Closed (MainProvision.parser (L := lvl n))
    ["Part", "Chapter", "Section", "Article", "Paragraph"] := by
  intro e x hx hn
  unfold MainProvision.parser MainProvisionContents.arms
  fails hx, hn

theorem C32_lawbody (n : Nat) : Closed (LawBody.parser (L := lvl n))
    ["LawTitle", "EnactStatement", "TOC", "Preamble", "MainProvision", "SupplProvision",
      "AppdxTable", "AppdxNote", "AppdxStyle", "Appdx", "AppdxFig", "AppdxFormat"] := by
  intro e x hx hn
  fails hx, hn

theorem C32_tablecolumn (n : Nat) : Closed (TableColumn.parser (L := lvl n))
    ["Part", "Chapter", "Section", "Subsection", "Division", "Article", "Paragraph", "Item",
      "Subitem1", "Subitem2", "Subitem3", "Subitem4", "Subitem5", "Subitem6", "Subitem7",
      "Subitem8", "Subitem9", "Subitem10", "FigStruct", "Remarks", "Sentence", "Column"] := by
  intro e x hx hn
  unfold TableColumn.parser TableColumnContents.arms
  fails hx, hn

/-- Raw contents: quoted structures, formulas, styles, notes and formats. -/
theorem C32_contents (n : Nat) : Closed (Contents.parser (L := lvl n))
    ["Table", "TableStruct", "Fig", "FigStruct", "QuoteStruct", "NoteStruct", "StyleStruct",
      "AppdxTable", "Ruby", "Line", "Sup", "Sub", "Paragraph", "Item", "Subitem1",
      "Subitem2", "Subitem3", "Subitem4", "Subitem5", "Subitem6", "Subitem7", "Subitem8",
      "Subitem9", "Subitem10", "List", "Sentence", "ArithFormula", "TOC", "TOCSection",
      "Remarks", "TableRow"] := by
  intro e x hx hn
  unfold Contents.parser ContentsElement.arms
  exact Fails.bind_left (Fails.mixed hx (Fails.matchTag (by not_tag hn) (Fails.unexpected _ _)))

theorem C32_amendprovision (n : Nat) : Closed (AmendProvision.parser (L := lvl n))
    ["AmendProvisionSentence", "NewProvision"] := by
  intro e x hx hn
  fails hx, hn

/-- Some readers do skip what they do not know: rows of tables, and preambles. -/
example : TableRow.parser (L := lvl 1) ⟨"TableRow", [], [.element "Foreign" [] []]⟩ = .ok ⟨[]⟩ ∧
    Preamble.parser (L := lvl 1) ⟨"Preamble", [], [.element "Foreign" [] []]⟩ = .ok ⟨[]⟩ :=
  ⟨rfl, rfl⟩

/-- A paragraph with a footnote as its last child is not read. -/
example (c : List XMLNode) : ∀ v, Paragraph.parser (L := lvl 5)
    ⟨"Paragraph", [("Num", "1")], c ++ [.element "Footnote" [] []]⟩ ≠ .ok v :=
  C32_paragraph 5 _ ⟨"Footnote", [], []⟩ (by simp [Element.node]) (by decide)

end JLaw
