import Verif.Spec.Unblank
import Verif.Props.Settle
import Verif.Props.FromTextRoundTrip

/-!
# Laws from text come back from files without blank texts (C93)
-/

namespace JLaw

open Spec

variable {L : Lvl}

/-! ## What a file keeps of a law built from text -/

theorem settle_elements {n : String} {a : Attrs} {c : List XMLNode}
    (h : ∀ x ∈ c, isElement x = true) :
    settleNode (.element n a c) = .element n a (c.map settleNode) := by
  rw [settleNode, settleEach_eq]
  congr 1
  have hs : ∀ x ∈ c.map settleNode, isElement x = true := by
    intro x hx
    obtain ⟨y, hy, rfl⟩ := List.mem_map.1 hx
    rw [isElement_settle]
    exact h y hy
  have ha : Apart (c.map settleNode) := by
    generalize c.map settleNode = c at hs
    induction c with
    | nil => trivial
    | cons x c ih =>
      refine (apart_cons _ _).2 ⟨fun ⟨h1, _⟩ => ?_, ih fun y hy => hs y (by simp [hy])⟩
      have := hs x (by simp)
      cases x <;> cases h1; cases this
  exact tidy_eq ha fun s hm => by cases hs _ hm

theorem isElement_node (e : Element) : isElement e.node = true := rfl

theorem settle_text (n : String) (a : Attrs) (s : String) :
    settleNode (.element n a [.text s]) =
      .element n a ([s].filter (fun s => !blank s) |>.map .text) := by
  rw [settleNode, settleEach_eq]
  simp only [List.map_cons, List.map_nil, settleNode, tidy, joinTexts, List.filter_cons,
    List.filter_nil, isBlank]
  by_cases h : blank s = true <;> simp [h]

theorem plainText_settled (tag : String) (s : List Char) :
    settleNode ((Spec.plainText s : Text L).toXml tag).node =
      ((unblankText (Spec.plainText s : Text L)).toXml tag).node := by
  simp only [Text.toXml, Element.node, Text.toChildren, Spec.plainText, List.map_cons, List.map_nil,
    TextElement.toNode, settle_text, unblankText, List.filter_cons, List.filter_nil]
  by_cases h : blank (String.ofList s) = true <;> simp [h, TextElement.toNode]

theorem caption_settled (tag : String) (s : List Char) (o : Option Bool) :
    settleNode ((⟨Spec.plainText s, o⟩ : Caption L).toXml tag).node =
      ((⟨unblankText (Spec.plainText s), o⟩ : Caption L).toXml tag).node := by
  simp only [Caption.toXml, Element.node, Text.toChildren, Spec.plainText, List.map_cons, List.map_nil,
    TextElement.toNode, settle_text, unblankText, List.filter_cons, List.filter_nil]
  by_cases h : blank (String.ofList s) = true <;> simp [h, TextElement.toNode]

theorem sentence_settled {n : Nat} {s : List Char} {x : Sentence L} (h : Said n s x) :
    settleNode x.toXml.node = (unblankSentence x).toXml.node := by
  rw [h]
  simp only [Sentence.toXml, Element.node, List.map_cons, List.map_nil,
    SentenceElement.toNode, settle_text, unblankSentence, List.filter_cons, List.filter_nil]
  by_cases h : blank (String.ofList s) = true <;> simp [h, SentenceElement.toNode]

theorem saidAll_settled {s : List Char} {l : List (Sentence L)} (h : SaidAll s l) :
    ∀ x ∈ l, settleNode x.toXml.node = (unblankSentence x).toXml.node := by
  intro x hx
  obtain ⟨i, hi⟩ := List.mem_iff_getElem?.1 hx
  exact sentence_settled (h.2 i x hi)

theorem map_settled {α : Type} {f : α → Element} {g : α → α} {l : List α}
    (h : ∀ x ∈ l, settleNode (f x).node = (f (g x)).node) :
    (l.map fun x => (f x).node).map settleNode = (l.map g).map fun x => (f x).node := by
  simp only [List.map_map]
  exact List.map_congr_left h

theorem item_settled {γ : Type} {child : γ → Prop} {below : γ → Nat} {tag titleTag sentTag : String}
    {childXml : γ → Element} {g : γ → γ}
    (hg : ∀ y, child y → settleNode (childXml y).node = (childXml (g y)).node)
    {x : ItemOf L γ} (h : ItemBuilt child below x) :
    settleNode (x.toXml tag titleTag sentTag childXml).node =
      ((unblankItem g x).toXml tag titleTag sentTag childXml).node := by
  obtain ⟨l, s, hl, hs, -⟩ := h.sentence
  have hc := map_settled (f := childXml) (g := g) fun y hy => hg y (h.children y hy)
  have hw : settleNode ((SentenceOrColumnOrTable.sentence l : SentenceOrColumnOrTable L).toXml
      sentTag).node = ((SentenceOrColumnOrTable.sentence (l.map unblankSentence) :
        SentenceOrColumnOrTable L).toXml sentTag).node := by
    rw [Element.node, settle_elements]
    · exact congrArg (XMLNode.element _ _) (map_settled (saidAll_settled hs))
    · intro x hx
      obtain ⟨y, _, rfl⟩ := List.mem_map.1 hx
      rfl
  rw [ItemOf.toXml, Element.node, settle_elements]
  · simp only [ItemOf.toXml, unblankItem, h.title, h.struct_list, hl, Option.toList, List.map_nil,
      List.nil_append, List.append_nil, List.map_append, List.map_cons, hw, hc]
    rfl
  · simp only [h.title, h.struct_list, Option.toList, List.map_nil, List.nil_append,
      List.append_nil]
    intro x hx
    rcases List.mem_append.1 hx with hx | hx
    · cases List.mem_singleton.1 hx; rfl
    · obtain ⟨y, _, rfl⟩ := List.mem_map.1 hx
      rfl

theorem subitem10_settled {x : Subitem10 L} (h : Subitem10Built x) :
    settleNode (Subitem10.toXml x).node = (Subitem10.toXml (unblankSubitem10 x)).node :=
  item_settled (fun y _ => y.elim) h

theorem subitem9_settled {x : Subitem9 L} (h : Subitem9Built x) :
    settleNode (Subitem9.toXml x).node = (Subitem9.toXml (unblankSubitem9 x)).node :=
  item_settled (child := Subitem10Built) (g := unblankSubitem10) (fun y h => subitem10_settled (x := y) h) h

theorem subitem8_settled {x : Subitem8 L} (h : Subitem8Built x) :
    settleNode (Subitem8.toXml x).node = (Subitem8.toXml (unblankSubitem8 x)).node :=
  item_settled (child := Subitem9Built) (g := unblankSubitem9) (fun y h => subitem9_settled (x := y) h) h

theorem subitem7_settled {x : Subitem7 L} (h : Subitem7Built x) :
    settleNode (Subitem7.toXml x).node = (Subitem7.toXml (unblankSubitem7 x)).node :=
  item_settled (child := Subitem8Built) (g := unblankSubitem8) (fun y h => subitem8_settled (x := y) h) h

theorem subitem6_settled {x : Subitem6 L} (h : Subitem6Built x) :
    settleNode (Subitem6.toXml x).node = (Subitem6.toXml (unblankSubitem6 x)).node :=
  item_settled (child := Subitem7Built) (g := unblankSubitem7) (fun y h => subitem7_settled (x := y) h) h

theorem subitem5_settled {x : Subitem5 L} (h : Subitem5Built x) :
    settleNode (Subitem5.toXml x).node = (Subitem5.toXml (unblankSubitem5 x)).node :=
  item_settled (child := Subitem6Built) (g := unblankSubitem6) (fun y h => subitem6_settled (x := y) h) h

theorem subitem4_settled {x : Subitem4 L} (h : Subitem4Built x) :
    settleNode (Subitem4.toXml x).node = (Subitem4.toXml (unblankSubitem4 x)).node :=
  item_settled (child := Subitem5Built) (g := unblankSubitem5) (fun y h => subitem5_settled (x := y) h) h

theorem subitem3_settled {x : Subitem3 L} (h : Subitem3Built x) :
    settleNode (Subitem3.toXml x).node = (Subitem3.toXml (unblankSubitem3 x)).node :=
  item_settled (child := Subitem4Built) (g := unblankSubitem4) (fun y h => subitem4_settled (x := y) h) h

theorem subitem2_settled {x : Subitem2 L} (h : Subitem2Built x) :
    settleNode (Subitem2.toXml x).node = (Subitem2.toXml (unblankSubitem2 x)).node :=
  item_settled (child := Subitem3Built) (g := unblankSubitem3) (fun y h => subitem3_settled (x := y) h) h

theorem subitem1_settled {x : Subitem1 L} (h : Subitem1Built x) :
    settleNode (Subitem1.toXml x).node = (Subitem1.toXml (unblankSubitem1 x)).node :=
  item_settled (child := Subitem2Built) (g := unblankSubitem2) (fun y h => subitem2_settled (x := y) h) h

theorem items_settled {x : Item L} (h : ItemsBuilt x) :
    settleNode (Item.toXml x).node = (Item.toXml (unblankItems x)).node :=
  item_settled (child := Subitem1Built) (g := unblankSubitem1) (fun y h => subitem1_settled (x := y) h) h

theorem paragraphs_settled {x : Paragraph L} (h1 : x.caption = none) (h2 : x.paragraph_num = ⟨[]⟩)
    (h3 : x.amend_provision = []) (h4 : x.class_ = []) (h5 : x.struct_list = [])
    (hs : ∀ s ∈ x.sentence, settleNode s.toXml.node = (unblankSentence s).toXml.node)
    (hc : ∀ y ∈ x.children, ItemsBuilt y) :
    settleNode x.toXml.node = (unblankParagraph x).toXml.node := by
  have hc := map_settled (f := Item.toXml) (g := unblankItems) fun y hy => items_settled (hc y hy)
  have hw : settleNode (Paragraph.sentenceXml x.sentence).node =
      (Paragraph.sentenceXml (x.sentence.map unblankSentence)).node := by
    rw [Element.node, settle_elements]
    · exact congrArg (XMLNode.element _ _) (map_settled hs)
    · intro x hx
      obtain ⟨y, _, rfl⟩ := List.mem_map.1 hx
      rfl
  have hn : settleNode ((⟨[]⟩ : Text L).toXml "ParagraphNum").node =
      ((⟨[]⟩ : Text L).toXml "ParagraphNum").node := rfl
  rw [Paragraph.toXml, Element.node, settle_elements]
  · simp only [Paragraph.toXml, unblankParagraph, h1, h2, h3, h4, h5, Option.toList, List.map_nil,
      List.nil_append, List.append_nil, List.map_append, List.map_cons, hw, hc, hn]
    rfl
  · simp only [h1, h2, h3, h4, h5, Option.toList, List.map_nil, List.nil_append,
      List.append_nil]
    intro x hx
    simp only [List.mem_append, List.mem_singleton, List.mem_map] at hx
    rcases hx with (rfl | rfl) | ⟨y, _, rfl⟩ <;> rfl

theorem paragraph_settled {s : List Char} {x : Paragraph L} (h : ParagraphBuilt s x) :
    settleNode x.toXml.node = (unblankParagraph x).toXml.node :=
  paragraphs_settled h.caption h.paragraph_num h.amend_provision h.class_ h.struct_list
    (saidAll_settled h.sentence) h.children

theorem article_settled {x : Article L} (h : ArticleBuilt x) :
    settleNode x.toXml.node = (unblankArticle x).toXml.node := by
  obtain ⟨p, r, s, hp, -, hb, -, hr⟩ := h.paragraph
  have hc := map_settled (f := Paragraph.toXml) (g := unblankParagraph) (l := x.paragraph) fun y hy => by
    rw [hp] at hy
    rcases List.mem_cons.1 hy with rfl | hy
    · exact paragraph_settled hb
    · obtain ⟨s, hs⟩ := hr y hy
      exact paragraph_settled hs
  have hk : (x.caption.toList.map fun c => (c.toXml "ArticleCaption").node).map settleNode =
      (unblankArticle x).caption.toList.map fun c => (c.toXml "ArticleCaption").node := by
    rcases h.caption with h | ⟨s, h⟩
    · simp [unblankArticle, h]
    · simp [unblankArticle, h, caption_settled]
  have ht := plainText_settled (L := L) "ArticleTitle" []
  rw [← h.title] at ht
  rw [Article.toXml, Element.node, settle_elements]
  · simp only [h.suppl_note, Option.toList, List.map_nil, List.append_nil, List.map_append,
      List.map_cons, hc, ht] at hk ⊢
    rw [hk]
    simp only [Article.toXml, unblankArticle, h.suppl_note, Option.toList, List.map_nil,
      List.append_nil]
    rfl
  · simp only [h.suppl_note, Option.toList, List.map_nil, List.append_nil]
    intro x hx
    simp only [List.mem_append, List.mem_singleton, List.mem_map] at hx
    rcases hx with (⟨y, _, rfl⟩ | rfl) | ⟨y, _, rfl⟩ <;> rfl

theorem unit_settled {γ : Type} {child isArticle : γ → Prop} {tag titleTag : String}
    {childXml : γ → Element} {g : γ → γ}
    (hg : ∀ y, child y → settleNode (childXml y).node = (childXml (g y)).node)
    {x : HierOf L γ} (h : UnitBuilt child isArticle x) :
    settleNode (x.toXml tag titleTag childXml).node =
      ((unblankUnit g x).toXml tag titleTag childXml).node := by
  obtain ⟨s, ht, -⟩ := h.title
  have hc := map_settled (f := childXml) (g := g) fun y hy => hg y (h.children y hy)
  have ht := ht ▸ plainText_settled (L := L) titleTag s
  rw [HierOf.toXml, Element.node, settle_elements]
  · simp only [HierOf.toXml, unblankUnit, List.map_cons, hc, ht]
    rfl
  · intro x hx
    rcases List.mem_cons.1 hx with rfl | hx
    · rfl
    · obtain ⟨y, _, rfl⟩ := List.mem_map.1 hx
      rfl

theorem division_settled {x : Division L} (h : DivisionBuilt x) :
    settleNode (Division.toXml x).node = (Division.toXml (unblankDivision x)).node :=
  unit_settled (child := ArticleBuilt) (g := unblankArticle) (fun y h => article_settled (x := y) h) h

theorem subsection_settled {x : Subsection L} (h : SubsectionBuilt x) :
    settleNode (Subsection.toXml x).node = (Subsection.toXml (unblankSubsection x)).node :=
  unit_settled (fun y h => by
    cases y with
    | article a => exact article_settled h
    | division d => exact division_settled h) h

theorem section_settled {x : Section L} (h : SectionBuilt x) :
    settleNode (Section.toXml x).node = (Section.toXml (unblankSection x)).node :=
  unit_settled (fun y h => by
    cases y with
    | article a => exact article_settled h
    | subsection d => exact subsection_settled h
    | division d => cases h) h

theorem chapter_settled {x : Chapter L} (h : ChapterBuilt x) :
    settleNode (Chapter.toXml x).node = (Chapter.toXml (unblankChapter x)).node :=
  unit_settled (fun y h => by
    cases y with
    | article a => exact article_settled h
    | section_ d => exact section_settled h) h

theorem part_settled {x : Part L} (h : PartBuilt x) :
    settleNode (Part.toXml x).node = (Part.toXml (unblankPart x)).node :=
  unit_settled (fun y h => by
    cases y with
    | article a => exact article_settled h
    | chapter d => exact chapter_settled h) h

theorem mainChild_settled {x : MainProvisionContents L} (h : MainBuilt x) :
    settleNode x.toXml.node = (unblankMain x).toXml.node := by
  cases x with
  | part v => exact part_settled h
  | chapter v => exact chapter_settled h
  | section_ v => exact section_settled h
  | article v => exact article_settled h
  | paragraph v => cases h

theorem preamble_settled {p : Preamble L}
    (h : ∀ i y, p.children[i]? = some y → PreambleParagraph i y) :
    settleNode p.toXml.node =
      (⟨p.children.map unblankParagraph⟩ : Preamble L).toXml.node := by
  rw [Preamble.toXml, Element.node, settle_elements]
  · refine congrArg (XMLNode.element _ _) (map_settled fun y hy => ?_)
    obtain ⟨i, hi⟩ := List.mem_iff_getElem?.1 hy
    obtain ⟨s, z, hz, rfl⟩ := h i y hi
    refine paragraphs_settled rfl rfl rfl rfl rfl (fun w hw => ?_) nofun
    cases List.mem_singleton.1 hw
    exact sentence_settled hz
  · intro x hx
    obtain ⟨y, _, rfl⟩ := List.mem_map.1 hx
    rfl

theorem lawTitle_settled (s : List Char) :
    settleNode (⟨none, none, none, Spec.plainText s⟩ : LawTitle L).toXml.node =
      (⟨none, none, none, unblankText (Spec.plainText s)⟩ : LawTitle L).toXml.node := by
  simp only [LawTitle.toXml, Element.node, Text.toChildren, Spec.plainText, List.map_cons, List.map_nil,
    TextElement.toNode, settle_text, unblankText, List.filter_cons, List.filter_nil]
  by_cases h : blank (String.ofList s) = true <;> simp [h, TextElement.toNode]

theorem body_settled {title : List Char} {x : LawBody L} (h : BodyBuilt title x) :
    settleNode x.toXml.node = (unblankBody x).toXml.node := by
  have hm : settleNode x.main_provision.toXml.node = (unblankBody x).main_provision.toXml.node := by
    rw [MainProvision.toXml, Element.node, settle_elements]
    · exact congrArg (XMLNode.element _ _) (map_settled fun y hy => mainChild_settled (h.children y hy))
    · intro x hx
      obtain ⟨y, _, rfl⟩ := List.mem_map.1 hx
      rfl
  have hp : (x.preamble.toList.map fun v => v.toXml.node).map settleNode =
      (unblankBody x).preamble.toList.map fun v => v.toXml.node := by
    cases he : x.preamble with
    | none => simp [unblankBody, he]
    | some p => simp [unblankBody, he, preamble_settled (h.preamble p he).2]
  have ht : (x.law_title.toList.map fun v => v.toXml.node).map settleNode =
      (unblankBody x).law_title.toList.map fun v => v.toXml.node := by
    simp [unblankBody, h.law_title, lawTitle_settled]
  rw [LawBody.toXml, Element.node, settle_elements]
  · simp only [List.map_append, List.map_cons, ht, hp, hm]
    simp only [LawBody.toXml, h.enact_statement, h.toc, h.suppl_provision, h.appdx_table,
      h.appdx_note, h.appdx_style, h.appdx, h.appdx_fig, h.appdx_format, Option.toList,
      List.map_nil, unblankBody]
    rfl
  · simp only [h.enact_statement, h.toc, h.suppl_provision, h.appdx_table,
      h.appdx_note, h.appdx_style, h.appdx, h.appdx_fig, h.appdx_format, Option.toList_none,
      List.map_nil, List.append_nil]
    intro x hx
    simp only [List.mem_append, List.mem_singleton, List.mem_map] at hx
    rcases hx with (⟨y, _, rfl⟩ | ⟨y, _, rfl⟩) | rfl <;> rfl

theorem law_children (x : Law L) : x.toXml.node = .element "Law" x.toXml.attributes
    [.element "LawNum" [] [.text x.law_num], x.law_body.toXml.node] := rfl

theorem law_settled {title : List Char} {x : Law L} (h : BodyBuilt title x.law_body) :
    settle x.toXml = settle (unblankLaw x).toXml := by
  apply node_inj
  have he : ∀ s, ∀ b : Element, ∀ y ∈ [.element "LawNum" [] [.text s], b.node], isElement y = true := by
    intro s b y hy
    rcases List.mem_cons.1 hy with rfl | hy
    · rfl
    · cases List.mem_singleton.1 hy; rfl
  rw [← settleNode_node, ← settleNode_node, law_children, law_children,
    settle_elements (he _ _), settle_elements (he _ _)]
  have hb : settleNode (unblankBody x.law_body).toXml.node = (unblankBody x.law_body).toXml.node := by
    rw [← body_settled h, settleNode_node, settleNode_node, (C88_settle _).2.2]
  have hn : settleNode (.element "LawNum" [] [.text x.law_num]) =
      settleNode (.element "LawNum" [] [.text (unblankLaw x).law_num]) := by
    simp only [settle_text, unblankLaw]
    by_cases hb : blank x.law_num = true
    · simp [hb, show blank "" = true from rfl]
    · simp [hb]
  simp only [List.map_cons, List.map_nil, hn, body_settled h]
  rw [show (unblankLaw x).law_body = unblankBody x.law_body from rfl, hb]
  rfl

theorem law_quiet {title : List Char} {x : Law L} (h : BodyBuilt title x.law_body) :
    Quiet (unblankLaw x).toXml := by
  have hs : Settled (unblankBody x.law_body).toXml := by
    refine (settle_eq_iff _).1 (node_inj ?_)
    rw [← settleNode_node, ← body_settled h, settleNode_node, settleNode_node, (C88_settle _).2.2]
  intro n a c hw
  rw [law_children] at hw
  cases hw with
  | refl =>
    refine ⟨?_, fun s hs => ?_⟩
    · simp [Apart, Element.node]
    · simp [Element.node] at hs
  | child _ _ _ z hz hw =>
    rcases List.mem_cons.1 hz with rfl | hz
    · cases hw with
      | refl =>
        refine ⟨?_, fun s hs hb => ?_⟩
        · simp [Apart]
        · cases List.mem_singleton.1 hs
          refine ⟨?_, by decide⟩
          simp only [unblankLaw] at hb ⊢
          split at hb
          · simp_all
          · simp_all
      | child _ _ _ z hz hw =>
        cases List.mem_singleton.1 hz
        cases hw
    · cases List.mem_singleton.1 hz
      exact settled_quiet hs n a c hw

/-! ## Which of them survive -/

section Keeps

variable (K : Keep L)

theorem unblankText_keeps (t : Text L) : (unblankText t).Keeps K ↔ t.Keeps K := by
  refine ⟨fun h c hc => ?_, fun h c hc => h c (List.mem_filter.1 hc).1⟩
  cases c with
  | text s => trivial
  | _ => exact h _ (List.mem_filter.2 ⟨hc, rfl⟩)

theorem unblankSentence_keeps (t : Sentence L) : (unblankSentence t).Keeps K ↔ t.Keeps K := by
  refine ⟨fun h c hc => ?_, fun h c hc => h c (List.mem_filter.1 hc).1⟩
  cases c with
  | string s => trivial
  | _ => exact h _ (List.mem_filter.2 ⟨hc, rfl⟩)

theorem unblankItem_keeps {γ : Type} {C : γ → Prop} {g : γ → γ} (hg : ∀ y, C (g y) ↔ C y)
    (x : ItemOf L γ) : ItemOf.Keeps K C (unblankItem g x) ↔ ItemOf.Keeps K C x := by
  have hs : (unblankItem g x).sentence.Keeps K ↔ x.sentence.Keeps K := by
    simp only [unblankItem]
    cases x.sentence with
    | sentence l => simp [SentenceOrColumnOrTable.Keeps, unblankSentence_keeps]
    | _ => rfl
  rw [ItemOf.Keeps, ItemOf.Keeps, hs]
  simp [unblankItem, hg]

theorem unblankItems_keeps (x : Item L) : Item.Keeps K (unblankItems x) ↔ Item.Keeps K x :=
  unblankItem_keeps K (unblankItem_keeps K (unblankItem_keeps K (unblankItem_keeps K
    (unblankItem_keeps K (unblankItem_keeps K (unblankItem_keeps K (unblankItem_keeps K
      (unblankItem_keeps K (unblankItem_keeps K (unblankItem_keeps K fun _ => Iff.rfl)))))))))) x

theorem unblankParagraph_keeps (x : Paragraph L) :
    (unblankParagraph x).Keeps K ↔ x.Keeps K := by
  simp [Paragraph.Keeps, unblankParagraph, unblankSentence_keeps, unblankItems_keeps]

theorem unblankArticle_keeps (x : Article L) : (unblankArticle x).Keeps K ↔ x.Keeps K := by
  cases h : x.caption <;>
  simp [Article.Keeps, unblankArticle, unblankText_keeps, unblankParagraph_keeps, h, OptKeeps,
    Caption.Keeps]

theorem unblankUnit_keeps {γ : Type} {C : γ → Prop} {g : γ → γ} (hg : ∀ y, C (g y) ↔ C y)
    (x : HierOf L γ) : HierOf.Keeps K C (unblankUnit g x) ↔ HierOf.Keeps K C x := by
  simp [HierOf.Keeps, unblankUnit, unblankText_keeps, hg]

theorem unblankDivision_keeps (x : Division L) :
    Division.Keeps K (unblankDivision x) ↔ Division.Keeps K x :=
  unblankUnit_keeps K (unblankArticle_keeps K) x

theorem unblankSubsection_keeps (x : Subsection L) :
    Subsection.Keeps K (unblankSubsection x) ↔ Subsection.Keeps K x :=
  unblankUnit_keeps K (fun y => by
    cases y with
    | article a => exact unblankArticle_keeps K a
    | division a => exact unblankDivision_keeps K a) x

theorem unblankSection_keeps (x : Section L) :
    Section.Keeps K (unblankSection x) ↔ Section.Keeps K x :=
  unblankUnit_keeps K (fun y => by
    cases y with
    | article a => exact unblankArticle_keeps K a
    | subsection a => exact unblankSubsection_keeps K a
    | division a => exact unblankDivision_keeps K a) x

theorem unblankChapter_keeps (x : Chapter L) :
    Chapter.Keeps K (unblankChapter x) ↔ Chapter.Keeps K x :=
  unblankUnit_keeps K (fun y => by
    cases y with
    | article a => exact unblankArticle_keeps K a
    | section_ a => exact unblankSection_keeps K a) x

theorem unblankPart_keeps (x : Part L) : Part.Keeps K (unblankPart x) ↔ Part.Keeps K x :=
  unblankUnit_keeps K (fun y => by
    cases y with
    | article a => exact unblankArticle_keeps K a
    | chapter a => exact unblankChapter_keeps K a) x

theorem unblankMain_keeps (x : MainProvisionContents L) :
    (unblankMain x).Keeps K ↔ x.Keeps K := by
  cases x with
  | part v => exact unblankPart_keeps K v
  | chapter v => exact unblankChapter_keeps K v
  | section_ v => exact unblankSection_keeps K v
  | article v => exact unblankArticle_keeps K v
  | paragraph v => exact unblankParagraph_keeps K v

theorem unblankLaw_keeps (x : Law L) : (unblankLaw x).Keeps K ↔ x.Keeps K := by
  have hm : (unblankBody x.law_body).main_provision.Keeps K ↔ x.law_body.main_provision.Keeps K := by
    simp [MainProvision.Keeps, unblankBody, unblankMain_keeps]
  have ht : OptKeeps (fun t => t.Keeps K) (unblankBody x.law_body).law_title ↔
      OptKeeps (fun t => t.Keeps K) x.law_body.law_title := by
    cases h : x.law_body.law_title <;>
      simp [unblankBody, h, OptKeeps, LawTitle.Keeps, unblankText_keeps]
  have hp : OptKeeps (fun t => t.Keeps K) (unblankBody x.law_body).preamble ↔
      OptKeeps (fun t => t.Keeps K) x.law_body.preamble := by
    cases h : x.law_body.preamble <;>
      simp [unblankBody, h, OptKeeps, Preamble.Keeps, unblankParagraph_keeps]
  simp only [Law.Keeps, unblankLaw, LawBody.Keeps, hm, ht, hp]
  simp only [unblankBody]

end Keeps

/-! ## How deep they are -/

theorem height_element {n : String} {a : Attrs} {c : List XMLNode} {k : Nat}
    (h : ∀ x ∈ c, x.height ≤ k) : (XMLNode.element n a c).height ≤ k + 1 := by
  rw [XMLNode.height]
  exact Nat.succ_le_succ (heightList_le h)

theorem plainText_height (tag : String) (s : List Char) :
    ((Spec.plainText s : Text L).toXml tag).node.height ≤ 1 :=
  height_element fun x hx => by cases List.mem_singleton.1 hx; exact Nat.le_refl 0

theorem said_height {n : Nat} {s : List Char} {x : Sentence L} (h : Said n s x) :
    x.toXml.node.height ≤ 1 := by
  rw [h]
  exact height_element fun x hx => by cases List.mem_singleton.1 hx; exact Nat.le_refl 0

theorem saidAll_height {s : List Char} {l : List (Sentence L)} (h : SaidAll s l) :
    ∀ y ∈ l.map fun x => x.toXml.node, y.height ≤ 1 := by
  intro y hy
  obtain ⟨x, hx, rfl⟩ := List.mem_map.1 hy
  obtain ⟨i, hi⟩ := List.mem_iff_getElem?.1 hx
  exact said_height (h.2 i x hi)

theorem item_height {γ : Type} {child : γ → Prop} {below : γ → Nat} {tag titleTag sentTag : String}
    {childXml : γ → Element} {k : Nat} (hk : 2 ≤ k)
    (hg : ∀ y, child y → (childXml y).node.height ≤ k) {x : ItemOf L γ}
    (h : ItemBuilt child below x) :
    (x.toXml tag titleTag sentTag childXml).node.height ≤ k + 1 := by
  obtain ⟨l, s, hl, hs, -⟩ := h.sentence
  refine height_element fun y hy => ?_
  simp only [ItemOf.toXml, h.title, h.struct_list, hl, Option.toList_none, List.map_nil, List.nil_append,
    List.append_nil, List.mem_append, List.mem_singleton, List.mem_map] at hy
  rcases hy with rfl | ⟨c, hc, rfl⟩
  · exact (height_element (saidAll_height hs)).trans hk
  · exact hg c (h.children c hc)

theorem subitem10_height {x : Subitem10 L} (h : Subitem10Built x) :
    (Subitem10.toXml x).node.height ≤ 3 :=
  item_height (by decide) (fun y _ => y.elim) h

theorem subitem9_height {x : Subitem9 L} (h : Subitem9Built x) :
    (Subitem9.toXml x).node.height ≤ 4 :=
  item_height (child := Subitem10Built) (by decide) (fun y h => subitem10_height (x := y) h) h

theorem subitem8_height {x : Subitem8 L} (h : Subitem8Built x) :
    (Subitem8.toXml x).node.height ≤ 5 :=
  item_height (child := Subitem9Built) (by decide) (fun y h => subitem9_height (x := y) h) h

theorem subitem7_height {x : Subitem7 L} (h : Subitem7Built x) :
    (Subitem7.toXml x).node.height ≤ 6 :=
  item_height (child := Subitem8Built) (by decide) (fun y h => subitem8_height (x := y) h) h

theorem subitem6_height {x : Subitem6 L} (h : Subitem6Built x) :
    (Subitem6.toXml x).node.height ≤ 7 :=
  item_height (child := Subitem7Built) (by decide) (fun y h => subitem7_height (x := y) h) h

theorem subitem5_height {x : Subitem5 L} (h : Subitem5Built x) :
    (Subitem5.toXml x).node.height ≤ 8 :=
  item_height (child := Subitem6Built) (by decide) (fun y h => subitem6_height (x := y) h) h

theorem subitem4_height {x : Subitem4 L} (h : Subitem4Built x) :
    (Subitem4.toXml x).node.height ≤ 9 :=
  item_height (child := Subitem5Built) (by decide) (fun y h => subitem5_height (x := y) h) h

theorem subitem3_height {x : Subitem3 L} (h : Subitem3Built x) :
    (Subitem3.toXml x).node.height ≤ 10 :=
  item_height (child := Subitem4Built) (by decide) (fun y h => subitem4_height (x := y) h) h

theorem subitem2_height {x : Subitem2 L} (h : Subitem2Built x) :
    (Subitem2.toXml x).node.height ≤ 11 :=
  item_height (child := Subitem3Built) (by decide) (fun y h => subitem3_height (x := y) h) h

theorem subitem1_height {x : Subitem1 L} (h : Subitem1Built x) :
    (Subitem1.toXml x).node.height ≤ 12 :=
  item_height (child := Subitem2Built) (by decide) (fun y h => subitem2_height (x := y) h) h

theorem items_height {x : Item L} (h : ItemsBuilt x) : (Item.toXml x).node.height ≤ 13 :=
  item_height (child := Subitem1Built) (by decide) (fun y h => subitem1_height (x := y) h) h

theorem paragraphs_height {x : Paragraph L} (h1 : x.caption = none) (h2 : x.paragraph_num = ⟨[]⟩)
    (h3 : x.amend_provision = []) (h4 : x.class_ = []) (h5 : x.struct_list = [])
    (hs : ∀ y ∈ x.sentence.map fun x => x.toXml.node, y.height ≤ 1)
    (hc : ∀ y ∈ x.children, ItemsBuilt y) : x.toXml.node.height ≤ 14 := by
  refine height_element fun y hy => ?_
  simp only [Paragraph.toXml, h1, h2, h3, h4, h5, Option.toList_none, List.map_nil, List.nil_append,
    List.append_nil, List.mem_append, List.mem_singleton, List.mem_map] at hy
  rcases hy with (rfl | rfl) | ⟨c, hc', rfl⟩
  · exact (height_element (k := 0) fun z hz => by cases hz).trans (by decide)
  · exact (height_element hs).trans (by decide)
  · exact items_height (hc c hc')

theorem paragraph_height {s : List Char} {x : Paragraph L} (h : ParagraphBuilt s x) :
    x.toXml.node.height ≤ 14 :=
  paragraphs_height h.caption h.paragraph_num h.amend_provision h.class_ h.struct_list
    (saidAll_height h.sentence) h.children

theorem article_height {x : Article L} (h : ArticleBuilt x) : x.toXml.node.height ≤ 15 := by
  obtain ⟨p, r, s, hp, -, hb, -, hr⟩ := h.paragraph
  refine height_element fun y hy => ?_
  simp only [Article.toXml, h.suppl_note, Option.toList_none, List.map_nil, List.append_nil, List.mem_append,
    List.mem_singleton, List.mem_map] at hy
  rcases hy with (⟨c, hc, rfl⟩ | rfl) | ⟨c, hc, rfl⟩
  · rcases h.caption with h | ⟨s, h⟩
    · rw [h] at hc; cases hc
    · rw [h] at hc
      cases List.mem_singleton.1 hc
      refine (height_element (k := 0) fun x hx => ?_).trans (by decide)
      cases List.mem_singleton.1 hx
      exact Nat.le_refl 0
  · rw [h.title]
    exact (plainText_height _ _).trans (by decide)
  · rw [hp] at hc
    rcases List.mem_cons.1 hc with rfl | hc
    · exact paragraph_height hb
    · obtain ⟨s, hs⟩ := hr c hc
      exact paragraph_height hs

theorem unit_height {γ : Type} {child isArticle : γ → Prop} {tag titleTag : String}
    {childXml : γ → Element} {k : Nat} (hk : 1 ≤ k)
    (hg : ∀ y, child y → (childXml y).node.height ≤ k) {x : HierOf L γ}
    (h : UnitBuilt child isArticle x) : (x.toXml tag titleTag childXml).node.height ≤ k + 1 := by
  obtain ⟨s, ht, -⟩ := h.title
  refine height_element fun y hy => ?_
  rcases List.mem_cons.1 hy with rfl | hy
  · rw [ht]
    exact (plainText_height _ _).trans hk
  · obtain ⟨c, hc, rfl⟩ := List.mem_map.1 hy
    exact hg c (h.children c hc)

theorem division_height {x : Division L} (h : DivisionBuilt x) :
    (Division.toXml x).node.height ≤ 16 :=
  unit_height (child := ArticleBuilt) (by decide) (fun y h => article_height (x := y) h) h

theorem subsection_height {x : Subsection L} (h : SubsectionBuilt x) :
    (Subsection.toXml x).node.height ≤ 17 :=
  unit_height (by decide) (fun y h => by
    cases y with
    | article a => exact (article_height h).trans (by decide)
    | division d => exact division_height h) h

theorem section_height {x : Section L} (h : SectionBuilt x) :
    (Section.toXml x).node.height ≤ 18 :=
  unit_height (by decide) (fun y h => by
    cases y with
    | article a => exact (article_height h).trans (by decide)
    | subsection d => exact subsection_height h
    | division d => cases h) h

theorem chapter_height {x : Chapter L} (h : ChapterBuilt x) :
    (Chapter.toXml x).node.height ≤ 19 :=
  unit_height (by decide) (fun y h => by
    cases y with
    | article a => exact (article_height h).trans (by decide)
    | section_ d => exact section_height h) h

theorem part_height {x : Part L} (h : PartBuilt x) : (Part.toXml x).node.height ≤ 20 :=
  unit_height (by decide) (fun y h => by
    cases y with
    | article a => exact (article_height h).trans (by decide)
    | chapter d => exact chapter_height h) h

theorem mainChild_height {x : MainProvisionContents L} (h : MainBuilt x) :
    x.toXml.node.height ≤ 20 := by
  cases x with
  | part v => exact part_height h
  | chapter v => exact (chapter_height h).trans (by decide)
  | section_ v => exact (section_height h).trans (by decide)
  | article v => exact (article_height h).trans (by decide)
  | paragraph v => cases h

theorem body_height {title : List Char} {x : LawBody L} (h : BodyBuilt title x) :
    x.toXml.node.height ≤ 22 := by
  refine height_element fun y hy => ?_
  simp only [LawBody.toXml, h.law_title, h.enact_statement, h.toc, h.suppl_provision, h.appdx_table,
    h.appdx_note, h.appdx_style, h.appdx, h.appdx_fig, h.appdx_format, Option.toList_none,
    Option.toList_some, List.map_nil, List.map_cons, List.append_nil, List.mem_append,
    List.mem_singleton, List.mem_map] at hy
  rcases hy with (rfl | ⟨p, hp, rfl⟩) | rfl
  · refine (height_element (k := 0) fun x hx => ?_).trans (by decide)
    cases List.mem_singleton.1 hx
    exact Nat.le_refl 0
  · refine (height_element (k := 14) fun z hz => ?_).trans (by decide)
    obtain ⟨q, hq, rfl⟩ := List.mem_map.1 hz
    obtain ⟨i, hi⟩ := List.mem_iff_getElem?.1 hq
    obtain ⟨s, w, hw, rfl⟩ := (h.preamble p (by simpa using hp)).2 i q hi
    refine paragraphs_height rfl rfl rfl rfl rfl (fun v hv => ?_) nofun
    cases List.mem_singleton.1 hv
    exact said_height hw
  · refine height_element fun z hz => ?_
    obtain ⟨q, hq, rfl⟩ := List.mem_map.1 hz
    exact mainChild_height (h.children q hq)

theorem law_height {title : List Char} {x : Law L} (h : BodyBuilt title x.law_body) :
    x.toXml.node.height ≤ 23 ∧ (unblankLaw x).toXml.node.height ≤ 23 := by
  have key : ∀ y : Law L, y.law_body.toXml.node.height ≤ 22 → y.toXml.node.height ≤ 23 := by
    intro y hy
    rw [law_children]
    refine height_element fun z hz => ?_
    rcases List.mem_cons.1 hz with rfl | hz
    · refine (height_element (k := 0) fun x hx => ?_).trans (by decide)
      cases List.mem_singleton.1 hx
      exact Nat.le_refl 0
    · cases List.mem_singleton.1 hz
      exact hy
  refine ⟨key x (body_height h), key _ ?_⟩
  rw [show (unblankLaw x).law_body = unblankBody x.law_body from rfl, ← body_settled h]
  exact (height_settle _).trans (body_height h)

/-! ## C93 -/

/-- **C93.** A law that `parse_text` builds has at most 23 levels of elements. -/
theorem C93_levels (E : Ext) (cal : Calendar) (fuel : Nat) (text : List Char)
    (year : Usize) (month day : Option Usize) (lawType : LawType) (lang : Lang)
    (num : Option ArticleNumber) (lawNum : String) (title : List Char) (x : Law L)
    (h : parseText E cal fuel text year month day lawType lang num lawNum title = .ok (some x)) :
    x.toXml.node.height ≤ 23 :=
  (law_height (C72_shape E fuel title text _
    (C57_header E cal fuel text year month day lawType lang num lawNum title x h).2.2.2.2.2.2.2.2)).1

/-- **C93.** A law that `parse_text` builds comes back from the XML file that is written for it as the
same law without its blank texts, exactly if it comes back unchanged from the element written for it,
that is (C58) if it was given a number, and this number and those of all headings, articles and
paragraphs that were used have no range or exactly one branch number. -/
theorem C93_from_text (d : Nat) (E : Ext) (cal : Calendar) (fuel : Nat) (text : List Char)
    (year : Usize) (month day : Option Usize) (lawType : LawType) (lang : Lang)
    (num : Option ArticleNumber) (lawNum : String) (title : List Char) (x : Law (lvl d))
    (h : parseText E cal fuel text year month day lawType lang num lawNum title = .ok (some x))
    (hd : 23 ≤ d) :
    (Law.parser (settle x.toXml) = .ok (unblankLaw x) ↔ Law.parser x.toXml = .ok x) ∧
    ∃ ls, readLines E text = .ok ls ∧
      (Law.parser (settle x.toXml) = .ok (unblankLaw x) ↔
        (∃ n, num = some n ∧ (n.range_end_numbers = [] ∨ n.eda_numbers.length = 1)) ∧
        ∀ l ∈ used start ls, ∀ n, Spec.numberOf l = some n →
          n.range_end_numbers = [] ∨ n.eda_numbers.length = 1) := by
  have hb := C72_shape E fuel title text _
    (C57_header E cal fuel text year month day lawType lang num lawNum title x h).2.2.2.2.2.2.2.2
  have key : Law.parser (settle x.toXml) = .ok (unblankLaw x) ↔ Law.parser x.toXml = .ok x := by
    rw [law_settled hb, C88_survives_keeps d _ ((law_height hb).2.trans hd), unblankLaw_keeps, C28_law_survives]
    exact and_iff_left (law_quiet hb)
  obtain ⟨ls, hls, hi⟩ := C58_law_from_text_survives d E cal fuel text year month day lawType lang num
    lawNum title x h
  exact ⟨key, ls, hls, key.trans hi⟩

/-- **C93.** From then on the law comes back unchanged from its files. -/
theorem C93_then_unchanged (d : Nat) (E : Ext) (cal : Calendar) (fuel : Nat) (text : List Char)
    (year : Usize) (month day : Option Usize) (lawType : LawType) (lang : Lang)
    (num : Option ArticleNumber) (lawNum : String) (title : List Char) (x y : Law (lvl d))
    (h : parseText E cal fuel text year month day lawType lang num lawNum title = .ok (some x))
    (hd : 23 ≤ d) (hx : Law.parser x.toXml = .ok x) (hy : Law.parser (settle x.toXml) = .ok y) :
    Law.parser (settle y.toXml) = .ok y := by
  have hb := C72_shape E fuel title text _
    (C57_header E cal fuel text year month day lawType lang num lawNum title x h).2.2.2.2.2.2.2.2
  have h1 := (C93_from_text d E cal fuel text year month day lawType lang num lawNum title x h hd).1.2 hx
  rw [h1] at hy
  cases hy
  rw [← law_settled hb, h1]

/-- **C93.** The same for files, with an XML reader that gives back what a file keeps of the document
that is written. -/
theorem C93_files (d : Nat) (E : Ext) (cal : Calendar) (fuel : Nat) (text : List Char)
    (year : Usize) (month day : Option Usize) (lawType : LawType) (lang : Lang)
    (num : Option ArticleNumber) (lawNum : String) (title : List Char) (x : Law (lvl d))
    (h : parseText E cal fuel text year month day lawType lang num lawNum title = .ok (some x))
    (hd : 23 ≤ d) (emit : Element → Emit) (parse : ByteArray → Option Element) (s : String)
    (_hs : toXmlString emit x = .ok s) (hp : parse s.toByteArray = some (settle x.toXml))
    (file : String → Option ByteArray) (path : String) (hf : file path = some s.toByteArray)
    (hx : Law.parser x.toXml = .ok x) :
    parseXmlFile parse file path = .ok (unblankLaw x) := by
  rw [parseXmlFile, hf]
  show parseXml parse s.toByteArray = .ok (unblankLaw x)
  rw [parseXml, hp]
  exact (C93_from_text d E cal fuel text year month day lawType lang num lawNum title x h hd).1.2 hx

/-! ## Examples -/

/-- The text of the examples: a caption, an article with an item and an empty line. -/
def blankLineText : List Char := "（甲）\n第一条　乙\n一　丙\n\n第二条　丁".toList

/-- Its lines. -/
theorem blankLineText_lines : readLines kanjiExt blankLineText =
    .ok [.caption "甲".toList, .article ⟨1, [], []⟩ "乙".toList,
      .item ⟨"一".toList, 1, [], [], .noParenKansuji⟩ "丙".toList, .text [],
      .article ⟨2, [], []⟩ "丁".toList] := by decide +kernel

/-- A law is built from it. -/
def blankLineLaw : Res (Option (Law (lvl 23))) :=
  parseText kanjiExt reiwaCalendar 9 blankLineText 5 none none .act .ja (some ⟨1, [], []⟩) "" "法".toList

/-- What is found in the titles of articles and in the sentences of the first item of a law. -/
def titlesAndItem (x : Law (lvl 23)) : List Nat × List (List Nat) :=
  let as := (articleListFromMainProvision x.law_body.main_provision).1
  (as.map fun a => a.title.contents.length, as.flatMap fun a => a.paragraph.flatMap fun p =>
    p.children.map fun i => match i.sentence with
      | .sentence l => l.map fun s => s.contents.length
      | _ => [])

/-- The law has two empty titles and an empty sentence, that are not in the law that comes back. -/
example : (match blankLineLaw with
    | .ok (some x) => (some (titlesAndItem x), some (titlesAndItem (unblankLaw x)))
    | _ => (none, none)) = (some ([1, 1], [[1, 1]]), some ([0, 0], [[1, 0]])) := by decide +kernel

/-- The conditions of `C93_from_text` hold for it. -/
example : ∀ l ∈ used start [.caption "甲".toList, .article ⟨1, [], []⟩ "乙".toList,
      .item ⟨"一".toList, 1, [], [], .noParenKansuji⟩ "丙".toList, .text [],
      .article ⟨2, [], []⟩ "丁".toList], ∀ n, Spec.numberOf l = some n →
    n.range_end_numbers = [] ∨ n.eda_numbers.length = 1 := by
  decide +kernel

end JLaw
