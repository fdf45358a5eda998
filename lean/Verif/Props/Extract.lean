import Verif.Extract.Law
import Verif.Props.Rewrite
import Verif.Props.Utils

/-!
# C81, C82 and C83: articles, texts and tables of contents of a document

The functions of src/utils.rs work on the types of the crate. Here is what they give for a document
that has been read, as a function of the document alone (`Spec.Doc`).
-/

namespace JLaw

open Spec.Doc
open Spec (rewriteNode rewrite isNamed kidsOf isElement accepts Accepted)

/-! ## C81: lists of articles and groups of paragraphs -/

/-- **C81.** The numbered list from the main provision of a law that has been read has the articles
of the document in their order, each with the numbers of the children on the way to it, and each
article is written as the table `Spec.layouts` says. The groups are those of the paragraphs between
parts, chapters, sections and articles. -/
theorem C81_main_provision (n : Nat) (e : Element) (hn : e.node.height ≤ n) (x : Law (lvl n))
    (h : Law.parser e = .ok x) :
    (withNumberArticleListFromMainProvision x.law_body.main_provision).1.map
        WithNumberArticle.numbered =
      ((mainOf e).flatMap (numberedIn asRead)).map Numbered.rewritten ∧
    (articleListFromMainProvision x.law_body.main_provision).1.map (fun a => a.toXml.node) =
      (articlesAmong (mainOf e)).map rewriteNode ∧
    (articleListFromMainProvision x.law_body.main_provision).2.map
        (fun g => g.map fun p => p.toXml.node) =
      (paragraphGroups cutsMain [] (mainOf e)).map fun g => g.map rewriteNode := by
  obtain ⟨⟨s, h1, h2, h3⟩, -⟩ := Law.provisions (ite_eq_ok h).1 (C77_law_rewritten n e hn x h)
  obtain ⟨a, c, rfl⟩ := named_of h2
  obtain ⟨f1, f2⟩ := MainProvision.found (h3 ▸ main_kids a c)
  rw [h1]
  refine ⟨f1, ?_, f2⟩
  have := congrArg (fun l => l.map fun r => r.article) f1
  simp only [List.map_map] at this
  show ((withNumberArticleListFromMainProvision x.law_body.main_provision).1.map
    fun w => w.article).map _ = _
  rw [List.map_map]
  refine this.trans ?_
  rw [articlesAmong_eq, ← funext (numberedIn_articles asRead), List.map_flatMap, List.map_flatMap]
  simp only [List.map_map]
  rfl

/-- **C81.** The same for the supplementary provisions, which are those of the document in their
order. -/
theorem C81_suppl_provisions (n : Nat) (e : Element) (hn : e.node.height ≤ n) (x : Law (lvl n))
    (h : Law.parser e = .ok x) :
    List.Forall₂ (fun s y =>
      (withNumberArticleListFromSupplProvision y).1.map WithNumberArticle.numbered =
        ((supplKids s).flatMap (numberedIn asRead)).map Numbered.rewritten ∧
      (articleListFromSupplProvision y).1.map (fun a => a.toXml.node) =
        (articlesAmong (supplKids s)).map rewriteNode ∧
      (articleListFromSupplProvision y).2.map (fun g => g.map fun p => p.toXml.node) =
        (paragraphGroups cutsSuppl [] (supplKids s)).map fun g => g.map rewriteNode)
      (supplsOf e) x.law_body.suppl_provision := by
  obtain ⟨-, hs⟩ := Law.provisions (ite_eq_ok h).1 (C77_law_rewritten n e hn x h)
  refine hs.imp fun s y h => ?_
  obtain ⟨f1, f2⟩ := SupplProvision.found h.1 h.2
  obtain ⟨g1, g2⟩ := C40_suppl_provision y
  rw [← g1, ← g2]
  refine ⟨f1, ?_, f2⟩
  have := congrArg (fun l => l.map fun r => r.article) f1
  simp only [List.map_map] at this
  rw [List.map_map]
  refine this.trans ?_
  rw [articlesAmong_eq, ← funext (numberedIn_articles asRead), List.map_flatMap, List.map_flatMap]
  simp only [List.map_map]
  rfl

/-! ## C82: plain text -/

/-- **C82.** The text of an article that has been read is that of the document, and so are the
entries from which it is made. -/
theorem C82_article (n : Nat) (e : Element) (hn : e.node.height ≤ n) (x : Article (lvl n))
    (h : Article.parser e = .ok x) :
    textFromArticle (render n) x = articleText asRead e.node ∧
    (textInfoListFromParagraph (render n) x.paragraph).map TextIndex.entry =
      (tagged "Paragraph" e.children).flatMap (paragraphEntries asRead) := by
  have h1 := (C77_parts_rewritten n e hn).1 x h
  have h2 : isNamed ["Article"] e.node = true := by
    rw [← isNamed_rewrite (by decide), rewriteNode_node, ← h1]
    rfl
  exact Article.text_found (render_fits n) h2 (by rw [rewriteNode_node, h1])

/-- **C82.** The text of a paragraph that has been read is that of the document: an entry for the
sentences and one for each item, with the numbers on the way to it. -/
theorem C82_paragraph (n : Nat) (e : Element) (hn : e.node.height ≤ n) (x : Paragraph (lvl n))
    (h : Paragraph.parser e = .ok x) :
    textFromParagraphList (render n) [x] = paragraphsText asRead [e.node] ∧
    (textInfoListFromParagraph (render n) [x]).map TextIndex.entry = paragraphEntries asRead e.node := by
  have h1 := (C77_parts_rewritten n e hn).2.1 x h
  have h2 : isNamed ["Paragraph"] e.node = true := by
    rw [← isNamed_rewrite (by decide), rewriteNode_node, ← h1]
    rfl
  obtain ⟨f1, f2⟩ := paragraphs_found (render_fits n) (l := [x]) (g := [e.node])
    (by simpa using h2) (by rw [List.map_singleton, List.map_singleton, rewriteNode_node, h1])
  exact ⟨f1, by rw [f2, List.flatMap_singleton]⟩

/-- **C82.** The texts of the articles and of the groups of paragraphs of the main provision of a law
that has been read are those of the document. -/
theorem C82_main_provision (n : Nat) (e : Element) (hn : e.node.height ≤ n) (x : Law (lvl n))
    (h : Law.parser e = .ok x) :
    (articleListFromMainProvision x.law_body.main_provision).1.map (textFromArticle (render n)) =
      (articlesAmong (mainOf e)).map (articleText asRead) ∧
    (articleListFromMainProvision x.law_body.main_provision).2.map
        (textFromParagraphList (render n)) =
      (paragraphGroups cutsMain [] (mainOf e)).map (paragraphsText asRead) := by
  obtain ⟨-, h1, h2⟩ := C81_main_provision n e hn x h
  exact ⟨articles_found (render_fits n) (articlesAmong_named _) h1,
    groups_found (render_fits n) (paragraphGroups_named _ [] nofun) h2⟩

/-- **C82.** The same for the supplementary provisions. -/
theorem C82_suppl_provisions (n : Nat) (e : Element) (hn : e.node.height ≤ n) (x : Law (lvl n))
    (h : Law.parser e = .ok x) :
    List.Forall₂ (fun s y =>
      (articleListFromSupplProvision y).1.map (textFromArticle (render n)) =
        (articlesAmong (supplKids s)).map (articleText asRead) ∧
      (articleListFromSupplProvision y).2.map (textFromParagraphList (render n)) =
        (paragraphGroups cutsSuppl [] (supplKids s)).map (paragraphsText asRead))
      (supplsOf e) x.law_body.suppl_provision :=
  (C81_suppl_provisions n e hn x h).imp fun _ _ ⟨_, h1, h2⟩ =>
    ⟨articles_found (render_fits n) (articlesAmong_named _) h1,
      groups_found (render_fits n) (paragraphGroups_named _ [] nofun) h2⟩

/-! ## C83: generated tables of contents -/

/-- What the entry of a table of contents for a unit of a document holds. -/
def TocEntry (p : List LawUnit × LawUnit) (t : Toc) : Prop :=
  t.title = some p.2.title ∧
  t.article_number = none ∧
  t.part_number.map ArticleNumber.numStr = numberOn "Part" p ∧
  t.section_number.map ArticleNumber.numStr = numberOn "Section" p ∧
  t.subsection_number.map ArticleNumber.numStr = numberOn "Subsection" p ∧
  (numberOn "Chapter" p ≠ none ∨ numberOn "Part" p = none →
    t.chapter_number.map ArticleNumber.numStr = numberOn "Chapter" p) ∧
  (p.2.tag = "Article" ∨ p.2.tag = "Division" →
    t.division_number.map ArticleNumber.numStr = p.2.num)

theorem TocFits.entry {R : Render L} {p : List (UnitHead L) × UnitHead L} {t : Toc}
    (h : TocFits R p t) : TocEntry (unitPath R p) t := by
  obtain ⟨⟨h1, h2, h3, h4, h5⟩, h6, h7⟩ := h
  refine ⟨h6, h1, ?_, ?_, ?_, ?_, ?_⟩
  · rw [h2]; exact (numberOn_path .part p).symm
  · rw [h3]; exact (numberOn_path .section_ p).symm
  · rw [h4]; exact (numberOn_path .subsection p).symm
  · intro h
    rw [h5]
    · exact (numberOn_path .chapter p).symm
    · refine h.imp ?_ ?_
      · intro h e
        exact h ((numberOn_path .chapter p).trans (by rw [e]; rfl))
      · intro h
        have := (numberOn_path (R := R) .part p).symm.trans h
        simpa using this
  · intro h
    rw [h7]
    · rfl
    · have : p.2.kind.tag = "Article" ∨ p.2.kind.tag = "Division" := h
      revert this
      cases p.2.kind <;> decide

/-- **C83.** The table of contents generated from the main provision of a law that has been read has
one entry for each part, chapter, section, subsection, division and article of the document in their
order, with the text of its title and the numbers of `TocEntry`. -/
theorem C83_main_provision (n : Nat) (e : Element) (hn : e.node.height ≤ n) (x : Law (lvl n))
    (h : Law.parser e = .ok x) :
    List.Forall₂ TocEntry (unitsAmong asRead [] (mainOf e))
      (tocListFromMainProvision (render n) x.law_body.main_provision) := by
  obtain ⟨⟨s, h1, h2, h3⟩, -⟩ := Law.provisions (ite_eq_ok h).1 (C77_law_rewritten n e hn x h)
  obtain ⟨a, c, rfl⟩ := named_of h2
  rw [h1, ← MainProvision.found_units (c := kidsOf (.element "MainProvision" a c)) (render_fits n)
    (h3 ▸ main_kids a c), List.forall₂_map_left_iff]
  exact (toc_main _).imp fun _ _ => TocFits.entry

/-- **C83.** The same for the supplementary provisions. -/
theorem C83_suppl_provisions (n : Nat) (e : Element) (hn : e.node.height ≤ n) (x : Law (lvl n))
    (h : Law.parser e = .ok x) :
    List.Forall₂ (fun s y => List.Forall₂ TocEntry (unitsAmong asRead [] (supplKids s))
      (tocListFromSupplProvision (render n) y)) (supplsOf e) x.law_body.suppl_provision := by
  obtain ⟨-, hs⟩ := Law.provisions (ite_eq_ok h).1 (C77_law_rewritten n e hn x h)
  refine hs.imp fun s y h => ?_
  rw [← SupplProvision.found_units (render_fits n) h.1 h.2, List.forall₂_map_left_iff]
  exact (toc_suppl _).imp fun _ _ => TocFits.entry

/-! ## Examples -/

/-- A cell with the given text. -/
def wordCell (s : String) : XMLNode := plainNode "TableColumn" [.text s]

/-- A law with a loose paragraph, a part with a title with ruby, a chapter, an article in it and one
after it, an item with columns and subitems with a table and with subscripts, and a supplementary
provision with a paragraph before and after an article. -/
def fullDoc : Element :=
  lawDoc [] [paraNode "+1" [],
    .element "Part" [("Num", "01")]
      [plainNode "PartTitle" [.text "第一", plainNode "Ruby" [.text "編", plainNode "Rt" [.text "へん"]]],
        .element "Chapter" [("Num", "2")]
          [plainNode "ChapterTitle" [.text "章"],
            articleNode "1" [paraNode "1" [.element "Item" [("Num", "1")]
              [plainNode "ItemTitle" [], plainNode "ItemSentence"
                [plainNode "Column" [plainNode "Sentence" [.text "甲"]],
                  plainNode "Column" [plainNode "Sentence" [.text "乙"]]],
                .element "Subitem1" [("Num", "+1")]
                  [plainNode "Subitem1Title" [], plainNode "Subitem1Sentence"
                    [plainNode "Table" [plainNode "TableRow" [wordCell "丙", wordCell "丁"]]]],
                .element "Subitem1" [("Num", "2")]
                  [plainNode "Subitem1Title" [], plainNode "Subitem1Sentence"
                    [plainNode "Sentence" [.text "CO", plainNode "Sub" [.text "2"]]]]]]]],
        articleNode "2" [paraNode "1" []]]]
    [.element "SupplProvision" [("Type", "New")]
      [plainNode "SupplProvisionLabel" [.text "附則"], paraNode "1" [], articleNode "3" [paraNode "1" []],
        paraNode "2" []]]

/-- The theorems above apply to `fullDoc`. -/
example : fullDoc.node.height ≤ 16 ∧ fullDoc.name = "Law" ∧ accepts fullDoc.node = true ∧
    ¬ fullDoc.HasBareArticle :=
  ⟨by decide +kernel, rfl, by decide +kernel, not_bare (by decide +kernel)⟩

/-- The articles of `fullDoc` and the numbers reported with them, and the groups of paragraphs. -/
example : ((mainOf fullDoc).flatMap (numberedIn asRead)).map (fun r => r.nums) =
      [[("Part", some "2"), ("Chapter", some "1")], [("Part", some "2")]] ∧
    (paragraphGroups cutsMain [] (mainOf fullDoc)).map (fun g => g.map (attrOf "Num")) =
      [[some "+1"], []] ∧
    (supplsOf fullDoc).map (fun s => (paragraphGroups cutsSuppl [] (supplKids s)).map
      fun g => g.map (attrOf "Num")) = [[[some "1"], [some "2"]]] := by
  decide +kernel

/-- The texts of the articles and of the groups of paragraphs of `fullDoc`. -/
example : (articlesAmong (mainOf fullDoc)).map (articleText asRead) =
      ["本文\n甲 乙\n\n丙 丁\nCO_{2}", "本文"] ∧
    (paragraphGroups cutsMain [] (mainOf fullDoc)).map (paragraphsText asRead) = ["本文", ""] ∧
    (supplsOf fullDoc).map (fun s => (articlesAmong (supplKids s)).map (articleText asRead)) =
      [["本文"]] := by
  decide +kernel

/-- The entries of the first article. -/
example : ((articlesAmong (mainOf fullDoc)).take 1).map (fun a =>
      (tagged "Paragraph" (kidsOf a)).flatMap (paragraphEntries asRead)) =
    [[⟨some "1", [], "本文"⟩, ⟨some "1", [some "1"], "甲 乙"⟩,
      ⟨some "1", [some "1", some "1"], "\n丙 丁"⟩, ⟨some "1", [some "1", some "2"], "CO_{2}"⟩]] := by
  decide +kernel

/-- The units of `fullDoc`. -/
example : (unitsAmong asRead [] (mainOf fullDoc)).map (fun p => (p.2, numberOn "Part" p,
      numberOn "Chapter" p)) =
    [(⟨"Part", some "1", "第一編"⟩, some "1", none), (⟨"Chapter", some "2", "章"⟩, some "1", some "2"),
      (⟨"Article", some "1", "第一条"⟩, some "1", some "2"),
      (⟨"Article", some "2", "第一条"⟩, some "1", none)] := by
  decide +kernel

end JLaw
