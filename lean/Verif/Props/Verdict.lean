import Verif.Model.Io
import Verif.Props.Accept
import Verif.Reading.Blame
import Verif.Reading.VerdictLaw

/-!
# C78, C79: what reading a document leads to, and whether the errors are true

`Spec.judgeLaw` computes from a document, with the rules of `Spec.rules` and the tables of
`Spec/Verdict.lean`, whether it is read, which error is reported, or whether the program panics.
-/

namespace JLaw

open Spec

/-- **C78.** Reading a document gives a value, an error or a panic as the table says, and the error
is the one of the table. -/
theorem C78_outcome (n : Nat) (e : Element) (hn : e.node.height ≤ n) :
    match judgeLaw e with
    | .fine => ∃ x : Law (lvl n), Law.parser e = .ok x
    | .wrong E => Law.parser (L := lvl n) e = .err E
    | .crash => Law.parser (L := lvl n) e = .panic := by
  have h : Says (Law.parser (L := lvl n) e) (judgeLaw e) := by
    unfold judgeLaw
    split
    · next ht => exact Law.judged (lvl_judges n) ⟨rfl, hn, fun _ => trivial⟩ ht
    · next ht =>
      unfold Law.parser
      rw [if_neg ht]
      exact Says.err _
  split <;> next hj => rw [hj] at h; exact h

/-- **C78.** Which documents are read, without further conditions. -/
theorem C78_read_iff (n : Nat) (e : Element) (hn : e.node.height ≤ n) :
    (∃ x : Law (lvl n), Law.parser e = .ok x) ↔ judgeLaw e = .fine := by
  have h := C78_outcome n e hn
  constructor
  · rintro ⟨x, hx⟩
    split at h
    · assumption
    · rw [hx] at h; cases h
    · rw [hx] at h; cases h
  · intro hj
    rw [hj] at h
    exact h

/-- **C78.** Which error is reported. -/
theorem C78_error_iff (n : Nat) (e : Element) (hn : e.node.height ≤ n) (E : Err) :
    Law.parser (L := lvl n) e = .err E ↔ judgeLaw e = .wrong E := by
  have h := C78_outcome n e hn
  constructor
  · intro hx
    split at h
    · obtain ⟨x, h⟩ := h; rw [hx] at h; cases h
    · rw [hx] at h; cases h; assumption
    · rw [hx] at h; cases h
  · intro hj
    rw [hj] at h
    exact h

/-- **C78.** Which documents make the program panic. -/
theorem C78_panic_iff (n : Nat) (e : Element) (hn : e.node.height ≤ n) :
    Law.parser (L := lvl n) e = .panic ↔ judgeLaw e = .crash := by
  have h := C78_outcome n e hn
  constructor
  · intro hx
    split at h
    · obtain ⟨x, h⟩ := h; rw [hx] at h; cases h
    · rw [hx] at h; cases h
    · assumption
  · intro hj
    rw [hj] at h
    exact h

/-- **C78.** A document is fine exactly if it is a law that obeys the rules, unless there are
articles without contents. -/
theorem C78_fine_iff (e : Element) (hb : ¬ e.HasBareArticle) :
    judgeLaw e = .fine ↔ e.name = "Law" ∧ Accepted e := by
  rw [← C78_read_iff _ e (Nat.le_refl _), C74_read_iff _ e (Nat.le_refl _) hb]

/-- **C78.** A document that makes the program panic has no number or an article without
contents. -/
theorem C78_crash (e : Element) (h : judgeLaw e = .crash) :
    e.attributes.get "Num" = none ∨ e.HasBareArticle := by
  have hp := (C78_panic_iff _ e (Nat.le_refl _)).2 h
  by_contra hc
  rw [not_or] at hc
  rcases C29_law_value_or_error _ e (Nat.le_refl _) hc.1 hc.2 with ⟨x, hx⟩ | ⟨E, hx⟩
  · rw [hp] at hx; cases hx
  · rw [hp] at hx; cases hx

/-- **C78** for articles, paragraphs and items. -/
theorem C78_article_paragraph_item (n : Nat) (e : Element) (hn : e.node.height ≤ n) (E : Err) :
    (e.name = "Article" → (Article.parser (L := lvl n) e = .err E ↔ judge e.node = .wrong E)) ∧
    (e.name = "Paragraph" → (Paragraph.parser (L := lvl n) e = .err E ↔ judge e.node = .wrong E)) ∧
    (e.name = "Item" → (Item.parser (L := lvl n) e = .err E ↔ judge e.node = .wrong E)) := by
  have hf : Fine True n e e := ⟨rfl, hn, fun _ => trivial⟩
  have key : ∀ {α : Type} {r : Res α} {v : Verdict}, Says r v → (r = .err E ↔ v = .wrong E) := by
    intro α r v h
    cases v with
    | fine => obtain ⟨x, rfl⟩ := h; simp
    | wrong E' => cases h; simp
    | crash => cases h; simp
  exact ⟨fun h => key (Article.judged (lvl_judges n) hf h),
    fun h => key (Paragraph.judged (lvl_judges n) hf h),
    fun h => key (Item.judged (lvl_judges n) hf h)⟩

/-- **C78.** A report on a law is none of the two about files. -/
theorem judgeLaw_proper {e : Element} : judgeLaw e ≠ .wrong .io ∧ judgeLaw e ≠ .wrong .xmlParsing := by
  have key : ∀ E, (E = .io ∨ E = .xmlParsing) → judgeLaw e ≠ .wrong E := by
    intro E hE h
    unfold judgeLaw at h
    split at h
    · obtain ⟨x, r, -, -, h | h⟩ := judge_wrong h
      · rcases hE with rfl | rfl <;> exact h
      · rcases hE with rfl | rfl <;> cases h
    · rcases hE with rfl | rfl <;> cases h
  exact ⟨key _ (.inl rfl), key _ (.inr rfl)⟩

/-- **C78.** What `parse_xml_file` leads to: the input/output error exactly if the file cannot be
read, the XML error exactly if it is no XML, and otherwise what the table says of the document. -/
theorem C78_file (n : Nat) (parse : ByteArray → Option Element) (file : String → Option ByteArray)
    (path : String)
    (hn : ∀ b e, file path = some b → parse b = some e → e.node.height ≤ n) :
    (parseXmlFile (L := lvl n) parse file path = .err .io ↔ file path = none) ∧
    (parseXmlFile (L := lvl n) parse file path = .err .xmlParsing ↔
      ∃ b, file path = some b ∧ parse b = none) ∧
    (∀ E, E ≠ .io → E ≠ .xmlParsing → (parseXmlFile (L := lvl n) parse file path = .err E ↔
      ∃ b e, file path = some b ∧ parse b = some e ∧ judgeLaw e = .wrong E)) ∧
    ((∃ x, parseXmlFile (L := lvl n) parse file path = .ok x) ↔
      ∃ b e, file path = some b ∧ parse b = some e ∧ judgeLaw e = .fine) ∧
    (parseXmlFile (L := lvl n) parse file path = .panic ↔
      ∃ b e, file path = some b ∧ parse b = some e ∧ judgeLaw e = .crash) := by
  unfold parseXmlFile parseXml
  cases hb : file path with
  | none =>
    simp only [Res.ofOption, Res.bind]
    simp +contextual [eq_comm]
  | some b =>
    simp only [Res.ofOption, Res.bind, Option.some.injEq, exists_eq_left']
    cases he : parse b with
    | none =>
      simp +contextual [he, eq_comm]
    | some e =>
      have hh := hn b e hb he
      have hj := judgeLaw_proper (e := e)
      simp only [C78_error_iff n e hh, C78_read_iff n e hh, C78_panic_iff n e hh]
      simp [hj.1, hj.2, he]

/-! ## C79 -/

/-- **C79.** An error that is reported either is the one for a document that is no law, or there is
an element that is read of which it is true, or which is one of those that are misreported. -/
theorem C79_truthful (n : Nat) (e : Element) (hn : e.node.height ≤ n) (E : Err)
    (h : Law.parser (L := lvl n) e = .err E) :
    (e.name ≠ "Law" ∧ E = .wrongTagName e.name "Law") ∨
    ∃ x r, Reached e x ∧ rules.lookup x.name = some r ∧ (E.TrueOf x r ∨ Misreport x r E) := by
  rw [C78_error_iff n e hn, judgeLaw] at h
  split at h
  · exact .inr (judge_wrong h)
  · next ht => cases h; exact .inl ⟨ht, rfl⟩

theorem missingNames_foreign : ∀ p ∈ rules, ∀ s, missingNames.lookup p.1 = some s →
    (∀ g ∈ p.2.must, s ∉ g) ∧ s ∉ p.2.first := by
  have h : ∀ p ∈ rules, (missingNames.lookup p.1).all fun s =>
      p.2.must.all (fun g => !g.contains s) && !p.2.first.contains s := by decide +kernel
  intro p hp s hs
  have := h p hp
  rw [hs] at this
  simpa using this

theorem own_first : ∀ p ∈ rules, p.1 ∉ p.2.first := by decide +kernel

/-- **C79.** What is misreported is not true of the element. -/
theorem C79_misreport_untrue (x : Element) (r : Rule) (E : Err)
    (hr : rules.lookup x.name = some r) (h : Misreport x r E) : ¬ E.TrueOf x r := by
  intro ht
  cases h with
  | type hn _ =>
    have := ht.1
    rw [hn] at this
    exact absurd this (by decide)
  | missing _ hs =>
    obtain ⟨h1, h2⟩ := missingNames_foreign _ (mem_of_lookup hr) _ hs
    rcases ht with ⟨g, hg, ht⟩ | ⟨i, hi, -⟩
    · exact h1 g hg.1 ht
    · exact h2 (List.mem_of_getElem? hi)
  | amendSentence hn _ =>
    rw [hn] at hr
    cases hr
    rcases ht with ⟨g, hg, -⟩ | ⟨i, hi, -⟩
    · exact absurd hg.1 (by simp)
    · exact absurd (List.mem_of_getElem? hi) (by decide)
  | list hs _ hl =>
    obtain ⟨-, ⟨hk, -⟩ | ⟨i, hi, htag⟩⟩ := ht
    all_goals
      have hm := mem_of_lookup hs
      simp only [listParts, List.mem_cons, List.not_mem_nil, or_false, Prod.mk.injEq] at hm
      rcases hm with ⟨h, rfl⟩ | ⟨h, rfl⟩ | ⟨h, rfl⟩ | ⟨h, rfl⟩
      all_goals
        have hr' := hr
        rw [h] at hr'
        cases hr'
    · exact absurd hk (by decide)
    · exact absurd hk (by decide)
    · exact absurd hk (by decide)
    · exact absurd hk (by decide)
    · exact absurd (List.mem_of_getElem? hi) (by decide)
    all_goals
      have h0 : i = 0 := by
        obtain ⟨hlt, -⟩ := List.getElem?_eq_some_iff.1 hi
        simpa [listRule] using hlt
      rw [h0] at htag
      rcases hl with hl | hl
      · rw [h] at hl; exact absurd hl (by decide)
      · exact hl htag
  | first hi _ _ =>
    have := List.mem_of_getElem? hi
    rw [← ht.1] at this
    exact own_first _ (mem_of_lookup hr) this
  | outer ho _ =>
    have hm := mem_of_lookup ho
    rw [ht.1] at hm
    exact absurd hm ((by decide : ∀ p ∈ outerTags, p.1 ≠ p.2) _ · rfl)
  | same _ _ => exact ht.1 rfl

/-- **C79.** Errors that are reported and are true of no element of any document. -/
theorem C79_never_true (x : Element) (r : Rule) (hr : rules.lookup x.name = some r) :
    (∀ k, ¬ (Err.attributeParseError "SupplProbision" k).TrueOf x r) ∧
    (∀ s ∈ ["Sentence or Column or Table", "Sentence or Column", "Caption", "AmendProvision",
      "SupplProbisionAddxTableTitle", "SupplProbivionAppdxStyle"],
      ¬ (Err.missingRequiredTag s).TrueOf x r) ∧
    (∀ n, ¬ (Err.wrongTagName n "LiseSentence").TrueOf x r) ∧
    (∀ n, ¬ (Err.wrongTagName n n).TrueOf x r) ∧
    (∀ n, ∀ t ∈ ["LawNum", "PartTitle", "ChapterTitle", "SectionTitle", "SubsectionTitle",
      "DivisionTitle"], ¬ (Err.unexpectedTag n t).TrueOf x r) := by
  have hm := mem_of_lookup hr
  refine ⟨fun k h => ?_, fun s hs h => ?_, fun n h => ?_, fun n h => h.1 rfl, fun n t ht h => ?_⟩
  · rw [h.1] at hr
    exact absurd hr (by
      have : rules.lookup "SupplProbision" = none := by decide +kernel
      rw [this]
      nofun)
  · have := (by decide +kernel : ∀ p ∈ rules, ∀ s ∈ ["Sentence or Column or Table",
      "Sentence or Column", "Caption", "AmendProvision", "SupplProbisionAddxTableTitle",
      "SupplProbivionAppdxStyle"], (∀ g ∈ p.2.must, s ∉ g) ∧ s ∉ p.2.first) _ hm s hs
    rcases h with ⟨g, hg, h⟩ | ⟨i, hi, -⟩
    · exact this.1 g hg.1 h
    · exact this.2 (List.mem_of_getElem? hi)
  · have := (by decide +kernel : ∀ p ∈ rules, "LiseSentence" ∉ p.2.kids ∧
      "LiseSentence" ∉ p.2.first) _ hm
    rcases h.2 with ⟨hk, -⟩ | ⟨i, hi, -⟩
    · exact this.1 (by rw [hk]; simp)
    · exact this.2 (List.mem_of_getElem? hi)
  · obtain ⟨hn, y, ⟨-, -, s, hs, -⟩, -⟩ := h
    have := (by decide +kernel : ∀ p ∈ rules, p.1 ∈ ["LawNum", "PartTitle", "ChapterTitle",
      "SectionTitle", "SubsectionTitle", "DivisionTitle"] → p.2.skipped = none) _ hm
      (by simpa only [hn] using ht)
    rw [hs] at this
    cases this

/-! ## Examples -/

/-- A law with the given nodes in a paragraph. -/
def paraDoc (c : List XMLNode) : Element := lawDoc [] [.element "Paragraph" [("Num", "1")] c] []

/-- A law with an article that has a number with a letter and an unknown element: the number is
reported, with the part that is wrong. -/
example : judgeLaw (lawDoc [] [articleNode "1_2a:3" [plainNode "Foreign" []]] []) =
    .wrong (.parsingError "usize" "2a") := by decide +kernel

/-- An article without contents, and a law without a number. -/
example : judgeLaw (lawDoc [] [articleNode "1" []] []) = .crash ∧
    judgeLaw ⟨"Law", [("Era", "Reiwa"), ("Year", "5")], []⟩ = .crash ∧
    judgeLaw ⟨"Law", [("Era", "Reiwa"), ("Year", "")], []⟩ =
      .wrong (.attributeParseError "Law" "Year") := by decide +kernel

/-- `goodDoc` is fine, and the documents in `badDocs` give these errors. -/
example : judgeLaw goodDoc = .fine ∧ badDocs.map judgeLaw = [
    .wrong (.unexpectedTag "Foreign" "LawBody"), .wrong (.attributeParseError "Law" "Lang"),
    .wrong (.missingRequiredTag "MainProvision"), .wrong (.missingRequiredTag "ChapterTitle"),
    .wrong (.unexpectedTag "ArticleCaption" "Article"), .wrong (.parsingError "usize" "1a"),
    .wrong (.unexpectedTag "Division" "Part"),
    .wrong (.attributeParseError "SupplProbision" "Type"),
    .wrong (.attributeParseError "Line" "Style")] := by decide +kernel

/-- An article that can be read, quoted by a line in an enacting statement that cannot: the error is
passed over, the panic is not. -/
example : judgeLaw quotingDoc = .crash ∧ judgeLaw (lawDoc [plainNode "EnactStatement"
    [plainNode "Line" []]] [] []) = .fine := by decide +kernel

/-- Documents for all kinds of misreports, with the errors. -/
def misreported : List (Element × Err) := [
  (lawDoc [] [] [.element "SupplProvision" [("Type", "new")] []],
    .attributeParseError "SupplProbision" "Type"),
  (paraDoc [.element "Item" [("Num", "1")] [plainNode "ItemTitle" []]],
    .missingRequiredTag "Sentence or Column or Table"),
  (paraDoc [.element "Class" [("Num", "1")] []], .missingRequiredTag "Sentence or Column"),
  (lawDoc [plainNode "TOC" [.element "TOCArticle" [("Num", "1")] []]] [] [],
    .missingRequiredTag "Caption"),
  (lawDoc [] [] [plainNode "SupplProvision" [plainNode "SupplProvisionAppdxTable" []]],
    .missingRequiredTag "SupplProbisionAddxTableTitle"),
  (lawDoc [] [] [plainNode "SupplProvision" [plainNode "SupplProvisionAppdxStyle" []]],
    .missingRequiredTag "SupplProbivionAppdxStyle"),
  (paraDoc [plainNode "AmendProvision" [plainNode "AmendProvisionSentence" []]],
    .missingRequiredTag "AmendProvision"),
  (paraDoc [plainNode "List" [plainNode "Sentence" []]], .wrongTagName "List" "LiseSentence"),
  (paraDoc [plainNode "List" [plainNode "ListSentence" [], plainNode "Sublist1" []]],
    .wrongTagName "Sublist1" "Sublist1Sentence"),
  (lawDoc [] [.element "Part" [("Num", "1")] [plainNode "ChapterTitle" []]] [],
    .unexpectedTag "ChapterTitle" "PartTitle"),
  (⟨"Law", (lawDoc [] [] []).attributes, [plainNode "LawBody" []]⟩,
    .unexpectedTag "LawBody" "LawNum"),
  (paraDoc [plainNode "AmendProvision" [plainNode "NewProvision" [plainNode "Table" []]]],
    .unexpectedTag "Table" "AmendProvision"),
  (paraDoc [plainNode "List" [plainNode "ListSentence" [plainNode "Item" []]]],
    .unexpectedTag "Item" "List"),
  (lawDoc [] [] [plainNode "SupplProvision" [plainNode "SupplProvisionAppdxTable"
    [plainNode "Remarks" []]]], .wrongTagName "Remarks" "Remarks")]

/-- **C79.** These errors are reported. -/
theorem C79_misreported : ∀ p ∈ misreported, Law.parser (L := lvl 9) p.1 = .err p.2 := by
  have h : ∀ p ∈ misreported, p.1.node.height ≤ 9 ∧ judgeLaw p.1 = .wrong p.2 := by decide +kernel
  exact fun p hp => (C78_error_iff 9 p.1 (h p hp).1 p.2).2 (h p hp).2

/-- The article in the next example. -/
def strangeArticle : Element :=
  ⟨"Article", [("Num", "1")], [paraNode "1" [], plainNode "Item" []]⟩

/-- A report that is true, of the article in the law. -/
example : Law.parser (L := lvl 9) (lawDoc [] [strangeArticle.node] []) =
      .err (.unexpectedTag "Item" "Article") ∧
    Reached (lawDoc [] [strangeArticle.node] []) strangeArticle ∧
    (Err.unexpectedTag "Item" "Article").TrueOf strangeArticle articleRule := by
  refine ⟨(C78_error_iff 9 _ (by decide +kernel) _).2 (by decide +kernel),
    .step (x := ⟨"LawBody", [], [plainNode "MainProvision" [strangeArticle.node]]⟩) rfl
      (List.mem_append.2 (.inl ?_)) (.step (x := ⟨"MainProvision", [], [strangeArticle.node]⟩) rfl
      (List.mem_append.2 (.inr (List.mem_filter.2 ⟨?_, by decide⟩)))
      (.step (x := strangeArticle) rfl
        (List.mem_append.2 (.inr (List.mem_filter.2 ⟨?_, by decide⟩))) (.here _))),
    rfl, ⟨"Item", [], []⟩, ⟨?_, by decide, [], rfl, by simp⟩, rfl⟩
  · exact List.mem_cons_of_mem _ (List.mem_cons_self ..)
  · exact List.mem_cons_self ..
  · exact List.mem_cons_self ..
  · exact List.mem_cons_of_mem _ (List.mem_cons_self ..)

end JLaw
