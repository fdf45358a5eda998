import Verif.Props.Reading
import Verif.Props.Stable
import Verif.Reading.AcceptLaw

/-!
# C74: which documents are read

`Spec.rules` has a rule for every tag, and `Spec.Accepted` says that an element and the elements
below it that are read obey the rules. A document is read exactly if it is accepted.
-/

namespace JLaw

open Spec

/-- **C74.** A document that is read is a law that obeys the rules. -/
theorem C74_read_accepted (n : Nat) (e : Element) (hn : e.node.height ≤ n) (x : Law (lvl n))
    (h : Law.parser e = .ok x) : e.name = "Law" ∧ Accepted e := by
  have ht : e.name = "Law" := by
    unfold Law.parser at h
    split at h
    · assumption
    · cases h
  exact ⟨ht, (Law.takes (P := True) (lvl_takes _ n) ⟨rfl, hn, fun _ => trivial⟩ ht).sound ⟨x, h⟩⟩

/-- **C74.** A law that obeys the rules, without articles that have no contents, is read. -/
theorem C74_accepted_read (n : Nat) (e : Element) (hn : e.node.height ≤ n)
    (hb : ¬ e.HasBareArticle) (ht : e.name = "Law") (ha : Accepted e) :
    ∃ x : Law (lvl n), Law.parser e = .ok x :=
  (Law.takes (P := False) (lvl_takes _ n) ⟨rfl, hn, hb⟩ ht).complete ha |>.resolve_right fun h => h.1

/-- **C74.** Both directions together. -/
theorem C74_read_iff (n : Nat) (e : Element) (hn : e.node.height ≤ n)
    (hb : ¬ e.HasBareArticle) :
    (∃ x : Law (lvl n), Law.parser e = .ok x) ↔ e.name = "Law" ∧ Accepted e :=
  ⟨fun ⟨x, h⟩ => C74_read_accepted n e hn x h, fun h => C74_accepted_read n e hn hb h.1 h.2⟩

/-- **C74.** A document that does not obey the rules gives an error if it has a number and no
article without contents. -/
theorem C74_rejected (n : Nat) (e : Element) (hn : e.node.height ≤ n)
    (hb : ¬ e.HasBareArticle) (hnum : e.attributes.get "Num" ≠ none)
    (ha : ¬ (e.name = "Law" ∧ Accepted e)) :
    ∃ err, Law.parser (L := lvl n) e = .err err :=
  (C29_law_value_or_error n e hn hnum hb).resolve_left fun h =>
    ha ((C74_read_iff n e hn hb).1 h)

/-- **C74.** Whether a document is read does not depend on how many re-entries are allowed, once
there are enough. -/
theorem C74_bound_irrelevant (n m : Nat) (e : Element) (hn : e.node.height ≤ n)
    (hm : e.node.height ≤ m) (hb : ¬ e.HasBareArticle) :
    (∃ x : Law (lvl n), Law.parser e = .ok x) ↔ ∃ x : Law (lvl m), Law.parser e = .ok x :=
  (C74_read_iff n e hn hb).trans (C74_read_iff m e hm hb).symm

/-! ## Parts of documents -/

/-- **C74** for articles, paragraphs and items. -/
theorem C74_article_paragraph_item (n : Nat) (e : Element) (hn : e.node.height ≤ n)
    (hb : ¬ e.HasBareArticle) :
    ((∃ x : Article (lvl n), Article.parser e = .ok x) ↔ e.name = "Article" ∧ Accepted e) ∧
    ((∃ x : Paragraph (lvl n), Paragraph.parser e = .ok x) ↔ e.name = "Paragraph" ∧ Accepted e) ∧
    ((∃ x : Item (lvl n), Item.parser e = .ok x) ↔ e.name = "Item" ∧ Accepted e) := by
  have hf : Fine False n e e := ⟨rfl, hn, hb⟩
  have key : ∀ {α : Type} {p : Element → Res α} {t : String},
      (∀ v, p e = .ok v → e.name = t) → (e.name = t → Exact False (p e) (Accepted e)) →
      ((∃ x, p e = .ok x) ↔ e.name = t ∧ Accepted e) := by
    intro α p t h1 h2
    constructor
    · rintro ⟨x, h⟩
      exact ⟨h1 x h, (h2 (h1 x h)).sound ⟨x, h⟩⟩
    · rintro ⟨h, ha⟩
      exact ((h2 h).complete ha).resolve_right fun h => h.1
  refine ⟨key (fun v h => ?_) fun h => Article.takes (lvl_takes _ n) hf h,
    key (fun v h => ?_) fun h => Paragraph.takes (lvl_takes _ n) hf h,
    key (fun v h => ?_) fun h => Item.takes (lvl_takes _ n) hf h⟩
  all_goals
    by_contra hne
    first
    | rw [Article.parser, if_neg hne] at h
    | rw [Paragraph.parser, if_neg hne] at h
    | rw [Item.parser, ItemOf.parser, if_neg hne] at h
    cases h

/-! ## Examples -/

mutual
/-- Whether there is an article without contents at or below a node. -/
def bareIn : XMLNode → Bool
  | .element n _ c => n == "Article" && (elems c).all (fun x =>
      x.name == "ArticleCaption" || x.name == "ArticleTitle") || bareInList c
  | _ => false
def bareInList : List XMLNode → Bool
  | [] => false
  | x :: l => bareIn x || bareInList l
end

theorem bareInList_eq (l : List XMLNode) : bareInList l = l.any bareIn := by
  induction l with
  | nil => rfl
  | cons x l ih => rw [bareInList, List.any_cons, ih]

theorem bareIn_of_within {x y : XMLNode} (h : Within x y) (hx : BareArticle x) :
    bareIn y = true := by
  induction h with
  | refl =>
    obtain ⟨a, c, rfl, hc⟩ := hx
    rw [bareIn, Bool.or_eq_true]
    refine .inl ?_
    simp only [beq_self_eq_true, Bool.true_and, List.all_eq_true, Bool.or_eq_true, beq_iff_eq]
    rintro ⟨n, b, d⟩ hm
    obtain ⟨z, hz, hze⟩ := List.mem_filterMap.1 hm
    cases z with
    | element n' b' d' =>
      cases hze
      exact hc _ _ _ hz
    | _ => cases hze
  | child n a c y hy _ ih =>
    rw [bareIn, Bool.or_eq_true, bareInList_eq]
    exact .inr (List.any_eq_true.2 ⟨y, hy, ih⟩)

theorem not_bare {e : Element} (h : bareIn e.node = false) : ¬ e.HasBareArticle := by
  rintro ⟨x, hx, hb⟩
  rw [bareIn_of_within hx hb] at h
  cases h

/-- Reading gives a value. -/
def isRead (n : Nat) (e : Element) : Bool :=
  match Law.parser (L := lvl n) e with
  | .ok _ => true
  | _ => false

theorem isRead_iff {n : Nat} {e : Element} :
    isRead n e = true ↔ ∃ x : Law (lvl n), Law.parser e = .ok x := by
  unfold isRead
  split
  · next x h => exact ⟨fun _ => ⟨x, h⟩, fun _ => rfl⟩
  · next h => exact ⟨fun h' => (by cases h'), fun ⟨x, hx⟩ => (h x hx).elim⟩

/-- An article with the given nodes after its title. -/
def articleNode (num : String) (c : List XMLNode) : XMLNode :=
  .element "Article" [("Num", num)] (plainNode "ArticleTitle" [.text "第一条"] :: c)

/-- A law with a chapter, an article with two paragraphs, one of them with an item, a table of
contents after the main provision, a comment, and a line without a style in a caption. -/
def goodDoc : Element :=
  lawDoc [.comment "前"] [.element "Chapter" [("Num", "1")]
    [plainNode "ChapterTitle" [.text "総則", plainNode "Line" []],
      articleNode "1_2:1_4" [paraNode "1" [], paraNode "2" [.element "Item" [("Num", "いろは")]
        [plainNode "ItemTitle" [], plainNode "ItemSentence" [.element "Sentence" [("Num", "+07")]
          [.text "本文"]]]]]]]
    [plainNode "TOC" [], .element "SupplProvision" [("Type", "Amend")] []]

/-- `goodDoc` is accepted, and the theorems above apply to it. -/
example : goodDoc.node.height ≤ 9 ∧ ¬ goodDoc.HasBareArticle ∧ Accepted goodDoc ∧
    ∃ x : Law (lvl 9), Law.parser goodDoc = .ok x := by
  have hr : isRead 9 goodDoc = true := by decide +kernel
  obtain ⟨x, hx⟩ := isRead_iff.1 hr
  exact ⟨by decide +kernel, not_bare (by decide +kernel),
    (C74_read_accepted 9 _ (by decide +kernel) x hx).2, x, hx⟩

/-- Documents that are not accepted, each for one reason. -/
def badDocs : List Element :=
  [ -- an unknown element in the body, and a wrong value in an attribute of the law
    lawDoc [plainNode "Foreign" []] [] [],
    { lawDoc [] [] [] with attributes := [("Era", "Reiwa"), ("Year", "5"), ("Num", "1"),
        ("LawType", "Act"), ("Lang", "fr")] },
    -- no main provision
    ⟨"Law", (lawDoc [] [] []).attributes, [plainNode "LawNum" [], plainNode "LawBody" []]⟩,
    -- a comment before the title of a chapter
    lawDoc [] [.element "Chapter" [("Num", "1")] [.comment "", plainNode "ChapterTitle" []]] [],
    -- a caption after a paragraph
    lawDoc [] [articleNode "1" [paraNode "1" [], plainNode "ArticleCaption" []]] [],
    -- a number with a letter
    lawDoc [] [articleNode "1a" [paraNode "1" []]] [],
    -- a division below a part
    lawDoc [] [.element "Part" [("Num", "1")] [plainNode "PartTitle" [],
      .element "Division" [("Num", "1")] [plainNode "DivisionTitle" []]]] [],
    -- an unknown kind of supplementary provision
    lawDoc [] [] [.element "SupplProvision" [("Type", "Other")] []],
    -- a line without a style in a sentence
    lawDoc [] [.element "Paragraph" [("Num", "1")] [plainNode "ParagraphSentence"
      [plainNode "Sentence" [plainNode "Line" []]]]] []]

/-- They meet the hypotheses of `C74_rejected` and are not accepted. -/
example : ∀ e ∈ badDocs, e.node.height ≤ 9 ∧ ¬ e.HasBareArticle ∧
    e.attributes.get "Num" ≠ none ∧ ¬ (e.name = "Law" ∧ Accepted e) := by
  have h : ∀ e ∈ badDocs, e.node.height ≤ 9 ∧ bareIn e.node = false ∧
      e.attributes.get "Num" ≠ none ∧ isRead 9 e = false := by decide +kernel
  intro e he
  obtain ⟨h1, h2, h3, h4⟩ := h e he
  refine ⟨h1, not_bare h2, h3, fun ha => ?_⟩
  rw [isRead_iff.2 ((C74_read_iff 9 e h1 (not_bare h2)).2 ha)] at h4
  cases h4

/-- A law whose enacting statement has a line that quotes a table with an article without contents. -/
def quotingDoc : Element :=
  ⟨"Law", [("Era", "Reiwa"), ("Year", "5"), ("Num", ""), ("LawType", "Act"), ("Lang", "ja")],
    [plainNode "LawNum" [], plainNode "LawBody" [plainNode "EnactStatement"
      [.element "Line" [("Style", "solid")] [plainNode "QuoteStruct" [plainNode "Table"
        [plainNode "TableRow" [plainNode "TableColumn" [articleNode "1" []]]]]]],
      plainNode "MainProvision" []]]⟩

theorem accepted_free {e : Element} (h : rules.lookup e.name = some Spec.free) : Accepted e :=
  .intro e _ h ⟨by simp [Spec.free], trivial, ⟨[], _, rfl, by simp, by simp [Spec.free]⟩,
    by simp [Spec.free]⟩ (by simp [Rule.read, Spec.free, elems])

/-- The condition on articles is needed: in places where errors are of no consequence, such as
the enacting statement, an article without contents still makes reading panic. -/
example : quotingDoc.node.height ≤ 10 ∧ quotingDoc.name = "Law" ∧ Accepted quotingDoc ∧
    Law.parser (L := lvl 10) quotingDoc = .panic := by
  have hp : (match Law.parser (L := lvl 10) quotingDoc with
    | .panic => true
    | _ => false) = true := by decide +kernel
  refine ⟨by decide +kernel, rfl, ?_, ?_⟩
  · refine .intro _ _ (by rfl) ?_ ?_
    · refine ⟨?_, ⟨rfl, rfl, trivial⟩, ⟨[], [], rfl, by simp, by simp⟩, by simp⟩
      have h5 : IsCount "5" := ⟨5, ['5'], .inl rfl, by decide, by decide, by decide⟩
      simp [quotingDoc, Attrs.get_cons, AttrRule.Holds, h5]
    · simp only [Rule.read, quotingDoc, plainNode, elems, List.take, List.filterMap, List.length,
        List.drop, List.filter, List.append_nil, List.mem_cons, List.not_mem_nil, or_false,
        forall_eq_or_imp, forall_eq]
      refine ⟨accepted_free rfl, .intro _ _ (by rfl) ?_ ?_⟩
      · exact ⟨by simp, trivial, ⟨[], _, rfl, by simp, by simp⟩, by simp [elems]⟩
      · simp only [Rule.read, elems, List.take, List.filterMap, List.length, List.drop,
          List.nil_append, List.mem_filter, List.mem_cons, List.not_mem_nil, or_false]
        rintro x ⟨rfl | rfl, -⟩
        · exact accepted_free rfl
        · refine .intro _ _ (by rfl) ?_ ?_
          · exact ⟨by simp [AttrRule.Holds, Attrs.get], trivial,
              ⟨[], [], rfl, by simp, by simp⟩, by simp⟩
          · simp [Rule.read, elems]
  · split at hp
    · assumption
    · cases hp

end JLaw
