import Verif.Props.Decide
import Verif.Props.Schema
import Verif.Props.Stable
import Verif.Reading.RewriteLaw

/-!
# C77: what becomes of a document that is read and written again
-/

namespace JLaw

open Spec

/-- **C77.** What is written for a document that has been read is what the table `Spec.layouts`
makes of it. -/
theorem C77_law_rewritten (n : Nat) (e : Element) (hn : e.node.height ≤ n) (x : Law (lvl n))
    (h : Law.parser e = .ok x) : x.toXml = rewrite e :=
  Law.rewrites e x hn h

/-- **C77.** A document that obeys the rules and has no article without contents is read, and what
is written for it is what the table makes of it. -/
theorem C77_accepted_rewritten (n : Nat) (e : Element) (hn : e.node.height ≤ n)
    (ht : e.name = "Law") (ha : Accepted e) (hb : ¬ e.HasBareArticle) :
    ∃ x : Law (lvl n), Law.parser e = .ok x ∧ x.toXml = rewrite e := by
  obtain ⟨x, hx⟩ := C74_accepted_read n e hn hb ht ha
  exact ⟨x, hx, C77_law_rewritten n e hn x hx⟩

/-- **C77.** The same for articles, paragraphs and items, and for the texts of titles. -/
theorem C77_parts_rewritten (n : Nat) (e : Element) (hn : e.node.height ≤ n) :
    (∀ x : Article (lvl n), Article.parser e = .ok x → x.toXml = rewrite e) ∧
    (∀ x : Paragraph (lvl n), Paragraph.parser e = .ok x → x.toXml = rewrite e) ∧
    (∀ x : Item (lvl n), Item.parser e = .ok x → Item.toXml x = rewrite e) ∧
    (∀ x : Text (lvl n), e.name = "ArticleTitle" → Text.fromChildren e.children = .ok x →
      x.toXml "ArticleTitle" = rewrite e) :=
  ⟨fun x h => Article.rewrites (lvl_rewrites n) e x hn (ite_eq_ok h).1 h,
    fun x h => Paragraph.rewrites (lvl_rewrites n) e x hn (ite_eq_ok h).1 h,
    fun x h => Item.rewrites (lvl_rewrites n) e x hn (ite_eq_ok h).1 h,
    fun x ht h => Text.under (lvl_rewrites n) (by with_unfolding_all rfl) e x hn ht h⟩

/-- **C77.** A document comes out of reading and writing unchanged exactly if the table leaves it
unchanged. -/
theorem C77_unchanged_iff (n : Nat) (e : Element) (hn : e.node.height ≤ n) (x : Law (lvl n))
    (h : Law.parser e = .ok x) : x.toXml = e ↔ rewrite e = e := by
  rw [C77_law_rewritten n e hn x h]

/-- **C77.** Two documents that are read are written in the same way exactly if the table makes the
same of them. -/
theorem C77_same_iff (n : Nat) (e e' : Element) (hn : e.node.height ≤ n) (hn' : e'.node.height ≤ n)
    (x x' : Law (lvl n)) (h : Law.parser e = .ok x) (h' : Law.parser e' = .ok x') :
    x.toXml = x'.toXml ↔ rewrite e = rewrite e' := by
  rw [C77_law_rewritten n e hn x h, C77_law_rewritten n e' hn' x' h']

/-- **C77.** The table makes a document of the schema of `C75_written_conforms` of every document
that is read. -/
theorem C77_conforms (e : Element) (ht : e.name = "Law") (ha : Accepted e)
    (hb : ¬ e.HasBareArticle) : (rewrite e).name = "Law" ∧ Conforms (rewrite e) := by
  obtain ⟨x, -, hx⟩ := C77_accepted_rewritten _ e (Nat.le_refl _) ht ha hb
  exact hx ▸ C75_written_conforms _ x

/-- **C77.** Whether a document can be read again after it has been read and written is told by
the checker of C76 and the table. -/
theorem C77_read_again_iff (n : Nat) (e : Element) (hn : e.node.height ≤ n) (x : Law (lvl n))
    (h : Law.parser e = .ok x) (hn' : (rewrite e).node.height ≤ n)
    (hb : ¬ (rewrite e).HasBareArticle) :
    (∃ y : Law (lvl n), Law.parser x.toXml = .ok y) ↔ accepts (rewrite e).node = true := by
  rw [C77_law_rewritten n e hn x h, C76_read_iff_accepts n _ hn' hb, and_iff_right]
  rw [← C77_law_rewritten n e hn x h]
  rfl

/-- **C77.** The table changes nothing in a document it has made of one without the lossy parts
of C59. -/
theorem C77_clean_once (e : Element) (ht : e.name = "Law") (ha : Accepted e)
    (hb : ¬ e.HasBareArticle) (hc : Clean e) : rewrite (rewrite e) = rewrite e := by
  obtain ⟨x, h, hx⟩ := C77_accepted_rewritten (max e.node.height (rewrite e).node.height) e
    (Nat.le_max_left _ _) ht ha hb
  have h2 := C59_clean_law_stable _ e x hc h
  rw [hx] at h2
  exact (C77_law_rewritten _ _ (Nat.le_max_right _ _) x h2).symm.trans hx

/-- **C77.** The table changes nothing the third time, whatever there was at the beginning. -/
theorem C77_twice (e : Element) (ht : e.name = "Law") (ha : Accepted e) (hb : ¬ e.HasBareArticle)
    (ha' : Accepted (rewrite e)) (hb' : ¬ (rewrite e).HasBareArticle) :
    rewrite (rewrite (rewrite e)) = rewrite (rewrite e) := by
  obtain ⟨x, h, hx⟩ := C77_accepted_rewritten _ e (Nat.le_refl _) ht ha hb
  have hc : Clean (rewrite e) := hx ▸ C68_written_clean _ x
  exact C77_clean_once _ (C77_conforms e ht ha hb).1 ha' hb' hc

/-! ## Examples -/

/-- A law with a comment, a line without a style in a title, numbers with signs and leading zeros,
and a table of contents after the main provision. -/
def untidyDoc : Element :=
  lawDoc [.comment "前"] [.element "Chapter" [("Num", "1")]
    [plainNode "ChapterTitle" [.text "総則", plainNode "Line" []],
      articleNode "1_2:1_4" [paraNode "1" [], paraNode "+02" [.element "Item" [("Num", "03")]
        [plainNode "ItemTitle" [], plainNode "ItemSentence" [.element "Sentence" [("Num", "+07")]
          [.text "本文"]]]]]]]
    [plainNode "TOC" [], .element "SupplProvision" [("Type", "Amend")] []]

/-- The same law once it has been read and written. -/
def tidyDoc : Element :=
  ⟨"Law", [("Lang", "ja"), ("LawType", "Act"), ("Num", "1"), ("Year", "5"), ("Era", "Reiwa")],
    [plainNode "LawNum" [.text "令和五年法律第一号"], plainNode "LawBody" [plainNode "TOC" [],
      plainNode "MainProvision" [.element "Chapter" [("Num", "1")]
        [plainNode "ChapterTitle" [.text "総則"],
          articleNode "1_2:1_4" [paraNode "1" [], paraNode "2" [.element "Item" [("Num", "3")]
            [plainNode "ItemTitle" [], plainNode "ItemSentence" [.element "Sentence" [("Num", "7")]
              [.text "本文"]]]]]]],
      .element "SupplProvision" [("Type", "Amend")] []]]⟩

/-- The theorems above apply to `untidyDoc`. -/
example : rewrite untidyDoc = tidyDoc ∧ untidyDoc.node.height ≤ 9 ∧ untidyDoc.name = "Law" ∧
    Accepted untidyDoc ∧ ¬ untidyDoc.HasBareArticle ∧ Accepted (rewrite untidyDoc) ∧
    ¬ (rewrite untidyDoc).HasBareArticle :=
  ⟨by with_unfolding_all rfl, by decide +kernel, rfl, (accepts_iff _).1 (by decide +kernel),
    not_bare (by decide +kernel), (accepts_iff _).1 (by decide +kernel),
    not_bare (by decide +kernel)⟩

/-- The number of the item in `goodDoc` is lost, so `goodDoc` cannot be read a second time. -/
example : accepts goodDoc.node = true ∧ accepts (rewrite goodDoc).node = false :=
  ⟨by decide +kernel, by decide +kernel⟩

/-- A law that quotes an amendment. -/
def amendDoc : Element :=
  lawDoc [] [paraNode "1" [plainNode "AmendProvision"
    [plainNode "NewProvision" [paraNode "+2" []]]]] []

/-- A document that cannot be read again once it has been read and written: the new provision comes
back as a sentence. -/
example : amendDoc.node.height ≤ 9 ∧ accepts amendDoc.node = true ∧
    (rewrite amendDoc).node.height ≤ 9 ∧ ¬ (rewrite amendDoc).HasBareArticle ∧
    accepts (rewrite amendDoc).node = false :=
  ⟨by decide +kernel, by decide +kernel, by decide +kernel, not_bare (by decide +kernel),
    by decide +kernel⟩

end JLaw
