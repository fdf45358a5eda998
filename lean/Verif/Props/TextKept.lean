import Verif.Props.SettleTwice

/-!
# C91: reading, writing and files never add text
-/

namespace JLaw

open Spec

/-- The characters of all texts in a node. -/
def charsIn (x : XMLNode) : List Char := (textsIn x).flatMap String.toList

/-! ## Counting one character -/

/-- How often a character occurs. -/
def occurrences (ch : Char) : Measure :=
  ⟨fun s => s.toList.count ch, 0, by simp, by simp⟩

theorem weight_occurrences (ch : Char) (x : XMLNode) (hx : isElement x = true) :
    weight (occurrences ch) x = (charsIn x).count ch := by
  induction x using nodeInduction with
  | ho x h => rw [h] at hx; cases hx
  | he n a c ih =>
    rw [weight_element]
    have key : ∀ y ∈ c, share (occurrences ch) n y = (charsIn y).count ch := by
      intro y hy
      by_cases he : isElement y = true
      · rw [share_element he]; exact ih y hy he
      · cases y with
        | element => exact absurd rfl he
        | text s =>
          simp only [share, Measure.unit, occurrences, charsIn, textsIn, List.flatMap_cons,
            List.flatMap_nil, List.append_nil]
          split <;> omega
        | _ => rfl
    rw [charsIn, textsIn]
    clear ih hx
    induction c with
    | nil => rfl
    | cons y c ih =>
      rw [List.map_cons, List.sum_cons, textsAmong, List.flatMap_append, List.count_append,
        key y (List.mem_cons_self ..), ih fun z hz => key z (List.mem_cons_of_mem _ hz)]
      rfl

theorem chars_rewrite (e : Element) (ch : Char) :
    (charsIn (rewrite e).node).count ch ≤ (charsIn e.node).count ch := by
  rw [← weight_occurrences ch _ rfl, ← weight_occurrences ch _ rfl]
  have := weight_rewrite (μ := occurrences ch) e.node
  rwa [show rewriteNode e.node = (rewrite e).node by rw [Element.node, rewriteNode]; rfl] at this

theorem chars_settle (e : Element) (ch : Char) :
    (charsIn (settle e).node).count ch ≤ (charsIn e.node).count ch := by
  rw [← weight_occurrences ch _ rfl, ← weight_occurrences ch _ rfl, ← settleNode_node]
  exact weight_settle _

/-! ## The claim -/

/-- **C91.** No character occurs more often in the texts of what is written for a law than in the
texts of the document the law was read from. -/
theorem C91_no_text_added (n : Nat) (e : Element) (hn : e.node.height ≤ n) (x : Law (lvl n))
    (h : Law.parser e = .ok x) (ch : Char) :
    (charsIn x.toXml.node).count ch ≤ (charsIn e.node).count ch := by
  rw [C77_law_rewritten n e hn x h]
  exact chars_rewrite e ch

/-- **C91.** The same for articles, paragraphs and items that are read on their own. -/
theorem C91_parts (n : Nat) (e : Element) (hn : e.node.height ≤ n) (ch : Char) :
    (∀ x : Article (lvl n), Article.parser e = .ok x →
      (charsIn x.toXml.node).count ch ≤ (charsIn e.node).count ch) ∧
    (∀ x : Paragraph (lvl n), Paragraph.parser e = .ok x →
      (charsIn x.toXml.node).count ch ≤ (charsIn e.node).count ch) ∧
    (∀ x : Item (lvl n), Item.parser e = .ok x →
      (charsIn (Item.toXml x).node).count ch ≤ (charsIn e.node).count ch) := by
  obtain ⟨h1, h2, h3, -⟩ := C77_parts_rewritten n e hn
  exact ⟨fun x h => h1 x h ▸ chars_rewrite e ch, fun x h => h2 x h ▸ chars_rewrite e ch,
    fun x h => h3 x h ▸ chars_rewrite e ch⟩

/-- **C91.** The same after any number of files. -/
theorem C91_through_files (n : Nat) (x : Law (lvl n)) (hn : x.toXml.node.height + 2 ≤ n) (k : Nat)
    (y : Law (lvl n)) (h : throughFiles x k = .ok y) (ch : Char) :
    (charsIn y.toXml.node).count ch ≤ (charsIn x.toXml.node).count ch := by
  have step : ∀ {u v : Law (lvl n)}, u.toXml.node.height ≤ n → Law.parser (settle u.toXml) = .ok v →
      v.toXml.node.height ≤ u.toXml.node.height + 1 ∧
      (charsIn v.toXml.node).count ch ≤ (charsIn u.toXml.node).count ch := by
    intro u v hu hv
    have h1 := C77_law_rewritten n _ (settle_height hu) v hv
    have h2 := height_rewrite (settle u.toXml)
    have h3 := height_settle u.toXml.node
    rw [settleNode_node] at h3
    rw [← h1] at h2
    exact ⟨by omega, (C91_no_text_added n _ (settle_height hu) v hv ch).trans (chars_settle _ ch)⟩
  have two : ∀ {v : Law (lvl n)}, throughFiles x 1 = .ok v →
      v.toXml.node.height ≤ x.toXml.node.height + 1 ∧
      (charsIn v.toXml.node).count ch ≤ (charsIn x.toXml.node).count ch := fun hv =>
    step (by omega) hv
  match k with
  | 0 => cases h; exact Nat.le_refl _
  | 1 => exact (two h).2
  | k + 2 =>
    rw [C90_through_files n x hn (k + 2) (by omega), throughFiles] at h
    obtain ⟨v, hv, h⟩ := Res.bind_eq_ok.1 h
    obtain ⟨h1, h2⟩ := two hv
    exact (step (by omega) h).2.trans h2

/-- **C91.** In particular a document without a character in its texts gives a law without one. -/
theorem C91_nothing_from_nothing (n : Nat) (e : Element) (hn : e.node.height ≤ n) (x : Law (lvl n))
    (h : Law.parser e = .ok x) (he : ∀ s ∈ textsIn e.node, s = "") :
    ∀ s ∈ textsIn x.toXml.node, s = "" := by
  intro s hs
  by_contra hne
  obtain ⟨ch, hch⟩ : ∃ ch, ch ∈ s.toList :=
    List.exists_mem_of_ne_nil _ fun h0 => hne (String.toList_eq_nil_iff.1 h0)
  have h1 : 0 < (charsIn x.toXml.node).count ch :=
    List.count_pos_iff.2 (List.mem_flatMap.2 ⟨s, hs, hch⟩)
  have h2 := C91_no_text_added n e hn x h ch
  obtain ⟨t, ht, hc⟩ := List.mem_flatMap.1 (List.count_pos_iff.1 (Nat.lt_of_lt_of_le h1 h2))
  rw [he t ht] at hc
  cases hc

/-! ## Examples -/

/-- A law with two titles of its article, a text between the paragraphs, and a superscript in a
title. -/
def wordyDoc : Element :=
  lawDoc [] [.element "Article" [("Num", "1")] [plainNode "ArticleTitle" [.text "第一条"],
    .text "間", plainNode "ArticleTitle" [.text "第二条", plainNode "Sup" [.text "注"]],
    .element "Paragraph" [("Num", "1")] [plainNode "ParagraphNum" [],
      plainNode "ParagraphSentence" []]]] []

/-- Of the two titles only the second is kept, and the text between is lost: 第 and 条 occur once
less, the other characters are those of the document. -/
example : wordyDoc.node.height ≤ 12 ∧ isRead 12 wordyDoc = true ∧
    charsIn wordyDoc.node = "令和五年法律第一号第一条間第二条注".toList ∧
    charsIn (rewrite wordyDoc).node = "令和五年法律第一号第二条注".toList :=
  ⟨by decide +kernel, by decide +kernel, by decide +kernel, by decide +kernel⟩

/-- `C91_through_files` at a law that loses a superscript in its first file. -/
example : (titled rubyTitle).toXml.node.height + 2 ≤ 12 ∧
    isRead 12 (settle (titled rubyTitle).toXml) = true ∧
    charsIn (titled rubyTitle).toXml.node = "令和五年法律第一号甲乙丙よみ".toList ∧
    charsIn (rewrite (settle (titled rubyTitle).toXml)).node = "令和五年法律第一号甲丙よみ".toList :=
  ⟨by decide +kernel, by decide +kernel, by decide +kernel, by decide +kernel⟩

/-- `C91_nothing_from_nothing` at a law without a text. -/
example : ∃ e : Element, e.node.height ≤ 12 ∧ isRead 12 e = true ∧ ∀ s ∈ textsIn e.node, s = "" :=
  ⟨⟨"Law", [("Era", "Reiwa"), ("Year", "5"), ("Num", "1"), ("LawType", "Act"), ("Lang", "ja")],
    [plainNode "LawNum" [], plainNode "LawBody" [plainNode "MainProvision" []]]⟩,
    by decide +kernel, by decide +kernel, by decide +kernel⟩

end JLaw
