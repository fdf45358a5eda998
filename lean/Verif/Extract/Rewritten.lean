import Verif.Extract.Articles
import Verif.Reading.Rewrite

/-!
# Lists of articles and plain text of a document and of what is written for it
-/

namespace JLaw

open Spec.Doc
open Spec (rewriteNode rewriteList rewrite isNamed kidsOf isString isElement layouts pick Portion Layout
  Change)

/-! ## Names -/

theorem layout_tags : ∀ p ∈ layouts, p.2.tag = none ∨
    (p.1 = "SupplProvisionAppdx" ∧ p.2.tag = some "Appdx") := by
  decide +kernel

/-- The tags that change when they are written or that another tag is changed to. -/
def shifty : List String := ["SupplProvisionAppdx", "Appdx"]

theorem lookup_pair_mem {α : Type} {n : String} {l : List (String × α)} {v : α} (h : l.lookup n = some v) :
    (n, v) ∈ l := by
  induction l with
  | nil => cases h
  | cons p l ih =>
    obtain ⟨m, w⟩ := p
    rw [List.lookup_cons] at h
    split at h
    · next hb => cases h; cases (beq_iff_eq.1 hb); simp
    · exact List.mem_cons_of_mem _ (ih h)

/-- The tag that is written for an element. -/
theorem rebuild_name (n : String) (a : Attrs) (c : List (XMLNode × XMLNode)) :
    (Spec.rebuild n a c).name = n ∨ (n = "SupplProvisionAppdx" ∧ (Spec.rebuild n a c).name = "Appdx") := by
  unfold Spec.rebuild
  split
  · next l h =>
    rcases layout_tags _ (lookup_pair_mem h) with h | ⟨h1, h2⟩
    · left; simp [show l.tag = none from h]
    · right; exact ⟨h1, by simp [show l.tag = some "Appdx" from h2]⟩
  · exact Or.inl rfl

theorem isNamed_rewrite {tags : List String} (h : ∀ t ∈ tags, t ∉ shifty) (x : XMLNode) :
    isNamed tags (rewriteNode x) = isNamed tags x := by
  cases x with
  | element n a c =>
    rw [rewriteNode]
    show tags.contains (Spec.rebuild n a _).name = tags.contains n
    rcases rebuild_name n a (rewriteList c) with h1 | ⟨h1, h2⟩
    · rw [h1]
    · rw [h2, h1]
      have : ∀ t ∈ shifty, tags.contains t = false := by
        intro t ht
        rw [Bool.eq_false_iff]
        intro hc
        exact h t (by simpa using hc) ht
      rw [this _ (by decide), this _ (by decide)]
  | _ => rw [rewriteNode]; nofun

theorem named_of {t : String} {x : XMLNode} (h : isNamed [t] x = true) : ∃ a c, x = .element t a c := by
  cases x with
  | element n a c =>
    have : n = t := by simpa [isNamed] using h
    subst this
    exact ⟨a, c, rfl⟩
  | _ => cases h

theorem of_tagged {t : String} {x : XMLNode} {c : List XMLNode} (h : x ∈ tagged t c) :
    ∃ a d, x = .element t a d := named_of (List.mem_filter.1 h).2

theorem rewriteNode_of {t : String} {l : Layout} (hl : layouts.lookup t = some l) (a : Attrs)
    (c : List XMLNode) : rewriteNode (.element t a c) =
      .element (l.tag.getD t) (l.setAttrs a) (l.parts.flatMap fun p => p.nodes (rewriteList c)) := by
  rw [rewriteNode, Spec.rebuild, hl]
  rfl

theorem kids_of {t : String} {l : Layout} (hl : layouts.lookup t = some l) (a : Attrs)
    (c : List XMLNode) : kidsOf (rewriteNode (.element t a c)) =
      l.parts.flatMap fun p => p.nodes (rewriteList c) := by
  rw [rewriteNode_of hl]
  rfl

/-! ## Elements with one tag -/

theorem tagged_map {t : String} (h : t ∉ shifty) (c : List XMLNode) :
    tagged t (c.map rewriteNode) = (tagged t c).map rewriteNode := by
  rw [tagged, tagged, List.filter_map]
  congr 1
  apply List.filter_congr
  intro x _
  exact isNamed_rewrite (by simpa using h) x

theorem tagged_filter (t : String) (p : XMLNode → Bool) (h : ∀ x, isNamed [t] x = true → p x = true)
    (c : List XMLNode) : tagged t (c.filter p) = tagged t c := by
  rw [tagged, tagged, List.filter_filter]
  apply List.filter_congr
  intro x _
  cases hx : isNamed [t] x with
  | false => rfl
  | true => rw [h x hx]; rfl

theorem tagged_filter_none (t : String) (p : XMLNode → Bool) (h : ∀ x, isNamed [t] x = true → p x = false)
    (c : List XMLNode) : tagged t (c.filter p) = [] := by
  rw [tagged, List.filter_filter, List.filter_eq_nil_iff]
  intro x _ hx
  rw [Bool.and_eq_true] at hx
  rw [h x hx.1] at hx
  cases hx.2

theorem isNamed_mem {t : String} {tags : List String} {x : XMLNode} (h : isNamed [t] x = true) :
    isNamed tags x = tags.contains t := by
  obtain ⟨a, c, rfl⟩ := named_of h
  rfl

theorem tagged_each {t : String} {tags : List String} (ht : t ∉ shifty) (h : t ∈ tags)
    (c : List XMLNode) : tagged t ((Portion.each tags).nodes (rewriteList c)) =
      (tagged t c).map rewriteNode := by
  rw [Portion.nodes, pick_eq, tagged_map ht, tagged_filter]
  intro x hx
  rw [isNamed_mem hx]
  simpa using h

theorem tagged_each_none {t : String} {tags : List String} (ht : t ∉ shifty) (h : t ∉ tags)
    (c : List XMLNode) : tagged t ((Portion.each tags).nodes (rewriteList c)) = [] := by
  rw [Portion.nodes, pick_eq, tagged_map ht, tagged_filter_none, List.map_nil]
  intro x hx
  rw [isNamed_mem hx]
  simpa using h

theorem tagged_elements {t : String} (ht : t ∉ shifty) (c : List XMLNode) :
    tagged t (Portion.elements.nodes (rewriteList c)) = (tagged t c).map rewriteNode := by
  rw [Portion.nodes, pick_eq, tagged_map ht, tagged_filter]
  intro x hx
  obtain ⟨a, c, rfl⟩ := named_of hx
  rfl

theorem mem_getLast? {α : Type} {l : List α} {x : α} (h : x ∈ l.getLast?.toList) : x ∈ l := by
  cases hl : l.getLast? with
  | none => rw [hl] at h; cases h
  | some y =>
    rw [hl] at h
    cases List.mem_singleton.1 h
    exact List.mem_of_getLast? hl

theorem nodes_last' (t : String) (c : List XMLNode) : (Portion.last t).nodes (rewriteList c) =
    (tagged t c).getLast?.toList.map rewriteNode := by
  rw [Portion.nodes, pick_eq, tagged, List.getLast?_map]
  cases (c.filter (isNamed [t])).getLast? <;> rfl

theorem tagged_self {t : String} {l : List XMLNode} (h : ∀ x ∈ l, isNamed [t] x = true) : tagged t l = l :=
  List.filter_eq_self.2 h

theorem tagged_never {t : String} {l : List XMLNode} (h : ∀ x ∈ l, isNamed [t] x = false) :
    tagged t l = [] :=
  List.filter_eq_nil_iff.2 fun x hx => by rw [h x hx]; decide

theorem tagged_last {t : String} (ht : t ∉ shifty) (c : List XMLNode) :
    tagged t ((Portion.last t).nodes (rewriteList c)) = (tagged t c).getLast?.toList.map rewriteNode := by
  rw [nodes_last', tagged_map ht, tagged_self]
  intro x hx
  exact (List.mem_filter.1 (mem_getLast? hx)).2

theorem tagged_last_none {t u : String} (ht : t ∉ shifty) (h : u ≠ t) (c : List XMLNode) :
    tagged t ((Portion.last u).nodes (rewriteList c)) = [] := by
  rw [nodes_last', tagged_map ht, tagged_never, List.map_nil]
  intro x hx
  obtain ⟨a, d, rfl⟩ := of_tagged (mem_getLast? hx)
  simpa [isNamed] using h

theorem tagged_lastOr_none {t u : String} (ht : t ∉ shifty) (h : u ≠ t) (ch : List XMLNode)
    (c : List XMLNode) : tagged t ((Portion.lastOr u ch).nodes (rewriteList c)) = [] := by
  rw [Portion.nodes, pick_eq, List.getLast?_map, tagged_never]
  intro x hx
  cases List.mem_singleton.1 hx
  cases hl : (c.filter (isNamed [u])).getLast? with
  | none => simpa [isNamed] using h
  | some y =>
    obtain ⟨a, d, rfl⟩ := of_tagged (t := u) (List.mem_of_getLast? hl)
    show isNamed [t] (rewriteNode _) = false
    rw [isNamed_rewrite (by simpa using ht)]
    simpa [isNamed] using h

theorem tagged_merged_none {t u : String} (h : u ≠ t) (c : List XMLNode) :
    tagged t ((Portion.merged u).nodes (rewriteList c)) = [] := by
  rw [Portion.nodes, tagged_never]
  intro x hx
  cases List.mem_singleton.1 hx
  simpa [isNamed] using h

theorem tagged_merged {t : String} (c : List XMLNode) :
    tagged t ((Portion.merged t).nodes (rewriteList c)) =
      [.element t [] (((tagged t c).map rewriteNode).flatMap kidsOf)] := by
  rw [Portion.nodes, pick_eq]
  apply tagged_self
  intro x hx
  cases List.mem_singleton.1 hx
  simp [isNamed]

/-! ## Texts -/

theorem join_filter_map {p : XMLNode → Bool} {f g : XMLNode → String} {c : List XMLNode}
    (h1 : ∀ x ∈ c, p x = true → f (rewriteNode x) = g x) (h2 : ∀ x ∈ c, p x = false → g x = "") :
    String.join (((c.filter p).map rewriteNode).map f) = String.join (c.map g) := by
  induction c with
  | nil => rfl
  | cons x c ih =>
    have ih := ih (fun y hy => h1 y (by simp [hy])) (fun y hy => h2 y (by simp [hy]))
    rw [List.map_cons, join_cons]
    cases hp : p x with
    | true => rw [List.filter_cons_of_pos hp, List.map_cons, List.map_cons, join_cons, ih,
        h1 x (by simp) hp]
    | false => rw [List.filter_cons_of_neg (by rw [hp]; decide), ih, h2 x (by simp) hp,
        String.empty_append]

theorem rewrite_text (s : String) : rewriteNode (.text s) = .text s := by
  rw [rewriteNode]; nofun

theorem lookup_ruby : layouts.lookup "Ruby" =
    some { parts := [.strings, .lastOr "Rt" [.text ""]] } := by with_unfolding_all rfl

theorem lookup_sup : layouts.lookup "Sup" = some { parts := [.firstString] } := by
  with_unfolding_all rfl

theorem lookup_sub : layouts.lookup "Sub" = some { parts := [.firstString] } := by
  with_unfolding_all rfl

theorem ruby_rewritten (a : Attrs) (c : List XMLNode) :
    nestedText (kidsOf (rewriteNode (.element "Ruby" a c))) = String.join (c.map Spec.string) := by
  rw [kids_of lookup_ruby, List.flatMap_cons, List.flatMap_singleton, nestedText_append]
  have h : nestedText ((Portion.lastOr "Rt" [.text ""]).nodes (rewriteList c)) = "" := by
    rw [Portion.nodes, pick_eq, List.getLast?_map, nestedText, nestedText, String.append_empty]
    cases hl : (c.filter (isNamed ["Rt"])).getLast? with
    | none => rfl
    | some y =>
      obtain ⟨b, d, rfl⟩ := of_tagged (t := "Rt") (List.mem_of_getLast? hl)
      show nestedPiece (rewriteNode (.element "Rt" b d)) = ""
      rw [rewriteNode_of (t := "Rt") (l := { parts := [.joined] }) (by with_unfolding_all rfl)]
      rfl
  rw [h, String.append_empty, nestedText_eq, Portion.nodes, pick_eq]
  apply join_filter_map
  · intro x _ hx
    cases x with
    | text s => rw [rewrite_text, nestedPiece]; rfl
    | _ => cases hx
  · intro x _ hx
    cases x with
    | text s => cases hx
    | _ => rfl

theorem first_rewritten {t : String} (hl : layouts.lookup t = some { parts := [.firstString] }) (a : Attrs)
    (c : List XMLNode) : firstString (kidsOf (rewriteNode (.element t a c))) = firstString c := by
  rw [kids_of hl, List.flatMap_singleton]
  cases c with
  | nil => rfl
  | cons x c => cases x <;> rfl

/-- An element that has no text of its own has none once it is written. -/
theorem rewrite_other {tags : List String} (ht : ∀ t ∈ tags, t ∉ shifty) {n : String} (h : n ∉ tags)
    (a : Attrs) (c : List XMLNode) : ∃ m b d, rewriteNode (.element n a c) = .element m b d ∧ m ∉ tags := by
  have h1 := isNamed_rewrite ht (.element n a c)
  rw [rewriteNode] at h1 ⊢
  refine ⟨_, _, _, rfl, ?_⟩
  intro h2
  have h3 : isNamed tags (.element n a c) = false := by simpa [isNamed] using h
  rw [h3] at h1
  have h4 : tags.contains (Spec.rebuild n a (rewriteList c)).name = true := by simpa using h2
  exact absurd (h4.symm.trans h1) (by decide)

theorem node_kids {t : String} (ht : t ∉ shifty) (a : Attrs) (c : List XMLNode) :
    ∃ b, rewriteNode (.element t a c) = .element t b (kidsOf (rewriteNode (.element t a c))) := by
  have h := isNamed_rewrite (tags := [t]) (by simpa using ht) (.element t a c)
  have h2 : isNamed [t] (.element t a c) = true := by simp [isNamed]
  obtain ⟨b, d, hb⟩ := named_of (h.trans h2)
  rw [hb]
  exact ⟨b, rfl⟩

theorem quotedPiece_rewritten (x : XMLNode) : quotedPiece asWritten (rewriteNode x) = quotedPiece asRead x := by
  cases x with
  | text s => rw [rewrite_text, quotedPiece, quotedPiece]
  | element n a c =>
    by_cases h1 : n = "Ruby"
    · subst h1
      obtain ⟨b, hb⟩ := node_kids (t := "Ruby") (by decide) a c
      rw [hb, quotedPiece, quotedPiece, if_pos rfl, if_pos rfl]
      exact ruby_rewritten a c
    by_cases h2 : n = "Sub"
    · subst h2
      obtain ⟨b, hb⟩ := node_kids (t := "Sub") (by decide) a c
      rw [hb, quotedPiece, quotedPiece, if_neg h1, if_pos rfl, if_neg h1, if_pos rfl,
        first_rewritten lookup_sub]
    by_cases h3 : n = "Sup"
    · subst h3
      obtain ⟨b, hb⟩ := node_kids (t := "Sup") (by decide) a c
      rw [hb, quotedPiece, quotedPiece, if_neg h1, if_neg h2, if_pos rfl, if_neg h1, if_neg h2, if_pos rfl,
        first_rewritten lookup_sup]
    have h : n ∉ ["Ruby", "Sub", "Sup"] := by simp [h1, h2, h3]
    obtain ⟨m, b, d, hm, hn⟩ := rewrite_other (by decide) h a c
    rw [hm, quoted_other _ _ _ hn, quoted_other _ _ _ h]
  | _ => rw [rewriteNode, quotedPiece, quotedPiece] <;> nofun

theorem titlePiece_rewritten (x : XMLNode) : titlePiece asWritten (rewriteNode x) = titlePiece asRead x := by
  cases x with
  | text s => rw [rewrite_text, titlePiece, titlePiece]
  | element n a c =>
    by_cases h1 : n = "Ruby"
    · subst h1
      obtain ⟨b, hb⟩ := node_kids (t := "Ruby") (by decide) a c
      rw [hb, titlePiece, titlePiece, if_pos rfl, if_pos rfl]
      exact ruby_rewritten a c
    by_cases h2 : n = "Sup" ∨ n = "Sub"
    · have hs : n ∉ shifty := by rcases h2 with rfl | rfl <;> decide
      have hl : layouts.lookup n = some { parts := [.firstString] } := by
        rcases h2 with rfl | rfl
        · exact lookup_sup
        · exact lookup_sub
      obtain ⟨b, hb⟩ := node_kids hs a c
      rw [hb, titlePiece, titlePiece, if_neg h1, if_pos h2, if_neg h1, if_pos h2, first_rewritten hl]
    have h : n ∉ ["Ruby", "Sup", "Sub"] := by
      simp only [not_or] at h2
      simp [h1, h2]
    obtain ⟨m, b, d, hm, hn⟩ := rewrite_other (by decide) h a c
    simp only [List.mem_cons, List.not_mem_nil, or_false, not_or] at hn
    rw [hm, titlePiece, titlePiece, if_neg hn.1, if_neg h1, if_neg h2, if_neg]
    rintro (e | e)
    · exact hn.2.1 e
    · exact hn.2.2 e
  | _ => rw [rewriteNode, titlePiece, titlePiece] <;> nofun

theorem titleText_rewritten (c : List XMLNode) :
    titleText asWritten (Portion.text.nodes (rewriteList c)) = titleText asRead c := by
  rw [titleText, titleText, Portion.nodes, pick_eq]
  apply join_filter_map
  · intro x _ _
    exact titlePiece_rewritten x
  · intro x _ hx
    cases x with
    | text s => cases hx
    | element n a c =>
      have : n ∉ ["Ruby", "Sup", "Sub"] := by
        intro h
        have h2 : isNamed ["Ruby", "Sup", "Sub"] (.element n a c) = true := by simpa [isNamed] using h
        rw [h2] at hx
        simp at hx
      simp only [List.mem_cons, List.not_mem_nil, or_false, not_or] at this
      rw [titlePiece, if_neg this.1, if_neg]
      rintro (e | e)
      · exact this.2.1 e
      · exact this.2.2 e
    | _ => rfl

/-- Texts of mixed contents. -/
theorem mixed_rewritten {f g : XMLNode → String} (h1 : ∀ x, f (rewriteNode x) = g x)
    (h2 : ∀ x, (isString x || isElement x) = false → g x = "") (c : List XMLNode) :
    String.join ((Portion.mixed.nodes (rewriteList c)).map f) = String.join (c.map g) := by
  rw [Portion.nodes, pick_eq]
  exact join_filter_map (fun x _ _ => h1 x) (fun x _ h => h2 x h)

theorem quotedPiece_empty (w : Way) (x : XMLNode) (h : (isString x || isElement x) = false) :
    quotedPiece w x = "" := by
  cases x with
  | text s => cases h
  | element n a c => cases h
  | _ => rfl

theorem sentencePiece_rewritten (x : XMLNode) :
    Spec.Doc.sentencePiece asWritten (rewriteNode x) = Spec.Doc.sentencePiece asRead x := by
  cases x with
  | element n a c =>
    by_cases h : n = "ArithFormula" ∨ n = "QuoteStruct"
    · have hs : n ∉ shifty := by rcases h with rfl | rfl <;> decide
      have hl : layouts.lookup n = some Spec.mixedLayout := by
        rcases h with rfl | rfl <;> with_unfolding_all rfl
      obtain ⟨b, hb⟩ := node_kids hs a c
      rw [hb, Spec.Doc.sentencePiece, Spec.Doc.sentencePiece, if_pos h, if_pos h, kids_of hl]
      show String.join (([Portion.mixed].flatMap fun p => p.nodes (rewriteList c)).map _) = _
      rw [List.flatMap_singleton]
      exact mixed_rewritten quotedPiece_rewritten (quotedPiece_empty asRead) c
    · have h' : n ∉ ["ArithFormula", "QuoteStruct"] := by simpa using h
      obtain ⟨m, b, d, hm, hn⟩ := rewrite_other (by decide) h' a c
      have hq := quotedPiece_rewritten (.element n a c)
      rw [hm] at hq ⊢
      rw [Spec.Doc.sentencePiece, Spec.Doc.sentencePiece, if_neg h, if_neg (by simpa using hn), hq]
  | text s => rw [rewrite_text, Spec.Doc.sentencePiece, Spec.Doc.sentencePiece]; rfl; all_goals nofun
  | _ => rw [rewriteNode, Spec.Doc.sentencePiece, Spec.Doc.sentencePiece]; rfl; all_goals nofun

theorem sentencePiece_empty (w : Way) (x : XMLNode) (h : (isString x || isElement x) = false) :
    Spec.Doc.sentencePiece w x = "" := by
  cases x with
  | text s => cases h
  | element n a c => cases h
  | _ => rfl

theorem sentenceText_rewritten {x : XMLNode} (h : isNamed ["Sentence"] x = true) :
    Spec.Doc.sentenceText asWritten (rewriteNode x) = Spec.Doc.sentenceText asRead x := by
  obtain ⟨a, c, rfl⟩ := named_of h
  rw [Spec.Doc.sentenceText, kids_of (t := "Sentence") (l := { attrs := [{ name := "Num", change := .count },
    { name := "Function" }, { name := "Indent" }, Spec.writingMode], parts := [.mixed] })
    (by with_unfolding_all rfl)]
  show String.join (([Portion.mixed].flatMap fun p => p.nodes (rewriteList c)).map _) = _
  rw [List.flatMap_singleton]
  exact mixed_rewritten sentencePiece_rewritten (sentencePiece_empty asRead) c

/-- Sentences, when those that are written are those that were there. -/
theorem sentencesText_rewritten {c d : List XMLNode}
    (h : tagged "Sentence" d = (tagged "Sentence" c).map rewriteNode) :
    sentencesText asWritten d = sentencesText asRead c := by
  rw [sentencesText, sentencesText, h, List.map_map]
  congr 1
  apply List.map_congr_left
  intro x hx
  exact sentenceText_rewritten (List.mem_filter.1 hx).2

theorem lookup_column : ∃ l, layouts.lookup "Column" = some l ∧ l.parts = [.elements] :=
  ⟨_, by with_unfolding_all rfl, rfl⟩

theorem column_rewritten (a : Attrs) (c : List XMLNode) :
    tagged "Sentence" (kidsOf (rewriteNode (.element "Column" a c))) =
      (tagged "Sentence" c).map rewriteNode := by
  obtain ⟨l, hl, hp⟩ := lookup_column
  rw [kids_of hl, hp, List.flatMap_singleton, tagged_elements (by decide)]

theorem cellPiece_rewritten (x : XMLNode) : cellPiece asWritten (rewriteNode x) = cellPiece asRead x := by
  cases x with
  | text s => rw [rewrite_text, cellPiece, cellPiece]
  | element n a c =>
    by_cases h1 : n = "Sentence"
    · subst h1
      obtain ⟨b, hb⟩ := node_kids (t := "Sentence") (by decide) a c
      have h := sentenceText_rewritten (x := .element "Sentence" a c) rfl
      rw [hb] at h ⊢
      rw [cellPiece, cellPiece, if_pos rfl, if_pos rfl, h]
    by_cases h2 : n = "Column"
    · subst h2
      obtain ⟨b, hb⟩ := node_kids (t := "Column") (by decide) a c
      rw [hb, cellPiece, cellPiece, if_neg h1, if_pos rfl, if_neg h1, if_pos rfl]
      exact sentencesText_rewritten (column_rewritten a c)
    have h : n ∉ ["Sentence", "Column"] := by simp [h1, h2]
    obtain ⟨m, b, d, hm, hn⟩ := rewrite_other (by decide) h a c
    simp only [List.mem_cons, List.not_mem_nil, or_false, not_or] at hn
    rw [hm, cellPiece, cellPiece, if_neg hn.1, if_neg hn.2, if_neg h1, if_neg h2]
  | _ => rw [rewriteNode, cellPiece, cellPiece] <;> nofun

theorem lookup_cell : ∃ l, layouts.lookup "TableColumn" = some l ∧ l.parts = [.mixed] :=
  ⟨_, by with_unfolding_all rfl, rfl⟩

theorem cellText_rewritten (a : Attrs) (c : List XMLNode) :
    cellText asWritten (rewriteNode (.element "TableColumn" a c)) =
      cellText asRead (.element "TableColumn" a c) := by
  obtain ⟨l, hl, hp⟩ := lookup_cell
  rw [cellText, kids_of hl, hp, List.flatMap_singleton]
  refine mixed_rewritten cellPiece_rewritten ?_ c
  intro x h
  cases x with
  | text s => cases h
  | element n a c => cases h
  | _ => rfl

theorem lookup_table : ∃ l, layouts.lookup "Table" = some l ∧
    l.parts = [.each ["TableHeaderRow"], .each ["TableRow"]] :=
  ⟨_, by with_unfolding_all rfl, rfl⟩

theorem lookup_tableHeaderRow : ∃ l, layouts.lookup "TableHeaderRow" = some l ∧
    l.parts = [.each ["TableHeaderColumn"]] :=
  ⟨_, by with_unfolding_all rfl, rfl⟩

theorem lookup_tableRow : ∃ l, layouts.lookup "TableRow" = some l ∧ l.parts = [.each ["TableColumn"]] :=
  ⟨_, by with_unfolding_all rfl, rfl⟩

theorem lookup_tableHeaderColumn : ∃ l, layouts.lookup "TableHeaderColumn" = some l ∧
    l.parts = [.text] :=
  ⟨_, by with_unfolding_all rfl, rfl⟩

theorem tableText_rewritten (a : Attrs) (c : List XMLNode) :
    tableText asWritten (rewriteNode (.element "Table" a c)) = tableText asRead (.element "Table" a c) := by
  obtain ⟨l, hl, hp⟩ := lookup_table
  obtain ⟨l1, hl1, hp1⟩ := lookup_tableHeaderRow
  obtain ⟨l2, hl2, hp2⟩ := lookup_tableRow
  obtain ⟨l3, hl3, hp3⟩ := lookup_tableHeaderColumn
  have hk : kidsOf (.element "Table" a c) = c := rfl
  rw [tableText, tableText, kids_of hl, hp, List.flatMap_cons, List.flatMap_singleton, tagged_append,
    tagged_append, tagged_each (by decide) (by decide), tagged_each_none (by decide) (by decide),
    tagged_each_none (by decide) (by decide), tagged_each (by decide) (by decide), List.append_nil,
    List.nil_append, List.map_map, List.map_map, hk]
  congr 2
  · refine congrArg (fun s => String.intercalate " " s) ?_
    apply List.map_congr_left
    intro r hr
    obtain ⟨b, d, rfl⟩ := of_tagged hr
    have hk : kidsOf (.element "TableHeaderRow" b d) = d := rfl
    show String.join ((tagged "TableHeaderColumn" (kidsOf (rewriteNode _))).map _) = _
    rw [kids_of hl1, hp1, List.flatMap_singleton, tagged_each (by decide) (by decide), List.map_map, hk]
    congr 1
    apply List.map_congr_left
    intro h hh
    obtain ⟨b, d, rfl⟩ := of_tagged hh
    show titleText asWritten (kidsOf (rewriteNode _)) = titleText asRead d
    rw [kids_of hl3, hp3, List.flatMap_singleton, titleText_rewritten]
  · apply List.map_congr_left
    intro r hr
    obtain ⟨b, d, rfl⟩ := of_tagged hr
    have hk : kidsOf (.element "TableRow" b d) = d := rfl
    show String.intercalate " " ((tagged "TableColumn" (kidsOf (rewriteNode _))).map _) = _
    rw [kids_of hl2, hp2, List.flatMap_singleton, tagged_each (by decide) (by decide), List.map_map, hk]
    congr 1
    apply List.map_congr_left
    intro h hh
    obtain ⟨b, d, rfl⟩ := of_tagged hh
    exact cellText_rewritten b d

/-! ## Items and paragraphs -/

theorem tagged_flatMap {α : Type} (t : String) (f : α → List XMLNode) (l : List α) :
    tagged t (l.flatMap f) = l.flatMap fun x => tagged t (f x) := by
  induction l with
  | nil => rfl
  | cons x l ih => rw [List.flatMap_cons, List.flatMap_cons, tagged_append, ih]

theorem tagged_eq_nil {t : String} {c : List XMLNode} : (tagged t c).map rewriteNode = [] ↔ tagged t c = [] :=
  List.map_eq_nil_iff

theorem body_rewritten (b : Bool) (c : List XMLNode) :
    bodyText asWritten b (Spec.itemSentenceLayout.parts.flatMap fun p => p.nodes (rewriteList c)) =
      bodyText asRead b c := by
  have hn : ∀ {p q : Portion} {c}, (Portion.either p q).nodes c =
      if (p.nodes c).isEmpty then q.nodes c else p.nodes c := fun {p q c} => by rw [Portion.nodes]
  have he : ∀ t, t ∉ shifty → (Portion.each [t]).nodes (rewriteList c) = (tagged t c).map rewriteNode := by
    intro t _
    rw [Portion.nodes, pick_eq]
    rfl
  have ho : ∀ {t u : String} {l : List XMLNode}, t ∉ shifty → u ≠ t → (∀ x ∈ l, isNamed [u] x = true) →
      tagged t (l.map rewriteNode) = [] := by
    intro t u l ht hu h
    rw [tagged_map ht, tagged_never, List.map_nil]
    intro x hx
    obtain ⟨a, d, rfl⟩ := named_of (h x hx)
    simpa [isNamed] using hu
  have hm : ∀ {t : String} {x : XMLNode}, x ∈ tagged t c → isNamed [t] x = true :=
    fun h => (List.mem_filter.1 h).2
  show bodyText asWritten b ([Portion.either (.each ["Column"]) (.either (.each ["Sentence"])
    (.last "Table"))].flatMap fun p => p.nodes (rewriteList c)) = _
  rw [List.flatMap_singleton, hn, hn, he _ (by decide), he _ (by decide), nodes_last']
  by_cases h1 : tagged "Column" c = []
  · rw [h1, List.map_nil, List.isEmpty_nil, if_pos rfl]
    by_cases h2 : tagged "Sentence" c = []
    · rw [h2, List.map_nil, List.isEmpty_nil, if_pos rfl]
      unfold bodyText
      rw [h1, h2, ho (u := "Table") (by decide) (by decide) (fun x hx => hm (mem_getLast? hx)),
        ho (u := "Table") (by decide) (by decide) (fun x hx => hm (mem_getLast? hx)), tagged_map (by decide),
        tagged_self (fun x hx => hm (mem_getLast? hx))]
      simp only [ne_eq, not_true_eq_false, if_false]
      cases hl : (tagged "Table" c).getLast? with
      | none => rfl
      | some x =>
        obtain ⟨a, d, rfl⟩ := of_tagged (List.mem_of_getLast? hl)
        show (if b then tableText asWritten (rewriteNode _) else "") = _
        rw [tableText_rewritten]
    · have h2' : ((tagged "Sentence" c).map rewriteNode).isEmpty = false := by simpa using h2
      rw [h2', if_neg (by decide)]
      unfold bodyText
      rw [h1, ho (u := "Sentence") (by decide) (by decide) (fun x hx => hm hx), tagged_map (by decide),
        tagged_self (fun x hx => hm hx), if_neg (fun h => h rfl),
        if_pos (by simpa using h2), if_neg (fun h => h rfl), if_pos h2]
      apply sentencesText_rewritten
      rw [tagged_map (by decide), tagged_self (fun x hx => hm hx)]
  · have h1' : ((tagged "Column" c).map rewriteNode).isEmpty = false := by simpa using h1
    rw [h1', if_neg (by decide)]
    unfold bodyText
    rw [tagged_map (by decide), tagged_self (fun x hx => hm hx), if_pos h1, if_pos (by simpa using h1),
      List.flatMap_map]
    congr 1
    apply flatMap_congr_mem
    intro x hx
    obtain ⟨a, d, rfl⟩ := of_tagged hx
    show (tagged "Sentence" (kidsOf (rewriteNode _))).map _ = _
    rw [column_rewritten, List.map_map]
    apply List.map_congr_left
    intro y hy
    exact sentenceText_rewritten (List.mem_filter.1 hy).2

theorem setAttrs_num {l : Layout} {cs : List Spec.Copy}
    (h : l.attrs = { name := "Num", change := .number } :: cs) (hc : ∀ x ∈ cs, x.name ≠ "Num") (a : Attrs) :
    (l.setAttrs a).get "Num" = Change.number.apply (a.get "Num") := by
  have : ∀ (cs : List Spec.Copy) (b : Attrs), (∀ x ∈ cs, x.name ≠ "Num") →
      (cs.foldl (fun b x => b.insertOpt x.name (x.change.apply (a.get x.source))) b).get "Num" =
        b.get "Num" := by
    intro cs
    induction cs with
    | nil => intros; rfl
    | cons x cs ih =>
      intro b h
      rw [List.foldl_cons, ih _ (fun y hy => h y (by simp [hy])), Attrs.get_insertOpt, if_neg]
      exact h x (by simp)
  rw [Layout.setAttrs, h, List.foldl_cons, this _ _ hc, Attrs.get_insertOpt]
  cases h : Change.number.apply (a.get "Num") <;> simp [Attrs.get]

theorem num_rewritten {t : String} {l : Layout} (hl : layouts.lookup t = some l) {cs : List Spec.Copy}
    (h : l.attrs = { name := "Num", change := .number } :: cs) (hc : ∀ x ∈ cs, x.name ≠ "Num") (a : Attrs)
    (c : List XMLNode) : attrOf "Num" (rewriteNode (.element t a c)) = Change.number.apply (a.get "Num") := by
  rw [rewriteNode_of hl]
  exact setAttrs_num h hc a

/-- The layouts of the items of a chain of tags. -/
def Chain : List String → Prop
  | [] => True
  | tag :: tags => (layouts.lookup tag = some (Spec.itemLayout (tag ++ "Title") (tag ++ "Sentence")
      tags.head?.toList) ∧ layouts.lookup (tag ++ "Sentence") = some Spec.itemSentenceLayout ∧
      tag ++ "Sentence" ∉ (tag ++ "Title") :: (tags.head?.toList ++ Spec.structTags ++ shifty) ∧
      ∀ t ∈ tags.head?, t ∉ (tag ++ "Title") :: (tag ++ "Sentence") :: (Spec.structTags ++ shifty)) ∧
      Chain tags

theorem chain_levels : Chain levelTags := by
  refine ⟨?_, ?_, ?_, ?_, ?_, ?_, ?_, ?_, ?_, ?_, ?_, trivial⟩ <;>
    exact ⟨by with_unfolding_all rfl, by with_unfolding_all rfl, by decide, by decide⟩

theorem itemEntries_rewritten (para : Option String) : ∀ (tags : List String), Chain tags →
    ∀ (around : List (Option String)) (c d : List XMLNode),
    (∀ t, tags.head? = some t → tagged t d = (tagged t c).map rewriteNode) →
    itemEntries asWritten para around tags d = itemEntries asRead para around tags c
  | [], _, _, _, _, _ => by rw [itemEntries, itemEntries]
  | tag :: tags, ⟨⟨hl, hls, hst, hct⟩, ht⟩, around, c, d, h => by
    rw [itemEntries, itemEntries, h tag rfl, List.flatMap_map]
    apply flatMap_congr_mem
    intro x hx
    obtain ⟨a, k, rfl⟩ := of_tagged hx
    have hnum : asWritten.num (attrOf "Num" (rewriteNode (.element tag a k))) =
        asRead.num (attrOf "Num" (.element tag a k)) :=
      num_rewritten hl (cs := [Spec.flagCopy "Delete", Spec.flagCopy "Hide"]) rfl (by decide) a k
    have hk : kidsOf (rewriteNode (.element tag a k)) =
        (Portion.last (tag ++ "Title")).nodes (rewriteList k) ++
        ((Portion.last (tag ++ "Sentence")).nodes (rewriteList k) ++
        ((Portion.each tags.head?.toList).nodes (rewriteList k) ++
        (Portion.each Spec.structTags).nodes (rewriteList k))) := by
      rw [kids_of hl]
      simp [Spec.itemLayout]
    simp only [List.mem_cons, List.mem_append, not_or] at hst
    have hsent : tagged (tag ++ "Sentence") (kidsOf (rewriteNode (.element tag a k))) =
        (tagged (tag ++ "Sentence") k).getLast?.toList.map rewriteNode := by
      rw [hk, tagged_append, tagged_append, tagged_append, tagged_last_none hst.2.2 (fun e => hst.1 e.symm),
        tagged_last hst.2.2, tagged_each_none hst.2.2 hst.2.1.1, tagged_each_none hst.2.2 hst.2.1.2]
      simp
    rw [hnum, hsent]
    congr 1
    · congr 1
      show (match ((tagged (tag ++ "Sentence") k).getLast?.toList.map rewriteNode).getLast? with
        | some s => _ | none => _) = _
      have hk2 : kidsOf (.element tag a k) = k := rfl
      rw [hk2]
      cases hlast : (tagged (tag ++ "Sentence") k).getLast? with
      | none => rfl
      | some s =>
        obtain ⟨b, m, rfl⟩ := of_tagged (List.mem_of_getLast? hlast)
        show bodyText asWritten _ (kidsOf (rewriteNode _)) = _
        rw [kids_of hls, body_rewritten]
        rfl
    · apply itemEntries_rewritten para tags ht
      intro t hh
      have h2 := hct t hh
      simp only [List.mem_cons, List.mem_append, not_or] at h2
      rw [hk, tagged_append, tagged_append, tagged_append,
        tagged_last_none h2.2.2.2 (fun e => h2.1 e.symm), tagged_last_none h2.2.2.2 (fun e => h2.2.1 e.symm),
        tagged_each h2.2.2.2 (by rw [hh]; simp), tagged_each_none h2.2.2.2 h2.2.2.1]
      simp [kidsOf]

theorem lookup_paragraph : ∃ l, layouts.lookup "Paragraph" = some l ∧
    l.attrs = { name := "Num", change := .number } :: [Spec.flagCopy "OldStyle", Spec.flagCopy "OldNum",
      Spec.flagCopy "Hide"] ∧
    l.parts = [.last "ParagraphCaption", .lastOr "ParagraphNum", .merged "ParagraphSentence",
      .each ["AmendProvision"], .each ["Class"], .each Spec.structTags, .each ["Item"]] :=
  ⟨_, by with_unfolding_all rfl, rfl, rfl⟩

theorem lookup_paragraphSentence : ∃ l, layouts.lookup "ParagraphSentence" = some l ∧
    l.parts = [.elements] :=
  ⟨_, by with_unfolding_all rfl, rfl⟩

theorem paragraphEntries_rewritten {x : XMLNode} (h : isNamed ["Paragraph"] x = true) :
    paragraphEntries asWritten (rewriteNode x) = paragraphEntries asRead x := by
  obtain ⟨a, c, rfl⟩ := named_of h
  obtain ⟨l, hl, ha, hp⟩ := lookup_paragraph
  obtain ⟨l2, hl2, hp2⟩ := lookup_paragraphSentence
  have hnum : asWritten.num (attrOf "Num" (rewriteNode (.element "Paragraph" a c))) =
      asRead.num (attrOf "Num" (.element "Paragraph" a c)) := num_rewritten hl ha (by decide) a c
  have hk := kids_of hl a c
  rw [hp] at hk
  simp only [List.flatMap_cons, List.flatMap_nil, List.append_nil] at hk
  have hs : tagged "ParagraphSentence" (kidsOf (rewriteNode (.element "Paragraph" a c))) =
      [.element "ParagraphSentence" [] (((tagged "ParagraphSentence" c).map rewriteNode).flatMap kidsOf)] := by
    rw [hk]
    simp only [tagged_append]
    rw [tagged_last_none (by decide) (by decide), tagged_lastOr_none (by decide) (by decide), tagged_merged,
      tagged_each_none (by decide) (by decide), tagged_each_none (by decide) (by decide),
      tagged_each_none (by decide) (by decide), tagged_each_none (by decide) (by decide)]
    simp
  have hi : tagged "Item" (kidsOf (rewriteNode (.element "Paragraph" a c))) =
      (tagged "Item" c).map rewriteNode := by
    rw [hk]
    simp only [tagged_append]
    rw [tagged_last_none (by decide) (by decide), tagged_lastOr_none (by decide) (by decide),
      tagged_merged_none (by decide), tagged_each_none (by decide) (by decide),
      tagged_each_none (by decide) (by decide), tagged_each_none (by decide) (by decide),
      tagged_each (by decide) (by decide)]
    simp
  rw [paragraphEntries, paragraphEntries, hnum, hs]
  congr 1
  · congr 1
    apply sentencesText_rewritten
    rw [List.flatMap_singleton]
    show tagged "Sentence" (((tagged "ParagraphSentence" c).map rewriteNode).flatMap kidsOf) =
      (tagged "Sentence" ((tagged "ParagraphSentence" c).flatMap kidsOf)).map rewriteNode
    rw [tagged_flatMap, tagged_flatMap, List.map_flatMap, List.flatMap_map]
    apply flatMap_congr_mem
    intro x hx
    obtain ⟨b, d, rfl⟩ := of_tagged hx
    show tagged "Sentence" (kidsOf (rewriteNode _)) = _
    rw [kids_of hl2, hp2, List.flatMap_singleton, tagged_elements (by decide)]
    rfl
  · apply itemEntries_rewritten _ _ chain_levels
    intro t ht
    cases (Option.some.inj ht)
    exact hi

theorem paragraphsText_rewritten {c : List XMLNode} (h : ∀ x ∈ c, isNamed ["Paragraph"] x = true) :
    paragraphsText asWritten (c.map rewriteNode) = paragraphsText asRead c := by
  rw [paragraphsText, paragraphsText, List.flatMap_map]
  congr 2
  apply flatMap_congr_mem
  intro x hx
  exact paragraphEntries_rewritten (h x hx)

theorem lookup_article : ∃ l, layouts.lookup "Article" = some l ∧
    l.attrs = { name := "Num", change := .number } :: [Spec.flagCopy "Delete", Spec.flagCopy "Hide"] ∧
    l.parts = [.last "ArticleCaption", .lastOr "ArticleTitle", .each ["Paragraph"], .last "SupplNote"] :=
  ⟨_, by with_unfolding_all rfl, rfl, rfl⟩

theorem article_paragraphs (a : Attrs) (c : List XMLNode) :
    tagged "Paragraph" (kidsOf (rewriteNode (.element "Article" a c))) =
      (tagged "Paragraph" c).map rewriteNode := by
  obtain ⟨l, hl, -, hp⟩ := lookup_article
  rw [kids_of hl, hp]
  simp only [List.flatMap_cons, List.flatMap_nil, List.append_nil, tagged_append]
  rw [tagged_last_none (by decide) (by decide), tagged_lastOr_none (by decide) (by decide),
    tagged_each (by decide) (by decide), tagged_last_none (by decide) (by decide)]
  simp

theorem articleText_rewritten {x : XMLNode} (h : isNamed ["Article"] x = true) :
    articleText asWritten (rewriteNode x) = articleText asRead x := by
  obtain ⟨a, c, rfl⟩ := named_of h
  rw [articleText, article_paragraphs]
  exact paragraphsText_rewritten (fun x hx => (List.mem_filter.1 hx).2)

/-! ## Articles -/

theorem lookup_unit {t : String} (h : t ∈ unitTags) : layouts.lookup t = some Spec.unitLayout := by
  simp only [unitTags, List.mem_cons, List.not_mem_nil, or_false] at h
  rcases h with rfl | rfl | rfl | rfl | rfl <;> with_unfolding_all rfl

theorem unit_not_shifty {t : String} (h : t ∈ "Article" :: unitTags) : t ∉ shifty := by
  simp only [unitTags, List.mem_cons, List.not_mem_nil, or_false] at h
  rcases h with rfl | rfl | rfl | rfl | rfl | rfl <;> decide

theorem unit_num {t : String} (h : t ∈ "Article" :: unitTags) (a : Attrs) (c : List XMLNode) :
    attrOf "Num" (rewriteNode (.element t a c)) = Change.number.apply (a.get "Num") := by
  rcases List.mem_cons.1 h with rfl | h
  · obtain ⟨l, hl, ha, -⟩ := lookup_article
    exact num_rewritten hl ha (by decide) a c
  · exact num_rewritten (lookup_unit h) (cs := [Spec.flagCopy "Delete", Spec.flagCopy "Hide"]) rfl
      (by decide) a c

theorem unit_kids {t : String} (h : t ∈ unitTags) (a : Attrs) (c : List XMLNode) :
    kidsOf (rewriteNode (.element t a c)) = (c.filter isElement).map rewriteNode := by
  rw [kids_of (lookup_unit h)]
  show ([Portion.elements].flatMap fun p => p.nodes (rewriteList c)) = _
  rw [List.flatMap_singleton, Portion.nodes, pick_eq]

/-- The entry once the article is written. -/
def Spec.Doc.Numbered.rewritten (r : Numbered) : Numbered := { r with article := rewriteNode r.article }

theorem flatMap_filter {α β : Type} {p : α → Bool} {f g : α → List β} {l : List α}
    (h1 : ∀ x ∈ l, p x = true → f x = g x) (h2 : ∀ x ∈ l, p x = false → g x = []) :
    (l.filter p).flatMap f = l.flatMap g := by
  induction l with
  | nil => rfl
  | cons x l ih =>
    have ih := ih (fun y hy => h1 y (by simp [hy])) (fun y hy => h2 y (by simp [hy]))
    rw [List.flatMap_cons]
    cases hp : p x with
    | true => rw [List.filter_cons_of_pos hp, List.flatMap_cons, ih, h1 x (by simp) hp]
    | false => rw [List.filter_cons_of_neg (by rw [hp]; decide), ih, h2 x (by simp) hp, List.nil_append]

theorem articlesIn_nil {x : XMLNode} (h : isElement x = false) : articlesIn x = [] := by
  cases x with
  | element n a c => cases h
  | _ => rw [articlesIn]; nofun

theorem numberedIn_nil {w : Way} {x : XMLNode} (h : isElement x = false) : numberedIn w x = [] := by
  cases x with
  | element n a c => cases h
  | _ => rw [numberedIn]; nofun

theorem rewrite_plain {x : XMLNode} (h : isElement x = false) : rewriteNode x = x := by
  cases x with
  | element n a c => cases h
  | _ => rw [rewriteNode]; nofun

mutual
theorem articlesIn_rewritten : ∀ x, articlesIn (rewriteNode x) = (articlesIn x).map rewriteNode
  | .element n a c => by
    by_cases h1 : n = "Article"
    · subst h1
      obtain ⟨b, hb⟩ := node_kids (t := "Article") (by decide) a c
      rw [hb, articlesIn, articlesIn, if_pos rfl, if_pos rfl, List.map_singleton, ← hb]
    by_cases h2 : n ∈ unitTags
    · obtain ⟨b, hb⟩ := node_kids (unit_not_shifty (List.mem_cons_of_mem _ h2)) a c
      have h2' : unitTags.contains n = true := by simpa using h2
      rw [hb, articlesIn, articlesIn, if_neg h1, if_neg h1, if_pos h2', if_pos h2', unit_kids h2]
      exact articlesAmong_rewritten c
    · have h : n ∉ "Article" :: unitTags := by simp [h1, h2]
      obtain ⟨m, b, d, hm, hn⟩ := rewrite_other (fun t => unit_not_shifty) h a c
      rw [hm, articlesIn_other hn, articlesIn_other h]
      rfl
  | .text _ => by rw [rewrite_plain rfl, articlesIn_nil rfl]; rfl
  | .comment _ => by rw [rewrite_plain rfl, articlesIn_nil rfl]; rfl
  | .cdata _ => by rw [rewrite_plain rfl, articlesIn_nil rfl]; rfl
  | .processingInstruction _ _ => by rw [rewrite_plain rfl, articlesIn_nil rfl]; rfl
theorem articlesAmong_rewritten : ∀ c : List XMLNode,
    articlesAmong ((c.filter isElement).map rewriteNode) = (articlesAmong c).map rewriteNode
  | [] => by
    rw [List.filter_nil, List.map_nil, articlesAmong]
    rfl
  | x :: c => by
    rw [articlesAmong, List.map_append, ← articlesAmong_rewritten c, ← articlesIn_rewritten x]
    cases hp : isElement x with
    | true => rw [List.filter_cons_of_pos hp, List.map_cons, articlesAmong]
    | false => rw [List.filter_cons_of_neg (by rw [hp]; decide), rewrite_plain hp, articlesIn_nil hp,
        List.nil_append]
end

mutual
theorem numberedIn_rewritten : ∀ x, numberedIn asWritten (rewriteNode x) =
    (numberedIn asRead x).map Numbered.rewritten
  | .element n a c => by
    by_cases h1 : n = "Article"
    · subst h1
      obtain ⟨b, hb⟩ := node_kids (t := "Article") (by decide) a c
      rw [hb, numberedIn, numberedIn, if_pos rfl, if_pos rfl, List.map_singleton, ← hb]
      rfl
    by_cases h2 : n ∈ unitTags
    · obtain ⟨b, hb⟩ := node_kids (unit_not_shifty (List.mem_cons_of_mem _ h2)) a c
      have hn := unit_num (List.mem_cons_of_mem _ h2) a c
      have h2' : unitTags.contains n = true := by simpa using h2
      by_cases h3 : n = "Division"
      · rw [hb] at hn
        rw [hb, numberedIn, numberedIn, if_neg h1, if_neg h1, if_pos h3, if_pos h3, unit_kids h2,
          articlesAmong_rewritten, List.map_map, List.map_map]
        apply List.map_congr_left
        intro x _
        show Numbered.mk _ _ = Numbered.mk _ _
        congr 3
      · rw [hb, numberedIn, numberedIn, if_neg h1, if_neg h1, if_neg h3, if_neg h3, if_pos h2', if_pos h2',
          unit_kids h2]
        exact numberedAmong_rewritten n c
    · have h : n ∉ "Article" :: unitTags := by simp [h1, h2]
      obtain ⟨m, b, d, hm, hn⟩ := rewrite_other (fun t => unit_not_shifty) h a c
      have h4 : numberedIn asRead (.element n a c) = [] := by
        have := numberedIn_articles asRead (.element n a c)
        rw [articlesIn_other h] at this
        simpa using this
      rw [hm, numberedIn_other hn, h4]
      rfl
  | .text _ => by rw [rewrite_plain rfl, numberedIn_nil rfl, numberedIn_nil rfl]; rfl
  | .comment _ => by rw [rewrite_plain rfl, numberedIn_nil rfl, numberedIn_nil rfl]; rfl
  | .cdata _ => by rw [rewrite_plain rfl, numberedIn_nil rfl, numberedIn_nil rfl]; rfl
  | .processingInstruction _ _ => by rw [rewrite_plain rfl, numberedIn_nil rfl, numberedIn_nil rfl]; rfl
theorem numberedAmong_rewritten (tag : String) : ∀ c : List XMLNode,
    numberedAmong asWritten tag ((c.filter isElement).map rewriteNode) =
      (numberedAmong asRead tag c).map Numbered.rewritten
  | [] => by
    rw [List.filter_nil, List.map_nil, numberedAmong, numberedAmong]
    rfl
  | x :: c => by
    rw [numberedAmong, List.map_append, ← numberedAmong_rewritten tag c]
    have hx := numberedIn_rewritten x
    cases hp : isElement x with
    | true =>
      rw [List.filter_cons_of_pos hp, List.map_cons, numberedAmong, hx, List.map_map, List.map_map]
      congr 1
      apply List.map_congr_left
      intro r hr
      have hn : attrOf "Num" (rewriteNode x) = Change.number.apply (attrOf "Num" x) := by
        cases x with
        | element n a d =>
          by_cases h : n ∈ "Article" :: unitTags
          · exact unit_num h a d
          · have := numberedIn_articles asRead (.element n a d)
            rw [articlesIn_other h] at this
            have h4 : numberedIn asRead (.element n a d) = [] := by simpa using this
            rw [h4] at hr
            cases hr
        | _ => cases hp
      show Numbered.mk _ _ = Numbered.mk _ _
      rw [hn]
      rfl
    | false => rw [List.filter_cons_of_neg (by rw [hp]; decide), numberedIn_nil hp]; rfl
end

/-! ## Provisions -/

theorem paragraphGroups_rewritten {p cut : XMLNode → Bool} (hp : ∀ x, p x = false → cut x = false)
    (hp2 : ∀ x, p x = false → isNamed ["Paragraph"] x = false)
    (hc : ∀ x, cut (rewriteNode x) = cut x) (g c : List XMLNode) :
    paragraphGroups cut (g.map rewriteNode) ((c.filter p).map rewriteNode) =
      (paragraphGroups cut g c).map fun g => g.map rewriteNode := by
  induction c generalizing g with
  | nil => rw [List.filter_nil, List.map_nil, paragraphGroups, paragraphGroups]; rfl
  | cons x c ih =>
    rw [paragraphGroups]
    cases h : p x with
    | false =>
      rw [List.filter_cons_of_neg (by rw [h]; decide), hp x h, hp2 x h, if_neg (by decide),
        if_neg (by decide), ih]
    | true =>
      rw [List.filter_cons_of_pos h, List.map_cons, paragraphGroups, hc, isNamed_rewrite (by decide)]
      split
      · rw [List.map_cons, ← ih]
        rfl
      · split
        · rw [← ih, List.map_append]
          rfl
        · rw [ih]

end JLaw
