import Verif.Props.RoundTrip
import Verif.Reading.Law

/-!
# C29, C30, C34, C35: panics, nesting, and what reading depends on
-/

namespace JLaw

/-! ## C29 and C30: panics and nesting -/

/-- C29: reading panics only if the root has no number or an article has no contents. -/
theorem C29_law_panics_only_if (n : Nat) (e : Element) (hn : e.node.height ≤ n)
    (h : Law.parser (L := lvl n) e = .panic) :
    e.attributes.get "Num" = none ∨ e.HasBareArticle := by
  have := (Law.agree (P := e.attributes.get "Num" = none ∨ e.HasBareArticle) (lvl_agrees _ n)
    ⟨rfl, hn, .inr⟩ .inl).nice
  rw [h] at this
  exact this

/-- C29: on every other element reading gives a value or an error. -/
theorem C29_law_value_or_error (n : Nat) (e : Element) (hn : e.node.height ≤ n)
    (h1 : e.attributes.get "Num" ≠ none) (h2 : ¬ e.HasBareArticle) :
    (∃ x, Law.parser (L := lvl n) e = .ok x) ∨ ∃ err, Law.parser (L := lvl n) e = .err err := by
  have := (Law.agree (P := False) (lvl_agrees _ n) ⟨rfl, hn, h2⟩ (fun h => h1 h)).nice
  cases hr : Law.parser (L := lvl n) e with
  | ok x => exact .inl ⟨x, rfl⟩
  | err x => exact .inr ⟨x, rfl⟩
  | panic => rw [hr] at this; exact this.elim
  | deep => rw [hr] at this; exact this.elim

/-- C30: a document never needs more re-entries than it is deep. -/
theorem C30_law_not_deep (n : Nat) (e : Element) (hn : e.node.height ≤ n) :
    Law.parser (L := lvl n) e ≠ .deep := by
  have := (Law.agree (P := True) (lvl_agrees _ n) ⟨rfl, hn, fun _ => trivial⟩
    (fun _ => trivial)).nice
  intro h
  rw [h] at this
  exact this

/-- C30, the readers through which reading re-enters itself: on an element of depth at most `n + 1`
they get along with `n` further re-entries. -/
theorem C30_reentry (n : Nat) (e : Element) (hn : e.node.height ≤ n + 1) :
    (lvl (n + 1)).contentsParser e ≠ .deep ∧ Contents.parser (L := lvl n) e ≠ .deep := by
  have := ((lvl_agrees True (n + 1)).contents e e ⟨rfl, hn, fun _ => trivial⟩).nice
  constructor
  · intro h
    rw [h] at this
    exact this
  · intro h
    have h' : (lvl (n + 1)).contentsParser e = .deep := h
    rw [h'] at this
    exact this

/-- C30, likewise: items, cells and amendments. -/
theorem C30_item_cell_amendment (n : Nat) (e : Element) (hn : e.node.height ≤ n) :
    Item.parser (L := lvl n) e ≠ .deep ∧ TableColumn.parser (L := lvl n) e ≠ .deep ∧
      AmendProvision.parser (L := lvl n) e ≠ .deep := by
  have hf : Fine True n e e := ⟨rfl, hn, fun _ => trivial⟩
  have h1 := (Item.agree (lvl_agrees True n) hf).nice
  have h2 := (TableColumn.agree (lvl_agrees True n) hf).nice
  have h3 := (AmendProvision.agree (lvl_agrees True n) hf).nice
  refine ⟨fun h => ?_, fun h => ?_, fun h => ?_⟩
  · rw [h] at h1; exact h1
  · rw [h] at h2; exact h2
  · rw [h] at h3; exact h3

/-- Reading text never gives an error. -/
theorem Text.fromChildren_cases (n : Nat) (c : List XMLNode) (hn : heightList c < n) :
    (∃ t, Text.fromChildren (L := lvl n) c = .ok t) ∨
      Text.fromChildren (L := lvl n) c = .panic := by
  have hp : ∀ {α β : Type} (f : α → β) (r : Res α) err, pushOk f r ≠ .err err := by
    intro α β f r err
    cases r <;> simp [pushOk]
  have h1 : ∀ x : XMLNode, ∀ err, TextElement.ofNode (L := lvl n) x ≠ .err err := by
    intro x err
    cases x with
    | element k a d =>
      simp only [TextElement.ofNode, matchTag_cons, matchTag_nil]
      split
      · exact hp _ _ _
      split
      · exact hp _ _ _
      split
      · exact hp _ _ _
      split
      · exact hp _ _ _
      · simp
    | _ => simp [TextElement.ofNode]
  have h2 : ∀ l err, collectRes (TextElement.ofNode (L := lvl n)) l ≠ .err err := by
    intro l err
    induction l with
    | nil => simp
    | cons x l ih =>
      simp only [collectRes_cons]
      cases h : TextElement.ofNode (L := lvl n) x with
      | ok v =>
        cases h' : collectRes (TextElement.ofNode (L := lvl n)) l with
        | err e => rw [h'] at ih; intro h''; exact ih h''
        | _ => simp
      | err e => exact absurd h (h1 x e)
      | _ => simp
  have h3 := (Text.agree (lvl_agrees True n) (c := c) (c' := c)
    (Fine.kids (e := ⟨"", [], c⟩) (e' := ⟨"", [], c⟩)
      ⟨rfl, Nat.succ_le_of_lt hn, fun _ => trivial⟩)).nice
  unfold Text.fromChildren at h3 ⊢
  cases h : collectRes (TextElement.ofNode (L := lvl n)) c with
  | ok l => exact .inl ⟨⟨l⟩, rfl⟩
  | err e => exact absurd h (h2 c e)
  | panic => exact .inr rfl
  | deep => rw [h] at h3; exact h3.elim

/-- C29, the converse for articles: an article with a readable number, without flags, and with
nothing but captions without attributes and titles among its elements, makes reading panic. -/
theorem C29_bare_article_panics (n : Nat) (num : String) (a : ArticleNumber) (c : List XMLNode)
    (hnum : ArticleNumber.fromNumStr num = .ok a)
    (hn : heightList c < n)
    (hc : ∀ n' a' c', .element n' a' c' ∈ c → n' = "ArticleCaption" ∧ a' = [] ∨ n' = "ArticleTitle") :
    Article.parser (L := lvl n) ⟨"Article", [("Num", num)], c⟩ = .panic := by
  have hh : ∀ cap title, Article.head (L := lvl n) cap title c = .panic := by
    induction c with
    | nil => intros; rfl
    | cons x c ih =>
      rw [heightList] at hn
      have ih := ih (by omega) fun n' a' c' h => hc n' a' c' (by simp [h])
      intro cap title
      cases x with
      | element k b d =>
        have hd : heightList d < n := by
          have : (XMLNode.element k b d).height = heightList d + 1 := rfl
          omega
        rcases hc k b d (by simp) with ⟨rfl, rfl⟩ | rfl
        · rcases Text.fromChildren_cases n d hd with ⟨t, ht⟩ | ht
          · simp [Article.head, Caption.parser, ht, getAttributeOptWithParse, ih]
          · simp [Article.head, Caption.parser, ht]
        · rcases Text.fromChildren_cases n d hd with ⟨t, ht⟩ | ht
          · simp [Article.head, ht, ih]
          · simp [Article.head, ht]
      | _ => exact ih cap title
  simp [Article.parser, numAttr, getAttribute, Attrs.get_cons, hnum, getBool,
    getAttributeOptWithParse, hh]

/-- An article with only a title. -/
example : Article.parser (L := lvl 2)
    ⟨"Article", [("Num", "1")], [.element "ArticleTitle" [] [.text "第一条"]]⟩ = .panic :=
  C29_bare_article_panics 2 "1" ⟨1, [], []⟩ _ rfl (by decide) (by rintro _ _ _ h; simp at h; exact .inr h.1)

/-- C29, the converse for the number: a law whose era and year are readable and whose number is
missing makes reading panic. -/
theorem C29_missing_number_panics (n : Nat) (e : Element) (he : e.name = "Law")
    (hera : ∃ x, Era.fromAttr (e.attributes.get "Era") = some x)
    (hyear : ∃ y s, e.attributes.get "Year" = some s ∧ parseUsizeStr s = some y)
    (hnum : e.attributes.get "Num" = none) : Law.parser (L := lvl n) e = .panic := by
  obtain ⟨x, hx⟩ := hera
  obtain ⟨y, s, hs, hy⟩ := hyear
  unfold Law.parser
  rw [if_pos he, hx]
  simp [Res.ofOption, getAttributeWithParse, hs, hy, Law.numOf, hnum, Res.unwrap]

theorem within_element {x : XMLNode} {n : String} {a : Attrs} {c : List XMLNode} :
    Within x (.element n a c) ↔ x = .element n a c ∨ ∃ y ∈ c, Within x y := by
  constructor
  · intro h
    cases h with
    | refl => exact .inl rfl
    | child _ _ _ y hy h => exact .inr ⟨y, hy, h⟩
  · rintro (rfl | ⟨y, hy, h⟩)
    · exact .refl
    · exact .child _ _ _ y hy h

theorem within_text {x : XMLNode} {s : String} : Within x (.text s) ↔ x = .text s :=
  ⟨fun h => by cases h; rfl, fun h => h ▸ .refl⟩

/-- A law with an article that has a paragraph, and whose number is not a number. -/
def oddLaw : Element :=
  ⟨"Law", [("Num", "x"), ("Era", "Showa"), ("Year", "22")],
    [.element "Article" [] [.element "ArticleTitle" [] [.text "第一条"], .element "Paragraph" [] []]]⟩

/-- It meets the hypotheses of C29, and reading it gives an error. -/
example : oddLaw.node.height ≤ 3 ∧ oddLaw.attributes.get "Num" ≠ none ∧ ¬ oddLaw.HasBareArticle ∧
    Law.parser (L := lvl 3) oddLaw = .err (.parsingError "usize" "x") := by
  refine ⟨by decide, by decide, ?_, rfl⟩
  rintro ⟨x, hx, a, c, rfl, hc⟩
  simp [oddLaw, Element.node, within_element, within_text] at hx
  obtain ⟨rfl, rfl⟩ := hx
  simpa using hc "Paragraph" [] [] (by simp)

/-! ## C34 and C35: what does not matter -/

/-- C34 and C35: two elements that differ only in the order of attributes, in attributes no reader
knows, and by comments, processing instructions and CDATA sections outside of the elements read by
position, are read the same. -/
theorem C34_C35_same (n : Nat) (e e' : Element) (h : e.Same e') (hn : e.node.height ≤ n) :
    Law.parser (L := lvl n) e = Law.parser e' :=
  (Law.agree (P := True) (lvl_agrees _ n) ⟨h, hn, fun _ => trivial⟩ (fun _ => trivial)).eq

theorem normList_append (b : Bool) (l r : List XMLNode) :
    normList b (l ++ r) = normList b l ++ normList b r := by
  induction l with
  | nil => rfl
  | cons x l ih =>
    simp only [List.cons_append, normList, ih]
    split <;> rfl

/-- C34: a comment, processing instruction or CDATA section may be put anywhere among the children
of an element not read by position. -/
theorem C34_insert (t : String) (a : Attrs) (l r : List XMLNode) (x : XMLNode)
    (ht : t ∉ positionalTags) (hx : ∀ k b d, x ≠ .element k b d) (hx' : ∀ s, x ≠ .text s) :
    Element.Same ⟨t, a, l ++ r⟩ ⟨t, a, l ++ x :: r⟩ := by
  have ho : x.isOther = true := by
    cases x with
    | element k b d => exact absurd rfl (hx k b d)
    | text s => exact absurd rfl (hx' s)
    | _ => rfl
  have ht : positionalTags.contains t = false := by simpa using ht
  unfold Element.Same Element.node XMLNode.norm
  rw [ht, normList_append, normList_append]
  simp [normList, ho]

/-- C34 and C35: changes that do not matter in a part of the tree do not matter in the whole. -/
theorem C34_C35_context (t : String) (a : Attrs) (l r : List XMLNode) (x y : Element)
    (h : x.Same y) :
    Element.Same ⟨t, a, l ++ x.node :: r⟩ ⟨t, a, l ++ y.node :: r⟩ := by
  unfold Element.Same Element.node XMLNode.norm at *
  rw [normList_append, normList_append]
  simp only [normList, XMLNode.isOther, Bool.false_and, Bool.false_eq_true, if_false, XMLNode.norm]
  rw [h]

/-- C34 and C35: nor do several such changes one after the other. -/
theorem C34_C35_trans (x y z : Element) (h : x.Same y) (h' : y.Same z) : x.Same z := h.trans h'

/-- C34, where the first child is read by position: with a comment, processing instruction or CDATA
section before the title, no part, chapter, section, subsection or division is read. -/
theorem C34_comment_before_title (n : Nat) (e : Element) (x : XMLNode) (c : List XMLNode)
    (hc : e.children = x :: c) (hx : ∀ k b d, x ≠ .element k b d) :
    (∀ v, Part.parser (L := lvl n) e ≠ .ok v) ∧ (∀ v, Chapter.parser (L := lvl n) e ≠ .ok v) ∧
    (∀ v, Section.parser (L := lvl n) e ≠ .ok v) ∧
    (∀ v, Subsection.parser (L := lvl n) e ≠ .ok v) ∧
    (∀ v, Division.parser (L := lvl n) e ≠ .ok v) := by
  have key : ∀ (γ : Type) (tag titleTag : String) (arms : List (String × (Element → Res γ))) v,
      HierOf.parser (L := lvl n) tag titleTag arms e ≠ .ok v := by
    intro γ tag titleTag arms v h
    have ht : HierOf.titleOf (L := lvl n) titleTag e = .err (missingRequiredTag titleTag) := by
      unfold HierOf.titleOf
      rw [hc]
      cases x with
      | element k b d => exact absurd rfl (hx k b d)
      | _ => rfl
    unfold HierOf.parser at h
    split at h
    · simp [Res.bind_eq_ok, ht] at h
    · cases h
  exact ⟨key _ _ _ _, key _ _ _ _, key _ _ _ _, key _ _ _ _, key _ _ _ _⟩

/-- C35: only the values of attributes by name matter, and only those of known attributes. -/
theorem C35_attributes_by_name (t : String) (a a' : Attrs) (c : List XMLNode)
    (h : ∀ k ∈ knownAttrs, a.get k = a'.get k) : Element.Same ⟨t, a, c⟩ ⟨t, a', c⟩ := by
  unfold Element.Same Element.node XMLNode.norm
  congr 1
  funext k
  split
  · next hk => exact h k (by simpa using hk)
  · rfl

theorem Attrs.get_eq_some {a : Attrs} (hn : (a.map Prod.fst).Nodup) (k v : String) :
    a.get k = some v ↔ (k, v) ∈ a := by
  induction a with
  | nil => simp
  | cons p a ih =>
    obtain ⟨k', v'⟩ := p
    simp only [List.map_cons, List.nodup_cons] at hn
    rw [Attrs.get_cons]
    split
    · next h =>
      subst h
      simp only [Option.some.injEq, List.mem_cons, Prod.mk.injEq, true_and]
      constructor
      · rintro rfl
        exact .inl rfl
      · rintro (rfl | h)
        · rfl
        · exact absurd (List.mem_map_of_mem h) hn.1
    · next h =>
      rw [ih hn.2]
      simp only [List.mem_cons, Prod.mk.injEq]
      constructor
      · exact .inr
      · rintro (⟨rfl, -⟩ | h')
        · exact absurd rfl h
        · exact h'

/-- C35: the order of attributes does not matter. -/
theorem C35_attribute_order (t : String) (a a' : Attrs) (c : List XMLNode)
    (hn : (a.map Prod.fst).Nodup) (h : a.Perm a') : Element.Same ⟨t, a, c⟩ ⟨t, a', c⟩ := by
  refine C35_attributes_by_name t a a' c fun k _ => ?_
  have hn' : (a'.map Prod.fst).Nodup := (h.map _).nodup_iff.1 hn
  refine Option.ext fun v => ?_
  rw [Attrs.get_eq_some hn, Attrs.get_eq_some hn', h.mem_iff]

/-- C35: attributes with other names do not matter. -/
theorem C35_foreign_attribute (t k v : String) (l r : Attrs) (c : List XMLNode)
    (hk : k ∉ knownAttrs) : Element.Same ⟨t, l ++ r, c⟩ ⟨t, l ++ (k, v) :: r, c⟩ := by
  refine C35_attributes_by_name t _ _ c fun k' hk' => ?_
  have hne : k ≠ k' := by
    rintro rfl
    exact hk hk'
  induction l with
  | nil => rw [List.nil_append, List.nil_append, Attrs.get_cons, if_neg hne]
  | cons p l ih =>
    obtain ⟨k1, v1⟩ := p
    rw [List.cons_append, List.cons_append, Attrs.get_cons, Attrs.get_cons, ih]

/-- The same law twice: with other order of attributes, a foreign attribute, and comments. -/
def plainLaw : Element :=
  ⟨"Law", [("Num", "1"), ("Era", "Showa"), ("Year", "22")],
    [.element "LawNum" [] [.text "第一号"], .element "LawBody" [] [.element "MainProvision" [] []]]⟩
def commentedLaw : Element :=
  ⟨"Law", [("Year", "22"), ("Num", "1"), ("id", "x"), ("Era", "Showa")],
    [.element "LawNum" [] [.comment "c", .text "第一号"],
      .element "LawBody" [] [.processingInstruction "p" none, .element "MainProvision" [] []]]⟩

example : plainLaw.Same commentedLaw := by
  refine C34_C35_trans _ _ _ (C35_attributes_by_name _ _ commentedLaw.attributes _ (by decide)) ?_
  refine C34_C35_trans _ _ _ (C34_C35_context _ _ [] _ ⟨"LawNum", [], [.text "第一号"]⟩
    ⟨"LawNum", [], [.comment "c", .text "第一号"]⟩ ?_) (C34_C35_context _ _ [_] _
      ⟨"LawBody", [], [.element "MainProvision" [] []]⟩
      ⟨"LawBody", [], [.processingInstruction "p" none, .element "MainProvision" [] []]⟩ ?_)
  · exact C34_insert _ _ [] _ _ (by decide) (by simp) (by simp)
  · exact C34_insert _ _ [] _ _ (by decide) (by simp) (by simp)

end JLaw
