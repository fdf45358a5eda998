import Verif.Lemmas.Xml
import Verif.Model.Law

/-!
# Nodes that readers skip without an error (C63)
-/

namespace JLaw

variable {L : Lvl}

theorem collectRes_skip {α β : Type} (f : α → Res (List β)) (l r : List α) (x : α)
    (h : f x = .ok []) : collectRes f (l ++ x :: r) = collectRes f (l ++ r) := by
  induction l with
  | nil =>
    simp only [List.nil_append, collectRes, h, Res.bind_ok]
    cases collectRes f r <;> rfl
  | cons a l ih => simp only [List.cons_append, collectRes, ih]

theorem readTagged_skip {α : Type} (tag : String) (p : Element → Res α) (l r : List XMLNode)
    (x : XMLNode) (h : ∀ a c, x ≠ .element tag a c) :
    readTagged tag p (l ++ x :: r) = readTagged tag p (l ++ r) := by
  refine collectRes_skip _ l r x ?_
  cases x with
  | element n a c =>
    have : n ≠ tag := by rintro rfl; exact h a c rfl
    simp [this]
  | _ => rfl

/-! ## Anywhere among the children -/

/-- C63. In a preamble every node but the paragraphs is skipped. -/
theorem C63_ignored_children_preamble (n : String) (a : Attrs) (l r : List XMLNode) (x : XMLNode)
    (h : ∀ a c, x ≠ .element "Paragraph" a c) :
    Preamble.parser (L := L) ⟨n, a, l ++ x :: r⟩ = Preamble.parser ⟨n, a, l ++ r⟩ := by
  simp only [Preamble.parser, readTagged_skip _ _ l r x h]
  rfl

/-- C63. In a table row every node but the cells is skipped. -/
theorem C63_ignored_children_table_row (n : String) (a : Attrs) (l r : List XMLNode) (x : XMLNode)
    (h : ∀ a c, x ≠ .element "TableColumn" a c) :
    TableRow.parser (L := L) ⟨n, a, l ++ x :: r⟩ = TableRow.parser ⟨n, a, l ++ r⟩ := by
  simp only [TableRow.parser, readTagged_skip _ _ l r x h]
  rfl

/-- C63. In a header row every node but the header cells is skipped. -/
theorem C63_ignored_children_header_row (n : String) (a : Attrs) (l r : List XMLNode) (x : XMLNode)
    (h : ∀ a c, x ≠ .element "TableHeaderColumn" a c) :
    TableHeaderRow.parser (L := L) ⟨n, a, l ++ x :: r⟩ = TableHeaderRow.parser ⟨n, a, l ++ r⟩ := by
  simp only [TableHeaderRow.parser, readTagged_skip _ _ l r x h]
  rfl

/-- C63. In a text every element but rubies, lines, superscripts and subscripts is skipped, with the
text it contains. -/
theorem C63_ignored_children_text (t : String) (a : Attrs) (c l r : List XMLNode)
    (h : t ∉ ["Ruby", "Line", "Sup", "Sub"]) :
    Text.fromChildren (L := L) (l ++ .element t a c :: r) = Text.fromChildren (l ++ r) := by
  simp only [List.mem_cons, List.not_mem_nil, or_false, not_or] at h
  rw [Text.fromChildren, collectRes_skip _ l r _ (by simp [TextElement.ofNode, h]), Text.fromChildren]

/-- C63. In a text a line that cannot be read is skipped, with the text it contains. -/
theorem C63_ignored_line (a : Attrs) (c l r : List XMLNode) (e : Err)
    (h : Line.parser (L := L) ⟨"Line", a, c⟩ = .err e) :
    Text.fromChildren (L := L) (l ++ .element "Line" a c :: r) = Text.fromChildren (l ++ r) := by
  rw [Text.fromChildren, collectRes_skip _ l r _ ?_, Text.fromChildren]
  simp [TextElement.ofNode, pushOk, h, Res.skipErr]

/-- C63. That is the fate of every line without a style. -/
theorem C63_line_without_style (a : Attrs) (c l r : List XMLNode) (h : a.get "Style" = none) :
    Text.fromChildren (L := L) (l ++ .element "Line" a c :: r) = Text.fromChildren (l ++ r) := by
  refine C63_ignored_line a c l r (.attributeParseError "Line" "Style") ?_
  simp [Line.parser, h, LineStyle.fromAttr, Res.ofOption]

/-- C63. In a ruby every element but `Rt` is skipped, with the text it contains. -/
theorem C63_ignored_children_ruby (n t : String) (a b : Attrs) (c l r : List XMLNode) (h : t ≠ "Rt") :
    Ruby.parser (L := L) ⟨n, a, l ++ .element t b c :: r⟩ = Ruby.parser ⟨n, a, l ++ r⟩ := by
  have : foldRes Ruby.step {} (l ++ .element t b c :: r) = foldRes Ruby.step {} (l ++ r) := by
    rw [foldRes_append, foldRes_append]
    congr 1
    funext s
    simp [Ruby.step, h]
  simp only [Ruby.parser, this]
  rfl

/-! ## After the nodes that are read by position -/

/-- C63. Of a superscript or a subscript only the first node is read. -/
theorem C63_after_first_sup_sub (n : String) (a : Attrs) (x : XMLNode) (r : List XMLNode) :
    Sup.parser ⟨n, a, x :: r⟩ = Sup.parser ⟨n, a, [x]⟩ ∧
      Sub.parser ⟨n, a, x :: r⟩ = Sub.parser ⟨n, a, [x]⟩ := by
  constructor <;> simp only [Sup.parser, Sub.parser] <;> cases x <;> rfl

/-- C63. Of a list of the innermost level only the first node is read. -/
theorem C63_after_first_sublist3 (n : String) (a : Attrs) (x : XMLNode) (r : List XMLNode) :
    (Sublist3.parser ⟨n, a, x :: r⟩ : Res (Sublist3 L)) = Sublist3.parser ⟨n, a, [x]⟩ := by
  cases x <;> rfl

/-- C63. Of a law only the first two nodes are read. -/
theorem C63_after_second_law (n : String) (a : Attrs) (x y : XMLNode) (r : List XMLNode) :
    (Law.parser ⟨n, a, x :: y :: r⟩ : Res (Law L)) = Law.parser ⟨n, a, [x, y]⟩ := by
  have h1 : Law.lawNumOf ⟨n, a, x :: y :: r⟩ = Law.lawNumOf ⟨n, a, [x, y]⟩ := by cases x <;> rfl
  have h2 : Law.bodyOf ⟨n, a, x :: y :: r⟩ = Law.bodyOf ⟨n, a, [x, y]⟩ := by cases y <;> rfl
  simp only [Law.parser, h1, h2]
  rfl

/-- C63. Of a figure no node is read. -/
theorem C63_figure (n : String) (a : Attrs) (c : List XMLNode) :
    Fig.parser ⟨n, a, c⟩ = Fig.parser ⟨n, a, []⟩ := rfl

/-! ## Examples -/

/-- A title whose middle is underlined, without a style: the underlined part is lost. -/
example : Text.fromChildren (L := lvl 1) [.text "甲", .element "Line" [] [.text "乙"], .text "丙"] =
    Text.fromChildren [.text "甲", .text "丙"] :=
  C63_line_without_style [] [.text "乙"] [.text "甲"] [.text "丙"] rfl

/-- A quotation in a title is lost. -/
example : Text.fromChildren (L := lvl 1) [.text "甲", .element "QuoteStruct" [] [.text "乙"]] =
    .ok ⟨[.text "甲"]⟩ := by
  exact (C63_ignored_children_text "QuoteStruct" [] [.text "乙"] [.text "甲"] [] (by decide)).trans rfl

/-- A superscript interrupted by a comment. -/
example : Sup.parser ⟨"Sup", [], [.text "1", .comment "x", .text "2"]⟩ = .ok ⟨"1"⟩ :=
  (C63_after_first_sup_sub _ _ _ _).1

/-- A preamble with a heading between its paragraphs. -/
example (l r : List XMLNode) :
    Preamble.parser (L := L) ⟨"Preamble", [], l ++ .element "Title" [] [.text "甲"] :: r⟩ =
      Preamble.parser ⟨"Preamble", [], l ++ r⟩ :=
  C63_ignored_children_preamble _ _ l r _ (by simp)

end JLaw
