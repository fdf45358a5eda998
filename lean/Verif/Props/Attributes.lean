import Verif.Spec.Attributes
import Verif.Props.Fields

/-!
# C97: attributes are read and written as what they say

The tables of names and the relations between attributes and fields are in `Verif.Spec.Attributes`.
Flags are the subject of C33 and the attributes of `Law` of C37.
-/

namespace JLaw

open Spec

/-! ## The ways attributes are read -/

section
variable {L : Lvl} {α : Type} {R : String → α → Prop} {f : String → Option α} {e : Element} {k : String}

theorem reads_opt (hf : ∀ s x, f s = some x → R s x) {o : Option α}
    (h : getAttributeOptWithParse f e k = .ok o) : Optional R (e.attributes.get k) o := by
  unfold getAttributeOptWithParse at h
  cases hg : e.attributes.get k with
  | none => rw [hg] at h; cases h; exact .inl ⟨rfl, rfl⟩
  | some s =>
    rw [hg] at h
    simp only at h
    cases hs : f s with
    | none => rw [hs] at h; cases h
    | some x => rw [hs] at h; cases h; exact .inr ⟨s, x, rfl, rfl, hf s x hs⟩

theorem reads_with (hf : ∀ s x, f s = some x → R s x) {x : α}
    (h : getAttributeWithParse f e k = .ok x) : Required R (e.attributes.get k) x := by
  unfold getAttributeWithParse at h
  cases hg : e.attributes.get k with
  | none => rw [hg] at h; cases h
  | some s =>
    rw [hg] at h
    simp only at h
    cases hs : f s with
    | none => rw [hs] at h; cases h
    | some y => rw [hs] at h; cases h; exact ⟨s, rfl, hf s _ hs⟩

theorem reads_get {s : String} (h : getAttribute e k = .ok s) :
    Required Eq (e.attributes.get k) s := by
  unfold getAttribute at h
  cases hg : e.attributes.get k with
  | none => rw [hg] at h; cases h
  | some t => rw [hg] at h; cases h; exact ⟨_, rfl, rfl⟩

theorem parseString_eq (s x : String) (h : parseString s = some x) : s = x := by
  cases h; rfl

theorem parseUsizeStr_number (s : String) (x : Usize) (h : parseUsizeStr s = some x) : Number s x :=
  (parseUsize_iff _ _).1 h

theorem parseBool_truth (s : String) (x : Bool) (h : parseBool s = some x) : Named truth s x := by
  unfold parseBool at h
  split at h
  · cases h; subst s; simp [Named, truth]
  · split at h
    · cases h; subst s; simp [Named, truth]
    · cases h

theorem function_named (s : String) (x : SentenceFunction) (h : SentenceFunction.ofStr s = some x) :
    Named functions s x := by
  unfold SentenceFunction.ofStr at h
  split at h <;> cases h <;> simp [Named, functions]

theorem indent_named (s : String) (x : SentenceIndent) (h : SentenceIndent.ofStr s = some x) :
    Named indents s x := by
  unfold SentenceIndent.ofStr at h
  split at h <;> cases h <;> simp [Named, indents]

theorem reads_mode (a : Option String) :
    OrElse .vertical (Named modes) a (WritingMode.fromAttr a) := by
  unfold WritingMode.fromAttr
  split
  · exact .inl ⟨_, rfl, by simp [Named, modes]⟩
  · exact .inl ⟨_, rfl, by simp [Named, modes]⟩
  · next h1 h2 =>
    refine .inr ⟨?_, rfl⟩
    rintro s y rfl hs
    simp only [Named, modes, List.mem_cons, Prod.mk.injEq, List.not_mem_nil, or_false] at hs
    rcases hs with ⟨rfl, _⟩ | ⟨rfl, _⟩
    · exact h1 rfl
    · exact h2 rfl

theorem reads_tableMode (a : Option String) :
    OrElse .vertical (Named modes) a (Table.writingMode a) := by
  have : Table.writingMode a = WritingMode.fromAttr a := by
    unfold Table.writingMode WritingMode.fromAttr
    split <;> split <;> simp_all
  rw [this]
  exact reads_mode a

theorem reads_align (a : Option String) : Recognised (Named alignments) a (Align.fromAttr a) := by
  intro x
  constructor
  · intro h
    unfold Align.fromAttr at h
    split at h <;> cases h <;> exact ⟨_, rfl, by simp [Named, alignments]⟩
  · rintro ⟨s, rfl, h⟩
    simp only [Named, alignments, List.mem_cons, Prod.mk.injEq, List.not_mem_nil, or_false] at h
    rcases h with ⟨rfl, rfl⟩ | ⟨rfl, rfl⟩ | ⟨rfl, rfl⟩ | ⟨rfl, rfl⟩ <;> rfl

theorem reads_position (a : Option String) :
    Recognised (Named positions) a (Position.fromAttr a) := by
  intro x
  constructor
  · intro h
    unfold Position.fromAttr at h
    split at h <;> cases h <;> exact ⟨_, rfl, by simp [Named, positions]⟩
  · rintro ⟨s, rfl, h⟩
    simp only [Named, positions, List.mem_cons, Prod.mk.injEq, List.not_mem_nil, or_false] at h
    rcases h with ⟨rfl, rfl⟩ | ⟨rfl, rfl⟩ | ⟨rfl, rfl⟩ <;> rfl

theorem reads_style (a : Option String) : Recognised (Named stylesRead) a (LineStyle.fromAttr a) := by
  intro x
  constructor
  · intro h
    unfold LineStyle.fromAttr at h
    split at h <;> cases h <;> exact ⟨_, rfl, by simp [Named, stylesRead]⟩
  · rintro ⟨s, rfl, h⟩
    simp only [Named, stylesRead, List.mem_cons, Prod.mk.injEq, List.not_mem_nil, or_false] at h
    rcases h with ⟨rfl, rfl⟩ | ⟨rfl, rfl⟩ | ⟨rfl, rfl⟩ | ⟨rfl, rfl⟩ <;> rfl

theorem reads_border (e : Element) (k : String) :
    OrElse .solid (Named stylesRead) (e.attributes.get k) (TableColumn.border e k) := by
  have h := reads_style (e.attributes.get k)
  unfold TableColumn.border
  cases hs : LineStyle.fromAttr (e.attributes.get k) with
  | none =>
    refine .inr ⟨fun s y h1 h2 => ?_, rfl⟩
    have := (h y).2 ⟨s, h1, h2⟩
    rw [hs] at this
    cases this
  | some x => exact .inl ((h x).1 hs)

theorem reads_provisionType {a : Option String} {o : Option SupplProvisionType}
    (h : SupplProvisionType.fromAttr a = .ok o) : Optional (Named provisionTypes) a o := by
  unfold SupplProvisionType.fromAttr at h
  split at h <;> cases h
  · exact .inr ⟨_, _, rfl, rfl, by simp [Named, provisionTypes]⟩
  · exact .inr ⟨_, _, rfl, rfl, by simp [Named, provisionTypes]⟩
  · exact .inl ⟨rfl, rfl⟩

theorem fromNumStr_numbered {s : String} {x : ArticleNumber}
    (h : ArticleNumber.fromNumStr s = .ok x) : Numbered s x :=
  ((C03_from_num_str_language s).1 x).1 h

theorem parse?_iff (s : String) (x : ArticleNumber) :
    ArticleNumber.parse? s = some x ↔ Numbered s x := by
  rw [Numbered, ← (C03_from_num_str_language s).1 x]
  unfold ArticleNumber.parse?
  cases ArticleNumber.fromNumStr s <;> simp

theorem reads_numAttr {x : ArticleNumber} (h : numAttr e = .ok x) :
    Required Numbered (e.attributes.get "Num") x := by
  obtain ⟨s, h1, h2⟩ := Res.bind_eq_ok.1 h
  obtain ⟨t, h3, rfl⟩ := reads_get h1
  exact ⟨t, h3, fromNumStr_numbered h2⟩

end

/-! ## The readers with a common shape -/

section
variable {L : Lvl} {γ : Type}

theorem reads_item {tag titleTag sentTag : String} {arms : List (String × (Element → Res γ))}
    (e : Element) (v : ItemOf L γ) (h : ItemOf.parser tag titleTag sentTag arms e = .ok v) :
    (∃ s, e.attributes.get "Num" = some s) ∧
      Recognised Numbered (e.attributes.get "Num") v.num := by
  have h := (ite_eq_ok h).2
  obtain ⟨num, h1, h⟩ := Res.bind_eq_ok.1 h
  obtain ⟨_, h2, h⟩ := Res.bind_eq_ok.1 h
  obtain ⟨_, h3, h⟩ := Res.bind_eq_ok.1 h
  obtain ⟨s, h4, h⟩ := Res.bind_eq_ok.1 h
  obtain ⟨t, ht, rfl⟩ := reads_with (R := Eq) parseString_eq h1
  split at h <;> cases h
  refine ⟨⟨t, ht⟩, fun x => ?_⟩
  rw [ht]
  simp [parse?_iff]

theorem reads_hier {tag titleTag : String} {arms : List (String × (Element → Res γ))} :
    Reads (HierOf.parser (L := L) tag titleTag arms) "Num" (Required Numbered) (·.num) := by
  intro e v h
  have h := (ite_eq_ok h).2
  obtain ⟨_, h1, h⟩ := Res.bind_eq_ok.1 h
  obtain ⟨_, h2, h⟩ := Res.bind_eq_ok.1 h
  obtain ⟨_, h3, h⟩ := Res.bind_eq_ok.1 h
  obtain ⟨_, h4, h⟩ := Res.bind_eq_ok.1 h
  obtain ⟨_, h5, h⟩ := Res.bind_eq_ok.1 h
  cases h
  exact reads_numAttr h1

theorem reads_toc {tag titleTag : String} {arms : List (String × (Element → Res γ))} :
    Reads (TOCOf.parser (L := L) tag titleTag arms) "Num" (Required Numbered) (·.num) := by
  intro e v h
  have h := (ite_eq_ok h).2
  obtain ⟨_, h1, h⟩ := Res.bind_eq_ok.1 h
  obtain ⟨_, h2, h⟩ := Res.bind_eq_ok.1 h
  obtain ⟨_, h3, h⟩ := Res.bind_eq_ok.1 h
  cases h
  exact reads_with (fun s x hs => (parse?_iff s x).1 hs) h1

theorem reads_appdx {tag titleTag : String} {arms : List (String × (Element → Res γ))} :
    Reads (AppdxOf.parser (L := L) tag titleTag arms) "Num" (Optional Eq) (·.num) := by
  intro e v h
  have h := (ite_eq_ok h).2
  obtain ⟨_, h1, h⟩ := Res.bind_eq_ok.1 h
  obtain ⟨_, h2, h⟩ := Res.bind_eq_ok.1 h
  cases h
  exact reads_opt parseString_eq h1

theorem reads_supplAppdx {tag titleTag structTag missing wrong : String}
    {structP : Element → Res γ} {dflt : Element → Element → Err} :
    Reads (SupplAppdxOf.parser (L := L) tag titleTag structTag missing wrong structP dflt) "Num"
      (Optional Eq) (·.num) := by
  intro e v h
  have h := (ite_eq_ok h).2
  obtain ⟨_, h1, h⟩ := Res.bind_eq_ok.1 h
  obtain ⟨_, h2, h⟩ := Res.bind_eq_ok.1 h
  split at h <;> cases h
  exact reads_opt parseString_eq h1

end

/-! ## What is read -/

/-- C97, sentences. -/
theorem C97_sentence_read (n : Nat) :
    Reads (Sentence.parser (L := lvl n)) "Num" (Optional Number) (·.num) ∧
    Reads (Sentence.parser (L := lvl n)) "Function" (Optional (Named functions)) (·.function) ∧
    Reads (Sentence.parser (L := lvl n)) "Indent" (Optional (Named indents)) (·.indent) ∧
    Reads (Sentence.parser (L := lvl n)) "WritingMode" (OrElse .vertical (Named modes))
      (·.writing_mode) := by
  have : ∀ e (v : Sentence (lvl n)), Sentence.parser e = .ok v →
      Optional Number (e.attributes.get "Num") v.num ∧
      Optional (Named functions) (e.attributes.get "Function") v.function ∧
      Optional (Named indents) (e.attributes.get "Indent") v.indent ∧
      OrElse .vertical (Named modes) (e.attributes.get "WritingMode") v.writing_mode := by
    intro e v h
    have h := (ite_eq_ok h).2
    obtain ⟨_, h1, h⟩ := Res.bind_eq_ok.1 h
    obtain ⟨_, h2, h⟩ := Res.bind_eq_ok.1 h
    obtain ⟨_, h3, h⟩ := Res.bind_eq_ok.1 h
    obtain ⟨_, h4, h⟩ := Res.bind_eq_ok.1 h
    cases h
    exact ⟨reads_opt parseUsizeStr_number h1, reads_opt function_named h2, reads_opt indent_named h3,
      reads_mode _⟩
  exact ⟨fun e v h => (this e v h).1, fun e v h => (this e v h).2.1, fun e v h => (this e v h).2.2.1,
    fun e v h => (this e v h).2.2.2⟩

/-- C97, lines, texts and formulas. -/
theorem C97_text_read (n : Nat) :
    Reads (Line.parser (L := lvl n)) "Style" (Required (Named stylesRead)) (·.style) ∧
    Reads (TextWithWritingMode.parser (L := lvl n)) "WritingMode" (OrElse .vertical (Named modes))
      (·.writing_mode) ∧
    Reads (ArithFormula.parser (L := lvl n)) "Num" (Optional Number) (·.num) ∧
    Reads (Caption.parser (L := lvl n)) "CommonCaption" (Optional (Named truth)) (·.common_caption) ∧
    Reads Fig.parser "src" (Required Eq) (·.src) := by
  refine ⟨?_, ?_, ?_, ?_, ?_⟩ <;> intro e v h
  · have h := (ite_eq_ok h).2
    obtain ⟨_, h1, h⟩ := Res.bind_eq_ok.1 h
    obtain ⟨_, h2, h⟩ := Res.bind_eq_ok.1 h
    cases h
    exact (reads_style _ _).1 (ofOption_eq_ok.1 h1)
  · obtain ⟨_, h1, h⟩ := Res.bind_eq_ok.1 h
    cases h
    exact reads_mode _
  · obtain ⟨_, h1, h⟩ := Res.bind_eq_ok.1 h
    obtain ⟨_, h2, h⟩ := Res.bind_eq_ok.1 h
    cases h
    exact reads_opt parseUsizeStr_number h1
  · obtain ⟨_, h1, h⟩ := Res.bind_eq_ok.1 h
    obtain ⟨_, h2, h⟩ := Res.bind_eq_ok.1 h
    cases h
    exact reads_opt parseBool_truth h2
  · obtain ⟨_, h1, h⟩ := Res.bind_eq_ok.1 h
    cases h
    exact ⟨_, ofOption_eq_ok.1 h1, rfl⟩

/-- C97, columns, tables and cells. -/
theorem C97_table_read (n : Nat) :
    Reads (Column.parser (L := lvl n)) "Num" (Optional Number) (·.num) ∧
    Reads (Column.parser (L := lvl n)) "Align" (Recognised (Named alignments)) (·.align) ∧
    Reads (Table.parser (L := lvl n)) "WritingMode" (OrElse .vertical (Named modes))
      (·.writing_mode) ∧
    Reads (TableColumn.parser (L := lvl n)) "BorderTop" (OrElse .solid (Named stylesRead))
      (·.border_top) ∧
    Reads (TableColumn.parser (L := lvl n)) "BorderBottom" (OrElse .solid (Named stylesRead))
      (·.border_bottom) ∧
    Reads (TableColumn.parser (L := lvl n)) "BorderLeft" (OrElse .solid (Named stylesRead))
      (·.border_left) ∧
    Reads (TableColumn.parser (L := lvl n)) "BorderRight" (OrElse .solid (Named stylesRead))
      (·.border_right) ∧
    Reads (TableColumn.parser (L := lvl n)) "rowspan" (Optional Eq) (·.rowspan) ∧
    Reads (TableColumn.parser (L := lvl n)) "colspan" (Optional Eq) (·.colspan) ∧
    Reads (TableColumn.parser (L := lvl n)) "Align" (Recognised (Named alignments)) (·.align) ∧
    Reads (TableColumn.parser (L := lvl n)) "Valign" (Recognised (Named positions)) (·.valign) := by
  refine ⟨?_, ?_, ?_, ?_, ?_, ?_, ?_, ?_, ?_, ?_, ?_⟩ <;> intro e v h <;>
    have h := (ite_eq_ok h).2 <;> obtain ⟨_, h1, h⟩ := Res.bind_eq_ok.1 h
  case refine_3 => cases h; exact reads_tableMode _
  all_goals
    obtain ⟨_, h2, h⟩ := Res.bind_eq_ok.1 h
    obtain ⟨_, h3, h⟩ := Res.bind_eq_ok.1 h
    cases h
  · exact reads_opt parseUsizeStr_number h1
  · exact reads_align _
  · exact reads_border _ _
  · exact reads_border _ _
  · exact reads_border _ _
  · exact reads_border _ _
  · exact reads_opt parseString_eq h1
  · exact reads_opt parseString_eq h2
  · exact reads_align _
  · exact reads_position _

/-- The number of an item is what its attribute denotes; an attribute that denotes nothing gives no
number, and a missing one is an error. -/
def ReadsItemNum {L : Lvl} {γ : Type} (p : Element → Res (ItemOf L γ)) : Prop :=
  ∀ e v, p e = .ok v → (∃ s, e.attributes.get "Num" = some s) ∧
    Recognised Numbered (e.attributes.get "Num") v.num

/-- C97, items. -/
theorem C97_items_read (n : Nat) :
    ReadsItemNum (Item.parser (L := lvl n)) ∧
    ReadsItemNum (Subitem1.parser (L := lvl n)) ∧
    ReadsItemNum (Subitem2.parser (L := lvl n)) ∧
    ReadsItemNum (Subitem3.parser (L := lvl n)) ∧
    ReadsItemNum (Subitem4.parser (L := lvl n)) ∧
    ReadsItemNum (Subitem5.parser (L := lvl n)) ∧
    ReadsItemNum (Subitem6.parser (L := lvl n)) ∧
    ReadsItemNum (Subitem7.parser (L := lvl n)) ∧
    ReadsItemNum (Subitem8.parser (L := lvl n)) ∧
    ReadsItemNum (Subitem9.parser (L := lvl n)) ∧
    ReadsItemNum (Subitem10.parser (L := lvl n)) :=
  ⟨reads_item, reads_item, reads_item, reads_item, reads_item, reads_item, reads_item, reads_item, reads_item, reads_item, reads_item⟩

/-- C97, classes, paragraphs, articles and what they stand in. -/
theorem C97_articles_read (n : Nat) :
    Reads (Class.parser (L := lvl n)) "Num" (Required Eq) (·.num) ∧
    Reads (Paragraph.parser (L := lvl n)) "Num" (Required Numbered) (·.num) ∧
    Reads (Article.parser (L := lvl n)) "Num" (Required Numbered) (·.num) ∧
    Reads (Part.parser (L := lvl n)) "Num" (Required Numbered) (·.num) ∧
    Reads (Chapter.parser (L := lvl n)) "Num" (Required Numbered) (·.num) ∧
    Reads (Section.parser (L := lvl n)) "Num" (Required Numbered) (·.num) ∧
    Reads (Subsection.parser (L := lvl n)) "Num" (Required Numbered) (·.num) ∧
    Reads (Division.parser (L := lvl n)) "Num" (Required Numbered) (·.num) := by
  refine ⟨?_, ?_, ?_, reads_hier, reads_hier, reads_hier, reads_hier, reads_hier⟩ <;> intro e v h <;>
    have h := (ite_eq_ok h).2 <;> obtain ⟨_, h1, h⟩ := Res.bind_eq_ok.1 h
  · obtain ⟨_, h2, h⟩ := Res.bind_eq_ok.1 h
    split at h <;> cases h
    exact reads_get h1
  · obtain ⟨_, h2, h⟩ := Res.bind_eq_ok.1 h
    obtain ⟨_, h3, h⟩ := Res.bind_eq_ok.1 h
    obtain ⟨_, h4, h⟩ := Res.bind_eq_ok.1 h
    obtain ⟨_, h5, h⟩ := Res.bind_eq_ok.1 h
    cases h
    obtain ⟨s, h6, h7⟩ := Res.bind_eq_ok.1 h1
    obtain ⟨t, h8, rfl⟩ := reads_with (R := Eq) parseString_eq h6
    exact ⟨t, h8, fromNumStr_numbered h7⟩
  · obtain ⟨_, h2, h⟩ := Res.bind_eq_ok.1 h
    obtain ⟨_, h3, h⟩ := Res.bind_eq_ok.1 h
    obtain ⟨_, h4, h⟩ := Res.bind_eq_ok.1 h
    obtain ⟨_, h5, h⟩ := Res.bind_eq_ok.1 h
    cases h
    exact reads_numAttr h1

/-- C97, tables of contents. -/
theorem C97_toc_read (n : Nat) :
    Reads (TOCPart.parser (L := lvl n)) "Num" (Required Numbered) (·.num) ∧
    Reads (TOCChapter.parser (L := lvl n)) "Num" (Required Numbered) (·.num) ∧
    Reads (TOCSection.parser (L := lvl n)) "Num" (Required Numbered) (·.num) ∧
    Reads (TOCSubsection.parser (L := lvl n)) "Num" (Required Numbered) (·.num) ∧
    Reads (TOCDivision.parser (L := lvl n)) "Num" (Required Numbered) (·.num) ∧
    Reads (TOCArticle.parser (L := lvl n)) "Num" (Required Numbered) (·.num) := by
  refine ⟨reads_toc, reads_toc, reads_toc, reads_toc, reads_toc, fun e v h => ?_⟩
  have h := (ite_eq_ok h).2
  obtain ⟨_, h1, h⟩ := Res.bind_eq_ok.1 h
  obtain ⟨_, h2, h⟩ := Res.bind_eq_ok.1 h
  obtain ⟨_, h3, h⟩ := Res.bind_eq_ok.1 h
  split at h <;> cases h
  exact reads_with (fun s x hs => (parse?_iff s x).1 hs) h1

/-- C97, appendices. -/
theorem C97_appendices_read (n : Nat) :
    Reads (AppdxTable.parser (L := lvl n)) "Num" (Optional Eq) (·.num) ∧
    Reads (AppdxNote.parser (L := lvl n)) "Num" (Optional Eq) (·.num) ∧
    Reads (AppdxStyle.parser (L := lvl n)) "Num" (Optional Eq) (·.num) ∧
    Reads (AppdxFormat.parser (L := lvl n)) "Num" (Optional Eq) (·.num) ∧
    Reads (AppdxFig.parser (L := lvl n)) "Num" (Optional Eq) (·.num) ∧
    Reads (SupplProvisionAppdxTable.parser (L := lvl n)) "Num" (Optional Eq) (·.num) ∧
    Reads (SupplProvisionAppdxStyle.parser (L := lvl n)) "Num" (Optional Eq) (·.num) ∧
    Reads (SupplProvisionAppdx.parser (L := lvl n)) "Num" (Optional Eq) (·.num) := by
  refine ⟨reads_appdx, reads_appdx, reads_appdx, reads_appdx, ?_, reads_supplAppdx, reads_supplAppdx,
    ?_⟩ <;> intro e v h <;> have h := (ite_eq_ok h).2 <;>
    obtain ⟨_, h1, h⟩ := Res.bind_eq_ok.1 h <;> obtain ⟨_, h2, h⟩ := Res.bind_eq_ok.1 h <;> cases h <;>
    exact reads_opt parseString_eq h1

/-- C97, the title, the body and the provisions of a law. -/
theorem C97_body_read (n : Nat) :
    Reads (LawTitle.parser (L := lvl n)) "Kana" (Optional Eq) (·.kana) ∧
    Reads (LawTitle.parser (L := lvl n)) "Abbrev" (Optional Eq) (·.abbrev_) ∧
    Reads (LawTitle.parser (L := lvl n)) "AbbrevKana" (Optional Eq) (·.abbrev_kana) ∧
    Reads (LawBody.parser (L := lvl n)) "Subject" (Optional Eq) (·.subject) ∧
    Reads (MainProvision.parser (L := lvl n)) "Extract" (Optional (Named truth)) (·.extract) ∧
    Reads (SupplProvision.parser (L := lvl n)) "Type" (Optional (Named provisionTypes))
      (·.suppl_provision_type) ∧
    Reads (SupplProvision.parser (L := lvl n)) "AmendLawNum" (Optional Eq) (·.amend_law_num) ∧
    Reads (SupplProvision.parser (L := lvl n)) "Extract" (Optional (Named truth)) (·.extract) := by
  refine ⟨?_, ?_, ?_, ?_, ?_, ?_, ?_, ?_⟩ <;> intro e v h <;>
    have h := (ite_eq_ok h).2 <;> obtain ⟨_, h1, h⟩ := Res.bind_eq_ok.1 h <;>
    obtain ⟨_, h2, h⟩ := Res.bind_eq_ok.1 h
  case refine_4 => split at h <;> cases h; exact reads_opt parseString_eq h1
  case refine_5 => cases h; exact reads_opt parseBool_truth h1
  all_goals obtain ⟨_, h3, h⟩ := Res.bind_eq_ok.1 h
  case refine_6 => cases h; exact reads_provisionType h1
  case refine_7 =>
    cases h
    cases hg : e.attributes.get "AmendLawNum" with
    | none => exact .inl ⟨rfl, rfl⟩
    | some s => exact .inr ⟨s, s, rfl, rfl, rfl⟩
  case refine_8 => cases h; exact reads_opt parseBool_truth h2
  all_goals
    obtain ⟨_, h4, h⟩ := Res.bind_eq_ok.1 h
    cases h
  · exact reads_opt parseString_eq h1
  · exact reads_opt parseString_eq h2
  · exact reads_opt parseString_eq h3

/-! ## What is written -/

section
variable {α : Type} {R : String → α → Prop}

theorem writes_opt {f : α → String} (hf : ∀ x, R (f x) x) (o : Option α) :
    Optional R (o.map f) o := by
  cases o with
  | none => exact .inl ⟨rfl, rfl⟩
  | some x => exact .inr ⟨f x, x, rfl, rfl, hf x⟩

theorem writes_string (o : Option String) : Optional Eq o o := by
  cases o with
  | none => exact .inl ⟨rfl, rfl⟩
  | some x => exact .inr ⟨x, x, rfl, rfl, rfl⟩

theorem usizeStr_number (x : Usize) : Number (usizeStr x) x :=
  parseUsizeStr_number _ _ (parseUsizeStr_usizeStr x)

theorem boolStr_truth (x : Bool) : Named truth (boolStr x) x := by
  cases x <;> simp [Named, truth, boolStr]

theorem function_written (x : SentenceFunction) : Named functions x.toStr x := by
  cases x <;> simp [Named, functions, SentenceFunction.toStr]

theorem indent_written (x : SentenceIndent) : Named indents x.toStr x := by
  cases x <;> simp [Named, indents, SentenceIndent.toStr]

theorem align_written (x : Align) : Named alignments x.toAttr x := by
  cases x <;> simp [Named, alignments, Align.toAttr]

theorem position_written (x : Position) : Named positions x.toAttr x := by
  cases x <;> simp [Named, positions, Position.toAttr]

theorem style_written (x : LineStyle) : Named styles x.toAttr x := by
  cases x <;> simp [Named, styles, LineStyle.toAttr]

theorem provisionType_written (x : SupplProvisionType) : Named provisionTypes x.toAttr x := by
  cases x <;> simp [Named, provisionTypes, SupplProvisionType.toAttr]

theorem mode_written (x : WritingMode) : OrElse .vertical (Named modes) x.toAttr x := by
  cases x with
  | vertical => exact .inr ⟨fun _ _ h => (by cases h), rfl⟩
  | horizontal => exact .inl ⟨_, rfl, by simp [Named, modes]⟩

end

/-- C97, sentences, lines, texts and captions as they are written. -/
theorem C97_text_written (n : Nat) (name : String) :
    Writes (Sentence.toXml (L := lvl n)) "Num" (Optional Number) (·.num) ∧
    Writes (Sentence.toXml (L := lvl n)) "Function" (Optional (Named functions)) (·.function) ∧
    Writes (Sentence.toXml (L := lvl n)) "Indent" (Optional (Named indents)) (·.indent) ∧
    Writes (Sentence.toXml (L := lvl n)) "WritingMode" (OrElse .vertical (Named modes))
      (·.writing_mode) ∧
    Writes (Line.toXml (L := lvl n)) "Style" (Required (Named styles)) (·.style) ∧
    Writes (fun t : TextWithWritingMode (lvl n) => t.toXml name) "WritingMode"
      (OrElse .vertical (Named modes)) (·.writing_mode) ∧
    Writes (fun c : Caption (lvl n) => c.toXml name) "CommonCaption" (Optional (Named truth))
      (·.common_caption) ∧
    Writes Fig.toXml "src" (Required Eq) (·.src) := by
  refine ⟨?_, ?_, ?_, ?_, ?_, ?_, ?_, ?_⟩ <;> intro v
  · simpa [Sentence.toXml] using writes_opt usizeStr_number v.num
  · simpa [Sentence.toXml] using writes_opt function_written v.function
  · simpa [Sentence.toXml] using writes_opt indent_written v.indent
  · simpa [Sentence.toXml] using mode_written v.writing_mode
  · exact ⟨_, by simp [Line.toXml], style_written v.style⟩
  · simpa [TextWithWritingMode.toXml] using mode_written v.writing_mode
  · simpa [Caption.toXml] using writes_opt boolStr_truth v.common_caption
  · exact ⟨_, by simp [Fig.toXml], rfl⟩

/-- C97, columns, tables and cells as they are written. The alignments of a cell are not written
under their names (C17). -/
theorem C97_table_written (n : Nat) :
    Writes (Column.toXml (L := lvl n)) "Num" (Optional Number) (·.num) ∧
    Writes (Column.toXml (L := lvl n)) "LineBreak" (Required (Named truth)) (·.line_break) ∧
    Writes (Column.toXml (L := lvl n)) "Align" (Optional (Named alignments)) (·.align) ∧
    Writes (Table.toXml (L := lvl n)) "WritingMode" (OrElse .vertical (Named modes))
      (·.writing_mode) ∧
    Writes (TableColumn.toXml (L := lvl n)) "BorderTop" (Required (Named styles)) (·.border_top) ∧
    Writes (TableColumn.toXml (L := lvl n)) "BorderBottom" (Required (Named styles))
      (·.border_bottom) ∧
    Writes (TableColumn.toXml (L := lvl n)) "BorderLeft" (Required (Named styles)) (·.border_left) ∧
    Writes (TableColumn.toXml (L := lvl n)) "BorderRight" (Required (Named styles))
      (·.border_right) ∧
    Writes (TableColumn.toXml (L := lvl n)) "colspan" (Optional Eq) (·.colspan) ∧
    ∀ v : TableColumn (lvl n), v.toXml.attributes.get "Align" = none ∧
      v.toXml.attributes.get "Valign" = none := by
  refine ⟨?_, ?_, ?_, ?_, ?_, ?_, ?_, ?_, ?_, ?_⟩ <;> intro v
  · simpa [Column.toXml] using writes_opt usizeStr_number v.num
  · exact ⟨_, by simp [Column.toXml], boolStr_truth v.line_break⟩
  · simpa [Column.toXml] using writes_opt align_written v.align
  · simpa [Table.toXml] using mode_written v.writing_mode
  · exact ⟨_, by simp [TableColumn.toXml], style_written v.border_top⟩
  · exact ⟨_, by simp [TableColumn.toXml], style_written v.border_bottom⟩
  · exact ⟨_, by simp [TableColumn.toXml], style_written v.border_left⟩
  · exact ⟨_, by simp [TableColumn.toXml], style_written v.border_right⟩
  · simpa [TableColumn.toXml] using writes_string v.colspan
  · simp [TableColumn.toXml]

/-- C97, appendices, the title, the body and the provisions of a law as they are written. -/
theorem C97_body_written (n : Nat) :
    Writes (Class.toXml (L := lvl n)) "Num" (Required Eq) (·.num) ∧
    Writes (AppdxTable.toXml (L := lvl n)) "Num" (Optional Eq) (·.num) ∧
    Writes (AppdxNote.toXml (L := lvl n)) "Num" (Optional Eq) (·.num) ∧
    Writes (AppdxStyle.toXml (L := lvl n)) "Num" (Optional Eq) (·.num) ∧
    Writes (AppdxFormat.toXml (L := lvl n)) "Num" (Optional Eq) (·.num) ∧
    Writes (AppdxFig.toXml (L := lvl n)) "Num" (Optional Eq) (·.num) ∧
    Writes (SupplProvisionAppdxTable.toXml (L := lvl n)) "Num" (Optional Eq) (·.num) ∧
    Writes (SupplProvisionAppdxStyle.toXml (L := lvl n)) "Num" (Optional Eq) (·.num) ∧
    Writes (SupplProvisionAppdx.toXml (L := lvl n)) "Num" (Optional Eq) (·.num) ∧
    Writes (LawTitle.toXml (L := lvl n)) "Kana" (Optional Eq) (·.kana) ∧
    Writes (LawTitle.toXml (L := lvl n)) "Abbrev" (Optional Eq) (·.abbrev_) ∧
    Writes (LawTitle.toXml (L := lvl n)) "AbbrevKana" (Optional Eq) (·.abbrev_kana) ∧
    Writes (LawBody.toXml (L := lvl n)) "Subject" (Optional Eq) (·.subject) ∧
    Writes (MainProvision.toXml (L := lvl n)) "Extract" (Optional (Named truth)) (·.extract) ∧
    Writes (SupplProvision.toXml (L := lvl n)) "Type" (Optional (Named provisionTypes))
      (·.suppl_provision_type) ∧
    Writes (SupplProvision.toXml (L := lvl n)) "AmendLawNum" (Optional Eq) (·.amend_law_num) ∧
    Writes (SupplProvision.toXml (L := lvl n)) "Extract" (Optional (Named truth)) (·.extract) := by
  refine ⟨?_, ?_, ?_, ?_, ?_, ?_, ?_, ?_, ?_, ?_, ?_, ?_, ?_, ?_, ?_, ?_, ?_⟩ <;> intro v
  · exact ⟨_, by simp [Class.toXml], rfl⟩
  · simpa [AppdxTable.toXml, AppdxOf.toXml] using writes_string v.num
  · simpa [AppdxNote.toXml, AppdxOf.toXml] using writes_string v.num
  · simpa [AppdxStyle.toXml, AppdxOf.toXml] using writes_string v.num
  · simpa [AppdxFormat.toXml, AppdxOf.toXml] using writes_string v.num
  · simpa [AppdxFig.toXml] using writes_string v.num
  · simpa [SupplProvisionAppdxTable.toXml, SupplAppdxOf.toXml] using writes_string v.num
  · simpa [SupplProvisionAppdxStyle.toXml, SupplAppdxOf.toXml] using writes_string v.num
  · simpa [SupplProvisionAppdx.toXml] using writes_string v.num
  · simpa [LawTitle.toXml] using writes_string v.kana
  · simpa [LawTitle.toXml] using writes_string v.abbrev_
  · simpa [LawTitle.toXml] using writes_string v.abbrev_kana
  · simpa [LawBody.toXml] using writes_string v.subject
  · simpa [MainProvision.toXml] using writes_opt boolStr_truth v.extract
  · simpa [SupplProvision.toXml] using writes_opt provisionType_written v.suppl_provision_type
  · simpa [SupplProvision.toXml] using writes_string v.amend_law_num
  · simpa [SupplProvision.toXml] using writes_opt boolStr_truth v.extract

/-! ## Examples -/

/-- A sentence with all attributes. -/
example : (match Sentence.parser (L := lvl 1) ⟨"Sentence", [("Num", "2"), ("Function", "proviso"),
      ("Indent", "Subitem10"), ("WritingMode", "horizontal")], [.text "甲"]⟩ with
    | .ok v => some (v.num.map (·.val), v.function, v.indent, v.writing_mode)
    | _ => none) = some (some 2, some .proviso, some .subitem10, .horizontal) := by
  decide +kernel

/-- An unknown function is an error, an unknown alignment is not. -/
example : (match Sentence.parser (L := lvl 1) ⟨"Sentence", [("Function", "Main")], []⟩ with
    | .err (.attributeParseError t k) => some (t, k) | _ => none) = some ("Sentence", "Function") ∧
    (match Column.parser (L := lvl 1) ⟨"Column", [("Align", "Left")], []⟩ with
    | .ok v => some v.align | _ => none) = some none := by
  decide +kernel

/-- A cell with a double border above: it is read as dotted, and written as it is. -/
example : (match TableColumn.parser (L := lvl 1)
      ⟨"TableColumn", [("BorderTop", "double"), ("BorderLeft", "none"), ("Align", "right")], []⟩ with
    | .ok v => some (v.border_top, v.border_left, v.border_right, v.align) | _ => none) =
      some (.dotted, .none, .solid, some .right) ∧
    (Line.toXml (L := lvl 1) ⟨[], .double⟩).attributes.get "Style" = some "double" := by
  decide +kernel

end JLaw
