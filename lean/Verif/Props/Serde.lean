import Verif.Lemmas.Serde
import Verif.Props.RoundTrip

/-!
# C99: laws as JSON documents

Every type derives `Serialize` and `Deserialize` of `serde`. A law comes back from what is written for
it, whatever the law, and a document is read as a law exactly if it says what is written for the law.
-/

namespace JLaw

open Spec

/-- The documents that give a value are those that say it, and a value comes back from what is written
for it. -/
structure ReadsBack {α : Type} (c : Codec α) : Prop where
  exact : ∀ j x, c.de j = some x ↔ Says (c.ser x) j
  back : ∀ x, c.de (c.ser x).toJson = some x

theorem Lawful.back {α : Type} {c : Codec α} (h : Lawful c) : ReadsBack c where
  exact := h.exact
  back x := (h.exact _ _).2 (says_toJson _ (h.good x))

/-- The JSON document written for a law. -/
def Law.json {n : Nat} (x : Law (lvl n)) : Json := ((Law.codec (codecs n)).ser x).toJson

/-- The law read from a JSON document. -/
def Law.ofJson {n : Nat} (j : Json) : Option (Law (lvl n)) := (Law.codec (codecs n)).de j

/-- **C99.** Every law comes back from the JSON document written for it. -/
theorem C99_law_comes_back (n : Nat) (x : Law (lvl n)) : Law.ofJson x.json = some x :=
  (Law.lawful (codecs_lawful n)).back.back x

/-- **C99.** Different laws are written as different documents. -/
theorem C99_different_laws (n : Nat) (x y : Law (lvl n)) (h : x.json = y.json) : x = y := by
  have h1 := C99_law_comes_back n x
  rw [h, C99_law_comes_back] at h1
  exact (Option.some.inj h1).symm

/-- **C99.** A document is read as a law exactly if it says the law. -/
theorem C99_exact (n : Nat) (j : Json) (x : Law (lvl n)) :
    Law.ofJson j = some x ↔ Says ((Law.codec (codecs n)).ser x) j :=
  (Law.lawful (codecs_lawful n)).exact j x

/-- **C99.** The same for all types that derive the traits. -/
theorem C99_every_type (n : Nat) :
    ReadsBack (Ruby.codec (codecs n)) ∧ ReadsBack (QuoteStruct.codec (codecs n)) ∧
    ReadsBack (ArithFormula.codec (codecs n)) ∧ ReadsBack Sup.codec ∧ ReadsBack Sub.codec ∧
    ReadsBack (LineContents.codec (codecs n)) ∧ ReadsBack LineStyle.codec ∧
    ReadsBack (Line.codec (codecs n)) ∧ ReadsBack (TextElement.codec (codecs n)) ∧
    ReadsBack WritingMode.codec ∧ ReadsBack (TextWithWritingMode.codec (codecs n)) ∧
    ReadsBack (Text.codec (codecs n)) ∧ ReadsBack (RemarksLabel.codec (codecs n)) ∧
    ReadsBack (SentenceElement.codec (codecs n)) ∧ ReadsBack SentenceFunction.codec ∧
    ReadsBack SentenceIndent.codec ∧ ReadsBack (Sentence.codec (codecs n)) ∧
    ReadsBack (RemarksContents.codec (codecs n)) ∧ ReadsBack (Remarks.codec (codecs n)) ∧
    ReadsBack (TableHeaderRow.codec (codecs n)) ∧ ReadsBack (TableRow.codec (codecs n)) ∧
    ReadsBack (Table.codec (codecs n)) ∧ ReadsBack (TableStruct.codec (codecs n)) ∧
    ReadsBack Align.codec ∧ ReadsBack (Column.codec (codecs n)) ∧
    ReadsBack (SentenceOrColumnOrTable.codec (codecs n)) ∧ ReadsBack Fig.codec ∧
    ReadsBack (FigStruct.codec (codecs n)) ∧ ReadsBack (Style.codec (codecs n)) ∧
    ReadsBack (StyleStruct.codec (codecs n)) ∧ ReadsBack (ListSentence.codec (codecs n)) ∧
    ReadsBack (Sublist3.codec (codecs n)) ∧ ReadsBack (Sublist2.codec (codecs n)) ∧
    ReadsBack (Sublist1.codec (codecs n)) ∧ ReadsBack (LawList.codec (codecs n)) ∧
    ReadsBack (Struct.codec (codecs n)) ∧ ReadsBack ArticleNumber.codec ∧
    ReadsBack (Subitem10.codec (codecs n)) ∧ ReadsBack (Subitem9.codec (codecs n)) ∧
    ReadsBack (Subitem8.codec (codecs n)) ∧ ReadsBack (Subitem7.codec (codecs n)) ∧
    ReadsBack (Subitem6.codec (codecs n)) ∧ ReadsBack (Subitem5.codec (codecs n)) ∧
    ReadsBack (Subitem4.codec (codecs n)) ∧ ReadsBack (Subitem3.codec (codecs n)) ∧
    ReadsBack (Subitem2.codec (codecs n)) ∧ ReadsBack (Subitem1.codec (codecs n)) ∧
    ReadsBack (Item.codec (codecs n)) ∧ ReadsBack (AppdxTableContents.codec (codecs n)) ∧
    ReadsBack (AppdxTable.codec (codecs n)) ∧ ReadsBack (Note.codec (codecs n)) ∧
    ReadsBack (NoteStruct.codec (codecs n)) ∧ ReadsBack (AppdxNoteContents.codec (codecs n)) ∧
    ReadsBack (AppdxNote.codec (codecs n)) ∧ ReadsBack (AppdxStyle.codec (codecs n)) ∧
    ReadsBack (Format.codec (codecs n)) ∧ ReadsBack (FormatStruct.codec (codecs n)) ∧
    ReadsBack (AppdxFormat.codec (codecs n)) ∧ ReadsBack (Appdx.codec (codecs n)) ∧
    ReadsBack (AppdxFigContents.codec (codecs n)) ∧ ReadsBack (AppdxFig.codec (codecs n)) ∧
    ReadsBack (Caption.codec (codecs n)) ∧ ReadsBack (Class.codec (codecs n)) ∧
    ReadsBack (Paragraph.codec (codecs n)) ∧ ReadsBack (Article.codec (codecs n)) ∧
    ReadsBack (Division.codec (codecs n)) ∧ ReadsBack (SubsectionContents.codec (codecs n)) ∧
    ReadsBack (Subsection.codec (codecs n)) ∧ ReadsBack (SectionContents.codec (codecs n)) ∧
    ReadsBack (Section.codec (codecs n)) ∧ ReadsBack (ChapterContents.codec (codecs n)) ∧
    ReadsBack (Chapter.codec (codecs n)) ∧ ReadsBack (PartContents.codec (codecs n)) ∧
    ReadsBack (Part.codec (codecs n)) ∧ ReadsBack ItemPattern.codec ∧ ReadsBack ItemNumber.codec ∧
    ReadsBack (TOCDivision.codec (codecs n)) ∧ ReadsBack (TOCSubsection.codec (codecs n)) ∧
    ReadsBack (TOCSectionContents.codec (codecs n)) ∧ ReadsBack (TOCSection.codec (codecs n)) ∧
    ReadsBack (TOCChapter.codec (codecs n)) ∧ ReadsBack (TOCPart.codec (codecs n)) ∧
    ReadsBack (TOCArticle.codec (codecs n)) ∧ ReadsBack (TOCMainContents.codec (codecs n)) ∧
    ReadsBack (TOCSupplProvisionContents.codec (codecs n)) ∧
    ReadsBack (TOCSupplProvision.codec (codecs n)) ∧ ReadsBack (TOC.codec (codecs n)) ∧
    ReadsBack (ContentsElement.codec (codecs n)) ∧ ReadsBack (Contents.codec (codecs n)) ∧
    ReadsBack Era.codec ∧ ReadsBack LawType.codec ∧ ReadsBack Lang.codec ∧
    ReadsBack (LawTitle.codec (codecs n)) ∧ ReadsBack (Preamble.codec (codecs n)) ∧
    ReadsBack (MainProvisionContents.codec (codecs n)) ∧
    ReadsBack (MainProvision.codec (codecs n)) ∧
    ReadsBack (SupplProvisionAppdxTable.codec (codecs n)) ∧
    ReadsBack (SupplProvisionAppdxStyle.codec (codecs n)) ∧
    ReadsBack (SupplProvisionAppdx.codec (codecs n)) ∧
    ReadsBack (SupplProvisionChildrenElement.codec (codecs n)) ∧
    ReadsBack SupplProvisionType.codec ∧ ReadsBack (SupplProvision.codec (codecs n)) ∧
    ReadsBack (LawBody.codec (codecs n)) ∧ ReadsBack (Law.codec (codecs n)) ∧
    ReadsBack (TableColumnContents.codec (codecs n)) ∧ ReadsBack Position.codec ∧
    ReadsBack (TableColumn.codec (codecs n)) ∧ ReadsBack (NewProvision.codec (codecs n)) ∧
    ReadsBack (AmendProvision.codec (codecs n)) ∧ ReadsBack TextIndex.codec :=
  have h := codecs_lawful n
  ⟨(Ruby.lawful h).back, (QuoteStruct.lawful h).back, (ArithFormula.lawful h).back,
    Sup.lawful.back, Sub.lawful.back, (LineContents.lawful h).back, LineStyle.lawful.back,
    (Line.lawful h).back, (TextElement.lawful h).back, WritingMode.lawful.back,
    (TextWithWritingMode.lawful h).back, (Text.lawful h).back, (RemarksLabel.lawful h).back,
    (SentenceElement.lawful h).back, SentenceFunction.lawful.back, SentenceIndent.lawful.back,
    (Sentence.lawful h).back, (RemarksContents.lawful h).back, (Remarks.lawful h).back,
    (TableHeaderRow.lawful h).back, (TableRow.lawful h).back, (Table.lawful h).back,
    (TableStruct.lawful h).back, Align.lawful.back, (Column.lawful h).back,
    (SentenceOrColumnOrTable.lawful h).back, Fig.lawful.back, (FigStruct.lawful h).back,
    (Style.lawful h).back, (StyleStruct.lawful h).back, (ListSentence.lawful h).back,
    (Sublist3.lawful h).back, (Sublist2.lawful h).back, (Sublist1.lawful h).back,
    (LawList.lawful h).back, (Struct.lawful h).back, ArticleNumber.lawful.back,
    (Subitem10.lawful h).back, (Subitem9.lawful h).back, (Subitem8.lawful h).back,
    (Subitem7.lawful h).back, (Subitem6.lawful h).back, (Subitem5.lawful h).back,
    (Subitem4.lawful h).back, (Subitem3.lawful h).back, (Subitem2.lawful h).back,
    (Subitem1.lawful h).back, (Item.lawful h).back, (AppdxTableContents.lawful h).back,
    (AppdxTable.lawful h).back, (Note.lawful h).back, (NoteStruct.lawful h).back,
    (AppdxNoteContents.lawful h).back, (AppdxNote.lawful h).back, (AppdxStyle.lawful h).back,
    (Format.lawful h).back, (FormatStruct.lawful h).back, (AppdxFormat.lawful h).back,
    (Appdx.lawful h).back, (AppdxFigContents.lawful h).back, (AppdxFig.lawful h).back,
    (Caption.lawful h).back, (Class.lawful h).back, (Paragraph.lawful h).back,
    (Article.lawful h).back, (Division.lawful h).back, (SubsectionContents.lawful h).back,
    (Subsection.lawful h).back, (SectionContents.lawful h).back, (Section.lawful h).back,
    (ChapterContents.lawful h).back, (Chapter.lawful h).back, (PartContents.lawful h).back,
    (Part.lawful h).back, ItemPattern.lawful.back, ItemNumber.lawful.back,
    (TOCDivision.lawful h).back, (TOCSubsection.lawful h).back, (TOCSectionContents.lawful h).back,
    (TOCSection.lawful h).back, (TOCChapter.lawful h).back, (TOCPart.lawful h).back,
    (TOCArticle.lawful h).back, (TOCMainContents.lawful h).back,
    (TOCSupplProvisionContents.lawful h).back, (TOCSupplProvision.lawful h).back,
    (TOC.lawful h).back, (ContentsElement.lawful h).back, (Contents.lawful h).back,
    Era.lawful.back, LawType.lawful.back, Lang.lawful.back, (LawTitle.lawful h).back,
    (Preamble.lawful h).back, (MainProvisionContents.lawful h).back, (MainProvision.lawful h).back,
    (SupplProvisionAppdxTable.lawful h).back, (SupplProvisionAppdxStyle.lawful h).back,
    (SupplProvisionAppdx.lawful h).back, (SupplProvisionChildrenElement.lawful h).back,
    SupplProvisionType.lawful.back, (SupplProvision.lawful h).back, (LawBody.lawful h).back,
    (Law.lawful h).back, (TableColumnContents.lawful h).back, Position.lawful.back,
    (TableColumn.lawful h).back, (NewProvision.lawful h).back, (AmendProvision.lawful h).back,
    TextIndex.lawful.back⟩

/-! ## Fields by name -/

/-- An optional value. -/
def Spec.opt {α : Type} (f : α → SerdeValue) : Option α → SerdeValue
  | none => .none
  | some a => f a

/-- A number. -/
def Spec.num (n : Usize) : SerdeValue := .u64 n.val

/-- The numbers of an article. -/
def Spec.artNum (a : ArticleNumber) : SerdeValue :=
  .struct ["base_number", "eda_numbers", "range_end_numbers"]
    [num a.base_number, .seq (a.eda_numbers.map num), .seq (a.range_end_numbers.map num)]

/-- Name of an era. -/
def Spec.eraVariant : Era → String
  | .meiji => "Meiji" | .taisho => "Taisho" | .showa => "Showa" | .heisei => "Heisei"
  | .reiwa => "Reiwa"

/-- Name of a kind of law. -/
def Spec.lawTypeVariant : LawType → String
  | .constitution => "Constitution" | .act => "Act" | .cabinetOrder => "CabinetOrder"
  | .imperialOrder => "ImperialOrder" | .ministerialOrdinance => "MinisterialOrdinance"
  | .rule => "Rule" | .misc => "Misc"

/-- Name of a language. -/
def Spec.langVariant : Lang → String
  | .ja => "Ja" | .en => "En"

theorem era_variant (x : Era) : Era.codec.ser x = .unitVariant (eraVariant x) := by cases x <;> rfl

theorem lawType_variant (x : LawType) : LawType.codec.ser x = .unitVariant (lawTypeVariant x) := by
  cases x <;> rfl

theorem lang_variant (x : Lang) : Lang.codec.ser x = .unitVariant (langVariant x) := by
  cases x <;> rfl

theorem opt_ser {α : Type} (c : Codec α) (x : Option α) : c.option.ser x = opt c.ser x := by
  cases x <;> rfl

theorem artNum_ser : ArticleNumber.codec.ser = artNum := rfl

theorem num_ser : Codec.usize.ser = num := rfl

theorem str_ser : Codec.str.ser = SerdeValue.str := rfl

/-- **C99.** An object is read as a law if it gives the nine fields, each by its name. Eras, kinds and
languages are given by the names of their variants, which for languages are not the values of the
attribute `Lang`. -/
theorem C99_law_fields (n : Nat) (l : List (String × Json)) (x : Law (lvl n)) :
    Law.ofJson (.obj l) = some x ↔
      Gives l "era" (.unitVariant (eraVariant x.era)) ∧ Gives l "year" (num x.year) ∧
      Gives l "num" (opt artNum x.num) ∧ Gives l "promulgate_month" (opt num x.promulgate_month) ∧
      Gives l "promulgate_day" (opt num x.promulgate_day) ∧
      Gives l "law_type" (.unitVariant (lawTypeVariant x.law_type)) ∧
      Gives l "lang" (.unitVariant (langVariant x.lang)) ∧ Gives l "law_num" (.str x.law_num) ∧
      Gives l "law_body" ((LawBody.codec (codecs n)).ser x.law_body) := by
  rw [C99_exact]
  simp only [← era_variant, ← lawType_variant, ← lang_variant, ← num_ser, ← artNum_ser, ← opt_ser]
  exact ⟨fun ⟨a, b, c, d, e, f, g, h, i, _⟩ => ⟨a, b, c, d, e, f, g, h, i⟩,
    fun ⟨a, b, c, d, e, f, g, h, i⟩ => ⟨a, b, c, d, e, f, g, h, i, trivial⟩⟩

/-! ## Documents that are read alike and documents that are not read -/

/-- The same document up to the order of the entries of its objects, at any depth. -/
inductive Spec.Reordered : Json → Json → Prop
  | refl (j : Json) : Reordered j j
  | trans {j k m : Json} : Reordered j k → Reordered k m → Reordered j m
  | swap (a b : List (String × Json)) (p q : String × Json) :
      Reordered (.obj (a ++ p :: q :: b)) (.obj (a ++ q :: p :: b))
  | entry (a b : List (String × Json)) (s : String) {j k : Json} :
      Reordered j k → Reordered (.obj (a ++ (s, j) :: b)) (.obj (a ++ (s, k) :: b))
  | element (a b : List Json) {j k : Json} :
      Reordered j k → Reordered (.arr (a ++ j :: b)) (.arr (a ++ k :: b))

theorem given_append (k : String) (a b : List (String × Json)) :
    given k (a ++ b) = given k a ++ given k b := by
  induction a with
  | nil => rfl
  | cons p r ih =>
    simp only [List.cons_append, given]
    split <;> simp [ih]

theorem saysFields_of {l m : List (String × Json)}
    (h : ∀ k v, Gives l k v → Gives m k v) :
    ∀ (names : List String) (vs : List SerdeValue), SaysFields names vs l → SaysFields names vs m
  | [], [], _ => by simp [SaysFields]
  | k :: ks, v :: vs, hs => by
    simp only [SaysFields] at hs ⊢
    exact ⟨h k v hs.1, saysFields_of h ks vs hs.2⟩
  | [], _ :: _, hs => by simp [SaysFields] at hs
  | _ :: _, [], hs => by simp [SaysFields] at hs

theorem gives_swap {a b : List (String × Json)} {p q : String × Json} {k : String} {v : SerdeValue}
    (h : Gives (a ++ p :: q :: b) k v) : Gives (a ++ q :: p :: b) k v := by
  obtain ⟨s, i⟩ := p
  obtain ⟨t, j⟩ := q
  unfold Gives at *
  simp only [given_append, given] at *
  by_cases h1 : s = k <;> by_cases h2 : t = k <;> simp only [h1, h2, if_true, if_false] at * <;>
    try exact h
  rcases h with ⟨x, e, -⟩ | ⟨e, -⟩ <;> exact absurd (congrArg List.length e) (by simp; try omega)

theorem saysAll_element {j k : Json} (h : ∀ v, Says v j → Says v k) (b : List Json) :
    ∀ (vs : List SerdeValue) (a : List Json), SaysAll vs (a ++ j :: b) → SaysAll vs (a ++ k :: b)
  | [], a, hs => by cases a <;> simp [SaysAll] at hs
  | v :: vs, [], hs => by
    simp only [List.nil_append, SaysAll] at hs ⊢
    exact ⟨h v hs.1, hs.2⟩
  | v :: vs, i :: a, hs => by
    simp only [List.cons_append, SaysAll] at hs ⊢
    exact ⟨hs.1, saysAll_element h b vs a hs.2⟩

theorem gives_entry {a b : List (String × Json)} {s : String} {j k : Json}
    (h : ∀ v, Says v j → Says v k) {t : String} {v : SerdeValue}
    (hg : Gives (a ++ (s, j) :: b) t v) : Gives (a ++ (s, k) :: b) t v := by
  unfold Gives at *
  simp only [given_append, given] at *
  by_cases h1 : s = t
  · simp only [h1, if_true] at *
    rcases hg with ⟨x, e, hx⟩ | ⟨e, -⟩
    · cases hga : given t a with
      | nil =>
        rw [hga, List.nil_append, List.cons.injEq] at e
        obtain ⟨rfl, e⟩ := e
        rw [e]
        exact .inl ⟨k, rfl, h v hx⟩
      | cons y ys =>
        rw [hga] at e
        exact absurd (congrArg List.length e) (by simp; try omega)
    · exact absurd (congrArg List.length e) (by simp; try omega)
  · simp only [h1, if_false] at *
    exact hg

theorem says_obj {l m : List (String × Json)} (h : ∀ k v, Gives l k v → Gives m k v)
    (h1 : ∀ s j, l = [(s, j)] → ∃ k, m = [(s, k)] ∧ ∀ v, Says v j → Says v k)
    (v : SerdeValue) (hv : Says v (.obj l)) : Says v (.obj m) := by
  cases v with
  | struct names values =>
    simp only [Says] at hv ⊢
    exact saysFields_of h names values hv
  | unitVariant n =>
    simp only [Says] at hv ⊢
    obtain ⟨k, hk, hs⟩ := h1 _ _ hv
    have := hs .none (by simp [Says])
    cases k <;> simp [Says] at this
    exact hk
  | newtypeVariant n w =>
    simp only [Says] at hv ⊢
    obtain ⟨j, hl, hj⟩ := hv
    obtain ⟨k, hk, hs⟩ := h1 _ _ hl
    exact ⟨k, hk, hs w hj⟩
  | _ => simp [Says] at hv

theorem says_reordered {j k : Json} (h : Reordered j k) : ∀ v, Says v j → Says v k := by
  induction h with
  | refl => exact fun _ h => h
  | trans _ _ ih1 ih2 => exact fun v hv => ih2 v (ih1 v hv)
  | swap a b p q =>
    exact says_obj (fun _ _ => gives_swap) fun s j e =>
      absurd (congrArg List.length e) (by simp; try omega)
  | entry a b s _ ih =>
    refine says_obj (fun _ _ => gives_entry ih) fun t i e => ?_
    cases a with
    | nil =>
      simp only [List.nil_append, List.cons.injEq, Prod.mk.injEq] at e
      obtain ⟨⟨rfl, rfl⟩, rfl⟩ := e
      exact ⟨_, rfl, ih⟩
    | cons y ys => exact absurd (congrArg List.length e) (by simp; try omega)
  | element a b _ ih =>
    intro v hv
    cases v with
    | seq l => simp only [Says] at hv ⊢; exact saysAll_element ih b l a hv
    | struct names values => simp only [Says] at hv ⊢; exact saysAll_element ih b values a hv
    | _ => simp [Says] at hv

theorem Spec.Reordered.symm {j k : Json} (h : Reordered j k) : Reordered k j := by
  induction h with
  | refl => exact .refl _
  | trans _ _ ih1 ih2 => exact .trans ih2 ih1
  | swap a b p q => exact .swap a b q p
  | entry a b s _ ih => exact .entry a b s ih
  | element a b _ ih => exact .element a b ih

/-- **C99.** The order of the entries of objects does not matter, at any depth, also for documents that
are not read. -/
theorem C99_order (n : Nat) (j k : Json) (h : Reordered j k) :
    (Law.ofJson j : Option (Law (lvl n))) = Law.ofJson k := by
  ext x
  rw [C99_exact, C99_exact]
  exact ⟨says_reordered h _, says_reordered h.symm _⟩

/-- The names of the fields of a law. -/
def Spec.lawNames : List String :=
  ["era", "year", "num", "promulgate_month", "promulgate_day", "law_type", "lang", "law_num",
    "law_body"]

/-- **C99.** Entries for other keys do not matter. -/
theorem C99_foreign_key (n : Nat) (k : String) (j : Json) (a b : List (String × Json))
    (hk : k ∉ lawNames) :
    (Law.ofJson (.obj (a ++ (k, j) :: b)) : Option (Law (lvl n))) = Law.ofJson (.obj (a ++ b)) := by
  have hg : ∀ s ∈ lawNames, given s (a ++ (k, j) :: b) = given s (a ++ b) := fun s hs => by
    rw [given_append, given_append, given_skip]
    rintro rfl
    exact hk hs
  ext x
  rw [C99_law_fields, C99_law_fields]
  unfold Gives
  rw [hg "era" (by decide), hg "year" (by decide), hg "num" (by decide),
    hg "promulgate_month" (by decide), hg "promulgate_day" (by decide), hg "law_type" (by decide),
    hg "lang" (by decide), hg "law_num" (by decide), hg "law_body" (by decide)]

/-- **C99.** An object in which a field stands twice is not read, even if both times it is given the
same. -/
theorem C99_twice (n : Nat) (k : String) (hk : k ∈ lawNames) (i j : Json)
    (a b c : List (String × Json)) :
    (Law.ofJson (.obj (a ++ (k, i) :: b ++ (k, j) :: c)) : Option (Law (lvl n))) = none := by
  have hg : ∀ v, ¬ Gives (a ++ (k, i) :: b ++ (k, j) :: c) k v := by
    intro v h
    unfold Gives at h
    simp only [given_append, given, if_true] at h
    rcases h with ⟨x, e, -⟩ | ⟨e, -⟩ <;> exact absurd (congrArg List.length e) (by simp; try omega)
  rw [Option.eq_none_iff_forall_ne_some]
  intro x hx
  rw [C99_law_fields] at hx
  obtain ⟨h1, h2, h3, h4, h5, h6, h7, h8, h9⟩ := hx
  simp only [lawNames, List.mem_cons, List.not_mem_nil, or_false] at hk
  rcases hk with rfl | rfl | rfl | rfl | rfl | rfl | rfl | rfl | rfl
  · exact hg _ h1
  · exact hg _ h2
  · exact hg _ h3
  · exact hg _ h4
  · exact hg _ h5
  · exact hg _ h6
  · exact hg _ h7
  · exact hg _ h8
  · exact hg _ h9

/-- **C99.** An object without one of the other fields is not read. The number, the month and the day
may be left out. -/
theorem C99_missing (n : Nat) (k : String)
    (hk : k ∈ ["era", "year", "law_type", "lang", "law_num", "law_body"]) (l : List (String × Json))
    (hl : k ∉ l.map Prod.fst) : (Law.ofJson (.obj l) : Option (Law (lvl n))) = none := by
  have hg : given k l = [] := by
    clear hk
    induction l with
    | nil => rfl
    | cons p r ih =>
      simp only [List.map_cons, List.mem_cons, not_or] at hl
      rw [show p = (p.1, p.2) from rfl, given_skip hl.1, ih hl.2]
  rw [Option.eq_none_iff_forall_ne_some]
  intro x hx
  rw [C99_law_fields] at hx
  obtain ⟨h1, h2, -, -, -, h6, h7, h8, h9⟩ := hx
  unfold Gives num at *
  simp only [List.mem_cons, List.not_mem_nil, or_false] at hk
  rcases hk with rfl | rfl | rfl | rfl | rfl | rfl
  · simp [hg] at h1
  · simp [hg] at h2
  · simp [hg] at h6
  · simp [hg] at h7
  · simp [hg] at h8
  · rw [hg] at h9
    rcases h9 with ⟨j, e, -⟩ | ⟨-, e⟩
    · cases e
    · cases e

/-- **C99.** Leaving out an entry with the value `null` for the number, the month or the day, or adding
one, does not matter. -/
theorem C99_null (n : Nat) (k : String) (hk : k ∈ ["num", "promulgate_month", "promulgate_day"])
    (a b : List (String × Json)) (hl : k ∉ (a ++ b).map Prod.fst) :
    (Law.ofJson (.obj (a ++ (k, .null) :: b)) : Option (Law (lvl n))) = Law.ofJson (.obj (a ++ b)) := by
  have h0 : given k (a ++ b) = [] := by
    generalize a ++ b = l at hl
    clear hk
    induction l with
    | nil => rfl
    | cons p r ih =>
      simp only [List.map_cons, List.mem_cons, not_or] at hl
      rw [show p = (p.1, p.2) from rfl, given_skip hl.1, ih hl.2]
  have hg : ∀ s v, Gives (a ++ (k, .null) :: b) s v ↔ Gives (a ++ b) s v := by
    intro s v
    unfold Gives
    by_cases hs : s = k
    · subst hs
      rw [h0]
      rw [given_append, List.append_eq_nil_iff] at h0
      simp only [given_append, given, if_true, h0.1, h0.2, List.nil_append, List.cons.injEq, and_true,
        exists_eq_left', reduceCtorEq, false_and, exists_false, false_or, or_false, true_and]
      exact ⟨says_null, fun e => by rw [e]; simp [Says]⟩
    · rw [given_append, given_append, given_skip hs]
  ext x
  rw [C99_law_fields, C99_law_fields]
  simp only [hg]

/-- **C99.** A law without a number comes back from JSON, while reading the XML written for it is a
panic. -/
theorem C99_unlike_xml (n : Nat) (x : Law (lvl n)) (h : x.num = none) :
    Law.ofJson x.json = some x ∧ (Law.parser x.toXml : Res (Law (lvl n))) = .panic :=
  ⟨C99_law_comes_back n x, C28_law_without_number_panics n x h⟩

/-! ## Examples -/

/-- A body without anything. -/
def emptyBody : Json :=
  .obj [("main_provision", .obj [("children", .arr [])]), ("suppl_provision", .arr []),
    ("appdx", .arr []), ("appdx_table", .arr []), ("appdx_note", .arr []), ("appdx_style", .arr []),
    ("appdx_fig", .arr []), ("appdx_format", .arr []), ("enact_statement", .arr [])]

/-- An object with its entries in another order, with an entry for a key that is no field and without
the month and the day; the number is given as an array, the kind as an object. -/
def handWritten : List (String × Json) :=
  [("law_num", .str "令和元年法律第二号"), ("lang", .str "Ja"), ("source", .str "e-Gov"),
    ("law_type", .obj [("Act", .null)]), ("year", .int 1), ("era", .str "Reiwa"),
    ("num", .arr [.int 2, .arr [], .arr [.int 4]]), ("law_body", emptyBody)]

/-- What it says. -/
def handWrittenLaw : Law (lvl 0) :=
  { era := .reiwa, year := 1, num := some ⟨2, [], [4]⟩, promulgate_month := none,
    promulgate_day := none, law_type := .act, lang := .ja, law_num := "令和元年法律第二号"
    law_body :=
      { law_title := none, enact_statement := [], subject := none, toc := none, preamble := none
        main_provision := ⟨[], none⟩, suppl_provision := [], appdx_table := [], appdx_note := []
        appdx_style := [], appdx := [], appdx_fig := [], appdx_format := [] } }

/-- `C99_exact` and `C99_law_fields` at a document that is not what is written for the law. -/
theorem handWritten_read : Law.ofJson (.obj handWritten) = some handWrittenLaw := by
  with_unfolding_all rfl

/-- `C99_order`, `C99_foreign_key` and `C99_null` at this document. -/
example : Reordered (.obj handWritten)
      (.obj (("lang", .str "Ja") :: ("law_num", .str "令和元年法律第二号") :: handWritten.drop 2)) ∧
    "source" ∉ lawNames ∧ "promulgate_day" ∉ handWritten.map Prod.fst :=
  ⟨.swap [] _ _ _, by decide, by decide⟩

/-- `C99_twice` and `C99_missing`: with the language twice, or without it. -/
example : (Law.ofJson (.obj (("lang", .str "Ja") :: handWritten)) : Option (Law (lvl 0))) = none ∧
    (Law.ofJson (.obj (handWritten.filter (·.1 ≠ "lang"))) : Option (Law (lvl 0))) = none :=
  ⟨C99_twice 0 "lang" (by decide) (.str "Ja") (.str "Ja") []
    (handWritten.take 1) (handWritten.drop 2), C99_missing 0 "lang" (by decide) _
    (by decide)⟩

/-- `C99_different_laws` at two laws that differ deep inside, `C99_unlike_xml` at a law without number. -/
example : sampleLaw.json ≠ ({ sampleLaw with num := none } : Law (lvl 1)).json ∧
    ({ sampleLaw with num := none } : Law (lvl 1)).num = none :=
  ⟨fun h => absurd (congrArg Law.num (C99_different_laws 1 _ _ h)) (by decide), rfl⟩

/-- The values of the attributes of XML are not taken. -/
example : (Law.ofJson (.obj (handWritten.map fun p => if p.1 = "lang" then (p.1, .str "ja") else p)) :
    Option (Law (lvl 0))) = none := by with_unfolding_all rfl

/-- Part of what is written for a law: a ruby in a title. -/
example : ((Text.codec (codecs 1)).ser sampleText).toJson =
    .obj [("contents", .arr [.obj [("Text", .str "第")],
      .obj [("Ruby", .obj [("text", .obj [("contents", .arr [.obj [("Text", .str "漢")],
        .obj [("Text", .str "字")]])]), ("ruby", .str "かんじ")])],
      .obj [("Sup", .obj [("text", .str "2")])]])] := by with_unfolding_all rfl

end JLaw
