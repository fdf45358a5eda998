import Verif.Reading.AcceptArticle

/-! # Which documents are accepted: tables of contents, appendices and the law -/

namespace JLaw

open Spec (Accepted Rule AttrRule)

variable {L : Lvl} {P : Prop} {m : Nat} {γ : Type}

/-! ## Tables of contents -/

theorem TOCOf.takes (hL : L.Takes P m) {tag titleTag : String}
    {as : List (String × (Element → Res γ))} {e : Element} (he : Fine P m e e)
    (hn : e.name = tag)
    (hr : Spec.rules.lookup tag = some (Spec.tocRule titleTag (as.map Prod.fst)))
    (ht : Spec.rules.lookup titleTag = some Spec.free) (ha : Exact.Arms P m as) :
    Exact P (TOCOf.parser (L := L) tag titleTag as e) (Accepted e) := by
  unfold TOCOf.parser TOCOf.step
  simp only [Exact.matchTag_append']
  rw [if_pos hn]
  refine Exact.congr (Exact.bind (Exact.tocNum e) fun _ _ =>
    Exact.bind (Exact.getBool e _) fun _ _ => Exact.map
      (Exact.tagLoop (tags := [titleTag, "ArticleRange"] ++ as.map Prod.fst)
      he (fun s => ?_) (fun s => ?_) (fun _ _ => by exact Fails.unexpected _ _) _)) ?_
  · refine Exact.arms_append ?_ (Exact.childArms ha)
    refine Exact.arms_cons (fun x hx hn => Exact.map (Text.ofElement_takes hL hx.fine hn ht)) ?_
    arms
  · simp [childArms, Function.comp_def]
  · rw [Exact.strict hn hr rfl rfl rfl]
    simp [Exact.AttrsOk, Exact.MustOk, Spec.tocRule, and_assoc]

theorem TOCDivision.takes (hL : L.Takes P m) {e : Element} (he : Fine P m e e)
    (hn : e.name = "TOCDivision") : Exact P (TOCDivision.parser (L := L) e) (Accepted e) :=
  TOCOf.takes hL he hn rfl rfl Exact.arms_nil

macro_rules
  | `(tactic| takes_leaf) => `(tactic| with_reducible exact TOCDivision.takes (by assumption) (by fine!) (by assumption))

theorem TOCSubsection.takes (hL : L.Takes P m) {e : Element} (he : Fine P m e e)
    (hn : e.name = "TOCSubsection") : Exact P (TOCSubsection.parser (L := L) e) (Accepted e) :=
  TOCOf.takes hL he hn rfl rfl (by arms)

macro_rules
  | `(tactic| takes_leaf) => `(tactic| with_reducible exact TOCSubsection.takes (by assumption) (by fine!) (by assumption))

theorem TOCSection.takes (hL : L.Takes P m) {e : Element} (he : Fine P m e e)
    (hn : e.name = "TOCSection") : Exact P (TOCSection.parser (L := L) e) (Accepted e) :=
  TOCOf.takes hL he hn rfl rfl (by unfold TOCSectionContents.arms; arms)

macro_rules
  | `(tactic| takes_leaf) => `(tactic| with_reducible exact TOCSection.takes (by assumption) (by fine!) (by assumption))

theorem TOCChapter.takes (hL : L.Takes P m) {e : Element} (he : Fine P m e e)
    (hn : e.name = "TOCChapter") : Exact P (TOCChapter.parser (L := L) e) (Accepted e) :=
  TOCOf.takes hL he hn rfl rfl (by arms)

macro_rules
  | `(tactic| takes_leaf) => `(tactic| with_reducible exact TOCChapter.takes (by assumption) (by fine!) (by assumption))

theorem TOCPart.takes (hL : L.Takes P m) {e : Element} (he : Fine P m e e)
    (hn : e.name = "TOCPart") : Exact P (TOCPart.parser (L := L) e) (Accepted e) :=
  TOCOf.takes hL he hn rfl rfl (by arms)

macro_rules
  | `(tactic| takes_leaf) => `(tactic| with_reducible exact TOCPart.takes (by assumption) (by fine!) (by assumption))

theorem TOCArticle.takes (hL : L.Takes P m) {e : Element} (he : Fine P m e e)
    (hn : e.name = "TOCArticle") : Exact P (TOCArticle.parser (L := L) e) (Accepted e) := by
  unfold TOCArticle.parser TOCArticle.step
  rw [if_pos hn]
  refine Exact.congr (Exact.bind (Exact.tocNum e) fun _ _ => Exact.bind (Exact.getBool e _) fun _ _ =>
    Exact.bind (tagLoop! he ["ArticleTitle", "ArticleCaption"]) fun s hs =>
    (?_ : Exact P _ (∃ x ∈ elems e.children, x.name ∈ ["ArticleCaption"]))) ?_
  · rw [← Exact.field (fun s => s.article_caption ≠ none) hs (by simp)]
    · cases s.article_caption with
      | none => exact (Exact.err _).congr (by simp)
      | some v => exact (Exact.ok _).congr (by simp)
    · intro s x s' h
      field_step h
  · rw [Exact.strict hn rfl rfl rfl rfl]
    simp [Exact.AttrsOk, Exact.MustOk, and_assoc]

macro_rules
  | `(tactic| takes_leaf) => `(tactic| with_reducible exact TOCArticle.takes (by assumption) (by fine!) (by assumption))

theorem TOCSupplProvision.takes (hL : L.Takes P m) {e : Element} (he : Fine P m e e)
    (hn : e.name = "TOCSupplProvision") : Exact P (TOCSupplProvision.parser (L := L) e) (Accepted e) := by
  unfold TOCSupplProvision.parser TOCSupplProvision.step
  rw [if_pos hn]
  refine Exact.congr (
    Exact.map (tagLoop! he ["SupplProvisionLabel", "ArticleRange", "TOCArticle", "TOCChapter"])) ?_
  rw [Exact.strict hn rfl rfl rfl rfl]
  simp [Exact.AttrsOk, Exact.MustOk]

macro_rules
  | `(tactic| takes_leaf) => `(tactic| with_reducible exact TOCSupplProvision.takes (by assumption) (by fine!) (by assumption))

theorem TOC.takes (hL : L.Takes P m) {e : Element} (he : Fine P m e e)
    (hn : e.name = "TOC") : Exact P (TOC.parser (L := L) e) (Accepted e) := by
  unfold TOC.parser TOC.step
  rw [if_pos hn]
  refine Exact.congr (
    Exact.map (tagLoop! he ["TOCLabel", "TOCPreambleLabel", "TOCPart", "TOCChapter", "TOCSection",
      "TOCArticle", "TOCSupplProvision", "TOCAppdxTableLabel"])) ?_
  rw [Exact.strict hn rfl rfl rfl rfl]
  simp [Exact.AttrsOk, Exact.MustOk]

macro_rules
  | `(tactic| takes_leaf) => `(tactic| with_reducible exact TOC.takes (by assumption) (by fine!) (by assumption))

/-! ## Appendices -/

theorem AppdxOf.takes (hL : L.Takes P m) {tag titleTag : String}
    {as : List (String × (Element → Res γ))} {e : Element} (he : Fine P m e e)
    (hn : e.name = tag)
    (hr : Spec.rules.lookup tag = some (Spec.appdxRule titleTag (as.map Prod.fst)))
    (ht : Spec.rules.lookup titleTag = some Spec.free) (ha : Exact.Arms P m as) :
    Exact P (AppdxOf.parser (L := L) tag titleTag as e) (Accepted e) := by
  unfold AppdxOf.parser AppdxOf.step
  simp only [Exact.matchTag_append']
  rw [if_pos hn]
  refine Exact.congr (Exact.bind (Exact.getString e _) fun _ _ => Exact.map
      (Exact.tagLoop (tags := [titleTag, "RelatedArticleNum", "Remarks"] ++ as.map Prod.fst)
      he (fun s => ?_) (fun s => ?_) (fun _ _ => by exact Fails.unexpected _ _) _)) ?_
  · refine Exact.arms_append ?_ (Exact.childArms ha)
    refine Exact.arms_cons (fun x hx hn =>
      Exact.map (TextWithWritingMode.takes hL hx.fine hn ht)) ?_
    arms
  · simp [childArms, Function.comp_def]
  · rw [Exact.strict hn hr rfl rfl rfl]
    simp [Exact.AttrsOk, Exact.MustOk, Spec.appdxRule]

theorem AppdxTable.takes (hL : L.Takes P m) {e : Element} (he : Fine P m e e)
    (hn : e.name = "AppdxTable") : Exact P (AppdxTable.parser (L := L) e) (Accepted e) :=
  AppdxOf.takes hL he hn rfl rfl (by unfold AppdxTableContents.arms; arms)

macro_rules
  | `(tactic| takes_leaf) => `(tactic| with_reducible exact AppdxTable.takes (by assumption) (by fine!) (by assumption))

theorem AppdxNote.takes (hL : L.Takes P m) {e : Element} (he : Fine P m e e)
    (hn : e.name = "AppdxNote") : Exact P (AppdxNote.parser (L := L) e) (Accepted e) :=
  AppdxOf.takes hL he hn rfl rfl (by unfold AppdxNoteContents.arms; arms)

macro_rules
  | `(tactic| takes_leaf) => `(tactic| with_reducible exact AppdxNote.takes (by assumption) (by fine!) (by assumption))

theorem AppdxStyle.takes (hL : L.Takes P m) {e : Element} (he : Fine P m e e)
    (hn : e.name = "AppdxStyle") : Exact P (AppdxStyle.parser (L := L) e) (Accepted e) :=
  AppdxOf.takes hL he hn rfl rfl (by arms)

macro_rules
  | `(tactic| takes_leaf) => `(tactic| with_reducible exact AppdxStyle.takes (by assumption) (by fine!) (by assumption))

theorem AppdxFormat.takes (hL : L.Takes P m) {e : Element} (he : Fine P m e e)
    (hn : e.name = "AppdxFormat") : Exact P (AppdxFormat.parser (L := L) e) (Accepted e) :=
  AppdxOf.takes hL he hn rfl rfl (by arms)

macro_rules
  | `(tactic| takes_leaf) => `(tactic| with_reducible exact AppdxFormat.takes (by assumption) (by fine!) (by assumption))

theorem Appdx.takes (hL : L.Takes P m) {e : Element} (he : Fine P m e e)
    (hn : e.name = "Appdx") : Exact P (Appdx.parser (L := L) e) (Accepted e) := by
  unfold Appdx.parser Appdx.step
  rw [if_pos hn]
  refine Exact.congr (
    Exact.map (tagLoop! he ["ArithFormulaNum", "RelatedArticleNum", "ArithFormula", "Remarks"])) ?_
  rw [Exact.strict hn rfl rfl rfl rfl]
  simp [Exact.AttrsOk, Exact.MustOk]

macro_rules
  | `(tactic| takes_leaf) => `(tactic| with_reducible exact Appdx.takes (by assumption) (by fine!) (by assumption))

theorem AppdxFig.takes (hL : L.Takes P m) {e : Element} (he : Fine P m e e)
    (hn : e.name = "AppdxFig") : Exact P (AppdxFig.parser (L := L) e) (Accepted e) := by
  unfold AppdxFig.parser AppdxFig.step
  rw [if_pos hn]
  refine Exact.congr (Exact.bind (Exact.getString e _) fun _ _ =>
    Exact.map (tagLoop! he ["AppdxFigTitle", "RelatedArticleNum", "TableStruct", "FigStruct"])) ?_
  rw [Exact.strict hn rfl rfl rfl rfl]
  simp [Exact.AttrsOk, Exact.MustOk]

macro_rules
  | `(tactic| takes_leaf) => `(tactic| with_reducible exact AppdxFig.takes (by assumption) (by fine!) (by assumption))

theorem SupplAppdxOf.takes (hL : L.Takes P m) {tag titleTag structTag missing wrong : String}
    {structP : Element → Res γ} {dflt : Element → Element → Err} {e : Element}
    (he : Fine P m e e) (hn : e.name = tag)
    (hr : Spec.rules.lookup tag = some
      { kids := [titleTag, "RelatedArticleNum", structTag], must := [[titleTag]] })
    (ht : Spec.rules.lookup titleTag = some Spec.free) (htr : titleTag ≠ "RelatedArticleNum")
    (hts : titleTag ≠ structTag)
    (hs : ∀ x, Child P m x x → x.name = structTag → Exact P (structP x) (Accepted x)) :
    Exact P (SupplAppdxOf.parser (L := L) tag titleTag structTag missing wrong structP dflt e)
      (Accepted e) := by
  unfold SupplAppdxOf.parser SupplAppdxOf.step
  rw [if_pos hn]
  refine Exact.congr (Exact.bind (Exact.getString e _) fun _ _ =>
    Exact.bind (Exact.tagLoop (tags := [titleTag, "RelatedArticleNum", structTag])
      he (fun s => ?_) (fun s => by rfl) (fun _ _ => by exact Fails.err _) _) fun s hs =>
    (?_ : Exact P _ (∃ x ∈ elems e.children, x.name ∈ [titleTag]))) ?_
  · refine Exact.arms_cons (fun x hx hn =>
      Exact.map (TextWithWritingMode.takes hL hx.fine hn ht)) ?_
    refine Exact.arms_cons (fun x hx hn => Exact.map (by takes_leaf)) ?_
    exact Exact.arms_cons (fun x hx hn => Exact.map (hs x hx hn)) Exact.arms_nil
  · rw [← Exact.field (fun s => s.title ≠ none) hs (by simp)]
    · cases s.title with
      | none => exact (Exact.err _).congr (by simp)
      | some v => exact (Exact.ok _).congr (by simp)
    · intro s x s' h
      simp only [matchTag_cons, matchTag_nil] at h
      repeat' split at h
      · obtain ⟨_, _, h'⟩ := Res.bind_eq_ok.1 h; cases h'; simp_all
      · obtain ⟨_, _, h'⟩ := Res.bind_eq_ok.1 h; cases h'; simp_all [eq_comm]
      · obtain ⟨_, _, h'⟩ := Res.bind_eq_ok.1 h; cases h'; simp_all [eq_comm]
      · cases h
  · rw [Exact.strict hn hr rfl rfl rfl]
    simp [Exact.AttrsOk, Exact.MustOk]

theorem SupplProvisionAppdxTable.takes (hL : L.Takes P m) {e : Element}
    (he : Fine P m e e) (hn : e.name = "SupplProvisionAppdxTable") :
    Exact P (SupplProvisionAppdxTable.parser (L := L) e) (Accepted e) :=
  SupplAppdxOf.takes hL he hn rfl rfl (by decide) (by decide) (fun _ _ _ => by takes_leaf)

macro_rules
  | `(tactic| takes_leaf) => `(tactic| with_reducible exact SupplProvisionAppdxTable.takes (by assumption) (by fine!) (by assumption))

theorem SupplProvisionAppdxStyle.takes (hL : L.Takes P m) {e : Element}
    (he : Fine P m e e) (hn : e.name = "SupplProvisionAppdxStyle") :
    Exact P (SupplProvisionAppdxStyle.parser (L := L) e) (Accepted e) :=
  SupplAppdxOf.takes hL he hn rfl rfl (by decide) (by decide) (fun _ _ _ => by takes_leaf)

macro_rules
  | `(tactic| takes_leaf) => `(tactic| with_reducible exact SupplProvisionAppdxStyle.takes (by assumption) (by fine!) (by assumption))

theorem SupplProvisionAppdx.takes (hL : L.Takes P m) {e : Element} (he : Fine P m e e)
    (hn : e.name = "SupplProvisionAppdx") : Exact P (SupplProvisionAppdx.parser (L := L) e) (Accepted e) := by
  unfold SupplProvisionAppdx.parser SupplProvisionAppdx.step
  rw [if_pos hn]
  refine Exact.congr (Exact.bind (Exact.getString e _) fun _ _ =>
    Exact.map (tagLoop! he ["ArithFormulaNum", "RelatedArticleNum", "ArithFormula"])) ?_
  rw [Exact.strict hn rfl rfl rfl rfl]
  simp [Exact.AttrsOk, Exact.MustOk]

macro_rules
  | `(tactic| takes_leaf) => `(tactic| with_reducible exact SupplProvisionAppdx.takes (by assumption) (by fine!) (by assumption))

theorem SupplProvisionType.fromAttr_takes (o : Option String) :
    Exact P (SupplProvisionType.fromAttr o) ((AttrRule.oneOf ["New", "Amend"]).Holds o) := by
  unfold SupplProvisionType.fromAttr
  split
  · exact (Exact.ok _).congr (by simp [AttrRule.Holds])
  · exact (Exact.ok _).congr (by simp [AttrRule.Holds])
  · exact (Exact.ok _).congr (by simp [AttrRule.Holds])
  · next h1 h2 h3 =>
    refine (Exact.err _).congr ?_
    cases o with
    | none => exact absurd rfl h3
    | some s =>
      simp only [AttrRule.Holds, false_iff]
      intro h
      have := h s rfl
      simp only [List.mem_cons, List.not_mem_nil, or_false] at this
      rcases this with rfl | rfl
      · exact h1 rfl
      · exact h2 rfl

theorem SupplProvision.takes (hL : L.Takes P m) {e : Element} (he : Fine P m e e)
    (hn : e.name = "SupplProvision") : Exact P (SupplProvision.parser (L := L) e) (Accepted e) := by
  unfold SupplProvision.parser SupplProvision.step
  rw [if_pos hn]
  refine Exact.congr (Exact.bind (SupplProvisionType.fromAttr_takes _) fun _ _ =>
    Exact.bind (Exact.optBool e _) fun _ _ =>
    Exact.map (tagLoop! he ["SupplProvisionLabel", "Chapter", "Article", "Paragraph",
      "SupplProvisionAppdxTable", "SupplProvisionAppdxStyle", "SupplProvisionAppdx"])) ?_
  rw [Exact.strict hn rfl rfl rfl rfl]
  simp [Exact.AttrsOk, Exact.MustOk, and_assoc]

macro_rules
  | `(tactic| takes_leaf) => `(tactic| with_reducible exact SupplProvision.takes (by assumption) (by fine!) (by assumption))

/-! ## The law -/

theorem LawTitle.takes (hL : L.Takes P m) {e : Element} (he : Fine P m e e)
    (hn : e.name = "LawTitle") : Exact P (LawTitle.parser (L := L) e) (Accepted e) := by
  unfold LawTitle.parser
  rw [if_pos hn]
  exact Exact.congr (Exact.bind (Exact.getString e _) fun _ _ =>
    Exact.bind (Exact.getString e _) fun _ _ => Exact.bind (Exact.getString e _) fun _ _ =>
    Exact.map (Text.takes hL he)) (iff_of_true ⟨trivial, trivial, trivial, trivial⟩
      (Exact.free hn rfl))

macro_rules
  | `(tactic| takes_leaf) => `(tactic| with_reducible exact LawTitle.takes (by assumption) (by fine!) (by assumption))

theorem Preamble.takes (hL : L.Takes P m) {e : Element} (he : Fine P m e e)
    (hn : e.name = "Preamble") : Exact P (Preamble.parser (L := L) e) (Accepted e) := by
  unfold Preamble.parser
  rw [if_pos hn]
  refine Exact.congr (Exact.map (Exact.readTagged fun x hx ht =>
    Paragraph.takes hL (he.child hx).fine ht)) ?_
  rw [Exact.lax hn rfl rfl rfl rfl]
  simp [Exact.AttrsOk, Exact.MustOk]

macro_rules
  | `(tactic| takes_leaf) => `(tactic| with_reducible exact Preamble.takes (by assumption) (by fine!) (by assumption))

theorem MainProvision.takes (hL : L.Takes P m) {e : Element} (he : Fine P m e e)
    (hn : e.name = "MainProvision") : Exact P (MainProvision.parser (L := L) e) (Accepted e) := by
  unfold MainProvision.parser
  rw [if_pos hn]
  refine Exact.congr (Exact.bind (Exact.optBool e _) fun _ _ => Exact.map
    (Exact.tagRead he (by unfold MainProvisionContents.arms; arms)
      fun _ => by exact Fails.unexpected _ _)) ?_
  rw [Exact.strict hn rfl rfl rfl rfl]
  simp [Exact.AttrsOk, Exact.MustOk, MainProvisionContents.arms]

macro_rules
  | `(tactic| takes_leaf) => `(tactic| with_reducible exact MainProvision.takes (by assumption) (by fine!) (by assumption))

theorem LawBody.takes (hL : L.Takes P m) {e : Element} (he : Fine P m e e)
    (hn : e.name = "LawBody") : Exact P (LawBody.parser (L := L) e) (Accepted e) := by
  unfold LawBody.parser LawBody.step
  rw [if_pos hn]
  refine Exact.congr (Exact.bind (Exact.getString e _) fun _ _ =>
    Exact.bind (tagLoop! he ["LawTitle", "EnactStatement", "TOC", "Preamble", "MainProvision",
      "SupplProvision", "AppdxTable", "AppdxNote", "AppdxStyle", "Appdx", "AppdxFig", "AppdxFormat"]) fun s hs =>
    (?_ : Exact P _ (∃ x ∈ elems e.children, x.name ∈ ["MainProvision"]))) ?_
  · rw [← Exact.field (fun s => s.main_provision ≠ none) hs (by simp)]
    · cases s.main_provision with
      | none => exact (Exact.err _).congr (by simp)
      | some v => exact (Exact.ok _).congr (by simp)
    · intro s x s' h
      field_step h
  · rw [Exact.strict hn rfl rfl rfl rfl]
    simp [Exact.AttrsOk, Exact.MustOk]

macro_rules
  | `(tactic| takes_leaf) => `(tactic| with_reducible exact LawBody.takes (by assumption) (by fine!) (by assumption))

theorem LawBody.fails {e : Element} (hn : e.name ≠ "LawBody") :
    (LawBody.parser (L := L) e).Fails := by
  unfold LawBody.parser
  rw [if_neg hn]
  exact Fails.err _

theorem Law.numOf_takes (e : Element) :
    Exact P (Law.numOf e) (AttrRule.numberOrEmpty.Holds (e.attributes.get "Num")) := by
  unfold Law.numOf
  cases e.attributes.get "Num" with
  | none => exact ⟨fun ⟨_, h⟩ => (by simp [Res.unwrap, Res.bind] at h), fun ⟨_, h, _⟩ => nomatch h⟩
  | some s =>
    simp only [Res.unwrap, Res.bind_ok]
    split
    · next h => exact (Exact.ok _).congr (by simp [AttrRule.Holds, h])
    · next h => exact (Exact.map (Exact.fromNumStr s)).congr (by simp [AttrRule.Holds, h])

theorem Law.usizeOf_takes (e : Element) (k : String) :
    Exact P (Law.usizeOf e k) (AttrRule.countOrEmpty.Holds (e.attributes.get k)) := by
  unfold Law.usizeOf
  cases e.attributes.get k with
  | none => exact (Exact.ok _).congr (by simp [AttrRule.Holds])
  | some s =>
    simp only
    split
    · next h => exact (Exact.ok _).congr (by simp [AttrRule.Holds, h])
    · next h =>
      have hs := Exact.parseUsizeStr_isSome s
      cases hp : parseUsizeStr s with
      | none => simp only; exact (Exact.err _).congr (by simpa [AttrRule.Holds, h, hp] using hs)
      | some n => simp only; exact (Exact.ok _).congr (by simpa [AttrRule.Holds, h, hp] using hs)

theorem era_rule (o : Option String) : Era.fromAttr o ≠ none ↔
    (AttrRule.mustOneOf ["Meiji", "Taisho", "Showa", "Heisei", "Reiwa"]).Holds o := by
  unfold Era.fromAttr
  split <;> simp [AttrRule.Holds]
  rename_i h1 h2 h3 h4 h5
  rintro x rfl
  exact ⟨by simpa using h1, by simpa using h2, by simpa using h3, by simpa using h4,
    by simpa using h5⟩

theorem lawType_rule (o : Option String) : LawType.fromAttr o ≠ none ↔
    (AttrRule.mustOneOf ["Constitution", "Act", "CabinetOrder", "ImperialOrder",
      "MinisterialOrdinance", "Rule", "Misc"]).Holds o := by
  unfold LawType.fromAttr
  split <;> simp [AttrRule.Holds]
  rename_i h1 h2 h3 h4 h5 h6 h7
  rintro x rfl
  exact ⟨by simpa using h1, by simpa using h2, by simpa using h3, by simpa using h4,
    by simpa using h5, by simpa using h6, by simpa using h7⟩

theorem lang_rule (o : Option String) : Lang.fromAttr o ≠ none ↔
    (AttrRule.mustOneOf ["ja", "en"]).Holds o := by
  unfold Lang.fromAttr
  split <;> simp [AttrRule.Holds]
  rename_i h1 h2
  rintro x rfl
  exact ⟨by simpa using h1, by simpa using h2⟩

/-- The first two nodes of a law. -/
def LawKids (c : List XMLNode) : Prop :=
  ∃ a d a' d' rest, c = .element "LawNum" a d :: .element "LawBody" a' d' :: rest ∧
    Accepted ⟨"LawBody", a', d'⟩

theorem Law.kids_takes (hL : L.Takes P m) {e : Element} (he : Fine P m e e)
    {f : String → LawBody L → γ} :
    Exact P ((Law.lawNumOf e).bind fun n => (Law.bodyOf e).bind fun b =>
      (LawBody.parser b).bind fun body => .ok (f n body)) (LawKids e.children) := by
  unfold Law.lawNumOf
  split
  · next n a d rest hc =>
    split
    · next h =>
      subst h
      rw [Res.bind_ok]
      unfold Law.bodyOf
      rw [hc]
      match rest, hc with
      | .element n' a' d' :: rest, hc =>
        simp only [Res.bind_ok]
        have hx : Child P m ⟨n', a', d'⟩ ⟨n', a', d'⟩ :=
          he.child (Exact.mem_elems (by simp [hc, Element.node]))
        refine (Exact.map (Exact.checks (fun h => LawBody.takes hL hx.fine h) LawBody.fails)).congr ?_
        constructor
        · rintro ⟨h, h'⟩
          simp only [List.mem_singleton] at h
          subst h
          exact ⟨a, d, a', d', rest, rfl, h'⟩
        · rintro ⟨_, _, _, _, _, h, h'⟩
          cases h
          exact ⟨by simp, h'⟩
      | [], _ => exact (Exact.err _).congr (by simp [LawKids])
      | .text _ :: _, _ => exact (Exact.err _).congr (by simp [LawKids])
      | .comment _ :: _, _ => exact (Exact.err _).congr (by simp [LawKids])
      | .cdata _ :: _, _ => exact (Exact.err _).congr (by simp [LawKids])
      | .processingInstruction _ _ :: _, _ => exact (Exact.err _).congr (by simp [LawKids])
    · next h =>
      refine (Exact.err _).congr ?_
      simp only [LawKids, hc, false_iff]
      rintro ⟨_, _, _, _, _, h', -⟩
      cases h'
      exact h rfl
  · next h =>
    refine (Exact.err _).congr ?_
    simp only [LawKids, false_iff]
    rintro ⟨_, _, _, _, _, h', -⟩
    exact h _ _ _ _ h'

theorem Law.takes (hL : L.Takes P m) {e : Element} (he : Fine P m e e)
    (hn : e.name = "Law") : Exact P (Law.parser (L := L) e) (Accepted e) := by
  unfold Law.parser
  rw [if_pos hn]
  refine Exact.congr (Exact.bind (Exact.ofOption _ _) fun _ _ =>
    Exact.bind (Exact.mustCount e _) fun _ _ => Exact.bind (Law.numOf_takes e) fun _ _ =>
    Exact.bind (Law.usizeOf_takes e _) fun _ _ => Exact.bind (Law.usizeOf_takes e _) fun _ _ =>
    Exact.bind (Exact.ofOption _ _) fun _ _ => Exact.bind (Exact.ofOption _ _) fun _ _ =>
    Law.kids_takes hL he) ?_
  rw [era_rule, lawType_rule, lang_rule, Exact.accepted_iff hn rfl]
  constructor
  · rintro ⟨h1, h2, h3, h4, h5, h6, h7, a, d, a', d', rest, hc, hacc⟩
    refine ⟨⟨by simpa using ⟨h1, h2, h3, h4, h5, h6, h7⟩, by simp [hc, Spec.Starts],
      Exact.sequence_lax rfl _, by simp⟩, ?_⟩
    intro x hx
    simp only [Rule.read, hc, List.length_cons, List.length_nil, Nat.zero_add,
      List.take_succ_cons, List.take_zero, List.nil_append, List.not_mem_nil, decide_false,
      List.mem_append, List.mem_filter, Bool.false_eq_true, and_false, or_false,
      Nat.reduceAdd] at hx
    simp only [elems, List.filterMap_cons, List.filterMap_nil, List.mem_cons, List.not_mem_nil,
      or_false] at hx
    rcases hx with rfl | rfl
    · exact Exact.free (e := ⟨"LawNum", a, d⟩) rfl rfl
    · exact hacc
  · rintro ⟨⟨h1, h2, -, -⟩, hr⟩
    simp only [List.forall_mem_cons, List.not_mem_nil, false_implies, implies_true, and_true] at h1
    obtain ⟨h1, h2', h3, h4, h5, h6, h7⟩ := h1
    refine ⟨h1, h2', h3, h4, h5, h6, h7, ?_⟩
    match hc : e.children with
    | .element n a d :: .element n' a' d' :: rest =>
      simp only [hc, Spec.Starts, and_true] at h2
      obtain ⟨rfl, rfl⟩ := h2
      refine ⟨a, d, a', d', rest, rfl, hr _ ?_⟩
      simp only [Rule.read, hc, List.mem_append]
      exact .inl (Exact.mem_elems (by simp [Element.node]))
    | [] => simp [hc, Spec.Starts] at h2
    | [.element _ _ _] => simp [hc, Spec.Starts] at h2
    | .text _ :: _ => simp [hc, Spec.Starts] at h2
    | .comment _ :: _ => simp [hc, Spec.Starts] at h2
    | .cdata _ :: _ => simp [hc, Spec.Starts] at h2
    | .processingInstruction _ _ :: _ => simp [hc, Spec.Starts] at h2
    | .element _ _ _ :: .text _ :: _ => simp [hc, Spec.Starts] at h2
    | .element _ _ _ :: .comment _ :: _ => simp [hc, Spec.Starts] at h2
    | .element _ _ _ :: .cdata _ :: _ => simp [hc, Spec.Starts] at h2
    | .element _ _ _ :: .processingInstruction _ _ :: _ => simp [hc, Spec.Starts] at h2

/-! ## Cells, contents and amendments -/

theorem TableColumn.takes (hL : L.Takes P m) {e : Element} (he : Fine P m e e)
    (hn : e.name = "TableColumn") : Exact P (TableColumn.parser (L := L) e) (Accepted e) := by
  unfold TableColumn.parser
  rw [if_pos hn]
  refine Exact.congr (Exact.bind (Exact.getString e _) fun _ _ =>
    Exact.bind (Exact.getString e _) fun _ _ => Exact.map (Exact.mixed fun x hx =>
      Exact.matchTag (m := m) (by unfold TableColumnContents.arms; arms) (he.child hx)
        (Fails.unexpected _ _))) ?_
  rw [Exact.strict hn rfl rfl rfl rfl]
  simp [Exact.AttrsOk, Exact.MustOk, TableColumnContents.arms, Spec.cellTags, Spec.itemTags]

macro_rules
  | `(tactic| takes_leaf) => `(tactic| with_reducible exact TableColumn.takes (by assumption) (by fine!) (by assumption))

theorem Contents.takes (hL : L.Takes P m) {e : Element} (he : Fine P (m + 1) e e) :
    Exact P (Contents.parser (L := L) e)
      (∀ x ∈ elems e.children, x.name ∈ Spec.contentsTags ∧ Accepted x) := by
  unfold Contents.parser
  refine Exact.congr (Exact.map (Exact.mixed fun x hx =>
      Exact.matchTag (m := m + 1) (by unfold ContentsElement.arms; arms) (he.child hx)
        (Fails.unexpected _ _))) ?_
  simp [ContentsElement.arms, Spec.contentsTags, Spec.itemTags]

theorem AmendProvision.sentenceOf_takes (hL : L.Takes P m) {e : Element} (he : Fine P m e e)
    (hn : e.name = "AmendProvisionSentence") :
    Exact P (AmendProvision.sentenceOf (L := L) e) (Accepted e) := by
  rw [show Accepted e ↔ _ from Exact.first_only hn rfl rfl rfl rfl rfl rfl rfl]
  unfold AmendProvision.sentenceOf
  split
  · next n a d rest hc =>
    have hx : Child P m ⟨n, a, d⟩ ⟨n, a, d⟩ :=
      he.child (Exact.mem_elems (by simp [hc, Element.node]))
    refine (Exact.checks (fun h => Sentence.takes hL hx.fine h) Sentence.fails).congr ?_
    constructor
    · rintro ⟨h, h'⟩
      simp only [List.mem_singleton] at h
      subst h
      exact ⟨a, d, rest, hc, h'⟩
    · rintro ⟨_, _, _, h, h'⟩
      rw [hc] at h
      cases h
      exact ⟨by simp, h'⟩
  · next h =>
    refine (Exact.err _).congr ?_
    simp only [false_iff]
    rintro ⟨_, _, _, h', -⟩
    exact h _ _ _ _ h'

theorem newProvision_takes (hL : L.Takes P m) {e outer : Element} (he : Fine P m e e)
    (hn : e.name = "NewProvision") :
    Exact P (readAll (matchTag (NewProvision.arms (L := L)) (unexpected outer)) e.children)
      (Accepted e) := by
  refine Exact.congr (Exact.tagRead he (by unfold NewProvision.arms; arms)
    fun _ => by exact Fails.unexpected _ _) ?_
  rw [Exact.strict hn rfl rfl rfl rfl]
  simp [Exact.AttrsOk, Exact.MustOk, NewProvision.arms, Spec.newProvisionTags, Spec.itemTags]

macro_rules
  | `(tactic| takes_leaf) =>
    `(tactic| with_reducible exact AmendProvision.sentenceOf_takes (by assumption) (by fine!) (by assumption))
macro_rules
  | `(tactic| takes_leaf) =>
    `(tactic| with_reducible exact newProvision_takes (by assumption) (by fine!) (by assumption))

theorem AmendProvision.takes (hL : L.Takes P m) {e : Element} (he : Fine P m e e)
    (hn : e.name = "AmendProvision") : Exact P (AmendProvision.parser (L := L) e) (Accepted e) := by
  unfold AmendProvision.parser AmendProvision.step
  rw [if_pos hn]
  refine Exact.congr (
    Exact.map (tagLoop! he ["AmendProvisionSentence", "NewProvision"])) ?_
  rw [Exact.strict hn rfl rfl rfl rfl]
  simp [Exact.AttrsOk, Exact.MustOk]

/-! ## Levels -/

theorem Lvl.Takes.zero : Lvl.zero.Takes P 0 where
  agrees := .zero
  text h := by omega
  contents e h := by
    have : heightList e.children + 1 ≤ 0 := h.height
    omega
  item e h := absurd h.height (by omega)
  column e h := absurd h.height (by omega)
  amend e h := absurd h.height (by omega)

theorem Lvl.Takes.succ {L : Lvl} (hL : L.Takes P m) : L.succ.Takes P (m + 1) where
  agrees := hL.agrees.succ
  text _ _ := Exact.ok _
  contents _ h := Contents.takes hL h
  item _ h hn := Item.takes hL h.pred hn
  column _ h hn := TableColumn.takes hL h.pred hn
  amend _ h hn := AmendProvision.takes hL h.pred hn

theorem lvl_takes (P : Prop) : ∀ n, (lvl n).Takes P n
  | 0 => .zero
  | n + 1 => (lvl_takes P n).succ

end JLaw
