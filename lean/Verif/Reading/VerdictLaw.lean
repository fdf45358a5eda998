import Verif.Reading.AcceptLaw
import Verif.Reading.VerdictArticle

/-! # What reading leads to: tables of contents, appendices and the law -/

namespace JLaw

open Spec (Rule AttrRule Verdict judge)

variable {L : Lvl} {m : Nat} {γ : Type}

/-! ## Tables of contents -/

/-- What the tables say about an entry of a table of contents and its title. -/
structure TocTags (tag titleTag : String) (kids : List String) : Prop where
  rule : Spec.rules.lookup tag = some (Spec.tocRule titleTag kids)
  title : Spec.rules.lookup titleTag = some Spec.free
  caption : Spec.captionTags.contains tag = false
  caption1 : Spec.captionTags.contains titleTag = false
  blind : Spec.blindTags.contains titleTag = false
  toc : Spec.tocEntryTags.contains tag = true
  stranger : ∀ n, Spec.stranger tag n = .unexpectedTag n tag

theorem TOCOf.judged (hL : L.Judges m) {tag titleTag : String}
    {as : List (String × (Element → Res γ))} {e : Element} (he : Fine True m e e)
    (hn : e.name = tag) (ht : TocTags tag titleTag (as.map Prod.fst)) (ha : Says.Arms m as) :
    Says (TOCOf.parser (L := L) tag titleTag as e) (judge e.node) := by
  rw [Says.judge_plain hn ht.rule rfl rfl ht.caption]
  simp only [Spec.tocRule]
  verdicts
  unfold TOCOf.parser TOCOf.step
  simp only [Exact.matchTag_append']
  rw [if_pos hn]
  refine Says.bind (Says.tocNum hn ht.toc) fun _ _ =>
    Says.bind (Says.getBool hn (by decide)) fun _ _ => Says.map
      (Says.tagLoop he rfl (fun s => ?_) (fun s => ?_)
        (fun _ _ => Says.unexpected hn ht.stranger _) _)
  · refine Says.arms_append ?_ (Says.childArms ha)
    refine Says.arms_cons (fun x hx hn => Says.map
      (Text.ofElement_judged hL hx.fine hn ht.title ht.blind ht.caption1)) ?_
    jarms
  · simp [childArms, Function.comp_def]

/-- Looks the tags up in the tables. -/
macro "toc_tags" : term => `(⟨rfl, rfl, rfl, rfl, rfl, rfl, fun _ => rfl⟩)

theorem TOCDivision.judged (hL : L.Judges m) {e : Element} (he : Fine True m e e)
    (hn : e.name = "TOCDivision") : Says (TOCDivision.parser (L := L) e) (judge e.node) :=
  TOCOf.judged hL he hn toc_tags (by jarms)

macro_rules
  | `(tactic| judged_leaf) => `(tactic| with_reducible exact TOCDivision.judged (by assumption) (by fine!) (by assumption))

theorem TOCSubsection.judged (hL : L.Judges m) {e : Element} (he : Fine True m e e)
    (hn : e.name = "TOCSubsection") : Says (TOCSubsection.parser (L := L) e) (judge e.node) :=
  TOCOf.judged hL he hn toc_tags (by jarms)

macro_rules
  | `(tactic| judged_leaf) => `(tactic| with_reducible exact TOCSubsection.judged (by assumption) (by fine!) (by assumption))

theorem TOCSection.judged (hL : L.Judges m) {e : Element} (he : Fine True m e e)
    (hn : e.name = "TOCSection") : Says (TOCSection.parser (L := L) e) (judge e.node) :=
  TOCOf.judged hL he hn toc_tags (by unfold TOCSectionContents.arms; jarms)

macro_rules
  | `(tactic| judged_leaf) => `(tactic| with_reducible exact TOCSection.judged (by assumption) (by fine!) (by assumption))

theorem TOCChapter.judged (hL : L.Judges m) {e : Element} (he : Fine True m e e)
    (hn : e.name = "TOCChapter") : Says (TOCChapter.parser (L := L) e) (judge e.node) :=
  TOCOf.judged hL he hn toc_tags (by jarms)

macro_rules
  | `(tactic| judged_leaf) => `(tactic| with_reducible exact TOCChapter.judged (by assumption) (by fine!) (by assumption))

theorem TOCPart.judged (hL : L.Judges m) {e : Element} (he : Fine True m e e)
    (hn : e.name = "TOCPart") : Says (TOCPart.parser (L := L) e) (judge e.node) :=
  TOCOf.judged hL he hn toc_tags (by jarms)

macro_rules
  | `(tactic| judged_leaf) => `(tactic| with_reducible exact TOCPart.judged (by assumption) (by fine!) (by assumption))

theorem TOCArticle.judged (hL : L.Judges m) {e : Element} (he : Fine True m e e)
    (hn : e.name = "TOCArticle") : Says (TOCArticle.parser (L := L) e) (judge e.node) := by
  rw [Says.judge_plain hn rfl rfl rfl rfl]
  verdicts
  unfold TOCArticle.parser TOCArticle.step
  rw [if_pos hn]
  refine Says.bind (Says.tocNum hn rfl) fun _ _ => Says.bind (Says.getBool hn (by decide)) fun _ _ =>
    Says.bind (judgeLoop! he hn) fun s hs =>
    Says.needed (Exact.field (fun s => s.article_caption ≠ none) hs (by simp) ?_) ?_ ?_
  · intro s x s' h
    field_step h
  · by_field s.article_caption
  · by_field s.article_caption

macro_rules
  | `(tactic| judged_leaf) => `(tactic| with_reducible exact TOCArticle.judged (by assumption) (by fine!) (by assumption))

theorem TOCSupplProvision.judged (hL : L.Judges m) {e : Element} (he : Fine True m e e)
    (hn : e.name = "TOCSupplProvision") : Says (TOCSupplProvision.parser (L := L) e) (judge e.node) := by
  rw [Says.judge_plain hn rfl rfl rfl rfl]
  verdicts
  unfold TOCSupplProvision.parser TOCSupplProvision.step
  rw [if_pos hn]
  exact Says.map (judgeLoop! he hn)

macro_rules
  | `(tactic| judged_leaf) => `(tactic| with_reducible exact TOCSupplProvision.judged (by assumption) (by fine!) (by assumption))

theorem TOC.judged (hL : L.Judges m) {e : Element} (he : Fine True m e e)
    (hn : e.name = "TOC") : Says (TOC.parser (L := L) e) (judge e.node) := by
  rw [Says.judge_plain hn rfl rfl rfl rfl]
  verdicts
  unfold TOC.parser TOC.step
  rw [if_pos hn]
  exact Says.map (judgeLoop! he hn)

macro_rules
  | `(tactic| judged_leaf) => `(tactic| with_reducible exact TOC.judged (by assumption) (by fine!) (by assumption))

/-! ## Appendices -/

/-- What the tables say about an appendix and its title. -/
structure AppdxTags (tag titleTag : String) (kids : List String) : Prop where
  rule : Spec.rules.lookup tag = some (Spec.appdxRule titleTag kids)
  title : Spec.rules.lookup titleTag = some Spec.free
  caption : Spec.captionTags.contains tag = false
  caption1 : Spec.captionTags.contains titleTag = false
  blind : Spec.blindTags.contains titleTag = false
  stranger : ∀ n, Spec.stranger tag n = .unexpectedTag n tag

theorem AppdxOf.judged (hL : L.Judges m) {tag titleTag : String}
    {as : List (String × (Element → Res γ))} {e : Element} (he : Fine True m e e)
    (hn : e.name = tag) (ht : AppdxTags tag titleTag (as.map Prod.fst)) (ha : Says.Arms m as) :
    Says (AppdxOf.parser (L := L) tag titleTag as e) (judge e.node) := by
  rw [Says.judge_plain hn ht.rule rfl rfl ht.caption]
  simp only [Spec.appdxRule]
  verdicts
  unfold AppdxOf.parser AppdxOf.step
  simp only [Exact.matchTag_append']
  rw [if_pos hn]
  refine Says.after (Says.getString e _) fun _ _ => Says.map
      (Says.tagLoop he rfl (fun s => ?_) (fun s => ?_)
        (fun _ _ => Says.unexpected hn ht.stranger _) _)
  · refine Says.arms_append ?_ (Says.childArms ha)
    refine Says.arms_cons (fun x hx hn => Says.map
      (TextWithWritingMode.judged hL hx.fine hn ht.title ht.blind ht.caption1)) ?_
    jarms
  · simp [childArms, Function.comp_def]

/-- Looks the tags up in the tables. -/
macro "appdx_tags" : term => `(⟨rfl, rfl, rfl, rfl, rfl, fun _ => rfl⟩)

theorem AppdxTable.judged (hL : L.Judges m) {e : Element} (he : Fine True m e e)
    (hn : e.name = "AppdxTable") : Says (AppdxTable.parser (L := L) e) (judge e.node) :=
  AppdxOf.judged hL he hn appdx_tags (by unfold AppdxTableContents.arms; jarms)

macro_rules
  | `(tactic| judged_leaf) => `(tactic| with_reducible exact AppdxTable.judged (by assumption) (by fine!) (by assumption))

theorem AppdxNote.judged (hL : L.Judges m) {e : Element} (he : Fine True m e e)
    (hn : e.name = "AppdxNote") : Says (AppdxNote.parser (L := L) e) (judge e.node) :=
  AppdxOf.judged hL he hn appdx_tags (by unfold AppdxNoteContents.arms; jarms)

macro_rules
  | `(tactic| judged_leaf) => `(tactic| with_reducible exact AppdxNote.judged (by assumption) (by fine!) (by assumption))

theorem AppdxStyle.judged (hL : L.Judges m) {e : Element} (he : Fine True m e e)
    (hn : e.name = "AppdxStyle") : Says (AppdxStyle.parser (L := L) e) (judge e.node) :=
  AppdxOf.judged hL he hn appdx_tags (by jarms)

macro_rules
  | `(tactic| judged_leaf) => `(tactic| with_reducible exact AppdxStyle.judged (by assumption) (by fine!) (by assumption))

theorem AppdxFormat.judged (hL : L.Judges m) {e : Element} (he : Fine True m e e)
    (hn : e.name = "AppdxFormat") : Says (AppdxFormat.parser (L := L) e) (judge e.node) :=
  AppdxOf.judged hL he hn appdx_tags (by jarms)

macro_rules
  | `(tactic| judged_leaf) => `(tactic| with_reducible exact AppdxFormat.judged (by assumption) (by fine!) (by assumption))

theorem Appdx.judged (hL : L.Judges m) {e : Element} (he : Fine True m e e)
    (hn : e.name = "Appdx") : Says (Appdx.parser (L := L) e) (judge e.node) := by
  rw [Says.judge_plain hn rfl rfl rfl rfl]
  verdicts
  unfold Appdx.parser Appdx.step
  rw [if_pos hn]
  exact Says.map (judgeLoop! he hn)

macro_rules
  | `(tactic| judged_leaf) => `(tactic| with_reducible exact Appdx.judged (by assumption) (by fine!) (by assumption))

theorem AppdxFig.judged (hL : L.Judges m) {e : Element} (he : Fine True m e e)
    (hn : e.name = "AppdxFig") : Says (AppdxFig.parser (L := L) e) (judge e.node) := by
  rw [Says.judge_plain hn rfl rfl rfl rfl]
  verdicts
  unfold AppdxFig.parser AppdxFig.step
  rw [if_pos hn]
  exact Says.after (Says.getString e _) fun _ _ => Says.map (judgeLoop! he hn)

macro_rules
  | `(tactic| judged_leaf) => `(tactic| with_reducible exact AppdxFig.judged (by assumption) (by fine!) (by assumption))

theorem SupplAppdxOf.judged (hL : L.Judges m) {tag titleTag structTag missing wrong : String}
    {structP : Element → Res γ} {dflt : Element → Element → Err} {e : Element}
    (he : Fine True m e e) (hn : e.name = tag)
    (hr : Spec.rules.lookup tag = some
      { kids := [titleTag, "RelatedArticleNum", structTag], must := [[titleTag]] })
    (ht : Spec.rules.lookup titleTag = some Spec.free) (htr : titleTag ≠ "RelatedArticleNum")
    (hts : titleTag ≠ structTag) (hc : Spec.captionTags.contains tag = false)
    (hc' : Spec.captionTags.contains titleTag = false)
    (hb : Spec.blindTags.contains titleTag = false)
    (hm : Spec.missing tag [titleTag] = .missingRequiredTag missing)
    (hd : ∀ e x : Element, e.name = tag → dflt e x = Spec.stranger tag x.name)
    (hs : ∀ x, Child True m x x → x.name = structTag → Says (structP x) (judge x.node)) :
    Says (SupplAppdxOf.parser (L := L) tag titleTag structTag missing wrong structP dflt e)
      (judge e.node) := by
  rw [Says.judge_plain hn hr rfl rfl hc]
  verdicts
  rw [hm]
  unfold SupplAppdxOf.parser SupplAppdxOf.step
  rw [if_pos hn]
  refine Says.after (Says.getString e _) fun _ _ =>
    Says.bind (Says.tagLoop he rfl (fun s => ?_) (fun s => by rfl)
      (fun _ x => congrArg Res.err (hd e x hn)) _) fun s hs =>
    Says.needed (Exact.field (fun s => s.title ≠ none) hs (by simp) ?_) ?_ ?_
  · refine Says.arms_cons (fun x hx hn =>
      Says.map (TextWithWritingMode.judged hL hx.fine hn ht hb hc')) ?_
    refine Says.arms_cons (fun x hx hn => Says.map (by judged_leaf)) ?_
    exact Says.arms_cons (fun x hx hn => Says.map (hs x hx hn)) Says.arms_nil
  · intro s x s' h
    simp only [matchTag_cons, matchTag_nil] at h
    repeat' split at h
    · obtain ⟨_, _, h'⟩ := Res.bind_eq_ok.1 h; cases h'; simp_all
    · obtain ⟨_, _, h'⟩ := Res.bind_eq_ok.1 h; cases h'; simp_all [eq_comm]
    · obtain ⟨_, _, h'⟩ := Res.bind_eq_ok.1 h; cases h'; simp_all [eq_comm]
    · cases h
  · by_field s.title
  · by_field s.title

theorem SupplProvisionAppdxTable.judged (hL : L.Judges m) {e : Element}
    (he : Fine True m e e) (hn : e.name = "SupplProvisionAppdxTable") :
    Says (SupplProvisionAppdxTable.parser (L := L) e) (judge e.node) :=
  SupplAppdxOf.judged hL he hn rfl rfl (by decide) (by decide) rfl rfl rfl rfl
    (fun _ _ _ => rfl) (fun _ _ _ => by judged_leaf)

macro_rules
  | `(tactic| judged_leaf) => `(tactic| with_reducible exact SupplProvisionAppdxTable.judged (by assumption) (by fine!) (by assumption))

theorem SupplProvisionAppdxStyle.judged (hL : L.Judges m) {e : Element}
    (he : Fine True m e e) (hn : e.name = "SupplProvisionAppdxStyle") :
    Says (SupplProvisionAppdxStyle.parser (L := L) e) (judge e.node) :=
  SupplAppdxOf.judged hL he hn rfl rfl (by decide) (by decide) rfl rfl rfl rfl
    (fun e x h => congrArg (Err.unexpectedTag x.name) h) (fun _ _ _ => by judged_leaf)

macro_rules
  | `(tactic| judged_leaf) => `(tactic| with_reducible exact SupplProvisionAppdxStyle.judged (by assumption) (by fine!) (by assumption))

theorem SupplProvisionAppdx.judged (hL : L.Judges m) {e : Element} (he : Fine True m e e)
    (hn : e.name = "SupplProvisionAppdx") : Says (SupplProvisionAppdx.parser (L := L) e) (judge e.node) := by
  rw [Says.judge_plain hn rfl rfl rfl rfl]
  verdicts
  unfold SupplProvisionAppdx.parser SupplProvisionAppdx.step
  rw [if_pos hn]
  exact Says.after (Says.getString e _) fun _ _ => Says.map (judgeLoop! he hn)

macro_rules
  | `(tactic| judged_leaf) => `(tactic| with_reducible exact SupplProvisionAppdx.judged (by assumption) (by fine!) (by assumption))

theorem SupplProvisionType.fromAttr_judged (o : Option String) :
    Says (SupplProvisionType.fromAttr o)
      ((AttrRule.oneOf ["New", "Amend"]).verdict "SupplProvision" "Type" o) := by
  unfold SupplProvisionType.fromAttr
  split
  · exact Says.ok _
  · exact Says.ok _
  · exact Says.ok _
  · next h1 h2 h3 =>
    cases o with
    | none => exact absurd rfl h3
    | some s =>
      refine (Says.err _).congr ?_
      rw [AttrRule.verdict, AttrRule.check]
      have : (["New", "Amend"].contains s) = false := by
        rw [Bool.eq_false_iff]
        intro h
        simp only [List.contains_iff_mem, List.mem_cons, List.not_mem_nil, or_false] at h
        rcases h with rfl | rfl
        · exact h1 rfl
        · exact h2 rfl
      rw [Option.all_some, this]
      rfl

theorem SupplProvision.judged (hL : L.Judges m) {e : Element} (he : Fine True m e e)
    (hn : e.name = "SupplProvision") : Says (SupplProvision.parser (L := L) e) (judge e.node) := by
  rw [Says.judge_plain hn rfl rfl rfl rfl]
  verdicts
  unfold SupplProvision.parser SupplProvision.step
  rw [if_pos hn]
  exact Says.bind (SupplProvisionType.fromAttr_judged _) fun _ _ =>
    Says.bind (Says.optBool hn (by decide)) fun _ _ => Says.map (judgeLoop! he hn)

macro_rules
  | `(tactic| judged_leaf) => `(tactic| with_reducible exact SupplProvision.judged (by assumption) (by fine!) (by assumption))

/-! ## The law -/

theorem LawTitle.judged (hL : L.Judges m) {e : Element} (he : Fine True m e e)
    (hn : e.name = "LawTitle") : Says (LawTitle.parser (L := L) e) (judge e.node) := by
  rw [judge_free hn rfl rfl]
  unfold LawTitle.parser
  rw [if_pos hn]
  exact Says.after (Says.getString e _) fun _ _ => Says.after (Says.getString e _) fun _ _ =>
    Says.after (Says.getString e _) fun _ _ => Says.map (Text.says hL he rfl rfl rfl)

macro_rules
  | `(tactic| judged_leaf) => `(tactic| with_reducible exact LawTitle.judged (by assumption) (by fine!) (by assumption))

theorem Preamble.judged (hL : L.Judges m) {e : Element} (he : Fine True m e e)
    (hn : e.name = "Preamble") : Says (Preamble.parser (L := L) e) (judge e.node) := by
  rw [Says.judge_plain hn rfl rfl rfl rfl]
  verdicts
  unfold Preamble.parser
  rw [if_pos hn]
  exact Says.map (Says.readTagged rfl rfl rfl fun x hx ht =>
    Paragraph.judged hL (he.child hx).fine ht)

macro_rules
  | `(tactic| judged_leaf) => `(tactic| with_reducible exact Preamble.judged (by assumption) (by fine!) (by assumption))

theorem MainProvision.judged (hL : L.Judges m) {e : Element} (he : Fine True m e e)
    (hn : e.name = "MainProvision") : Says (MainProvision.parser (L := L) e) (judge e.node) := by
  rw [Says.judge_plain hn rfl rfl rfl rfl]
  verdicts
  unfold MainProvision.parser
  rw [if_pos hn]
  exact Says.bind (Says.optBool hn (by decide)) fun _ _ => Says.map
    (Says.tagRead he rfl (by unfold MainProvisionContents.arms; jarms) rfl
      (fun _ => Says.unexpected hn (fun _ => rfl) _) fun _ h => h)

macro_rules
  | `(tactic| judged_leaf) => `(tactic| with_reducible exact MainProvision.judged (by assumption) (by fine!) (by assumption))

theorem LawBody.judged (hL : L.Judges m) {e : Element} (he : Fine True m e e)
    (hn : e.name = "LawBody") : Says (LawBody.parser (L := L) e) (judge e.node) := by
  rw [Says.judge_plain hn rfl rfl rfl rfl]
  verdicts
  unfold LawBody.parser LawBody.step
  rw [if_pos hn]
  refine Says.after (Says.getString e _) fun _ _ => Says.bind (judgeLoop! he hn) fun s hs =>
    Says.needed (Exact.field (fun s => s.main_provision ≠ none) hs (by simp) ?_) ?_ ?_
  · intro s x s' h
    field_step h
  · by_field s.main_provision
  · by_field s.main_provision

macro_rules
  | `(tactic| judged_leaf) => `(tactic| with_reducible exact LawBody.judged (by assumption) (by fine!) (by assumption))

theorem LawBody.wrong {e : Element} (hn : e.name ≠ "LawBody") :
    LawBody.parser (L := L) e = .err (.wrongTagName e.name "LawBody") := by
  unfold LawBody.parser
  rw [if_neg hn]
  rfl

theorem Law.numOf_judged (e : Element) :
    Says (Law.numOf e) (AttrRule.numberOrEmpty.verdict "Law" "Num" (e.attributes.get "Num")) := by
  unfold Law.numOf
  rw [AttrRule.verdict]
  cases e.attributes.get "Num" with
  | none => exact Says.panic
  | some s =>
    simp only [Res.unwrap, Res.bind_ok, Option.elim]
    split
    · exact Says.ok _
    · exact Says.map (Says.fromNumStr s)

theorem Law.usizeOf_judged (e : Element) (k : String) :
    Says (Law.usizeOf e k) (AttrRule.countOrEmpty.verdict "Law" k (e.attributes.get k)) := by
  unfold Law.usizeOf
  rw [AttrRule.verdict]
  cases e.attributes.get k with
  | none => exact Says.ok _
  | some s =>
    simp only [Option.elim]
    rw [← Says.parseUsizeStr_isSome]
    split
    · next h => exact (Says.ok _).congr (by simp [h])
    · next h =>
      cases hp : parseUsizeStr s with
      | none => exact (Says.err _).congr (by rw [beq_false_of_ne h]; rfl)
      | some n => exact (Says.ok _).congr (by simp)

theorem LawNum.judge_eq (a : Attrs) (d : List XMLNode) : judge (.element "LawNum" a d) = .fine := by
  rw [show XMLNode.element "LawNum" a d = Element.node ⟨"LawNum", a, d⟩ from rfl,
    judge_free rfl rfl rfl, Says.loop_blind rfl rfl rfl]

theorem Law.kids_judged (hL : L.Judges m) {e : Element} (he : Fine True m e e)
    {f : String → LawBody L → γ} :
    Says ((Law.lawNumOf e).bind fun n => (Law.bodyOf e).bind fun b =>
      (LawBody.parser b).bind fun body => .ok (f n body))
      (Spec.judgeFirst "Law" ["LawNum", "LawBody"] (e.children.map fun x => (x, judge x))) := by
  unfold Law.lawNumOf
  split
  · next n a d rest hc =>
    split
    · next h =>
      subst h
      rw [Res.bind_ok]
      unfold Law.bodyOf
      rw [hc]
      simp only [List.map_cons, Spec.judgeFirst, if_true, LawNum.judge_eq, Verdict.fine_andThen]
      match rest, hc with
      | .element n' a' d' :: rest, hc =>
        simp only [Res.bind_ok]
        have hx : Child True m ⟨n', a', d'⟩ ⟨n', a', d'⟩ :=
          he.child (Exact.mem_elems (by simp [hc, Element.node]))
        by_cases h : n' = "LawBody"
        · refine (Says.map (LawBody.judged hL hx.fine h)).congr ?_
          simp [Spec.judgeFirst, h, Element.node]
        · rw [LawBody.wrong h]
          refine (Says.err _).congr ?_
          rw [List.map_cons, Spec.judgeFirst, if_neg h]
          rfl
      | [], _ => exact Says.err _
      | .text _ :: _, _ => exact Says.err _
      | .comment _ :: _, _ => exact Says.err _
      | .cdata _ :: _, _ => exact Says.err _
      | .processingInstruction _ _ :: _, _ => exact Says.err _
    · next h =>
      rw [hc]
      refine (Says.err _).congr ?_
      rw [List.map_cons, Spec.judgeFirst, if_neg h]
      rfl
  · next h =>
    refine (Says.err _).congr ?_
    match e.children, h with
    | [], _ => rfl
    | .element n a d :: rest, h => exact absurd rfl (h n a d rest)
    | .text _ :: _, _ => rfl
    | .comment _ :: _, _ => rfl
    | .cdata _ :: _, _ => rfl
    | .processingInstruction _ _ :: _, _ => rfl

theorem Law.judge_eq {e : Element} {r : Rule} (hn : e.name = "Law") (hr : Spec.rules.lookup "Law" = some r)
    (hf : r.first = ["LawNum", "LawBody"]) (hs : r.skipped = none) (hk : r.kids = [])
    (hh : r.heads = []) (hm : r.must = []) :
    judge e.node = (r.judgeAttrs "Law" e.attributes).andThen
      (Spec.judgeFirst "Law" ["LawNum", "LawBody"] (e.children.map fun x => (x, judge x))) := by
  have hl := Says.loop_blind (t := "Law") hs hk rfl (e.children.drop 2)
  rw [Says.judge_eq hn hr, Rule.judge, if_neg (by decide)]
  simp only [hf, hh, hm, Rule.judgeRest, if_true, Rule.judgeMust, List.map_nil, Verdict.all_nil,
    Verdict.andThen_fine, List.length_cons, List.length_nil, Nat.zero_add, Nat.reduceAdd,
    ← List.map_drop, List.map_map]
  rw [Says.loop] at hl
  rw [show Rule.judgeNode "Law" r ∘ (fun x => (x, Spec.judge x)) = fun x =>
    Rule.judgeNode "Law" r (x, Spec.judge x) from rfl, hl, Verdict.andThen_fine]

theorem Law.judged (hL : L.Judges m) {e : Element} (he : Fine True m e e)
    (hn : e.name = "Law") : Says (Law.parser (L := L) e) (judge e.node) := by
  rw [Law.judge_eq hn rfl rfl rfl rfl rfl rfl]
  verdicts
  unfold Law.parser
  rw [if_pos hn, hn]
  exact Says.bind (Says.mustOneOf (by decide) (era_rule _)) fun _ _ =>
    Says.bind (Says.mustCount hn _) fun _ _ => Says.bind (Law.numOf_judged e) fun _ _ =>
    Says.bind (Law.usizeOf_judged e _) fun _ _ => Says.bind (Law.usizeOf_judged e _) fun _ _ =>
    Says.bind (Says.mustOneOf (by decide) (lawType_rule _)) fun _ _ =>
    Says.bind (Says.mustOneOf (by decide) (lang_rule _)) fun _ _ => Law.kids_judged hL he

/-! ## Cells, contents and amendments -/

theorem TableColumn.judged (hL : L.Judges m) {e : Element} (he : Fine True m e e)
    (hn : e.name = "TableColumn") : Says (TableColumn.parser (L := L) e) (judge e.node) := by
  rw [Says.judge_plain hn rfl rfl rfl rfl]
  verdicts
  unfold TableColumn.parser
  rw [if_pos hn]
  exact Says.after (Says.getString e _) fun _ _ => Says.after (Says.getString e _) fun _ _ =>
    Says.map (Says.tagMixed he rfl (by unfold TableColumnContents.arms; jarms) rfl
      fun _ => Says.unexpected hn (fun _ => rfl) _)

macro_rules
  | `(tactic| judged_leaf) => `(tactic| with_reducible exact TableColumn.judged (by assumption) (by fine!) (by assumption))

theorem Contents.judged (hL : L.Judges m) {e : Element} (he : Fine True (m + 1) e e)
    (hs : ∀ n, Spec.stranger e.name n = .unexpectedTag n e.name) :
    Says (Contents.parser (L := L) e)
      (Says.loop { kids := Spec.contentsTags } e.name e.children) := by
  unfold Contents.parser
  exact Says.map (Says.tagMixed he rfl (by unfold ContentsElement.arms; jarms) rfl
    fun _ => Says.unexpected rfl hs _)

theorem AmendProvision.sentenceOf_judged (hL : L.Judges m) {e : Element} (he : Fine True m e e)
    (hn : e.name = "AmendProvisionSentence") :
    Says (AmendProvision.sentenceOf (L := L) e) (judge e.node) := by
  rw [Says.judge_first hn rfl rfl rfl rfl rfl, Says.loop_blind rfl rfl rfl]
  verdicts
  unfold AmendProvision.sentenceOf
  split
  · next n a d rest hc =>
    have hx : Child True m ⟨n, a, d⟩ ⟨n, a, d⟩ :=
      he.child (Exact.mem_elems (by simp [hc, Element.node]))
    rw [hc]
    by_cases h : n = "Sentence"
    · rw [Says.first_cons h]
      exact Sentence.judged hL hx.fine h
    · rw [Says.first_wrong h, Sentence.wrong h]
      exact Says.err _
  · next h =>
    rw [Says.first_none h]
    exact Says.err _

theorem newProvision_judged (hL : L.Judges m) {e outer : Element} (he : Fine True m e e)
    (hn : e.name = "NewProvision") (ho : outer.name = "AmendProvision") :
    Says (readAll (matchTag (NewProvision.arms (L := L)) (unexpected outer)) e.children)
      (judge e.node) := by
  rw [Says.judge_plain hn rfl rfl rfl rfl]
  verdicts
  exact Says.tagRead he rfl (by unfold NewProvision.arms; jarms) rfl
    (fun x => congrArg (fun t => Res.err (Err.unexpectedTag x.name t)) ho) fun _ h => h

macro_rules
  | `(tactic| judged_leaf) => `(tactic| with_reducible exact AmendProvision.sentenceOf_judged (by assumption) (by fine!) (by assumption))
macro_rules
  | `(tactic| judged_leaf) => `(tactic| with_reducible exact newProvision_judged (by assumption) (by fine!) (by assumption) (by assumption))

theorem AmendProvision.judged (hL : L.Judges m) {e : Element} (he : Fine True m e e)
    (hn : e.name = "AmendProvision") : Says (AmendProvision.parser (L := L) e) (judge e.node) := by
  rw [Says.judge_plain hn rfl rfl rfl rfl]
  verdicts
  unfold AmendProvision.parser AmendProvision.step
  rw [if_pos hn]
  exact Says.map (judgeLoop! he hn)

macro_rules
  | `(tactic| judged_leaf) => `(tactic| with_reducible exact AmendProvision.judged (by assumption) (by fine!) (by assumption))

/-! ## Levels -/

theorem Lvl.Judges.zero : Lvl.zero.Judges 0 where
  text h := by omega
  contents e h := by
    have : heightList e.children + 1 ≤ 0 := h.height
    omega
  item e h := absurd h.height (by omega)
  column e h := absurd h.height (by omega)
  amend e h := absurd h.height (by omega)

theorem Lvl.Judges.succ {L : Lvl} (hL : L.Judges m) : L.succ.Judges (m + 1) where
  text _ _ := ⟨_, rfl⟩
  contents _ h hs := Contents.judged hL h hs
  item _ h hn := Item.judged hL h.pred hn
  column _ h hn := TableColumn.judged hL h.pred hn
  amend _ h hn := AmendProvision.judged hL h.pred hn

theorem lvl_judges : ∀ n, (lvl n).Judges n
  | 0 => .zero
  | n + 1 => (lvl_judges n).succ

end JLaw
