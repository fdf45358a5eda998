import Verif.Reading.AcceptText
import Verif.Reading.Verdict

/-! # What reading leads to: text, sentences and remarks -/

namespace JLaw

open Spec (Rule AttrRule Verdict judge)

variable {L : Lvl} {m : Nat} {α β : Type}

/-! ## Inline pieces -/

theorem Ruby.judged (hL : L.Judges m) {e : Element} (he : Fine True m e e) (hn : e.name = "Ruby") :
    Says (Ruby.parser (L := L) e) (judge e.node) := by
  rw [Says.judge_plain hn rfl rfl rfl rfl, Says.loop_blind rfl rfl rfl]
  verdicts
  unfold Ruby.parser
  rw [if_pos hn]
  have hm : 0 < m := by have : heightList e.children + 1 ≤ m := he.height; omega
  refine Says.after ?_ fun _ _ => Says.map (hL.text hm _)
  refine (Says.foldRes (A := fun _ => .fine) (fun s x _ => ?_) _).congr
    (Verdict.all_fine (by simp))
  cases x with
  | element n a c =>
    unfold Ruby.step
    simp only
    split <;> exact .ok _
  | _ => exact .ok _

theorem Sup.judged {e : Element} (hn : e.name = "Sup") : Says (Sup.parser e) (judge e.node) := by
  rw [Says.judge_plain hn rfl rfl rfl rfl, Says.loop_blind rfl rfl rfl]
  unfold Sup.parser
  rw [if_pos hn]
  exact Says.ok _

theorem Sub.judged {e : Element} (hn : e.name = "Sub") : Says (Sub.parser e) (judge e.node) := by
  rw [Says.judge_plain hn rfl rfl rfl rfl, Says.loop_blind rfl rfl rfl]
  unfold Sub.parser
  rw [if_pos hn]
  exact Says.ok _

macro_rules
  | `(tactic| judged_leaf) => `(tactic| with_reducible exact Ruby.judged (by assumption) (by fine!) (by assumption))
macro_rules
  | `(tactic| judged_leaf) => `(tactic| with_reducible exact Sup.judged (by assumption))
macro_rules
  | `(tactic| judged_leaf) => `(tactic| with_reducible exact Sub.judged (by assumption))

/-! ## Raw contents -/

theorem contents_judged (hL : L.Judges m) {e : Element} (he : Fine True m e e) {t : String}
    (hn : e.name = t) (hr : Spec.rules.lookup t = some { kids := Spec.contentsTags })
    (hc : Spec.captionTags.contains t = false) (hs : ∀ n, Spec.stranger t n = .unexpectedTag n t) :
    Says (L.contentsParser e) (judge e.node) := by
  rw [Says.judge_plain hn hr rfl rfl hc]
  verdicts
  subst hn
  exact hL.contents e he hs

theorem QuoteStruct.judged (hL : L.Judges m) {e : Element} (he : Fine True m e e)
    (hn : e.name = "QuoteStruct") : Says (QuoteStruct.parser (L := L) e) (judge e.node) :=
  Says.map (contents_judged hL he hn rfl rfl fun _ => rfl)

theorem Style.judged (hL : L.Judges m) {e : Element} (he : Fine True m e e)
    (hn : e.name = "Style") : Says (Style.parser (L := L) e) (judge e.node) :=
  Says.map (contents_judged hL he hn rfl rfl fun _ => rfl)

theorem Note.judged (hL : L.Judges m) {e : Element} (he : Fine True m e e)
    (hn : e.name = "Note") : Says (Note.parser (L := L) e) (judge e.node) :=
  Says.map (contents_judged hL he hn rfl rfl fun _ => rfl)

theorem Format.judged (hL : L.Judges m) {e : Element} (he : Fine True m e e)
    (hn : e.name = "Format") : Says (Format.parser (L := L) e) (judge e.node) :=
  Says.map (contents_judged hL he hn rfl rfl fun _ => rfl)

theorem ArithFormula.judged (hL : L.Judges m) {e : Element} (he : Fine True m e e)
    (hn : e.name = "ArithFormula") : Says (ArithFormula.parser (L := L) e) (judge e.node) := by
  rw [Says.judge_plain hn rfl rfl rfl rfl]
  verdicts
  refine Says.bind (Says.count hn (by decide)) fun _ _ => Says.map ?_
  have h := hL.contents e he (by rw [hn]; exact fun _ => rfl)
  rw [hn] at h
  exact h

macro_rules
  | `(tactic| judged_leaf) => `(tactic| with_reducible exact QuoteStruct.judged (by assumption) (by fine!) (by assumption))
macro_rules
  | `(tactic| judged_leaf) => `(tactic| with_reducible exact Style.judged (by assumption) (by fine!) (by assumption))
macro_rules
  | `(tactic| judged_leaf) => `(tactic| with_reducible exact Note.judged (by assumption) (by fine!) (by assumption))
macro_rules
  | `(tactic| judged_leaf) => `(tactic| with_reducible exact Format.judged (by assumption) (by fine!) (by assumption))
macro_rules
  | `(tactic| judged_leaf) => `(tactic| with_reducible exact ArithFormula.judged (by assumption) (by fine!) (by assumption))

/-! ## Lines and text -/

/-- A value that has to be one of those given. -/
theorem Says.mustOneOf {e : Element} {t k : String} {values : List String} {o : Option α}
    (hk : k ≠ "Type")
    (h : o ≠ none ↔ (AttrRule.mustOneOf values).Holds (e.attributes.get k)) :
    Says (Res.ofOption (.attributeParseError t k) o)
      ((AttrRule.mustOneOf values).verdict t k (e.attributes.get k)) := by
  refine (Says.ofOption _ _).congr ?_
  rw [AttrRule.verdict, Says.blamed_eq hk]
  congr 1
  rw [Bool.eq_iff_iff, Option.isSome_iff_ne_none, h]
  cases e.attributes.get k <;> simp [AttrRule.Holds, AttrRule.check]

theorem Line.judged (hL : L.Judges m) {e : Element} (he : Fine True m e e) (hn : e.name = "Line") :
    Says (Line.parser (L := L) e) (judge e.node) := by
  rw [Says.judge_plain hn rfl rfl rfl rfl]
  verdicts
  unfold Line.parser LineContents.elem
  rw [if_pos hn]
  exact Says.bind (Says.mustOneOf (by decide) (lineStyle_iff _)) fun _ _ =>
    Says.map (Says.tagMixed he rfl (by jarms) rfl fun _ => Says.unexpected hn (fun _ => rfl) _)

macro_rules
  | `(tactic| judged_leaf) => `(tactic| with_reducible exact Line.judged (by assumption) (by fine!) (by assumption))

theorem Says.pushOk {f : α → β} {r : Res α} {v : Verdict} (h : Says r v) :
    Says (JLaw.pushOk f r) v.tolerated := Says.map (Says.skipErr h)

theorem Text.says (hL : L.Judges m) {e : Element} (he : Fine True m e e) {t : String} {r : Rule}
    (hs : r.skipped = none) (hk : r.kids = []) (hb : Spec.blindTags.contains t = false) :
    Says (Text.fromChildren (L := L) e.children) (Says.loop r t e.children) := by
  refine Says.map (Says.collectRes fun x hx => ?_)
  cases x with
  | element n a c =>
    have hc : Child True m ⟨n, a, c⟩ ⟨n, a, c⟩ := he.child (Exact.mem_elems hx)
    unfold TextElement.ofNode
    simp only [matchTag_cons, matchTag_nil]
    have hv : ∀ v : Verdict, r.judgeNode t (.element n a c, v) =
        if n = "Line" then v.tolerated else .fine := fun v => by
      simp only [Rule.judgeNode, hs, hk, hb]
      simp
    rw [hv]
    split
    · next h =>
      rw [if_neg (by rw [h]; decide)]
      exact Says.pushOk ((Ruby.judged hL hc.fine h).congr (w := .fine) (by
        rw [Says.judge_plain h rfl rfl rfl rfl, Says.loop_blind rfl rfl rfl]; rfl))
    · split
      · next h =>
        exact Says.pushOk (Line.judged hL hc.fine h)
      · split
        · next h =>
          exact Says.pushOk ((Sup.judged h).congr (w := .fine) (by
            rw [Says.judge_plain h rfl rfl rfl rfl, Says.loop_blind rfl rfl rfl]; rfl))
        · split
          · next h =>
            exact Says.pushOk ((Sub.judged h).congr (w := .fine) (by
              rw [Says.judge_plain h rfl rfl rfl rfl, Says.loop_blind rfl rfl rfl]; rfl))
          · exact Says.ok _
  | _ => exact Says.ok _

/-- The verdict on an element that holds text. -/
theorem judge_free {e : Element} {t : String} (hn : e.name = t)
    (hr : Spec.rules.lookup t = some Spec.free) (hc : Spec.captionTags.contains t = false) :
    judge e.node = Says.loop Spec.free t e.children := by
  rw [Says.judge_plain hn hr rfl rfl hc]
  simp only [Spec.free]
  verdicts

theorem Text.says_free (hL : L.Judges m) {e : Element} (he : Fine True m e e) {t : String}
    (hn : e.name = t) (hr : Spec.rules.lookup t = some Spec.free)
    (hb : Spec.blindTags.contains t = false) (hc : Spec.captionTags.contains t = false) :
    Says (Text.fromChildren (L := L) e.children) (judge e.node) := by
  rw [judge_free hn hr hc]
  exact Text.says hL he rfl rfl hb

theorem Text.ofElement_judged (hL : L.Judges m) {e : Element} (he : Fine True m e e) {t : String}
    (hn : e.name = t) (hr : Spec.rules.lookup t = some Spec.free)
    (hb : Spec.blindTags.contains t = false) (hc : Spec.captionTags.contains t = false) :
    Says (Text.ofElement (L := L) e) (judge e.node) :=
  Text.says_free hL he hn hr hb hc

theorem TextWithWritingMode.judged (hL : L.Judges m) {e : Element} (he : Fine True m e e)
    {t : String} (hn : e.name = t) (hr : Spec.rules.lookup t = some Spec.free)
    (hb : Spec.blindTags.contains t = false) (hc : Spec.captionTags.contains t = false) :
    Says (TextWithWritingMode.parser (L := L) e) (judge e.node) :=
  Says.map (Text.says_free hL he hn hr hb hc)

macro_rules
  | `(tactic| judged_leaf) =>
    `(tactic| with_reducible exact Text.ofElement_judged (by assumption) (by fine!) (by assumption) (by with_unfolding_all rfl) (by with_unfolding_all rfl) (by with_unfolding_all rfl))
macro_rules
  | `(tactic| judged_leaf) =>
    `(tactic| with_reducible exact TextWithWritingMode.judged (by assumption) (by fine!) (by assumption) (by with_unfolding_all rfl) (by with_unfolding_all rfl) (by with_unfolding_all rfl))

theorem Caption.judged (hL : L.Judges m) {e : Element} (he : Fine True m e e) {t : String}
    (hn : e.name = t) (hr : Spec.rules.lookup t = some Spec.captionRule)
    (hb : Spec.blindTags.contains t = false) (hc : Spec.captionTags.contains t = true) :
    Says (Caption.parser (L := L) e) (judge e.node) := by
  rw [Says.judge_eq hn hr, Rule.judge, if_pos hc]
  refine (Says.bind (Text.says hL he (r := Spec.captionRule) rfl rfl hb) fun _ _ =>
    Says.map (Says.optBool hn (by decide))).congr ?_
  simp only [Rule.judgeRest, Rule.judgeAttrs, Spec.captionRule, List.length_nil, List.drop_zero,
    if_true, List.map_map, List.map_cons, List.map_nil, Verdict.all_cons, Verdict.all_nil,
    Verdict.andThen_fine]
  rfl

macro_rules
  | `(tactic| judged_leaf) =>
    `(tactic| with_reducible exact Caption.judged (by assumption) (by fine!) (by assumption) (by with_unfolding_all rfl) (by with_unfolding_all rfl) (by with_unfolding_all rfl))

/-! ## Sentences -/

theorem Says.optOneOf {e : Element} {t k : String} {values : List String} {p : String → Option α}
    (hn : e.name = t) (hk : k ≠ "Type") (h : ∀ s, p s ≠ none ↔ s ∈ values) :
    Says (getAttributeOptWithParse p e k)
      ((AttrRule.oneOf values).verdict t k (e.attributes.get k)) := by
  refine (Says.getOptWithParse (ok := fun s => values.contains s) fun s => ?_).congr ?_
  · rw [Bool.eq_iff_iff, Option.isSome_iff_ne_none, h, List.contains_iff_mem]
  · rw [AttrRule.verdict, Says.blamed_eq hk, hn, AttrRule.check]

theorem Sentence.judged (hL : L.Judges m) {e : Element} (he : Fine True m e e)
    (hn : e.name = "Sentence") : Says (Sentence.parser (L := L) e) (judge e.node) := by
  rw [Says.judge_plain hn rfl rfl rfl rfl]
  verdicts
  unfold Sentence.parser SentenceElement.elem
  rw [if_pos hn]
  exact Says.bind (Says.count hn (by decide)) fun _ _ =>
    Says.bind (Says.optOneOf hn (by decide) SentenceFunction.ofStr_iff) fun _ _ =>
    Says.bind (Says.optOneOf hn (by decide) SentenceIndent.ofStr_iff) fun _ _ =>
    Says.map (Says.tagMixed he rfl (by jarms) rfl fun _ => Says.unexpected hn (fun _ => rfl) _)

macro_rules
  | `(tactic| judged_leaf) => `(tactic| with_reducible exact Sentence.judged (by assumption) (by fine!) (by assumption))

theorem Sentence.wrong {e : Element} (hn : e.name ≠ "Sentence") :
    Sentence.parser (L := L) e = .err (.wrongTagName e.name "Sentence") := by
  unfold Sentence.parser
  rw [if_neg hn]
  rfl

theorem sentences_judged (hL : L.Judges m) {e : Element} (he : Fine True m e e) {t : String}
    {r : Rule} (hs : r.skipped = some []) (hk : r.kids = ["Sentence"])
    (ht : ∀ n, Spec.stranger t n = .wrongTagName n "Sentence") :
    Says (readAll (Sentence.parser (L := L)) e.children) (Says.loop r t e.children) := by
  rw [Says.loop_strict hs, hk]
  refine Says.readAll fun x hx => ?_
  by_cases hn : x.name = "Sentence"
  · rw [if_pos (by simp [hn])]
    exact Sentence.judged hL (he.child hx).fine hn
  · rw [if_neg (by simp [hn]), ht, Sentence.wrong hn]
    rfl

theorem Column.judged (hL : L.Judges m) {e : Element} (he : Fine True m e e)
    (hn : e.name = "Column") : Says (Column.parser (L := L) e) (judge e.node) := by
  rw [Says.judge_plain hn rfl rfl rfl rfl]
  verdicts
  unfold Column.parser
  rw [if_pos hn]
  exact Says.bind (Says.count hn (by decide)) fun _ _ =>
    Says.bind (Says.getBool hn (by decide)) fun _ _ =>
    Says.map (sentences_judged hL he rfl rfl fun _ => rfl)

macro_rules
  | `(tactic| judged_leaf) => `(tactic| with_reducible exact Column.judged (by assumption) (by fine!) (by assumption))

theorem Fig.judged {e : Element} (hn : e.name = "Fig") : Says (Fig.parser e) (judge e.node) := by
  rw [Says.judge_plain hn rfl rfl rfl rfl, Says.loop_blind rfl rfl rfl]
  verdicts
  exact Says.map (Says.ofOption _ _)

macro_rules
  | `(tactic| judged_leaf) => `(tactic| with_reducible exact Fig.judged (by assumption))

/-! ## Remarks -/

theorem RemarksLabel.judged (hL : L.Judges m) {e : Element} (he : Fine True m e e)
    (hn : e.name = "RemarksLabel") : Says (RemarksLabel.parser (L := L) e) (judge e.node) := by
  rw [Says.judge_plain hn rfl rfl rfl rfl]
  verdicts
  unfold RemarksLabel.parser
  rw [if_pos hn]
  exact Says.bind (Says.getBool hn (by decide)) fun _ _ => Says.map (Text.says hL he rfl rfl rfl)

macro_rules
  | `(tactic| judged_leaf) => `(tactic| with_reducible exact RemarksLabel.judged (by assumption) (by fine!) (by assumption))
macro_rules
  | `(tactic| judged_leaf) => `(tactic| with_reducible exact Lvl.Judges.item (by assumption) _ (by assumption) (by assumption))
macro_rules
  | `(tactic| judged_leaf) => `(tactic| with_reducible exact Lvl.Judges.column (by assumption) _ (by assumption) (by assumption))
macro_rules
  | `(tactic| judged_leaf) => `(tactic| with_reducible exact Lvl.Judges.amend (by assumption) _ (by assumption) (by assumption))

/-- Closes the two last conditions of `Says.needed` for a field. -/
macro "by_field " f:term:max : tactic => `(tactic|
  (generalize $f = o
   cases o with
   | none => first | exact fun h => absurd rfl h | exact fun _ => rfl
   | some v => first | exact fun _ => ⟨_, rfl⟩ | exact fun h => absurd (by simp) h))

theorem Remarks.judged (hL : L.Judges m) {e : Element} (he : Fine True m e e)
    (hn : e.name = "Remarks") : Says (Remarks.parser (L := L) e) (judge e.node) := by
  rw [Says.judge_plain hn rfl rfl rfl rfl]
  verdicts
  unfold Remarks.parser Remarks.step
  rw [if_pos hn]
  refine Says.bind (judgeLoop! he hn) fun s hs =>
    Says.needed (Exact.field (fun s => s.label ≠ none) hs (by simp) ?_) ?_ ?_
  · intro s x s' h
    field_step h
  · by_field s.label
  · by_field s.label

macro_rules
  | `(tactic| judged_leaf) => `(tactic| with_reducible exact Remarks.judged (by assumption) (by fine!) (by assumption))

end JLaw
