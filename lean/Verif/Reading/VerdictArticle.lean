import Verif.Reading.AcceptArticle
import Verif.Reading.VerdictStruct

/-! # What reading leads to: paragraphs, articles and the hierarchy above them -/

namespace JLaw

open Spec (Rule AttrRule Verdict judge)

variable {L : Lvl} {m : Nat} {γ : Type}

/-! ## Classes and paragraphs -/

theorem Class.judged (hL : L.Judges m) {e : Element} (he : Fine True m e e)
    (hn : e.name = "Class") : Says (Class.parser (L := L) e) (judge e.node) := by
  rw [Says.judge_plain hn rfl rfl rfl rfl]
  verdicts
  unfold Class.parser Class.step
  rw [if_pos hn]
  refine Says.bind (Says.getAttribute hn _) fun _ _ => Says.bind (judgeLoop! he hn) fun s hs =>
    Says.needed (Exact.field (fun s => s.class_sentence ≠ none) hs (by simp) ?_) ?_ ?_
  · intro s x s' h
    field_step h
  · by_field s.class_sentence
  · by_field s.class_sentence

macro_rules
  | `(tactic| judged_leaf) => `(tactic| with_reducible exact Class.judged (by assumption) (by fine!) (by assumption))

theorem paragraphSentence_judged (hL : L.Judges m) {e : Element} (he : Fine True m e e)
    (hn : e.name = "ParagraphSentence") :
    Says (readAll (Sentence.parser (L := L)) e.children) (judge e.node) := by
  rw [Says.judge_plain hn rfl rfl rfl rfl]
  verdicts
  exact sentences_judged hL he rfl rfl fun _ => rfl

macro_rules
  | `(tactic| judged_leaf) =>
    `(tactic| with_reducible exact paragraphSentence_judged (by assumption) (by fine!) (by assumption))

theorem Paragraph.judged (hL : L.Judges m) {e : Element} (he : Fine True m e e)
    (hn : e.name = "Paragraph") : Says (Paragraph.parser (L := L) e) (judge e.node) := by
  rw [Says.judge_plain hn rfl rfl rfl rfl]
  verdicts
  unfold Paragraph.parser Paragraph.step
  rw [if_pos hn]
  exact Says.bind (Says.paragraphNum hn rfl) fun _ _ =>
    Says.bind (Says.getBool hn (by decide)) fun _ _ =>
    Says.bind (Says.getBool hn (by decide)) fun _ _ =>
    Says.bind (Says.getBool hn (by decide)) fun _ _ => Says.map (judgeLoop! he hn)

macro_rules
  | `(tactic| judged_leaf) => `(tactic| with_reducible exact Paragraph.judged (by assumption) (by fine!) (by assumption))

/-! ## Articles -/

/-- The rule for articles. -/
def articleRule : Rule where
  attrs := [("Num", .mustNumber), ("Delete", .bool), ("Hide", .bool)]
  heads := ["ArticleCaption", "ArticleTitle"]
  kids := ["Paragraph", "SupplNote"]
  must := [["Paragraph", "SupplNote"]]

theorem articleRule_must {c : List XMLNode}
    (h : articleRule.judgeHeads "Article" (c.map fun x => (x, judge x)) = .fine) :
    ∃ x ∈ elems c, x.name ∈ ["Paragraph", "SupplNote"] := by
  induction c with
  | nil => cases h
  | cons x c ih =>
    cases x with
    | element n a d =>
      rw [List.map_cons, Rule.judgeHeads] at h
      split at h
      · have hv : articleRule.judgeHeads "Article" (c.map fun x => (x, judge x)) = .fine := by
          cases hj : judge (.element n a d) with
          | fine => rw [hj] at h; exact h
          | _ => rw [hj] at h; cases h
        obtain ⟨x, hx, hx'⟩ := ih hv
        exact ⟨x, by simp [elems] at hx ⊢; tauto, hx'⟩
      · refine ⟨⟨n, a, d⟩, by simp [elems], ?_⟩
        by_contra hk
        have hk' : articleRule.kids.contains n = false := by
          rw [Bool.eq_false_iff]
          intro h
          exact hk (List.contains_iff_mem.1 h)
        rw [List.map_cons, Verdict.all_cons, Rule.judgeNode, hk'] at h
        cases h
    | _ =>
      obtain ⟨x, hx, hx'⟩ := ih h
      exact ⟨x, hx, hx'⟩

theorem articleRule_judge {e : Element} (hn : e.name = "Article") :
    judge e.node = (articleRule.judgeAttrs "Article" e.attributes).andThen
      (articleRule.judgeHeads "Article" (e.children.map fun x => (x, judge x))) := by
  rw [Says.judge_eq (r := articleRule) hn rfl, Rule.judge, if_neg (by decide)]
  congr 1
  simp only [articleRule, Spec.judgeFirst, Verdict.fine_andThen, List.length_nil, List.drop_zero,
    Rule.judgeRest, List.cons_ne_nil, if_false]
  cases h : articleRule.judgeHeads "Article" (e.children.map fun x => (x, judge x)) with
  | fine =>
    have hm := articleRule_must h
    simp only [articleRule] at h
    rw [h, Verdict.fine_andThen]
    have : ((elems e.children).any fun x => ["Paragraph", "SupplNote"].contains x.name) = true := by
      simpa using hm
    simp only [Rule.judgeMust, List.map_cons, List.map_nil, List.map_map, Function.comp_def,
      List.map_id', this]
    rfl
  | _ =>
    simp only [articleRule] at h
    rw [h]
    rfl

theorem Article.step_judged (hL : L.Judges m) {e : Element} (hn : e.name = "Article")
    (s : Article.St L) {x : Element} (hx : Child True m x x) : Says (Article.step e s x)
      (articleRule.judgeNode "Article" (x.node, judge x.node)) := by
  refine (Says.matchTag (m := m) (by jarms) hx
    (Says.unexpected hn (fun _ => rfl) _)).congr ?_
  simp [Rule.judgeNode, Element.node, articleRule]

theorem Article.loop_judged (hL : L.Judges m) {e : Element} (he : Fine True m e e)
    (hn : e.name = "Article")
    {f : Option (Caption L) × Text L × List XMLNode → Article.St L → γ} :
    ∀ (c : List XMLNode), (∀ x ∈ elems c, x ∈ elems e.children) → ∀ (cap : Option (Caption L))
      (t : Text L),
    Says ((Article.head cap t c).bind fun h =>
      (forElems (Article.step e) {} h.2.2).bind fun s => .ok (f h s))
      (articleRule.judgeHeads "Article" (c.map fun x => (x, judge x))) := by
  intro c
  induction c with
  | nil => exact fun _ _ _ => Says.panic
  | cons x c ih =>
    intro hc cap t
    cases x with
    | element n a d =>
      have hx : Child True m ⟨n, a, d⟩ ⟨n, a, d⟩ := he.child (hc _ (by simp [elems]))
      have ih := ih fun y hy => hc y (by
        rw [elems, List.filterMap_cons]
        exact List.mem_cons_of_mem _ hy)
      unfold Article.head
      rw [List.map_cons, Rule.judgeHeads]
      have hh : articleRule.heads.contains n = true ↔ ¬ (n ≠ "ArticleCaption" ∧ n ≠ "ArticleTitle") := by
        simp only [articleRule, List.contains_iff_mem, List.mem_cons, List.not_mem_nil, or_false]
        tauto
      split
      · next h =>
        rw [if_neg (fun h' => hh.1 h' h), Res.bind_ok]
        refine Says.map ((Says.forElems (A := fun x =>
          articleRule.judgeNode "Article" (x.node, judge x.node))
          (fun s x hx => Article.step_judged hL hn s (he.child (hc x hx))) _).congr ?_)
        rw [show ((XMLNode.element n a d, judge (.element n a d)) :: c.map fun x => (x, judge x)) =
          (XMLNode.element n a d :: c).map fun x => (x, judge x) from rfl, List.map_map]
        congr 2
        funext x
        cases x <;> rfl
      · next h =>
        rw [if_pos (hh.2 h)]
        split
        · next h1 =>
          rw [Res.bind_assoc]
          exact Says.bind (Caption.judged hL hx.fine h1 rfl rfl rfl) fun v _ => ih _ _
        · next h1 =>
          have h2 : n = "ArticleTitle" := Decidable.byContradiction fun h2 => h ⟨h1, h2⟩
          rw [Res.bind_assoc]
          exact Says.bind (Text.says_free hL hx.fine h2 rfl rfl rfl) fun v _ => ih _ _
    | _ => exact ih (fun y hy => hc y hy) cap t

theorem Article.judged (hL : L.Judges m) {e : Element} (he : Fine True m e e)
    (hn : e.name = "Article") : Says (Article.parser (L := L) e) (judge e.node) := by
  rw [articleRule_judge hn]
  rw [show articleRule.judgeAttrs "Article" e.attributes = Verdict.all _ from rfl]
  simp only [articleRule, List.map_cons, List.map_nil, Verdict.all_cons, Verdict.all_nil,
    Verdict.andThen_fine, Verdict.andThen_assoc]
  unfold Article.parser
  rw [if_pos hn]
  exact Says.bind (Says.numAttr hn rfl) fun _ _ => Says.bind (Says.getBool hn (by decide)) fun _ _ =>
    Says.bind (Says.getBool hn (by decide)) fun _ _ =>
    Article.loop_judged hL he hn e.children (fun _ h => h) none Text.new

macro_rules
  | `(tactic| judged_leaf) => `(tactic| with_reducible exact Article.judged (by assumption) (by fine!) (by assumption))

/-! ## The hierarchy above articles -/

theorem HierOf.titleOf_judged (hL : L.Judges m) {e : Element} (he : Fine True m e e)
    {tag t : String} (hr : Spec.rules.lookup t = some Spec.free)
    (hb : Spec.blindTags.contains t = false) (hc : Spec.captionTags.contains t = false)
    (hw : ∀ n, Spec.wrongFirst tag t n = .unexpectedTag n t)
    (hf : Spec.noFirst tag t = .missingRequiredTag t) :
    Says (HierOf.titleOf (L := L) t e)
      (Spec.judgeFirst tag [t] (e.children.map fun x => (x, judge x))) := by
  unfold HierOf.titleOf
  split
  · next n a d rest hch =>
    rw [hch]
    have hx : Child True m ⟨n, a, d⟩ ⟨n, a, d⟩ :=
      he.child (Exact.mem_elems (by simp [hch, Element.node]))
    split
    · next h =>
      rw [Says.first_cons h]
      exact Text.says_free hL hx.fine h hr hb hc
    · next h =>
      rw [Says.first_wrong h, hw]
      exact Says.err _
  · next h =>
    rw [Says.first_none h, hf]
    exact Says.err _

/-- What the tables say about a unit and its title. -/
structure UnitTags (tag titleTag : String) (kids : List String) : Prop where
  rule : Spec.rules.lookup tag = some (Spec.unitRule titleTag kids)
  title : Spec.rules.lookup titleTag = some Spec.free
  caption : Spec.captionTags.contains tag = false
  caption1 : Spec.captionTags.contains titleTag = false
  blind : Spec.blindTags.contains titleTag = false
  toc : Spec.tocEntryTags.contains tag = false
  stranger : ∀ n, Spec.stranger tag n = .unexpectedTag n tag
  wrongFirst : ∀ n, Spec.wrongFirst tag titleTag n = .unexpectedTag n titleTag
  noFirst : Spec.noFirst tag titleTag = .missingRequiredTag titleTag

theorem HierOf.judged (hL : L.Judges m) {tag titleTag : String}
    {as : List (String × (Element → Res γ))} {e : Element} (he : Fine True m e e)
    (hn : e.name = tag) (ht : UnitTags tag titleTag (as.map Prod.fst)) (ha : Says.Arms m as) :
    Says (HierOf.parser (L := L) tag titleTag as e) (judge e.node) := by
  rw [Says.judge_first hn ht.rule rfl rfl rfl ht.caption]
  simp only [Spec.unitRule]
  verdicts
  unfold HierOf.parser
  rw [if_pos hn]
  have htail : ∀ x ∈ elems e.children.tail, x ∈ elems e.children := fun x hx =>
    Exact.mem_elems (List.mem_of_mem_tail (Exact.node_mem hx))
  exact Says.bind (Says.numAttr hn ht.toc) fun _ _ =>
    Says.bind (Says.getBool hn (by decide)) fun _ _ =>
    Says.bind (Says.getBool hn (by decide)) fun _ _ =>
    Says.bind (HierOf.titleOf_judged hL he ht.title ht.blind ht.caption1 ht.wrongFirst ht.noFirst)
      fun _ _ => Says.map (Says.tagRead he rfl ha rfl
        (fun _ => Says.unexpected hn ht.stranger _) htail)

/-- Looks the tags up in the tables. -/
macro "unit_tags" : term =>
  `(⟨rfl, rfl, rfl, rfl, rfl, rfl, fun _ => rfl, fun _ => rfl, rfl⟩)

theorem Division.judged (hL : L.Judges m) {e : Element} (he : Fine True m e e)
    (hn : e.name = "Division") : Says (Division.parser (L := L) e) (judge e.node) :=
  HierOf.judged hL he hn unit_tags (by jarms)

macro_rules
  | `(tactic| judged_leaf) => `(tactic| with_reducible exact Division.judged (by assumption) (by fine!) (by assumption))

theorem Subsection.judged (hL : L.Judges m) {e : Element} (he : Fine True m e e)
    (hn : e.name = "Subsection") : Says (Subsection.parser (L := L) e) (judge e.node) :=
  HierOf.judged hL he hn unit_tags (by unfold SubsectionContents.arms; jarms)

macro_rules
  | `(tactic| judged_leaf) => `(tactic| with_reducible exact Subsection.judged (by assumption) (by fine!) (by assumption))

theorem Section.judged (hL : L.Judges m) {e : Element} (he : Fine True m e e)
    (hn : e.name = "Section") : Says (Section.parser (L := L) e) (judge e.node) :=
  HierOf.judged hL he hn unit_tags (by unfold SectionContents.arms; jarms)

macro_rules
  | `(tactic| judged_leaf) => `(tactic| with_reducible exact Section.judged (by assumption) (by fine!) (by assumption))

theorem Chapter.judged (hL : L.Judges m) {e : Element} (he : Fine True m e e)
    (hn : e.name = "Chapter") : Says (Chapter.parser (L := L) e) (judge e.node) :=
  HierOf.judged hL he hn unit_tags (by unfold ChapterContents.arms; jarms)

macro_rules
  | `(tactic| judged_leaf) => `(tactic| with_reducible exact Chapter.judged (by assumption) (by fine!) (by assumption))

theorem Part.judged (hL : L.Judges m) {e : Element} (he : Fine True m e e)
    (hn : e.name = "Part") : Says (Part.parser (L := L) e) (judge e.node) :=
  HierOf.judged hL he hn unit_tags (by unfold PartContents.arms; jarms)

macro_rules
  | `(tactic| judged_leaf) => `(tactic| with_reducible exact Part.judged (by assumption) (by fine!) (by assumption))

end JLaw
