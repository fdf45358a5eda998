import Verif.Reading.AcceptStruct
import Verif.Reading.VerdictText

/-! # What reading leads to: tables, structures, lists and items -/

namespace JLaw

open Spec (Rule AttrRule Verdict judge)

variable {L : Lvl} {m : Nat} {α β τ γ : Type}

/-! ## Tables -/

theorem TableHeaderRow.judged (hL : L.Judges m) {e : Element} (he : Fine True m e e)
    (hn : e.name = "TableHeaderRow") :
    Says (TableHeaderRow.parser (L := L) e) (judge e.node) := by
  rw [Says.judge_plain hn rfl rfl rfl rfl]
  verdicts
  unfold TableHeaderRow.parser
  rw [if_pos hn]
  exact Says.map (Says.readTagged rfl rfl rfl fun x hx ht =>
    Text.says_free hL (he.child hx).fine ht rfl rfl rfl)

theorem TableRow.judged (hL : L.Judges m) {e : Element} (he : Fine True m e e)
    (hn : e.name = "TableRow") : Says (TableRow.parser (L := L) e) (judge e.node) := by
  rw [Says.judge_plain hn rfl rfl rfl rfl]
  verdicts
  unfold TableRow.parser
  rw [if_pos hn]
  exact Says.map (Says.readTagged rfl rfl rfl fun x hx ht => hL.column x (he.child hx) ht)

macro_rules
  | `(tactic| judged_leaf) => `(tactic| with_reducible exact TableHeaderRow.judged (by assumption) (by fine!) (by assumption))
macro_rules
  | `(tactic| judged_leaf) => `(tactic| with_reducible exact TableRow.judged (by assumption) (by fine!) (by assumption))

theorem Table.judged (hL : L.Judges m) {e : Element} (he : Fine True m e e)
    (hn : e.name = "Table") : Says (Table.parser (L := L) e) (judge e.node) := by
  rw [Says.judge_plain hn rfl rfl rfl rfl]
  verdicts
  unfold Table.parser Table.step
  rw [if_pos hn]
  exact Says.map (judgeLoop! he hn)

macro_rules
  | `(tactic| judged_leaf) => `(tactic| with_reducible exact Table.judged (by assumption) (by fine!) (by assumption))

/-- The tags of the elements around sentences. -/
theorem SentenceOrColumnOrTable.judged (hL : L.Judges m) {e : Element} (he : Fine True m e e)
    {t : String} (hn : e.name = t) (hr : Spec.rules.lookup t = some Spec.itemSentence)
    (hc : Spec.captionTags.contains t = false)
    (hs : ∀ n, Spec.stranger t n = .unexpectedTag n t)
    (hm : ∀ g, Spec.missing t g = .missingRequiredTag "Sentence or Column or Table") :
    Says (SentenceOrColumnOrTable.fromElement (L := L) e) (judge e.node) := by
  rw [Says.judge_plain hn hr rfl rfl hc]
  simp only [Spec.itemSentence]
  verdicts
  rw [hm]
  unfold SentenceOrColumnOrTable.fromElement SentenceOrColumnOrTable.step
  refine Says.bind (Says.tagLoop he rfl (fun _ => by jarms) (fun _ => by rfl)
    (fun _ _ => Says.unexpected hn hs _) _) fun s hs =>
    Says.needed (Exact.field (fun s : SentenceOrColumnOrTable.St L =>
        s.column_list ≠ [] ∨ s.sentence_list ≠ [] ∨ s.table ≠ none) hs (by simp) ?_) ?_ ?_
  · intro s x s' h
    field_step h
  · intro h
    unfold SentenceOrColumnOrTable.choose
    split
    · exact ⟨_, rfl⟩
    · next h1 =>
      split
      · exact ⟨_, rfl⟩
      · next h2 =>
        cases ht : s.table with
        | none => simp_all
        | some v => exact ⟨_, rfl⟩
  · intro h
    rw [not_or, not_or, not_not, not_not, not_not] at h
    unfold SentenceOrColumnOrTable.choose
    simp [h]

macro_rules
  | `(tactic| judged_leaf) =>
    `(tactic| with_reducible exact SentenceOrColumnOrTable.judged (by assumption) (by fine!) (by assumption) (by with_unfolding_all rfl) (by with_unfolding_all rfl) (fun _ => by with_unfolding_all rfl) (fun _ => by with_unfolding_all rfl))

/-! ## Structures -/

theorem BodyStruct.step_body {titleTag bodyTag : String} {titleP : Element → Res τ}
    {bodyP : Element → Res β} {outer x : Element} {s s' : BodyStruct.St L τ β}
    (htb : titleTag ≠ bodyTag) (hbr : bodyTag ≠ "Remarks")
    (h : BodyStruct.step titleTag bodyTag titleP bodyP outer s x = .ok s') :
    s'.body ≠ none ↔ s.body ≠ none ∨ x.name ∈ [bodyTag] := by
  unfold BodyStruct.step at h
  simp only [matchTag_cons, matchTag_nil] at h
  repeat' split at h
  · obtain ⟨_, _, h'⟩ := Res.bind_eq_ok.1 h
    cases h'
    simp_all
  · obtain ⟨o, _, h'⟩ := Res.bind_eq_ok.1 h
    cases h'
    have : (BodyStruct.addRemarks s o).body = s.body := by
      unfold BodyStruct.addRemarks
      cases o with
      | none => rfl
      | some r => simp only; split <;> rfl
    simp_all [eq_comm]
  · obtain ⟨_, _, h'⟩ := Res.bind_eq_ok.1 h
    cases h'
    simp_all
  · exact absurd h (Fails.unexpected _ _ _)

theorem BodyStruct.judged (hL : L.Judges m) {tag titleTag bodyTag : String}
    {titleP : Element → Res τ} {bodyP : Element → Res β} {e : Element} (he : Fine True m e e)
    (hn : e.name = tag) (hr : Spec.rules.lookup tag = some (Spec.structRule titleTag bodyTag))
    (hc : Spec.captionTags.contains tag = false)
    (hst : ∀ n, Spec.stranger tag n = .unexpectedTag n tag)
    (hm : Spec.missing tag [bodyTag] = .missingRequiredTag bodyTag)
    (htb : titleTag ≠ bodyTag) (htr : titleTag ≠ "Remarks") (hbr : bodyTag ≠ "Remarks")
    (ht : ∀ x, Child True m x x → x.name = titleTag → Says (titleP x) (judge x.node))
    (hb : ∀ x, Child True m x x → x.name = bodyTag → Says (bodyP x) (judge x.node)) :
    Says (BodyStruct.parser (L := L) tag titleTag bodyTag titleP bodyP e) (judge e.node) := by
  rw [Says.judge_plain hn hr rfl rfl hc]
  simp only [Spec.structRule]
  verdicts
  rw [hm]
  unfold BodyStruct.parser
  rw [if_pos hn]
  refine Says.bind ((Says.forElems (A := fun x => if x.name ∈ [titleTag, bodyTag] then judge x.node
      else if x.name = "Remarks" then (judge x.node).tolerated
      else .wrong (Spec.stranger tag x.name)) (fun s x hx => ?_) _).congr ?_) fun s hs =>
    Says.needed (Exact.field (fun s => s.body ≠ none) hs (by simp)
      fun s x s' h => BodyStruct.step_body htb hbr h) ?_ ?_
  · unfold BodyStruct.step
    simp only [matchTag_cons, matchTag_nil]
    split
    · next h => exact (Says.map (ht x (he.child hx) h)).congr (by simp [h])
    · next h1 =>
      split
      · next h =>
        exact (Says.map (Says.skipErr (Remarks.judged hL (he.child hx).fine h))).congr
          (by simp [h, htr.symm, hbr.symm])
      · next h2 =>
        split
        · next h => exact (Says.map (hb x (he.child hx) h)).congr (by simp [h])
        · next h3 => rw [Says.unexpected hn hst]; exact (Says.err _).congr (by simp [h1, h3])
  · unfold Says.loop
    congr 2
    funext x
    cases x with
    | element n a c => simp [Says.onElem, Rule.judgeNode, Element.node]
    | _ => rfl
  · by_field s.body
  · by_field s.body

theorem NoteStruct.judged (hL : L.Judges m) {e : Element} (he : Fine True m e e)
    (hn : e.name = "NoteStruct") : Says (NoteStruct.parser (L := L) e) (judge e.node) :=
  BodyStruct.judged hL he hn rfl rfl (fun _ => rfl) rfl (by decide) (by decide) (by decide)
    (fun _ _ _ => by judged_leaf) (fun _ _ _ => by judged_leaf)

theorem StyleStruct.judged (hL : L.Judges m) {e : Element} (he : Fine True m e e)
    (hn : e.name = "StyleStruct") : Says (StyleStruct.parser (L := L) e) (judge e.node) :=
  BodyStruct.judged hL he hn rfl rfl (fun _ => rfl) rfl (by decide) (by decide) (by decide)
    (fun _ _ _ => by judged_leaf) (fun _ _ _ => by judged_leaf)

theorem FormatStruct.judged (hL : L.Judges m) {e : Element} (he : Fine True m e e)
    (hn : e.name = "FormatStruct") : Says (FormatStruct.parser (L := L) e) (judge e.node) :=
  BodyStruct.judged hL he hn rfl rfl (fun _ => rfl) rfl (by decide) (by decide) (by decide)
    (fun _ _ _ => by judged_leaf) (fun _ _ _ => by judged_leaf)

theorem FigStruct.judged (hL : L.Judges m) {e : Element} (he : Fine True m e e)
    (hn : e.name = "FigStruct") : Says (FigStruct.parser (L := L) e) (judge e.node) :=
  BodyStruct.judged hL he hn rfl rfl (fun _ => rfl) rfl (by decide) (by decide) (by decide)
    (fun _ _ _ => by judged_leaf) (fun _ _ _ => by judged_leaf)

theorem TableStruct.judged (hL : L.Judges m) {e : Element} (he : Fine True m e e)
    (hn : e.name = "TableStruct") : Says (TableStruct.parser (L := L) e) (judge e.node) :=
  BodyStruct.judged hL he hn rfl rfl (fun _ => rfl) rfl (by decide) (by decide) (by decide)
    (fun _ _ _ => by judged_leaf) (fun _ _ _ => by judged_leaf)

macro_rules
  | `(tactic| judged_leaf) => `(tactic| with_reducible exact NoteStruct.judged (by assumption) (by fine!) (by assumption))
macro_rules
  | `(tactic| judged_leaf) => `(tactic| with_reducible exact StyleStruct.judged (by assumption) (by fine!) (by assumption))
macro_rules
  | `(tactic| judged_leaf) => `(tactic| with_reducible exact FormatStruct.judged (by assumption) (by fine!) (by assumption))
macro_rules
  | `(tactic| judged_leaf) => `(tactic| with_reducible exact FigStruct.judged (by assumption) (by fine!) (by assumption))
macro_rules
  | `(tactic| judged_leaf) => `(tactic| with_reducible exact TableStruct.judged (by assumption) (by fine!) (by assumption))

/-! ## Lists -/

theorem Says.first_cons {t t1 n : String} {a : Attrs} {d rest : List XMLNode} (h : n = t1) :
    Spec.judgeFirst t [t1] ((XMLNode.element n a d :: rest).map fun x => (x, judge x)) =
      judge (.element n a d) := by
  simp [Spec.judgeFirst, h]

theorem Says.first_wrong {t t1 n : String} {a : Attrs} {d rest : List XMLNode} (h : n ≠ t1) :
    Spec.judgeFirst t [t1] ((XMLNode.element n a d :: rest).map fun x => (x, judge x)) =
      .wrong (Spec.wrongFirst t t1 n) := by
  simp [Spec.judgeFirst, h]

theorem Says.first_none {t t1 : String} {c : List XMLNode}
    (h : ∀ n a d rest, c ≠ .element n a d :: rest) :
    Spec.judgeFirst t [t1] (c.map fun x => (x, judge x)) = .wrong (Spec.noFirst t t1) := by
  cases c with
  | nil => rfl
  | cons x c =>
    cases x with
    | element n a d => exact absurd rfl (h n a d c)
    | _ => rfl

theorem listSentences_judged (hL : L.Judges m) {e : Element} (he : Fine True m e e)
    {t tag errName : String} (hn : e.name = tag)
    (hr : Spec.rules.lookup t = some { kids := ["Sentence", "Column"] })
    (hc : Spec.captionTags.contains t = false)
    (hs : ∀ n, Spec.stranger t n = .unexpectedTag n tag)
    (hp : Spec.listParts.lookup tag = some errName) :
    Says (listSentences (L := L) t errName e)
      (Spec.judgeFirst tag [t] (e.children.map fun x => (x, judge x))) := by
  unfold listSentences
  split
  · next n a d rest hch =>
    rw [hch]
    have hx : Child True m ⟨n, a, d⟩ ⟨n, a, d⟩ :=
      he.child (Exact.mem_elems (by simp [hch, Element.node]))
    split
    · next h =>
      rw [Says.first_cons h, show XMLNode.element n a d = Element.node ⟨n, a, d⟩ from rfl,
        Says.judge_plain h hr rfl rfl hc]
      verdicts
      unfold ListSentence.parser
      refine Says.tagRead hx.fine rfl (by jarms) rfl (fun x => ?_) fun _ h => h
      rw [unexpected, unexpectedTag, hn, hs]
    · next h =>
      rw [Says.first_wrong h, Spec.wrongFirst, hp, wrongTagName, hn]
      exact Says.err _
  · next h =>
    rw [Says.first_none h, Spec.noFirst, hp, wrongTagName, hn]
    exact Says.err _

theorem ListOf.judged (hL : L.Judges m) {tag sentTag errName kid : String}
    {childP : Element → Res γ} {e : Element} (he : Fine True m e e) (hn : e.name = tag)
    (hr : Spec.rules.lookup tag = some (Spec.listRule sentTag [kid]))
    (hc : Spec.captionTags.contains tag = false)
    (hst : ∀ n, Spec.stranger tag n = .wrongTagName n kid)
    (hs : Spec.rules.lookup sentTag = some { kids := ["Sentence", "Column"] })
    (hc' : Spec.captionTags.contains sentTag = false)
    (hs' : ∀ n, Spec.stranger sentTag n = .unexpectedTag n tag)
    (hp : Spec.listParts.lookup tag = some errName)
    (hk : ∀ x, Child True m x x → x.name = kid → Says (childP x) (judge x.node))
    (hw : ∀ x, x.name ≠ kid → childP x = .err (wrongTagName x kid)) :
    Says (ListOf.parser (L := L) tag sentTag errName childP e) (judge e.node) := by
  rw [Says.judge_first hn hr rfl rfl rfl hc, show
    (Spec.listRule sentTag [kid]).judgeAttrs tag e.attributes = .fine from rfl, Verdict.fine_andThen]
  unfold ListOf.parser
  rw [if_pos hn]
  have htail : ∀ x ∈ elems e.children.tail, x ∈ elems e.children := fun x hx =>
    Exact.mem_elems (List.mem_of_mem_tail (Exact.node_mem hx))
  refine Says.bind (listSentences_judged hL he hn hs hc' hs' hp) fun _ _ => Says.map ?_
  rw [Says.loop_strict rfl]
  refine Says.readAll fun x hx => ?_
  by_cases hx' : x.name = kid
  · rw [if_pos (by simp [Spec.listRule, hx'])]
    exact hk x (he.child (htail x hx)) hx'
  · rw [if_neg (by simp [Spec.listRule, hx']), hst, hw x hx']
    rfl

theorem ListOf.wrong {tag sentTag errName : String} {childP : Element → Res γ} {e : Element}
    (hn : e.name ≠ tag) :
    ListOf.parser (L := L) tag sentTag errName childP e = .err (JLaw.wrongTagName e tag) := by
  unfold ListOf.parser
  rw [if_neg hn]

theorem Sublist3.judged (hL : L.Judges m) {e : Element} (he : Fine True m e e)
    (hn : e.name = "Sublist3") : Says (Sublist3.parser (L := L) e) (judge e.node) := by
  rw [Says.judge_first hn rfl rfl rfl rfl rfl, Says.loop_blind rfl rfl rfl]
  verdicts
  unfold Sublist3.parser
  rw [if_pos hn]
  exact Says.map (listSentences_judged hL he hn rfl rfl (fun _ => rfl) rfl)

theorem Sublist3.wrong {e : Element} (hn : e.name ≠ "Sublist3") :
    Sublist3.parser (L := L) e = .err (wrongTagName e "Sublist3") := by
  unfold Sublist3.parser
  rw [if_neg hn]

theorem Sublist2.judged (hL : L.Judges m) {e : Element} (he : Fine True m e e)
    (hn : e.name = "Sublist2") : Says (Sublist2.parser (L := L) e) (judge e.node) :=
  ListOf.judged hL he hn rfl rfl (fun _ => rfl) rfl rfl (fun _ => rfl) rfl
    (fun _ hx h => Sublist3.judged hL hx.fine h) fun _ => Sublist3.wrong

theorem Sublist1.judged (hL : L.Judges m) {e : Element} (he : Fine True m e e)
    (hn : e.name = "Sublist1") : Says (Sublist1.parser (L := L) e) (judge e.node) :=
  ListOf.judged hL he hn rfl rfl (fun _ => rfl) rfl rfl (fun _ => rfl) rfl
    (fun _ hx h => Sublist2.judged hL hx.fine h) fun _ => ListOf.wrong

theorem LawList.judged (hL : L.Judges m) {e : Element} (he : Fine True m e e)
    (hn : e.name = "List") : Says (LawList.parser (L := L) e) (judge e.node) :=
  ListOf.judged hL he hn rfl rfl (fun _ => rfl) rfl rfl (fun _ => rfl) rfl
    (fun _ hx h => Sublist1.judged hL hx.fine h) fun _ => ListOf.wrong

macro_rules
  | `(tactic| judged_leaf) => `(tactic| with_reducible exact LawList.judged (by assumption) (by fine!) (by assumption))

/-! ## Items -/

theorem ItemOf.step_field {titleTag sentTag : String}
    {as : List (String × (Element → Res γ))} {outer x : Element} {s s' : ItemOf.St L γ}
    (hts : titleTag ≠ sentTag) (h : ItemOf.step titleTag sentTag as outer s x = .ok s') :
    s'.sentence ≠ none ↔ s.sentence ≠ none ∨ x.name ∈ [sentTag] := by
  unfold ItemOf.step at h
  simp only [matchTag_cons] at h
  split at h
  · obtain ⟨_, _, h'⟩ := Res.bind_eq_ok.1 h
    cases h'
    simp_all
  · split at h
    · obtain ⟨_, _, h'⟩ := Res.bind_eq_ok.1 h
      cases h'
      simp_all
    · have : s'.sentence = s.sentence := by
        repeat' split at h
        · obtain ⟨_, _, h'⟩ := Res.bind_eq_ok.1 h; cases h'; rfl
        · obtain ⟨_, _, h'⟩ := Res.bind_eq_ok.1 h; cases h'; rfl
        · obtain ⟨_, _, h'⟩ := Res.bind_eq_ok.1 h; cases h'; rfl
        · obtain ⟨_, _, h'⟩ := Res.bind_eq_ok.1 h; cases h'; rfl
        · rw [matchTag_nil] at h
          obtain ⟨a, rfl⟩ := Exact.childArms_ok (Fails.unexpected _ _) h
          rfl
      simp_all

/-- What the tables say about an item and the elements around its title and its sentences. -/
structure ItemTags (tag titleTag sentTag : String) (kids : List String) : Prop where
  rule : Spec.rules.lookup tag = some (Spec.itemRule titleTag sentTag kids)
  title : Spec.rules.lookup titleTag = some Spec.free
  sentence : Spec.rules.lookup sentTag = some Spec.itemSentence
  caption : Spec.captionTags.contains tag = false
  caption1 : Spec.captionTags.contains titleTag = false
  caption2 : Spec.captionTags.contains sentTag = false
  blind : Spec.blindTags.contains titleTag = false
  stranger : ∀ n, Spec.stranger tag n = .unexpectedTag n tag
  stranger2 : ∀ n, Spec.stranger sentTag n = .unexpectedTag n sentTag
  missing : ∀ g, Spec.missing tag g = .missingRequiredTag "Sentence or Column or Table"
  missing2 : ∀ g, Spec.missing sentTag g = .missingRequiredTag "Sentence or Column or Table"
  ne : titleTag ≠ sentTag

theorem ItemOf.judged (hL : L.Judges m) {tag titleTag sentTag : String}
    {as : List (String × (Element → Res γ))} {e : Element} (he : Fine True m e e)
    (hn : e.name = tag) (ht : ItemTags tag titleTag sentTag (as.map Prod.fst))
    (ha : Says.Arms m as) :
    Says (ItemOf.parser (L := L) tag titleTag sentTag as e) (judge e.node) := by
  rw [Says.judge_plain hn ht.rule rfl rfl ht.caption]
  simp only [Spec.itemRule]
  verdicts
  rw [ht.missing]
  unfold ItemOf.parser
  rw [if_pos hn]
  refine Says.bind (Says.present hn _) fun _ _ => Says.bind (Says.getBool hn (by decide)) fun _ _ =>
    Says.bind (Says.getBool hn (by decide)) fun _ _ => Says.bind ?_ fun s hs =>
    Says.needed (Exact.field (fun s => s.sentence ≠ none) hs (by simp)
      fun s x s' h => ItemOf.step_field ht.ne h) ?_ ?_
  · unfold ItemOf.step
    simp only [Exact.matchTag_append']
    refine Says.tagLoop he rfl (fun s => ?_) (fun s => ?_)
      (fun _ _ => Says.unexpected hn ht.stranger _) _
    · refine Says.arms_append ?_ (Says.childArms ha)
      refine Says.arms_cons (fun x hx hn => Says.map
        (Text.ofElement_judged hL hx.fine hn ht.title ht.blind ht.caption1)) ?_
      refine Says.arms_cons (fun x hx hn => Says.map
        (SentenceOrColumnOrTable.judged hL hx.fine hn ht.sentence ht.caption2 ht.stranger2
          ht.missing2)) ?_
      jarms
    · simp [childArms, Spec.structTags, Function.comp_def]
  · by_field s.sentence
  · by_field s.sentence

/-- Looks the tags up in the tables. -/
macro "item_tags" : term =>
  `(⟨rfl, rfl, rfl, rfl, rfl, rfl, rfl, fun _ => rfl, fun _ => rfl, fun _ => rfl, fun _ => rfl,
    by decide⟩)

theorem Subitem10.judged (hL : L.Judges m) {e : Element} (he : Fine True m e e)
    (hn : e.name = "Subitem10") : Says (Subitem10.parser (L := L) e) (judge e.node) :=
  ItemOf.judged hL he hn item_tags (by jarms)

macro_rules
  | `(tactic| judged_leaf) => `(tactic| with_reducible exact Subitem10.judged (by assumption) (by fine!) (by assumption))

theorem Subitem9.judged (hL : L.Judges m) {e : Element} (he : Fine True m e e)
    (hn : e.name = "Subitem9") : Says (Subitem9.parser (L := L) e) (judge e.node) :=
  ItemOf.judged hL he hn item_tags (by jarms)

macro_rules
  | `(tactic| judged_leaf) => `(tactic| with_reducible exact Subitem9.judged (by assumption) (by fine!) (by assumption))

theorem Subitem8.judged (hL : L.Judges m) {e : Element} (he : Fine True m e e)
    (hn : e.name = "Subitem8") : Says (Subitem8.parser (L := L) e) (judge e.node) :=
  ItemOf.judged hL he hn item_tags (by jarms)

macro_rules
  | `(tactic| judged_leaf) => `(tactic| with_reducible exact Subitem8.judged (by assumption) (by fine!) (by assumption))

theorem Subitem7.judged (hL : L.Judges m) {e : Element} (he : Fine True m e e)
    (hn : e.name = "Subitem7") : Says (Subitem7.parser (L := L) e) (judge e.node) :=
  ItemOf.judged hL he hn item_tags (by jarms)

macro_rules
  | `(tactic| judged_leaf) => `(tactic| with_reducible exact Subitem7.judged (by assumption) (by fine!) (by assumption))

theorem Subitem6.judged (hL : L.Judges m) {e : Element} (he : Fine True m e e)
    (hn : e.name = "Subitem6") : Says (Subitem6.parser (L := L) e) (judge e.node) :=
  ItemOf.judged hL he hn item_tags (by jarms)

macro_rules
  | `(tactic| judged_leaf) => `(tactic| with_reducible exact Subitem6.judged (by assumption) (by fine!) (by assumption))

theorem Subitem5.judged (hL : L.Judges m) {e : Element} (he : Fine True m e e)
    (hn : e.name = "Subitem5") : Says (Subitem5.parser (L := L) e) (judge e.node) :=
  ItemOf.judged hL he hn item_tags (by jarms)

macro_rules
  | `(tactic| judged_leaf) => `(tactic| with_reducible exact Subitem5.judged (by assumption) (by fine!) (by assumption))

theorem Subitem4.judged (hL : L.Judges m) {e : Element} (he : Fine True m e e)
    (hn : e.name = "Subitem4") : Says (Subitem4.parser (L := L) e) (judge e.node) :=
  ItemOf.judged hL he hn item_tags (by jarms)

macro_rules
  | `(tactic| judged_leaf) => `(tactic| with_reducible exact Subitem4.judged (by assumption) (by fine!) (by assumption))

theorem Subitem3.judged (hL : L.Judges m) {e : Element} (he : Fine True m e e)
    (hn : e.name = "Subitem3") : Says (Subitem3.parser (L := L) e) (judge e.node) :=
  ItemOf.judged hL he hn item_tags (by jarms)

macro_rules
  | `(tactic| judged_leaf) => `(tactic| with_reducible exact Subitem3.judged (by assumption) (by fine!) (by assumption))

theorem Subitem2.judged (hL : L.Judges m) {e : Element} (he : Fine True m e e)
    (hn : e.name = "Subitem2") : Says (Subitem2.parser (L := L) e) (judge e.node) :=
  ItemOf.judged hL he hn item_tags (by jarms)

macro_rules
  | `(tactic| judged_leaf) => `(tactic| with_reducible exact Subitem2.judged (by assumption) (by fine!) (by assumption))

theorem Subitem1.judged (hL : L.Judges m) {e : Element} (he : Fine True m e e)
    (hn : e.name = "Subitem1") : Says (Subitem1.parser (L := L) e) (judge e.node) :=
  ItemOf.judged hL he hn item_tags (by jarms)

macro_rules
  | `(tactic| judged_leaf) => `(tactic| with_reducible exact Subitem1.judged (by assumption) (by fine!) (by assumption))

theorem Item.judged (hL : L.Judges m) {e : Element} (he : Fine True m e e)
    (hn : e.name = "Item") : Says (Item.parser (L := L) e) (judge e.node) :=
  ItemOf.judged hL he hn item_tags (by jarms)

macro_rules
  | `(tactic| judged_leaf) => `(tactic| with_reducible exact Item.judged (by assumption) (by fine!) (by assumption))

end JLaw
