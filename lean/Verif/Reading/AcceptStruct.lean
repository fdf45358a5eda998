import Verif.Reading.AcceptText

/-! # Which documents are accepted: tables, structures, lists and items -/

namespace JLaw

open Spec (Accepted Rule AttrRule)

variable {L : Lvl} {P : Prop} {m : Nat} {α β τ γ : Type}

/-! ## Tables -/

theorem TableHeaderRow.takes (hL : L.Takes P m) {e : Element} (he : Fine P m e e)
    (hn : e.name = "TableHeaderRow") :
    Exact P (TableHeaderRow.parser (L := L) e) (Accepted e) := by
  unfold TableHeaderRow.parser
  rw [if_pos hn]
  refine Exact.congr (Exact.map (Exact.readTagged (A := Accepted) fun x hx ht =>
    Text.takes_of hL (he.child hx).fine (Exact.free ht rfl))) ?_
  rw [Exact.lax hn rfl rfl rfl rfl]
  simp [Exact.AttrsOk, Exact.MustOk]

theorem TableRow.takes (hL : L.Takes P m) {e : Element} (he : Fine P m e e)
    (hn : e.name = "TableRow") : Exact P (TableRow.parser (L := L) e) (Accepted e) := by
  unfold TableRow.parser
  rw [if_pos hn]
  refine Exact.congr (Exact.map (Exact.readTagged fun x hx ht =>
    hL.column x (he.child hx) ht)) ?_
  rw [Exact.lax hn rfl rfl rfl rfl]
  simp [Exact.AttrsOk, Exact.MustOk]

macro_rules
  | `(tactic| takes_leaf) => `(tactic| with_reducible exact TableHeaderRow.takes (by assumption) (by fine!) (by assumption))
macro_rules
  | `(tactic| takes_leaf) => `(tactic| with_reducible exact TableRow.takes (by assumption) (by fine!) (by assumption))

theorem Table.takes (hL : L.Takes P m) {e : Element} (he : Fine P m e e)
    (hn : e.name = "Table") : Exact P (Table.parser (L := L) e) (Accepted e) := by
  unfold Table.parser Table.step
  rw [if_pos hn]
  refine Exact.congr (Exact.map (tagLoop! he ["TableHeaderRow", "TableRow"])) ?_
  rw [Exact.strict hn rfl rfl rfl rfl]
  simp [Exact.AttrsOk, Exact.MustOk]

macro_rules
  | `(tactic| takes_leaf) => `(tactic| with_reducible exact Table.takes (by assumption) (by fine!) (by assumption))

theorem SentenceOrColumnOrTable.choose_takes (s : SentenceOrColumnOrTable.St L) :
    Exact P (SentenceOrColumnOrTable.choose s)
      (s.column_list ≠ [] ∨ s.sentence_list ≠ [] ∨ s.table ≠ none) := by
  unfold SentenceOrColumnOrTable.choose
  split
  · next h => exact (Exact.ok _).congr (by simp [h])
  · next h =>
    split
    · next h' => exact (Exact.ok _).congr (by simp [h'])
    · next h' =>
      cases ht : s.table with
      | none => exact (Exact.err _).congr (by simpa using ⟨by simpa using h, by simpa using h'⟩)
      | some v => exact (Exact.ok _).congr (by simp)

theorem SentenceOrColumnOrTable.takes (hL : L.Takes P m) {e : Element} (he : Fine P m e e)
    {t : String} (hn : e.name = t) (hr : Spec.rules.lookup t = some Spec.itemSentence) :
    Exact P (SentenceOrColumnOrTable.fromElement (L := L) e) (Accepted e) := by
  unfold SentenceOrColumnOrTable.fromElement SentenceOrColumnOrTable.step
  refine Exact.congr (Exact.bind (tagLoop! he ["Sentence", "Column", "Table"]) fun s hs =>
    (choose_takes s).congr (Exact.field (tags := ["Sentence", "Column", "Table"])
      (fun s : SentenceOrColumnOrTable.St L =>
        s.column_list ≠ [] ∨ s.sentence_list ≠ [] ∨ s.table ≠ none) hs (by simp) ?_)) ?_
  · intro s x s' h
    field_step h
  · rw [Exact.strict hn hr rfl rfl rfl]
    simp [Exact.AttrsOk, Exact.MustOk, Spec.itemSentence]

macro_rules
  | `(tactic| takes_leaf) =>
    `(tactic| with_reducible exact SentenceOrColumnOrTable.takes (by assumption) (by fine!) (by assumption) (by with_unfolding_all rfl))

/-! ## Structures -/

theorem BodyStruct.takes (hL : L.Takes P m) {tag titleTag bodyTag : String}
    {titleP : Element → Res τ} {bodyP : Element → Res β} {e : Element} (he : Fine P m e e)
    (hn : e.name = tag) (hr : Spec.rules.lookup tag = some (Spec.structRule titleTag bodyTag))
    (htb : titleTag ≠ bodyTag) (htr : titleTag ≠ "Remarks") (hbr : bodyTag ≠ "Remarks")
    (ht : ∀ x, Child P m x x → x.name = titleTag → Exact P (titleP x) (Accepted x))
    (hb : ∀ x, Child P m x x → x.name = bodyTag → Exact P (bodyP x) (Accepted x)) :
    Exact P (BodyStruct.parser (L := L) tag titleTag bodyTag titleP bodyP e) (Accepted e) := by
  unfold BodyStruct.parser
  rw [if_pos hn]
  refine Exact.congr (Exact.bind (Exact.forElems (A := fun x =>
    (x.name ∈ [titleTag, bodyTag] ∨ x.name ∈ ["Remarks"]) ∧
      (x.name ∈ [titleTag, bodyTag] → Accepted x)) (fun s x hx => ?_) _) fun s hs =>
    (?_ : Exact P _ (∃ x ∈ elems e.children, x.name ∈ [bodyTag]))) ?_
  · unfold BodyStruct.step
    simp only [matchTag_cons, matchTag_nil]
    split
    · next h => exact (Exact.map (ht x (he.child hx) h)).congr (by simp [h])
    · next h1 =>
      split
      · next h =>
        exact (Exact.map (Exact.skipErr (Remarks.agree hL.agrees (he.child hx).fine).nice)).congr
          (by simp [h, htr.symm, hbr.symm])
      · next h2 =>
        split
        · next h => exact (Exact.map (hb x (he.child hx) h)).congr (by simp [h])
        · next h3 =>
          exact ⟨fun ⟨v, hv⟩ => absurd hv (Fails.unexpected _ _ _), fun h => by
            simp [h1, h2, h3] at h⟩
  · rw [← Exact.field (fun s => s.body ≠ none) hs (by simp)]
    · cases s.body with
      | none => exact (Exact.err _).congr (by simp)
      | some v => exact (Exact.ok _).congr (by simp)
    · intro s x s' h
      unfold BodyStruct.step at h
      simp only [matchTag_cons, matchTag_nil] at h
      repeat' split at h
      · obtain ⟨_, _, h'⟩ := Res.bind_eq_ok.1 h
        cases h'
        simp_all
      · obtain ⟨o, _, h'⟩ := Res.bind_eq_ok.1 h
        cases h'
        have : (BodyStruct.addRemarks s o).body = s.body := by
          unfold BodyStruct.addRemarks
          cases o with
          | none => rfl
          | some r => simp only; split <;> rfl
        simp_all [eq_comm]
      · obtain ⟨_, _, h'⟩ := Res.bind_eq_ok.1 h
        cases h'
        simp_all
      · exact absurd h (Fails.unexpected _ _ _)
  · rw [Exact.skipping hn hr rfl rfl rfl]
    simp [Exact.AttrsOk, Exact.MustOk, Spec.structRule]

theorem NoteStruct.takes (hL : L.Takes P m) {e : Element} (he : Fine P m e e)
    (hn : e.name = "NoteStruct") : Exact P (NoteStruct.parser (L := L) e) (Accepted e) :=
  BodyStruct.takes hL he hn rfl (by decide) (by decide) (by decide)
    (fun _ _ _ => by takes_leaf) (fun _ _ _ => by takes_leaf)

theorem StyleStruct.takes (hL : L.Takes P m) {e : Element} (he : Fine P m e e)
    (hn : e.name = "StyleStruct") : Exact P (StyleStruct.parser (L := L) e) (Accepted e) :=
  BodyStruct.takes hL he hn rfl (by decide) (by decide) (by decide)
    (fun _ _ _ => by takes_leaf) (fun _ _ _ => by takes_leaf)

theorem FormatStruct.takes (hL : L.Takes P m) {e : Element} (he : Fine P m e e)
    (hn : e.name = "FormatStruct") : Exact P (FormatStruct.parser (L := L) e) (Accepted e) :=
  BodyStruct.takes hL he hn rfl (by decide) (by decide) (by decide)
    (fun _ _ _ => by takes_leaf) (fun _ _ _ => by takes_leaf)

theorem FigStruct.takes (hL : L.Takes P m) {e : Element} (he : Fine P m e e)
    (hn : e.name = "FigStruct") : Exact P (FigStruct.parser (L := L) e) (Accepted e) :=
  BodyStruct.takes hL he hn rfl (by decide) (by decide) (by decide)
    (fun _ _ _ => by takes_leaf) (fun _ _ _ => by takes_leaf)

theorem TableStruct.takes (hL : L.Takes P m) {e : Element} (he : Fine P m e e)
    (hn : e.name = "TableStruct") : Exact P (TableStruct.parser (L := L) e) (Accepted e) :=
  BodyStruct.takes hL he hn rfl (by decide) (by decide) (by decide)
    (fun _ _ _ => by takes_leaf) (fun _ _ _ => by takes_leaf)

macro_rules
  | `(tactic| takes_leaf) => `(tactic| with_reducible exact NoteStruct.takes (by assumption) (by fine!) (by assumption))
macro_rules
  | `(tactic| takes_leaf) => `(tactic| with_reducible exact StyleStruct.takes (by assumption) (by fine!) (by assumption))
macro_rules
  | `(tactic| takes_leaf) => `(tactic| with_reducible exact FormatStruct.takes (by assumption) (by fine!) (by assumption))
macro_rules
  | `(tactic| takes_leaf) => `(tactic| with_reducible exact FigStruct.takes (by assumption) (by fine!) (by assumption))
macro_rules
  | `(tactic| takes_leaf) => `(tactic| with_reducible exact TableStruct.takes (by assumption) (by fine!) (by assumption))

/-! ## Lists -/

/-- The first child node of a list. -/
def FirstOk (t : String) (c : List XMLNode) : Prop :=
  ∃ a d rest, c = .element t a d :: rest ∧ Accepted ⟨t, a, d⟩

theorem listSentences_takes (hL : L.Takes P m) {e : Element} (he : Fine P m e e)
    {t errName : String} (hr : Spec.rules.lookup t = some { kids := ["Sentence", "Column"] }) :
    Exact P (listSentences (L := L) t errName e) (FirstOk t e.children) := by
  unfold listSentences
  split
  · next n a d rest hc =>
    split
    · next h =>
      subst h
      have hx : Child P m ⟨n, a, d⟩ ⟨n, a, d⟩ :=
        he.child (Exact.mem_elems (by simp [hc, Element.node]))
      refine Exact.congr (Exact.readAll (c := d) fun x hx' => Exact.matchTag (m := m) ?_
        (hx.fine.child hx') (Fails.unexpected _ _)) ?_
      · arms
      · rw [FirstOk, hc]
        refine Iff.trans ?_ (Iff.trans (Exact.strict (e := ⟨n, a, d⟩) rfl hr rfl rfl rfl).symm ?_)
        · simp [Exact.AttrsOk, Exact.MustOk]
        · constructor
          · intro h; exact ⟨a, d, rest, rfl, h⟩
          · rintro ⟨_, _, _, h, h'⟩
            cases h
            exact h'
    · next h =>
      refine (Exact.err _).congr ?_
      simp only [FirstOk, hc, false_iff]
      rintro ⟨_, _, _, h', -⟩
      cases h'
      exact h rfl
  · next h =>
    refine (Exact.err _).congr ?_
    simp only [FirstOk, false_iff]
    rintro ⟨_, _, _, h', -⟩
    exact h _ _ _ _ h'

theorem ListOf.takes (hL : L.Takes P m) {tag sentTag errName kid : String}
    {childP : Element → Res γ} {e : Element} (he : Fine P m e e) (hn : e.name = tag)
    (hr : Spec.rules.lookup tag = some (Spec.listRule sentTag [kid]))
    (hs : Spec.rules.lookup sentTag = some { kids := ["Sentence", "Column"] })
    (hp : ∀ x, Child P m x x → Exact P (childP x) (x.name ∈ [kid] ∧ Accepted x)) :
    Exact P (ListOf.parser (L := L) tag sentTag errName childP e) (Accepted e) := by
  unfold ListOf.parser
  rw [if_pos hn]
  have htail : ∀ x ∈ elems e.children.tail, x ∈ elems e.children := fun x hx =>
    Exact.mem_elems (List.mem_of_mem_tail (Exact.node_mem hx))
  refine Exact.congr (Exact.bind (listSentences_takes hL he hs) fun _ _ =>
    Exact.map (Exact.readAll fun x hx => hp x (he.child (htail x hx)))) ?_
  rw [Exact.first_strict hn hr rfl rfl rfl rfl]
  constructor
  · rintro ⟨⟨a, d, rest, hc, hacc⟩, h⟩
    refine ⟨by simp [Exact.AttrsOk, Spec.listRule], a, d, rest, hc, hacc, ?_⟩
    rw [hc] at h
    exact h
  · rintro ⟨-, a, d, rest, hc, hacc, h⟩
    refine ⟨⟨a, d, rest, hc, hacc⟩, ?_⟩
    rw [hc]
    exact h

theorem ListOf.fails {tag sentTag errName : String} {childP : Element → Res γ} {e : Element}
    (hn : e.name ≠ tag) : (ListOf.parser (L := L) tag sentTag errName childP e).Fails := by
  unfold ListOf.parser
  rw [if_neg hn]
  exact Fails.err _

theorem Sublist3.takes (hL : L.Takes P m) {e : Element} (he : Fine P m e e)
    (hn : e.name = "Sublist3") : Exact P (Sublist3.parser (L := L) e) (Accepted e) := by
  unfold Sublist3.parser
  rw [if_pos hn]
  refine Exact.congr (Exact.map (listSentences_takes hL he rfl)) ?_
  rw [Exact.first_only hn rfl rfl rfl rfl rfl rfl rfl]
  rfl

theorem Sublist3.fails {e : Element} (hn : e.name ≠ "Sublist3") :
    (Sublist3.parser (L := L) e).Fails := by
  unfold Sublist3.parser
  rw [if_neg hn]
  exact Fails.err _

theorem Sublist2.takes (hL : L.Takes P m) {e : Element} (he : Fine P m e e)
    (hn : e.name = "Sublist2") : Exact P (Sublist2.parser (L := L) e) (Accepted e) :=
  ListOf.takes hL he hn rfl rfl fun _ hx =>
    Exact.checks (fun h => Sublist3.takes hL hx.fine h) Sublist3.fails

theorem Sublist1.takes (hL : L.Takes P m) {e : Element} (he : Fine P m e e)
    (hn : e.name = "Sublist1") : Exact P (Sublist1.parser (L := L) e) (Accepted e) :=
  ListOf.takes hL he hn rfl rfl fun _ hx =>
    Exact.checks (fun h => Sublist2.takes hL hx.fine h) ListOf.fails

theorem LawList.takes (hL : L.Takes P m) {e : Element} (he : Fine P m e e)
    (hn : e.name = "List") : Exact P (LawList.parser (L := L) e) (Accepted e) :=
  ListOf.takes hL he hn rfl rfl fun _ hx =>
    Exact.checks (fun h => Sublist1.takes hL hx.fine h) ListOf.fails

macro_rules
  | `(tactic| takes_leaf) => `(tactic| with_reducible exact LawList.takes (by assumption) (by fine!) (by assumption))

/-! ## Items -/

theorem ItemOf.takes (hL : L.Takes P m) {tag titleTag sentTag : String}
    {as : List (String × (Element → Res γ))} {e : Element} (he : Fine P m e e)
    (hn : e.name = tag)
    (hr : Spec.rules.lookup tag = some (Spec.itemRule titleTag sentTag (as.map Prod.fst)))
    (ht : Spec.rules.lookup titleTag = some Spec.free)
    (hs : Spec.rules.lookup sentTag = some Spec.itemSentence)
    (hts : titleTag ≠ sentTag)
    (ha : Exact.Arms P m as) :
    Exact P (ItemOf.parser (L := L) tag titleTag sentTag as e) (Accepted e) := by
  unfold ItemOf.parser ItemOf.step
  simp only [Exact.matchTag_append']
  rw [if_pos hn]
  refine Exact.congr (Exact.bind (Exact.present e _) fun _ _ =>
    Exact.bind (Exact.getBool e _) fun _ _ => Exact.bind (Exact.getBool e _) fun _ _ =>
    Exact.bind (Exact.tagLoop (tags := [titleTag, sentTag] ++ Spec.structTags ++ as.map Prod.fst)
      he (fun s => ?_) (fun s => ?_) (fun _ _ => by exact Fails.unexpected _ _) _) fun s hs =>
    (?_ : Exact P _ (∃ x ∈ elems e.children, x.name ∈ [sentTag]))) ?_
  · refine Exact.arms_append ?_ (Exact.childArms ha)
    refine Exact.arms_cons (fun x hx hn => Exact.map (Text.ofElement_takes hL hx.fine hn ht)) ?_
    refine Exact.arms_cons (fun x hx hn => Exact.map
      (SentenceOrColumnOrTable.takes hL hx.fine hn hs)) ?_
    arms
  · simp [childArms, Spec.structTags, Function.comp_def]
  · rw [← Exact.field (fun s => s.sentence ≠ none) hs (by simp)]
    · cases s.sentence with
      | none => exact (Exact.err _).congr (by simp)
      | some v => exact (Exact.ok _).congr (by simp)
    · intro s x s' h
      simp only [← Exact.matchTag_append'] at h
      simp only [matchTag_cons] at h
      split at h
      · obtain ⟨_, _, h'⟩ := Res.bind_eq_ok.1 h
        cases h'
        simp_all
      · split at h
        · obtain ⟨_, _, h'⟩ := Res.bind_eq_ok.1 h
          cases h'
          simp_all
        · have : s'.sentence = s.sentence := by
            repeat' split at h
            · obtain ⟨_, _, h'⟩ := Res.bind_eq_ok.1 h; cases h'; rfl
            · obtain ⟨_, _, h'⟩ := Res.bind_eq_ok.1 h; cases h'; rfl
            · obtain ⟨_, _, h'⟩ := Res.bind_eq_ok.1 h; cases h'; rfl
            · obtain ⟨_, _, h'⟩ := Res.bind_eq_ok.1 h; cases h'; rfl
            · rw [matchTag_nil] at h
              obtain ⟨a, rfl⟩ := Exact.childArms_ok (Fails.unexpected _ _) h
              rfl
          simp_all
  · rw [Exact.strict hn hr rfl rfl rfl]
    simp [Exact.AttrsOk, Exact.MustOk, Spec.itemRule, and_assoc]

theorem Subitem10.takes (hL : L.Takes P m) {e : Element} (he : Fine P m e e)
    (hn : e.name = "Subitem10") : Exact P (Subitem10.parser (L := L) e) (Accepted e) :=
  ItemOf.takes hL he hn rfl rfl rfl (by decide) Exact.arms_nil

macro_rules
  | `(tactic| takes_leaf) => `(tactic| with_reducible exact Subitem10.takes (by assumption) (by fine!) (by assumption))

theorem Subitem9.takes (hL : L.Takes P m) {e : Element} (he : Fine P m e e)
    (hn : e.name = "Subitem9") : Exact P (Subitem9.parser (L := L) e) (Accepted e) :=
  ItemOf.takes hL he hn rfl rfl rfl (by decide) (by arms)

macro_rules
  | `(tactic| takes_leaf) => `(tactic| with_reducible exact Subitem9.takes (by assumption) (by fine!) (by assumption))

theorem Subitem8.takes (hL : L.Takes P m) {e : Element} (he : Fine P m e e)
    (hn : e.name = "Subitem8") : Exact P (Subitem8.parser (L := L) e) (Accepted e) :=
  ItemOf.takes hL he hn rfl rfl rfl (by decide) (by arms)

macro_rules
  | `(tactic| takes_leaf) => `(tactic| with_reducible exact Subitem8.takes (by assumption) (by fine!) (by assumption))

theorem Subitem7.takes (hL : L.Takes P m) {e : Element} (he : Fine P m e e)
    (hn : e.name = "Subitem7") : Exact P (Subitem7.parser (L := L) e) (Accepted e) :=
  ItemOf.takes hL he hn rfl rfl rfl (by decide) (by arms)

macro_rules
  | `(tactic| takes_leaf) => `(tactic| with_reducible exact Subitem7.takes (by assumption) (by fine!) (by assumption))

theorem Subitem6.takes (hL : L.Takes P m) {e : Element} (he : Fine P m e e)
    (hn : e.name = "Subitem6") : Exact P (Subitem6.parser (L := L) e) (Accepted e) :=
  ItemOf.takes hL he hn rfl rfl rfl (by decide) (by arms)

macro_rules
  | `(tactic| takes_leaf) => `(tactic| with_reducible exact Subitem6.takes (by assumption) (by fine!) (by assumption))

theorem Subitem5.takes (hL : L.Takes P m) {e : Element} (he : Fine P m e e)
    (hn : e.name = "Subitem5") : Exact P (Subitem5.parser (L := L) e) (Accepted e) :=
  ItemOf.takes hL he hn rfl rfl rfl (by decide) (by arms)

macro_rules
  | `(tactic| takes_leaf) => `(tactic| with_reducible exact Subitem5.takes (by assumption) (by fine!) (by assumption))

theorem Subitem4.takes (hL : L.Takes P m) {e : Element} (he : Fine P m e e)
    (hn : e.name = "Subitem4") : Exact P (Subitem4.parser (L := L) e) (Accepted e) :=
  ItemOf.takes hL he hn rfl rfl rfl (by decide) (by arms)

macro_rules
  | `(tactic| takes_leaf) => `(tactic| with_reducible exact Subitem4.takes (by assumption) (by fine!) (by assumption))

theorem Subitem3.takes (hL : L.Takes P m) {e : Element} (he : Fine P m e e)
    (hn : e.name = "Subitem3") : Exact P (Subitem3.parser (L := L) e) (Accepted e) :=
  ItemOf.takes hL he hn rfl rfl rfl (by decide) (by arms)

macro_rules
  | `(tactic| takes_leaf) => `(tactic| with_reducible exact Subitem3.takes (by assumption) (by fine!) (by assumption))

theorem Subitem2.takes (hL : L.Takes P m) {e : Element} (he : Fine P m e e)
    (hn : e.name = "Subitem2") : Exact P (Subitem2.parser (L := L) e) (Accepted e) :=
  ItemOf.takes hL he hn rfl rfl rfl (by decide) (by arms)

macro_rules
  | `(tactic| takes_leaf) => `(tactic| with_reducible exact Subitem2.takes (by assumption) (by fine!) (by assumption))

theorem Subitem1.takes (hL : L.Takes P m) {e : Element} (he : Fine P m e e)
    (hn : e.name = "Subitem1") : Exact P (Subitem1.parser (L := L) e) (Accepted e) :=
  ItemOf.takes hL he hn rfl rfl rfl (by decide) (by arms)

macro_rules
  | `(tactic| takes_leaf) => `(tactic| with_reducible exact Subitem1.takes (by assumption) (by fine!) (by assumption))

theorem Item.takes (hL : L.Takes P m) {e : Element} (he : Fine P m e e)
    (hn : e.name = "Item") : Exact P (Item.parser (L := L) e) (Accepted e) :=
  ItemOf.takes hL he hn rfl rfl rfl (by decide) (by arms)

macro_rules
  | `(tactic| takes_leaf) => `(tactic| with_reducible exact Item.takes (by assumption) (by fine!) (by assumption))

end JLaw
