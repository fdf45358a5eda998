import Verif.Props.Message
import Verif.Props.Schema
import Verif.Reading.SettleRewrite

/-!
# Files of documents that are written
-/

namespace JLaw

open Spec

/-! ## The verdict does not depend on texts -/

/-- There are no strings where the first nodes matter. -/
def FirmNode (x : XMLNode) : Prop :=
  ∀ n a c, Within (.element n a c) x → ∀ r, rules.lookup n = some r → r.first ≠ [] →
    ∀ y ∈ c, isString y = false

theorem FirmNode.child {n : String} {a : Attrs} {c : List XMLNode} (h : FirmNode (.element n a c))
    {x : XMLNode} (hx : x ∈ c) : FirmNode x := fun m b d hw => h m b d (.child _ _ _ x hx hw)

theorem joinTexts_elements (c : List XMLNode) :
    (joinTexts c).filter isElement = c.filter isElement := by
  induction c with
  | nil => rfl
  | cons x c ih =>
    cases x with
    | text s =>
      rw [joinTexts_cons_text, List.filter_cons_of_neg (by simp [isElement]), ← ih]
      split
      · next t d h => rw [h]; simp [isElement]
      · next d h => simp [isElement]
    | _ => rw [joinTexts_cons_other rfl, List.filter_cons, List.filter_cons, ih]

theorem tidy_elements (c : List XMLNode) : (tidy c).filter isElement = c.filter isElement := by
  rw [tidy, List.filter_filter, ← joinTexts_elements c]
  refine List.filter_congr fun x _ => ?_
  cases x <;> simp [isElement, isBlank]

theorem tidy_no_strings {c : List XMLNode} (h : ∀ y ∈ c, isString y = false) : tidy c = c := by
  refine tidy_eq ?_ fun s hs => by cases h _ hs
  induction c with
  | nil => trivial
  | cons x c ih =>
    refine (apart_cons _ _).2 ⟨fun h' => ?_, ih fun y hy => h y (List.mem_cons_of_mem _ hy)⟩
    rw [h x List.mem_cons_self] at h'
    cases h'.1

theorem elems_filter (c : List XMLNode) : elems (c.filter isElement) = elems c := by
  induction c with
  | nil => rfl
  | cons x c ih =>
    cases x with
    | element n a d =>
      rw [List.filter_cons_of_pos rfl, elems_element, elems_element, ih]
    | _ => exact ih

theorem filter_pairs {α : Type} (f : XMLNode → α) (c : List XMLNode) :
    (c.map fun x => (x, f x)).filter (fun p => isElement p.1) =
      (c.filter isElement).map fun x => (x, f x) := by
  rw [List.filter_map]; rfl

theorem Rule.checkNode_other (r : Rule) {p : XMLNode × Bool} (h : isElement p.1 = false) :
    r.checkNode p = true := by
  obtain ⟨x, b⟩ := p
  cases x <;> first | rfl | cases h

theorem Rule.check_elements (r : Rule) (hr : r.first = []) (a : Attrs) (f : XMLNode → Bool)
    (c : List XMLNode) : r.check a ((c.filter isElement).map fun x => (x, f x)) =
      r.check a (c.map fun x => (x, f x)) := by
  have h1 : ∀ d : List XMLNode, (d.map fun x => (x, f x)).map Prod.fst = d := fun d => by
    rw [List.map_map]; exact List.map_id d
  have h2 : ((c.filter isElement).map fun x => (x, f x)).all r.checkNode =
      (c.map fun x => (x, f x)).all r.checkNode := by
    rw [← filter_pairs, List.all_filter]
    refine List.all_congr rfl fun p => ?_
    cases hp : isElement p.1 with
    | true => simp
    | false => rw [Rule.checkNode_other r hp]; rfl
  simp only [Rule.check, hr, List.length_nil, List.drop_zero, List.take_zero, h1, elems_filter, h2,
    startsWith]

theorem accepts_firm (x : XMLNode) (h : FirmNode x) : accepts (settleNode x) = accepts x := by
  induction x using nodeInduction with
  | he n a c ih =>
    rw [settleNode, settleEach_eq, accepts, accepts, acceptsList_eq, acceptsList_eq]
    split
    · next r hr =>
      have hk : ((c.map settleNode).map fun x => (x, accepts x)) =
          (c.map fun x => (x, accepts x)).map fun p => (settleNode p.1, p.2) := by
        rw [List.map_map, List.map_map]
        refine List.map_congr_left fun y hy => ?_
        rw [Function.comp_apply, Function.comp_apply, ih y hy (h.child hy)]
      by_cases hf : r.first = []
      · rw [← Rule.check_elements r hf, tidy_elements, Rule.check_elements r hf, hk,
          Rule.check_map_settle]
      · rw [tidy_no_strings, hk, Rule.check_map_settle]
        intro y hy
        obtain ⟨z, hz, rfl⟩ := List.mem_map.1 hy
        rw [isString_settle]
        exact h n a c .refl r hr hf z hz
    · rfl
  | ho x hx => rw [settleNode_of_not hx]

theorem Rule.judgeNode_other (tag : String) (r : Rule) {p : XMLNode × Verdict}
    (h : isElement p.1 = false) : r.judgeNode tag p = .fine := by
  obtain ⟨x, b⟩ := p
  cases x <;> first | rfl | cases h

theorem Rule.judgeNodes_elements (tag : String) (r : Rule) (c : List (XMLNode × Verdict)) :
    Verdict.all ((c.filter fun p => isElement p.1).map (r.judgeNode tag)) =
      Verdict.all (c.map (r.judgeNode tag)) := by
  induction c with
  | nil => rfl
  | cons p c ih =>
    by_cases hp : isElement p.1 = true
    · rw [List.filter_cons_of_pos (p := fun p : XMLNode × Verdict => isElement p.1) hp, List.map_cons,
        List.map_cons, Verdict.all, Verdict.all, ih]
    · rw [List.filter_cons_of_neg (p := fun p : XMLNode × Verdict => isElement p.1) hp, ih, List.map_cons, Verdict.all,
        Rule.judgeNode_other tag r (by simpa using hp)]
      rfl

theorem Rule.judgeHeads_elements (tag : String) (r : Rule) (c : List (XMLNode × Verdict)) :
    r.judgeHeads tag (c.filter fun p => isElement p.1) = r.judgeHeads tag c := by
  induction c with
  | nil => rfl
  | cons p c ih =>
    obtain ⟨x, v⟩ := p
    cases x with
    | element n a d =>
      rw [List.filter_cons_of_pos rfl, Rule.judgeHeads, Rule.judgeHeads, ih]
      split
      · rfl
      · have := Rule.judgeNodes_elements tag r ((.element n a d, v) :: c)
        rwa [List.filter_cons_of_pos rfl] at this
    | _ => exact ih

theorem Rule.judge_elements (tag : String) (r : Rule) (hr : r.first = []) (a : Attrs)
    (f : XMLNode → Verdict) (c : List XMLNode) :
    r.judge tag a ((c.filter isElement).map fun x => (x, f x)) =
      r.judge tag a (c.map fun x => (x, f x)) := by
  have h1 : ∀ d : List XMLNode, (d.map fun x => (x, f x)).map Prod.fst = d := fun d => by
    rw [List.map_map]; exact List.map_id d
  have h2 : r.judgeRest tag ((c.filter isElement).map fun x => (x, f x)) =
      r.judgeRest tag (c.map fun x => (x, f x)) := by
    rw [← filter_pairs, Rule.judgeRest, Rule.judgeRest, Rule.judgeHeads_elements,
      Rule.judgeNodes_elements]
  simp only [Rule.judge, hr, List.length_nil, List.drop_zero, h1, h2, judgeFirst, Rule.judgeMust,
    elems_filter]

theorem judge_firm (x : XMLNode) (h : FirmNode x) : judge (settleNode x) = judge x := by
  induction x using nodeInduction with
  | he n a c ih =>
    rw [settleNode, settleEach_eq, judge, judge, judgeList_eq', judgeList_eq']
    split
    · next r hr =>
      have hk : ((c.map settleNode).map fun x => (x, judge x)) =
          (c.map fun x => (x, judge x)).map fun p => (settleNode p.1, p.2) := by
        rw [List.map_map, List.map_map]
        refine List.map_congr_left fun y hy => ?_
        rw [Function.comp_apply, Function.comp_apply, ih y hy (h.child hy)]
      by_cases hf : r.first = []
      · rw [← Rule.judge_elements n r hf, tidy_elements, Rule.judge_elements n r hf, hk,
          Rule.judge_map_settle]
      · rw [tidy_no_strings, hk, Rule.judge_map_settle]
        intro y hy
        obtain ⟨z, hz, rfl⟩ := List.mem_map.1 hy
        rw [isString_settle]
        exact h n a c .refl r hr hf z hz
    · rfl
  | ho x hx => rw [settleNode_of_not hx]

/-! ## What is written -/

/-- The particle is about elements only. -/
def elementsOnly : Particle → Bool
  | .one _ | .opt _ | .many _ => true
  | _ => false

theorem hasTag_element {tags : List String} {x : XMLNode} (h : HasTag tags x) : isElement x = true := by
  cases x <;> first | rfl | cases h

theorem sequence_elements {ps : List Particle} (hp : ∀ p ∈ ps, elementsOnly p = true)
    {c : List XMLNode} (h : Sequence ps c) : ∀ y ∈ c, isElement y = true := by
  induction ps generalizing c with
  | nil => rw [show c = [] from h]; nofun
  | cons p ps ih =>
    obtain ⟨c1, c2, rfl, h1, h2⟩ := h
    intro y hy
    rcases List.mem_append.1 hy with hy | hy
    · have := hp p List.mem_cons_self
      cases p with
      | one tags =>
        obtain ⟨x, rfl, hx⟩ := h1
        rw [List.mem_singleton.1 hy]
        exact hasTag_element hx
      | opt tags =>
        rcases h1 with rfl | ⟨x, rfl, hx⟩
        · cases hy
        · rw [List.mem_singleton.1 hy]
          exact hasTag_element hx
      | many tags => exact hasTag_element (h1 y hy)
      | _ => cases this
    · exact ih (fun q hq => hp q (List.mem_cons_of_mem _ hq)) h2 y hy

/-- What is written has no strings where the first nodes matter. -/
theorem written_firm {n : Nat} (x : Law (lvl n)) : FirmNode x.toXml.node := by
  intro t a c hw r hr hf y hy
  have hc := C75_every_element n x ⟨t, a, c⟩ hw
  cases hc with
  | intro e forms f hl hf' _ hs _ =>
    have key : schema.all (fun p => ((rules.lookup p.1).all fun r =>
        r.first.isEmpty || p.2.all fun f => f.content.all elementsOnly)) = true := by decide +kernel
    have h1 := List.all_eq_true.1 key _ (lookup_pair_mem hl)
    simp only [show rules.lookup t = some r from hr, Option.all_some, Bool.or_eq_true,
      List.isEmpty_iff, hf, false_or] at h1
    have h2 := List.all_eq_true.1 (List.all_eq_true.1 h1 f hf')
    have := sequence_elements h2 hs y hy
    cases y <;> first | rfl | cases this

theorem sequence_plain {ps : List Particle} {c : List XMLNode} (h : Sequence ps c) :
    ∀ y ∈ c, y.isOther = false := by
  have ht : ∀ {tags x}, HasTag tags x → x.isOther = false := by
    intro tags x h
    cases x <;> first | rfl | cases h
  induction ps generalizing c with
  | nil => rw [show c = [] from h]; nofun
  | cons p ps ih =>
    obtain ⟨c1, c2, rfl, h1, h2⟩ := h
    intro y hy
    rcases List.mem_append.1 hy with hy | hy
    · cases p with
      | one tags =>
        obtain ⟨x, rfl, hx⟩ := h1
        rw [List.mem_singleton.1 hy]
        exact ht hx
      | opt tags =>
        rcases h1 with rfl | ⟨x, rfl, hx⟩
        · cases hy
        · rw [List.mem_singleton.1 hy]
          exact ht hx
      | many tags => exact ht (h1 y hy)
      | mixed tags =>
        rcases h1 y hy with h | ⟨s, rfl⟩
        · exact ht h
        · rfl
      | text =>
        obtain ⟨s, rfl⟩ := h1
        rw [List.mem_singleton.1 hy]
        rfl
    · exact ih h2 y hy

theorem within_split {x y : XMLNode} (h : Within x y) :
    x = y ∨ ∃ n a c, Within (.element n a c) y ∧ x ∈ c := by
  induction h with
  | refl => exact .inl rfl
  | child n a c z hz _ ih =>
    refine .inr ?_
    rcases ih with rfl | ⟨m, b, d, h1, h2⟩
    · exact ⟨n, a, c, .refl, hz⟩
    · exact ⟨m, b, d, .child _ _ _ z hz h1, h2⟩

theorem written_plain {n : Nat} (x : Law (lvl n)) : NoComments x.toXml := by
  intro y hy
  rcases within_split hy with rfl | ⟨t, a, c, h1, h2⟩
  · rfl
  · have hc := C75_every_element n x ⟨t, a, c⟩ h1
    cases hc with
    | intro e forms f hl hf' _ hs _ => exact sequence_plain hs y h2

theorem settle_plain {e : Element} (h : NoComments e) : NoComments (settle e) := by
  intro y hy
  rcases within_split hy with rfl | ⟨t, a, c, h1, h2⟩
  · rfl
  · rw [← settleNode_node] at h1
    obtain ⟨d, h3, rfl⟩ := within_settle _ h1
    by_cases hs : isString y = true
    · cases y <;> first | rfl | cases hs
    · rw [mem_tidy_other (by simpa using hs), List.mem_map] at h2
      obtain ⟨z, hz, rfl⟩ := h2
      have := h z (Within.trans (.child _ _ _ z hz .refl) h3)
      cases z <;> first | rfl | cases this

/-! ## Texts of what is written -/

/-- The children are as they are written: strings, ruby, superscripts, subscripts and accepted lines
in a text, strings and then an element in a ruby. -/
def HeldBy (n : String) (c : List XMLNode) : Prop :=
  (n ∈ textElements → ∀ m b d, .element m b d ∈ c →
    m ∈ ["Ruby", "Sup", "Sub"] ∨ m = "Line" ∧ accepts (.element m b d) = true) ∧
  (n = "Ruby" → ∃ s t, c = s ++ [t] ∧ (∀ y ∈ s, isString y = true) ∧ isElement t = true)

/-- The same everywhere. -/
def HeldNode (x : XMLNode) : Prop := ∀ n a c, Within (.element n a c) x → HeldBy n c

theorem HeldNode.child {n : String} {a : Attrs} {c : List XMLNode} (h : HeldNode (.element n a c))
    {x : XMLNode} (hx : x ∈ c) : HeldNode x := fun m b d hw => h m b d (.child _ _ _ x hx hw)

theorem heldNode_element {n : String} {a : Attrs} {c : List XMLNode} (h1 : HeldBy n c)
    (h2 : ∀ x ∈ c, HeldNode x) : HeldNode (.element n a c) := by
  intro m b d hw
  cases hw with
  | refl => exact h1
  | child _ _ _ y hy hw => exact h2 y hy m b d hw

theorem heldNode_other {x : XMLNode} (h : isElement x = false) : HeldNode x := by
  intro m b d hw
  have := within_other h hw
  subst this
  cases h

/-- Neither a text nor a ruby. -/
def coarse (n : String) : Bool := !textElements.contains n && n != "Ruby"

theorem heldBy_coarse {n : String} (h : coarse n = true) (c : List XMLNode) : HeldBy n c := by
  simp only [coarse, Bool.and_eq_true, Bool.not_eq_true', bne_iff_ne] at h
  refine ⟨fun hn => ?_, fun hn => absurd hn h.2⟩
  rw [List.contains_iff_mem.2 hn] at h
  cases h.1

/-- The portion consists of elements that are read, and of elements made of them. -/
def heldPortion (r : Rule) : Portion → Bool
  | .mixed | .elements => r.skipped == some []
  | .first k => k == r.first.length
  | .each tags => r.skipped == some [] || tags.all r.kids.contains
  | .last t | .lastUnlessEmpty t => r.skipped == some [] || r.kids.contains t
  | .lastUnder t under =>
    (r.skipped == some [] || r.kids.contains t) && textElements.contains t && under != "Ruby" &&
      t != "SupplProvisionAppdx"
  | .lastOr t children => (r.skipped == some [] || r.kids.contains t) && children.isEmpty &&
      t != "Ruby"
  | .merged t => (r.skipped == some [] || r.kids.contains t) && coarse t
  | .wrapped t w => (r.skipped == some [] || r.kids.contains t) && coarse w
  | .before t _ | .after t _ => t == "Remarks"
  | .either p q => heldPortion r p && heldPortion r q
  | _ => false

/-- What is known about the rules and the layouts. -/
def heldParts (n : String) (r : Option Rule) : List Portion → Bool
  | [.text] => n != "Ruby" && !blindTags.contains n && r.any fun r =>
      r.first.isEmpty && r.heads.isEmpty && r.kids.isEmpty && r.skipped == none
  | [.strings, .lastOr t [.text s]] => t == "Rt" && s == "" && n == "Ruby"
  | [.joined] => coarse n
  | [.firstString] => coarse n
  | l => coarse n && r.any fun r => l.all (heldPortion r)

theorem held_table : layouts.all (fun p =>
    heldParts p.1 (rules.lookup p.1) p.2.parts && (p.2.tag.all coarse)) = true := by decide +kernel

/-! ### Which child elements are judged -/

theorem andThen_fine' {v w : Verdict} (h : v.andThen w = .fine) : v = .fine ∧ w = .fine := by
  cases v with
  | fine => exact ⟨rfl, h⟩
  | _ => cases h

theorem all_fine' {l : List Verdict} (h : Verdict.all l = .fine) : ∀ v ∈ l, v = .fine := by
  induction l with
  | nil => nofun
  | cons v l ih =>
    obtain ⟨h1, h2⟩ := andThen_fine' (show v.andThen (Verdict.all l) = .fine from h)
    intro w hw
    rcases List.mem_cons.1 hw with rfl | hw
    · exact h1
    · exact ih h2 w hw

theorem Rule.judge_parts {tag : String} {r : Rule} (hr : rules.lookup tag = some r) {a : Attrs}
    {c : List (XMLNode × Verdict)} (h : r.judge tag a c = .fine) :
    judgeFirst tag r.first c = .fine ∧ r.judgeRest tag (c.drop r.first.length) = .fine := by
  rw [Rule.judge] at h
  split at h
  · next ht =>
    refine ⟨?_, (andThen_fine' h).1⟩
    have : r.first = [] := by
      simp only [captionTags, List.contains_iff_mem, List.mem_cons, List.not_mem_nil,
        or_false] at ht
      rcases ht with rfl | rfl
      · cases hr; rfl
      · cases hr; rfl
    rw [this]
    rfl
  · obtain ⟨-, h⟩ := andThen_fine' h
    obtain ⟨h1, h⟩ := andThen_fine' h
    exact ⟨h1, (andThen_fine' h).1⟩

theorem judgeFirst_fine {tag : String} {ts : List String} {c : List (XMLNode × Verdict)}
    (h : judgeFirst tag ts c = .fine) : ∀ p ∈ c.take ts.length, p.2 = .fine := by
  induction ts generalizing c with
  | nil => simp
  | cons t ts ih =>
    cases c with
    | nil => simp
    | cons p c =>
      obtain ⟨x, v⟩ := p
      cases x with
      | element n a d =>
        rw [judgeFirst] at h
        split at h
        · obtain ⟨h1, h2⟩ := andThen_fine' h
          intro q hq
          rw [List.length_cons, List.take_succ_cons] at hq
          rcases List.mem_cons.1 hq with rfl | hq
          · exact h1
          · exact ih h2 q hq
        · cases h
      | _ => cases h

theorem Rule.judgeHeads_fine {tag : String} {r : Rule} (hs : r.skipped = some [])
    {c : List (XMLNode × Verdict)} (h : r.judgeHeads tag c = .fine) :
    ∀ p ∈ c, isElement p.1 = true → p.2 = .fine := by
  have key : ∀ p : XMLNode × Verdict, r.judgeNode tag p = .fine → isElement p.1 = true →
      p.2 = .fine := by
    rintro ⟨x, v⟩ h hx
    cases x with
    | element n a d =>
      rw [Rule.judgeNode, hs] at h
      split at h
      · exact h
      · simp at h
    | _ => cases hx
  induction c with
  | nil => nofun
  | cons p c ih =>
    obtain ⟨x, v⟩ := p
    intro q hq hx
    cases x with
    | element n a d =>
      rw [Rule.judgeHeads] at h
      split at h
      · obtain ⟨h1, h2⟩ := andThen_fine' h
        rcases List.mem_cons.1 hq with rfl | hq
        · exact h1
        · exact ih h2 q hq hx
      · exact key q (all_fine' h _ (List.mem_map.2 ⟨q, hq, rfl⟩)) hx
    | _ =>
      rcases List.mem_cons.1 hq with rfl | hq
      · cases hx
      · exact ih h q hq hx

theorem rules_heads : ∀ p ∈ rules, p.2.heads = [] ∨ p.2.skipped = some [] := by decide +kernel

/-- A child element that has to be read is judged fine. -/
theorem judge_kid {n : String} {r : Rule} (hr : rules.lookup n = some r) {a : Attrs}
    {c : List XMLNode} (h : judge (.element n a c) = .fine) {m : String} {b : Attrs}
    {d : List XMLNode} (hm : .element m b d ∈ c) (hk : r.skipped = some [] ∨ m ∈ r.kids) :
    judge (.element m b d) = .fine := by
  rw [judge, hr] at h
  simp only [judgeList_eq'] at h
  obtain ⟨h1, h2⟩ := Rule.judge_parts hr h
  have hp : (XMLNode.element m b d, judge (.element m b d)) ∈ c.map fun x => (x, judge x) :=
    List.mem_map.2 ⟨_, hm, rfl⟩
  rw [← List.take_append_drop r.first.length (c.map fun x => (x, judge x))] at hp
  rcases List.mem_append.1 hp with hp | hp
  · exact judgeFirst_fine h1 _ hp
  · rw [Rule.judgeRest] at h2
    split at h2
    · have h3 := all_fine' h2 _ (List.mem_map.2 ⟨_, hp, rfl⟩)
      rw [Rule.judgeNode] at h3
      split at h3
      · exact h3
      · next hk' =>
        rcases hk with hk | hk
        · rw [hk] at h3
          simp at h3
        · exact absurd (List.contains_iff_mem.2 hk) hk'
    · next hh =>
      refine Rule.judgeHeads_fine ?_ h2 _ hp rfl
      exact (rules_heads _ (lookup_pair_mem hr)).resolve_left hh

theorem judge_first_kid {n : String} {r : Rule} (hr : rules.lookup n = some r) {a : Attrs}
    {c : List XMLNode} (h : judge (.element n a c) = .fine) {y : XMLNode}
    (hm : y ∈ c.take r.first.length) : judge y = .fine := by
  rw [judge, hr] at h
  simp only [judgeList_eq'] at h
  obtain ⟨h1, -⟩ := Rule.judge_parts hr h
  refine judgeFirst_fine h1 (y, judge y) ?_
  rw [← List.map_take]
  exact List.mem_map.2 ⟨y, hm, rfl⟩

theorem judge_line {n : String} {r : Rule} (hr : rules.lookup n = some r) (hf : r.first = [])
    (hh : r.heads = []) (hk : r.kids = []) (hs : r.skipped = none) (hb : n ∉ blindTags) {a : Attrs}
    {c : List XMLNode} (h : judge (.element n a c) = .fine) {b : Attrs} {d : List XMLNode}
    (hm : .element "Line" b d ∈ c) : (judge (.element "Line" b d)).tolerated = .fine := by
  rw [judge, hr] at h
  simp only [judgeList_eq'] at h
  obtain ⟨-, h2⟩ := Rule.judge_parts hr h
  rw [Rule.judgeRest, if_pos hh, hf] at h2
  have h3 := all_fine' h2 _ (List.mem_map.2
    ⟨(XMLNode.element "Line" b d, judge (.element "Line" b d)), by
      exact List.mem_map.2 ⟨_, hm, rfl⟩, rfl⟩)
  rw [Rule.judgeNode, hk, hs] at h3
  simpa [hb] using h3

/-! ### Lines -/

theorem line_fine {x : Element} (hn : x.name = "Line") (ha : accepts x.node = true)
    (hj : (judge x.node).tolerated = .fine) : judge x.node = .fine := by
  have h1 := Line.judged (lvl_judges x.node.height) (fine_self (Nat.le_refl _)) hn
  have h2 := (Line.takes (lvl_takes True x.node.height) (fine_self (Nat.le_refl _)) hn).complete
    ((accepts_iff x).1 ha)
  cases hv : judge x.node with
  | fine => rfl
  | wrong E =>
    rw [hv] at h1
    rcases h2 with ⟨_, h⟩ | ⟨_, h⟩ <;>
    · rw [show Line.parser x = Res.err E from h1] at h
      cases h
  | crash => rw [hv] at hj; cases hj

theorem CleanNode.child {n : String} {a : Attrs} {c : List XMLNode} (h : CleanNode (.element n a c))
    {x : XMLNode} (hx : x ∈ c) : CleanNode x := fun y hw => h y (.child _ _ _ x hx hw)

/-- What is written for a line that is read is accepted. -/
theorem line_again {x : Element} (hn : x.name = "Line") (hc : CleanNode x.node)
    (hj : judge x.node = .fine) : accepts (rewriteNode x.node) = true := by
  have h1 := Line.judged (lvl_judges (x.node.height + 1)) (fine_self (Nat.le_succ _)) hn
  rw [hj] at h1
  obtain ⟨v, hv⟩ := h1
  have h2 := Line.rewrites (lvl_rewrites (x.node.height + 1)) x v (by omega) hn hv
  have h3 := (Line.round_trip (lvl_sound _) v).2 (Line.gives (lvl_reads _) hc v hv)
  have hh : (rewrite x).node.height ≤ x.node.height + 1 := height_rewrite x
  rw [h2] at h3
  have h4 := (Line.takes (lvl_takes True (x.node.height + 1)) (fine_self hh)
    (by rw [← h2]; rfl)).sound ⟨v, h3⟩
  rw [Element.node, rewriteNode]
  exact (accepts_iff _).2 h4

/-! ### Documents -/

theorem rewriteNode_name (n : String) (a : Attrs) (c : List XMLNode) :
    ∃ m b d, rewriteNode (.element n a c) = .element m b d ∧
      (m = n ∨ n = "SupplProvisionAppdx" ∧ m = "Appdx") := by
  rw [rewriteNode_element]
  exact ⟨_, _, _, rfl, rebuild_name n a (rewriteList c)⟩

theorem elems_node {x : Element} {c : List XMLNode} (h : x ∈ elems c) : x.node ∈ c := by
  obtain ⟨y, hy, he⟩ := List.mem_filterMap.1 h
  cases y with
  | element n a d => cases he; exact hy
  | _ => cases he

theorem remarks_not_accepted {a : Attrs} {c : List XMLNode} (hc : CleanNode (.element "Remarks" a c)) :
    accepts (.element "Remarks" a c) = false := by
  by_contra h
  have h : accepts (Element.node ⟨"Remarks", a, c⟩) = true := by simpa using h
  obtain ⟨_, r, hr, ho, -⟩ := (accepts_iff _).1 h
  cases hr
  obtain ⟨x, hx, hl⟩ := ho.must ["RemarksLabel"] (by simp)
  rw [List.mem_singleton] at hl
  have hx : x ∈ elems c := by simpa using hx
  refine hc _ .refl (.remarks (a' := x.attributes) (c' := x.children) ?_)
  rw [← hl]
  exact elems_node hx

theorem heldPortion_nodes {n : String} {r : Rule} (hr : rules.lookup n = some r) {a : Attrs}
    {c : List XMLNode} (h : judge (.element n a c) = .fine) (hc : CleanNode (.element n a c))
    (ih : ∀ y ∈ c, judge y = .fine → CleanNode y → HeldNode (rewriteNode y)) (p : Portion)
    (hp : heldPortion r p = true) {x : XMLNode} (hx : x ∈ p.nodes (rewriteList c)) : HeldNode x := by
  have hold : ∀ {y}, y ∈ c → (isElement y = true → r.skipped = some [] ∨ isNamed r.kids y = true) →
      HeldNode (rewriteNode y) := by
    intro y hy hk
    cases y with
    | element m b d =>
      refine ih _ hy (judge_kid hr h hy ((hk rfl).imp_right fun h => ?_)) (hc.child hy)
      exact List.contains_iff_mem.1 h
    | _ => exact heldNode_other (by rw [isElement_rewrite]; rfl)
  have hnamed : ∀ {tags x}, r.skipped = some [] ∨ (∀ t ∈ tags, t ∈ r.kids) →
      x ∈ pick (isNamed tags) (rewriteList c) → HeldNode x := by
    intro tags x hk hx
    obtain ⟨y, hy', hn⟩ := mem_pick hx
    obtain ⟨hy, rfl⟩ := mem_rewriteList hy'
    refine hold hy fun _ => hk.imp_right fun hk => ?_
    cases y with
    | element m b d => exact List.contains_iff_mem.2 (hk m (List.contains_iff_mem.1 hn))
    | _ => cases hn
  have hkids : ∀ {t x}, r.skipped = some [] ∨ t ∈ r.kids →
      x ∈ (pick (isNamed [t]) (rewriteList c)).flatMap kidsOf → HeldNode x := by
    intro t x hk hx
    obtain ⟨z, hz, hx⟩ := List.mem_flatMap.1 hx
    have hz := hnamed (hk.imp_right fun hk => by simpa using hk) hz
    cases z with
    | element m b d => exact hz.child hx
    | _ => cases hx
  have hremarks : ∀ {d : List (XMLNode × XMLNode)} {x}, (∀ z ∈ d, z ∈ rewriteList c) →
      x ∈ pick (fun x => isNamed ["Remarks"] x && accepts x) d → False := by
    intro d x hd hx
    obtain ⟨y, hy, hn⟩ := mem_pick hx
    obtain ⟨hy, -⟩ := mem_rewriteList (hd _ hy)
    rw [Bool.and_eq_true] at hn
    obtain ⟨b, e, rfl⟩ := named_of hn.1
    rw [remarks_not_accepted (hc.child hy)] at hn
    cases hn.2
  induction p generalizing x with
  | mixed =>
    obtain ⟨y, hy', -⟩ := mem_pick hx
    obtain ⟨hy, rfl⟩ := mem_rewriteList hy'
    exact hold hy fun _ => .inl (by simpa [heldPortion] using hp)
  | elements =>
    obtain ⟨y, hy', -⟩ := mem_pick hx
    obtain ⟨hy, rfl⟩ := mem_rewriteList hy'
    exact hold hy fun _ => .inl (by simpa [heldPortion] using hp)
  | first k =>
    have hk : k = r.first.length := by simpa [heldPortion] using hp
    subst hk
    rw [Portion.nodes, rewriteList_eq, ← List.map_take, List.map_map] at hx
    obtain ⟨y, hy, rfl⟩ := List.mem_map.1 hx
    have hy' := List.mem_of_mem_take hy
    exact ih y hy' (judge_first_kid hr h hy) (hc.child hy')
  | each tags =>
    simp only [heldPortion, Bool.or_eq_true, beq_iff_eq, List.all_eq_true,
      List.contains_iff_mem] at hp
    exact hnamed hp hx
  | last t =>
    simp only [heldPortion, Bool.or_eq_true, beq_iff_eq, List.contains_iff_mem] at hp
    exact hnamed (tags := [t]) (by simpa using hp)
      (List.mem_of_getLast? (by simpa [Portion.nodes] using hx))
  | lastUnlessEmpty t =>
    simp only [heldPortion, Bool.or_eq_true, beq_iff_eq, List.contains_iff_mem] at hp
    have : x ∈ (pick (isNamed [t]) (rewriteList c)).getLast? := by
      simp only [Portion.nodes, Option.mem_toList, Option.filter_eq_some_iff] at hx
      exact hx.1
    exact hnamed (tags := [t]) (by simpa using hp) (List.mem_of_getLast? this)
  | lastUnder t under =>
    simp only [heldPortion, Bool.and_eq_true, Bool.or_eq_true, beq_iff_eq, List.contains_iff_mem,
      bne_iff_ne] at hp
    obtain ⟨⟨⟨hk, ht⟩, hu⟩, hs⟩ := hp
    simp only [Portion.nodes, Option.mem_toList, Option.map_eq_some_iff] at hx
    obtain ⟨z, hz, rfl⟩ := hx
    have hz := List.mem_of_getLast? hz
    have h1 := hnamed (tags := [t]) (by simpa using hk) hz
    obtain ⟨y, hy, hn⟩ := mem_pick hz
    obtain ⟨hy, rfl⟩ := mem_rewriteList hy
    obtain ⟨b, d, rfl⟩ := named_of hn
    obtain ⟨m, b', d', h2, h3⟩ := rewriteNode_name t b d
    rw [h2] at h1 ⊢
    refine heldNode_element ⟨fun _ => ?_, fun h => absurd h hu⟩ fun w hw => h1.child hw
    refine (h1 _ _ _ .refl).1 ?_
    rcases h3 with rfl | ⟨h3, -⟩
    · exact ht
    · exact absurd h3 hs
  | lastOr t children =>
    simp only [heldPortion, Bool.and_eq_true, Bool.or_eq_true, beq_iff_eq, List.contains_iff_mem,
      bne_iff_ne, List.isEmpty_iff] at hp
    obtain ⟨⟨hk, rfl⟩, ht⟩ := hp
    simp only [Portion.nodes, List.mem_singleton] at hx
    cases hl : (pick (isNamed [t]) (rewriteList c)).getLast? with
    | some z =>
      rw [hl] at hx
      rw [hx]
      exact hnamed (tags := [t]) (by simpa using hk) (List.mem_of_getLast? hl)
    | none =>
      rw [hl] at hx
      rw [hx]
      exact heldNode_element ⟨fun _ => by simp, fun h => absurd h ht⟩ (by simp)
  | merged t =>
    simp only [heldPortion, Bool.and_eq_true, Bool.or_eq_true, beq_iff_eq,
      List.contains_iff_mem] at hp
    simp only [Portion.nodes, List.mem_singleton] at hx
    rw [hx]
    exact heldNode_element (heldBy_coarse hp.2 _) fun x hx => hkids hp.1 hx
  | wrapped t w =>
    simp only [heldPortion, Bool.and_eq_true, Bool.or_eq_true, beq_iff_eq,
      List.contains_iff_mem] at hp
    simp only [Portion.nodes, List.mem_map] at hx
    obtain ⟨z, hz, rfl⟩ := hx
    exact heldNode_element (heldBy_coarse hp.2 _) (by simpa using hkids hp.1 hz)
  | before t other =>
    have ht : t = "Remarks" := by simpa [heldPortion] using hp
    subst ht
    exact (hremarks (fun z hz => (List.takeWhile_sublist _).subset hz) hx).elim
  | after t other =>
    have ht : t = "Remarks" := by simpa [heldPortion] using hp
    subst ht
    exact (hremarks (fun z hz => (List.dropWhile_sublist _).subset hz) hx).elim
  | either p q ihp ihq =>
    rw [heldPortion, Bool.and_eq_true] at hp
    rw [Portion.nodes] at hx
    split at hx
    · exact ihq hp.2 hx
    · exact ihp hp.1 hx
  | _ => cases hp

theorem judge_leaf {m : String} (hm : m ∈ ["Ruby", "Sup", "Sub"]) (b : Attrs) (d : List XMLNode) :
    judge (.element m b d) = .fine := by
  have hl : rules.lookup m = some free ∧ blindTags.contains m = true ∧
      captionTags.contains m = false := by
    simp only [List.mem_cons, List.not_mem_nil, or_false] at hm
    rcases hm with rfl | rfl | rfl <;> exact ⟨rfl, by decide, by decide⟩
  rw [judge, hl.1]
  exact free_judge hl.2.1 hl.2.2 _ _

theorem coarse_tag {n : String} {l : Layout} (hl : layouts.lookup n = some l)
    (hn : coarse n = true) : coarse (l.tag.getD n) = true := by
  have h := List.all_eq_true.1 held_table _ (lookup_pair_mem hl)
  rw [Bool.and_eq_true] at h
  cases ht : l.tag with
  | none => exact hn
  | some t => rw [ht] at h; exact h.2

/-- What is written for a document that is read has nothing in its texts that would not be read
again. -/
theorem rewrite_held (x : XMLNode) (h : judge x = .fine) (hc : CleanNode x) :
    HeldNode (rewriteNode x) := by
  induction x using nodeInduction with
  | ho x hx => exact heldNode_other (by rw [isElement_rewrite]; exact hx)
  | he n a c ih =>
    cases hl : layouts.lookup n with
    | none =>
      rw [rewriteNode, rebuild, hl]
      refine heldNode_element ⟨fun _ => by simp, ?_⟩ (by simp)
      rintro (rfl : n = "Ruby")
      cases hl
    | some l =>
      rw [rewriteNode_of hl]
      have ht := List.all_eq_true.1 held_table _ (lookup_pair_mem hl)
      rw [Bool.and_eq_true] at ht
      have htag := coarse_tag hl
      have hw := ht.1
      simp only at hw
      generalize hps : l.parts = ps at hw
      unfold heldParts at hw
      split at hw
      · simp only [Bool.and_eq_true, bne_iff_ne, Bool.not_eq_true', ne_eq] at hw
        obtain ⟨⟨hn, hb⟩, hr⟩ := hw
        have hb : n ∉ blindTags := fun h => by rw [List.contains_iff_mem.2 h] at hb; cases hb
        have hline : ∀ b d, .element "Line" b d ∈ c → accepts (.element "Line" b d) = true →
            judge (.element "Line" b d) = .fine := by
          intro b d hm ha
          refine line_fine (x := ⟨"Line", b, d⟩) rfl ha ?_
          cases hrl : rules.lookup n with
          | none => rw [hrl] at hr; cases hr
          | some r =>
            rw [hrl] at hr
            simp only [Option.any_some, Bool.and_eq_true, List.isEmpty_iff, beq_iff_eq] at hr
            exact judge_line hrl hr.1.1.1 hr.1.1.2 hr.1.2 hr.2 hb h hm
        simp only [List.flatMap_cons, List.flatMap_nil, List.append_nil, Portion.nodes, pick_eq]
        have hkid : ∀ y ∈ c, inText y = true → HeldNode (rewriteNode y) ∧
            ∀ m b d, rewriteNode y = .element m b d → m ∈ ["Ruby", "Sup", "Sub"] ∨
              m = "Line" ∧ accepts (.element m b d) = true := by
          intro y hy hp
          cases y with
          | element m b d =>
            obtain ⟨m', b', d', h2, h3⟩ := rewriteNode_name m b d
            simp only [inText, isString, isNamed, Bool.or_eq_true, Bool.and_eq_true,
              List.contains_iff_mem, Bool.false_eq_true, false_or] at hp
            have hmm : m' = m := by
              refine h3.resolve_right ?_
              rintro ⟨rfl, -⟩
              rcases hp with hp | ⟨hp, -⟩
              · exact absurd hp (by decide)
              · exact absurd hp (by decide)
            subst hmm
            rcases hp with hp | ⟨hp, ha⟩
            · refine ⟨ih _ hy (judge_leaf hp b d) (hc.child hy), ?_⟩
              intro m1 b1 d1 h1
              rw [h2] at h1
              cases h1
              exact .inl hp
            · cases List.mem_singleton.1 hp
              have hj := hline b d hy ha
              refine ⟨ih _ hy hj (hc.child hy), ?_⟩
              intro m1 b1 d1 h1
              have h4 := line_again (x := ⟨"Line", b, d⟩) rfl (hc.child hy) hj
              rw [Element.node, h1] at h4
              rw [h2] at h1
              cases h1
              exact .inr ⟨rfl, h4⟩
          | _ =>
            refine ⟨heldNode_other (by rw [isElement_rewrite]; rfl), fun m b d h => ?_⟩
            simp [rewriteNode] at h
        refine heldNode_element ⟨fun _ m b d hm => ?_, ?_⟩ ?_
        · obtain ⟨y, hy, h1⟩ := List.mem_map.1 hm
          exact (hkid y (List.mem_filter.1 hy).1 (List.mem_filter.1 hy).2).2 m b d h1
        · intro hn'
          cases htl : l.tag with
          | none => rw [htl] at hn'; exact absurd hn' hn
          | some t =>
            have h5 := ht.2
            rw [htl] at h5 hn'
            rw [show t = "Ruby" from hn'] at h5
            exact absurd h5 (by decide +kernel)
        · intro z hz
          obtain ⟨y, hy, rfl⟩ := List.mem_map.1 hz
          exact (hkid y (List.mem_filter.1 hy).1 (List.mem_filter.1 hy).2).1
      · next t s =>
        simp only [Bool.and_eq_true, beq_iff_eq] at hw
        obtain ⟨⟨rfl, rfl⟩, rfl⟩ := hw
        have hs : Portion.strings.nodes (rewriteList c) = c.filter isString := by
          rw [Portion.nodes, pick_eq, filter_isString_rewrite]
        have hr : ∃ b d, (Portion.lastOr "Rt" [.text ""]).nodes (rewriteList c) =
            [.element "Rt" b [.text d]] := by
          rw [Portion.nodes]
          cases hg : (pick (isNamed ["Rt"]) (rewriteList c)).getLast? with
          | none => exact ⟨[], "", rfl⟩
          | some z =>
            obtain ⟨y, hy, hn⟩ := mem_pick (List.mem_of_getLast? hg)
            obtain ⟨hy, rfl⟩ := mem_rewriteList hy
            obtain ⟨b, d, rfl⟩ := named_of hn
            have h6 := rewriteNode_of (t := "Rt") (l := { parts := [.joined] }) rfl b d
            exact ⟨_, _, congrArg (fun x => [x]) h6⟩
        obtain ⟨b, d, hr⟩ := hr
        simp only [List.flatMap_cons, List.flatMap_nil, List.append_nil]
        rw [hs, hr]
        refine heldNode_element ⟨fun hn => ?_, fun _ => ⟨_, _, rfl, ?_, rfl⟩⟩ ?_
        · cases hl
          exact absurd hn (by decide +kernel)
        · intro y hy
          exact (List.mem_filter.1 hy).2
        · intro y hy
          rcases List.mem_append.1 hy with hy | hy
          · have := (List.mem_filter.1 hy).2
            refine heldNode_other ?_
            cases y <;> first | rfl | cases this
          · rw [List.mem_singleton.1 hy]
            exact heldNode_element (heldBy_coarse (by decide +kernel) _)
              (by simpa using heldNode_other rfl)
      · simp only [List.flatMap_cons, List.flatMap_nil, List.append_nil, Portion.nodes]
        exact heldNode_element (heldBy_coarse (htag hw) _) (by simpa using heldNode_other rfl)
      · simp only [List.flatMap_cons, List.flatMap_nil, List.append_nil, Portion.nodes]
        exact heldNode_element (heldBy_coarse (htag hw) _) (by simpa using heldNode_other rfl)
      · rw [Bool.and_eq_true] at hw
        cases hrl : rules.lookup n with
        | none => rw [hrl] at hw; cases hw.2
        | some r =>
          rw [hrl] at hw
          refine heldNode_element (heldBy_coarse (htag hw.1) _) fun z hz => ?_
          obtain ⟨p, hp, hz⟩ := List.mem_flatMap.1 hz
          exact heldPortion_nodes hrl h hc ih p (List.all_eq_true.1 hw.2 p hp) hz

/-! ### Files -/

theorem joinTexts_strings {s : List XMLNode} (hs : ∀ y ∈ s, isString y = true) {t : XMLNode}
    (ht : isElement t = true) : ∃ l, joinTexts (s ++ [t]) = l ++ [t] ∧ l.length ≤ 1 ∧
      ∀ y ∈ l, isString y = true := by
  have ht' : isString t = false := by cases t <;> first | rfl | cases ht
  induction s with
  | nil => exact ⟨[], by rw [List.nil_append, joinTexts_cons_other ht']; rfl, by simp, by simp⟩
  | cons x s ih =>
    obtain ⟨l, h1, h2, h3⟩ := ih fun y hy => hs y (List.mem_cons_of_mem _ hy)
    have hx := hs x List.mem_cons_self
    cases x with
    | text u =>
      rw [List.cons_append, joinTexts_cons_text, h1]
      match l, h2 with
      | [], _ =>
        refine ⟨[.text u], ?_, by simp, by simp [isString]⟩
        cases t with
        | text => cases ht
        | _ => rfl
      | [y], _ =>
        have hy := h3 y List.mem_cons_self
        cases y with
        | text v => exact ⟨[.text (u ++ v)], rfl, by simp, by simp [isString]⟩
        | _ => cases hy
    | _ => cases hx

/-- In a file of what is written for a document that is read, no text is cut in two. -/
theorem settle_whole {x : XMLNode} (hh : HeldNode x) (hf : FirmNode x) {n : String} {a : Attrs}
    {c : List XMLNode} (hw : Within (.element n a c) (settleNode x)) :
    (n ∈ textElements → ∀ m b d, .element m b d ∈ c →
      m ∈ ["Ruby", "Sup", "Sub"] ∨ m = "Line" ∧ accepts (.element m b d) = true) ∧
    (n = "Ruby" → (c.filter isString).length ≤ 1) := by
  obtain ⟨d, h1, rfl⟩ := within_settle _ hw
  obtain ⟨h2, h3⟩ := hh _ _ _ h1
  constructor
  · intro hn m b e hm
    rw [mem_tidy_element, List.mem_map] at hm
    obtain ⟨y, hy, he⟩ := hm
    cases y with
    | element m' b' e' =>
      have he' : accepts (settleNode (.element m' b' e')) = accepts (.element m' b' e') :=
        accepts_firm _ fun k q r hk => hf k q r (Within.trans hk (Within.trans
          (.child _ _ _ _ hy .refl) h1))
      have hmm : m' = m := by rw [settleNode] at he; cases he; rfl
      subst hmm
      rcases h2 hn _ _ _ hy with h | ⟨h, h'⟩
      · exact .inl h
      · exact .inr ⟨h, by rw [← he, he', h']⟩
    | _ => cases he
  · intro hn
    obtain ⟨s, t, rfl, hs, ht⟩ := h3 hn
    have hs' : ∀ y ∈ s.map settleNode, isString y = true := by
      intro y hy
      obtain ⟨z, hz, rfl⟩ := List.mem_map.1 hy
      rw [isString_settle]
      exact hs z hz
    have ht' : isElement (settleNode t) = true := by rw [isElement_settle]; exact ht
    rw [List.map_append, List.map_cons, List.map_nil, tidy]
    obtain ⟨l, h4, h5, -⟩ := joinTexts_strings hs' ht'
    rw [h4, List.filter_filter, List.filter_append, List.length_append]
    have h6 : isString (settleNode t) = false := by
      revert ht'
      cases settleNode t <;> simp [isElement, isString]
    rw [List.filter_cons_of_neg (by simp [h6]), List.filter_nil, List.length_nil, Nat.add_zero]
    exact (List.length_filter_le _ _).trans h5

end JLaw
