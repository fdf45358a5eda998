import Verif.Props.Schema
import Verif.Reading.SettleRewrite

/-!
# How much text a document has

A measure that neither settling nor reading and writing increases.
-/

namespace JLaw

open Spec

/-- A way to measure strings that adds up, and how much a text counts whatever it says. -/
structure Measure where
  /-- What a string counts. -/
  of : String → Nat
  /-- What a text outside of `stringTags` counts in addition. -/
  each : Nat
  of_empty : of "" = 0
  of_append : ∀ s t, of (s ++ t) = of s + of t

/-- The part of the measure that does not depend on the string: texts of `stringTags` are not
counted. -/
def Measure.unit (μ : Measure) (n : String) : Nat := if n ∈ stringTags then 0 else μ.each

mutual
/-- The measure of all texts. -/
def weight (μ : Measure) : XMLNode → Nat
  | .element n _ c => weightList μ n c
  | _ => 0
/-- The same for the children of an element. -/
def weightList (μ : Measure) (n : String) : List XMLNode → Nat
  | [] => 0
  | .text s :: c => μ.of s + μ.unit n + weightList μ n c
  | x :: c => weight μ x + weightList μ n c
end

/-- The share of a child. -/
def share (μ : Measure) (n : String) : XMLNode → Nat
  | .text s => μ.of s + μ.unit n
  | x => weight μ x

/-- The number of characters of all texts and the number of the texts outside of `stringTags`. -/
def sizes : Measure := ⟨String.length, 1, rfl, String.length_append⟩

variable {μ : Measure}

theorem weightList_eq (n : String) (c : List XMLNode) : weightList μ n c = (c.map (share μ n)).sum := by
  induction c with
  | nil => rw [weightList]; rfl
  | cons x c ih =>
    rw [List.map_cons, List.sum_cons, ← ih]
    cases x <;> (rw [weightList]; try rfl)
    all_goals nofun

theorem weight_element (n : String) (a : Attrs) (c : List XMLNode) :
    weight μ (.element n a c) = (c.map (share μ n)).sum := by rw [weight, weightList_eq]

theorem share_element {n : String} {x : XMLNode} (h : isElement x = true) : share μ n x = weight μ x := by
  cases x <;> first | rfl | cases h

/-! ## Settling -/

theorem sum_filter_le {α : Type} (p : α → Bool) (f : α → Nat) (c : List α) :
    ((c.filter p).map f).sum ≤ (c.map f).sum := by
  induction c with
  | nil => exact Nat.le_refl _
  | cons x c ih =>
    rw [List.filter_cons, List.map_cons, List.sum_cons]
    split
    · rw [List.map_cons, List.sum_cons]; omega
    · omega

theorem sum_filter_eq {α : Type} {p : α → Bool} {f : α → Nat} {c : List α}
    (h : ((c.filter p).map f).sum = (c.map f).sum) : ∀ x ∈ c, p x = false → f x = 0 := by
  induction c with
  | nil => simp
  | cons x c ih =>
    have h1 := sum_filter_le p f c
    rw [List.filter_cons, List.map_cons, List.sum_cons] at h
    intro y hy hp
    rcases List.mem_cons.1 hy with rfl | hy
    · rw [if_neg (by simp [hp])] at h
      omega
    · refine ih ?_ y hy hp
      split at h
      · rw [List.map_cons, List.sum_cons] at h; omega
      · omega

theorem sum_le_sum {α : Type} {f g : α → Nat} {c : List α} (h : ∀ x ∈ c, f x ≤ g x) :
    (c.map f).sum ≤ (c.map g).sum := by
  induction c with
  | nil => exact Nat.le_refl _
  | cons x c ih =>
    rw [List.map_cons, List.map_cons, List.sum_cons, List.sum_cons]
    have := h x (List.mem_cons_self ..)
    have := ih fun y hy => h y (List.mem_cons_of_mem _ hy)
    omega

theorem sum_eq_sum {α : Type} {f g : α → Nat} {c : List α} (h : ∀ x ∈ c, f x ≤ g x)
    (he : (c.map f).sum = (c.map g).sum) : ∀ x ∈ c, f x = g x := by
  induction c with
  | nil => simp
  | cons x c ih =>
    rw [List.map_cons, List.map_cons, List.sum_cons, List.sum_cons] at he
    have h1 := h x (List.mem_cons_self ..)
    have h2 : ∀ y ∈ c, f y ≤ g y := fun y hy => h y (List.mem_cons_of_mem _ hy)
    have h3 := sum_le_sum h2
    intro y hy
    rcases List.mem_cons.1 hy with rfl | hy
    · omega
    · exact ih h2 (by omega) y hy

theorem joinTexts_sum (n : String) (c : List XMLNode) :
    ((joinTexts c).map (share μ n)).sum ≤ (c.map (share μ n)).sum ∧
    (0 < μ.each → ((joinTexts c).map (share μ n)).sum = (c.map (share μ n)).sum → n ∉ stringTags →
      Apart c) := by
  induction c with
  | nil => exact ⟨Nat.le_refl _, fun _ _ _ => trivial⟩
  | cons x c ih =>
    obtain ⟨h1, h2⟩ := ih
    by_cases hx : isString x = true
    · cases x with
      | text s =>
        rw [joinTexts_cons_text]
        split
        · next t d h =>
          rw [h] at h1
          simp only [List.map_cons, List.sum_cons, share, μ.of_append] at h1 ⊢
          refine ⟨by omega, fun h0 he hn => ?_⟩
          have : μ.unit n = μ.each := if_neg hn
          omega
        · next d h =>
          simp only [List.map_cons, List.sum_cons]
          refine ⟨by omega, fun h0 he hn => (apart_cons _ _).2 ⟨?_, h2 h0 (by omega) hn⟩⟩
          rintro ⟨-, h3⟩
          rw [← joinTexts_head] at h3
          cases hj : joinTexts c with
          | nil => rw [hj] at h3; cases h3
          | cons y e =>
            rw [hj] at h3
            cases y with
            | text t => exact h t e hj
            | _ => cases h3
      | _ => cases hx
    · have hx : isString x = false := by simpa using hx
      rw [joinTexts_cons_other hx]
      simp only [List.map_cons, List.sum_cons]
      exact ⟨by omega, fun h0 he hn => (apart_cons _ _).2 ⟨by simp [hx], h2 h0 (by omega) hn⟩⟩

theorem share_settle {n : String} {x : XMLNode} (h : weight μ (settleNode x) ≤ weight μ x) :
    share μ n (settleNode x) ≤ share μ n x := by
  cases x with
  | element => exact h
  | _ => exact Nat.le_refl _

theorem tidy_sum (n : String) (c : List XMLNode) :
    ((tidy c).map (share μ n)).sum ≤ (c.map (share μ n)).sum :=
  (sum_filter_le _ _ _).trans (joinTexts_sum n c).1

theorem weight_settle (x : XMLNode) : weight μ (settleNode x) ≤ weight μ x := by
  induction x using nodeInduction with
  | ho x hx => rw [settleNode_of_not hx]
  | he n a c ih =>
    rw [settleNode, settleEach_eq, weight_element, weight_element]
    refine (tidy_sum n _).trans ?_
    rw [List.map_map]
    exact sum_le_sum fun x hx => share_settle (ih x hx)

theorem isBlank_iff {x : XMLNode} : isBlank x = true ↔ ∃ s, x = .text s ∧ blank s = true := by
  cases x <;> simp [isBlank]

/-- If settling does not decrease the measure, nothing that matters is lost. -/
theorem quiet_of_weight (x : XMLNode) (hs : ∀ n a c, Within (.element n a c) x → n ∈ stringTags →
    ∃ s, c = [.text s]) (h : weight sizes x ≤ weight sizes (settleNode x)) : QuietNode x := by
  induction x using nodeInduction with
  | ho x hx => exact quietNode_other hx
  | he n a c ih =>
    rw [settleNode, settleEach_eq, weight_element, weight_element] at h
    have h1 := sum_filter_le (fun x => !isBlank x) (share sizes n) (joinTexts (c.map settleNode))
    have h2 := (joinTexts_sum (μ := sizes) n (c.map settleNode)).1
    have h3 : ∀ y ∈ c, (share sizes n ∘ settleNode) y ≤ share sizes n y := fun y _ =>
      share_settle (weight_settle y)
    have h4 := sum_le_sum h3
    rw [← List.map_map] at h4
    rw [tidy] at h
    have h5 := sum_eq_sum h3 (by rw [← List.map_map]; omega)
    have hap : Apart c := by
      by_cases hn : n ∈ stringTags
      · obtain ⟨s, rfl⟩ := hs n a c .refl hn
        exact (apart_cons _ _).2 ⟨by simp, trivial⟩
      · have := (joinTexts_sum (μ := sizes) n (c.map settleNode)).2 (by decide) (by omega) hn
        clear h h1 h2 h3 h4 h5 ih
        induction c with
        | nil => trivial
        | cons y c ih =>
          rw [List.map_cons, apart_cons, isString_settle] at this
          have hs' : ∀ m b d, Within (.element m b d) (.element n a c) → m ∈ stringTags →
              ∃ s, d = [.text s] := by
            intro m b d hw hm
            cases hw with
            | refl => exact absurd hm hn
            | child _ _ _ z hz hw => exact hs m b d (.child _ _ _ z (List.mem_cons_of_mem _ hz) hw) hm
          refine (apart_cons _ _).2 ⟨fun h => this.1 ⟨h.1, ?_⟩, ih hs' this.2⟩
          cases c with
          | nil => exact h.2
          | cons z c => simpa [isString_settle] using h.2
    rw [joinTexts_of_apart (map_settle_apart hap)] at h1 h
    have h6 := sum_filter_eq (p := fun x => !isBlank x) (f := share sizes n) (c := c.map settleNode)
      (by omega)
    refine quietNode_element hap ?_ ?_
    · intro s hm hb
      have h7 := h6 (.text s) (text_mem_map_settle.2 hm) (by simp [isBlank, hb])
      simp only [share] at h7
      constructor
      · exact String.length_eq_zero_iff.1 (show sizes.of s = 0 by omega)
      · by_contra hn
        have : sizes.unit n = 1 := if_neg hn
        omega
    · intro y hy
      refine ih y hy (fun m b d hw => hs m b d (.child _ _ _ y hy hw)) ?_
      have := h5 y hy
      by_cases he : isElement y = true
      · rw [Function.comp_apply, share_element he,
          share_element (by rw [isElement_settle]; exact he)] at this
        omega
      · rw [settleNode_of_not (by simpa using he)]

/-! ## Reading and writing -/

/-- The tags of the children that a portion takes. -/
def uses : Portion → List String
  | .each tags => tags
  | .last t | .lastUnder t _ | .lastOr t _ | .lastUnlessEmpty t | .merged t | .wrapped t _ => [t]
  | .either p q => uses p ++ uses q
  | _ => []

/-- The portion takes the children by their tags only. -/
def byTag : Portion → Bool
  | .each _ | .last _ | .lastOr .. | .lastUnlessEmpty _ | .merged _ | .wrapped .. => true
  | .lastUnder _ under => !stringTags.contains under
  | .either p q => byTag p && byTag q
  | _ => false

/-- No child is taken twice. -/
def separate : List Portion → Bool
  | [] => true
  | p :: l => byTag p && (uses p).all (fun t => !(l.flatMap uses).contains t) && separate l

/-- What is known about portions of elements. -/
inductive Once : List Portion → Prop
  | elements : Once [.elements]
  | struct (t r b : String) : t ≠ r → t ≠ b → r ≠ b →
      Once [.last t, .before r b, .last b, .after r b]
  | separate {l : List Portion} : separate l = true → Once l

/-- The same as a program, for other portions as well. -/
def once : List Portion → Bool
  | [.text] | [.mixed] | [.strings, .lastOr _ _] | [.joined] | [.firstString] | [.first _]
  | [.elements] => true
  | [.last t, .before r b, .last b', .after r' b''] =>
    r == r' && b == b' && b == b'' && t != r && t != b && r != b
  | l => separate l

theorem once_sound {l : List Portion} (hl : ∀ p ∈ l, wellPortion p = true) (h : once l = true) :
    Once l := by
  unfold once at h
  split at h
  · cases hl _ (List.mem_cons_self ..)
  · cases hl _ (List.mem_cons_self ..)
  · cases hl _ (List.mem_cons_self ..)
  · cases hl _ (List.mem_cons_self ..)
  · cases hl _ (List.mem_cons_self ..)
  · cases hl _ (List.mem_cons_self ..)
  · exact .elements
  · simp only [Bool.and_eq_true, beq_iff_eq, bne_iff_ne] at h
    obtain ⟨⟨⟨⟨⟨rfl, rfl⟩, rfl⟩, h1⟩, h2⟩, h3⟩ := h
    exact .struct _ _ _ h1 h2 h3
  · exact .separate h

theorem layouts_once {n : String} {l : Layout} (h : layouts.lookup n = some l) :
    once l.parts = true := by
  have key : layouts.all (fun p => once p.2.parts) = true := by decide +kernel
  exact List.all_eq_true.1 key _ (lookup_pair_mem h)

theorem unit_tag {n : String} {l : Layout} (h : layouts.lookup n = some l) :
    μ.unit (l.tag.getD n) = μ.unit n := by
  rcases layout_tags _ (lookup_pair_mem h) with h | ⟨h1, h2⟩
  · rw [show l.tag = none from h]; rfl
  · rw [show l.tag = some "Appdx" from h2, show n = "SupplProvisionAppdx" from h1]
    rw [Measure.unit, Measure.unit, if_neg (by decide), if_neg (by decide)]

/-- The measure of what is written for the children with the given tags. -/
def sumOf (μ : Measure) (tags : List String) (c : List XMLNode) : Nat :=
  ((c.filter (isNamed tags)).map fun y => weight μ (rewriteNode y)).sum

theorem pick_weight (q : XMLNode → Bool) (c : List XMLNode) :
    ((pick q (rewriteList c)).map (weight μ)).sum =
      ((c.filter q).map fun y => weight μ (rewriteNode y)).sum := by
  rw [pick_eq, List.map_map]; rfl

theorem le_sum_of_mem {α : Type} (f : α → Nat) {l : List α} {x : α} (h : x ∈ l) :
    f x ≤ (l.map f).sum := by
  induction l with
  | nil => cases h
  | cons y l ih =>
    rw [List.map_cons, List.sum_cons]
    rcases List.mem_cons.1 h with rfl | h
    · omega
    · have := ih h; omega

theorem sum_getLast {α : Type} (f : α → Nat) (l : List α) :
    (l.getLast?.toList.map f).sum ≤ (l.map f).sum := by
  cases h : l.getLast? with
  | none => exact Nat.zero_le _
  | some x => simpa using le_sum_of_mem f (List.mem_of_getLast? h)

theorem weight_rewriteElements {n : String} {a : Attrs} {c : List XMLNode}
    (h : ∀ x ∈ c, isElement x = true) : weight μ (.element n a c) = (c.map (weight μ)).sum := by
  rw [weight_element]
  congr 1
  exact List.map_congr_left fun x hx => share_element (h x hx)

theorem kids_elements {tag : String} (ht : (match layouts.lookup tag with
    | some l => match l.parts with
      | [.elements] => true
      | _ => false
    | none => false) = true) {c : List XMLNode} {z x : XMLNode}
    (hz : z ∈ pick (isNamed [tag]) (rewriteList c)) (hx : x ∈ kidsOf z) : isElement x = true := by
  obtain ⟨y, hy, hn⟩ := mem_pick hz
  obtain ⟨hyc, rfl⟩ := mem_rewriteList hy
  obtain ⟨a, d, rfl⟩ := named_of hn
  split at ht
  · next l hl =>
    split at ht
    · next hlp =>
      rw [rewriteNode_of hl] at hx
      simp only [kidsOf, hlp, List.flatMap_cons, List.flatMap_nil, List.append_nil] at hx
      obtain ⟨w, hw, hw'⟩ := mem_pick hx
      obtain ⟨-, rfl⟩ := mem_rewriteList hw
      rw [isElement_rewrite]; exact hw'
    · cases ht
  · cases ht

theorem sum_kids {l : List XMLNode} (h : ∀ z ∈ l, isElement z = true)
    (hk : ∀ z ∈ l, ∀ x ∈ kidsOf z, isElement x = true) :
    ((l.flatMap kidsOf).map (weight μ)).sum = (l.map (weight μ)).sum := by
  induction l with
  | nil => rfl
  | cons z l ih =>
    rw [List.flatMap_cons, List.map_append, List.sum_append, List.map_cons, List.sum_cons,
      ih (fun y hy => h y (List.mem_cons_of_mem _ hy)) fun y hy => hk y (List.mem_cons_of_mem _ hy)]
    congr 1
    have h1 := h z (List.mem_cons_self ..)
    cases z with
    | element n a c => exact (weight_rewriteElements (hk _ (List.mem_cons_self ..))).symm
    | _ => cases h1

theorem pick_elements {tags : List String} {c : List XMLNode} {z : XMLNode}
    (hz : z ∈ pick (isNamed tags) (rewriteList c)) : isElement z = true := by
  obtain ⟨y, hy, hn⟩ := mem_pick hz
  obtain ⟨-, rfl⟩ := mem_rewriteList hy
  rw [isElement_rewrite]
  exact isNamed_isElement hn

theorem sumOf_append (s t : List String) (c : List XMLNode) :
    sumOf μ s c ≤ sumOf μ (s ++ t) c ∧ sumOf μ t c ≤ sumOf μ (s ++ t) c ∧
    ((∀ x ∈ s, x ∉ t) → sumOf μ s c + sumOf μ t c = sumOf μ (s ++ t) c) := by
  unfold sumOf
  induction c with
  | nil => exact ⟨Nat.le_refl _, Nat.le_refl _, fun _ => rfl⟩
  | cons x c ih =>
    have hx : isNamed (s ++ t) x = (isNamed s x || isNamed t x) := by
      cases x with
      | element n a d => simp [isNamed]
      | _ => rfl
    have hd : (∀ x ∈ s, x ∉ t) → ¬ (isNamed s x = true ∧ isNamed t x = true) := by
      rintro h ⟨h1, h2⟩
      cases x with
      | element n a d => exact h n (by simpa [isNamed] using h1) (by simpa [isNamed] using h2)
      | _ => cases h1
    obtain ⟨h1, h2, h3⟩ := ih
    cases hs : isNamed s x <;> cases ht : isNamed t x <;>
      simp only [List.filter_cons, hx, hs, ht, Bool.or_self, Bool.or_true, Bool.or_false,
        Bool.false_eq_true, if_true, if_false, List.map_cons, List.sum_cons] at hd ⊢
    · exact ⟨h1, h2, h3⟩
    · exact ⟨by omega, by omega, fun h => by have := h3 h; omega⟩
    · exact ⟨by omega, by omega, fun h => by have := h3 h; omega⟩
    · exact ⟨by omega, by omega, fun h => absurd ⟨trivial, trivial⟩ (hd h)⟩

theorem portion_weight {c : List XMLNode} (p : Portion) (hw : wellPortion p = true)
    (hp : byTag p = true) :
    ((p.nodes (rewriteList c)).map (weight μ)).sum ≤ sumOf μ (uses p) c := by
  have hlast : ∀ tag, ((pick (isNamed [tag]) (rewriteList c)).getLast?.toList.map (weight μ)).sum ≤
      sumOf μ [tag] c := fun tag =>
    (sum_getLast _ _).trans (Nat.le_of_eq (pick_weight _ _))
  have hmem : ∀ {tag z}, (pick (isNamed [tag]) (rewriteList c)).getLast? = some z →
      weight μ z ≤ sumOf μ [tag] c := by
    intro tag z hz
    have := hlast tag
    rw [hz] at this
    simpa using this
  induction p with
  | each tags => exact Nat.le_of_eq (pick_weight _ _)
  | last tag => exact hlast tag
  | lastUnder tag under =>
    simp only [Portion.nodes, uses]
    cases hz : (pick (isNamed [tag]) (rewriteList c)).getLast? with
    | none => exact Nat.zero_le _
    | some z =>
      have h1 := hmem hz
      have hz := List.mem_of_getLast? hz
      obtain ⟨y, hy, hn⟩ := mem_pick hz
      obtain ⟨hyc, rfl⟩ := mem_rewriteList hy
      obtain ⟨a, d, rfl⟩ := named_of hn
      rw [rewriteNode_element] at h1 ⊢
      have h2 : μ.unit under = μ.unit (rebuild tag a (rewriteList d)).name := by
        rw [byTag] at hp
        rw [wellPortion] at hw
        have h3 : μ.unit under = μ.each := if_neg (by simpa using hp)
        rw [h3]
        rcases rebuild_name tag a (rewriteList d) with h4 | ⟨-, h4⟩
        · rw [h4]; exact (if_neg (by simpa using hw)).symm
        · rw [h4]; exact (if_neg (by decide)).symm
      have h3 : share μ under = share μ (rebuild tag a (rewriteList d)).name := by
        funext y
        cases y <;> simp only [share, h2]
      simp only [Option.map_some, Option.toList_some, List.map_cons, List.map_nil, List.sum_cons,
        List.sum_nil, Nat.add_zero, Element.node, retag, weight_element] at h1 ⊢
      rw [h3]
      exact h1
  | lastOr tag children =>
    simp only [Portion.nodes, uses, List.map_cons, List.map_nil, List.sum_cons, List.sum_nil,
      Nat.add_zero]
    cases hz : (pick (isNamed [tag]) (rewriteList c)).getLast? with
    | some z => exact hmem hz
    | none =>
      have : weight μ (.element tag [] children) = 0 := by
        rw [weight_element]
        simp only [wellPortion] at hw
        split at hw
        · rfl
        · simp only [Bool.and_eq_true, beq_iff_eq, List.contains_iff_mem] at hw
          obtain ⟨rfl, hw⟩ := hw
          simp [share, Measure.unit, hw, μ.of_empty]
        · cases hw
      rw [Option.getD_none, this]
      exact Nat.zero_le _
  | lastUnlessEmpty tag =>
    simp only [Portion.nodes, uses]
    cases hz : (pick (isNamed [tag]) (rewriteList c)).getLast? with
    | none => exact Nat.zero_le _
    | some z =>
      rw [Option.filter_some]
      split
      · simpa using hmem hz
      · exact Nat.zero_le _
  | merged tag =>
    rw [wellPortion] at hw
    have hk : ∀ z ∈ pick (isNamed [tag]) (rewriteList c), ∀ x ∈ kidsOf z, isElement x = true :=
      fun z hz x hx => kids_elements hw hz hx
    simp only [Portion.nodes, uses, List.map_cons, List.map_nil, List.sum_cons, List.sum_nil,
      Nat.add_zero]
    rw [weight_rewriteElements, sum_kids (fun _ => pick_elements) hk, pick_weight]
    · exact Nat.le_refl _
    · intro x hx
      obtain ⟨z, hz, hx⟩ := List.mem_flatMap.1 hx
      exact hk z hz x hx
  | wrapped tag wrapper =>
    rw [wellPortion] at hw
    have hk : ∀ z ∈ pick (isNamed [tag]) (rewriteList c), ∀ x ∈ kidsOf z, isElement x = true :=
      fun z hz x hx => kids_elements hw hz hx
    simp only [Portion.nodes, uses, List.map_map]
    have : ((pick (isNamed [tag]) (rewriteList c)).flatMap kidsOf).map
        (weight μ ∘ fun x => .element wrapper [] [x]) =
        ((pick (isNamed [tag]) (rewriteList c)).flatMap kidsOf).map (weight μ) := by
      refine List.map_congr_left fun x hx => ?_
      obtain ⟨z, hz, hx⟩ := List.mem_flatMap.1 hx
      rw [Function.comp_apply, weight_rewriteElements (by simpa using hk z hz x hx)]
      simp
    rw [this, sum_kids (fun _ => pick_elements) hk, pick_weight]
    exact Nat.le_refl _
  | either p q ihp ihq =>
    rw [wellPortion, Bool.and_eq_true] at hw
    rw [byTag, Bool.and_eq_true] at hp
    obtain ⟨h1, h2, -⟩ := sumOf_append (μ := μ) (uses p) (uses q) c
    rw [Portion.nodes, uses]
    split
    · exact (ihq hw.2 hp.2).trans h2
    · exact (ihp hw.1 hp.1).trans h1
  | _ => cases hp

theorem separate_weight {c : List XMLNode} (l : List Portion)
    (hw : ∀ p ∈ l, wellPortion p = true) (hs : separate l = true) :
    ((l.flatMap fun p => p.nodes (rewriteList c)).map (weight μ)).sum ≤ sumOf μ (l.flatMap uses) c := by
  induction l with
  | nil => exact Nat.zero_le _
  | cons p l ih =>
    rw [separate, Bool.and_eq_true, Bool.and_eq_true] at hs
    have h1 := portion_weight (μ := μ) (c := c) p (hw p (List.mem_cons_self ..)) hs.1.1
    have h2 := ih (fun q hq => hw q (List.mem_cons_of_mem _ hq)) hs.2
    have h3 := (sumOf_append (μ := μ) (uses p) (l.flatMap uses) c).2.2 (by simpa using hs.1.2)
    rw [List.flatMap_cons, List.map_append, List.sum_append, List.flatMap_cons, ← h3]
    omega

theorem sumOf_le (tags : List String) (c : List XMLNode) :
    sumOf μ tags c ≤ (c.map fun y => weight μ (rewriteNode y)).sum := sum_filter_le _ _ _

theorem once_weight {c : List XMLNode} {l : List Portion} (hw : ∀ p ∈ l, wellPortion p = true)
    (h : Once l) : ((l.flatMap fun p => p.nodes (rewriteList c)).map (weight μ)).sum ≤
      (c.map fun y => weight μ (rewriteNode y)).sum := by
  cases h with
  | elements =>
    simp only [List.flatMap_cons, List.flatMap_nil, List.append_nil, Portion.nodes, pick_weight]
    exact sum_filter_le _ _ _
  | separate hs => exact (separate_weight l hw hs).trans (sumOf_le _ _)
  | struct t r b h1 h2 h3 =>
    have ht := portion_weight (μ := μ) (c := c) (.last t) rfl rfl
    have hb := portion_weight (μ := μ) (c := c) (.last b) rfl rfl
    have hr : (((Portion.before r b).nodes (rewriteList c)).map (weight μ)).sum +
        (((Portion.after r b).nodes (rewriteList c)).map (weight μ)).sum ≤ sumOf μ [r] c := by
      have key : ∀ d : List XMLNode,
          ((pick (fun x => isNamed [r] x && accepts x) (rewriteList d)).map (weight μ)).sum ≤
            sumOf μ [r] d := by
        intro d
        rw [pick_weight, ← List.filter_filter, sumOf]
        have := sum_filter_le accepts (fun y => weight μ (rewriteNode y)) (d.filter (isNamed [r]))
        rw [List.filter_filter] at this ⊢
        simpa only [Bool.and_comm] using this
      have htw : (rewriteList c).takeWhile (fun x => !isNamed [b] x.1) =
          rewriteList (c.takeWhile fun x => !isNamed [b] x) := by
        rw [rewriteList_eq, rewriteList_eq, List.takeWhile_map]; rfl
      have hdw : (rewriteList c).dropWhile (fun x => !isNamed [b] x.1) =
          rewriteList (c.dropWhile fun x => !isNamed [b] x) := by
        rw [rewriteList_eq, rewriteList_eq, List.dropWhile_map]; rfl
      have hsum : sumOf μ [r] c = sumOf μ [r] (c.takeWhile fun x => !isNamed [b] x) +
          sumOf μ [r] (c.dropWhile fun x => !isNamed [b] x) := by
        conv_lhs => rw [← List.takeWhile_append_dropWhile (p := fun x => !isNamed [b] x) (l := c)]
        simp only [sumOf, List.filter_append, List.map_append, List.sum_append]
      rw [hsum, Portion.nodes, Portion.nodes, htw, hdw]
      exact Nat.add_le_add (key _) (key _)
    have e1 := (sumOf_append (μ := μ) [t] [r] c).2.2 (by simpa using h1)
    have e2 := (sumOf_append (μ := μ) ([t] ++ [r]) [b] c).2.2 (by simp [h2, h3])
    have e3 := sumOf_le (μ := μ) ([t] ++ [r] ++ [b]) c
    simp only [uses] at ht hb
    simp only [List.flatMap_cons, List.flatMap_nil, List.append_nil, List.map_append,
      List.sum_append]
    omega

theorem sum_sublist {α : Type} (f : α → Nat) {c d : List α} (h : c.Sublist d) :
    (c.map f).sum ≤ (d.map f).sum := by
  induction h with
  | slnil => exact Nat.le_refl _
  | cons x _ ih => rw [List.map_cons, List.sum_cons]; omega
  | cons_cons x _ ih => rw [List.map_cons, List.sum_cons, List.map_cons, List.sum_cons]; omega

theorem sum_disjoint {α : Type} {p q : α → Bool} (f : α → Nat) {c : List α}
    (h : ∀ x, p x = true → q x = false) :
    ((c.filter p).map f).sum + ((c.filter q).map f).sum ≤ (c.map f).sum := by
  induction c with
  | nil => exact Nat.le_refl _
  | cons x c ih =>
    rw [List.filter_cons, List.filter_cons, List.map_cons, List.sum_cons]
    cases hp : p x with
    | true =>
      rw [h x hp]
      simp only [if_true, Bool.false_eq_true, if_false, List.map_cons, List.sum_cons]
      omega
    | false =>
      cases hq : q x <;>
        simp only [if_true, Bool.false_eq_true, if_false, List.map_cons, List.sum_cons] <;> omega

theorem wellPortion_elements {c : List XMLNode} (p : Portion) (hp : wellPortion p = true)
    {x : XMLNode} (hx : x ∈ p.nodes (rewriteList c)) : isElement x = true := by
  have hpick : ∀ {q : XMLNode → Bool} {d : List (XMLNode × XMLNode)} {x : XMLNode},
      (∀ z ∈ d, z ∈ rewriteList c) → (∀ y, q y = true → isElement y = true) → x ∈ pick q d →
      isElement x = true := by
    intro q d x hd hq' hx
    obtain ⟨y, hy, hqy⟩ := mem_pick hx
    obtain ⟨hyc, rfl⟩ := mem_rewriteList (hd _ hy)
    rw [isElement_rewrite]; exact hq' y hqy
  induction p generalizing x with
  | each tags => exact pick_elements hx
  | elements => exact hpick (fun _ h => h) (fun _ h => h) hx
  | last tag => exact pick_elements (List.mem_of_getLast? (by simpa [Portion.nodes] using hx))
  | lastUnlessEmpty tag =>
    have : x ∈ (pick (isNamed [tag]) (rewriteList c)).getLast? := by
      simp only [Portion.nodes, Option.mem_toList, Option.filter_eq_some_iff] at hx
      exact hx.1
    exact pick_elements (List.mem_of_getLast? this)
  | before tag other =>
    refine hpick (fun z hz => (List.takeWhile_sublist _).subset hz) (fun y hy => ?_) hx
    rw [Bool.and_eq_true] at hy
    exact isNamed_isElement hy.1
  | after tag other =>
    refine hpick (fun z hz => (List.dropWhile_sublist _).subset hz) (fun y hy => ?_) hx
    rw [Bool.and_eq_true] at hy
    exact isNamed_isElement hy.1
  | lastUnder tag under =>
    simp only [Portion.nodes, Option.mem_toList, Option.map_eq_some_iff] at hx
    obtain ⟨z, hz, rfl⟩ := hx
    have := pick_elements (List.mem_of_getLast? hz)
    cases z <;> first | rfl | cases this
  | lastOr tag children =>
    simp only [Portion.nodes, List.mem_singleton] at hx
    cases hl : (pick (isNamed [tag]) (rewriteList c)).getLast? with
    | some z =>
      rw [hl] at hx
      rw [hx]
      exact pick_elements (List.mem_of_getLast? hl)
    | none => rw [hl] at hx; rw [hx]; rfl
  | merged tag =>
    simp only [Portion.nodes, List.mem_singleton] at hx
    rw [hx]; rfl
  | wrapped tag wrapper =>
    simp only [Portion.nodes, List.mem_map] at hx
    obtain ⟨z, -, rfl⟩ := hx
    rfl
  | either p q ihp ihq =>
    rw [wellPortion, Bool.and_eq_true] at hp
    rw [Portion.nodes] at hx
    split at hx
    · exact ihq hp.2 hx
    · exact ihp hp.1 hx
  | _ => cases hp

theorem of_join (μ : Measure) (l : List String) : μ.of (String.join l) = (l.map μ.of).sum := by
  induction l with
  | nil => exact μ.of_empty
  | cons s l ih => rw [String.join_cons, μ.of_append, ih, List.map_cons, List.sum_cons]

theorem share_string (n : String) (x : XMLNode) : μ.of (string x) ≤ share μ n x := by
  cases x with
  | text s => exact Nat.le_add_right _ _
  | _ => exact le_of_eq_of_le μ.of_empty (Nat.zero_le _)

/-- Reading and writing does not add any text. -/
theorem weight_rewrite (x : XMLNode) : weight μ (rewriteNode x) ≤ weight μ x := by
  induction x using nodeInduction with
  | ho x hx =>
    have := isElement_rewrite x
    rw [hx] at this
    cases h : rewriteNode x with
    | element => rw [h] at this; cases this
    | _ => exact Nat.zero_le _
  | he n a c ih =>
    have hshare : ∀ m, μ.unit m = μ.unit n → ∀ y ∈ c, share μ m (rewriteNode y) ≤ share μ n y := by
      intro m hm y hy
      by_cases he : isElement y = true
      · rw [share_element he, share_element (by rw [isElement_rewrite]; exact he)]
        exact ih y hy
      · cases y with
        | element => exact absurd rfl he
        | text s => rw [rewriteNode_text]; simp [share, hm]
        | _ =>
          rw [rewriteNode]
          · exact Nat.zero_le _
          · nofun
    have hall : ∀ m, μ.unit m = μ.unit n → ((c.map rewriteNode).map (share μ m)).sum ≤
        (c.map (share μ n)).sum := by
      intro m hm
      rw [List.map_map]
      exact sum_le_sum (hshare m hm)
    have hw : (c.map fun y => weight μ (rewriteNode y)).sum ≤ (c.map (share μ n)).sum := by
      refine sum_le_sum fun y hy => ?_
      refine Nat.le_trans ?_ (hshare n rfl y hy)
      cases rewriteNode y with
      | text => exact Nat.zero_le _
      | _ => exact Nat.le_refl _
    cases hl : layouts.lookup n with
    | none =>
      rw [rewriteNode, rebuild, hl]
      exact Nat.zero_le _
    | some l =>
      rw [rewriteNode_of hl, weight_element, weight_element]
      have htag := unit_tag (μ := μ) hl
      have hwell := layouts_well hl
      have honce := layouts_once hl
      have htag' := layouts_tag hl
      generalize l.parts = ps at hwell honce
      generalize l.tag.getD n = m at htag htag'
      have hfilter : ∀ q : XMLNode → Bool,
          (((c.filter q).map rewriteNode).map (share μ m)).sum ≤ (c.map (share μ n)).sum := by
        intro q
        refine Nat.le_trans ?_ (hall m htag)
        rw [List.map_map, List.map_map]
        exact sum_filter_le _ _ _
      cases hwell with
      | text | mixed =>
        simp only [List.flatMap_cons, List.flatMap_nil, List.append_nil, Portion.nodes, pick_eq]
        exact hfilter _
      | ruby hn =>
        have hr := portion_weight (μ := μ) (c := c) (.lastOr "Rt" [.text ""]) (by decide) rfl
        have he := fun x => wellPortion_elements (c := c) (x := x) (.lastOr "Rt" [.text ""])
          (by decide)
        have hs : Portion.strings.nodes (rewriteList c) = (c.filter isString).map rewriteNode := by
          rw [Portion.nodes, pick_eq]
        simp only [List.flatMap_cons, List.flatMap_nil, List.append_nil, hs, List.map_append,
          List.sum_append]
        have h1 : (((Portion.lastOr "Rt" [.text ""]).nodes (rewriteList c)).map (share μ m)).sum ≤
            sumOf μ ["Rt"] c := by
          refine Nat.le_trans (Nat.le_of_eq ?_) hr
          congr 1
          exact List.map_congr_left fun x hx => share_element (he x hx)
        have h2 : sumOf μ ["Rt"] c ≤ ((c.filter (isNamed ["Rt"])).map (share μ n)).sum := by
          refine sum_le_sum fun y hy => ?_
          have := (List.mem_filter.1 hy)
          rw [share_element (isNamed_isElement this.2)]
          exact ih y this.1
        have h3 : (((c.filter isString).map rewriteNode).map (share μ m)).sum ≤
            ((c.filter isString).map (share μ n)).sum := by
          rw [List.map_map]
          exact sum_le_sum fun y hy => hshare m htag y (List.mem_filter.1 hy).1
        have h4 := sum_disjoint (p := isString) (q := isNamed ["Rt"]) (share μ n) (c := c)
          (by intro x hx; cases x <;> first | rfl | cases hx)
        omega
      | joined hn =>
        have : μ.unit m = 0 := by rw [htag]; exact if_pos hn
        simp only [List.flatMap_cons, List.flatMap_nil, List.append_nil, nodes_joined,
          nodesText_join, List.map_cons, List.map_nil, List.sum_cons, List.sum_nil, share, this,
          of_join, List.map_map, Nat.add_zero]
        exact sum_le_sum fun y _ => share_string n y
      | firstString hn =>
        have : μ.unit m = 0 := by rw [htag]; exact if_pos hn
        simp only [List.flatMap_cons, List.flatMap_nil, List.append_nil, Portion.nodes,
          List.map_cons, List.map_nil, List.sum_cons, List.sum_nil, share, this, Nat.add_zero]
        cases c with
        | nil => exact le_of_eq_of_le μ.of_empty (Nat.zero_le _)
        | cons y c =>
          rw [rewriteList, List.head?_cons, Option.map_some, Option.getD_some]
          exact (share_string n y).trans (Nat.le_add_right _ _)
      | first k =>
        simp only [List.flatMap_cons, List.flatMap_nil, List.append_nil, Portion.nodes]
        have : ((rewriteList c).take k).map Prod.snd = (c.take k).map rewriteNode := by
          rw [rewriteList_eq, ← List.map_take, List.map_map]; rfl
        rw [this]
        refine Nat.le_trans ?_ (hall m htag)
        exact sum_sublist _ ((List.take_sublist k c).map _)
      | elements hps =>
        have hx : ∀ x ∈ ps.flatMap fun p => p.nodes (rewriteList c), isElement x = true := by
          intro x hx
          obtain ⟨p, hp, hx⟩ := List.mem_flatMap.1 hx
          exact wellPortion_elements p (hps p hp) hx
        refine Nat.le_trans ?_ hw
        refine Nat.le_trans (Nat.le_of_eq ?_) (once_weight hps (once_sound hps honce))
        congr 1
        exact List.map_congr_left fun x h => share_element (hx x h)

end JLaw
