import Verif.Extract.Rewritten
import Verif.Reading.Settle

/-!
# What is written for a document of a file
-/

namespace JLaw

open Spec

/-! ## The table -/

/-- The portion gives elements only, and nothing that matters is lost in a file. -/
def wellPortion : Portion → Bool
  | .each _ | .elements | .last _ | .lastUnlessEmpty _ | .before .. | .after .. => true
  | .lastUnder tag _ => !stringTags.contains tag
  | .lastOr tag children =>
    match children with
    | [] => true
    | [.text s] => s == "" && stringTags.contains tag
    | _ => false
  | .merged tag | .wrapped tag _ =>
    match layouts.lookup tag with
    | some l => match l.parts with
      | [.elements] => true
      | _ => false
    | none => false
  | .either p q => wellPortion p && wellPortion q
  | _ => false

/-- What is known about the portions for one tag. -/
inductive WellParts (n : String) : List Portion → Prop
  | text : n ∈ textElements → WellParts n [.text]
  | mixed : WellParts n [.mixed]
  | ruby : n = "Ruby" → WellParts n [.strings, .lastOr "Rt" [.text ""]]
  | joined : n ∈ stringTags → WellParts n [.joined]
  | firstString : n ∈ stringTags → WellParts n [.firstString]
  | first (k : Nat) : WellParts n [.first k]
  | elements {l : List Portion} : (∀ p ∈ l, wellPortion p = true) → WellParts n l

/-- The same as a program. -/
def wellParts (n : String) : List Portion → Bool
  | [.text] => textElements.contains n
  | [.mixed] => true
  | [.strings, .lastOr t [.text s]] => t == "Rt" && s == "" && n == "Ruby"
  | [.joined] => stringTags.contains n
  | [.firstString] => stringTags.contains n
  | [.first _] => true
  | l => l.all wellPortion

theorem wellParts_sound {n : String} {l : List Portion} (h : wellParts n l = true) :
    WellParts n l := by
  unfold wellParts at h
  split at h
  · exact .text (by simpa using h)
  · exact .mixed
  · simp only [Bool.and_eq_true, beq_iff_eq] at h
    obtain ⟨⟨rfl, rfl⟩, rfl⟩ := h
    exact .ruby rfl
  · exact .joined (by simpa using h)
  · exact .firstString (by simpa using h)
  · exact .first _
  · exact .elements (by simpa using h)

theorem layouts_well {n : String} {l : Layout} (h : layouts.lookup n = some l) :
    WellParts n l.parts := by
  have key : layouts.all (fun p => wellParts p.1 p.2.parts) = true := by decide +kernel
  exact wellParts_sound (List.all_eq_true.1 key _ (lookup_pair_mem h))

theorem layouts_tag {n : String} {l : Layout} (h : layouts.lookup n = some l)
    (hn : n ∈ stringTags) : l.tag.getD n = n := by
  rcases layout_tags _ (lookup_pair_mem h) with h | ⟨h1, -⟩
  · rw [show l.tag = none from h]; rfl
  · rw [show n = "SupplProvisionAppdx" from h1] at hn
    exact absurd hn (by decide)

/-! ## Pieces -/

theorem quietNode_element {n : String} {a : Attrs} {c : List XMLNode} (h1 : Apart c)
    (h2 : ∀ s, .text s ∈ c → blank s = true → s = "" ∧ n ∈ stringTags) (h3 : ∀ x ∈ c, QuietNode x) :
    QuietNode (.element n a c) := by
  intro m b d hw
  cases hw with
  | refl => exact ⟨h1, h2⟩
  | child _ _ _ y hy hw => exact h3 y hy m b d hw

theorem quietNode_other {x : XMLNode} (h : isElement x = false) : QuietNode x := by
  intro m b d hw
  have := within_other h hw
  subst this
  cases h

theorem apart_elements {c : List XMLNode} (h : ∀ x ∈ c, isElement x = true) : Apart c := by
  induction c with
  | nil => trivial
  | cons x c ih =>
    refine (apart_cons _ _).2 ⟨fun h' => ?_, ih fun y hy => h y (List.mem_cons_of_mem _ hy)⟩
    have := h x (List.mem_cons_self ..)
    cases x with
    | element => cases h'.1
    | _ => cases this

theorem isString_rewrite (x : XMLNode) : isString (rewriteNode x) = isString x := by
  cases x <;> (rw [rewriteNode]; first | rfl | skip)
  all_goals nofun

theorem isElement_rewrite (x : XMLNode) : isElement (rewriteNode x) = isElement x := by
  cases x <;> (rw [rewriteNode]; first | rfl | skip)
  all_goals nofun

theorem rewriteNode_text (s : String) : rewriteNode (.text s) = .text s := by
  rw [rewriteNode]; nofun

theorem map_rewrite_apart {c : List XMLNode} (h : Apart c) : Apart (c.map rewriteNode) := by
  induction c with
  | nil => trivial
  | cons x c ih =>
    obtain ⟨h1, h2⟩ := (apart_cons _ _).1 h
    rw [List.map_cons, apart_cons, isString_rewrite]
    refine ⟨fun h => h1 ⟨h.1, ?_⟩, ih h2⟩
    cases c with
    | nil => exact h.2
    | cons y c => simpa [isString_rewrite] using h.2

theorem text_mem_map_rewrite {s : String} {c : List XMLNode} :
    .text s ∈ c.map rewriteNode ↔ .text s ∈ c := by
  rw [List.mem_map]
  constructor
  · rintro ⟨x, hx, h⟩
    have : isString x = true := by rw [← isString_rewrite, h]; rfl
    cases x with
    | text t => rw [rewriteNode_text] at h; rwa [← h]
    | _ => cases this
  · intro h
    exact ⟨_, h, rewriteNode_text s⟩

theorem apart_take {c : List XMLNode} (h : Apart c) (k : Nat) : Apart (c.take k) := by
  induction c generalizing k with
  | nil => simpa using h
  | cons x c ih =>
    cases k with
    | zero => trivial
    | succ k =>
      obtain ⟨h1, h2⟩ := (apart_cons _ _).1 h
      rw [List.take_succ_cons, apart_cons]
      refine ⟨fun h => h1 ⟨h.1, ?_⟩, ih h2 k⟩
      cases c with
      | nil => simpa using h.2
      | cons y c =>
        cases k with
        | zero => exact absurd h.2 (by simp)
        | succ k => simpa using h.2

theorem mem_pick {p : XMLNode → Bool} {c : List (XMLNode × XMLNode)} {x : XMLNode}
    (h : x ∈ pick p c) : ∃ y, (y, x) ∈ c ∧ p y = true := by
  rw [pick, List.mem_map] at h
  obtain ⟨⟨y, z⟩, h, rfl⟩ := h
  exact ⟨y, (List.mem_filter.1 h).1, (List.mem_filter.1 h).2⟩

theorem mem_rewriteList {c : List XMLNode} {y x : XMLNode} (h : (y, x) ∈ rewriteList c) :
    y ∈ c ∧ x = rewriteNode y := by
  rw [rewriteList_eq, List.mem_map] at h
  obtain ⟨z, hz, h⟩ := h
  cases h
  exact ⟨hz, rfl⟩

theorem isNamed_isElement {tags : List String} {x : XMLNode} (h : isNamed tags x = true) :
    isElement x = true := by
  cases x <;> first | rfl | cases h

/-- Portions of elements. -/
theorem wellPortion_nodes {c : List XMLNode} (hq : ∀ y ∈ c, QuietNode (rewriteNode y)) (p : Portion)
    (hp : wellPortion p = true) {x : XMLNode} (hx : x ∈ p.nodes (rewriteList c)) :
    isElement x = true ∧ QuietNode x := by
  have hpick : ∀ {q : XMLNode → Bool} {d : List (XMLNode × XMLNode)} {x : XMLNode},
      (∀ z ∈ d, z ∈ rewriteList c) → (∀ y, q y = true → isElement y = true) → x ∈ pick q d →
      isElement x = true ∧ QuietNode x := by
    intro q d x hd hq' hx
    obtain ⟨y, hy, hqy⟩ := mem_pick hx
    obtain ⟨hyc, rfl⟩ := mem_rewriteList (hd _ hy)
    exact ⟨by rw [isElement_rewrite]; exact hq' y hqy, hq y hyc⟩
  have hnamed : ∀ {tags x}, x ∈ pick (isNamed tags) (rewriteList c) →
      isElement x = true ∧ QuietNode x :=
    fun h => hpick (fun _ h => h) (fun _ => isNamed_isElement) h
  have hkids : ∀ {tag x}, (match layouts.lookup tag with
      | some l => match l.parts with
        | [.elements] => true
        | _ => false
      | none => false) = true → x ∈ (pick (isNamed [tag]) (rewriteList c)).flatMap kidsOf →
      isElement x = true ∧ QuietNode x := by
    intro tag x ht hx
    obtain ⟨z, hz, hxz⟩ := List.mem_flatMap.1 hx
    obtain ⟨y, hy, hn⟩ := mem_pick hz
    obtain ⟨hyc, rfl⟩ := mem_rewriteList hy
    obtain ⟨a, d, rfl⟩ := named_of hn
    split at ht
    · next l hl =>
      split at ht
      · next hlp =>
        have hqz := hq _ hyc
        rw [rewriteNode_of hl] at hxz hqz
        refine ⟨?_, hqz.child hxz⟩
        simp only [kidsOf, hlp, List.flatMap_cons, List.flatMap_nil, List.append_nil] at hxz
        obtain ⟨w, hw, hw'⟩ := mem_pick hxz
        obtain ⟨-, rfl⟩ := mem_rewriteList hw
        rw [isElement_rewrite]; exact hw'
      · cases ht
    · cases ht
  induction p generalizing x with
  | each tags => exact hnamed hx
  | elements => exact hpick (fun _ h => h) (fun _ h => h) hx
  | last tag =>
    exact hnamed (List.mem_of_getLast? (by simpa [Portion.nodes] using hx))
  | lastUnlessEmpty tag =>
    have : x ∈ (pick (isNamed [tag]) (rewriteList c)).getLast? := by
      simp only [Portion.nodes, Option.mem_toList, Option.filter_eq_some_iff] at hx
      exact hx.1
    exact hnamed (List.mem_of_getLast? this)
  | before tag other =>
    refine hpick (fun z hz => (List.takeWhile_sublist _).subset hz) (fun y hy => ?_) hx
    rw [Bool.and_eq_true] at hy
    exact isNamed_isElement hy.1
  | after tag other =>
    refine hpick (fun z hz => (List.dropWhile_sublist _).subset hz) (fun y hy => ?_) hx
    rw [Bool.and_eq_true] at hy
    exact isNamed_isElement hy.1
  | lastUnder tag under =>
    simp only [Portion.nodes, Option.mem_toList, Option.map_eq_some_iff] at hx
    obtain ⟨z, hz, rfl⟩ := hx
    have hz := List.mem_of_getLast? hz
    obtain ⟨h1, h2⟩ := hnamed hz
    obtain ⟨y, hy, hn⟩ := mem_pick hz
    obtain ⟨hy, rfl⟩ := mem_rewriteList hy
    obtain ⟨a, d, rfl⟩ := named_of hn
    rw [rewriteNode_element] at h2 ⊢
    refine ⟨rfl, quietNode_element (h2 _ _ _ .refl).1 ?_ fun w hw => h2.child hw⟩
    intro s hs hb
    have h3 := ((h2 _ _ _ .refl).2 s hs hb).2
    rcases rebuild_name tag a (rewriteList d) with h4 | ⟨-, h4⟩
    · rw [h4] at h3
      rw [wellPortion] at hp
      simp [h3] at hp
    · rw [h4] at h3
      exact absurd h3 (by decide)
  | lastOr tag children =>
    simp only [Portion.nodes, List.mem_singleton] at hx
    cases hl : (pick (isNamed [tag]) (rewriteList c)).getLast? with
    | some z =>
      rw [hl] at hx
      rw [hx]
      exact hnamed (List.mem_of_getLast? hl)
    | none =>
      rw [hl] at hx
      rw [hx]
      refine ⟨rfl, ?_⟩
      simp only [wellPortion] at hp
      split at hp
      · exact quietNode_element trivial (by simp) (by simp)
      · simp only [Bool.and_eq_true, beq_iff_eq, List.contains_iff_mem] at hp
        refine quietNode_element ?_ ?_ ?_
        · exact (apart_cons _ _).2 ⟨by simp, trivial⟩
        · simpa using fun _ => hp
        · simpa using quietNode_other rfl
      · cases hp
  | merged tag =>
    simp only [Portion.nodes, List.mem_singleton] at hx
    rw [hx]
    rw [wellPortion] at hp
    refine ⟨rfl, quietNode_element (apart_elements fun x hx => (hkids hp hx).1) ?_
      fun x hx => (hkids hp hx).2⟩
    intro s hs
    cases (hkids hp hs).1
  | wrapped tag wrapper =>
    simp only [Portion.nodes, List.mem_map] at hx
    obtain ⟨z, hz, rfl⟩ := hx
    rw [wellPortion] at hp
    obtain ⟨h1, h2⟩ := hkids hp hz
    refine ⟨rfl, quietNode_element (apart_elements (by simpa using h1)) ?_ (by simpa using h2)⟩
    intro s hs
    rw [List.mem_singleton] at hs
    subst hs
    cases h1
  | either p q ihp ihq =>
    rw [wellPortion, Bool.and_eq_true] at hp
    rw [Portion.nodes] at hx
    split at hx
    · exact ihq hp.2 hx
    · exact ihp hp.1 hx
  | _ => cases hp

/-! ## Documents -/

/-- What is known about the nodes of a document of a file. -/
structure Smooth (x : XMLNode) : Prop where
  settled : ∀ n a c, Within (.element n a c) x → Apart c ∧ ∀ s, .text s ∈ c → blank s = false
  plain : ∀ y, Within y x → y.isOther = false
  unbroken : ∀ n a c, Within (.element n a c) x →
    (n ∈ textElements → ∀ m b d, .element m b d ∈ c →
      m ∈ ["Ruby", "Sup", "Sub"] ∨ m = "Line" ∧ accepts (.element m b d) = true) ∧
    (n = "Ruby" → (c.filter isString).length ≤ 1)

theorem Smooth.child {n : String} {a : Attrs} {c : List XMLNode} (h : Smooth (.element n a c))
    {x : XMLNode} (hx : x ∈ c) : Smooth x where
  settled m b d hw := h.settled m b d (.child _ _ _ x hx hw)
  plain y hw := h.plain y (.child _ _ _ x hx hw)
  unbroken m b d hw := h.unbroken m b d (.child _ _ _ x hx hw)

theorem blank_join {c : List XMLNode} (h : ∀ s, .text s ∈ c → blank s = false)
    (hb : blank (String.join (c.map string)) = true) : String.join (c.map string) = "" := by
  induction c with
  | nil => rfl
  | cons x c ih =>
    rw [List.map_cons, String.join_cons] at hb ⊢
    have hb' : blank (string x) = true ∧ blank (String.join (c.map string)) = true := by
      simpa [blank, String.toList_append, List.all_append] using hb
    rw [ih (fun s hs => h s (List.mem_cons_of_mem _ hs)) hb'.2]
    cases x with
    | text s => rw [string, h s (List.mem_cons_self ..)] at hb'; cases hb'.1
    | _ => rfl

theorem rewrite_quiet (x : XMLNode) (h : Smooth x) : QuietNode (rewriteNode x) := by
  induction x using nodeInduction with
  | ho x hx => exact quietNode_other (by rw [isElement_rewrite]; exact hx)
  | he n a c ih =>
    obtain ⟨h1, h2⟩ := h.settled n a c .refl
    have ih : ∀ y ∈ c, QuietNode (rewriteNode y) := fun y hy => ih y hy (h.child hy)
    have hp : ∀ y ∈ c, (isString y || isElement y) = true := by
      intro y hy
      have := h.plain y (.child _ _ _ y hy .refl)
      cases y <;> first | rfl | cases this
    have hall : ∀ m b, QuietNode (.element m b (c.map rewriteNode)) := by
      intro m b
      refine quietNode_element (map_rewrite_apart h1) ?_ ?_
      · intro s hs hb
        rw [h2 s (text_mem_map_rewrite.1 hs)] at hb
        cases hb
      · intro y hy
        obtain ⟨z, hz, rfl⟩ := List.mem_map.1 hy
        exact ih z hz
    cases hl : layouts.lookup n with
    | none =>
      rw [rewriteNode, rebuild, hl]
      exact quietNode_element trivial (by simp) (by simp)
    | some l =>
      rw [rewriteNode_of hl]
      have htag := layouts_tag hl
      have hw := layouts_well hl
      generalize l.parts = ps at hw
      generalize l.setAttrs a = a'
      generalize l.tag.getD n = t at htag
      cases hw with
      | text hn =>
        simp only [List.flatMap_cons, List.flatMap_nil, List.append_nil, Portion.nodes, pick_eq]
        rw [List.filter_eq_self.2]
        · exact hall _ _
        · intro y hy
          cases y with
          | element m b d =>
            rcases (h.unbroken n a c .refl).1 hn m b d hy with hm | ⟨rfl, hm⟩
            · have : isNamed ["Ruby", "Sup", "Sub"] (.element m b d) = true := by
                rw [isNamed, List.contains_iff_mem]; exact hm
              simp [this]
            · simp [isNamed, hm]
          | text s => rfl
          | _ => exact absurd (hp _ hy) (by simp [isString, isElement])
      | mixed =>
        simp only [List.flatMap_cons, List.flatMap_nil, List.append_nil, Portion.nodes, pick_eq]
        rw [List.filter_eq_self.2 hp]
        exact hall _ _
      | ruby hn =>
        have hr := fun x => wellPortion_nodes (x := x) ih (.lastOr "Rt" [.text ""]) (by decide)
        simp only [List.flatMap_cons, List.flatMap_nil, List.append_nil]
        have hs : Portion.strings.nodes (rewriteList c) = c.filter isString := by
          rw [Portion.nodes, pick_eq, filter_isString_rewrite]
        rw [hs]
        have hlen := (h.unbroken n a c .refl).2 hn
        have hd : Apart (c.filter isString ++ (Portion.lastOr "Rt" [.text ""]).nodes (rewriteList c)) := by
          match hc : c.filter isString, hlen with
          | [], _ => exact apart_elements fun x hx => (hr x hx).1
          | [x], _ =>
            refine (apart_cons _ _).2 ⟨fun h' => ?_, apart_elements fun x hx => (hr x hx).1⟩
            have h3 : ((Portion.lastOr "Rt" [.text ""]).nodes (rewriteList c)).head?.any isString =
              true := h'.2
            cases hd : ((Portion.lastOr "Rt" [.text ""]).nodes (rewriteList c)).head? with
            | none => rw [hd] at h3; cases h3
            | some y =>
              rw [hd] at h3
              have := (hr y (List.mem_of_head? hd)).1
              cases y with
              | element => cases h3
              | _ => cases this
          | _ :: _ :: _, h' => exact absurd h' (by simp)
        refine quietNode_element hd ?_ ?_
        · intro s hs hb
          rcases List.mem_append.1 hs with hs | hs
          · rw [h2 s (List.mem_filter.1 hs).1] at hb; cases hb
          · cases (hr _ hs).1
        · intro y hy
          rcases List.mem_append.1 hy with hy | hy
          · have := (List.mem_filter.1 hy).2
            refine quietNode_other ?_
            cases y <;> first | rfl | cases this
          · exact (hr _ hy).2
      | joined hn =>
        simp only [List.flatMap_cons, List.flatMap_nil, List.append_nil, nodes_joined,
          nodesText_join]
        refine quietNode_element ((apart_cons _ _).2 ⟨by simp, trivial⟩) ?_
          (by simpa using quietNode_other rfl)
        intro s hs hb
        rw [List.mem_singleton] at hs
        cases hs
        exact ⟨blank_join h2 hb, by rw [htag hn]; exact hn⟩
      | firstString hn =>
        simp only [List.flatMap_cons, List.flatMap_nil, List.append_nil, Portion.nodes]
        refine quietNode_element ((apart_cons _ _).2 ⟨by simp, trivial⟩) ?_
          (by simpa using quietNode_other rfl)
        intro s hs hb
        rw [List.mem_singleton] at hs
        cases hs
        refine ⟨?_, by rw [htag hn]; exact hn⟩
        cases c with
        | nil => rfl
        | cons y c =>
          rw [rewriteList] at hb ⊢
          cases y with
          | text s =>
            have := h2 s (List.mem_cons_self ..)
            simp only [List.head?_cons, Option.map_some, Option.getD_some, string] at hb
            rw [this] at hb; cases hb
          | _ => rfl
      | first k =>
        simp only [List.flatMap_cons, List.flatMap_nil, List.append_nil, Portion.nodes]
        have : ((rewriteList c).take k).map Prod.snd = (c.take k).map rewriteNode := by
          rw [rewriteList_eq, ← List.map_take, List.map_map]; rfl
        rw [this]
        refine quietNode_element (map_rewrite_apart (apart_take h1 k)) ?_ ?_
        · intro s hs hb
          rw [h2 s (List.mem_of_mem_take (text_mem_map_rewrite.1 hs))] at hb
          cases hb
        · intro y hy
          obtain ⟨z, hz, rfl⟩ := List.mem_map.1 hy
          exact ih z (List.mem_of_mem_take hz)
      | elements hps =>
        have hx : ∀ x ∈ ps.flatMap fun p => p.nodes (rewriteList c),
            isElement x = true ∧ QuietNode x := by
          intro x hx
          obtain ⟨p, hp, hx⟩ := List.mem_flatMap.1 hx
          exact wellPortion_nodes ih p (hps p hp) hx
        refine quietNode_element (apart_elements fun x h => (hx x h).1) ?_ fun x h => (hx x h).2
        intro s hs
        cases (hx _ hs).1

theorem rewrite_quiet_doc {e : Element} (h1 : Settled e) (h2 : NoComments e) (h3 : WholeTexts e) :
    Quiet (rewrite e) := by
  have := rewrite_quiet e.node ⟨h1, h2, h3⟩
  rwa [rewriteNode_node] at this

/-! ## Depth -/

theorem heightList_mem_le {c : List XMLNode} {x : XMLNode} (h : x ∈ c) :
    x.height ≤ heightList c := height_le_heightList h

theorem height_retag (t : String) (x : XMLNode) : (retag t x).height = x.height := by
  cases x <;> rfl

theorem height_kids {x y : XMLNode} (h : y ∈ kidsOf x) : y.height + 1 ≤ x.height := by
  cases x with
  | element n a c => exact Nat.succ_le_succ (height_le_heightList h)
  | _ => cases h

/-- The children that are given in the table. -/
def shallow : Portion → Bool
  | .lastOr _ children => heightList children == 0
  | .either p q => shallow p && shallow q
  | _ => true

theorem shallow_nodes {c : List XMLNode} {k : Nat} (hc : ∀ y ∈ c, (rewriteNode y).height ≤ k)
    (hk : 1 ≤ k) (p : Portion) (hp : shallow p = true) {x : XMLNode}
    (hx : x ∈ p.nodes (rewriteList c)) : x.height ≤ k := by
  have hpick : ∀ {q : XMLNode → Bool} {d : List (XMLNode × XMLNode)} {x : XMLNode},
      (∀ z ∈ d, z ∈ rewriteList c) → x ∈ pick q d → x.height ≤ k := by
    intro q d x hd hx
    obtain ⟨y, hy, -⟩ := mem_pick hx
    obtain ⟨hyc, rfl⟩ := mem_rewriteList (hd _ hy)
    exact hc y hyc
  have hself : ∀ {q : XMLNode → Bool} {x : XMLNode}, x ∈ pick q (rewriteList c) → x.height ≤ k :=
    fun h => hpick (fun _ h => h) h
  induction p generalizing x with
  | each | elements | strings | mixed | text => exact hself hx
  | first n =>
    obtain ⟨⟨y, z⟩, h1, rfl⟩ := List.mem_map.1 hx
    obtain ⟨hy, rfl⟩ := mem_rewriteList (List.mem_of_mem_take h1)
    exact hc y hy
  | last tag => exact hself (List.mem_of_getLast? (by simpa [Portion.nodes] using hx))
  | lastUnlessEmpty tag =>
    have : x ∈ (pick (isNamed [tag]) (rewriteList c)).getLast? := by
      simp only [Portion.nodes, Option.mem_toList, Option.filter_eq_some_iff] at hx
      exact hx.1
    exact hself (List.mem_of_getLast? this)
  | lastUnder tag under =>
    simp only [Portion.nodes, Option.mem_toList, Option.map_eq_some_iff] at hx
    obtain ⟨z, hz, rfl⟩ := hx
    rw [height_retag]
    exact hself (List.mem_of_getLast? hz)
  | lastOr tag children =>
    simp only [Portion.nodes, List.mem_singleton] at hx
    cases hl : (pick (isNamed [tag]) (rewriteList c)).getLast? with
    | some z =>
      rw [hl] at hx
      rw [hx]
      exact hself (List.mem_of_getLast? hl)
    | none =>
      rw [hl] at hx
      rw [shallow, beq_iff_eq] at hp
      rw [hx, Option.getD_none, XMLNode.height, hp]
      exact hk
  | merged tag =>
    simp only [Portion.nodes, List.mem_singleton] at hx
    rw [hx, XMLNode.height]
    have : heightList ((pick (isNamed [tag]) (rewriteList c)).flatMap kidsOf) ≤ k - 1 := by
      refine heightList_le fun y hy => ?_
      obtain ⟨z, hz, hyz⟩ := List.mem_flatMap.1 hy
      have := height_kids hyz
      have := hself hz
      omega
    omega
  | wrapped tag wrapper =>
    simp only [Portion.nodes, List.mem_map] at hx
    obtain ⟨y, hy, rfl⟩ := hx
    obtain ⟨z, hz, hyz⟩ := List.mem_flatMap.1 hy
    have := height_kids hyz
    have := hself hz
    simp only [XMLNode.height, heightList]
    omega
  | joined | firstString =>
    rw [Portion.nodes, List.mem_singleton] at hx
    rw [hx]
    exact Nat.zero_le _
  | before tag other => exact hpick (fun z hz => (List.takeWhile_sublist _).subset hz) hx
  | after tag other => exact hpick (fun z hz => (List.dropWhile_sublist _).subset hz) hx
  | either p q ihp ihq =>
    rw [shallow, Bool.and_eq_true] at hp
    rw [Portion.nodes] at hx
    split at hx
    · exact ihq hp.2 hx
    · exact ihp hp.1 hx

theorem height_rewriteNode (x : XMLNode) : (rewriteNode x).height ≤ x.height + 1 := by
  induction x using nodeInduction with
  | ho x hx =>
    have := isElement_rewrite x
    rw [hx] at this
    cases h : rewriteNode x with
    | element => rw [h] at this; cases this
    | _ => exact Nat.zero_le _
  | he n a c ih =>
    cases hl : layouts.lookup n with
    | none =>
      rw [rewriteNode, rebuild, hl]
      simp [Element.node, XMLNode.height, heightList]
    | some l =>
      rw [rewriteNode_of hl, XMLNode.height, XMLNode.height]
      refine Nat.succ_le_succ (heightList_le fun x hx => ?_)
      obtain ⟨p, hp, hx⟩ := List.mem_flatMap.1 hx
      have hs : layouts.all (fun q => q.2.parts.all shallow) = true := by decide +kernel
      have hs := List.all_eq_true.1 (List.all_eq_true.1 hs _ (lookup_pair_mem hl)) p hp
      refine shallow_nodes (k := heightList c + 1) (fun y hy => ?_) (by omega) p hs hx
      exact (ih y hy).trans (Nat.succ_le_succ (height_le_heightList hy))

theorem height_rewrite (e : Element) : (rewrite e).node.height ≤ e.node.height + 1 := by
  rw [← rewriteNode_node]; exact height_rewriteNode _

end JLaw
