import Verif.Props.Rewrite
import Verif.Props.Verdict
import Verif.Spec.Settle

/-!
# What an XML file keeps of a document: lemmas
-/

namespace JLaw

open Spec

/-- A property of all nodes, from the children up. -/
theorem nodeInduction {P : XMLNode → Prop} (he : ∀ n a c, (∀ x ∈ c, P x) → P (.element n a c))
    (ho : ∀ x, isElement x = false → P x) : (x : XMLNode) → P x
  | .element n a c => he n a c fun x _ => nodeInduction he ho x
  | .text s => ho (.text s) rfl
  | .comment s => ho (.comment s) rfl
  | .cdata s => ho (.cdata s) rfl
  | .processingInstruction s t => ho (.processingInstruction s t) rfl

/-! ## Joining texts -/

theorem settleEach_eq (c : List XMLNode) : settleEach c = c.map settleNode := by
  induction c with
  | nil => rfl
  | cons x c ih => rw [settleEach, ih, List.map_cons]

theorem settleNode_node (e : Element) : settleNode e.node = (settle e).node := by
  rw [Element.node, settleNode]; rfl

theorem settleNode_of_not {x : XMLNode} (h : isElement x = false) : settleNode x = x := by
  cases x <;> first | rfl | cases h

theorem isElement_settle (x : XMLNode) : isElement (settleNode x) = isElement x := by
  cases x <;> rfl

theorem isString_settle (x : XMLNode) : isString (settleNode x) = isString x := by
  cases x <;> rfl

theorem string_settle (x : XMLNode) : string (settleNode x) = string x := by
  cases x <;> rfl

theorem isNamed_settle (tags : List String) (x : XMLNode) :
    isNamed tags (settleNode x) = isNamed tags x := by
  cases x <;> rfl

theorem isBlank_settle (x : XMLNode) : isBlank (settleNode x) = isBlank x := by
  cases x <;> rfl

theorem apart_cons (x : XMLNode) (c : List XMLNode) :
    Apart (x :: c) ↔ ¬ (isString x = true ∧ c.head?.any isString = true) ∧ Apart c := by
  cases x with
  | text s =>
    cases c with
    | nil => simp [Apart]
    | cons y c => cases y <;> simp [Apart, isString]
  | _ => simp [Apart, isString]

theorem joinTexts_cons_text (s : String) (c : List XMLNode) :
    joinTexts (.text s :: c) = match joinTexts c with
      | .text t :: d => .text (s ++ t) :: d
      | d => .text s :: d := by rw [joinTexts]; rfl

theorem joinTexts_cons_other {x : XMLNode} (h : isString x = false) (c : List XMLNode) :
    joinTexts (x :: c) = x :: joinTexts c := by
  cases x <;> first | rfl | cases h

theorem joinTexts_head (c : List XMLNode) :
    (joinTexts c).head?.any isString = c.head?.any isString := by
  cases c with
  | nil => rfl
  | cons x c =>
    cases x with
    | text s => rw [joinTexts_cons_text]; split <;> rfl
    | _ => rfl

theorem joinTexts_apart (c : List XMLNode) : Apart (joinTexts c) := by
  induction c with
  | nil => trivial
  | cons x c ih =>
    by_cases hx : isString x = true
    · cases x with
      | text s =>
        rw [joinTexts_cons_text]
        split
        · next t d h => 
          rw [h, apart_cons] at ih
          exact (apart_cons _ _).2 ih
        · next d h =>
          refine (apart_cons _ _).2 ⟨?_, ih⟩
          rintro ⟨-, h2⟩
          cases hj : joinTexts c with
          | nil => rw [hj] at h2; cases h2
          | cons y d =>
            rw [hj] at h2
            cases y with
            | text t => exact h t d hj
            | _ => cases h2
      | _ => cases hx
    · have hx : isString x = false := by simpa using hx
      rw [joinTexts_cons_other hx, apart_cons, hx]
      exact ⟨by simp, ih⟩

theorem joinTexts_of_apart {c : List XMLNode} (h : Apart c) : joinTexts c = c := by
  induction c with
  | nil => rfl
  | cons x c ih =>
    obtain ⟨h1, h2⟩ := (apart_cons _ _).1 h
    by_cases hx : isString x = true
    · cases x with
      | text s =>
        rw [joinTexts_cons_text, ih h2]
        cases c with
        | nil => rfl
        | cons y c =>
          cases y with
          | text t => exact absurd ⟨rfl, rfl⟩ h1
          | _ => rfl
      | _ => cases hx
    · rw [joinTexts_cons_other (by simpa using hx), ih h2]

theorem mem_joinTexts_other {x : XMLNode} (hx : isString x = false) (c : List XMLNode) :
    x ∈ joinTexts c ↔ x ∈ c := by
  have hne : ∀ s, x ≠ .text s := by rintro s rfl; cases hx
  induction c with
  | nil => rfl
  | cons y c ih =>
    by_cases hy : isString y = true
    · cases y with
      | text s =>
        have h' : x ∈ XMLNode.text s :: c ↔ x ∈ joinTexts c := by simp [hne, ih]
        rw [joinTexts_cons_text]
        refine Iff.trans ?_ h'.symm
        split
        · next t d h => rw [h]; simp [hne]
        · next d h => simp [hne]
      | _ => cases hy
    · simp [joinTexts_cons_other (by simpa using hy : isString y = false), ih]

theorem filter_apart {c : List XMLNode} (h : Apart c) :
    Apart (c.filter fun x => !isBlank x) := by
  induction c with
  | nil => trivial
  | cons x c ih =>
    obtain ⟨h1, h2⟩ := (apart_cons _ _).1 h
    rw [List.filter_cons]
    split
    · refine (apart_cons _ _).2 ⟨?_, ih h2⟩
      rintro ⟨h3, h4⟩
      refine h1 ⟨h3, ?_⟩
      cases c with
      | nil => exact h4
      | cons y c =>
        cases y with
        | text t => rfl
        | _ => exact h4
    · exact ih h2

theorem tidy_apart (c : List XMLNode) : Apart (tidy c) := filter_apart (joinTexts_apart c)

theorem tidy_not_blank {c : List XMLNode} {s : String} (h : .text s ∈ tidy c) : blank s = false := by
  simpa [isBlank] using (List.mem_filter.1 h).2

theorem mem_tidy_other {x : XMLNode} (hx : isString x = false) (c : List XMLNode) :
    x ∈ tidy c ↔ x ∈ c := by
  rw [tidy, List.mem_filter, mem_joinTexts_other hx]
  cases x with
  | text => cases hx
  | _ => simp [isBlank]

theorem mem_tidy_element {n : String} {a : Attrs} {d c : List XMLNode} :
    .element n a d ∈ tidy c ↔ .element n a d ∈ c := mem_tidy_other rfl c

theorem tidy_of_apart {c : List XMLNode} (h : Apart c) :
    tidy c = c.filter fun x => !isBlank x := by rw [tidy, joinTexts_of_apart h]

theorem tidy_eq {c : List XMLNode} (h : Apart c) (hb : ∀ s, .text s ∈ c → blank s = false) :
    tidy c = c := by
  rw [tidy_of_apart h, List.filter_eq_self]
  intro x hx
  cases x with
  | text s => simp [isBlank, hb s hx]
  | _ => rfl

theorem map_settle_apart {c : List XMLNode} (h : Apart c) : Apart (c.map settleNode) := by
  induction c with
  | nil => trivial
  | cons x c ih =>
    obtain ⟨h1, h2⟩ := (apart_cons _ _).1 h
    rw [List.map_cons, apart_cons, isString_settle]
    refine ⟨fun h => h1 ⟨h.1, ?_⟩, ih h2⟩
    cases c with
    | nil => exact h.2
    | cons y c => simpa [isString_settle] using h.2

theorem text_mem_map_settle {s : String} {c : List XMLNode} :
    .text s ∈ c.map settleNode ↔ .text s ∈ c := by
  rw [List.mem_map]
  constructor
  · rintro ⟨x, hx, h⟩
    cases x <;> simp_all [settleNode]
  · intro h
    exact ⟨_, h, rfl⟩

/-! ## What is in a file -/

theorem within_other {x y : XMLNode} (hy : isElement y = false) (h : Within x y) : x = y := by
  cases h with
  | refl => rfl
  | child => cases hy

/-- Every element in a file comes from an element that was written. -/
theorem within_settle {n : String} {a : Attrs} {c : List XMLNode} (x : XMLNode)
    (h : Within (.element n a c) (settleNode x)) :
    ∃ d, Within (.element n a d) x ∧ c = tidy (d.map settleNode) := by
  induction x using nodeInduction with
  | he m b d ih =>
    rw [settleNode, settleEach_eq] at h
    cases h with
    | refl => exact ⟨d, .refl, rfl⟩
    | child _ _ _ y hy hw =>
      by_cases he : isElement y = true
      · cases y with
        | element m' b' d' =>
          rw [mem_tidy_element, List.mem_map] at hy
          obtain ⟨z, hz, hzy⟩ := hy
          obtain ⟨d1, h1, h2⟩ := ih z hz (hzy ▸ hw)
          exact ⟨d1, .child _ _ _ z hz h1, h2⟩
        | _ => cases he
      · have := within_other (by simpa using he) hw
        subst this
        cases he rfl
  | ho x hx =>
    rw [settleNode_of_not hx] at h
    have := within_other hx h
    subst this
    cases hx

theorem settle_settled (e : Element) : Settled (settle e) := by
  intro n a c h
  rw [← settleNode_node] at h
  obtain ⟨d, -, rfl⟩ := within_settle _ h
  exact ⟨tidy_apart _, fun s => tidy_not_blank⟩

theorem settleNode_eq (x : XMLNode) (h : ∀ n a c, Within (.element n a c) x →
    Apart c ∧ ∀ s, .text s ∈ c → blank s = false) : settleNode x = x := by
  induction x using nodeInduction with
  | he n a c ih =>
    have hc : c.map settleNode = c := by
      conv_rhs => rw [← List.map_id c]
      refine List.map_congr_left fun y hy => ih y hy fun m b d hw => h m b d (.child _ _ _ y hy hw)
    rw [settleNode, settleEach_eq, hc, tidy_eq (h n a c .refl).1 (h n a c .refl).2]
  | ho x hx => exact settleNode_of_not hx

theorem node_inj {e e' : Element} (h : e.node = e'.node) : e = e' := by
  cases e; cases e'; cases h; rfl

theorem settle_eq_iff (e : Element) : settle e = e ↔ Settled e := by
  constructor
  · intro h
    rw [← h]
    exact settle_settled e
  · intro h
    refine node_inj ?_
    rw [← settleNode_node]
    exact settleNode_eq _ h

theorem settled_quiet {e : Element} (h : Settled e) : Quiet e := fun n a c hw =>
  ⟨(h n a c hw).1, fun s hs hb => by rw [(h n a c hw).2 s hs] at hb; cases hb⟩

theorem settle_clean {e : Element} (h : Clean e) : Clean (settle e) := by
  intro x hx hl
  rw [← settleNode_node] at hx
  have key : ∀ {n a c}, Within (.element n a c) (settleNode e.node) →
      (∀ d, c = tidy (d.map settleNode) → Lossy (.element n a d)) → False := by
    intro n a c hw hd
    obtain ⟨d, h1, h2⟩ := within_settle _ hw
    exact h _ h1 (hd d h2)
  have kid : ∀ {n a c d}, .element n a c ∈ tidy (List.map settleNode d) →
      ∃ c', .element n a c' ∈ d := by
    intro n a c d hm
    rw [mem_tidy_element, List.mem_map] at hm
    obtain ⟨y, hy, he⟩ := hm
    cases y with
    | element m b c' =>
      rw [settleNode] at he
      cases he
      exact ⟨c', hy⟩
    | _ => cases he
  cases hl with
  | tag ht => exact key hx fun d _ => .tag ht
  | remarks hm =>
    refine key hx ?_
    rintro d rfl
    obtain ⟨c', h'⟩ := kid hm
    exact .remarks h'
  | supplTable hm =>
    refine key hx ?_
    rintro d rfl
    obtain ⟨c', h'⟩ := kid hm
    exact .supplTable h'
  | related hm =>
    refine key hx ?_
    rintro d rfl
    obtain ⟨c', h'⟩ := kid hm
    exact .related h'
  | formula hm => exact key hx fun d _ => .formula hm
  | align h1 h2 => exact key hx fun d _ => .align h1 h2
  | valign h1 h2 => exact key hx fun d _ => .valign h1 h2
  | number h1 h2 h3 => exact key hx fun d _ => .number h1 h2 h3

theorem settle_bare {e : Element} (h : ¬ e.HasBareArticle) : ¬ (settle e).HasBareArticle := by
  rintro ⟨x, hx, a, c, rfl, hb⟩
  rw [← settleNode_node] at hx
  obtain ⟨d, h1, rfl⟩ := within_settle _ hx
  refine h ⟨_, h1, a, d, rfl, fun n' a' c' hm => ?_⟩
  refine hb n' a' (tidy (c'.map settleNode)) (mem_tidy_element.2 (List.mem_map.2 ⟨_, hm, ?_⟩))
  rw [settleNode, settleEach_eq]

theorem heightList_le {c : List XMLNode} {k : Nat} (h : ∀ x ∈ c, x.height ≤ k) :
    heightList c ≤ k := by
  induction c with
  | nil => exact Nat.zero_le _
  | cons x c ih =>
    rw [heightList]
    exact Nat.max_le.2 ⟨h x (List.mem_cons_self ..), ih fun y hy => h y (List.mem_cons_of_mem _ hy)⟩

theorem height_settle (x : XMLNode) : (settleNode x).height ≤ x.height := by
  induction x using nodeInduction with
  | he n a c ih =>
    rw [settleNode, XMLNode.height, XMLNode.height, settleEach_eq]
    refine Nat.succ_le_succ (heightList_le fun y hy => ?_)
    by_cases hs : isString y = true
    · cases y with
      | text => exact Nat.zero_le _
      | _ => cases hs
    · rw [mem_tidy_other (by simpa using hs), List.mem_map] at hy
      obtain ⟨z, hz, rfl⟩ := hy
      exact (ih z hz).trans (height_le_heightList hz)
  | ho x hx => rw [settleNode_of_not hx]

/-! ## Quiet documents: the checker and the table see no difference -/

/-- No text in the tree follows another one or is blank, apart from the empty ones that do not
matter. -/
def QuietNode (x : XMLNode) : Prop :=
  ∀ n a c, Within (.element n a c) x →
    Apart c ∧ ∀ s, .text s ∈ c → blank s = true → s = "" ∧ n ∈ stringTags

theorem QuietNode.child {n : String} {a : Attrs} {c : List XMLNode} (h : QuietNode (.element n a c))
    {x : XMLNode} (hx : x ∈ c) : QuietNode x := fun m b d hw => h m b d (.child _ _ _ x hx hw)

theorem QuietNode.settle_eq {n : String} {a : Attrs} {c : List XMLNode}
    (h : QuietNode (.element n a c)) (hn : n ∉ stringTags) :
    settleNode (.element n a c) = .element n a (c.map settleNode) := by
  obtain ⟨h1, h2⟩ := h n a c .refl
  rw [settleNode, settleEach_eq, tidy_eq (map_settle_apart h1)]
  intro s hs
  rw [text_mem_map_settle] at hs
  by_contra hb
  exact hn (h2 s hs (by simpa using hb)).2

theorem QuietNode.settle_string {n : String} {a : Attrs} {c : List XMLNode}
    (h : QuietNode (.element n a c)) :
    settleNode (.element n a c) =
      .element n a ((c.filter fun x => !isBlank x).map settleNode) := by
  obtain ⟨h1, h2⟩ := h n a c .refl
  rw [settleNode, settleEach_eq, tidy_of_apart (map_settle_apart h1), List.filter_map]
  congr 2
  refine List.filter_congr fun x _ => ?_
  rw [Function.comp_apply, isBlank_settle]

theorem elems_map_settle (c : List XMLNode) : elems (c.map settleNode) = (elems c).map settle := by
  induction c with
  | nil => rfl
  | cons x c ih =>
    cases x with
    | element n a d =>
      rw [List.map_cons, settleNode, elems_element, elems_element, ih, List.map_cons]; rfl
    | _ => exact ih

theorem startsWith_map_settle (ts : List String) (c : List XMLNode) :
    startsWith ts (c.map settleNode) = startsWith ts c := by
  induction ts generalizing c with
  | nil => rfl
  | cons t ts ih =>
    cases c with
    | nil => rfl
    | cons x c =>
      cases x with
      | element n a d => rw [List.map_cons, settleNode, startsWith, startsWith, ih]
      | _ => rfl

theorem Rule.check_map_settle (r : Rule) (a : Attrs) (c : List (XMLNode × Bool)) :
    r.check a (c.map fun p => (settleNode p.1, p.2)) = r.check a c := by
  have h1 : (c.map fun p => (settleNode p.1, p.2)).map Prod.fst = (c.map Prod.fst).map settleNode := by
    rw [List.map_map, List.map_map]; rfl
  have h2 : ∀ p : XMLNode × Bool, r.checkNode (settleNode p.1, p.2) = r.checkNode p := by
    rintro ⟨x, b⟩
    cases x <;> rfl
  have h3 : ∀ l : List Element, r.checkSequence (l.map settle) = r.checkSequence l := by
    intro l
    simp only [Rule.checkSequence, List.dropWhile_map, List.all_map]
    rfl
  simp only [Rule.check, h1, startsWith_map_settle, ← List.map_drop, elems_map_settle, h3,
    List.any_map, ← List.map_take, List.all_map, Function.comp_def, h2]
  rfl

theorem free_check (a : Attrs) (c : List (XMLNode × Bool)) : free.check a c = true := by
  have h : ∀ p : XMLNode × Bool, free.checkNode p = true := by
    rintro ⟨x, b⟩
    cases x <;> rfl
  have h1 : (c.drop free.first.length).all free.checkNode = true :=
    List.all_eq_true.2 fun p _ => h p
  rw [Rule.check, h1]
  simp [free, startsWith, Rule.checkSequence]

theorem accepts_settle (x : XMLNode) (h : QuietNode x) : accepts (settleNode x) = accepts x := by
  induction x using nodeInduction with
  | he n a c ih =>
    by_cases hn : n ∈ stringTags
    · rw [h.settle_string, accepts, accepts]
      simp only [stringTags, List.mem_cons, List.not_mem_nil, or_false] at hn
      have hl : rules.lookup n = some free ∨ rules.lookup n = none := by
        rcases hn with rfl | rfl | rfl | rfl <;> first | exact .inl rfl | exact .inr rfl
      rcases hl with hl | hl
      · simp only [hl, free_check]
      · simp only [hl]
    · rw [h.settle_eq hn, accepts, accepts]
      have : acceptsList (c.map settleNode) =
          (acceptsList c).map fun p => (settleNode p.1, p.2) := by
        rw [acceptsList_eq, acceptsList_eq, List.map_map, List.map_map]
        refine List.map_congr_left fun y hy => ?_
        rw [Function.comp_apply, Function.comp_apply, ih y hy (h.child hy)]
      rw [this]
      split
      · exact Rule.check_map_settle _ _ _
      · rfl
  | ho x hx => rw [settleNode_of_not hx]

theorem pick_map_settle {p : XMLNode → Bool} {c : List (XMLNode × XMLNode)}
    (h : ∀ x ∈ c, p (settleNode x.1) = p x.1) :
    pick p (c.map fun x => (settleNode x.1, x.2)) = pick p c := by
  rw [pick, pick, List.filter_map, List.map_map]
  have : c.filter ((fun x => p x.1) ∘ fun x => (settleNode x.1, x.2)) = c.filter fun x => p x.1 :=
    List.filter_congr fun x hx => h x hx
  rw [this]
  rfl

theorem nodes_map_settle {c : List (XMLNode × XMLNode)}
    (h : ∀ x ∈ c, accepts (settleNode x.1) = accepts x.1) (p : Portion) :
    p.nodes (c.map fun x => (settleNode x.1, x.2)) = p.nodes c := by
  have hn : ∀ tags, pick (isNamed tags) (c.map fun x => (settleNode x.1, x.2)) =
      pick (isNamed tags) c := fun tags => pick_map_settle fun x _ => isNamed_settle tags _
  induction p with
  | first n => simp only [Portion.nodes, ← List.map_take, List.map_map]; rfl
  | elements => exact pick_map_settle fun x _ => isElement_settle _
  | strings => exact pick_map_settle fun x _ => isString_settle _
  | mixed => exact pick_map_settle fun x _ => (by rw [isElement_settle, isString_settle])
  | text =>
    refine pick_map_settle fun x hx => ?_
    rw [isNamed_settle, isNamed_settle, isString_settle, h x hx]
  | joined =>
    simp only [Portion.nodes, List.map_map, Function.comp_def, string_settle]
  | firstString =>
    simp only [Portion.nodes, List.head?_map, Option.map_map, Function.comp_def, string_settle]
  | before tag other =>
    simp only [Portion.nodes, List.takeWhile_map, Function.comp_def, isNamed_settle]
    refine pick_map_settle fun x hx => ?_
    rw [isNamed_settle, h x ((List.takeWhile_sublist _).subset hx)]
  | after tag other =>
    simp only [Portion.nodes, List.dropWhile_map, Function.comp_def, isNamed_settle]
    refine pick_map_settle fun x hx => ?_
    rw [isNamed_settle, h x ((List.dropWhile_sublist _).subset hx)]
  | either p q hp hq => simp only [Portion.nodes, hp, hq]
  | _ => simp only [Portion.nodes, hn]

theorem rewriteNode_element (n : String) (a : Attrs) (c : List XMLNode) :
    rewriteNode (.element n a c) = (rebuild n a (rewriteList c)).node := by rw [rewriteNode]

theorem join_filter {c : List XMLNode} (h : ∀ s, .text s ∈ c → blank s = true → s = "") :
    String.join ((c.filter fun x => !isBlank x).map string) = String.join (c.map string) := by
  induction c with
  | nil => rfl
  | cons x c ih =>
    have ih := ih fun s hs => h s (List.mem_cons_of_mem _ hs)
    rw [List.filter_cons]
    split
    · rw [List.map_cons, List.map_cons, String.join_cons, String.join_cons, ih]
    · next hx =>
      cases x with
      | text s =>
        have : s = "" := h s (List.mem_cons_self ..) (by simpa [isBlank] using hx)
        subst this
        rw [List.map_cons, String.join_cons, ih]
        exact String.empty_append.symm
      | _ => exact absurd rfl hx

theorem head_filter {c : List XMLNode} (ha : Apart c)
    (h : ∀ s, .text s ∈ c → blank s = true → s = "") :
    ((c.filter fun x => !isBlank x).head?.map string).getD "" = (c.head?.map string).getD "" := by
  cases c with
  | nil => rfl
  | cons x c =>
    rw [List.filter_cons]
    split
    · rfl
    · next hx =>
      cases x with
      | text s =>
        have : s = "" := h s (List.mem_cons_self ..) (by simpa [isBlank] using hx)
        subst this
        cases c with
        | nil => rfl
        | cons y c =>
          cases y with
          | text t => exact ha.elim
          | _ => rfl
      | _ => exact absurd rfl hx

theorem rewrite_settle (x : XMLNode) (h : QuietNode x) : rewriteNode (settleNode x) = rewriteNode x := by
  induction x using nodeInduction with
  | he n a c ih =>
    have hr : ∀ d, (∀ y ∈ d, y ∈ c) → rewriteList (d.map settleNode) =
        (rewriteList d).map fun p => (settleNode p.1, p.2) := by
      intro d hd
      rw [rewriteList_eq, rewriteList_eq, List.map_map, List.map_map]
      refine List.map_congr_left fun y hy => ?_
      rw [Function.comp_apply, Function.comp_apply, ih y (hd y hy) (h.child (hd y hy))]
    have hac : ∀ d, (∀ y ∈ d, y ∈ c) → ∀ p ∈ rewriteList d,
        accepts (settleNode p.1) = accepts p.1 := by
      intro d hd p hp
      rw [rewriteList_eq, List.mem_map] at hp
      obtain ⟨y, hy, rfl⟩ := hp
      exact accepts_settle y (h.child (hd y hy))
    have key : ∀ d, (∀ y ∈ d, y ∈ c) → rebuild n a (rewriteList (d.map settleNode)) =
        rebuild n a (rewriteList d) := by
      intro d hd
      rw [hr d hd, rebuild, rebuild]
      simp only [nodes_map_settle (hac d hd)]
    by_cases hn : n ∈ stringTags
    · rw [h.settle_string, rewriteNode_element, rewriteNode_element,
        key _ fun y hy => (List.mem_filter.1 hy).1]
      obtain ⟨h1, h2⟩ := h n a c .refl
      simp only [stringTags, List.mem_cons, List.not_mem_nil, or_false] at hn
      have hj := join_filter (c := c) fun s hs hb => (h2 s hs hb).1
      have hh := head_filter h1 fun s hs hb => (h2 s hs hb).1
      have hj' : ∀ d : List XMLNode, Portion.joined.nodes (rewriteList d) =
          [.text (String.join (d.map string))] := fun d => by
        rw [Portion.nodes, rewriteList_eq, List.map_map]; rfl
      have hh' : ∀ d : List XMLNode, Portion.firstString.nodes (rewriteList d) =
          [.text ((d.head?.map string).getD "")] := fun d => by
        rw [Portion.nodes, rewriteList_eq, List.head?_map, Option.map_map]; rfl
      have hl : layouts.lookup n = some { parts := [.joined] } ∨
          layouts.lookup n = some { parts := [.firstString] } := by
        rcases hn with rfl | rfl | rfl | rfl <;> first | exact .inl rfl | exact .inr rfl
      rcases hl with hl | hl
      · simp only [rebuild, hl, List.flatMap_cons, List.flatMap_nil, hj', hj]
      · simp only [rebuild, hl, List.flatMap_cons, List.flatMap_nil, hh', hh]
    · rw [h.settle_eq hn, rewriteNode_element, rewriteNode_element, key c fun _ hy => hy]
  | ho x hx => rw [settleNode_of_not hx]

/-! ## The verdict -/

theorem judgeList_eq' (c : List XMLNode) : judgeList c = c.map fun x => (x, judge x) := by
  induction c with
  | nil => rfl
  | cons x c ih => rw [judgeList, ih, List.map_cons]

theorem judgeFirst_map_settle (tag : String) (ts : List String) (c : List (XMLNode × Verdict)) :
    judgeFirst tag ts (c.map fun p => (settleNode p.1, p.2)) = judgeFirst tag ts c := by
  induction ts generalizing c with
  | nil => rfl
  | cons t ts ih =>
    cases c with
    | nil => rfl
    | cons p c =>
      obtain ⟨x, v⟩ := p
      cases x with
      | element n a d =>
        rw [List.map_cons]
        simp only [settleNode, judgeFirst, ih]
      | _ => rfl

theorem Rule.judgeNode_settle (tag : String) (r : Rule) (p : XMLNode × Verdict) :
    r.judgeNode tag (settleNode p.1, p.2) = r.judgeNode tag p := by
  obtain ⟨x, v⟩ := p
  cases x <;> rfl

theorem Rule.judgeHeads_map_settle (tag : String) (r : Rule) (c : List (XMLNode × Verdict)) :
    r.judgeHeads tag (c.map fun p => (settleNode p.1, p.2)) = r.judgeHeads tag c := by
  induction c with
  | nil => rfl
  | cons p c ih =>
    obtain ⟨x, v⟩ := p
    cases x with
    | element n a d =>
      rw [List.map_cons]
      simp only [settleNode, Rule.judgeHeads, ih]
      split
      · rfl
      · rw [List.map_cons, List.map_cons, List.map_map]
        congr 2
        refine List.map_congr_left fun q _ => ?_
        exact Rule.judgeNode_settle tag r q
    | _ => exact ih

theorem Rule.judge_map_settle (tag : String) (r : Rule) (a : Attrs) (c : List (XMLNode × Verdict)) :
    r.judge tag a (c.map fun p => (settleNode p.1, p.2)) = r.judge tag a c := by
  have h1 : ∀ d : List (XMLNode × Verdict),
      r.judgeRest tag (d.map fun p => (settleNode p.1, p.2)) = r.judgeRest tag d := by
    intro d
    rw [Rule.judgeRest, Rule.judgeRest, Rule.judgeHeads_map_settle, List.map_map]
    split
    · congr 1
      exact List.map_congr_left fun q _ => Rule.judgeNode_settle tag r q
    · rfl
  have h2 : ∀ d : List XMLNode, r.judgeMust tag (d.map settleNode) = r.judgeMust tag d := by
    intro d
    simp only [Rule.judgeMust, elems_map_settle, List.any_map]
    rfl
  have h3 : ∀ d : List (XMLNode × Verdict), (d.map fun p => (settleNode p.1, p.2)).map Prod.fst =
      (d.map Prod.fst).map settleNode := fun d => by rw [List.map_map, List.map_map]; rfl
  simp only [Rule.judge, ← List.map_drop, h1, h3, h2, judgeFirst_map_settle]

theorem verdict_all_fine {l : List Verdict} (h : ∀ v ∈ l, v = .fine) : Verdict.all l = .fine := by
  induction l with
  | nil => rfl
  | cons v l ih =>
    rw [Verdict.all, h v (List.mem_cons_self ..), ih fun w hw => h w (List.mem_cons_of_mem _ hw)]
    rfl

theorem free_judge {tag : String} (h1 : blindTags.contains tag = true)
    (h2 : captionTags.contains tag = false) (a : Attrs) (c : List (XMLNode × Verdict)) :
    free.judge tag a c = .fine := by
  have h : free.judgeRest tag (c.drop free.first.length) = .fine := by
    rw [Rule.judgeRest, if_pos (show free.heads = [] from rfl)]
    refine verdict_all_fine ?_
    intro v hv
    obtain ⟨⟨x, w⟩, -, rfl⟩ := List.mem_map.1 hv
    cases x with
    | element n b d =>
      have h1 : tag ∈ blindTags := by simpa using h1
      simp [Rule.judgeNode, free, h1]
    | _ => rfl
  rw [Rule.judge, if_neg (by rw [h2]; decide), h]
  rfl

theorem judge_settle (x : XMLNode) (h : QuietNode x) : judge (settleNode x) = judge x := by
  induction x using nodeInduction with
  | he n a c ih =>
    by_cases hn : n ∈ stringTags
    · rw [h.settle_string, judge, judge]
      simp only [stringTags, List.mem_cons, List.not_mem_nil, or_false] at hn
      have hl : rules.lookup n = some free ∧ blindTags.contains n = true ∧
          captionTags.contains n = false ∨ rules.lookup n = none := by
        rcases hn with rfl | rfl | rfl | rfl <;>
          first | exact .inl ⟨rfl, by decide, by decide⟩ | exact .inr rfl
      rcases hl with ⟨hl, h1, h2⟩ | hl
      · simp only [hl, free_judge h1 h2]
      · simp only [hl]
    · rw [h.settle_eq hn, judge, judge]
      have : judgeList (c.map settleNode) =
          (judgeList c).map fun p => (settleNode p.1, p.2) := by
        rw [judgeList_eq', judgeList_eq', List.map_map, List.map_map]
        refine List.map_congr_left fun y hy => ?_
        rw [Function.comp_apply, Function.comp_apply, ih y hy (h.child hy)]
      rw [this]
      split
      · exact Rule.judge_map_settle _ _ _ _
      · rfl
  | ho x hx => rw [settleNode_of_not hx]

theorem judgeLaw_settle {e : Element} (h : Quiet e) : judgeLaw (settle e) = judgeLaw e := by
  have h1 := judge_settle e.node h
  rw [settleNode_node] at h1
  rw [judgeLaw, judgeLaw, h1]
  rfl

end JLaw
