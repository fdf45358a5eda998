import Verif.Props.Order
import Verif.Props.Single
import Verif.Reading.AcceptLaw
import Verif.Reading.Decide
import Verif.Spec.Rewrite

/-!
# Reading and writing again: the pieces
-/

namespace JLaw

open Spec

variable {n : Nat} {α β : Type}

/-- An element with the given tag that is read is written as the table says. -/
abbrev Rewrites (n : Nat) (t : String) (p : Element → Res α) (w : α → Element) : Prop :=
  ∀ x v, x.node.height ≤ n → x.name = t → p x = .ok v → w v = rewrite x

/-- What is known about the five types at which the model is cut. -/
structure LvlRewrites (n : Nat) : Prop where
  text : ∀ l t, (lvl n).textOfStrings l = .ok t → (lvl n).textToChildren t = l.map XMLNode.text
  contents : ∀ e v, e.node.height ≤ n → (lvl n).contentsParser e = .ok v →
    (lvl n).contentsToChildren v = Portion.mixed.nodes (rewriteList e.children)
  item : ∀ x v, x.node.height < n → x.name = "Item" → (lvl n).itemParser x = .ok v →
    (lvl n).itemToXml v = rewrite x
  column : ∀ x v, x.node.height < n → x.name = "TableColumn" → (lvl n).columnParser x = .ok v →
    (lvl n).columnToXml v = rewrite x
  amend : ∀ x v, x.node.height < n → x.name = "AmendProvision" → (lvl n).amendParser x = .ok v →
    (lvl n).amendToXml v = rewrite x

/-! ## The table -/

theorem rewriteList_eq (c : List XMLNode) : rewriteList c = c.map fun x => (x, rewriteNode x) := by
  induction c with
  | nil => rfl
  | cons x c ih => rw [rewriteList, ih, List.map_cons]

theorem rewriteNode_node (e : Element) : rewriteNode e.node = (rewrite e).node := by
  rw [Element.node, rewriteNode]; rfl

theorem rewrite_of {e : Element} {t : String} {l : Layout} (hn : e.name = t)
    (hl : layouts.lookup t = some l) : rewrite e = ⟨l.tag.getD t, l.setAttrs e.attributes,
      l.parts.flatMap fun p => p.nodes (rewriteList e.children)⟩ := by
  rw [rewrite, rebuild, hn, hl]

theorem pick_eq (p : XMLNode → Bool) (c : List XMLNode) :
    pick p (rewriteList c) = (c.filter p).map rewriteNode := by
  rw [pick, rewriteList_eq, List.filter_map, List.map_map]
  rfl

/-- What is written of the elements of a list. -/
abbrev again (l : List Element) : List XMLNode := l.map fun x => (rewrite x).node

theorem map_rewriteNode (l : List Element) : (l.map Element.node).map rewriteNode = again l := by
  rw [List.map_map]
  exact List.map_congr_left fun x _ => rewriteNode_node x

theorem filter_isNamed (tags : List String) (c : List XMLNode) :
    c.filter (isNamed tags) = (named tags c).map Element.node := by
  induction c with
  | nil => rfl
  | cons x c ih =>
    cases x with
    | element m a d =>
      rw [named, elems_element, List.filter_cons, List.filter_cons]
      simp only [isNamed, List.contains_iff_mem, decide_eq_true_eq]
      split
      · rw [ih, List.map_cons]; rfl
      · exact ih
    | _ => exact ih

theorem filter_isElement (c : List XMLNode) : c.filter isElement = (elems c).map Element.node := by
  induction c with
  | nil => rfl
  | cons x c ih =>
    cases x with
    | element m a d =>
      rw [elems_element, List.filter_cons_of_pos rfl, ih, List.map_cons]; rfl
    | _ => exact ih

theorem pick_isNamed (tags : List String) (c : List XMLNode) :
    pick (isNamed tags) (rewriteList c) = again (named tags c) := by
  rw [pick_eq, filter_isNamed, map_rewriteNode]

theorem nodes_each (tags : List String) (c : List XMLNode) :
    (Portion.each tags).nodes (rewriteList c) = again (named tags c) := pick_isNamed tags c

theorem nodes_elements (c : List XMLNode) :
    Portion.elements.nodes (rewriteList c) = again (elems c) := by
  rw [Portion.nodes, pick_eq, filter_isElement, map_rewriteNode]

theorem nodes_last (tag : String) (c : List XMLNode) :
    (Portion.last tag).nodes (rewriteList c) = again (named [tag] c).getLast?.toList := by
  rw [Portion.nodes, pick_isNamed, again, List.getLast?_map]
  cases (named [tag] c).getLast? <;> rfl

theorem nodes_mixed (c : List XMLNode) :
    Portion.mixed.nodes (rewriteList c) = (pieces c).map rewriteNode := by
  rw [Portion.nodes, pick_eq, pieces]
  congr 1
  apply List.filter_congr
  intro x _
  cases x <;> rfl

/-! ## Fields -/

theorem height_named {tags : List String} {e x : Element} (he : e.node.height ≤ n)
    (hx : x ∈ named tags e.children) : x.node.height < n :=
  Nat.lt_of_lt_of_le (Nat.lt_succ_of_le (height_le_heightList
    (Exact.node_mem (List.mem_filter.1 hx).1))) he

theorem height_elems {e x : Element} (he : e.node.height ≤ n) (hx : x ∈ elems e.children) :
    x.node.height < n :=
  Nat.lt_of_lt_of_le (Nat.lt_succ_of_le (height_le_heightList (Exact.node_mem hx))) he

theorem name_named {tag : String} {c : List XMLNode} {x : Element} (hx : x ∈ named [tag] c) :
    x.name = tag := by
  have := (List.mem_filter.1 hx).2
  simpa using this

theorem map_of_forall₂ {R : Element → α → Prop} {w : α → Element} {xs : List Element} {vs : List α}
    (h : List.Forall₂ R xs vs) (hw : ∀ x ∈ xs, ∀ v, R x v → w v = rewrite x) :
    (vs.map fun v => (w v).node) = again xs := by
  induction h with
  | nil => rfl
  | cons hv _ ih =>
    rw [List.map_cons, hw _ (by simp) _ hv, ih fun x hx => hw x (by simp [hx])]
    rfl

/-- A field that holds all elements with one tag. -/
theorem each_of {p : Element → Res α} {w : α → Element} {t : String} {e : Element} {vs : List α}
    (h : InOrder p (named [t] e.children) vs) (he : e.node.height ≤ n)
    (hw : ∀ x v, x.node.height < n → x.name = t → p x = .ok v → w v = rewrite x) :
    (vs.map fun v => (w v).node) = (Portion.each [t]).nodes (rewriteList e.children) := by
  rw [nodes_each]
  exact map_of_forall₂ h fun x hx v hv => hw x v (height_named he hx) (name_named hx) hv

/-- A field that holds all elements with some tags. -/
theorem among_of {R : Element → α → Prop} {w : α → Element} {ts : List String} {e : Element}
    {vs : List α} (h : List.Forall₂ R (named ts e.children) vs) (he : e.node.height ≤ n)
    (hw : ∀ x v, x.node.height < n → R x v → w v = rewrite x) :
    (vs.map fun v => (w v).node) = (Portion.each ts).nodes (rewriteList e.children) := by
  rw [nodes_each]
  exact map_of_forall₂ h fun x hx v hv => hw x v (height_named he hx) hv

theorem getLast?_named {t : String} {c : List XMLNode} {x : Element}
    (h : (named [t] c).getLast? = some x) : x ∈ named [t] c := List.mem_of_getLast? h

/-- A field that holds the last element with a tag, if there is one. -/
theorem last_of {p : Element → Res α} {w : α → Element} {t : String} {e : Element} {o : Option α}
    (h : LastOpt p t e.children o) (he : e.node.height ≤ n)
    (hw : ∀ x v, x.node.height < n → x.name = t → p x = .ok v → w v = rewrite x) :
    (o.toList.map fun v => (w v).node) = (Portion.last t).nodes (rewriteList e.children) := by
  rw [nodes_last]
  cases o with
  | none => rw [show named [t] e.children = [] from h]; rfl
  | some v =>
    obtain ⟨x, hx, hv⟩ := h
    have hm := getLast?_named hx
    rw [hx, Option.toList_some, List.map_cons, hw x v (height_named he hm) (name_named hm) hv]
    rfl

/-- A field that holds the last element with a tag, which there has to be. -/
theorem must_of {p : Element → Res α} {w : α → Element} {t : String} {e : Element} {v : α}
    (h : LastReq p t e.children v) (he : e.node.height ≤ n)
    (hw : ∀ x v, x.node.height < n → x.name = t → p x = .ok v → w v = rewrite x) :
    [(w v).node] = (Portion.last t).nodes (rewriteList e.children) :=
  last_of (o := some v) h he hw

/-- A field that holds the last element with a tag, or a default. -/
theorem lastOr_of {p : Element → Res α} {w : α → Element} {t : String} {e : Element} {v d : α}
    (h : LastOr d p t e.children v) (he : e.node.height ≤ n)
    (hw : ∀ x v, x.node.height < n → x.name = t → p x = .ok v → w v = rewrite x)
    {ch : List XMLNode} (hd : w d = ⟨t, [], ch⟩) :
    [(w v).node] = (Portion.lastOr t ch).nodes (rewriteList e.children) := by
  rw [Portion.nodes, pick_isNamed, again, List.getLast?_map]
  rcases h with ⟨h, rfl⟩ | ⟨x, hx, hv⟩
  · rw [h, hd]; rfl
  · have hm := getLast?_named hx
    rw [hx, hw x v (height_named he hm) (name_named hm) hv]
    rfl

/-- A field that holds all elements. -/
theorem elements_of {R : Element → α → Prop} {w : α → Element} {e : Element} {vs : List α}
    (h : List.Forall₂ R (elems e.children) vs) (he : e.node.height ≤ n)
    (hw : ∀ x v, x.node.height < n → R x v → w v = rewrite x) :
    (vs.map fun v => (w v).node) = Portion.elements.nodes (rewriteList e.children) := by
  rw [nodes_elements]
  exact map_of_forall₂ h fun x hx v hv => hw x v (height_elems he hx) hv

theorem pieces_elems {c : List XMLNode} {x : Element} (h : x.node ∈ pieces c) : x ∈ elems c :=
  Exact.mem_elems (List.mem_filter.1 h).1

/-- Mixed contents. -/
theorem mixed_of {p : Element → Res α} {str : String → α} {toNode : α → XMLNode} {e : Element}
    {vs : List α} (h : mixed p str e.children = .ok vs) (he : e.node.height ≤ n)
    (hs : ∀ s, toNode (str s) = .text s)
    (hp : ∀ x v, x.node.height < n → p x = .ok v → toNode v = (rewrite x).node) :
    vs.map toNode = Portion.mixed.nodes (rewriteList e.children) := by
  rw [nodes_mixed]
  have h2 : List.Forall₂ (fun x v => x ∈ e.children → toNode v = rewriteNode x)
      (pieces e.children) vs :=
    mixed_pieces h (fun s _ => by rw [hs]; simp [rewriteNode]) fun m a d v hv hx => by
      rw [hp ⟨m, a, d⟩ v (height_elems he (Exact.mem_elems hx)) hv]
      exact (rewriteNode_node ⟨m, a, d⟩).symm
  have h3 : ∀ x ∈ pieces e.children, x ∈ e.children := fun x hx => (List.mem_filter.1 hx).1
  generalize pieces e.children = xs at h2 h3
  clear h
  induction h2 with
  | nil => rfl
  | cons hv _ ih =>
    rw [List.map_cons, List.map_cons, hv (h3 _ (by simp)), ih fun x hx => h3 x (by simp [hx])]

/-! ## Attributes -/

theorem Attrs.insertTrue_eq (a : Attrs) (k : String) (b : Bool) :
    a.insertTrue k b = a.insertOpt k (if b then some "true" else none) := by
  cases b <;> rfl

theorem apply_flag {e : Element} {k : String} {b : Bool} (h : getBool e k = .ok b) :
    (Change.only ["true"]).apply (e.attributes.get k) = if b then some "true" else none := by
  unfold getBool getAttributeOptWithParse at h
  cases hg : e.attributes.get k with
  | none => rw [hg] at h; cases h; rfl
  | some s =>
    rw [hg] at h
    unfold parseBool at h
    by_cases h1 : s = "true"
    · subst h1; cases h; rfl
    · by_cases h2 : s = "false"
      · subst h2; cases h; rfl
      · simp [h1, h2, Res.bind] at h

theorem apply_orFalse {e : Element} {k : String} {b : Bool} (h : getBool e k = .ok b) :
    (Change.orElse "false").apply (e.attributes.get k) = some (boolStr b) := by
  unfold getBool getAttributeOptWithParse at h
  cases hg : e.attributes.get k with
  | none => rw [hg] at h; cases h; rfl
  | some s =>
    rw [hg] at h
    unfold parseBool at h
    by_cases h1 : s = "true"
    · subst h1; cases h; rfl
    · by_cases h2 : s = "false"
      · subst h2; cases h; rfl
      · simp [h1, h2, Res.bind] at h

theorem apply_opt {p : String → Option α} {str : α → String} {e : Element} {k : String}
    {o : Option α} (h : getAttributeOptWithParse p e k = .ok o)
    (hp : ∀ s v, p s = some v → str v = s) :
    e.attributes.get k = o.map str := by
  unfold getAttributeOptWithParse at h
  cases hg : e.attributes.get k with
  | none => rw [hg] at h; cases h; rfl
  | some s =>
    rw [hg] at h
    simp only at h
    split at h
    · next v hv => cases h; rw [Option.map_some, hp s v hv]
    · cases h

theorem boolStr_parse (s : String) (b : Bool) (h : parseBool s = some b) : boolStr b = s := by
  unfold parseBool at h
  split at h
  · next h' => cases h; exact h'.symm
  · split at h
    · next h' => cases h; exact h'.symm
    · cases h

theorem literal?_str (s : String) :
    (literal? s.toList).map String.ofList = (parseUsizeStr s).map usizeStr := by
  rw [literal?_eq, Option.map_map, parseUsizeStr]
  rfl

theorem apply_count {e : Element} {k : String} {o : Option Usize}
    (h : getAttributeOptWithParse parseUsizeStr e k = .ok o) :
    Change.count.apply (e.attributes.get k) = o.map usizeStr := by
  unfold getAttributeOptWithParse at h
  cases hg : e.attributes.get k with
  | none => rw [hg] at h; cases h; rfl
  | some s =>
    rw [hg] at h
    simp only at h
    rw [Change.apply, Option.bind_some, literal?_str]
    split at h
    · next v hv => cases h; rw [hv]
    · cases h

theorem apply_writingMode (o : Option String) :
    (Change.only ["horizontal"]).apply o = (WritingMode.fromAttr o).toAttr := by
  cases o with
  | none => rfl
  | some s =>
    unfold WritingMode.fromAttr
    split
    · next h => cases h; rfl
    · next h => cases h; rfl
    · next h1 h2 =>
      have : s ≠ "horizontal" := fun h => h2 (by rw [h])
      simp [Change.apply, WritingMode.toAttr, this]

theorem apply_tableMode (o : Option String) :
    (Change.only ["horizontal"]).apply o = (Table.writingMode o).toAttr := by
  cases o with
  | none => rfl
  | some s =>
    unfold Table.writingMode
    split
    · next h => cases h; rfl
    · next h => cases h; rfl
    · next h1 h2 =>
      have : s ≠ "horizontal" := fun h => h2 (by rw [h])
      simp [Change.apply, WritingMode.toAttr, this]

theorem apply_align (o : Option String) :
    (Change.only alignValues).apply o = (Align.fromAttr o).map Align.toAttr := by
  cases o with
  | none => rfl
  | some s =>
    unfold Align.fromAttr
    split
    · next h => cases h; rfl
    · next h => cases h; rfl
    · next h => cases h; rfl
    · next h => cases h; rfl
    · next h1 h2 h3 h4 =>
      have e1 : s ≠ "left" := fun h => h1 (by rw [h])
      have e2 : s ≠ "center" := fun h => h2 (by rw [h])
      have e3 : s ≠ "right" := fun h => h3 (by rw [h])
      have e4 : s ≠ "justify" := fun h => h4 (by rw [h])
      simp [Change.apply, alignValues, e1, e2, e3, e4]

theorem apply_style {o : Option String} {v : LineStyle} (h : LineStyle.fromAttr o = some v) :
    Change.style.apply o = some v.toAttr := by
  unfold LineStyle.fromAttr at h
  split at h <;> cases h <;> rfl

theorem apply_num {e : Element} {a : ArticleNumber} (h : numAttr e = .ok a) :
    Change.number.apply (e.attributes.get "Num") = some a.numStr := by
  unfold numAttr getAttribute at h
  cases hg : e.attributes.get "Num" with
  | none => rw [hg] at h; cases h
  | some s =>
    rw [hg] at h
    rw [Change.apply, Option.bind_some, number?_eq, ArticleNumber.parse?]
    rw [show ArticleNumber.fromNumStr s = .ok a from h]
    rfl

theorem apply_parse {e : Element} {a : ArticleNumber}
    (h : getAttributeWithParse ArticleNumber.parse? e "Num" = .ok a) :
    Change.number.apply (e.attributes.get "Num") = some a.numStr := by
  unfold getAttributeWithParse at h
  cases hg : e.attributes.get "Num" with
  | none => rw [hg] at h; cases h
  | some s =>
    rw [hg] at h
    simp only at h
    split at h
    · next v hv => cases h; rw [Change.apply, Option.bind_some, number?_eq, hv]; rfl
    · cases h

theorem apply_parse? (s : String) :
    Change.number.apply (some s) = (ArticleNumber.parse? s).map ArticleNumber.numStr := by
  rw [Change.apply, Option.bind_some, number?_eq]

theorem getAttribute_ok {e : Element} {k s : String} (h : getAttribute e k = .ok s) :
    e.attributes.get k = some s := by
  unfold getAttribute at h
  split at h
  · next h' => cases h; exact h'
  · cases h

end JLaw
