import Verif.Lemmas.Num
import Verif.Lemmas.Xml
import Verif.Model.Law
import Verif.Spec.Tree

/-!
# What readers may depend on: the pieces

`Agree P r r'` says that two runs have the same outcome, that it is not the nesting bound of the
model, and that it is a panic only in case `P`. The lemmas here follow the shapes of the readers
with two elements side by side that differ in nothing that may matter.
-/

namespace JLaw

/-- A value or an error, or a panic in case `P`. -/
def Res.Nice {α : Type} (P : Prop) : Res α → Prop
  | .ok _ | .err _ => True
  | .panic => P
  | .deep => False

theorem Res.Nice.ok {α : Type} {P : Prop} (a : α) : (Res.ok a).Nice P := trivial

structure Agree {α : Type} (P : Prop) (r r' : Res α) : Prop where
  eq : r = r'
  nice : r.Nice P

/-- The elements are the same for readers, at most `m` deep, and if an article is bare then `P`. -/
structure Fine (P : Prop) (m : Nat) (e e' : Element) : Prop where
  same : e.Same e'
  height : e.node.height ≤ m
  bare : e.HasBareArticle → P

/-- Likewise, less than `m` deep. -/
structure Child (P : Prop) (m : Nat) (e e' : Element) : Prop where
  same : e.Same e'
  height : e.node.height < m
  bare : e.HasBareArticle → P

variable {P : Prop} {m : Nat} {α β σ : Type}

theorem Child.fine {e e' : Element} (h : Child P m e e') : Fine P m e e' :=
  ⟨h.same, Nat.le_of_lt h.height, h.bare⟩

theorem Child.pred {e e' : Element} (h : Child P (m + 1) e e') : Fine P m e e' :=
  ⟨h.same, Nat.le_of_lt_succ h.height, h.bare⟩

/-- Two nodes that are the same for readers. -/
inductive NodeRel (P : Prop) (m : Nat) : XMLNode → XMLNode → Prop
  | elem (e e' : Element) : Child P m e e' → NodeRel P m e.node e'.node
  | text (s : String) : NodeRel P m (.text s) (.text s)
  | other (x y : XMLNode) : x.isOther = true → y.isOther = true → NodeRel P m x y

/-- Two lists of nodes that agree one by one. -/
inductive KidsAll (P : Prop) (m : Nat) : List XMLNode → List XMLNode → Prop
  | nil : KidsAll P m [] []
  | cons {x y : XMLNode} {xs ys : List XMLNode} :
      NodeRel P m x y → KidsAll P m xs ys → KidsAll P m (x :: xs) (y :: ys)

/-- The elements and texts of a list of nodes. -/
def vis (c : List XMLNode) : List XMLNode := c.filter fun x => !x.isOther

/-- Two lists of nodes that agree up to comments and the like. -/
def Kids (P : Prop) (m : Nat) (c c' : List XMLNode) : Prop := KidsAll P m (vis c) (vis c')

/-! ## From trees to pieces -/

theorem Element.Same.name {e e' : Element} (h : e.Same e') : e.name = e'.name := by
  simp only [Element.Same, Element.node, XMLNode.norm, NTree.element.injEq] at h
  exact h.1

theorem Element.Same.get {e e' : Element} (h : e.Same e') (k : String)
    (hk : knownAttrs.contains k = true) : e.attributes.get k = e'.attributes.get k := by
  simp only [Element.Same, Element.node, XMLNode.norm, NTree.element.injEq] at h
  have := congrFun h.2.1 k
  simpa only [hk, if_true] using this

theorem Element.Same.children {e e' : Element} (h : e.Same e') :
    normList (positionalTags.contains e.name) e.children =
      normList (positionalTags.contains e.name) e'.children := by
  have hn := h.name
  simp only [Element.Same, Element.node, XMLNode.norm, NTree.element.injEq] at h
  rw [h.2.2, ← hn]

theorem height_le_heightList {x : XMLNode} {c : List XMLNode} (h : x ∈ c) :
    x.height ≤ heightList c := by
  induction c with
  | nil => cases h
  | cons y c ih =>
    rw [heightList]
    cases h with
    | head => exact Nat.le_max_left ..
    | tail _ h => exact Nat.le_trans (ih h) (Nat.le_max_right ..)

theorem norm_other {x : XMLNode} (h : x.isOther = true) : x.norm = .other := by
  cases x <;> simp_all [XMLNode.isOther, XMLNode.norm]

theorem NodeRel.of_norm {x y : XMLNode} (h : x.norm = y.norm)
    (hx : ∀ e : Element, x = e.node → e.node.height < m ∧ (e.HasBareArticle → P)) :
    NodeRel P m x y := by
  cases x with
  | element n a c =>
    cases y with
    | element n' a' c' =>
      exact .elem ⟨n, a, c⟩ ⟨n', a', c'⟩ ⟨h, (hx ⟨n, a, c⟩ rfl).1, (hx ⟨n, a, c⟩ rfl).2⟩
    | _ => simp [XMLNode.norm] at h
  | text s =>
    cases y with
    | text s' =>
      simp only [XMLNode.norm, NTree.text.injEq] at h
      subst h
      exact .text s
    | _ => simp [XMLNode.norm] at h
  | _ =>
    cases y with
    | element => simp [XMLNode.norm] at h
    | text => simp [XMLNode.norm] at h
    | _ => exact .other _ _ rfl rfl

theorem KidsAll.of_norm {c c' : List XMLNode} (h : c.map XMLNode.norm = c'.map XMLNode.norm)
    (hc : ∀ e : Element, e.node ∈ c → e.node.height < m ∧ (e.HasBareArticle → P)) :
    KidsAll P m c c' := by
  induction c generalizing c' with
  | nil =>
    cases c' with
    | nil => exact .nil
    | cons => simp at h
  | cons x c ih =>
    cases c' with
    | nil => simp at h
    | cons y c' =>
      simp only [List.map_cons, List.cons.injEq] at h
      exact .cons (.of_norm h.1 fun e he => hc e (by simp [he]))
        (ih h.2 fun e he => hc e (by simp [he]))

theorem normList_keep (c : List XMLNode) : normList true c = c.map XMLNode.norm := by
  induction c with
  | nil => rfl
  | cons x c ih => simp [normList, ih]

theorem normList_drop (c : List XMLNode) : normList false c = (vis c).map XMLNode.norm := by
  induction c with
  | nil => rfl
  | cons x c ih => cases h : x.isOther <;> simp [normList, vis, h, ih]

theorem NodeRel.isOther {x y : XMLNode} (h : NodeRel P m x y) : x.isOther = y.isOther := by
  cases h with
  | elem | text => rfl
  | other _ _ h h' => rw [h, h']

theorem KidsAll.kids {c c' : List XMLNode} (h : KidsAll P m c c') : Kids P m c c' := by
  induction h with
  | nil => exact .nil
  | @cons x y xs ys hxy _ ih =>
    have := hxy.isOther
    simp only [Kids, vis, List.filter_cons, ← this] at *
    split
    · exact .cons hxy ih
    · exact ih

theorem Fine.parts {e e' : Element} (h : Fine P m e e') :
    ∀ x : Element, x.node ∈ e.children → x.node.height < m ∧ (x.HasBareArticle → P) := by
  intro x hx
  refine ⟨?_, ?_⟩
  · have h1 := height_le_heightList hx
    have h2 : heightList e.children + 1 ≤ m := h.height
    omega
  · rintro ⟨y, hy, hb⟩
    exact h.bare ⟨y, .child _ _ _ _ hx hy, hb⟩

theorem Fine.kidsAll {e e' : Element} (h : Fine P m e e')
    (hp : positionalTags.contains e.name = true) : KidsAll P m e.children e'.children := by
  have hs := h.same.children
  rw [hp, normList_keep, normList_keep] at hs
  exact .of_norm hs h.parts

theorem Fine.kids {e e' : Element} (h : Fine P m e e') : Kids P m e.children e'.children := by
  cases hp : positionalTags.contains e.name with
  | true => exact (h.kidsAll hp).kids
  | false =>
    have hs := h.same.children
    rw [hp, normList_drop, normList_drop] at hs
    exact .of_norm hs fun x hx => h.parts x (List.mem_filter.1 hx).1

theorem KidsAll.tail {c c' : List XMLNode} (h : KidsAll P m c c') :
    KidsAll P m c.tail c'.tail := by
  cases h with
  | nil => exact .nil
  | cons _ h => exact h

/-- The readers of a level behave. -/
structure Lvl.Agrees (L : Lvl) (P : Prop) (m : Nat) : Prop where
  text : 0 < m → ∀ l, (L.textOfStrings l).Nice P
  contents : ∀ e e', Fine P m e e' → Agree P (L.contentsParser e) (L.contentsParser e')
  item : ∀ e e', Child P m e e' → Agree P (L.itemParser e) (L.itemParser e')
  column : ∀ e e', Child P m e e' → Agree P (L.columnParser e) (L.columnParser e')
  amend : ∀ e e', Child P m e e' → Agree P (L.amendParser e) (L.amendParser e')

namespace Agree

theorem refl {r : Res α} (h : r.Nice P) : Agree P r r := ⟨rfl, h⟩

theorem ok (a : α) : Agree P (Res.ok a) (.ok a) := ⟨rfl, trivial⟩
theorem err (e : Err) : Agree P (.err e : Res α) (.err e) := ⟨rfl, trivial⟩

theorem bind {r r' : Res α} {f f' : α → Res β} (h : Agree P r r')
    (hf : ∀ a, Agree P (f a) (f' a)) : Agree P (r.bind f) (r'.bind f') := by
  obtain ⟨rfl, h⟩ := h
  cases r with
  | ok a => exact hf a
  | err e => exact ⟨rfl, trivial⟩
  | panic => exact ⟨rfl, h⟩
  | deep => exact ⟨rfl, h⟩

theorem wrong {e e' : Element} (h : Fine P m e e') (t : String) :
    Agree P (.err (wrongTagName e t) : Res α) (.err (wrongTagName e' t)) := by
  rw [wrongTagName, wrongTagName, h.same.name]
  exact err _

theorem unexpected {o o' e e' : Element} (ho : Fine P m o o') (he : Child P m e e') :
    Agree P (JLaw.unexpected o e : Res α) (JLaw.unexpected o' e') := by
  rw [JLaw.unexpected, JLaw.unexpected, unexpectedTag, unexpectedTag, ho.same.name, he.same.name]
  exact err _

theorem ite_name {e e' : Element} (he : Fine P m e e') {t : String} {r r' s s' : Res α}
    (h : Agree P r r') (h' : Agree P s s') :
    Agree P (if e.name = t then r else s) (if e'.name = t then r' else s') := by
  rw [he.same.name]
  split <;> assumption

theorem ite_pos {e e' : Element} (he : Fine P m e e') {t : String} {r r' s s' : Res α}
    (hp : positionalTags.contains t = true)
    (h : KidsAll P m e.children e'.children → Agree P r r') (h' : Agree P s s') :
    Agree P (if e.name = t then r else s) (if e'.name = t then r' else s') := by
  by_cases hn : e.name = t
  · rw [if_pos hn, if_pos (he.same.name ▸ hn)]
    exact h (he.kidsAll (hn ▸ hp))
  · rw [if_neg hn, if_neg (he.same.name ▸ hn)]
    exact h'

theorem skipErr {r r' : Res α} (h : Agree P r r') : Agree P r.skipErr r'.skipErr := by
  obtain ⟨rfl, h⟩ := h
  cases r with
  | ok a => exact ⟨rfl, trivial⟩
  | err e => exact ⟨rfl, trivial⟩
  | panic => exact ⟨rfl, h⟩
  | deep => exact ⟨rfl, h⟩

theorem pushOk {f : α → β} {r r' : Res α} (h : Agree P r r') :
    Agree P (JLaw.pushOk f r) (JLaw.pushOk f r') :=
  bind (skipErr h) fun _ => ok _

theorem ofOption (e : Err) (o : Option α) : Agree P (Res.ofOption e o) (Res.ofOption e o) := by
  cases o <;> exact ⟨rfl, trivial⟩

/-! ### Loops -/

theorem foldRes {step step' : σ → XMLNode → Res σ} {c c' : List XMLNode} (hc : KidsAll P m c c')
    (h : ∀ s x y, NodeRel P m x y → Agree P (step s x) (step' s y)) (s : σ) :
    Agree P (JLaw.foldRes step s c) (JLaw.foldRes step' s c') := by
  induction hc generalizing s with
  | nil => exact ok _
  | cons hxy _ ih => exact bind (h s _ _ hxy) fun s' => ih s'

theorem foldRes_vis {step : σ → XMLNode → Res σ} (h : ∀ s x, x.isOther = true → step s x = .ok s)
    (s : σ) (c : List XMLNode) : JLaw.foldRes step s c = JLaw.foldRes step s (vis c) := by
  induction c generalizing s with
  | nil => rfl
  | cons x c ih =>
    cases hx : x.isOther with
    | true =>
      simp only [JLaw.foldRes, h s x hx, Res.bind_ok, vis, List.filter_cons, hx, Bool.not_true,
        Bool.false_eq_true, if_false]
      exact ih s
    | false =>
      simp only [JLaw.foldRes, vis, List.filter_cons, hx, Bool.not_false, if_true]
      exact congrArg _ (funext fun s' => ih s')

theorem collectRes {f f' : XMLNode → Res (List β)} {c c' : List XMLNode} (hc : KidsAll P m c c')
    (h : ∀ x y, NodeRel P m x y → Agree P (f x) (f' y)) :
    Agree P (JLaw.collectRes f c) (JLaw.collectRes f' c') := by
  induction hc with
  | nil => exact ok _
  | cons hxy _ ih => exact bind (h _ _ hxy) fun _ => bind ih fun _ => ok _

theorem collectRes_vis {f : XMLNode → Res (List β)} (h : ∀ x, x.isOther = true → f x = .ok [])
    (c : List XMLNode) : JLaw.collectRes f c = JLaw.collectRes f (vis c) := by
  induction c with
  | nil => rfl
  | cons x c ih =>
    cases hx : x.isOther with
    | true =>
      simp only [JLaw.collectRes, h x hx, Res.bind_ok, vis, List.filter_cons, hx, Bool.not_true,
        Bool.false_eq_true, if_false, List.nil_append, ih]
      cases JLaw.collectRes f (List.filter (fun x => !x.isOther) c) <;> rfl
    | false =>
      simp only [JLaw.collectRes, vis, List.filter_cons, hx, Bool.not_false, if_true, ih]

theorem collect {f f' : XMLNode → Res (List β)} {c c' : List XMLNode} (hc : Kids P m c c')
    (ho : ∀ x, x.isOther = true → f x = .ok []) (ho' : ∀ x, x.isOther = true → f' x = .ok [])
    (ht : ∀ s, Agree P (f (.text s)) (f' (.text s)))
    (h : ∀ e e', Child P m e e' → Agree P (f e.node) (f' e'.node)) :
    Agree P (JLaw.collectRes f c) (JLaw.collectRes f' c') := by
  rw [collectRes_vis ho, collectRes_vis ho']
  refine collectRes hc fun x y hxy => ?_
  cases hxy with
  | elem e e' he => exact h e e' he
  | text s => exact ht s
  | other x y hx hy =>
    rw [ho x hx, ho' y hy]
    exact ok _

theorem forElems {step step' : σ → Element → Res σ} {c c' : List XMLNode} (hc : Kids P m c c')
    (h : ∀ s e e', Child P m e e' → Agree P (step s e) (step' s e')) (s : σ) :
    Agree P (JLaw.forElems step s c) (JLaw.forElems step' s c') := by
  have ho : ∀ (st : σ → Element → Res σ) s x, x.isOther = true → onElem st s x = .ok s := by
    intro st s x hx
    cases x <;> first | rfl | cases hx
  rw [JLaw.forElems, JLaw.forElems, foldRes_vis (ho step), foldRes_vis (ho step')]
  refine foldRes hc (fun s x y hxy => ?_) s
  cases hxy with
  | elem e e' he => exact h s e e' he
  | text => exact ok _
  | other x y hx hy =>
    rw [ho _ _ _ hx, ho _ _ _ hy]
    exact ok _

theorem mixed {p p' : Element → Res α} {str : String → α} {c c' : List XMLNode}
    (hc : Kids P m c c') (h : ∀ e e', Child P m e e' → Agree P (p e) (p' e')) :
    Agree P (JLaw.mixed p str c) (JLaw.mixed p' str c') :=
  collect hc (fun x hx => by cases x <;> first | rfl | cases hx)
    (fun x hx => by cases x <;> first | rfl | cases hx) (fun _ => ok _)
    fun e e' he => bind (h e e' he) fun _ => ok _

theorem readAll {p p' : Element → Res α} {c c' : List XMLNode}
    (hc : Kids P m c c') (h : ∀ e e', Child P m e e' → Agree P (p e) (p' e')) :
    Agree P (JLaw.readAll p c) (JLaw.readAll p' c') :=
  collect hc (fun x hx => by cases x <;> first | rfl | cases hx)
    (fun x hx => by cases x <;> first | rfl | cases hx) (fun _ => ok _)
    fun e e' he => bind (h e e' he) fun _ => ok _

theorem readTagged {t : String} {p p' : Element → Res α} {c c' : List XMLNode}
    (hc : Kids P m c c') (h : ∀ e e', Child P m e e' → Agree P (p e) (p' e')) :
    Agree P (JLaw.readTagged t p c) (JLaw.readTagged t p' c') :=
  collect hc (fun x hx => by cases x <;> first | rfl | cases hx)
    (fun x hx => by cases x <;> first | rfl | cases hx) (fun _ => ok _)
    fun e e' he => ite_name he.fine (bind (h e e' he) fun _ => ok _) (ok _)

/-! ### Matching on the tag -/

theorem matchTag_nil {d d' : Element → Res α} {e e' : Element} (h : Agree P (d e) (d' e')) :
    Agree P (matchTag [] d e) (matchTag [] d' e') := h

theorem matchTag_cons {t : String} {f f' : Element → Res α}
    {arms arms' : List (String × (Element → Res α))} {d d' : Element → Res α} {e e' : Element}
    (he : Child P m e e') (h : Agree P (f e) (f' e'))
    (h' : Agree P (matchTag arms d e) (matchTag arms' d' e')) :
    Agree P (matchTag ((t, f) :: arms) d e) (matchTag ((t, f') :: arms') d' e') := by
  rw [JLaw.matchTag_cons, JLaw.matchTag_cons, he.same.name]
  split <;> assumption

theorem matchTag_cons_pos {t : String} {f f' : Element → Res α}
    {arms arms' : List (String × (Element → Res α))} {d d' : Element → Res α} {e e' : Element}
    (he : Child P m e e') (hp : positionalTags.contains t = true)
    (h : KidsAll P m e.children e'.children → Agree P (f e) (f' e'))
    (h' : Agree P (matchTag arms d e) (matchTag arms' d' e')) :
    Agree P (matchTag ((t, f) :: arms) d e) (matchTag ((t, f') :: arms') d' e') := by
  rw [JLaw.matchTag_cons, JLaw.matchTag_cons, ← he.same.name]
  split
  · next hn => exact h (he.fine.kidsAll (hn ▸ hp))
  · exact h'

/-- All arms behave. -/
def Arms (P : Prop) (m : Nat) (arms : List (String × (Element → Res α))) : Prop :=
  ∀ p ∈ arms, ∀ e e', Child P m e e' → Agree P (p.2 e) (p.2 e')

theorem matchTag {arms : List (String × (Element → Res α))} (h : Arms P m arms)
    {d d' : Element → Res α} {e e' : Element} (he : Child P m e e')
    (hd : Agree P (d e) (d' e')) : Agree P (JLaw.matchTag arms d e) (JLaw.matchTag arms d' e') := by
  induction arms with
  | nil => exact hd
  | cons a arms ih =>
    exact matchTag_cons he (h a (by simp) e e' he) (ih fun p hp => h p (by simp [hp]))

theorem childArms {arms : List (String × (Element → Res α))} (h : Arms P m arms)
    {push : α → Res β} (hp : ∀ a, (push a).Nice P) : Arms P m (JLaw.childArms arms push) := by
  intro p hp'
  simp only [JLaw.childArms, List.mem_map] at hp'
  obtain ⟨q, hq, rfl⟩ := hp'
  exact fun e e' he => bind (h q hq e e' he) fun a => refl (hp a)

theorem arms_nil : Arms (α := α) P m [] := by simp [Arms]

theorem arms_cons {t : String} {f : Element → Res α} {arms : List (String × (Element → Res α))}
    (hf : ∀ e e', Child P m e e' → Agree P (f e) (f e')) (h : Arms P m arms) :
    Arms P m ((t, f) :: arms) := by
  intro p hp
  cases hp with
  | head => exact hf
  | tail _ hp => exact h p hp

/-! ### Attributes -/

theorem getAttribute {e e' : Element} (h : Fine P m e e') {k : String}
    (hk : knownAttrs.contains k = true) :
    Agree P (JLaw.getAttribute e k) (JLaw.getAttribute e' k) := by
  unfold JLaw.getAttribute
  rw [h.same.get _ hk, h.same.name]
  split <;> exact ⟨rfl, trivial⟩

theorem getWithParse (p : String → Option α) {e e' : Element} (h : Fine P m e e') {k : String}
    (hk : knownAttrs.contains k = true) :
    Agree P (getAttributeWithParse p e k) (getAttributeWithParse p e' k) := by
  unfold getAttributeWithParse
  rw [h.same.get _ hk, h.same.name]
  split
  · split <;> exact ⟨rfl, trivial⟩
  · exact ⟨rfl, trivial⟩

theorem getOptWithParse (p : String → Option α) {e e' : Element} (h : Fine P m e e')
    {k : String} (hk : knownAttrs.contains k = true) :
    Agree P (getAttributeOptWithParse p e k) (getAttributeOptWithParse p e' k) := by
  unfold getAttributeOptWithParse
  rw [h.same.get _ hk, h.same.name]
  split
  · split <;> exact ⟨rfl, trivial⟩
  · exact ⟨rfl, trivial⟩

theorem getBool {e e' : Element} (h : Fine P m e e') {k : String}
    (hk : knownAttrs.contains k = true) :
    Agree P (JLaw.getBool e k) (JLaw.getBool e' k) :=
  bind (getOptWithParse _ h hk) fun _ => ok _

theorem mapRes_nice {f : β → Res α} {l : List β} (h : ∀ a ∈ l, (f a).Nice P) :
    (mapRes f l).Nice P := by
  induction l with
  | nil => trivial
  | cons a l ih =>
    exact (bind (refl (h a (by simp))) fun b =>
      bind (refl (ih fun a ha => h a (by simp [ha]))) fun _ => ok _).nice

theorem fromNumStr_nice (s : String) : (ArticleNumber.fromNumStr s).Nice P := by
  have hp : ∀ w, (mapRes ArticleNumber.parseSeg w).Nice P := fun w => mapRes_nice fun a _ => by
    unfold ArticleNumber.parseSeg
    split <;> trivial
  unfold ArticleNumber.fromNumStr ArticleNumber.fromNumChars
  split
  · next h => exact absurd h (splitC_ne_nil _ _)
  · refine (bind (refl (hp _)) fun ns => refl ?_).nice
    split
    · trivial
    · split
      · trivial
      · exact (bind (refl (hp _)) fun _ => ok _).nice

theorem fromNumStr (s : String) :
    Agree P (ArticleNumber.fromNumStr s) (ArticleNumber.fromNumStr s) := refl (fromNumStr_nice s)

theorem numAttr {e e' : Element} (h : Fine P m e e') :
    Agree P (JLaw.numAttr e) (JLaw.numAttr e') :=
  bind (getAttribute h (by decide)) fun _ => fromNumStr _

theorem nodesText {c c' : List XMLNode} (h : Kids P m c c') :
    JLaw.nodesText c = JLaw.nodesText c' := by
  have hv : ∀ c, JLaw.nodesText c = JLaw.nodesText (vis c) := by
    intro c
    induction c with
    | nil => rfl
    | cons x c ih => cases x <;> simp_all [JLaw.nodesText, vis, XMLNode.isOther, XMLNode.textOrEmpty]
  have ho : ∀ x : XMLNode, x.isOther = true → x.textOrEmpty = "" := by
    intro x hx
    cases x <;> first | rfl | cases hx
  rw [hv c, hv c']
  revert h
  unfold Kids
  generalize vis c = d
  generalize vis c' = d'
  intro h
  induction h with
  | nil => rfl
  | cons hxy _ ih =>
    rw [JLaw.nodesText, JLaw.nodesText, ih]
    cases hxy with
    | elem | text => rfl
    | other _ _ hx hy => rw [ho _ hx, ho _ hy]

end Agree

/-! ## Automation -/

theorem Agree.text {L : Lvl} (hL : L.Agrees P m) {e e' : Element} (h : Fine P m e e')
    (l : List String) : Agree P (L.textOfStrings l) (L.textOfStrings l) :=
  .refl (hL.text (by have : heightList e.children + 1 ≤ m := h.height; omega) l)

/-- Two elements are fine. -/
macro "fine!" : tactic => `(tactic| first
  | assumption
  | exact Child.fine (by assumption)
  | exact Child.pred (by assumption))

/-- Two lists of nodes agree. -/
macro "kids!" : tactic => `(tactic| first
  | assumption
  | exact KidsAll.kids (by assumption)
  | exact KidsAll.kids (KidsAll.tail (by assumption))
  | exact Fine.kids (by assumption)
  | exact Fine.kids (Child.fine (by assumption)))

/-- Closed by a lemma on one reader; extended after each reader. -/
syntax "agree_leaf" : tactic
macro_rules
  | `(tactic| agree_leaf) => `(tactic| with_reducible exact Agree.ok _)
macro_rules
  | `(tactic| agree_leaf) => `(tactic| with_reducible exact Agree.err _)
macro_rules
  | `(tactic| agree_leaf) => `(tactic| with_reducible exact Agree.ofOption _ _)
macro_rules
  | `(tactic| agree_leaf) => `(tactic| with_reducible exact Agree.fromNumStr _)
macro_rules
  | `(tactic| agree_leaf) => `(tactic| with_reducible exact Agree.wrong (by fine!) _)
macro_rules
  | `(tactic| agree_leaf) => `(tactic| with_reducible exact Agree.unexpected (by fine!) (by assumption))
macro_rules
  | `(tactic| agree_leaf) => `(tactic| with_reducible exact Agree.getAttribute (by fine!) (by decide))
macro_rules
  | `(tactic| agree_leaf) => `(tactic| with_reducible exact Agree.getWithParse _ (by fine!) (by decide))
macro_rules
  | `(tactic| agree_leaf) => `(tactic| with_reducible exact Agree.getOptWithParse _ (by fine!) (by decide))
macro_rules
  | `(tactic| agree_leaf) => `(tactic| with_reducible exact Agree.getBool (by fine!) (by decide))
macro_rules
  | `(tactic| agree_leaf) => `(tactic| with_reducible exact Agree.numAttr (by fine!))
macro_rules
  | `(tactic| agree_leaf) => `(tactic| with_reducible exact Lvl.Agrees.contents (by assumption) _ _ (by fine!))
macro_rules
  | `(tactic| agree_leaf) => `(tactic| with_reducible exact Lvl.Agrees.item (by assumption) _ _ (by assumption))
macro_rules
  | `(tactic| agree_leaf) => `(tactic| with_reducible exact Lvl.Agrees.column (by assumption) _ _ (by assumption))
macro_rules
  | `(tactic| agree_leaf) => `(tactic| with_reducible exact Lvl.Agrees.amend (by assumption) _ _ (by assumption))

/-- Follows the shape of a reader on both sides. -/
macro "agree" : tactic => `(tactic| repeat' first
  | with_reducible refine Agree.bind ?_ (fun _ => ?_)
  | with_reducible refine Agree.ite_name (by fine!) ?_ ?_
  | with_reducible refine Agree.forElems (by kids!) (fun _ _ _ _ => ?_) _
  | with_reducible refine Agree.mixed (by kids!) (fun _ _ _ => ?_)
  | with_reducible refine Agree.readAll (by kids!) (fun _ _ _ => ?_)
  | with_reducible refine Agree.readTagged (by kids!) (fun _ _ _ => ?_)
  | with_reducible refine Agree.matchTag_cons (by assumption) ?_ ?_
  | with_reducible refine Agree.matchTag_nil ?_
  | with_reducible refine Agree.matchTag (Agree.childArms (by assumption) fun _ => .ok _) (by assumption) ?_
  | with_reducible refine Agree.skipErr ?_
  | with_reducible refine Agree.pushOk ?_
  | with_reducible refine Agree.arms_cons (fun _ _ _ => ?_) ?_
  | with_reducible exact Agree.arms_nil
  | agree_leaf)

end JLaw
