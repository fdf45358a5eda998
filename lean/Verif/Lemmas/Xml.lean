import Mathlib.Tactic.Simproc.ExistsAndEq
import Verif.Lemmas.Base
import Verif.Lemmas.Num
import Verif.Model.Article

/-! # Lemmas about the shapes shared by all readers -/

namespace JLaw

/-! ## Attributes -/

namespace Attrs

@[simp] theorem get_nil (k : String) : get [] k = none := rfl

theorem get_cons (k' v : String) (r : Attrs) (k : String) :
    get ((k', v) :: r) k = if k' = k then some v else get r k := rfl

theorem get_filter_ne (a : Attrs) (k k' : String) (h : k ≠ k') :
    get (a.filter fun p => p.1 ≠ k) k' = get a k' := by
  induction a with
  | nil => rfl
  | cons p r ih =>
    obtain ⟨x, v⟩ := p
    rw [List.filter_cons]
    by_cases hx : x = k
    · subst hx
      simp only [ne_eq, not_true_eq_false, decide_false, Bool.false_eq_true, if_false] at ih ⊢
      rw [get_cons, if_neg h]
      exact ih
    · simp only [ne_eq, hx, not_false_eq_true, decide_true, if_true] at ih ⊢
      rw [get_cons, get_cons, ih]

@[simp] theorem get_insert (a : Attrs) (k v k' : String) :
    get (a.insert k v) k' = if k = k' then some v else get a k' := by
  unfold insert
  rw [get_cons]
  split
  · rfl
  · rename_i h
    exact get_filter_ne a k k' h

@[simp] theorem get_insertOpt (a : Attrs) (k : String) (o : Option String) (k' : String) :
    get (a.insertOpt k o) k' = if k = k' then o.or (get a k') else get a k' := by
  cases o with
  | none => simp [insertOpt]
  | some v => simp [insertOpt]

@[simp] theorem get_insertTrue (a : Attrs) (k : String) (b : Bool) (k' : String) :
    get (a.insertTrue k b) k' =
      if k = k' then (if b then some "true" else get a k') else get a k' := by
  cases b <;> simp [insertTrue]

end Attrs

@[simp] theorem parseBool_boolStr (b : Bool) : parseBool (boolStr b) = some b := by
  cases b <;> rfl

@[simp] theorem parseBool_true : parseBool "true" = some true := rfl

@[simp] theorem parseUsizeStr_usizeStr (n : Usize) : parseUsizeStr (usizeStr n) = some n := by
  simp [parseUsizeStr, usizeStr, parseUsize_digits]

/-- An optional attribute written from its value and read back. -/
theorem getOpt_of_get {α : Type} (parse : String → Option α) (str : α → String)
    (h : ∀ a, parse (str a) = some a) (e : Element) (k : String) (o : Option α)
    (hk : e.attributes.get k = o.map str) : getAttributeOptWithParse parse e k = .ok o := by
  unfold getAttributeOptWithParse
  rw [hk]
  cases o with
  | none => rfl
  | some a => simp [h]

theorem getBool_of_get (e : Element) (k : String) (b : Bool)
    (hk : e.attributes.get k = if b then some "true" else none) : getBool e k = .ok b := by
  unfold getBool getAttributeOptWithParse
  rw [hk]
  cases b <;> rfl

theorem getBool_of_some (e : Element) (k : String) (b : Bool)
    (hk : e.attributes.get k = some (boolStr b)) : getBool e k = .ok b := by
  unfold getBool getAttributeOptWithParse
  rw [hk]
  cases b <;> rfl

/-! ## Tags -/

@[simp] theorem matchTag_nil {β : Type} (d : Element → Res β) (e : Element) :
    matchTag [] d e = d e := rfl

@[simp] theorem matchTag_cons {β : Type} (k : String) (h : Element → Res β)
    (r : List (String × (Element → Res β))) (d : Element → Res β) (e : Element) :
    matchTag ((k, h) :: r) d e = if e.name = k then h e else matchTag r d e := by
  unfold matchTag
  rw [List.lookup_cons]
  by_cases hk : e.name = k
  · simp [hk]
  · have h2 : (e.name == k) = false := by simpa using hk
    rw [h2, if_neg hk]

theorem matchTag_single {β : Type} {k : String} {h d : Element → Res β} {e : Element}
    (hk : e.name = k) : matchTag [(k, h)] d e = h e := by
  rw [matchTag_cons, if_pos hk]

@[simp] theorem onElem_node {σ : Type} (step : σ → Element → Res σ) (s : σ) (e : Element) :
    onElem step s e.node = step s e := rfl

@[simp] theorem Element.node_name (n : String) (a : Attrs) (c : List XMLNode) :
    (Element.mk n a c).node = .element n a c := rfl

/-! ## Loops that push on one vector -/

/-- A run of children that all push on the same field. -/
theorem foldRes_push {σ α β γ : Type} {step : σ → γ → Res σ} (get : σ → List β)
    (set : σ → List β → σ) (g : α → γ) (p : α → Res β)
    (hstep : ∀ s x, step s (g x) = (p x).bind fun y => .ok (set s (get s ++ [y])))
    (hgs : ∀ s v, get (set s v) = v) (hss : ∀ s v w, set (set s v) w = set s w)
    (hsg : ∀ s, set s (get s) = s) (xs : List α) (s : σ) :
    foldRes step s (xs.map g) = (mapRes p xs).bind fun ys => .ok (set s (get s ++ ys)) := by
  induction xs generalizing s with
  | nil => simp [hsg]
  | cons x xs ih =>
    simp only [List.map_cons, foldRes_cons, mapRes_cons, hstep, Res.bind_assoc, Res.bind_ok, ih,
      hgs, hss, List.append_assoc, List.singleton_append]

/-- An optional child that sets a field. -/
theorem foldRes_opt {σ α β γ : Type} {step : σ → γ → Res σ} (set : σ → Option β → σ) (g : α → γ)
    (p : α → Res β)
    (hstep : ∀ s x, step s (g x) = (p x).bind fun y => .ok (set s (some y)))
    (o : Option α) (s : σ) :
    foldRes step s (o.toList.map g) =
      match o with
      | none => .ok s
      | some x => (p x).bind fun y => .ok (set s (some y)) := by
  cases o <;> simp [hstep]

/-- Reader of an optional part. -/
def optRes {α β : Type} (p : α → Res β) : Option α → Res (Option β)
  | none => .ok none
  | some a => (p a).bind fun b => .ok (some b)

/-- An optional child that sets a field. -/
theorem foldRes_optSet {σ α β γ : Type} {step : σ → γ → Res σ} (get : σ → Option β)
    (set : σ → Option β → σ) (g : α → γ) (p : α → Res β)
    (hstep : ∀ s x, step s (g x) = (p x).bind fun y => .ok (set s (some y)))
    (hsg : ∀ s, set s (get s) = s) (o : Option α) (s : σ) :
    foldRes step s (o.toList.map g) =
      (optRes p o).bind fun y => .ok (set s (y.or (get s))) := by
  cases o <;> simp [hstep, optRes, hsg, Res.bind_assoc]

theorem optRes_eq_self {α : Type} (p : α → Res α) (o : Option α) :
    optRes p o = .ok o ↔ ∀ x, o = some x → p x = .ok x := by
  cases o <;> simp [optRes, Res.bind_eq_ok]

/-! ## Arms given by a list -/

theorem matchTag_childArms {σ γ : Type} (arms : List (String × (Element → Res γ)))
    (push : γ → Res σ) (d : Element → Res σ) (d' : Element → Res γ) (e : Element)
    (h : e.name ∈ arms.map Prod.fst) :
    matchTag (childArms arms push) d e = (matchTag arms d' e).bind push := by
  induction arms with
  | nil => simp at h
  | cons a r ih =>
    obtain ⟨k, f⟩ := a
    have : childArms ((k, f) :: r) push = (k, fun e => (f e).bind push) :: childArms r push := rfl
    rw [this, matchTag_cons, matchTag_cons]
    by_cases hk : e.name = k
    · simp [hk]
    · rw [if_neg hk, if_neg hk]
      exact ih (by simpa [hk] using h)

/-! ## Loops that keep one vector -/

@[simp] theorem collectRes_nil {α β : Type} (f : α → Res (List β)) : collectRes f [] = .ok [] := rfl

@[simp] theorem collectRes_cons {α β : Type} (f : α → Res (List β)) (a : α) (as : List α) :
    collectRes f (a :: as) =
      (f a).bind fun b => (collectRes f as).bind fun bs => .ok (b ++ bs) := rfl

theorem collectRes_append {α β : Type} (f : α → Res (List β)) (xs ys : List α) :
    collectRes f (xs ++ ys) =
      (collectRes f xs).bind fun as => (collectRes f ys).bind fun bs => .ok (as ++ bs) := by
  induction xs with
  | nil => simp
  | cons x xs ih => simp [ih, Res.bind_assoc]

/-- A loop in which every element pushes exactly one result. -/
theorem collectRes_one {α β : Type} (f : α → Res (List β)) (p : α → Res β)
    (h : ∀ a, f a = (p a).bind fun b => .ok [b]) (xs : List α) : collectRes f xs = mapRes p xs := by
  induction xs with
  | nil => rfl
  | cons x xs ih => simp [h, ih, Res.bind_assoc]

theorem collectRes_map {α β γ : Type} (f : β → Res (List γ)) (g : α → β) (xs : List α) :
    collectRes f (xs.map g) = collectRes (fun a => f (g a)) xs := by
  induction xs with
  | nil => rfl
  | cons x xs ih => simp [ih]

/-- A loop in which every element pushes at most one result gives back its list exactly when every
step gives back its element. -/
theorem collectRes_eq_self {α : Type} (f : α → Res (List α)) (xs : List α)
    (h : ∀ x ∈ xs, ∀ l, f x = .ok l → l.length ≤ 1) :
    collectRes f xs = .ok xs ↔ ∀ x ∈ xs, f x = .ok [x] := by
  have hlen : ∀ (ys : List α), (∀ x ∈ ys, ∀ l, f x = .ok l → l.length ≤ 1) → ∀ l,
      collectRes f ys = .ok l → l.length ≤ ys.length := by
    intro ys
    induction ys with
    | nil => intro _ l hl; simp only [collectRes_nil, Res.ok.injEq] at hl; simp [← hl]
    | cons y ys ih =>
      intro hy l hl
      simp only [collectRes_cons, Res.bind_eq_ok] at hl
      obtain ⟨b, hb, bs, hbs, hl⟩ := hl
      simp only [Res.ok.injEq] at hl
      have h1 := hy y (by simp) b hb
      have h2 := ih (fun x hx => hy x (by simp [hx])) bs hbs
      simp only [← hl, List.length_append, List.length_cons]
      omega
  induction xs with
  | nil => simp
  | cons x xs ih =>
    have ih' := ih fun y hy => h y (by simp [hy])
    simp only [collectRes_cons, Res.bind_eq_ok, List.forall_mem_cons, ← ih']
    constructor
    · rintro ⟨b, hb, bs, hbs, hl⟩
      simp only [Res.ok.injEq] at hl
      have h1 := h x (by simp) b hb
      have h2 := hlen xs (fun y hy => h y (by simp [hy])) bs hbs
      match b, h1 with
      | [], _ =>
        simp only [List.nil_append] at hl
        simp only [hl, List.length_cons] at h2
        omega
      | [b], _ =>
        simp only [List.singleton_append, List.cons.injEq] at hl
        obtain ⟨rfl, rfl⟩ := hl
        exact ⟨hb, hbs⟩
      | _ :: _ :: _, h1 => simp at h1
    · rintro ⟨h1, h2⟩
      exact ⟨[x], h1, xs, h2, by simp⟩

/-- `mixed` on the nodes written for a list. -/
theorem mixed_map_eq_self {α : Type} (elem : Element → Res α) (str : String → α)
    (g : α → XMLNode) (xs : List α) (hg : ∀ x, (∃ e : Element, g x = e.node) ∨ ∃ s, g x = .text s) :
    mixed elem str (xs.map g) = .ok xs ↔ ∀ x ∈ xs, mixedNode elem str (g x) = .ok [x] := by
  unfold mixed
  rw [collectRes_map, collectRes_eq_self]
  intro x _ l hl
  rcases hg x with ⟨e, he⟩ | ⟨s, he⟩
  · rw [he] at hl
    simp only [Element.node, mixedNode, Res.bind_eq_ok] at hl
    obtain ⟨a, _, hl⟩ := hl
    cases hl
    simp
  · rw [he] at hl
    simp only [mixedNode, Res.ok.injEq] at hl
    simp [← hl]

@[simp] theorem mixedNode_node {α : Type} (elem : Element → Res α) (str : String → α)
    (e : Element) : mixedNode elem str e.node = (elem e).bind fun x => .ok [x] := rfl

@[simp] theorem mixedNode_text {α : Type} (elem : Element → Res α) (str : String → α) (s : String) :
    mixedNode elem str (.text s) = .ok [str s] := rfl

/-- One arm of a `match` in a mixed loop: the written element survives the loop exactly when it
survives its own reader. -/
theorem mixed_arm {α β : Type} {elem : Element → Res α} {str : String → α} {p : Element → Res β}
    {c : β → α} {e : Element} {v : β} {P : Prop} (rt : p e = .ok v ↔ P)
    (h : elem e = (p e).bind fun v => .ok (c v)) (hc : ∀ a b, c a = c b → a = b) :
    mixedNode elem str e.node = .ok [c v] ↔ P := by
  rw [mixedNode_node, h, ← rt]
  simp only [Res.bind_eq_ok, Res.ok.injEq, List.cons.injEq, and_true]
  constructor
  · rintro ⟨_, ⟨b, hb, rfl⟩, hv⟩
    rw [hb, hc _ _ hv]
  · intro hv
    exact ⟨_, ⟨_, hv, rfl⟩, rfl⟩

/-- Same for a `match` outside of a mixed loop. -/
theorem elem_arm {α β : Type} {elem : Element → Res α} {p : Element → Res β}
    {c : β → α} {e : Element} {v : β} {P : Prop} (rt : p e = .ok v ↔ P)
    (h : elem e = (p e).bind fun v => .ok (c v)) (hc : ∀ a b, c a = c b → a = b) :
    elem e = .ok (c v) ↔ P := by
  rw [h, ← rt]
  simp only [Res.bind_eq_ok, Res.ok.injEq]
  constructor
  · rintro ⟨b, hb, hv⟩
    rw [hb, hc _ _ hv]
  · intro hv
    exact ⟨_, hv, rfl⟩

theorem readAll_map {α β : Type} (p : Element → Res α) (g : β → Element) (xs : List β) :
    readAll p (xs.map fun x => (g x).node) = mapRes (fun x => p (g x)) xs := by
  unfold readAll
  rw [collectRes_map]
  exact collectRes_one _ _ (fun _ => rfl) xs

theorem readTagged_map {α β : Type} (tag : String) (p : Element → Res α) (g : β → Element)
    (xs : List β) (hg : ∀ x, (g x).name = tag) :
    readTagged tag p (xs.map fun x => (g x).node) = mapRes (fun x => p (g x)) xs := by
  unfold readTagged
  rw [collectRes_map]
  refine collectRes_one _ _ (fun x => ?_) xs
  simp only [Element.node, if_pos (hg x)]

end JLaw
