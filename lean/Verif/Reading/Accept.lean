import Verif.Props.Num
import Verif.Reading.Fails
import Verif.Reading.Law
import Verif.Reading.Order
import Verif.Spec.Accept

/-!
# Which documents are accepted: the pieces

`Exact P r Q` says that a run gives a value only if `Q`, and that if `Q` it gives a value or, in
case `P`, a panic.
-/

namespace JLaw

open Spec (Accepted Rule AttrRule)

variable {P : Prop} {m : Nat} {α β σ : Type}

/-- A value is returned. -/
def Res.IsOk (r : Res α) : Prop := ∃ v, r = .ok v

structure Exact (P : Prop) (r : Res α) (Q : Prop) : Prop where
  sound : r.IsOk → Q
  complete : Q → r.IsOk ∨ (P ∧ r = .panic)

theorem Res.isOk_bind {r : Res α} {f : α → Res β} :
    (r.bind f).IsOk ↔ ∃ a, r = .ok a ∧ (f a).IsOk := by
  constructor
  · rintro ⟨b, hb⟩
    obtain ⟨a, ha, hb⟩ := Res.bind_eq_ok.1 hb
    exact ⟨a, ha, b, hb⟩
  · rintro ⟨a, ha, b, hb⟩
    exact ⟨b, Res.bind_eq_ok.2 ⟨a, ha, hb⟩⟩

namespace Exact

theorem congr {r : Res α} {Q Q' : Prop} (h : Exact P r Q) (hq : Q ↔ Q') : Exact P r Q' :=
  ⟨fun x => hq.1 (h.sound x), fun x => h.complete (hq.2 x)⟩

theorem ok (a : α) : Exact P (Res.ok a) True := ⟨fun _ => trivial, fun _ => .inl ⟨a, rfl⟩⟩

theorem err (e : Err) : Exact P (.err e : Res α) False :=
  ⟨fun ⟨_, h⟩ => (by cases h), fun h => h.elim⟩

theorem bind {r : Res α} {f : α → Res β} {Q Q' : Prop} (h : Exact P r Q)
    (hf : ∀ a, r = .ok a → Exact P (f a) Q') : Exact P (r.bind f) (Q ∧ Q') where
  sound hr := by
    obtain ⟨a, ha, hb⟩ := Res.isOk_bind.1 hr
    exact ⟨h.sound ⟨a, ha⟩, (hf a ha).sound hb⟩
  complete hq := by
    rcases h.complete hq.1 with ⟨a, ha⟩ | ⟨hp, hr⟩
    · rcases (hf a ha).complete hq.2 with hb | ⟨hp, hb⟩
      · exact .inl (Res.isOk_bind.2 ⟨a, ha, hb⟩)
      · exact .inr ⟨hp, by rw [ha, Res.bind, hb]⟩
    · exact .inr ⟨hp, by rw [hr, Res.bind]⟩

/-- What follows never fails. -/
theorem map {r : Res α} {f : α → β} {Q : Prop} (h : Exact P r Q) :
    Exact P (r.bind fun a => .ok (f a)) Q :=
  (bind h fun _ _ => ok _).congr (by simp)

theorem nice {r : Res α} (h : r.Nice P) (he : ∀ e, r ≠ .err e) : Exact P r True where
  sound _ := trivial
  complete _ := by
    cases r with
    | ok a => exact .inl ⟨a, rfl⟩
    | err e => exact absurd rfl (he e)
    | panic => exact .inr ⟨h, rfl⟩
    | deep => exact h.elim

theorem skipErr {r : Res α} (h : r.Nice P) : Exact P r.skipErr True := by
  refine nice (Agree.skipErr (.refl h)).nice fun e he => ?_
  cases r <;> cases he

theorem ofOption (e : Err) (o : Option α) : Exact P (Res.ofOption e o) (o ≠ none) := by
  cases o with
  | none => exact (err _).congr (by simp)
  | some a => exact (ok _).congr (by simp)

/-! ### Loops -/

theorem foldRes {step : σ → XMLNode → Res σ} {A : XMLNode → Prop} {c : List XMLNode}
    (h : ∀ s, ∀ x ∈ c, Exact P (step s x) (A x)) (s : σ) :
    Exact P (JLaw.foldRes step s c) (∀ x ∈ c, A x) := by
  induction c generalizing s with
  | nil => exact (ok _).congr (by simp)
  | cons x c ih =>
    exact (bind (h s x (by simp)) fun s' _ => ih (fun s y hy => h s y (by simp [hy])) s').congr
      (by simp)

theorem collectRes {f : XMLNode → Res (List β)} {A : XMLNode → Prop} {c : List XMLNode}
    (h : ∀ x ∈ c, Exact P (f x) (A x)) : Exact P (JLaw.collectRes f c) (∀ x ∈ c, A x) := by
  induction c with
  | nil => exact (ok _).congr (by simp)
  | cons x c ih =>
    exact (bind (h x (by simp)) fun _ _ => map (ih fun y hy => h y (by simp [hy]))).congr
      (by simp)

/-- The condition of a loop that looks at elements only. -/
def OnElem (A : Element → Prop) : XMLNode → Prop
  | .element n a c => A ⟨n, a, c⟩
  | _ => True

theorem onElem_iff {A : Element → Prop} {c : List XMLNode} :
    (∀ x ∈ c, OnElem A x) ↔ ∀ x ∈ elems c, A x := by
  induction c with
  | nil => simp [elems]
  | cons x c ih =>
    rw [List.forall_mem_cons, ih]
    cases x <;> simp [elems, OnElem]

theorem mem_elems {x : Element} {c : List XMLNode} (h : x.node ∈ c) : x ∈ elems c := by
  unfold elems
  rw [List.mem_filterMap]
  exact ⟨x.node, h, rfl⟩

theorem node_mem {x : Element} {c : List XMLNode} (h : x ∈ elems c) : x.node ∈ c := by
  unfold elems at h
  rw [List.mem_filterMap] at h
  obtain ⟨y, hy, h⟩ := h
  cases y with
  | element n a d =>
    simp only [Option.some.injEq] at h
    subst h
    exact hy
  | _ => cases h

theorem forElems {step : σ → Element → Res σ} {A : Element → Prop} {c : List XMLNode}
    (h : ∀ s, ∀ x ∈ elems c, Exact P (step s x) (A x)) (s : σ) :
    Exact P (JLaw.forElems step s c) (∀ x ∈ elems c, A x) := by
  refine (foldRes (A := OnElem A) (fun s x hx => ?_) s).congr onElem_iff
  cases x with
  | element n a d => exact h s ⟨n, a, d⟩ (mem_elems hx)
  | _ => exact ok _

theorem mixed {p : Element → Res α} {str : String → α} {A : Element → Prop} {c : List XMLNode}
    (h : ∀ x ∈ elems c, Exact P (p x) (A x)) :
    Exact P (JLaw.mixed p str c) (∀ x ∈ elems c, A x) := by
  refine (collectRes (A := OnElem A) fun x hx => ?_).congr onElem_iff
  cases x with
  | element n a d => exact map (h ⟨n, a, d⟩ (mem_elems hx))
  | _ => exact ok _

theorem readAll {p : Element → Res α} {A : Element → Prop} {c : List XMLNode}
    (h : ∀ x ∈ elems c, Exact P (p x) (A x)) :
    Exact P (JLaw.readAll p c) (∀ x ∈ elems c, A x) := by
  refine (collectRes (A := OnElem A) fun x hx => ?_).congr onElem_iff
  cases x with
  | element n a d => exact map (h ⟨n, a, d⟩ (mem_elems hx))
  | _ => exact ok _

theorem readTagged {t : String} {p : Element → Res α} {A : Element → Prop} {c : List XMLNode}
    (h : ∀ x ∈ elems c, x.name = t → Exact P (p x) (A x)) :
    Exact P (JLaw.readTagged t p c) (∀ x ∈ elems c, x.name ∈ [t] → A x) := by
  refine (collectRes (A := OnElem fun x => x.name ∈ [t] → A x) fun x hx => ?_).congr onElem_iff
  cases x with
  | element n a d =>
    by_cases hn : n = t
    · subst hn
      simp only [if_true]
      exact (map (h ⟨n, a, d⟩ (mem_elems hx) rfl)).congr (by simp [OnElem])
    · simp only [hn, if_false]
      exact (ok _).congr (by simp [OnElem, hn])
  | _ => exact ok _

/-! ### Matching on the tag -/

/-- Every arm accepts what the rule for its tag says. -/
def Arms (P : Prop) (m : Nat) (arms : List (String × (Element → Res α))) : Prop :=
  ∀ p ∈ arms, ∀ x, Child P m x x → x.name = p.1 → Exact P (p.2 x) (Accepted x)

theorem matchTag {arms : List (String × (Element → Res α))} (h : Arms P m arms)
    {d : Element → Res α} {x : Element} (hx : Child P m x x) (hd : (d x).Fails) :
    Exact P (JLaw.matchTag arms d x) (x.name ∈ arms.map Prod.fst ∧ Accepted x) := by
  induction arms with
  | nil => exact ⟨fun ⟨v, hv⟩ => absurd hv (hd v), fun h => by simp at h⟩
  | cons a arms ih =>
    rw [JLaw.matchTag_cons]
    by_cases hn : x.name = a.1
    · rw [if_pos hn]
      exact (h a (by simp) x hx hn).congr (by simp [hn])
    · rw [if_neg hn]
      exact (ih fun p hp => h p (by simp [hp])).congr (by simp [hn])

theorem matchTag_append (a b : List (String × (Element → Res α))) (d : Element → Res α)
    (x : Element) : JLaw.matchTag a (JLaw.matchTag b d) x = JLaw.matchTag (a ++ b) d x := by
  induction a with
  | nil => rfl
  | cons p a ih => rw [List.cons_append, JLaw.matchTag_cons, JLaw.matchTag_cons, ih]

theorem matchTag_append' (a b : List (String × (Element → Res α))) (d : Element → Res α) :
    JLaw.matchTag a (JLaw.matchTag b d) = JLaw.matchTag (a ++ b) d :=
  funext (matchTag_append a b d)

theorem childArms_ok {arms : List (String × (Element → Res α))} {push : α → β}
    {d : Element → Res β} {x : Element} {v : β} (hd : (d x).Fails)
    (h : JLaw.matchTag (JLaw.childArms arms fun v => .ok (push v)) d x = .ok v) :
    ∃ a, v = push a := by
  induction arms with
  | nil => exact absurd h (hd v)
  | cons a arms ih =>
    simp only [JLaw.childArms, List.map_cons, JLaw.matchTag_cons] at h
    split at h
    · obtain ⟨w, -, hw⟩ := Res.bind_eq_ok.1 h
      cases hw
      exact ⟨w, rfl⟩
    · exact ih h

theorem arms_nil : Arms (α := α) P m [] := by simp [Arms]

theorem arms_cons {t : String} {f : Element → Res α} {arms : List (String × (Element → Res α))}
    (hf : ∀ x, Child P m x x → x.name = t → Exact P (f x) (Accepted x)) (h : Arms P m arms) :
    Arms P m ((t, f) :: arms) := by
  intro p hp
  cases hp with
  | head => exact hf
  | tail _ hp => exact h p hp

theorem arms_append {a b : List (String × (Element → Res α))} (ha : Arms P m a)
    (hb : Arms P m b) : Arms P m (a ++ b) := by
  intro p hp
  rcases List.mem_append.1 hp with hp | hp
  · exact ha p hp
  · exact hb p hp

theorem childArms {arms : List (String × (Element → Res α))} (h : Arms P m arms)
    {push : α → β} : Arms P m (JLaw.childArms arms fun v => .ok (push v)) := by
  intro p hp'
  simp only [JLaw.childArms, List.mem_map] at hp'
  obtain ⟨q, hq, rfl⟩ := hp'
  exact fun x hx hn => map (h q hq x hx hn)

/-! ### Attributes -/

theorem parseUsizeStr_isSome (s : String) : parseUsizeStr s ≠ none ↔ Spec.IsCount s := by
  rw [parseUsizeStr, Spec.IsCount, Option.ne_none_iff_exists']
  exact exists_congr fun n => parseUsize_iff s.toList n

theorem fromNumStr_isOk (s : String) :
    (ArticleNumber.fromNumStr s).IsOk ↔ Spec.IsNumber s :=
  exists_congr fun a => (C03_from_num_str_language s).1 a

theorem fromNumStr (s : String) : Exact P (ArticleNumber.fromNumStr s) (Spec.IsNumber s) :=
  ⟨(fromNumStr_isOk s).1, fun h => .inl ((fromNumStr_isOk s).2 h)⟩

theorem getOptWithParse {p : String → Option α} {e : Element} {k : String} {A : String → Prop}
    (h : ∀ s, p s ≠ none ↔ A s) :
    Exact P (getAttributeOptWithParse p e k) (∀ s, e.attributes.get k = some s → A s) := by
  unfold getAttributeOptWithParse
  cases he : e.attributes.get k with
  | none => exact (ok _).congr (by simp)
  | some s =>
    have hs := h s
    cases hp : p s with
    | none => simp only [hp]; exact (err _).congr (by simpa [hp] using hs)
    | some a => simp only [hp]; exact (ok _).congr (by simpa [hp] using hs)

theorem getWithParse {p : String → Option α} {e : Element} {k : String} {A : String → Prop}
    (h : ∀ s, p s ≠ none ↔ A s) :
    Exact P (getAttributeWithParse p e k) (∃ s, e.attributes.get k = some s ∧ A s) := by
  unfold getAttributeWithParse
  cases he : e.attributes.get k with
  | none => exact (err _).congr (by simp)
  | some s =>
    have hs := h s
    cases hp : p s with
    | none => simp only [hp]; exact (err _).congr (by simpa [hp] using hs)
    | some a => simp only [hp]; exact (ok _).congr (by simpa [hp] using hs)

theorem getString (e : Element) (k : String) :
    Exact P (getAttributeOptWithParse parseString e k) True :=
  (getOptWithParse (A := fun _ => True) (by simp [parseString])).congr (by simp)

theorem optBool (e : Element) (k : String) :
    Exact P (getAttributeOptWithParse parseBool e k) (AttrRule.bool.Holds (e.attributes.get k)) := by
  refine (getOptWithParse (A := fun s => s = "true" ∨ s = "false") fun s => ?_).congr ?_
  · unfold parseBool
    by_cases h1 : s = "true"
    · simp [h1]
    · by_cases h2 : s = "false" <;> simp [h1, h2]
  · cases e.attributes.get k <;> simp [AttrRule.Holds]

theorem getBool (e : Element) (k : String) :
    Exact P (JLaw.getBool e k) (AttrRule.bool.Holds (e.attributes.get k)) :=
  map (optBool e k)

theorem count (e : Element) (k : String) :
    Exact P (getAttributeOptWithParse parseUsizeStr e k)
      (AttrRule.count.Holds (e.attributes.get k)) :=
  getOptWithParse parseUsizeStr_isSome

theorem mustCount (e : Element) (k : String) :
    Exact P (getAttributeWithParse parseUsizeStr e k)
      (AttrRule.mustCount.Holds (e.attributes.get k)) :=
  getWithParse parseUsizeStr_isSome

theorem present (e : Element) (k : String) :
    Exact P (getAttributeWithParse parseString e k)
      (AttrRule.present.Holds (e.attributes.get k)) :=
  (getWithParse (A := fun _ => True) (by simp [parseString])).congr
    (by cases e.attributes.get k <;> simp [AttrRule.Holds])

theorem getAttribute (e : Element) (k : String) :
    Exact P (JLaw.getAttribute e k) (AttrRule.present.Holds (e.attributes.get k)) := by
  unfold JLaw.getAttribute
  cases e.attributes.get k with
  | none => exact (err _).congr (by simp [AttrRule.Holds])
  | some s => exact (ok _).congr (by simp [AttrRule.Holds])

theorem parse?_isSome (s : String) : ArticleNumber.parse? s ≠ none ↔ Spec.IsNumber s := by
  rw [← fromNumStr_isOk]
  unfold ArticleNumber.parse? Res.IsOk
  split
  · next h => simp [h]
  · next h => simpa using fun v hv => h v hv

theorem tocNum (e : Element) :
    Exact P (getAttributeWithParse ArticleNumber.parse? e "Num")
      (AttrRule.mustNumber.Holds (e.attributes.get "Num")) :=
  getWithParse parse?_isSome

theorem numAttr (e : Element) :
    Exact P (JLaw.numAttr e) (AttrRule.mustNumber.Holds (e.attributes.get "Num")) := by
  unfold JLaw.numAttr JLaw.getAttribute
  cases he : e.attributes.get "Num" with
  | none => exact (err _).congr (by simp [AttrRule.Holds])
  | some s => exact (fromNumStr s).congr (by simp [AttrRule.Holds])

theorem paragraphNum (e : Element) :
    Exact P ((getAttributeWithParse parseString e "Num").bind ArticleNumber.fromNumStr)
      (AttrRule.mustNumber.Holds (e.attributes.get "Num")) := by
  unfold getAttributeWithParse
  cases he : e.attributes.get "Num" with
  | none => exact (err _).congr (by simp [AttrRule.Holds])
  | some s => exact (fromNumStr s).congr (by simp [AttrRule.Holds])

/-! ### Rules -/

theorem accepted_iff {e : Element} {t : String} {r : Rule} (hn : e.name = t)
    (hr : Spec.rules.lookup t = some r) :
    Accepted e ↔ r.Obeyed e ∧ ∀ x ∈ r.read e, Accepted x := by
  constructor
  · rintro ⟨_, r', h, ho, hk⟩
    rw [hn, hr] at h
    cases h
    exact ⟨ho, hk⟩
  · rintro ⟨ho, hk⟩
    exact ⟨e, r, by rw [hn, hr], ho, hk⟩

/-- Conditions on attributes. -/
abbrev AttrsOk (r : Rule) (e : Element) : Prop :=
  ∀ p ∈ r.attrs, p.2.Holds (e.attributes.get p.1)

/-- Elements that have to be there. -/
abbrev MustOk (r : Rule) (c : List XMLNode) : Prop :=
  ∀ g ∈ r.must, ∃ x ∈ elems c, x.name ∈ g

theorem sequence_strict {r : Rule} (hh : r.heads = []) (hs : r.skipped = some [])
    (l : List Element) : r.Sequence l ↔ ∀ x ∈ l, x.name ∈ r.kids := by
  constructor
  · rintro ⟨a, b, rfl, ha, hb⟩ x hx
    rcases List.mem_append.1 hx with hx | hx
    · have := ha x hx
      rw [hh] at this
      cases this
    · rcases hb x hx with h | h
      · exact h
      · cases h [] hs
  · intro h
    exact ⟨[], l, rfl, by simp, fun x hx => .inl (h x hx)⟩

theorem sequence_lax {r : Rule} (hs : r.skipped = none)
    (l : List Element) : r.Sequence l :=
  ⟨[], l, rfl, by simp, fun x _ => .inr fun t ht => by rw [hs] at ht; cases ht⟩

theorem strict {e : Element} {t : String} {r : Rule} (hn : e.name = t)
    (hr : Spec.rules.lookup t = some r) (hf : r.first = []) (hh : r.heads = [])
    (hs : r.skipped = some []) :
    Accepted e ↔ AttrsOk r e ∧ (∀ x ∈ elems e.children, x.name ∈ r.kids ∧ Accepted x) ∧
      MustOk r e.children := by
  rw [accepted_iff hn hr]
  constructor
  · rintro ⟨⟨h1, -, h3, h4⟩, h5⟩
    rw [sequence_strict hh hs] at h3
    simp only [hf, hh, Rule.read, List.length_nil, List.drop_zero, List.take_zero,
      List.nil_append, List.mem_append, List.mem_filter, decide_eq_true_eq] at h3 h4 h5
    exact ⟨h1, fun x hx => ⟨h3 x hx, h5 x (.inr ⟨hx, h3 x hx⟩)⟩, h4⟩
  · rintro ⟨h1, h2, h3⟩
    refine ⟨⟨h1, by rw [hf]; trivial, ?_, ?_⟩, ?_⟩
    · rw [sequence_strict hh hs, hf]
      exact fun x hx => (h2 x hx).1
    · rw [hf]; exact h3
    · simp only [hf, hh, Rule.read, List.length_nil, List.drop_zero, List.take_zero,
        List.nil_append, List.mem_append, List.mem_filter, decide_eq_true_eq]
      rintro x (hx | hx)
      · cases hx
      · exact (h2 x hx.1).2

theorem sequence_skipping {r : Rule} {t : List String} (hh : r.heads = []) (hs : r.skipped = some t)
    (l : List Element) : r.Sequence l ↔ ∀ x ∈ l, x.name ∈ r.kids ∨ x.name ∈ t := by
  constructor
  · rintro ⟨a, b, rfl, ha, hb⟩ x hx
    rcases List.mem_append.1 hx with hx | hx
    · have := ha x hx
      rw [hh] at this
      cases this
    · rcases hb x hx with h | h
      · exact .inl h
      · exact .inr (h t hs)
  · intro h
    refine ⟨[], l, rfl, by simp, fun x hx => (h x hx).imp_right fun h t' ht => ?_⟩
    rw [hs] at ht
    cases ht
    exact h

theorem skipping {e : Element} {t : String} {r : Rule} {l : List String} (hn : e.name = t)
    (hr : Spec.rules.lookup t = some r) (hf : r.first = []) (hh : r.heads = [])
    (hs : r.skipped = some l) :
    Accepted e ↔ AttrsOk r e ∧ (∀ x ∈ elems e.children, (x.name ∈ r.kids ∨ x.name ∈ l) ∧
      (x.name ∈ r.kids → Accepted x)) ∧ MustOk r e.children := by
  rw [accepted_iff hn hr]
  constructor
  · rintro ⟨⟨h1, -, h3, h4⟩, h5⟩
    rw [sequence_skipping hh hs] at h3
    simp only [hf, hh, Rule.read, List.length_nil, List.drop_zero, List.take_zero,
      List.nil_append, List.mem_append, List.mem_filter, decide_eq_true_eq] at h3 h4 h5
    exact ⟨h1, fun x hx => ⟨h3 x hx, fun hk => h5 x (.inr ⟨hx, hk⟩)⟩, h4⟩
  · rintro ⟨h1, h2, h3⟩
    refine ⟨⟨h1, by rw [hf]; trivial, ?_, ?_⟩, ?_⟩
    · rw [sequence_skipping hh hs, hf]
      exact fun x hx => (h2 x hx).1
    · rw [hf]; exact h3
    · simp only [hf, hh, Rule.read, List.length_nil, List.drop_zero, List.take_zero,
        List.nil_append, List.mem_append, List.mem_filter, decide_eq_true_eq]
      rintro x (hx | hx)
      · cases hx
      · exact (h2 x hx.1).2 hx.2

theorem lax {e : Element} {t : String} {r : Rule} (hn : e.name = t)
    (hr : Spec.rules.lookup t = some r) (hf : r.first = []) (hh : r.heads = [])
    (hs : r.skipped = none) :
    Accepted e ↔ AttrsOk r e ∧ (∀ x ∈ elems e.children, x.name ∈ r.kids → Accepted x) ∧
      MustOk r e.children := by
  rw [accepted_iff hn hr]
  constructor
  · rintro ⟨⟨h1, -, -, h4⟩, h5⟩
    simp only [hf, hh, Rule.read, List.length_nil, List.drop_zero, List.take_zero,
      List.nil_append, List.mem_append, List.mem_filter, decide_eq_true_eq] at h4 h5
    exact ⟨h1, fun x hx hk => h5 x (.inr ⟨hx, hk⟩), h4⟩
  · rintro ⟨h1, h2, h3⟩
    refine ⟨⟨h1, by rw [hf]; trivial, sequence_lax hs _, ?_⟩, ?_⟩
    · rw [hf]; exact h3
    · simp only [hf, hh, Rule.read, List.length_nil, List.drop_zero, List.take_zero,
        List.nil_append, List.mem_append, List.mem_filter, decide_eq_true_eq]
      rintro x (hx | hx)
      · cases hx
      · exact h2 x hx.1 hx.2

theorem free {e : Element} {t : String} (hn : e.name = t)
    (hr : Spec.rules.lookup t = some Spec.free) : Accepted e := by
  rw [lax hn hr rfl rfl rfl]
  refine ⟨fun p hp => ?_, fun x _ hx => ?_, fun g hg => ?_⟩
  · cases hp
  · cases hx
  · cases hg

theorem first_iff {e : Element} {t t1 : String} {r : Rule} (hn : e.name = t)
    (hr : Spec.rules.lookup t = some r) (hf : r.first = [t1]) (hm : r.must = []) :
    Accepted e ↔ AttrsOk r e ∧ ∃ a c rest, e.children = .element t1 a c :: rest ∧
      Accepted ⟨t1, a, c⟩ ∧ r.Sequence (elems rest) ∧
      ∀ x ∈ elems rest, x.name ∈ r.heads ++ r.kids → Accepted x := by
  rw [accepted_iff hn hr]
  constructor
  · rintro ⟨⟨h1, h2, h3, -⟩, h5⟩
    refine ⟨h1, ?_⟩
    match hc : e.children with
    | [] => simp [hf, hc, Spec.Starts] at h2
    | .text _ :: _ => simp [hf, hc, Spec.Starts] at h2
    | .comment _ :: _ => simp [hf, hc, Spec.Starts] at h2
    | .cdata _ :: _ => simp [hf, hc, Spec.Starts] at h2
    | .processingInstruction _ _ :: _ => simp [hf, hc, Spec.Starts] at h2
    | .element n a c :: rest =>
      simp only [hf, hc, Spec.Starts, and_true] at h2
      subst h2
      simp only [hf, hc, Rule.read, List.length_cons, List.length_nil, Nat.zero_add, List.drop_one,
        List.tail_cons, List.take_succ_cons, List.take_zero, List.mem_append, List.mem_filter,
        decide_eq_true_eq] at h3 h5
      refine ⟨a, c, rest, rfl, h5 _ (.inl (mem_elems (x := ⟨n, a, c⟩) (by simp [Element.node]))),
        h3, fun x hx hk => h5 x (.inr ⟨hx, by simpa using hk⟩)⟩
  · rintro ⟨h1, a, c, rest, hc, h2, h3, h4⟩
    refine ⟨⟨h1, by simp [hf, hc, Spec.Starts], by simpa [hf, hc] using h3, by simp [hm]⟩, ?_⟩
    simp only [hf, hc, Rule.read, List.length_cons, List.length_nil, Nat.zero_add, List.drop_one,
        List.tail_cons, List.take_succ_cons, List.take_zero, List.mem_append, List.mem_filter,
        decide_eq_true_eq]
    rintro x (hx | hx)
    · simp only [elems, List.filterMap_cons, List.filterMap_nil, List.mem_singleton] at hx
      rw [hx]
      exact h2
    · exact h4 x hx.1 (by simpa using hx.2)

theorem first_strict {e : Element} {t t1 : String} {r : Rule} (hn : e.name = t)
    (hr : Spec.rules.lookup t = some r) (hf : r.first = [t1]) (hm : r.must = [])
    (hh : r.heads = []) (hs : r.skipped = some []) :
    Accepted e ↔ AttrsOk r e ∧ ∃ a c rest, e.children = .element t1 a c :: rest ∧
      Accepted ⟨t1, a, c⟩ ∧ ∀ x ∈ elems rest, x.name ∈ r.kids ∧ Accepted x := by
  rw [first_iff hn hr hf hm]
  refine and_congr_right fun _ => exists_congr fun a => exists_congr fun c => exists_congr fun l =>
    and_congr_right fun _ => and_congr_right fun _ => ?_
  rw [sequence_strict hh hs, hh, List.nil_append]
  exact ⟨fun ⟨h1, h2⟩ x hx => ⟨h1 x hx, h2 x hx (h1 x hx)⟩,
    fun h => ⟨fun x hx => (h x hx).1, fun x hx _ => (h x hx).2⟩⟩

theorem first_only {e : Element} {t t1 : String} {r : Rule} (hn : e.name = t)
    (hr : Spec.rules.lookup t = some r) (hf : r.first = [t1]) (hm : r.must = [])
    (hh : r.heads = []) (hk : r.kids = []) (ha : r.attrs = []) (hs : r.skipped = none) :
    Accepted e ↔ ∃ a c rest, e.children = .element t1 a c :: rest ∧ Accepted ⟨t1, a, c⟩ := by
  rw [first_iff hn hr hf hm]
  constructor
  · rintro ⟨-, a, c, l, h, h', -⟩
    exact ⟨a, c, l, h, h'⟩
  · rintro ⟨a, c, l, h, h'⟩
    exact ⟨by simp [AttrsOk, ha], a, c, l, h, h', sequence_lax hs _, by simp [hh, hk]⟩

/-- A field that is there as soon as there is an element with one of the tags. -/
theorem field {step : σ → Element → Res σ} (get : σ → Prop) {tags : List String}
    {c : List XMLNode} {s s' : σ} (h : JLaw.forElems step s c = .ok s') (h0 : ¬ get s)
    (hstep : ∀ s x s', step s x = .ok s' → (get s' ↔ get s ∨ x.name ∈ tags)) :
    get s' ↔ ∃ x ∈ elems c, x.name ∈ tags := by
  have key : ∀ c s, JLaw.forElems step s c = .ok s' →
      (get s' ↔ get s ∨ ∃ x ∈ elems c, x.name ∈ tags) := by
    intro c
    induction c with
    | nil => intro s h; cases h; simp [elems]
    | cons y c ih =>
      intro s h
      unfold JLaw.forElems at h
      rw [foldRes_cons] at h
      obtain ⟨u, hu, hr⟩ := Res.bind_eq_ok.1 h
      have := ih u hr
      cases y with
      | element n a b =>
        have h1 := hstep s ⟨n, a, b⟩ u hu
        rw [this, h1]
        simp [elems, or_assoc]
      | _ => cases hu; simpa [elems] using this
  simpa [h0] using key c s h

end Exact

/-- The readers of a level accept what they should. -/
structure Lvl.Takes (L : Lvl) (P : Prop) (m : Nat) : Prop where
  agrees : L.Agrees P m
  text : 0 < m → ∀ l, Exact P (L.textOfStrings l) True
  contents : ∀ e, Fine P m e e → Exact P (L.contentsParser e)
    (∀ x ∈ elems e.children, x.name ∈ Spec.contentsTags ∧ Accepted x)
  item : ∀ e, Child P m e e → e.name = "Item" → Exact P (L.itemParser e) (Accepted e)
  column : ∀ e, Child P m e e → e.name = "TableColumn" → Exact P (L.columnParser e) (Accepted e)
  amend : ∀ e, Child P m e e → e.name = "AmendProvision" → Exact P (L.amendParser e) (Accepted e)

theorem Fine.child {e x : Element} (h : Fine P m e e) (hx : x ∈ elems e.children) :
    Child P m x x :=
  ⟨rfl, (h.parts x (Exact.node_mem hx)).1, (h.parts x (Exact.node_mem hx)).2⟩

theorem Fine.kidsSelf {e : Element} (h : Fine P m e e) : Kids P m e.children e.children := h.kids

/-- A loop over the children that matches on their tags. -/
theorem Exact.tagLoop {e : Element} (he : Fine P m e e)
    {arms : σ → List (String × (Element → Res σ))} {d : σ → Element → Res σ} {tags : List String}
    (h : ∀ s, Exact.Arms P m (arms s)) (ht : ∀ s, (arms s).map Prod.fst = tags)
    (hd : ∀ s x, (d s x).Fails) (s : σ) :
    Exact P (JLaw.forElems (fun s => JLaw.matchTag (arms s) (d s)) s e.children)
      (∀ x ∈ elems e.children, x.name ∈ tags ∧ Accepted x) :=
  Exact.forElems (fun s x hx => (Exact.matchTag (h s) (he.child hx) (hd s x)).congr (by rw [ht])) s

/-- A list of elements that matches on their tags. -/
theorem Exact.tagRead {e : Element} (he : Fine P m e e)
    {arms : List (String × (Element → Res α))} {d : Element → Res α} (h : Exact.Arms P m arms)
    (hd : ∀ x, (d x).Fails) :
    Exact P (JLaw.readAll (JLaw.matchTag arms d) e.children)
      (∀ x ∈ elems e.children, x.name ∈ arms.map Prod.fst ∧ Accepted x) :=
  Exact.readAll fun x hx => Exact.matchTag h (he.child hx) (hd x)

end JLaw
