import Verif.Lemmas.Decide
import Verif.Reading.Accept
import Verif.Spec.Verdict

/-!
# What reading a document leads to: the pieces

`Says r v` says that a run has the outcome `v`.
-/

namespace JLaw

open Spec (Rule AttrRule Verdict judge judgeList)

variable {m : Nat} {α β σ : Type}

/-- The outcome of the run. -/
def Says (r : Res α) : Verdict → Prop
  | .fine => r.IsOk
  | .wrong e => r = .err e
  | .crash => r = .panic

/-! ### Verdicts -/

@[simp] theorem Verdict.fine_andThen (v : Verdict) : Verdict.fine.andThen v = v := rfl

@[simp] theorem Verdict.wrong_andThen (e : Err) (v : Verdict) :
    (Verdict.wrong e).andThen v = .wrong e := rfl

@[simp] theorem Verdict.crash_andThen (v : Verdict) : Verdict.crash.andThen v = .crash := rfl

@[simp] theorem Verdict.andThen_fine (v : Verdict) : v.andThen .fine = v := by cases v <;> rfl

theorem Verdict.andThen_assoc (u v w : Verdict) :
    (u.andThen v).andThen w = u.andThen (v.andThen w) := by cases u <;> rfl

@[simp] theorem Verdict.all_nil : Verdict.all [] = .fine := rfl

@[simp] theorem Verdict.all_cons (v : Verdict) (vs : List Verdict) :
    Verdict.all (v :: vs) = v.andThen (.all vs) := rfl

theorem Verdict.all_fine {vs : List Verdict} (h : ∀ v ∈ vs, v = .fine) : Verdict.all vs = .fine := by
  induction vs with
  | nil => rfl
  | cons v vs ih =>
    rw [Verdict.all_cons, h v (by simp), ih fun w hw => h w (by simp [hw])]
    rfl

@[simp] theorem Verdict.require_true (e : Err) : Verdict.require true e = .fine := rfl

@[simp] theorem Verdict.require_false (e : Err) : Verdict.require false e = .wrong e := rfl

namespace Says

theorem congr {r : Res α} {v w : Verdict} (h : Says r v) (hv : v = w) : Says r w := hv ▸ h

theorem ok (a : α) : Says (Res.ok a) .fine := ⟨a, rfl⟩

theorem err (e : Err) : Says (.err e : Res α) (.wrong e) := rfl

theorem panic : Says (.panic : Res α) .crash := rfl

theorem bind {r : Res α} {f : α → Res β} {v w : Verdict} (h : Says r v)
    (hf : ∀ a, r = .ok a → Says (f a) w) : Says (r.bind f) (v.andThen w) := by
  cases v with
  | fine =>
    obtain ⟨a, rfl⟩ := h
    exact hf a rfl
  | wrong e => cases h; exact err e
  | crash => cases h; exact panic

theorem map {r : Res α} {f : α → β} {v : Verdict} (h : Says r v) :
    Says (r.bind fun a => .ok (f a)) v :=
  (bind h fun _ _ => ok _).congr (Verdict.andThen_fine v)

/-- What comes first never fails. -/
theorem after {r : Res α} {f : α → Res β} {w : Verdict} (h : Says r .fine)
    (hf : ∀ a, r = .ok a → Says (f a) w) : Says (r.bind f) w := bind h hf

theorem unexpected {e : Element} {t : String} (hn : e.name = t)
    (ht : ∀ n, Spec.stranger t n = .unexpectedTag n t) (x : Element) :
    (JLaw.unexpected e x : Res α) = .err (Spec.stranger t x.name) := by
  rw [JLaw.unexpected, unexpectedTag, hn, ht]

theorem skipErr {r : Res α} {v : Verdict} (h : Says r v) : Says r.skipErr v.tolerated := by
  cases v with
  | fine => obtain ⟨a, rfl⟩ := h; exact ok _
  | wrong e => cases h; exact ok _
  | crash => cases h; exact panic

theorem ofOption (e : Err) (o : Option α) : Says (Res.ofOption e o) (.require o.isSome e) := by
  cases o with
  | none => exact err _
  | some a => exact ok _

/-! ### Loops -/

theorem foldRes {step : σ → XMLNode → Res σ} {A : XMLNode → Verdict} {c : List XMLNode}
    (h : ∀ s, ∀ x ∈ c, Says (step s x) (A x)) (s : σ) :
    Says (JLaw.foldRes step s c) (.all (c.map A)) := by
  induction c generalizing s with
  | nil => exact ok _
  | cons x c ih =>
    exact bind (h s x (by simp)) fun s' _ => ih (fun s y hy => h s y (by simp [hy])) s'

theorem collectRes {f : XMLNode → Res (List β)} {A : XMLNode → Verdict} {c : List XMLNode}
    (h : ∀ x ∈ c, Says (f x) (A x)) : Says (JLaw.collectRes f c) (.all (c.map A)) := by
  induction c with
  | nil => exact ok _
  | cons x c ih =>
    exact bind (h x (by simp)) fun _ _ => map (ih fun y hy => h y (by simp [hy]))

/-- The verdict of a loop that looks at elements only. -/
def onElem (A : Element → Verdict) : XMLNode → Verdict
  | .element n a c => A ⟨n, a, c⟩
  | _ => .fine

theorem forElems {step : σ → Element → Res σ} {A : Element → Verdict} {c : List XMLNode}
    (h : ∀ s, ∀ x ∈ elems c, Says (step s x) (A x)) (s : σ) :
    Says (JLaw.forElems step s c) (.all (c.map (onElem A))) := by
  refine foldRes (fun s x hx => ?_) s
  cases x with
  | element n a d => exact h s ⟨n, a, d⟩ (Exact.mem_elems hx)
  | _ => exact ok _

theorem mixed {p : Element → Res α} {str : String → α} {A : Element → Verdict} {c : List XMLNode}
    (h : ∀ x ∈ elems c, Says (p x) (A x)) :
    Says (JLaw.mixed p str c) (.all (c.map (onElem A))) := by
  refine collectRes fun x hx => ?_
  cases x with
  | element n a d => exact map (h ⟨n, a, d⟩ (Exact.mem_elems hx))
  | _ => exact ok _

theorem readAll {p : Element → Res α} {A : Element → Verdict} {c : List XMLNode}
    (h : ∀ x ∈ elems c, Says (p x) (A x)) :
    Says (JLaw.readAll p c) (.all (c.map (onElem A))) := by
  refine collectRes fun x hx => ?_
  cases x with
  | element n a d => exact map (h ⟨n, a, d⟩ (Exact.mem_elems hx))
  | _ => exact ok _

/-! ### Rules -/

/-- The verdict on the nodes in a loop. -/
def loop (r : Rule) (t : String) (c : List XMLNode) : Verdict :=
  .all (c.map fun x => r.judgeNode t (x, judge x))

theorem judgeList_eq (c : List XMLNode) : judgeList c = c.map fun x => (x, judge x) := by
  induction c with
  | nil => rfl
  | cons x c ih => rw [judgeList, ih]; rfl

theorem judge_eq {e : Element} {t : String} {r : Rule} (hn : e.name = t)
    (hr : Spec.rules.lookup t = some r) :
    judge e.node = r.judge t e.attributes (e.children.map fun x => (x, judge x)) := by
  rw [Element.node, judge, hn, hr]
  simp only [judgeList_eq]

theorem judge_plain {e : Element} {t : String} {r : Rule} (hn : e.name = t)
    (hr : Spec.rules.lookup t = some r) (hf : r.first = []) (hh : r.heads = [])
    (hc : Spec.captionTags.contains t = false) :
    judge e.node = (r.judgeAttrs t e.attributes).andThen
      ((loop r t e.children).andThen (r.judgeMust t e.children)) := by
  rw [judge_eq hn hr, Rule.judge, hc]
  simp [hf, hh, Rule.judgeRest, Spec.judgeFirst, loop, List.map_map, Function.comp_def]

theorem judge_first {e : Element} {t t1 : String} {r : Rule} (hn : e.name = t)
    (hr : Spec.rules.lookup t = some r) (hf : r.first = [t1]) (hh : r.heads = [])
    (hm : r.must = []) (hc : Spec.captionTags.contains t = false) :
    judge e.node = (r.judgeAttrs t e.attributes).andThen
      ((Spec.judgeFirst t [t1] (e.children.map fun x => (x, judge x))).andThen
        (loop r t e.children.tail)) := by
  rw [judge_eq hn hr, Rule.judge, hc]
  simp [hf, hh, hm, Rule.judgeRest, Rule.judgeMust, loop, List.map_map, Function.comp_def]

theorem loop_strict {r : Rule} {t : String} (hs : r.skipped = some []) (c : List XMLNode) :
    loop r t c = .all (c.map (onElem fun x =>
      if x.name ∈ r.kids then judge x.node else .wrong (Spec.stranger t x.name))) := by
  unfold loop
  congr 2
  funext x
  cases x <;> simp [Rule.judgeNode, onElem, hs, Element.node]

/-- Nothing is read and nothing is looked at. -/
theorem loop_blind {r : Rule} {t : String} (hs : r.skipped = none) (hk : r.kids = [])
    (hb : Spec.blindTags.contains t = true) (c : List XMLNode) : loop r t c = .fine := by
  refine Verdict.all_fine fun v hv => ?_
  obtain ⟨x, -, rfl⟩ := List.mem_map.1 hv
  cases x <;> simp only [Rule.judgeNode, hs, hk, hb]
  simp

theorem readTagged {t tag : String} {p : Element → Res α} {r : Rule} {c : List XMLNode}
    (hs : r.skipped = none) (hk : r.kids = [t]) (hb : Spec.blindTags.contains tag = true)
    (h : ∀ x ∈ elems c, x.name = t → Says (p x) (judge x.node)) :
    Says (JLaw.readTagged t p c) (loop r tag c) := by
  refine collectRes fun x hx => ?_
  cases x with
  | element n a d =>
    by_cases hn : n = t
    · subst hn
      simp only [if_true]
      exact (map (h ⟨n, a, d⟩ (Exact.mem_elems hx) rfl)).congr
        (by simp [Rule.judgeNode, hk, Element.node])
    · simp only [hn, if_false]
      exact (ok _).congr (by simp only [Rule.judgeNode, hk, hs, hb]; simp [hn])
  | _ => exact ok _

/-- An element that has to be there. -/
theorem needed {r : Res α} {Q : Prop} {tags : List String} {c : List XMLNode} {e : Err}
    (h : Q ↔ ∃ x ∈ elems c, x.name ∈ tags) (hp : Q → r.IsOk) (hn : ¬ Q → r = .err e) :
    Says r (.require ((elems c).any fun x => tags.contains x.name) e) := by
  by_cases hq : Q
  · have : ((elems c).any fun x => tags.contains x.name) = true := by simpa using h.1 hq
    rw [this]
    exact hp hq
  · have : ((elems c).any fun x => tags.contains x.name) = false := by
      rw [Bool.eq_false_iff]
      intro h'
      exact hq (h.2 (by simpa using h'))
    rw [this]
    exact hn hq

/-! ### Matching on the tag -/

/-- Every arm comes to the verdict on the element. -/
def Arms (m : Nat) (arms : List (String × (Element → Res α))) : Prop :=
  ∀ p ∈ arms, ∀ x, Child True m x x → x.name = p.1 → Says (p.2 x) (judge x.node)

theorem matchTag {arms : List (String × (Element → Res α))} (h : Arms m arms)
    {d : Element → Res α} {x : Element} {e : Err} (hx : Child True m x x) (hd : d x = .err e) :
    Says (JLaw.matchTag arms d x)
      (if x.name ∈ arms.map Prod.fst then judge x.node else .wrong e) := by
  induction arms with
  | nil => exact hd
  | cons a arms ih =>
    rw [JLaw.matchTag_cons]
    by_cases hn : x.name = a.1
    · rw [if_pos hn]
      exact (h a List.mem_cons_self x hx hn).congr (by simp [hn])
    · rw [if_neg hn]
      refine (ih fun p hp => h p (List.mem_cons_of_mem _ hp)).congr ?_
      have : x.name ∈ (a :: arms).map Prod.fst ↔ x.name ∈ arms.map Prod.fst := by
        rw [List.map_cons, List.mem_cons]
        exact or_iff_right hn
      simp only [this]

theorem arms_nil : Arms (α := α) m [] := by simp [Arms]

theorem arms_cons {t : String} {f : Element → Res α} {arms : List (String × (Element → Res α))}
    (hf : ∀ x, Child True m x x → x.name = t → Says (f x) (judge x.node)) (h : Arms m arms) :
    Arms m ((t, f) :: arms) := by
  intro p hp
  cases hp with
  | head => exact hf
  | tail _ hp => exact h p hp

theorem arms_append {a b : List (String × (Element → Res α))} (ha : Arms m a)
    (hb : Arms m b) : Arms m (a ++ b) := by
  intro p hp
  rcases List.mem_append.1 hp with hp | hp
  · exact ha p hp
  · exact hb p hp

theorem childArms {arms : List (String × (Element → Res α))} (h : Arms m arms)
    {push : α → β} : Arms m (JLaw.childArms arms fun v => .ok (push v)) := by
  intro p hp'
  simp only [JLaw.childArms, List.mem_map] at hp'
  obtain ⟨q, hq, rfl⟩ := hp'
  exact fun x hx hn => map (h q hq x hx hn)

/-- A loop over the children that matches on their tags. -/
theorem tagLoop {e : Element} (he : Fine True m e e) {t : String} {r : Rule}
    {arms : σ → List (String × (Element → Res σ))} {d : σ → Element → Res σ}
    (hs : r.skipped = some []) (h : ∀ s, Arms m (arms s)) (ht : ∀ s, (arms s).map Prod.fst = r.kids)
    (hd : ∀ s x, d s x = .err (Spec.stranger t x.name)) (s : σ) :
    Says (JLaw.forElems (fun s => JLaw.matchTag (arms s) (d s)) s e.children)
      (loop r t e.children) := by
  rw [loop_strict hs]
  exact forElems (fun s x hx => (matchTag (h s) (he.child hx) (hd s x)).congr (by rw [ht])) s

/-- A list of elements that matches on their tags. -/
theorem tagRead {e : Element} (he : Fine True m e e) {t : String} {r : Rule} {c : List XMLNode}
    {arms : List (String × (Element → Res α))} {d : Element → Res α}
    (hs : r.skipped = some []) (h : Arms m arms) (ht : arms.map Prod.fst = r.kids)
    (hd : ∀ x, d x = .err (Spec.stranger t x.name)) (hc : ∀ x ∈ elems c, x ∈ elems e.children) :
    Says (JLaw.readAll (JLaw.matchTag arms d) c) (loop r t c) := by
  rw [loop_strict hs]
  exact readAll fun x hx => (matchTag h (he.child (hc x hx)) (hd x)).congr (by rw [ht])

/-- Likewise with text in between. -/
theorem tagMixed {e : Element} (he : Fine True m e e) {t : String} {r : Rule}
    {arms : List (String × (Element → Res α))} {d : Element → Res α} {str : String → α}
    (hs : r.skipped = some []) (h : Arms m arms) (ht : arms.map Prod.fst = r.kids)
    (hd : ∀ x, d x = .err (Spec.stranger t x.name)) :
    Says (JLaw.mixed (JLaw.matchTag arms d) str e.children) (loop r t e.children) := by
  rw [loop_strict hs]
  exact mixed fun x hx => (matchTag h (he.child hx) (hd x)).congr (by rw [ht])

/-! ### Attributes -/

theorem blamed_eq {t k : String} (hk : k ≠ "Type") : Spec.blamed t k = t := by
  simp [Spec.blamed, hk]

theorem getOptWithParse {p : String → Option α} {e : Element} {k : String}
    {ok : String → Bool} (h : ∀ s, (p s).isSome = ok s) :
    Says (getAttributeOptWithParse p e k)
      (.require ((e.attributes.get k).all ok) (.attributeParseError e.name k)) := by
  unfold getAttributeOptWithParse
  cases e.attributes.get k with
  | none => exact Says.ok _
  | some s =>
    have hs := h s
    cases hp : p s with
    | none => simp only [hp] at hs ⊢; exact (err _).congr (by simp [← hs])
    | some a => simp only [hp] at hs ⊢; exact (Says.ok _).congr (by simp [← hs])

theorem getWithParse {p : String → Option α} {e : Element} {k : String}
    {ok : String → Bool} (h : ∀ s, (p s).isSome = ok s) :
    Says (getAttributeWithParse p e k)
      ((e.attributes.get k).elim (.wrong (.missingRequiredAttribute e.name k)) fun s =>
        .require (ok s) (.attributeParseError e.name k)) := by
  unfold getAttributeWithParse
  cases e.attributes.get k with
  | none => exact err _
  | some s =>
    have hs := h s
    cases hp : p s with
    | none => simp only [hp] at hs ⊢; exact (err _).congr (by simp [← hs])
    | some a => simp only [hp] at hs ⊢; exact (Says.ok _).congr (by simp [← hs])

theorem getString (e : Element) (k : String) :
    Says (getAttributeOptWithParse parseString e k) .fine :=
  (getOptWithParse (ok := fun _ => true) fun _ => rfl).congr
    (by cases e.attributes.get k <;> rfl)

theorem optBool {e : Element} {t : String} (hn : e.name = t) {k : String} (hk : k ≠ "Type") :
    Says (getAttributeOptWithParse parseBool e k)
      (AttrRule.bool.verdict t k (e.attributes.get k)) := by
  refine (getOptWithParse (ok := fun s => s == "true" || s == "false") fun s => ?_).congr ?_
  · unfold parseBool
    by_cases h1 : s = "true"
    · simp [h1]
    · by_cases h2 : s = "false" <;> simp [h1, h2]
  · rw [AttrRule.verdict, blamed_eq hk, hn]
    cases e.attributes.get k <;> simp [AttrRule.check]

theorem getBool {e : Element} {t : String} (hn : e.name = t) {k : String} (hk : k ≠ "Type") :
    Says (JLaw.getBool e k) (AttrRule.bool.verdict t k (e.attributes.get k)) :=
  map (optBool hn hk)

theorem parseUsizeStr_isSome (s : String) :
    (parseUsizeStr s).isSome = (Spec.literal? s.toList).isSome := by
  rw [parseUsizeStr, literal?_eq, Option.isSome_map]

theorem count {e : Element} {t : String} (hn : e.name = t) {k : String} (hk : k ≠ "Type") :
    Says (getAttributeOptWithParse parseUsizeStr e k)
      (AttrRule.count.verdict t k (e.attributes.get k)) := by
  refine (getOptWithParse parseUsizeStr_isSome).congr ?_
  rw [AttrRule.verdict, blamed_eq hk, hn, AttrRule.check]

theorem mustCount {e : Element} {t : String} (hn : e.name = t) (k : String) :
    Says (getAttributeWithParse parseUsizeStr e k)
      (AttrRule.mustCount.verdict t k (e.attributes.get k)) := by
  refine (getWithParse parseUsizeStr_isSome).congr ?_
  rw [AttrRule.verdict, hn]

theorem present {e : Element} {t : String} (hn : e.name = t) (k : String) :
    Says (getAttributeWithParse parseString e k)
      (AttrRule.present.verdict t k (e.attributes.get k)) := by
  refine (getWithParse (ok := fun _ => true) fun _ => rfl).congr ?_
  rw [AttrRule.verdict, hn]
  cases e.attributes.get k <;> rfl

theorem getAttribute {e : Element} {t : String} (hn : e.name = t) (k : String) :
    Says (JLaw.getAttribute e k) (AttrRule.present.verdict t k (e.attributes.get k)) := by
  unfold JLaw.getAttribute
  rw [AttrRule.verdict, hn]
  cases e.attributes.get k with
  | none => exact err _
  | some s => exact ok _

theorem partsVerdict_cons (w : List Char) (ws : List (List Char)) :
    Spec.partsVerdict (w :: ws) = (Verdict.require (Spec.literal? w).isSome
      (.parsingError "usize" (String.ofList w))).andThen (Spec.partsVerdict ws) := by
  unfold Spec.partsVerdict
  rw [List.find?_cons]
  cases Spec.literal? w <;> rfl

theorem partsVerdict_append (a b : List (List Char)) :
    Spec.partsVerdict (a ++ b) = (Spec.partsVerdict a).andThen (Spec.partsVerdict b) := by
  induction a with
  | nil => rfl
  | cons w a ih => rw [List.cons_append, partsVerdict_cons, partsVerdict_cons, ih, Verdict.andThen_assoc]

theorem parseSegs (ws : List (List Char)) :
    Says (mapRes ArticleNumber.parseSeg ws) (Spec.partsVerdict ws) := by
  induction ws with
  | nil => exact ok _
  | cons w ws ih =>
    rw [mapRes, ArticleNumber.parseSeg, partsVerdict_cons, literal?_eq]
    cases parseUsize w with
    | none => exact err _
    | some n => exact map (f := fun bs => n :: bs) ih

theorem mapRes_ne_nil {f : α → Res β} {l : List α} {l' : List β} (h : mapRes f l = .ok l')
    (hl : l ≠ []) : l' ≠ [] := by
  cases l with
  | nil => exact absurd rfl hl
  | cons a l =>
    rw [mapRes] at h
    obtain ⟨_, _, h⟩ := Res.bind_eq_ok.1 h
    obtain ⟨_, _, h⟩ := Res.bind_eq_ok.1 h
    cases h
    simp

theorem fromNumStr (s : String) : Says (ArticleNumber.fromNumStr s) (Spec.numberVerdict s) := by
  unfold ArticleNumber.fromNumStr ArticleNumber.fromNumChars Spec.numberVerdict
  rw [fields_eq]
  cases hs : splitC ':' s.toList with
  | nil => exact absurd hs (splitC_ne_nil _ _)
  | cons a rest =>
    cases rest with
    | nil =>
      refine (bind (w := .fine) (parseSegs (splitC '_' a)) fun ns hns => ?_).congr ?_
      · have := mapRes_ne_nil hns (splitC_ne_nil _ _)
        cases ns with
        | nil => exact absurd rfl this
        | cons n ns => exact ok _
      · simp [fields_eq]
    | cons b rest =>
      refine (bind (w := Spec.partsVerdict (splitC '_' b)) (parseSegs (splitC '_' a))
        fun ns hns => ?_).congr ?_
      · have := mapRes_ne_nil hns (splitC_ne_nil _ _)
        cases ns with
        | nil => exact absurd rfl this
        | cons n ns => exact map (parseSegs _)
      · simp [fields_eq, partsVerdict_append]

theorem tocNum {e : Element} {t : String} (hn : e.name = t)
    (ht : Spec.tocEntryTags.contains t = true) :
    Says (getAttributeWithParse ArticleNumber.parse? e "Num")
      (AttrRule.mustNumber.verdict t "Num" (e.attributes.get "Num")) := by
  refine (getWithParse fun s => (number?_isSome s).symm).congr ?_
  simp only [AttrRule.verdict, hn, ht, if_true]

theorem numAttr {e : Element} {t : String} (hn : e.name = t)
    (ht : Spec.tocEntryTags.contains t = false) :
    Says (JLaw.numAttr e) (AttrRule.mustNumber.verdict t "Num" (e.attributes.get "Num")) := by
  unfold JLaw.numAttr JLaw.getAttribute
  simp only [AttrRule.verdict, hn, ht]
  cases he : e.attributes.get "Num" with
  | none => exact err _
  | some s => exact fromNumStr s

theorem paragraphNum {e : Element} {t : String} (hn : e.name = t)
    (ht : Spec.tocEntryTags.contains t = false) :
    Says ((getAttributeWithParse parseString e "Num").bind ArticleNumber.fromNumStr)
      (AttrRule.mustNumber.verdict t "Num" (e.attributes.get "Num")) := by
  unfold getAttributeWithParse
  simp only [AttrRule.verdict, hn, ht]
  cases he : e.attributes.get "Num" with
  | none => exact err _
  | some s => exact fromNumStr s

end Says

/-- The readers of a level come to the verdicts on the elements. -/
structure Lvl.Judges (L : Lvl) (m : Nat) : Prop where
  text : 0 < m → ∀ l, (L.textOfStrings l).IsOk
  contents : ∀ e, Fine True m e e → (∀ n, Spec.stranger e.name n = .unexpectedTag n e.name) →
    Says (L.contentsParser e) (Says.loop { kids := Spec.contentsTags } e.name e.children)
  item : ∀ e, Child True m e e → e.name = "Item" → Says (L.itemParser e) (judge e.node)
  column : ∀ e, Child True m e e → e.name = "TableColumn" → Says (L.columnParser e) (judge e.node)
  amend : ∀ e, Child True m e e → e.name = "AmendProvision" → Says (L.amendParser e) (judge e.node)

/-- Closed by a lemma on one reader; extended after each reader. -/
syntax "judged_leaf" : tactic
macro_rules
  | `(tactic| judged_leaf) => `(tactic| with_reducible exact Says.arms_nil)

/-- Goes through the arms of a `match`. -/
macro "jarms" : tactic => `(tactic| repeat' first
  | with_reducible refine Says.arms_cons (fun _ _ _ => ?_) ?_
  | with_reducible refine Says.arms_append ?_ ?_
  | with_reducible refine Says.childArms ?_
  | with_reducible refine Says.map ?_
  | judged_leaf)

/-- Spells out the verdict on an element. -/
macro "verdicts" : tactic => `(tactic|
  simp only [Spec.Rule.judgeAttrs, Spec.Rule.judgeMust, List.map_cons, List.map_nil,
    Verdict.all_cons, Verdict.all_nil, Verdict.andThen_fine, Verdict.fine_andThen,
    Verdict.andThen_assoc])

/-- A loop over the children that matches on their tags. -/
macro "judgeLoop! " he:term:max hn:term:max : term =>
  `(Says.tagLoop $he rfl (fun _ => by jarms) (fun _ => by rfl)
    (fun _ _ => Says.unexpected $hn (fun _ => rfl) _) _)

end JLaw
