import Verif.Spec.Written
import Verif.Stable.FormsAttr
import Verif.Stable.Writers
import Verif.Reading.Accept

/-! # Pieces of proofs that written elements conform to the schema -/

namespace JLaw

open Spec

variable {α : Type}

attribute [forms] textForm directedForm captionForm stringForm contentsForm unitAttrs itemForm
  structForm unitForm tocForm appdxForm supplAppdxForm listForm

/-- The element has one of the tags and conforms to the schema. -/
def Out (ts : List String) (e : Element) : Prop := e.name ∈ ts ∧ Conforms e

/-- The node is a text or such an element. -/
def OutNode (ts : List String) (x : XMLNode) : Prop :=
  (∃ s, x = .text s) ∨ ∃ e, x = e.node ∧ Out ts e

/-- The nodes are as the particles say and conform to the schema. -/
def Fits (ps : List Particle) (c : List XMLNode) : Prop :=
  Sequence ps c ∧ ∀ x ∈ elems c, Conforms x

theorem Out.mono {ts ts' : List String} {e : Element} (h : Out ts e) (hs : ∀ t ∈ ts, t ∈ ts') :
    Out ts' e := ⟨hs _ h.1, h.2⟩

theorem Out.mem {t : String} {ts : List String} {e : Element} (h : Out [t] e) (hs : t ∈ ts) :
    Out ts e := h.mono (by simpa using hs)

theorem OutNode.text {ts : List String} (s : String) : OutNode ts (.text s) := .inl ⟨s, rfl⟩

theorem OutNode.elem {ts : List String} {e : Element} (h : Out ts e) : OutNode ts e.node :=
  .inr ⟨e, rfl, h⟩

theorem hasTag_node {ts : List String} {e : Element} : HasTag ts e.node ↔ e.name ∈ ts := Iff.rfl

@[simp] theorem elems_cons_node (e : Element) (c : List XMLNode) :
    elems (e.node :: c) = e :: elems c := rfl

@[simp] theorem elems_cons_text (s : String) (c : List XMLNode) :
    elems (.text s :: c) = elems c := rfl

theorem elems_append' (c d : List XMLNode) : elems (c ++ d) = elems c ++ elems d :=
  List.filterMap_append ..

theorem Out.mk {t : String} {a : Attrs} {c : List XMLNode} (forms : List Form) (f : Form)
    (hl : schema.lookup t = some forms) (hf : f ∈ forms) (ha : AttributesOk f.attrs a)
    (hc : Fits f.content c) : Out [t] ⟨t, a, c⟩ :=
  ⟨by simp, .intro _ forms f hl hf ha hc.1 hc.2⟩

namespace Fits

theorem nil : Fits [] [] := ⟨rfl, by simp⟩

variable {ts : List String} {ps : List Particle} {c : List XMLNode}

theorem last (h : Fits ps (c ++ [])) : Fits ps c := by simpa using h

theorem lastMap {l : List α} {f : α → XMLNode} (h : Fits ps (l.map f ++ [])) :
    Fits ps (l.map f) := last h

theorem particle {p : Particle} {d : List XMLNode} (hp : p.Holds d)
    (hd : ∀ x ∈ elems d, Conforms x) (h : Fits ps c) : Fits (p :: ps) (d ++ c) := by
  refine ⟨⟨d, c, rfl, hp, h.1⟩, ?_⟩
  rw [elems_append']
  intro x hx
  rcases List.mem_append.1 hx with hx | hx
  · exact hd x hx
  · exact h.2 x hx

theorem one {e : Element} (he : Out ts e) (h : Fits ps c) : Fits (.one ts :: ps) (e.node :: c) :=
  particle (d := [e.node]) ⟨_, rfl, he.1⟩ (by simpa using he.2) h

theorem text {s : String} (h : Fits ps c) : Fits (.text :: ps) (.text s :: c) :=
  particle (d := [.text s]) ⟨_, rfl⟩ (by simp) h

theorem many {l : List α} {f : α → Element} (hf : ∀ v, Out ts (f v)) (h : Fits ps c) :
    Fits (.many ts :: ps) ((l.map fun v => (f v).node) ++ c) := by
  refine particle ?_ ?_ h
  · intro x hx
    obtain ⟨v, -, rfl⟩ := List.mem_map.1 hx
    exact (hf v).1
  · intro x hx
    obtain ⟨y, hy, hyx⟩ := List.mem_filterMap.1 hx
    obtain ⟨v, -, rfl⟩ := List.mem_map.1 hy
    cases hyx
    exact (hf v).2

theorem opt {o : Option α} {f : α → Element} (hf : ∀ v, Out ts (f v)) (h : Fits ps c) :
    Fits (.opt ts :: ps) ((o.toList.map fun v => (f v).node) ++ c) := by
  refine particle ?_ ?_ h
  · cases o with
    | none => exact .inl rfl
    | some v => exact .inr ⟨_, rfl, (hf v).1⟩
  · cases o with
    | none => simp
    | some v => simpa using (hf v).2

theorem optIte {p : Prop} [Decidable p] {e : Element} (he : Out ts e) (h : Fits ps c) :
    Fits (.opt ts :: ps) ((if p then [] else [e.node]) ++ c) := by
  refine particle ?_ ?_ h
  · split
    · exact .inl rfl
    · exact .inr ⟨_, rfl, he.1⟩
  · split
    · simp
    · simpa using he.2

theorem nodes {d : List XMLNode} (hd : ∀ x ∈ d, OutNode ts x) (h : Fits ps c) :
    Fits (.mixed ts :: ps) (d ++ c) := by
  refine particle ?_ ?_ h
  · intro x hx
    rcases hd x hx with h | ⟨e, rfl, he⟩
    · exact .inr h
    · exact .inl he.1
  · intro x hx
    obtain ⟨y, hy, hyx⟩ := List.mem_filterMap.1 hx
    rcases hd y hy with ⟨s, rfl⟩ | ⟨e, rfl, he⟩
    · cases hyx
    · cases hyx
      exact he.2

theorem mixed {l : List α} {f : α → XMLNode} (hf : ∀ v, OutNode ts (f v)) (h : Fits ps c) :
    Fits (.mixed ts :: ps) (l.map f ++ c) := by
  refine nodes (fun x hx => ?_) h
  obtain ⟨v, -, rfl⟩ := List.mem_map.1 hx
  exact hf v

end Fits

/-! ## Attributes -/

/-- The attributes are among those listed. -/
structure Listed (l : List Attribute) (a : Attrs) : Prop where
  nodup : (a.map Prod.fst).Nodup
  listed : ∀ p ∈ a, ∃ t ∈ l, t.name = p.1 ∧ t.values.Holds p.2

/-- The attribute is there. -/
def Has (k : String) (a : Attrs) : Prop := ∃ v, (k, v) ∈ a

namespace Has

theorem here {a : Attrs} {k v : String} : Has k (a.insert k v) := ⟨v, by simp [Attrs.insert]⟩

theorem insert {a : Attrs} {k k' v : String} (h : Has k a) : Has k (a.insert k' v) := by
  by_cases hk : k = k'
  · exact hk ▸ here
  · obtain ⟨w, hw⟩ := h
    exact ⟨w, by simp [Attrs.insert, hw, hk]⟩

theorem insertOpt {a : Attrs} {k k' : String} {o : Option String} (h : Has k a) :
    Has k (a.insertOpt k' o) := by
  cases o with
  | none => exact h
  | some v => exact h.insert

theorem insertTrue {a : Attrs} {k k' : String} {b : Bool} (h : Has k a) :
    Has k (a.insertTrue k' b) := by
  cases b with
  | false => exact h
  | true => exact h.insert

end Has

namespace Listed

variable {l : List Attribute} {a : Attrs} {k v : String}

theorem nil : Listed l [] := ⟨by simp, by simp⟩

theorem insert (h : Listed l a) (hv : ∃ t ∈ l, t.name = k ∧ t.values.Holds v) :
    Listed l (a.insert k v) := by
  constructor
  · unfold Attrs.insert
    rw [List.map_cons, List.nodup_cons]
    constructor
    · intro hm
      obtain ⟨p, hp, hpk⟩ := List.mem_map.1 hm
      have := (List.mem_filter.1 hp).2
      simp at this
      exact this hpk
    · exact h.nodup.sublist (List.Sublist.map _ List.filter_sublist)
  · intro p hp
    rcases List.mem_cons.1 hp with rfl | hp
    · exact hv
    · exact h.listed p (List.mem_filter.1 hp).1

theorem insertOpt {o : Option String} (h : Listed l a)
    (hv : ∀ v, o = some v → ∃ t ∈ l, t.name = k ∧ t.values.Holds v) :
    Listed l (a.insertOpt k o) := by
  cases o with
  | none => exact h
  | some v => exact h.insert (hv v rfl)

theorem insertTrue {b : Bool} (h : Listed l a)
    (hv : ∃ t ∈ l, t.name = k ∧ t.values.Holds "true") : Listed l (a.insertTrue k b) := by
  cases b with
  | false => exact h
  | true => exact h.insert hv

end Listed

theorem attributesOk {l : List Attribute} {a : Attrs} (h : Listed l a)
    (hr : ∀ t ∈ l, t.required = true → Has t.name a) : AttributesOk l a := ⟨h.1, h.2, hr⟩

theorem Values.map {β : Type} {l : List Attribute} {k : String} {f : β → String} {o : Option β}
    (h : ∀ x, ∃ t ∈ l, t.name = k ∧ t.values.Holds (f x)) :
    ∀ v, o.map f = some v → ∃ t ∈ l, t.name = k ∧ t.values.Holds v := by
  intro v hv
  obtain ⟨x, -, rfl⟩ := Option.map_eq_some_iff.1 hv
  exact h x

theorem digits_head_zero (n : Nat) (h : (digits n).head? = some '0') : n = 0 := by
  induction n using Nat.strongRecOn with
  | ind n ih =>
    rw [digits] at h
    split at h
    · next hn =>
      have key : ∀ m : Fin 10, [digitChar m].head? = some '0' → (m : Nat) = 0 := by decide
      exact key ⟨n, hn⟩ h
    · next hn =>
      have : (digits (n / 10)).head? = some '0' := by
        revert h
        cases hd : digits (n / 10) with
        | nil => exact absurd hd (digits_ne_nil _)
        | cons c r => exact id
      have := ih (n / 10) (by omega) this
      omega

theorem plainCount (n : Usize) : IsPlainCount (usizeStr n) := by
  refine ⟨(Exact.parseUsizeStr_isSome _).1 (by simp), ?_, ?_⟩
  · intro h
    rw [usizeStr, String.toList_ofList] at h
    exact digits_not_mem (c := '+') (by decide) (List.mem_of_head? h)
  · intro h
    rw [usizeStr, String.toList_ofList] at h
    have := digits_head_zero _ h
    rw [usizeStr, this, show digits 0 = ['0'] from by rw [digits]; rfl]

theorem plainNumber (a : ArticleNumber) : IsPlainNumber a.numStr := by
  refine ⟨goodNumber_numStr a, ?_⟩
  have hd : ∀ n c, c ∈ digits n → c.isDigit = true := by
    intro n c hc
    have := digits_mem hc
    simp only [Char.isDigit, Bool.and_eq_true, decide_eq_true_eq]
    exact ⟨this.1, this.2⟩
  intro c hc
  rw [ArticleNumber.numStr, String.toList_ofList, ArticleNumber.numChars] at hc
  rcases List.mem_append.1 hc with hc | hc
  · exact .inl (hd _ c hc)
  · obtain ⟨n, -, hc⟩ := List.mem_flatMap.1 hc
    rcases List.mem_append.1 hc with hc | hc
    · rcases List.mem_cons.1 hc with rfl | hc
      · exact .inr (.inl rfl)
      · exact .inl (hd _ c hc)
    · cases hr : a.range_end_numbers with
      | nil => rw [hr] at hc; cases hc
      | cons r rs =>
        rw [hr] at hc
        rcases List.mem_append.1 hc with hc | hc
        · rcases List.mem_cons.1 hc with rfl | hc
          · exact .inr (.inr rfl)
          · exact .inl (hd _ c hc)
        · obtain ⟨n, -, hc⟩ := List.mem_flatMap.1 hc
          rcases List.mem_cons.1 hc with rfl | hc
          · exact .inr (.inl rfl)
          · exact .inl (hd _ c hc)

theorem boolStr_cases (b : Bool) : boolStr b = "true" ∨ boolStr b = "false" := by
  cases b <;> simp [boolStr]

theorem lineStyle_cases (s : LineStyle) : s.toAttr ∈ lineStyles := by
  cases s <;> decide

theorem era_cases (x : Era) : x.toAttr = "Meiji" ∨ x.toAttr = "Taisho" ∨ x.toAttr = "Showa" ∨
    x.toAttr = "Heisei" ∨ x.toAttr = "Reiwa" := by
  cases x <;> decide

theorem lawType_cases (x : LawType) : x.toAttr = "Constitution" ∨ x.toAttr = "Act" ∨
    x.toAttr = "CabinetOrder" ∨ x.toAttr = "ImperialOrder" ∨ x.toAttr = "MinisterialOrdinance" ∨
    x.toAttr = "Rule" ∨ x.toAttr = "Misc" := by
  cases x <;> decide

theorem lang_cases (x : Lang) : x.toAttr = "ja" ∨ x.toAttr = "en" := by
  cases x <;> decide

/-- The attribute is listed and its value allowed. -/
macro "value" : tactic => `(tactic| (
  simp only [flag, yesNo, direction, List.mem_cons, List.not_mem_nil, or_false,
    exists_eq_or_imp, exists_eq_left, String.reduceEq, false_and, true_and, or_false, false_or,
    Values.Holds]
  try first
    | exact plainCount _
    | exact plainNumber _
    | exact boolStr_cases _
    | exact lineStyle_cases _
    | exact era_cases _
    | exact lawType_cases _
    | exact lang_cases _
    | decide
    | (rename_i x; cases x <;> decide)))

/-- Goes through the attributes of a written element. -/
macro "attrs" : tactic => `(tactic| (
  refine attributesOk ?_ ?_
  · try simp only [forms]
    repeat' with_reducible first
      | exact Listed.nil
      | refine Listed.insert ?_ ?_
      | refine Listed.insertOpt ?_ (Values.map fun _ => ?_)
      | refine Listed.insertOpt ?_ (fun _ _ => ?_)
      | refine Listed.insertTrue ?_ ?_
    all_goals value
  · try simp only [forms, flag, yesNo, direction, List.forall_mem_cons, List.not_mem_nil,
      Bool.false_eq_true, forall_const, false_imp_iff, true_imp_iff, implies_true, and_true,
      true_and]
    all_goals try (
      refine_lift ?_
      repeat' with_reducible first
        | exact Has.here
        | refine And.intro ?_ ?_
        | refine Has.insertTrue ?_
        | refine Has.insertOpt ?_
        | refine Has.insert ?_)))

end JLaw
