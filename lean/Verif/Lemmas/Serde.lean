import Verif.Spec.Serde

/-!
# The derived code reads exactly what documents say

`Lawful c`: the derived `Deserialize` gives a value if and only if the document says the value that the
derived `Serialize` gives for it.
-/

namespace JLaw

open Spec

theorem given_eq (k : String) (l : List (String × Json)) : Codec.valuesOf k l = given k l := by
  induction l with
  | nil => rfl
  | cons p r ih =>
    unfold Codec.valuesOf at ih ⊢
    simp only [List.filterMap_cons, given]
    split <;> simp_all

mutual
/-- A struct has as many names as values, and no name twice. -/
def Good : SerdeValue → Prop
  | .seq l => Goods l
  | .struct names values => names.Nodup ∧ names.length = values.length ∧ Goods values
  | .newtypeVariant _ v => Good v
  | _ => True
def Goods : List SerdeValue → Prop
  | [] => True
  | v :: vs => Good v ∧ Goods vs
end

theorem given_zip_of_not_mem {k : String} {names : List String} (hk : k ∉ names) (js : List Json) :
    given k (names.zip js) = [] := by
  induction names generalizing js with
  | nil => rfl
  | cons n r ih =>
    cases js with
    | nil => rfl
    | cons j js =>
      simp only [List.mem_cons, not_or] at hk
      simp only [List.zip_cons_cons, given, if_neg (Ne.symm hk.1), ih hk.2]

theorem given_skip {k n : String} (h : k ≠ n) (j : Json) (l : List (String × Json)) :
    given k ((n, j) :: l) = given k l := if_neg (Ne.symm h)

theorem saysFields_skip {n : String} (j : Json) (l : List (String × Json)) :
    ∀ (names : List String) (vs : List SerdeValue), n ∉ names →
      (SaysFields names vs ((n, j) :: l) ↔ SaysFields names vs l)
  | [], [], _ => by simp [SaysFields]
  | k :: ks, v :: vs, h => by
    simp only [List.mem_cons, not_or] at h
    simp only [SaysFields, given_skip (Ne.symm h.1), saysFields_skip j l ks vs h.2]
  | [], _ :: _, _ => by simp [SaysFields]
  | _ :: _, [], _ => by simp [SaysFields]

mutual
theorem says_toJson : ∀ v : SerdeValue, Good v → Says v v.toJson
  | .none, _ => by simp [SerdeValue.toJson, Says]
  | .bool b, _ => by simp [SerdeValue.toJson, Says]
  | .u64 n, _ => by simp [SerdeValue.toJson, Says]
  | .str s, _ => by simp [SerdeValue.toJson, Says]
  | .unitVariant s, _ => by simp [SerdeValue.toJson, Says]
  | .seq l, h => by
    simp only [SerdeValue.toJson, Says]
    exact saysAll_toJsons l (by simpa [Good] using h)
  | .struct names values, h => by
    simp only [Good] at h
    simp only [SerdeValue.toJson, Says]
    exact saysFields_toJsons values names h.1 h.2.1 h.2.2
  | .newtypeVariant name v, h => by
    simp only [SerdeValue.toJson, Says]
    exact ⟨_, rfl, says_toJson v (by simpa [Good] using h)⟩
theorem saysAll_toJsons : ∀ l : List SerdeValue, Goods l → SaysAll l (SerdeValue.toJsons l)
  | [], _ => by simp [SerdeValue.toJsons, SaysAll]
  | v :: vs, h => by
    simp only [Goods] at h
    simp only [SerdeValue.toJsons, SaysAll]
    exact ⟨says_toJson v h.1, saysAll_toJsons vs h.2⟩
theorem saysFields_toJsons : ∀ (l : List SerdeValue) (names : List String), names.Nodup →
    names.length = l.length → Goods l → SaysFields names l (names.zip (SerdeValue.toJsons l))
  | [], [], _, _, _ => by simp [SaysFields]
  | v :: vs, n :: ns, hn, hl, h => by
    simp only [Goods] at h
    rw [List.nodup_cons] at hn
    simp only [List.length_cons, Nat.add_right_cancel_iff] at hl
    simp only [SerdeValue.toJsons, List.zip_cons_cons, SaysFields, saysFields_skip _ _ ns vs hn.1]
    refine ⟨.inl ⟨_, ?_, says_toJson v h.1⟩, saysFields_toJsons vs ns hn.2 hl h.2⟩
    simp [given, given_zip_of_not_mem hn.1]
  | [], _ :: _, _, hl, _ => by cases hl
  | _ :: _, [], _, hl, _ => by cases hl
end

/-- The derived code of a type agrees with what documents say. -/
structure Lawful {α : Type} (c : Codec α) : Prop where
  good : ∀ x, Good (c.ser x)
  exact : ∀ j x, c.de j = some x ↔ Says (c.ser x) j
  missing : ∀ x, c.missing = some x ↔ c.ser x = .none

/-- The same for the fields of a struct. -/
structure FieldsLawful {α : Type} (f : Fields α) : Prop where
  nodup : f.names.Nodup
  length : ∀ x, f.names.length = (f.ser x).length
  good : ∀ x, Goods (f.ser x)
  map : ∀ l x, f.deMap l = some x ↔ SaysFields f.names (f.ser x) l
  seq : ∀ l x, f.deSeq l = some x ↔ SaysAll (f.ser x) l

/-- The same for the variants of an enum. -/
structure VariantsLawful {α : Type} (v : Variants α) : Prop where
  good : ∀ x, Good (v.ser x)
  name : ∀ s x, v.deName s = some x ↔ Says (v.ser x) (.str s)
  pair : ∀ s j x, v.dePair s j = some x ↔ Says (v.ser x) (.obj [(s, j)])
  shape : ∀ x, ∃ n ∈ v.names, v.ser x = .unitVariant n ∨ ∃ w, v.ser x = .newtypeVariant n w

theorem says_null {v : SerdeValue} (h : Says v .null) : v = .none := by
  cases v <;> simp [Says] at h ⊢

theorem Lawful.usize : Lawful Codec.usize where
  good x := by simp [Codec.usize, Good]
  exact j x := by
    cases j with
    | int n =>
      simp only [Codec.usize, Says]
      split
      · next h =>
        constructor
        · intro e; cases e; simp; omega
        · rintro rfl; congr 1
      · next h =>
        constructor
        · intro e; cases e
        · rintro rfl; exact absurd ⟨by omega, by omega⟩ h
    | _ => simp [Codec.usize, Says]
  missing x := by simp [Codec.usize]

theorem Lawful.bool : Lawful Codec.bool where
  good x := by simp [Codec.bool, Good]
  exact j x := by cases j <;> simp [Codec.bool, Says]
  missing x := by simp [Codec.bool]

theorem Lawful.str : Lawful Codec.str where
  good x := by simp [Codec.str, Good]
  exact j x := by cases j <;> simp [Codec.str, Says]
  missing x := by simp [Codec.str]

theorem Lawful.empty : Lawful Codec.empty where
  good x := x.elim
  exact _ x := x.elim
  missing x := x.elim

theorem Lawful.option {α : Type} {c : Codec α} (h : Lawful c) (hm : c.missing = none) :
    Lawful c.option where
  good x := by
    cases x with
    | none => simp [Codec.option, Good]
    | some a => exact h.good a
  exact j x := by
    have hn : ∀ a, c.ser a ≠ .none := fun a e => by
      have := (h.missing a).2 e
      rw [hm] at this
      cases this
    cases x with
    | none =>
      cases j <;> simp [Codec.option, Says]
    | some a =>
      cases j with
      | null =>
        simp only [Codec.option, Option.some.injEq, reduceCtorEq, false_iff]
        exact fun e => hn a (says_null e)
      | _ => simp [Codec.option, h.exact]
  missing x := by
    cases x with
    | none => simp [Codec.option]
    | some a =>
      simp only [Codec.option, Option.some.injEq, reduceCtorEq, false_iff]
      intro e
      have := (h.missing a).2 e
      rw [hm] at this
      cases this

theorem deAll_iff {α : Type} {c : Codec α} (h : Lawful c) (js : List Json) (l : List α) :
    Codec.deAll c.de js = some l ↔ SaysAll (l.map c.ser) js := by
  induction js generalizing l with
  | nil => cases l <;> simp [Codec.deAll, SaysAll]
  | cons j r ih =>
    cases l with
    | nil =>
      simp only [Codec.deAll, List.map_nil, SaysAll, iff_false, Option.bind_eq_some_iff]
      rintro ⟨b, -, m, -, e⟩
      cases e
    | cons a l =>
      simp only [Codec.deAll, Option.bind_eq_some_iff, List.map_cons, SaysAll, ← h.exact, ← ih]
      constructor
      · rintro ⟨b, hb, m, hm, e⟩; cases e; exact ⟨hb, hm⟩
      · rintro ⟨hb, hm⟩; exact ⟨a, hb, l, hm, rfl⟩

theorem Lawful.list {α : Type} {c : Codec α} (h : Lawful c) : Lawful c.list where
  good l := by
    simp only [Codec.list, Good]
    induction l with
    | nil => simp [Goods]
    | cons a l ih => simp only [List.map_cons, Goods]; exact ⟨h.good a, ih⟩
  exact j x := by
    cases j with
    | arr l => simpa [Codec.list, Says] using deAll_iff h l x
    | _ => simp [Codec.list, Says]
  missing x := by simp [Codec.list]

theorem deField_iff {α : Type} {c : Codec α} (h : Lawful c) (k : String) (l : List (String × Json))
    (x : α) : c.deField k l = some x ↔ Gives l k (c.ser x) := by
  unfold Codec.deField Gives
  rw [given_eq]
  split
  · next e => simp [e, h.missing]
  · next j e => simp [e, h.exact]
  · next e1 e2 =>
    constructor
    · intro e; cases e
    · rintro (⟨j, e, -⟩ | ⟨e, -⟩)
      · exact absurd e (e2 j)
      · exact absurd e e1

theorem FieldsLawful.done : FieldsLawful Fields.done where
  nodup := List.nodup_nil
  length _ := rfl
  good _ := by simp [Fields.done, Goods]
  map l x := by simp [Fields.done, SaysFields]
  seq l x := by cases l <;> simp [Fields.done, SaysAll]

theorem FieldsLawful.field {α β : Type} {name : String} {c : Codec α} {r : Fields β} (h : Lawful c)
    (hn : name ∉ r.names) (hr : FieldsLawful r) : FieldsLawful (Fields.field name c r) where
  nodup := List.nodup_cons.2 ⟨hn, hr.nodup⟩
  length x := by simp [Fields.field, hr.length x.2]
  good x := by simp only [Fields.field, Goods]; exact ⟨h.good _, hr.good _⟩
  map l x := by
    obtain ⟨a, b⟩ := x
    have e : SaysFields (Fields.field name c r).names ((Fields.field name c r).ser (a, b)) l ↔
        Gives l name (c.ser a) ∧ SaysFields r.names (r.ser b) l := by
      simp only [Fields.field, SaysFields, Gives]
    rw [e, ← deField_iff h, ← hr.map]
    simp only [Fields.field, Option.bind_eq_some_iff]
    constructor
    · rintro ⟨a', ha, b', hb, e⟩; cases e; exact ⟨ha, hb⟩
    · rintro ⟨ha, hb⟩; exact ⟨a, ha, b, hb, rfl⟩
  seq l x := by
    obtain ⟨a, b⟩ := x
    cases l with
    | nil => simp [Fields.field, SaysAll]
    | cons j l =>
      simp only [Fields.field, SaysAll, Option.bind_eq_some_iff, ← h.exact, ← hr.seq]
      constructor
      · rintro ⟨a', ha, b', hb, e⟩; cases e; exact ⟨ha, hb⟩
      · rintro ⟨ha, hb⟩; exact ⟨a, ha, b, hb, rfl⟩

theorem map_iso {α β : Type} {to : α → β} {of : β → α} (h1 : ∀ x, of (to x) = x)
    (h2 : ∀ y, to (of y) = y) (o : Option β) (x : α) : o.map of = some x ↔ o = some (to x) := by
  simp only [Option.map_eq_some_iff]
  constructor
  · rintro ⟨b, rfl, rfl⟩; rw [h2]
  · rintro rfl; exact ⟨_, rfl, h1 x⟩

theorem Lawful.struct {α β : Type} {f : Fields β} {to : α → β} {of : β → α} (hf : FieldsLawful f)
    (h1 : ∀ x, of (to x) = x) (h2 : ∀ y, to (of y) = y) : Lawful (Codec.struct f to of) where
  good x := by simp only [Codec.struct, Good]; exact ⟨hf.nodup, hf.length _, hf.good _⟩
  exact j x := by
    cases j with
    | obj l => simp only [Codec.struct, Says, map_iso h1 h2, hf.map]
    | arr l => simp only [Codec.struct, Says, map_iso h1 h2, hf.seq]
    | _ => simp [Codec.struct, Says]
  missing x := by simp [Codec.struct]

theorem VariantsLawful.done : VariantsLawful Variants.done where
  good x := x.elim
  name _ x := x.elim
  pair _ _ x := x.elim
  shape x := x.elim

theorem map_inr {α β : Type} (o : Option β) (x : α ⊕ β) :
    o.map Sum.inr = some x ↔ ∃ b, x = .inr b ∧ o = some b := by
  simp only [Option.map_eq_some_iff]
  constructor
  · rintro ⟨b, h, rfl⟩; exact ⟨b, rfl, h⟩
  · rintro ⟨b, rfl, h⟩; exact ⟨b, h, rfl⟩

theorem other_name {β : Type} {r : Variants β} (hr : VariantsLawful r) {name : String}
    (hn : name ∉ r.names) (b : β) : ¬ Says (r.ser b) (.str name) := by
  obtain ⟨n, hm, e | ⟨w, e⟩⟩ := hr.shape b <;> rw [e]
  · simp only [Says]; rintro rfl; exact hn hm
  · simp [Says]

theorem other_pair {β : Type} {r : Variants β} (hr : VariantsLawful r) {name : String} (j : Json)
    (hn : name ∉ r.names) (b : β) : ¬ Says (r.ser b) (.obj [(name, j)]) := by
  obtain ⟨n, hm, e | ⟨w, e⟩⟩ := hr.shape b <;> rw [e]
  · simp only [Says]; intro h; cases h; exact hn hm
  · simp only [Says]; rintro ⟨j', h, -⟩; cases h; exact hn hm

theorem VariantsLawful.unit {β : Type} {name : String} {r : Variants β} (hn : name ∉ r.names)
    (hr : VariantsLawful r) : VariantsLawful (Variants.unit name r) where
  good x := by
    cases x with
    | inl u => simp [Variants.unit, Good]
    | inr b => exact hr.good b
  name s x := by
    cases x with
    | inl u =>
      simp only [Variants.unit, Says]
      split
      · next h => simp [h]
      · next h => simp [h]
    | inr b =>
      simp only [Variants.unit]
      split
      · next h => subst h; simpa using other_name hr hn b
      · next h => simp [← hr.name]
  pair s j x := by
    cases x with
    | inl u =>
      simp only [Variants.unit, Says]
      split
      · next h => subst h; cases j <;> simp
      · next h => simp [h]
    | inr b =>
      simp only [Variants.unit]
      split
      · next h =>
        subst h
        have := other_pair hr j hn b
        cases j <;> simpa using this
      · next h => simp [← hr.pair]
  shape x := by
    cases x with
    | inl u => exact ⟨name, by simp [Variants.unit], .inl rfl⟩
    | inr b =>
      obtain ⟨n, hm, e⟩ := hr.shape b
      exact ⟨n, by simp [Variants.unit, hm], e⟩

theorem VariantsLawful.newtype {α β : Type} {name : String} {c : Codec α} {r : Variants β}
    (h : Lawful c) (hn : name ∉ r.names) (hr : VariantsLawful r) :
    VariantsLawful (Variants.newtype name c r) where
  good x := by
    cases x with
    | inl u => simp only [Variants.newtype, Good]; exact h.good u
    | inr b => exact hr.good b
  name s x := by
    cases x with
    | inl u => simp only [Variants.newtype, Says]; split <;> simp
    | inr b =>
      simp only [Variants.newtype]
      split
      · next h => subst h; simpa using other_name hr hn b
      · next h => simp [← hr.name]
  pair s j x := by
    cases x with
    | inl u =>
      simp only [Variants.newtype, Says]
      split
      · next e => subst e; simp [h.exact]
      · next h => simp [h]
    | inr b =>
      simp only [Variants.newtype]
      split
      · next h => subst h; simpa using other_pair hr j hn b
      · next h => simp [← hr.pair]
  shape x := by
    cases x with
    | inl u => exact ⟨name, by simp [Variants.newtype], .inr ⟨_, rfl⟩⟩
    | inr b =>
      obtain ⟨n, hm, e⟩ := hr.shape b
      exact ⟨n, by simp [Variants.newtype, hm], e⟩

theorem Lawful.enum {α β : Type} {v : Variants β} {to : α → β} {of : β → α} (hv : VariantsLawful v)
    (h1 : ∀ x, of (to x) = x) (h2 : ∀ y, to (of y) = y) : Lawful (Codec.enum v to of) where
  good x := hv.good _
  exact j x := by
    have key : ∀ l : List (String × Json), l.length ≠ 1 → ¬ Says (v.ser (to x)) (.obj l) := by
      intro l hl
      obtain ⟨n, -, e | ⟨w, e⟩⟩ := hv.shape (to x) <;> rw [e] <;> simp only [Says]
      · rintro rfl; exact hl rfl
      · rintro ⟨j, rfl, -⟩; exact hl rfl
    have rest : ∀ j, (∀ s, j ≠ .str s) → (∀ l, j ≠ .obj l) → ¬ Says (v.ser (to x)) j := by
      intro j h1 h2
      obtain ⟨n, -, e | ⟨w, e⟩⟩ := hv.shape (to x) <;> rw [e] <;> cases j <;> simp [Says] <;>
        first | exact absurd rfl (h1 _) | exact absurd rfl (h2 _)
    cases j with
    | str s => simp only [Codec.enum, map_iso h1 h2, hv.name]
    | obj l =>
      match l with
      | [(s, j)] => simp only [Codec.enum, map_iso h1 h2, hv.pair]
      | [] => simpa [Codec.enum] using key [] (by simp)
      | p :: q :: r => simpa [Codec.enum] using key (p :: q :: r) (by simp)
    | _ => simpa [Codec.enum] using rest _ (by simp) (by simp)
  missing x := by
    obtain ⟨n, -, e | ⟨w, e⟩⟩ := hv.shape (to x) <;> simp [Codec.enum, e]

/-- The derived code of a level agrees with what documents say. -/
structure LvlCodec.Lawful {L : Lvl} (S : LvlCodec L) : Prop where
  text : JLaw.Lawful S.text
  contents : JLaw.Lawful S.contents
  item : JLaw.Lawful S.item
  tableColumn : JLaw.Lawful S.tableColumn
  amendProvision : JLaw.Lawful S.amendProvision

theorem Fields.names_field {α β : Type} (n : String) (c : Codec α) (r : Fields β) :
    (Fields.field n c r).names = n :: r.names := rfl

theorem Fields.names_done : Fields.done.names = [] := rfl

theorem Variants.names_newtype {α β : Type} (n : String) (c : Codec α) (r : Variants β) :
    (Variants.newtype n c r).names = n :: r.names := rfl

theorem Variants.names_unit {β : Type} (n : String) (r : Variants β) :
    (Variants.unit n r).names = n :: r.names := rfl

theorem Variants.names_done : Variants.done.names = [] := rfl

/-- The names of the fields of a struct and of the variants of an enum differ. -/
local macro "names_differ" : tactic =>
  `(tactic| (
    simp only [Fields.names_field, Fields.names_done, Variants.names_newtype, Variants.names_unit,
      Variants.names_done]
    decide +kernel))

variable {L : Lvl}

theorem Ruby.lawful {S : LvlCodec L} (h : S.Lawful) : Lawful (Ruby.codec S) :=
  .struct (.field h.text (by names_differ) <| .field Lawful.str (by names_differ) <| .done)
    (fun _ => rfl) (fun _ => rfl)

theorem QuoteStruct.lawful {S : LvlCodec L} (h : S.Lawful) : Lawful (QuoteStruct.codec S) :=
  .struct (.field h.contents (by names_differ) <| .done)
    (fun _ => rfl) (fun _ => rfl)

theorem ArithFormula.lawful {S : LvlCodec L} (h : S.Lawful) : Lawful (ArithFormula.codec S) :=
  .struct (.field (Lawful.option Lawful.usize rfl) (by names_differ) <|
      .field h.contents (by names_differ) <| .done)
    (fun _ => rfl) (fun _ => rfl)

theorem Sup.lawful : Lawful Sup.codec :=
  .struct (.field Lawful.str (by names_differ) <| .done)
    (fun _ => rfl) (fun _ => rfl)

theorem Sub.lawful : Lawful Sub.codec :=
  .struct (.field Lawful.str (by names_differ) <| .done)
    (fun _ => rfl) (fun _ => rfl)

theorem LineContents.lawful {S : LvlCodec L} (h : S.Lawful) : Lawful (LineContents.codec S) :=
  .enum (.newtype (QuoteStruct.lawful h) (by names_differ) <|
      .newtype (ArithFormula.lawful h) (by names_differ) <|
      .newtype (Ruby.lawful h) (by names_differ) <| .newtype Sup.lawful (by names_differ) <|
      .newtype Sub.lawful (by names_differ) <| .newtype Lawful.str (by names_differ)
    <| .done)
    (fun x => by cases x <;> rfl) (by
      intro x
      rcases x with _ | _ | _ | _ | _ | _ | x
      all_goals first | rfl | exact x.elim)

theorem LineStyle.lawful : Lawful LineStyle.codec :=
  .enum (.unit (by names_differ) <| .unit (by names_differ) <| .unit (by names_differ) <|
      .unit (by names_differ) <| .done)
    (fun x => by cases x <;> rfl) (by
      intro x
      rcases x with _ | _ | _ | _ | x
      all_goals first | rfl | exact x.elim)

theorem Line.lawful {S : LvlCodec L} (h : S.Lawful) : Lawful (Line.codec S) :=
  .struct (.field (Lawful.list (LineContents.lawful h)) (by names_differ) <| .field
    LineStyle.lawful (by names_differ) <| .done)
    (fun _ => rfl) (fun _ => rfl)

theorem TextElement.lawful {S : LvlCodec L} (h : S.Lawful) : Lawful (TextElement.codec S) :=
  .enum (.newtype (Ruby.lawful h) (by names_differ) <| .newtype (Line.lawful h) (by names_differ)
    <| .newtype Sup.lawful (by names_differ) <| .newtype Sub.lawful (by names_differ) <| .newtype
    Lawful.str (by names_differ) <| .done)
    (fun x => by cases x <;> rfl) (by
      intro x
      rcases x with _ | _ | _ | _ | _ | x
      all_goals first | rfl | exact x.elim)

theorem WritingMode.lawful : Lawful WritingMode.codec :=
  .enum (.unit (by names_differ) <| .unit (by names_differ) <| .done)
    (fun x => by cases x <;> rfl) (by
      intro x
      rcases x with _ | _ | x
      all_goals first | rfl | exact x.elim)

theorem TextWithWritingMode.lawful {S : LvlCodec L} (h : S.Lawful) : Lawful
    (TextWithWritingMode.codec S) :=
  .struct (.field (Lawful.list (TextElement.lawful h)) (by names_differ) <| .field
    WritingMode.lawful (by names_differ) <| .done)
    (fun _ => rfl) (fun _ => rfl)

theorem Text.lawful {S : LvlCodec L} (h : S.Lawful) : Lawful (Text.codec S) :=
  .struct (.field (Lawful.list (TextElement.lawful h)) (by names_differ) <| .done)
    (fun _ => rfl) (fun _ => rfl)

theorem RemarksLabel.lawful {S : LvlCodec L} (h : S.Lawful) : Lawful (RemarksLabel.codec S) :=
  .struct (.field (Text.lawful h) (by names_differ) <| .field Lawful.bool (by names_differ) <|
    .done)
    (fun _ => rfl) (fun _ => rfl)

theorem SentenceElement.lawful {S : LvlCodec L} (h : S.Lawful) : Lawful (SentenceElement.codec S) :=
  .enum (.newtype (Line.lawful h) (by names_differ) <|
      .newtype (QuoteStruct.lawful h) (by names_differ) <|
      .newtype (ArithFormula.lawful h) (by names_differ) <| .newtype (Ruby.lawful h)
    (by names_differ) <| .newtype Sup.lawful (by names_differ) <|
      .newtype Sub.lawful (by names_differ) <| .newtype Lawful.str (by names_differ) <| .done)
    (fun x => by cases x <;> rfl) (by
      intro x
      rcases x with _ | _ | _ | _ | _ | _ | _ | x
      all_goals first | rfl | exact x.elim)

theorem SentenceFunction.lawful : Lawful SentenceFunction.codec :=
  .enum (.unit (by names_differ) <| .unit (by names_differ) <| .done)
    (fun x => by cases x <;> rfl) (by
      intro x
      rcases x with _ | _ | x
      all_goals first | rfl | exact x.elim)

theorem SentenceIndent.lawful : Lawful SentenceIndent.codec :=
  .enum (.unit (by names_differ) <| .unit (by names_differ) <| .unit (by names_differ) <|
      .unit (by names_differ) <| .unit (by names_differ) <| .unit (by names_differ) <|
      .unit (by names_differ)
    <| .unit (by names_differ) <| .unit (by names_differ) <| .unit (by names_differ) <|
      .unit (by names_differ) <| .unit (by names_differ) <| .done)
    (fun x => by cases x <;> rfl) (by
      intro x
      rcases x with _ | _ | _ | _ | _ | _ | _ | _ | _ | _ | _ | _ | x
      all_goals first | rfl | exact x.elim)

theorem Sentence.lawful {S : LvlCodec L} (h : S.Lawful) : Lawful (Sentence.codec S) :=
  .struct (.field (Lawful.list (SentenceElement.lawful h)) (by names_differ) <| .field
    (Lawful.option Lawful.usize rfl) (by names_differ) <| .field (Lawful.option
    SentenceFunction.lawful rfl) (by names_differ) <| .field (Lawful.option SentenceIndent.lawful
    rfl) (by names_differ) <| .field WritingMode.lawful (by names_differ) <| .done)
    (fun _ => rfl) (fun _ => rfl)

theorem RemarksContents.lawful {S : LvlCodec L} (h : S.Lawful) : Lawful (RemarksContents.codec S) :=
  .enum (.newtype h.item (by names_differ) <| .newtype (Sentence.lawful h) (by names_differ) <|
    .done)
    (fun x => by cases x <;> rfl) (by
      intro x
      rcases x with _ | _ | x
      all_goals first | rfl | exact x.elim)

theorem Remarks.lawful {S : LvlCodec L} (h : S.Lawful) : Lawful (Remarks.codec S) :=
  .struct (.field (RemarksLabel.lawful h) (by names_differ) <| .field (Lawful.list
    (RemarksContents.lawful h)) (by names_differ) <| .done)
    (fun _ => rfl) (fun _ => rfl)

theorem TableHeaderRow.lawful {S : LvlCodec L} (h : S.Lawful) : Lawful (TableHeaderRow.codec S) :=
  .struct (.field (Lawful.list (Text.lawful h)) (by names_differ) <| .done)
    (fun _ => rfl) (fun _ => rfl)

theorem TableRow.lawful {S : LvlCodec L} (h : S.Lawful) : Lawful (TableRow.codec S) :=
  .struct (.field (Lawful.list h.tableColumn) (by names_differ) <| .done)
    (fun _ => rfl) (fun _ => rfl)

theorem Table.lawful {S : LvlCodec L} (h : S.Lawful) : Lawful (Table.codec S) :=
  .struct (.field (Lawful.list (TableHeaderRow.lawful h)) (by names_differ) <| .field (Lawful.list
    (TableRow.lawful h)) (by names_differ) <| .field WritingMode.lawful (by names_differ) <| .done)
    (fun _ => rfl) (fun _ => rfl)

theorem TableStruct.lawful {S : LvlCodec L} (h : S.Lawful) : Lawful (TableStruct.codec S) :=
  .struct (.field (Lawful.option (TextWithWritingMode.lawful h) rfl) (by names_differ) <| .field
    (Lawful.list (Remarks.lawful h)) (by names_differ) <| .field (Table.lawful h) (by names_differ)
    <| .field (Lawful.list (Remarks.lawful h)) (by names_differ) <| .done)
    (fun _ => rfl) (fun _ => rfl)

theorem Align.lawful : Lawful Align.codec :=
  .enum (.unit (by names_differ) <| .unit (by names_differ) <| .unit (by names_differ) <|
      .unit (by names_differ) <| .done)
    (fun x => by cases x <;> rfl) (by
      intro x
      rcases x with _ | _ | _ | _ | x
      all_goals first | rfl | exact x.elim)

theorem Column.lawful {S : LvlCodec L} (h : S.Lawful) : Lawful (Column.codec S) :=
  .struct (.field (Lawful.list (Sentence.lawful h)) (by names_differ) <| .field (Lawful.option
    Lawful.usize rfl) (by names_differ) <| .field Lawful.bool (by names_differ) <| .field
    (Lawful.option Align.lawful rfl) (by names_differ) <| .done)
    (fun _ => rfl) (fun _ => rfl)

theorem SentenceOrColumnOrTable.lawful {S : LvlCodec L} (h : S.Lawful) : Lawful
    (SentenceOrColumnOrTable.codec S) :=
  .enum (.newtype (Lawful.list (Sentence.lawful h)) (by names_differ) <| .newtype (Lawful.list
    (Column.lawful h)) (by names_differ) <| .newtype (Table.lawful h) (by names_differ) <| .done)
    (fun x => by cases x <;> rfl) (by
      intro x
      rcases x with _ | _ | _ | x
      all_goals first | rfl | exact x.elim)

theorem Fig.lawful : Lawful Fig.codec :=
  .struct (.field Lawful.str (by names_differ) <| .done)
    (fun _ => rfl) (fun _ => rfl)

theorem FigStruct.lawful {S : LvlCodec L} (h : S.Lawful) : Lawful (FigStruct.codec S) :=
  .struct (.field (Lawful.option (Text.lawful h) rfl) (by names_differ) <| .field (Lawful.list
    (Remarks.lawful h)) (by names_differ) <| .field Fig.lawful (by names_differ) <| .field
    (Lawful.list (Remarks.lawful h)) (by names_differ) <| .done)
    (fun _ => rfl) (fun _ => rfl)

theorem Style.lawful {S : LvlCodec L} (h : S.Lawful) : Lawful (Style.codec S) :=
  .struct (.field h.contents (by names_differ) <| .done)
    (fun _ => rfl) (fun _ => rfl)

theorem StyleStruct.lawful {S : LvlCodec L} (h : S.Lawful) : Lawful (StyleStruct.codec S) :=
  .struct (.field (Lawful.option (Text.lawful h) rfl) (by names_differ) <| .field (Lawful.list
    (Remarks.lawful h)) (by names_differ) <| .field (Style.lawful h) (by names_differ) <| .field
    (Lawful.list (Remarks.lawful h)) (by names_differ) <| .done)
    (fun _ => rfl) (fun _ => rfl)

theorem ListSentence.lawful {S : LvlCodec L} (h : S.Lawful) : Lawful (ListSentence.codec S) :=
  .enum (.newtype (Sentence.lawful h) (by names_differ) <|
      .newtype (Column.lawful h) (by names_differ) <| .done)
    (fun x => by cases x <;> rfl) (by
      intro x
      rcases x with _ | _ | x
      all_goals first | rfl | exact x.elim)

theorem Sublist3.lawful {S : LvlCodec L} (h : S.Lawful) : Lawful (Sublist3.codec S) :=
  .struct (.field (Lawful.list (ListSentence.lawful h)) (by names_differ) <| .done)
    (fun _ => rfl) (fun _ => rfl)

theorem Sublist2.lawful {S : LvlCodec L} (h : S.Lawful) : Lawful (Sublist2.codec S) :=
  .struct (.field (Lawful.list (ListSentence.lawful h)) (by names_differ) <| .field (Lawful.list
    (Sublist3.lawful h)) (by names_differ) <| .done)
    (fun _ => rfl) (fun _ => rfl)

theorem Sublist1.lawful {S : LvlCodec L} (h : S.Lawful) : Lawful (Sublist1.codec S) :=
  .struct (.field (Lawful.list (ListSentence.lawful h)) (by names_differ) <| .field (Lawful.list
    (Sublist2.lawful h)) (by names_differ) <| .done)
    (fun _ => rfl) (fun _ => rfl)

theorem LawList.lawful {S : LvlCodec L} (h : S.Lawful) : Lawful (LawList.codec S) :=
  .struct (.field (Lawful.list (ListSentence.lawful h)) (by names_differ) <| .field (Lawful.list
    (Sublist1.lawful h)) (by names_differ) <| .done)
    (fun _ => rfl) (fun _ => rfl)

theorem Struct.lawful {S : LvlCodec L} (h : S.Lawful) : Lawful (Struct.codec S) :=
  .enum (.newtype (TableStruct.lawful h) (by names_differ) <|
      .newtype (FigStruct.lawful h) (by names_differ) <|
      .newtype (StyleStruct.lawful h) (by names_differ) <| .newtype (LawList.lawful
    h) (by names_differ) <| .done)
    (fun x => by cases x <;> rfl) (by
      intro x
      rcases x with _ | _ | _ | _ | x
      all_goals first | rfl | exact x.elim)

theorem ArticleNumber.lawful : Lawful ArticleNumber.codec :=
  .struct (.field Lawful.usize (by names_differ) <|
      .field (Lawful.list Lawful.usize) (by names_differ) <|
      .field (Lawful.list Lawful.usize) (by names_differ) <| .done)
    (fun _ => rfl) (fun _ => rfl)

theorem Subitem10.lawful {S : LvlCodec L} (h : S.Lawful) : Lawful (Subitem10.codec S) :=
  .struct (.field (Lawful.option (Text.lawful h) rfl) (by names_differ) <| .field
    (SentenceOrColumnOrTable.lawful h) (by names_differ) <| .field (Lawful.list (Struct.lawful h))
    (by names_differ) <| .field (Lawful.option ArticleNumber.lawful rfl) (by names_differ) <|
    .field Lawful.bool (by names_differ) <| .field Lawful.bool (by names_differ) <| .done)
    (fun x => by
      have h : x.children = [] := by cases h : x.children with | nil => rfl | cons a => exact a.elim
      cases x; cases h; rfl) (fun _ => rfl)

theorem Subitem9.lawful {S : LvlCodec L} (h : S.Lawful) : Lawful (Subitem9.codec S) :=
  .struct (.field (Lawful.option (Text.lawful h) rfl) (by names_differ) <| .field
    (SentenceOrColumnOrTable.lawful h) (by names_differ) <| .field (Lawful.list (Subitem10.lawful
    h)) (by names_differ) <| .field (Lawful.list (Struct.lawful h)) (by names_differ) <| .field
    (Lawful.option ArticleNumber.lawful rfl) (by names_differ) <|
      .field Lawful.bool (by names_differ) <| .field Lawful.bool (by names_differ) <| .done)
    (fun _ => rfl) (fun _ => rfl)

theorem Subitem8.lawful {S : LvlCodec L} (h : S.Lawful) : Lawful (Subitem8.codec S) :=
  .struct (.field (Lawful.option (Text.lawful h) rfl) (by names_differ) <| .field
    (SentenceOrColumnOrTable.lawful h) (by names_differ) <| .field (Lawful.list (Subitem9.lawful
    h)) (by names_differ) <| .field (Lawful.list (Struct.lawful h)) (by names_differ) <| .field
    (Lawful.option ArticleNumber.lawful rfl) (by names_differ) <|
      .field Lawful.bool (by names_differ) <| .field Lawful.bool (by names_differ) <| .done)
    (fun _ => rfl) (fun _ => rfl)

theorem Subitem7.lawful {S : LvlCodec L} (h : S.Lawful) : Lawful (Subitem7.codec S) :=
  .struct (.field (Lawful.option (Text.lawful h) rfl) (by names_differ) <| .field
    (SentenceOrColumnOrTable.lawful h) (by names_differ) <| .field (Lawful.list (Subitem8.lawful
    h)) (by names_differ) <| .field (Lawful.list (Struct.lawful h)) (by names_differ) <| .field
    (Lawful.option ArticleNumber.lawful rfl) (by names_differ) <|
      .field Lawful.bool (by names_differ) <| .field Lawful.bool (by names_differ) <| .done)
    (fun _ => rfl) (fun _ => rfl)

theorem Subitem6.lawful {S : LvlCodec L} (h : S.Lawful) : Lawful (Subitem6.codec S) :=
  .struct (.field (Lawful.option (Text.lawful h) rfl) (by names_differ) <| .field
    (SentenceOrColumnOrTable.lawful h) (by names_differ) <| .field (Lawful.list (Subitem7.lawful
    h)) (by names_differ) <| .field (Lawful.list (Struct.lawful h)) (by names_differ) <| .field
    (Lawful.option ArticleNumber.lawful rfl) (by names_differ) <|
      .field Lawful.bool (by names_differ) <| .field Lawful.bool (by names_differ) <| .done)
    (fun _ => rfl) (fun _ => rfl)

theorem Subitem5.lawful {S : LvlCodec L} (h : S.Lawful) : Lawful (Subitem5.codec S) :=
  .struct (.field (Lawful.option (Text.lawful h) rfl) (by names_differ) <| .field
    (SentenceOrColumnOrTable.lawful h) (by names_differ) <| .field (Lawful.list (Subitem6.lawful
    h)) (by names_differ) <| .field (Lawful.list (Struct.lawful h)) (by names_differ) <| .field
    (Lawful.option ArticleNumber.lawful rfl) (by names_differ) <|
      .field Lawful.bool (by names_differ) <| .field Lawful.bool (by names_differ) <| .done)
    (fun _ => rfl) (fun _ => rfl)

theorem Subitem4.lawful {S : LvlCodec L} (h : S.Lawful) : Lawful (Subitem4.codec S) :=
  .struct (.field (Lawful.option (Text.lawful h) rfl) (by names_differ) <| .field
    (SentenceOrColumnOrTable.lawful h) (by names_differ) <| .field (Lawful.list (Subitem5.lawful
    h)) (by names_differ) <| .field (Lawful.list (Struct.lawful h)) (by names_differ) <| .field
    (Lawful.option ArticleNumber.lawful rfl) (by names_differ) <|
      .field Lawful.bool (by names_differ) <| .field Lawful.bool (by names_differ) <| .done)
    (fun _ => rfl) (fun _ => rfl)

theorem Subitem3.lawful {S : LvlCodec L} (h : S.Lawful) : Lawful (Subitem3.codec S) :=
  .struct (.field (Lawful.option (Text.lawful h) rfl) (by names_differ) <| .field
    (SentenceOrColumnOrTable.lawful h) (by names_differ) <| .field (Lawful.list (Subitem4.lawful
    h)) (by names_differ) <| .field (Lawful.list (Struct.lawful h)) (by names_differ) <| .field
    (Lawful.option ArticleNumber.lawful rfl) (by names_differ) <|
      .field Lawful.bool (by names_differ) <| .field Lawful.bool (by names_differ) <| .done)
    (fun _ => rfl) (fun _ => rfl)

theorem Subitem2.lawful {S : LvlCodec L} (h : S.Lawful) : Lawful (Subitem2.codec S) :=
  .struct (.field (Lawful.option (Text.lawful h) rfl) (by names_differ) <| .field
    (SentenceOrColumnOrTable.lawful h) (by names_differ) <| .field (Lawful.list (Subitem3.lawful
    h)) (by names_differ) <| .field (Lawful.list (Struct.lawful h)) (by names_differ) <| .field
    (Lawful.option ArticleNumber.lawful rfl) (by names_differ) <|
      .field Lawful.bool (by names_differ) <| .field Lawful.bool (by names_differ) <| .done)
    (fun _ => rfl) (fun _ => rfl)

theorem Subitem1.lawful {S : LvlCodec L} (h : S.Lawful) : Lawful (Subitem1.codec S) :=
  .struct (.field (Lawful.option (Text.lawful h) rfl) (by names_differ) <| .field
    (SentenceOrColumnOrTable.lawful h) (by names_differ) <| .field (Lawful.list (Subitem2.lawful
    h)) (by names_differ) <| .field (Lawful.list (Struct.lawful h)) (by names_differ) <| .field
    (Lawful.option ArticleNumber.lawful rfl) (by names_differ) <|
      .field Lawful.bool (by names_differ) <| .field Lawful.bool (by names_differ) <| .done)
    (fun _ => rfl) (fun _ => rfl)

theorem Item.lawful {S : LvlCodec L} (h : S.Lawful) : Lawful (Item.codec S) :=
  .struct (.field (Lawful.option (Text.lawful h) rfl) (by names_differ) <| .field
    (SentenceOrColumnOrTable.lawful h) (by names_differ) <| .field (Lawful.list (Subitem1.lawful
    h)) (by names_differ) <| .field (Lawful.list (Struct.lawful h)) (by names_differ) <| .field
    (Lawful.option ArticleNumber.lawful rfl) (by names_differ) <|
      .field Lawful.bool (by names_differ) <| .field Lawful.bool (by names_differ) <| .done)
    (fun _ => rfl) (fun _ => rfl)

theorem AppdxTableContents.lawful {S : LvlCodec L} (h : S.Lawful) : Lawful
    (AppdxTableContents.codec S) :=
  .enum (.newtype (TableStruct.lawful h) (by names_differ) <|
      .newtype (Item.lawful h) (by names_differ) <| .done)
    (fun x => by cases x <;> rfl) (by
      intro x
      rcases x with _ | _ | x
      all_goals first | rfl | exact x.elim)

theorem AppdxTable.lawful {S : LvlCodec L} (h : S.Lawful) : Lawful (AppdxTable.codec S) :=
  .struct (.field (Lawful.option (TextWithWritingMode.lawful h) rfl) (by names_differ) <| .field
    (Lawful.option (Text.lawful h) rfl) (by names_differ) <| .field (Lawful.list
    (AppdxTableContents.lawful h)) (by names_differ) <| .field (Lawful.option (Remarks.lawful h)
    rfl) (by names_differ) <| .field (Lawful.option Lawful.str rfl) (by names_differ) <| .done)
    (fun _ => rfl) (fun _ => rfl)

theorem Note.lawful {S : LvlCodec L} (h : S.Lawful) : Lawful (Note.codec S) :=
  .struct (.field h.contents (by names_differ) <| .done)
    (fun _ => rfl) (fun _ => rfl)

theorem NoteStruct.lawful {S : LvlCodec L} (h : S.Lawful) : Lawful (NoteStruct.codec S) :=
  .struct (.field (Lawful.option (Text.lawful h) rfl) (by names_differ) <| .field (Lawful.list
    (Remarks.lawful h)) (by names_differ) <| .field (Note.lawful h) (by names_differ) <| .field
    (Lawful.list (Remarks.lawful h)) (by names_differ) <| .done)
    (fun _ => rfl) (fun _ => rfl)

theorem AppdxNoteContents.lawful {S : LvlCodec L} (h : S.Lawful) : Lawful (AppdxNoteContents.codec
    S) :=
  .enum (.newtype (NoteStruct.lawful h) (by names_differ) <|
      .newtype (FigStruct.lawful h) (by names_differ) <|
      .newtype (TableStruct.lawful h) (by names_differ) <| .done)
    (fun x => by cases x <;> rfl) (by
      intro x
      rcases x with _ | _ | _ | x
      all_goals first | rfl | exact x.elim)

theorem AppdxNote.lawful {S : LvlCodec L} (h : S.Lawful) : Lawful (AppdxNote.codec S) :=
  .struct (.field (Lawful.option (TextWithWritingMode.lawful h) rfl) (by names_differ) <| .field
    (Lawful.option (Text.lawful h) rfl) (by names_differ) <| .field (Lawful.list
    (AppdxNoteContents.lawful h)) (by names_differ) <| .field (Lawful.option (Remarks.lawful h)
    rfl) (by names_differ) <| .field (Lawful.option Lawful.str rfl) (by names_differ) <| .done)
    (fun _ => rfl) (fun _ => rfl)

theorem AppdxStyle.lawful {S : LvlCodec L} (h : S.Lawful) : Lawful (AppdxStyle.codec S) :=
  .struct (.field (Lawful.option (TextWithWritingMode.lawful h) rfl) (by names_differ) <| .field
    (Lawful.option (Text.lawful h) rfl) (by names_differ) <| .field (Lawful.list
    (StyleStruct.lawful h)) (by names_differ) <|
      .field (Lawful.option (Remarks.lawful h) rfl) (by names_differ) <|
      .field (Lawful.option Lawful.str rfl) (by names_differ) <| .done)
    (fun _ => rfl) (fun _ => rfl)

theorem Format.lawful {S : LvlCodec L} (h : S.Lawful) : Lawful (Format.codec S) :=
  .struct (.field h.contents (by names_differ) <| .done)
    (fun _ => rfl) (fun _ => rfl)

theorem FormatStruct.lawful {S : LvlCodec L} (h : S.Lawful) : Lawful (FormatStruct.codec S) :=
  .struct (.field (Lawful.option (Text.lawful h) rfl) (by names_differ) <| .field (Lawful.list
    (Remarks.lawful h)) (by names_differ) <| .field (Format.lawful h) (by names_differ) <| .field
    (Lawful.list (Remarks.lawful h)) (by names_differ) <| .done)
    (fun _ => rfl) (fun _ => rfl)

theorem AppdxFormat.lawful {S : LvlCodec L} (h : S.Lawful) : Lawful (AppdxFormat.codec S) :=
  .struct (.field (Lawful.option (TextWithWritingMode.lawful h) rfl) (by names_differ) <| .field
    (Lawful.option (Text.lawful h) rfl) (by names_differ) <| .field (Lawful.list
    (FormatStruct.lawful h)) (by names_differ) <|
      .field (Lawful.option (Remarks.lawful h) rfl) (by names_differ) <|
      .field (Lawful.option Lawful.str rfl) (by names_differ) <| .done)
    (fun _ => rfl) (fun _ => rfl)

theorem Appdx.lawful {S : LvlCodec L} (h : S.Lawful) : Lawful (Appdx.codec S) :=
  .struct (.field (Lawful.option (Text.lawful h) rfl) (by names_differ) <| .field (Lawful.option
    (Text.lawful h) rfl) (by names_differ) <|
      .field (Lawful.list (ArithFormula.lawful h)) (by names_differ) <|
      .field (Lawful.option (Remarks.lawful h) rfl) (by names_differ) <| .done)
    (fun _ => rfl) (fun _ => rfl)

theorem AppdxFigContents.lawful {S : LvlCodec L} (h : S.Lawful) : Lawful (AppdxFigContents.codec S)
    :=
  .enum (.newtype (FigStruct.lawful h) (by names_differ) <|
      .newtype (TableStruct.lawful h) (by names_differ) <| .done)
    (fun x => by cases x <;> rfl) (by
      intro x
      rcases x with _ | _ | x
      all_goals first | rfl | exact x.elim)

theorem AppdxFig.lawful {S : LvlCodec L} (h : S.Lawful) : Lawful (AppdxFig.codec S) :=
  .struct (.field (Lawful.option (TextWithWritingMode.lawful h) rfl) (by names_differ) <| .field
    (Lawful.option (Text.lawful h) rfl) (by names_differ) <| .field (Lawful.list
    (AppdxFigContents.lawful h)) (by names_differ) <|
      .field (Lawful.option Lawful.str rfl) (by names_differ) <| .done)
    (fun _ => rfl) (fun _ => rfl)

theorem Caption.lawful {S : LvlCodec L} (h : S.Lawful) : Lawful (Caption.codec S) :=
  .struct (.field (Text.lawful h) (by names_differ) <|
      .field (Lawful.option Lawful.bool rfl) (by names_differ) <| .done)
    (fun _ => rfl) (fun _ => rfl)

theorem Class.lawful {S : LvlCodec L} (h : S.Lawful) : Lawful (Class.codec S) :=
  .struct (.field (Lawful.option (Text.lawful h) rfl) (by names_differ) <| .field
    (SentenceOrColumnOrTable.lawful h) (by names_differ) <| .field (Lawful.list (Item.lawful h))
    (by names_differ) <| .field Lawful.str (by names_differ) <| .done)
    (fun _ => rfl) (fun _ => rfl)

theorem Paragraph.lawful {S : LvlCodec L} (h : S.Lawful) : Lawful (Paragraph.codec S) :=
  .struct (.field (Lawful.option (Caption.lawful h) rfl) (by names_differ) <| .field (Text.lawful
    h) (by names_differ) <| .field (Lawful.list h.amendProvision) (by names_differ) <| .field
    (Lawful.list (Class.lawful h)) (by names_differ) <| .field (Lawful.list (Sentence.lawful h))
    (by names_differ) <| .field (Lawful.list (Struct.lawful h)) (by names_differ) <| .field
    (Lawful.list (Item.lawful h)) (by names_differ) <|
      .field ArticleNumber.lawful (by names_differ) <| .field Lawful.bool (by names_differ) <|
      .field Lawful.bool (by names_differ)
    <| .field Lawful.bool (by names_differ) <| .done)
    (fun _ => rfl) (fun _ => rfl)

theorem Article.lawful {S : LvlCodec L} (h : S.Lawful) : Lawful (Article.codec S) :=
  .struct (.field (Lawful.option (Caption.lawful h) rfl) (by names_differ) <| .field (Text.lawful
    h) (by names_differ) <| .field (Lawful.list (Paragraph.lawful h)) (by names_differ) <| .field
    (Lawful.option (Text.lawful h) rfl) (by names_differ) <|
      .field ArticleNumber.lawful (by names_differ) <| .field Lawful.bool (by names_differ) <|
      .field Lawful.bool (by names_differ)
    <| .done)
    (fun _ => rfl) (fun _ => rfl)

theorem Division.lawful {S : LvlCodec L} (h : S.Lawful) : Lawful (Division.codec S) :=
  .struct (.field (Text.lawful h) (by names_differ) <|
      .field (Lawful.list (Article.lawful h)) (by names_differ) <|
      .field ArticleNumber.lawful (by names_differ) <| .field Lawful.bool (by names_differ) <|
      .field Lawful.bool (by names_differ) <| .done)
    (fun _ => rfl) (fun _ => rfl)

theorem SubsectionContents.lawful {S : LvlCodec L} (h : S.Lawful) : Lawful
    (SubsectionContents.codec S) :=
  .enum (.newtype (Article.lawful h) (by names_differ) <|
      .newtype (Division.lawful h) (by names_differ) <| .done)
    (fun x => by cases x <;> rfl) (by
      intro x
      rcases x with _ | _ | x
      all_goals first | rfl | exact x.elim)

theorem Subsection.lawful {S : LvlCodec L} (h : S.Lawful) : Lawful (Subsection.codec S) :=
  .struct (.field (Text.lawful h) (by names_differ) <| .field (Lawful.list
    (SubsectionContents.lawful h)) (by names_differ) <|
      .field ArticleNumber.lawful (by names_differ) <| .field Lawful.bool (by names_differ) <|
      .field Lawful.bool (by names_differ)
    <| .done)
    (fun _ => rfl) (fun _ => rfl)

theorem SectionContents.lawful {S : LvlCodec L} (h : S.Lawful) : Lawful (SectionContents.codec S) :=
  .enum (.newtype (Article.lawful h) (by names_differ) <|
      .newtype (Subsection.lawful h) (by names_differ) <|
      .newtype (Division.lawful h) (by names_differ) <| .done)
    (fun x => by cases x <;> rfl) (by
      intro x
      rcases x with _ | _ | _ | x
      all_goals first | rfl | exact x.elim)

theorem Section.lawful {S : LvlCodec L} (h : S.Lawful) : Lawful (Section.codec S) :=
  .struct (.field (Text.lawful h) (by names_differ) <| .field (Lawful.list (SectionContents.lawful
    h)) (by names_differ) <| .field ArticleNumber.lawful (by names_differ) <| .field Lawful.bool
    (by names_differ) <| .field Lawful.bool (by names_differ) <| .done)
    (fun _ => rfl) (fun _ => rfl)

theorem ChapterContents.lawful {S : LvlCodec L} (h : S.Lawful) : Lawful (ChapterContents.codec S) :=
  .enum (.newtype (Article.lawful h) (by names_differ) <|
      .newtype (Section.lawful h) (by names_differ) <| .done)
    (fun x => by cases x <;> rfl) (by
      intro x
      rcases x with _ | _ | x
      all_goals first | rfl | exact x.elim)

theorem Chapter.lawful {S : LvlCodec L} (h : S.Lawful) : Lawful (Chapter.codec S) :=
  .struct (.field (Text.lawful h) (by names_differ) <| .field (Lawful.list (ChapterContents.lawful
    h)) (by names_differ) <| .field ArticleNumber.lawful (by names_differ) <| .field Lawful.bool
    (by names_differ) <| .field Lawful.bool (by names_differ) <| .done)
    (fun _ => rfl) (fun _ => rfl)

theorem PartContents.lawful {S : LvlCodec L} (h : S.Lawful) : Lawful (PartContents.codec S) :=
  .enum (.newtype (Article.lawful h) (by names_differ) <|
      .newtype (Chapter.lawful h) (by names_differ) <| .done)
    (fun x => by cases x <;> rfl) (by
      intro x
      rcases x with _ | _ | x
      all_goals first | rfl | exact x.elim)

theorem Part.lawful {S : LvlCodec L} (h : S.Lawful) : Lawful (Part.codec S) :=
  .struct (.field (Text.lawful h) (by names_differ) <| .field (Lawful.list (PartContents.lawful h))
    (by names_differ) <| .field ArticleNumber.lawful (by names_differ) <|
      .field Lawful.bool (by names_differ) <| .field Lawful.bool (by names_differ) <| .done)
    (fun _ => rfl) (fun _ => rfl)

theorem ItemPattern.lawful : Lawful ItemPattern.codec :=
  .enum (.unit (by names_differ) <| .unit (by names_differ) <| .unit (by names_differ) <|
      .unit (by names_differ) <| .unit (by names_differ) <| .unit (by names_differ) <|
      .unit (by names_differ)
    <| .unit (by names_differ) <| .unit (by names_differ) <| .unit (by names_differ) <|
      .unit (by names_differ) <| .unit (by names_differ) <| .unit (by names_differ) <|
      .unit (by names_differ)
    <| .unit (by names_differ) <| .unit (by names_differ) <| .done)
    (fun x => by cases x <;> rfl) (by
      intro x
      rcases x with _ | _ | _ | _ | _ | _ | _ | _ | _ | _ | _ | _ | _ | _ | _ | _ | x
      all_goals first | rfl | exact x.elim)

theorem ItemNumber.lawful : Lawful ItemNumber.codec :=
  .struct (.field Lawful.str (by names_differ) <| .field Lawful.usize (by names_differ) <| .field
    (Lawful.list Lawful.usize) (by names_differ) <|
      .field (Lawful.list Lawful.usize) (by names_differ) <|
      .field ItemPattern.lawful (by names_differ) <| .done)
    (fun x => by cases x; simp) (fun x => by simp)

theorem TOCDivision.lawful {S : LvlCodec L} (h : S.Lawful) : Lawful (TOCDivision.codec S) :=
  .struct (.field (Text.lawful h) (by names_differ) <| .field (Lawful.option (Text.lawful h) rfl)
    (by names_differ) <| .field ArticleNumber.lawful (by names_differ) <|
      .field Lawful.bool (by names_differ) <| .done)
    (fun x => by
      have h : x.children = [] := by cases h : x.children with | nil => rfl | cons a => exact a.elim
      cases x; cases h; rfl) (fun _ => rfl)

theorem TOCSubsection.lawful {S : LvlCodec L} (h : S.Lawful) : Lawful (TOCSubsection.codec S) :=
  .struct (.field (Text.lawful h) (by names_differ) <| .field (Lawful.option (Text.lawful h) rfl)
    (by names_differ) <| .field ArticleNumber.lawful (by names_differ) <|
      .field Lawful.bool (by names_differ) <|
      .field (Lawful.list (TOCDivision.lawful h)) (by names_differ) <| .done)
    (fun _ => rfl) (fun _ => rfl)

theorem TOCSectionContents.lawful {S : LvlCodec L} (h : S.Lawful) : Lawful
    (TOCSectionContents.codec S) :=
  .enum (.newtype (TOCSubsection.lawful h) (by names_differ) <|
      .newtype (TOCDivision.lawful h) (by names_differ) <| .done)
    (fun x => by cases x <;> rfl) (by
      intro x
      rcases x with _ | _ | x
      all_goals first | rfl | exact x.elim)

theorem TOCSection.lawful {S : LvlCodec L} (h : S.Lawful) : Lawful (TOCSection.codec S) :=
  .struct (.field (Text.lawful h) (by names_differ) <| .field (Lawful.option (Text.lawful h) rfl)
    (by names_differ) <| .field ArticleNumber.lawful (by names_differ) <|
      .field Lawful.bool (by names_differ) <|
      .field (Lawful.list (TOCSectionContents.lawful h)) (by names_differ) <| .done)
    (fun _ => rfl) (fun _ => rfl)

theorem TOCChapter.lawful {S : LvlCodec L} (h : S.Lawful) : Lawful (TOCChapter.codec S) :=
  .struct (.field (Text.lawful h) (by names_differ) <| .field (Lawful.option (Text.lawful h) rfl)
    (by names_differ) <| .field ArticleNumber.lawful (by names_differ) <|
      .field Lawful.bool (by names_differ) <|
      .field (Lawful.list (TOCSection.lawful h)) (by names_differ) <| .done)
    (fun _ => rfl) (fun _ => rfl)

theorem TOCPart.lawful {S : LvlCodec L} (h : S.Lawful) : Lawful (TOCPart.codec S) :=
  .struct (.field (Text.lawful h) (by names_differ) <| .field (Lawful.option (Text.lawful h) rfl)
    (by names_differ) <| .field ArticleNumber.lawful (by names_differ) <|
      .field Lawful.bool (by names_differ) <|
      .field (Lawful.list (TOCChapter.lawful h)) (by names_differ) <| .done)
    (fun _ => rfl) (fun _ => rfl)

theorem TOCArticle.lawful {S : LvlCodec L} (h : S.Lawful) : Lawful (TOCArticle.codec S) :=
  .struct (.field (Text.lawful h) (by names_differ) <| .field (Caption.lawful h) (by names_differ)
    <| .field ArticleNumber.lawful (by names_differ) <| .field Lawful.bool (by names_differ) <|
    .done)
    (fun _ => rfl) (fun _ => rfl)

theorem TOCMainContents.lawful {S : LvlCodec L} (h : S.Lawful) : Lawful (TOCMainContents.codec S) :=
  .enum (.newtype (TOCPart.lawful h) (by names_differ) <|
      .newtype (TOCChapter.lawful h) (by names_differ) <|
      .newtype (TOCSection.lawful h) (by names_differ) <| .newtype
    (TOCArticle.lawful h) (by names_differ) <| .done)
    (fun x => by cases x <;> rfl) (by
      intro x
      rcases x with _ | _ | _ | _ | x
      all_goals first | rfl | exact x.elim)

theorem TOCSupplProvisionContents.lawful {S : LvlCodec L} (h : S.Lawful) : Lawful
    (TOCSupplProvisionContents.codec S) :=
  .enum (.newtype (TOCArticle.lawful h) (by names_differ) <|
      .newtype (TOCChapter.lawful h) (by names_differ) <| .done)
    (fun x => by cases x <;> rfl) (by
      intro x
      rcases x with _ | _ | x
      all_goals first | rfl | exact x.elim)

theorem TOCSupplProvision.lawful {S : LvlCodec L} (h : S.Lawful) : Lawful (TOCSupplProvision.codec
    S) :=
  .struct (.field (Text.lawful h) (by names_differ) <| .field (Lawful.option (Text.lawful h) rfl)
    (by names_differ) <|
      .field (Lawful.list (TOCSupplProvisionContents.lawful h)) (by names_differ) <| .done)
    (fun _ => rfl) (fun _ => rfl)

theorem TOC.lawful {S : LvlCodec L} (h : S.Lawful) : Lawful (TOC.codec S) :=
  .struct (.field (Lawful.option (Text.lawful h) rfl) (by names_differ) <| .field (Lawful.option
    (Text.lawful h) rfl) (by names_differ) <|
      .field (Lawful.list (TOCMainContents.lawful h)) (by names_differ) <|
      .field (Lawful.option (TOCSupplProvision.lawful h) rfl) (by names_differ) <|
    .field (Lawful.list (Text.lawful h)) (by names_differ) <| .done)
    (fun _ => rfl) (fun _ => rfl)

theorem ContentsElement.lawful {S : LvlCodec L} (h : S.Lawful) : Lawful (ContentsElement.codec S) :=
  .enum (.newtype (Table.lawful h) (by names_differ) <|
      .newtype (TableStruct.lawful h) (by names_differ) <|
      .newtype Fig.lawful (by names_differ) <| .newtype (FigStruct.lawful h) (by names_differ) <|
      .newtype (QuoteStruct.lawful h) (by names_differ) <| .newtype
    (NoteStruct.lawful h) (by names_differ) <| .newtype (StyleStruct.lawful h) (by names_differ) <|
    .newtype (AppdxTable.lawful h) (by names_differ) <| .newtype (Ruby.lawful h) (by names_differ)
    <| .newtype (Line.lawful h) (by names_differ) <| .newtype Sup.lawful (by names_differ) <|
    .newtype Sub.lawful (by names_differ) <| .newtype Lawful.str (by names_differ) <| .newtype
    (Paragraph.lawful h) (by names_differ) <| .newtype (Item.lawful h) (by names_differ) <|
    .newtype (Subitem1.lawful h) (by names_differ) <|
      .newtype (Subitem2.lawful h) (by names_differ) <|
      .newtype (Subitem3.lawful h) (by names_differ) <| .newtype (Subitem4.lawful h)
    (by names_differ) <| .newtype (Subitem5.lawful h) (by names_differ) <| .newtype
    (Subitem6.lawful h) (by names_differ) <| .newtype (Subitem7.lawful h) (by names_differ) <|
    .newtype (Subitem8.lawful h) (by names_differ) <|
      .newtype (Subitem9.lawful h) (by names_differ) <|
      .newtype (Subitem10.lawful h) (by names_differ) <| .newtype (LawList.lawful h)
    (by names_differ) <| .newtype (Sentence.lawful h) (by names_differ) <| .newtype
    (ArithFormula.lawful h) (by names_differ) <| .newtype (Remarks.lawful h) (by names_differ) <|
    .newtype (TOC.lawful h) (by names_differ) <| .newtype (TOCSection.lawful h) (by names_differ)
    <| .newtype (TableRow.lawful h) (by names_differ) <| .done)
    (fun x => by cases x <;> rfl) (by
      intro x
      rcases x with _ | _ | _ | _ | _ | _ | _ | _ | _ | _ | _ | _ | _ | _ | _ | _ | _ | _ | _ | _ |
        _ | _ | _ | _ | _ | _ | _ | _ | _ | _ | _ | _ | x
      all_goals first | rfl | exact x.elim)

theorem Contents.lawful {S : LvlCodec L} (h : S.Lawful) : Lawful (Contents.codec S) :=
  .struct (.field (Lawful.list (ContentsElement.lawful h)) (by names_differ) <| .done)
    (fun _ => rfl) (fun _ => rfl)

theorem Era.lawful : Lawful Era.codec :=
  .enum (.unit (by names_differ) <| .unit (by names_differ) <| .unit (by names_differ) <|
      .unit (by names_differ) <| .unit (by names_differ) <| .done)
    (fun x => by cases x <;> rfl) (by
      intro x
      rcases x with _ | _ | _ | _ | _ | x
      all_goals first | rfl | exact x.elim)

theorem LawType.lawful : Lawful LawType.codec :=
  .enum (.unit (by names_differ) <| .unit (by names_differ) <| .unit (by names_differ) <|
      .unit (by names_differ) <| .unit (by names_differ) <| .unit (by names_differ) <|
      .unit (by names_differ)
    <| .done)
    (fun x => by cases x <;> rfl) (by
      intro x
      rcases x with _ | _ | _ | _ | _ | _ | _ | x
      all_goals first | rfl | exact x.elim)

theorem Lang.lawful : Lawful Lang.codec :=
  .enum (.unit (by names_differ) <| .unit (by names_differ) <| .done)
    (fun x => by cases x <;> rfl) (by
      intro x
      rcases x with _ | _ | x
      all_goals first | rfl | exact x.elim)

theorem LawTitle.lawful {S : LvlCodec L} (h : S.Lawful) : Lawful (LawTitle.codec S) :=
  .struct (.field (Lawful.option Lawful.str rfl) (by names_differ) <| .field (Lawful.option
    Lawful.str rfl) (by names_differ) <| .field (Lawful.option Lawful.str rfl) (by names_differ) <|
    .field (Text.lawful h) (by names_differ) <| .done)
    (fun _ => rfl) (fun _ => rfl)

theorem Preamble.lawful {S : LvlCodec L} (h : S.Lawful) : Lawful (Preamble.codec S) :=
  .struct (.field (Lawful.list (Paragraph.lawful h)) (by names_differ) <| .done)
    (fun _ => rfl) (fun _ => rfl)

theorem MainProvisionContents.lawful {S : LvlCodec L} (h : S.Lawful) : Lawful
    (MainProvisionContents.codec S) :=
  .enum (.newtype (Part.lawful h) (by names_differ) <|
      .newtype (Chapter.lawful h) (by names_differ) <|
      .newtype (Section.lawful h) (by names_differ) <| .newtype (Article.lawful h)
    (by names_differ) <| .newtype (Paragraph.lawful h) (by names_differ) <| .done)
    (fun x => by cases x <;> rfl) (by
      intro x
      rcases x with _ | _ | _ | _ | _ | x
      all_goals first | rfl | exact x.elim)

theorem MainProvision.lawful {S : LvlCodec L} (h : S.Lawful) : Lawful (MainProvision.codec S) :=
  .struct (.field (Lawful.list (MainProvisionContents.lawful h)) (by names_differ) <| .field
    (Lawful.option Lawful.bool rfl) (by names_differ) <| .done)
    (fun _ => rfl) (fun _ => rfl)

theorem SupplProvisionAppdxTable.lawful {S : LvlCodec L} (h : S.Lawful) : Lawful
    (SupplProvisionAppdxTable.codec S) :=
  .struct (.field (TextWithWritingMode.lawful h) (by names_differ) <| .field (Lawful.option
    (Text.lawful h) rfl) (by names_differ) <|
      .field (Lawful.list (TableStruct.lawful h)) (by names_differ) <|
      .field (Lawful.option Lawful.str rfl) (by names_differ) <| .done)
    (fun _ => rfl) (fun _ => rfl)

theorem SupplProvisionAppdxStyle.lawful {S : LvlCodec L} (h : S.Lawful) : Lawful
    (SupplProvisionAppdxStyle.codec S) :=
  .struct (.field (TextWithWritingMode.lawful h) (by names_differ) <| .field (Lawful.option
    (Text.lawful h) rfl) (by names_differ) <|
      .field (Lawful.list (StyleStruct.lawful h)) (by names_differ) <|
      .field (Lawful.option Lawful.str rfl) (by names_differ) <| .done)
    (fun _ => rfl) (fun _ => rfl)

theorem SupplProvisionAppdx.lawful {S : LvlCodec L} (h : S.Lawful) : Lawful
    (SupplProvisionAppdx.codec S) :=
  .struct (.field (Lawful.option (Text.lawful h) rfl) (by names_differ) <| .field (Lawful.option
    (Text.lawful h) rfl) (by names_differ) <|
      .field (Lawful.list (ArithFormula.lawful h)) (by names_differ) <|
      .field (Lawful.option Lawful.str rfl) (by names_differ) <| .done)
    (fun _ => rfl) (fun _ => rfl)

theorem SupplProvisionChildrenElement.lawful {S : LvlCodec L} (h : S.Lawful) : Lawful
    (SupplProvisionChildrenElement.codec S) :=
  .enum (.newtype (Chapter.lawful h) (by names_differ) <|
      .newtype (Article.lawful h) (by names_differ) <|
      .newtype (Paragraph.lawful h) (by names_differ) <| .newtype
    (SupplProvisionAppdxTable.lawful h) (by names_differ) <| .newtype
    (SupplProvisionAppdxStyle.lawful h) (by names_differ) <| .newtype (SupplProvisionAppdx.lawful
    h) (by names_differ) <| .done)
    (fun x => by cases x <;> rfl) (by
      intro x
      rcases x with _ | _ | _ | _ | _ | _ | x
      all_goals first | rfl | exact x.elim)

theorem SupplProvisionType.lawful : Lawful SupplProvisionType.codec :=
  .enum (.unit (by names_differ) <| .unit (by names_differ) <| .done)
    (fun x => by cases x <;> rfl) (by
      intro x
      rcases x with _ | _ | x
      all_goals first | rfl | exact x.elim)

theorem SupplProvision.lawful {S : LvlCodec L} (h : S.Lawful) : Lawful (SupplProvision.codec S) :=
  .struct (.field (Text.lawful h) (by names_differ) <| .field (Lawful.list
    (SupplProvisionChildrenElement.lawful h)) (by names_differ) <| .field (Lawful.option
    SupplProvisionType.lawful rfl) (by names_differ) <|
      .field (Lawful.option Lawful.str rfl) (by names_differ) <|
      .field (Lawful.option Lawful.bool rfl) (by names_differ) <| .done)
    (fun _ => rfl) (fun _ => rfl)

theorem LawBody.lawful {S : LvlCodec L} (h : S.Lawful) : Lawful (LawBody.codec S) :=
  .struct (.field (Lawful.option (LawTitle.lawful h) rfl) (by names_differ) <| .field (Lawful.list
    (Text.lawful h)) (by names_differ) <| .field (Lawful.option Lawful.str rfl) (by names_differ)
    <| .field (Lawful.option (TOC.lawful h) rfl) (by names_differ) <| .field (Lawful.option
    (Preamble.lawful h) rfl) (by names_differ) <| .field (MainProvision.lawful h) (by names_differ)
    <| .field (Lawful.list (SupplProvision.lawful h)) (by names_differ) <| .field (Lawful.list
    (AppdxTable.lawful h)) (by names_differ) <|
      .field (Lawful.list (AppdxNote.lawful h)) (by names_differ) <|
      .field (Lawful.list (AppdxStyle.lawful h)) (by names_differ) <| .field
    (Lawful.list (Appdx.lawful h)) (by names_differ) <| .field (Lawful.list (AppdxFig.lawful h))
    (by names_differ) <| .field (Lawful.list (AppdxFormat.lawful h)) (by names_differ) <| .done)
    (fun _ => rfl) (fun _ => rfl)

theorem Law.lawful {S : LvlCodec L} (h : S.Lawful) : Lawful (Law.codec S) :=
  .struct (.field Era.lawful (by names_differ) <| .field Lawful.usize (by names_differ) <| .field
    (Lawful.option ArticleNumber.lawful rfl) (by names_differ) <| .field (Lawful.option
    Lawful.usize rfl) (by names_differ) <|
      .field (Lawful.option Lawful.usize rfl) (by names_differ) <|
      .field LawType.lawful (by names_differ) <| .field Lang.lawful (by names_differ) <|
      .field Lawful.str (by names_differ) <| .field (LawBody.lawful h) (by names_differ) <| .done)
    (fun _ => rfl) (fun _ => rfl)

theorem TableColumnContents.lawful {S : LvlCodec L} (h : S.Lawful) : Lawful
    (TableColumnContents.codec S) :=
  .enum (.newtype (Part.lawful h) (by names_differ) <|
      .newtype (Chapter.lawful h) (by names_differ) <|
      .newtype (Section.lawful h) (by names_differ) <| .newtype (Subsection.lawful
    h) (by names_differ) <| .newtype (Division.lawful h) (by names_differ) <| .newtype
    (Article.lawful h) (by names_differ) <| .newtype (Paragraph.lawful h) (by names_differ) <|
    .newtype (Item.lawful h) (by names_differ) <| .newtype (Subitem1.lawful h) (by names_differ) <|
    .newtype (Subitem2.lawful h) (by names_differ) <|
      .newtype (Subitem3.lawful h) (by names_differ) <|
      .newtype (Subitem4.lawful h) (by names_differ) <| .newtype (Subitem5.lawful h)
    (by names_differ) <| .newtype (Subitem6.lawful h) (by names_differ) <| .newtype
    (Subitem7.lawful h) (by names_differ) <| .newtype (Subitem8.lawful h) (by names_differ) <|
    .newtype (Subitem9.lawful h) (by names_differ) <|
      .newtype (Subitem10.lawful h) (by names_differ) <|
      .newtype (FigStruct.lawful h) (by names_differ) <| .newtype (Sentence.lawful
    h) (by names_differ) <| .newtype (Remarks.lawful h) (by names_differ) <| .newtype
    (Column.lawful h) (by names_differ) <| .newtype Lawful.str (by names_differ) <| .done)
    (fun x => by cases x <;> rfl) (by
      intro x
      rcases x with _ | _ | _ | _ | _ | _ | _ | _ | _ | _ | _ | _ | _ | _ | _ | _ | _ | _ | _ | _ |
        _ | _ | _ | x
      all_goals first | rfl | exact x.elim)

theorem Position.lawful : Lawful Position.codec :=
  .enum (.unit (by names_differ) <| .unit (by names_differ) <| .unit (by names_differ) <| .done)
    (fun x => by cases x <;> rfl) (by
      intro x
      rcases x with _ | _ | _ | x
      all_goals first | rfl | exact x.elim)

theorem TableColumn.lawful {S : LvlCodec L} (h : S.Lawful) : Lawful (TableColumn.codec S) :=
  .struct (.field (Lawful.list (TableColumnContents.lawful h)) (by names_differ) <| .field
    LineStyle.lawful (by names_differ) <| .field LineStyle.lawful (by names_differ) <| .field
    LineStyle.lawful (by names_differ) <| .field LineStyle.lawful (by names_differ) <| .field
    (Lawful.option Lawful.str rfl) (by names_differ) <|
      .field (Lawful.option Lawful.str rfl) (by names_differ) <|
      .field (Lawful.option Align.lawful rfl) (by names_differ) <| .field
    (Lawful.option Position.lawful rfl) (by names_differ) <| .done)
    (fun _ => rfl) (fun _ => rfl)

theorem NewProvision.lawful {S : LvlCodec L} (h : S.Lawful) : Lawful (NewProvision.codec S) :=
  .enum (.newtype (LawTitle.lawful h) (by names_differ) <|
      .newtype (Preamble.lawful h) (by names_differ) <|
      .newtype (TOC.lawful h) (by names_differ) <| .newtype (Part.lawful h) (by names_differ) <|
      .newtype (Text.lawful h) (by names_differ) <|
      .newtype (Chapter.lawful h) (by names_differ) <|
      .newtype (Text.lawful h) (by names_differ) <|
      .newtype (Section.lawful h) (by names_differ) <|
      .newtype (Text.lawful h) (by names_differ) <| .newtype (Subsection.lawful h)
    (by names_differ) <| .newtype (Text.lawful h) (by names_differ) <| .newtype (Division.lawful h)
    (by names_differ) <| .newtype (Text.lawful h) (by names_differ) <| .newtype (Article.lawful h)
    (by names_differ) <| .newtype (Text.lawful h) (by names_differ) <| .newtype (Paragraph.lawful
    h) (by names_differ) <| .newtype (Item.lawful h) (by names_differ) <| .newtype (Subitem1.lawful
    h) (by names_differ) <| .newtype (Subitem2.lawful h) (by names_differ) <| .newtype
    (Subitem3.lawful h) (by names_differ) <| .newtype (Subitem4.lawful h) (by names_differ) <|
    .newtype (Subitem5.lawful h) (by names_differ) <|
      .newtype (Subitem6.lawful h) (by names_differ) <|
      .newtype (Subitem7.lawful h) (by names_differ) <| .newtype (Subitem8.lawful h)
    (by names_differ) <| .newtype (Subitem9.lawful h) (by names_differ) <| .newtype
    (Subitem10.lawful h) (by names_differ) <| .newtype (LawList.lawful h) (by names_differ) <|
    .newtype (Sentence.lawful h) (by names_differ) <| .newtype h.amendProvision (by names_differ)
    <| .newtype (AppdxTable.lawful h) (by names_differ) <|
      .newtype (AppdxNote.lawful h) (by names_differ) <|
      .newtype (AppdxStyle.lawful h) (by names_differ) <| .newtype (Appdx.lawful h)
    (by names_differ) <| .newtype (AppdxFig.lawful h) (by names_differ) <| .newtype
    (AppdxFormat.lawful h) (by names_differ) <|
      .newtype (SupplProvisionAppdxStyle.lawful h) (by names_differ) <|
      .newtype (SupplProvisionAppdxTable.lawful h) (by names_differ) <| .newtype
    (SupplProvisionAppdx.lawful h) (by names_differ) <|
      .newtype (TableStruct.lawful h) (by names_differ) <|
      .newtype (TableRow.lawful h) (by names_differ) <| .newtype (TableColumn.lawful
    h) (by names_differ) <| .newtype (FigStruct.lawful h) (by names_differ) <| .newtype
    (NoteStruct.lawful h) (by names_differ) <| .newtype (StyleStruct.lawful h) (by names_differ) <|
    .newtype (FormatStruct.lawful h) (by names_differ) <|
      .newtype (Remarks.lawful h) (by names_differ) <|
      .newtype (LawBody.lawful h) (by names_differ) <| .done)
    (fun x => by cases x <;> rfl) (by
      intro x
      rcases x with _ | _ | _ | _ | _ | _ | _ | _ | _ | _ | _ | _ | _ | _ | _ | _ | _ | _ | _ | _ |
        _ | _ | _ | _ | _ | _ | _ | _ | _ | _ | _ | _ | _ | _ | _ | _ | _ | _ | _ | _ | _ | _ | _ |
        _ | _ | _ | _ | _ | x
      all_goals first | rfl | exact x.elim)

theorem AmendProvision.lawful {S : LvlCodec L} (h : S.Lawful) : Lawful (AmendProvision.codec S) :=
  .struct (.field (Lawful.option (Sentence.lawful h) rfl) (by names_differ) <| .field (Lawful.list
    (NewProvision.lawful h)) (by names_differ) <| .done)
    (fun _ => rfl) (fun _ => rfl)

theorem TextIndex.lawful : Lawful TextIndex.codec :=
  .struct (.field ArticleNumber.lawful (by names_differ) <| .field (Lawful.list (Lawful.option
    ArticleNumber.lawful rfl)) (by names_differ) <| .done)
    (fun _ => rfl) (fun _ => rfl)

theorem codecs_lawful (n : Nat) : (codecs n).Lawful := by
  induction n with
  | zero => exact ⟨.empty, .empty, .empty, .empty, .empty⟩
  | succ n ih =>
    exact ⟨Text.lawful ih, Contents.lawful ih, Item.lawful ih, TableColumn.lawful ih,
      AmendProvision.lawful ih⟩

end JLaw
