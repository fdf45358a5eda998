import Verif.Model.NumText
import Verif.Lemmas.Branches

/-!
# How the two patterns for article numbers match
-/

namespace JLaw

variable {β : Type}

/-! ## The classes -/

theorem isKansuji_mem {c : Char} : isKansuji c = true ↔ c ∈ "一二三四五六七八九十百千".toList := by
  simp [isKansuji]

theorem isUnit_mem {c : Char} : isUnit c = true ↔ c ∈ "編章節款目条項号".toList := by
  simp [isUnit]

theorem isSep_mem {c : Char} : isSep c = true ↔ c ∈ ['の', 'ノ'] := by
  simp [isSep]

/-- The scripts of a number with a unit. -/
def kinds : List (Char → Bool) := [isDigit, isZenkaku, isKansuji]

/-- The scripts of a number without a unit. -/
def kindsP : List (Char → Bool) := [isZenkaku, isDigit]

theorem digit_zenkaku {c : Char} (h : isDigit c = true) : isZenkaku c = false := by
  simp only [isDigit, Bool.and_eq_true, decide_eq_true_eq] at h
  have : ¬ (65296 ≤ c.toNat) := by omega
  simp only [isZenkaku, between, Bool.and_eq_false_iff, decide_eq_false_iff_not]
  exact Or.inl this

theorem kansuji_digit {c : Char} (h : isKansuji c = true) : isDigit c = false :=
  (by decide : ∀ c ∈ "一二三四五六七八九十百千".toList, isDigit c = false) c (isKansuji_mem.mp h)

theorem kansuji_zenkaku {c : Char} (h : isKansuji c = true) : isZenkaku c = false :=
  (by decide : ∀ c ∈ "一二三四五六七八九十百千".toList, isZenkaku c = false) c (isKansuji_mem.mp h)

theorem kinds_disjoint : Disjoint kinds := by
  intro p hp q hq c hpc hqc
  simp only [kinds, List.mem_cons, List.not_mem_nil, or_false] at hp hq
  rcases hp with rfl | rfl | rfl <;> rcases hq with rfl | rfl | rfl <;> first
    | rfl
    | (rw [digit_zenkaku hpc] at hqc; cases hqc)
    | (rw [digit_zenkaku hqc] at hpc; cases hpc)
    | (rw [kansuji_digit hqc] at hpc; cases hpc)
    | (rw [kansuji_digit hpc] at hqc; cases hqc)
    | (rw [kansuji_zenkaku hqc] at hpc; cases hpc)
    | (rw [kansuji_zenkaku hpc] at hqc; cases hqc)

theorem kindsP_sub {p : Char → Bool} (h : p ∈ kindsP) : p ∈ kinds := by
  simp only [kindsP, kinds, List.mem_cons, List.not_mem_nil, or_false] at h ⊢
  rcases h with rfl | rfl <;> simp

theorem kindsP_disjoint : Disjoint kindsP := fun p hp q hq =>
  kinds_disjoint p (kindsP_sub hp) q (kindsP_sub hq)

theorem kinds_of_mem {l : List Char} (h : ∀ c ∈ l, isDigit c = false ∧ isZenkaku c = false ∧
    isKansuji c = false) {c : Char} (hc : c ∈ l) : ∀ p ∈ kinds, p c = false := by
  intro p hp
  simp only [kinds, List.mem_cons, List.not_mem_nil, or_false] at hp
  obtain ⟨h1, h2, h3⟩ := h c hc
  rcases hp with rfl | rfl | rfl <;> assumption

theorem sep_kinds (c : Char) (h : isSep c = true) : ∀ p ∈ kinds, p c = false :=
  kinds_of_mem (by decide) (isSep_mem.mp h)

theorem sep_kindsP (c : Char) (h : isSep c = true) : ∀ p ∈ kindsP, p c = false := fun p hp =>
  sep_kinds c h p (kindsP_sub hp)

theorem unit_kinds (c : Char) (h : isUnit c = true) : ∀ p ∈ kinds, p c = false :=
  kinds_of_mem (by decide) (isUnit_mem.mp h)

theorem kinds_unit {c : Char} {p : Char → Bool} (hp : p ∈ kinds) (h : p c = true) :
    isUnit c = false := by
  cases hu : isUnit c with
  | false => rfl
  | true => rw [unit_kinds c hu p hp] at h; cases h

theorem marks_kinds {c : Char} (h : c ∈ ['第', 'か', 'ら', 'ま', 'で']) : ∀ p ∈ kinds, p c = false :=
  kinds_of_mem (by decide) h

theorem marks_sep {c : Char} (h : c ∈ ['第', 'か', 'ら', 'ま', 'で']) : isSep c = false :=
  (by decide : ∀ c ∈ ['第', 'か', 'ら', 'ま', 'で'], isSep c = false) c h

theorem kinds_nodup : kinds.Nodup := by
  simp only [kinds, List.nodup_cons, List.mem_cons, List.not_mem_nil, or_false, not_or,
    not_false_eq_true, List.nodup_nil, and_true]
  refine ⟨⟨?_, ?_⟩, ?_⟩ <;> intro h
  · have := congrFun h '1'; revert this; decide
  · have := congrFun h '1'; revert this; decide
  · have := congrFun h '１'; revert this; decide

/-- A number in one of the scripts. -/
def NumIn (ps : List (Char → Bool)) (ds : List Char) : Prop := ds ≠ [] ∧ ∃ p ∈ ps, ds.all p = true

/-! ## What a match looks like -/

theorem mem_cls {p : Char → Bool} {s : List Char} {x : Caps × List Char} :
    x ∈ (Re.cls p).run s ↔ ∃ c, s = c :: x.2 ∧ p c = true ∧ x.1 = [] := by
  cases s with
  | nil => simp [Re.run]
  | cons c t =>
    by_cases h : p c = true
    · obtain ⟨x1, x2⟩ := x
      simp only [Re.run, h, if_true, List.mem_singleton, Prod.mk.injEq, List.cons.injEq]
      constructor
      · rintro ⟨rfl, rfl⟩; exact ⟨c, ⟨rfl, rfl⟩, h, rfl⟩
      · rintro ⟨d, ⟨-, rfl⟩, -, rfl⟩; exact ⟨rfl, rfl⟩
    · simp only [Re.run, h]
      constructor
      · intro h'; simp at h'
      · rintro ⟨d, h1, h2, -⟩
        cases h1
        exact absurd h2 h

theorem mem_seq {a b : Re} {s : List Char} {x : Caps × List Char} :
    x ∈ (Re.seq a b).run s ↔ ∃ y ∈ a.run s, ∃ z ∈ b.run y.2, x = (y.1 ++ z.1, z.2) := by
  simp only [Re.run, List.mem_flatMap, List.mem_map]
  constructor
  · rintro ⟨y, hy, z, hz, rfl⟩; exact ⟨y, hy, z, hz, rfl⟩
  · rintro ⟨y, hy, z, hz, rfl⟩; exact ⟨y, hy, z, hz, rfl⟩

theorem mem_starRun {f : List Char → List (Caps × List Char)} {P : List Char → Prop}
    (hP : ∀ s x, x ∈ f s → ∃ w, P w ∧ s = w ++ x.2) :
    ∀ n s x, x ∈ starRun f n s → ∃ ws : List (List Char), (∀ w ∈ ws, P w) ∧ s = ws.flatten ++ x.2 := by
  intro n
  induction n with
  | zero =>
    intro s x hx
    simp only [starRun, List.mem_singleton] at hx
    subst hx
    exact ⟨[], by simp, rfl⟩
  | succ n ih =>
    intro s x hx
    simp only [starRun, List.mem_append, List.mem_flatMap, List.mem_singleton] at hx
    rcases hx with ⟨y, hy, hx⟩ | rfl
    · split at hx
      · obtain ⟨z, hz, rfl⟩ := List.mem_map.mp hx
        obtain ⟨w, hw, hs⟩ := hP s y hy
        obtain ⟨ws, hws, hy2⟩ := ih y.2 z hz
        refine ⟨w :: ws, ?_, ?_⟩
        · intro v hv
          rcases List.mem_cons.mp hv with rfl | hv
          · exact hw
          · exact hws v hv
        · rw [hs, hy2]; simp
      · simp at hx
    · exact ⟨[], by simp, rfl⟩

theorem mem_star {a : Re} {P : List Char → Prop}
    (hP : ∀ s x, x ∈ a.run s → ∃ w, P w ∧ s = w ++ x.2) (s : List Char) (x : Caps × List Char)
    (hx : x ∈ (Re.star a).run s) :
    ∃ ws : List (List Char), (∀ w ∈ ws, P w) ∧ s = ws.flatten ++ x.2 :=
  mem_starRun hP _ s x hx

theorem mem_plus_cls {p : Char → Bool} {s : List Char} {x : Caps × List Char}
    (hx : x ∈ (Re.plus (.cls p)).run s) : ∃ w, (w ≠ [] ∧ w.all p = true) ∧ s = w ++ x.2 := by
  obtain ⟨y, hy, z, hz, rfl⟩ := mem_seq.mp hx
  obtain ⟨c, hs, hc, -⟩ := mem_cls.mp hy
  obtain ⟨ws, hws, hy2⟩ := mem_star (P := fun w => ∃ c, w = [c] ∧ p c = true)
    (fun s x hx => by
      obtain ⟨c, hs, hc, -⟩ := mem_cls.mp hx
      exact ⟨[c], ⟨c, rfl, hc⟩, hs⟩) _ z hz
  refine ⟨c :: ws.flatten, ⟨by simp, ?_⟩, ?_⟩
  · simp only [List.all_cons, hc, Bool.true_and, List.all_eq_true]
    intro d hd
    obtain ⟨w, hw, hdw⟩ := List.mem_flatten.mp hd
    obtain ⟨e, rfl, he⟩ := hws w hw
    simp only [List.mem_singleton] at hdw
    rw [hdw]; exact he
  · rw [hs, hy2]; rfl

theorem mem_alts {as : List Re} {s : List Char} {x : Caps × List Char}
    (hx : x ∈ (Re.alts as).run s) : ∃ a ∈ as, x ∈ a.run s := by
  induction as with
  | nil =>
    obtain ⟨c, -, h, -⟩ := mem_cls.mp hx
    cases h
  | cons a as ih =>
    cases as with
    | nil => exact ⟨a, by simp, hx⟩
    | cons b bs =>
      simp only [Re.alts, Re.run, List.mem_append] at hx
      rcases hx with hx | hx
      · exact ⟨a, by simp, hx⟩
      · obtain ⟨c, hc, hxc⟩ := ih hx
        exact ⟨c, by simp [hc], hxc⟩

theorem mem_cap {n : String} {a : Re} {s : List Char} {x : Caps × List Char}
    (hx : x ∈ (Re.cap n a).run s) : ∃ y ∈ a.run s, y.2 = x.2 := by
  simp only [Re.run, List.mem_map] at hx
  obtain ⟨y, hy, rfl⟩ := hx
  exact ⟨y, hy, rfl⟩

theorem mem_scripts {ps : List (Char → Bool)} {s : List Char} {x : Caps × List Char}
    (hx : x ∈ (Re.alts (ps.map fun p => Re.plus (.cls p))).run s) :
    ∃ w, NumIn ps w ∧ s = w ++ x.2 := by
  obtain ⟨a, ha, hxa⟩ := mem_alts hx
  obtain ⟨p, hp, rfl⟩ := List.mem_map.mp ha
  obtain ⟨w, ⟨hne, hall⟩, hs⟩ := mem_plus_cls hxa
  exact ⟨w, ⟨hne, p, hp, hall⟩, hs⟩

theorem mem_named {l : List (String × (Char → Bool))} {s : List Char} {x : Caps × List Char}
    (hx : x ∈ (Re.alts (l.map fun x => Re.cap x.1 (Re.plus (.cls x.2)))).run s) :
    ∃ w, NumIn (l.map Prod.snd) w ∧ s = w ++ x.2 := by
  obtain ⟨a, ha, hxa⟩ := mem_alts hx
  obtain ⟨q, hq, rfl⟩ := List.mem_map.mp ha
  obtain ⟨y, hy, hyx⟩ := mem_cap hxa
  obtain ⟨w, ⟨hne, hall⟩, hs⟩ := mem_plus_cls hy
  exact ⟨w, ⟨hne, q.2, List.mem_map_of_mem (f := Prod.snd) hq, hall⟩, by rw [hs, hyx]⟩

theorem mem_branches {sep : Char → Bool} {ps : List (Char → Bool)} {s : List Char}
    {x : Caps × List Char}
    (hx : x ∈ (Re.star (.seq (.cls sep) (.alts (ps.map fun p => Re.plus (.cls p))))).run s) :
    ∃ bs, (∀ b ∈ bs, IsBranch sep ps b) ∧ s = flat bs ++ x.2 := by
  obtain ⟨ws, hws, hs⟩ := mem_star (P := fun w => ∃ b, IsBranch sep ps b ∧ w = b.1 :: b.2)
    (fun s x hx => by
      obtain ⟨y, hy, z, hz, rfl⟩ := mem_seq.mp hx
      obtain ⟨c, hs, hc, -⟩ := mem_cls.mp hy
      obtain ⟨w, hw, hy2⟩ := mem_scripts hz
      exact ⟨c :: w, ⟨(c, w), ⟨hc, hw.1, hw.2⟩, rfl⟩, by rw [hs, hy2]; rfl⟩) s x hx
  have : ∃ bs : List (Char × List Char), (∀ b ∈ bs, IsBranch sep ps b) ∧ ws.flatten = flat bs := by
    clear hs
    induction ws with
    | nil => exact ⟨[], by simp, rfl⟩
    | cons w ws ih =>
      obtain ⟨bs, hbs, he⟩ := ih fun w hw => hws w (by simp [hw])
      obtain ⟨b, hb, hw⟩ := hws w (by simp)
      refine ⟨b :: bs, ?_, by rw [List.flatten_cons, he, hw, flat_cons]⟩
      intro b' hb'
      rcases List.mem_cons.mp hb' with rfl | hb'
      · exact hb
      · exact hbs b' hb'
  obtain ⟨bs, hbs, he⟩ := this
  exact ⟨bs, hbs, by rw [hs, he]⟩

theorem Re.first_eq_none {r : Re} {s : List Char} (h : r.run s = [])
    (k : Caps × List Char → Option β) : r.first s k = none := by
  rw [Re.first, h]; rfl

end JLaw
