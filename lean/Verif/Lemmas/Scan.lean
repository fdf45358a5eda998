import Verif.Spec.Scan
import Verif.Lemmas.ParseArticle

/-!
# Reading the number of a heading from left to right
-/

namespace JLaw

open Spec.Scan

/-- The class of characters of a script. -/
def Spec.Scan.Script.cls : Script → Char → Bool
  | .ascii => isDigit
  | .wide => isZenkaku
  | .kanji => isKansuji

theorem scriptOf_iff (c : Char) (k : Script) : scriptOf c = some k ↔ k.cls c = true := by
  have h1 : (isDigit c = true) = ('0'.toNat ≤ c.toNat ∧ c.toNat ≤ '9'.toNat) := by
    simp [isDigit]
  have h2 : (isZenkaku c = true) = ('０'.toNat ≤ c.toNat ∧ c.toNat ≤ '９'.toNat) := by
    simp [isZenkaku, between]
  have h3 : (isKansuji c = true) = (c ∈ Spec.kanji) := by
    simp [isKansuji, Spec.kanji]
  have hd := kinds_disjoint
  have d12 : isDigit c = true → isZenkaku c = true → False := fun a b =>
    isZenkaku_ne (hd isZenkaku (by simp [kinds]) isDigit (by simp [kinds]) c b a)
  have d13 : isDigit c = true → isKansuji c = true → False := fun a b =>
    isKansuji_ne (hd isKansuji (by simp [kinds]) isDigit (by simp [kinds]) c b a)
  have d23 : isZenkaku c = true → isKansuji c = true → False := fun a b =>
    isKansuji_ne' (hd isKansuji (by simp [kinds]) isZenkaku (by simp [kinds]) c b a)
  simp only [scriptOf, ← h1, ← h2, ← h3]
  cases k <;> simp only [Script.cls] <;> split <;> (try split) <;> (try split) <;> simp_all

theorem scriptOf_eq (k : Script) :
    (fun d => decide (scriptOf d = some k)) = k.cls := by
  funext d
  rw [Bool.eq_iff_iff, decide_eq_true_iff, scriptOf_iff]

theorem cls_inj {k l : Script} (h : k.cls = l.cls) : k = l := by
  have h1 := congrFun h '1'
  have h2 := congrFun h '１'
  revert h1 h2
  cases k <;> cases l <;> first | (intros; rfl) | (intro a b; revert a b; decide)

theorem ends_dropWhile (p : Char → Bool) (s : List Char) : Ends p (s.dropWhile p) := by
  induction s with
  | nil => trivial
  | cons c t ih =>
    rw [List.dropWhile_cons]
    split
    · exact ih
    · rename_i h; simpa [Ends] using h

theorem takeWhile_run {p : Char → Bool} {w r : List Char} (hw : w.all p = true) (hr : Ends p r) :
    (w ++ r).takeWhile p = w ∧ (w ++ r).dropWhile p = r := by
  induction w with
  | nil =>
    cases r with
    | nil => exact ⟨rfl, rfl⟩
    | cons c r => simp only [Ends] at hr; simp [hr]
  | cons c w ih =>
    simp only [List.all_cons, Bool.and_eq_true] at hw
    simp [hw.1, ih hw.2]

theorem number_some {ks : List Script} {s w r : List Char} (h : number ks s = some (w, r)) :
    s = w ++ r ∧ w ≠ [] ∧ ∃ k ∈ ks, w.all k.cls = true ∧ Ends k.cls r := by
  cases s with
  | nil => simp [number] at h
  | cons c s =>
    simp only [number] at h
    split at h
    · cases h
    · rename_i k hk
      split at h
      · rename_i hks
        simp only [Option.some.injEq, Prod.mk.injEq] at h
        obtain ⟨rfl, rfl⟩ := h
        rw [scriptOf_eq]
        refine ⟨by simp, by simp, k, hks, ?_, ends_dropWhile _ _⟩
        simp only [List.all_cons, List.all_takeWhile, Bool.and_true]
        exact (scriptOf_iff _ _).mp hk
      · cases h

theorem number_of {ks : List Script} {w r : List Char} {k : Script} (hk : k ∈ ks) (hne : w ≠ [])
    (hw : w.all k.cls = true) (hr : Ends k.cls r) : number ks (w ++ r) = some (w, r) := by
  cases w with
  | nil => exact absurd rfl hne
  | cons c w =>
    simp only [List.all_cons, Bool.and_eq_true] at hw
    have := (scriptOf_iff c k).mpr hw.1
    simp only [List.cons_append, number, this, hk, if_true]
    rw [scriptOf_eq]
    have := takeWhile_run hw.2 hr
    rw [this.1, this.2]

theorem number_none {ks : List Script} {s : List Char} :
    number ks s = none ↔ ∀ k ∈ ks, Ends k.cls s := by
  constructor
  · intro h k hk
    cases s with
    | nil => trivial
    | cons c s =>
      cases hc : k.cls c with
      | false => exact hc
      | true =>
        simp only [number, (scriptOf_iff c k).mpr hc, hk, if_true] at h
        cases h
  · intro h
    cases s with
    | nil => rfl
    | cons c s =>
      simp only [number]
      split
      · rfl
      · rename_i k hk
        split
        · rename_i hks
          have := h k hks
          simp only [Ends] at this
          rw [(scriptOf_iff c k).mp hk] at this
          cases this
        · rfl

/-- The classes of some scripts. -/
abbrev clsOf (ks : List Script) : List (Char → Bool) := ks.map Script.cls

theorem clsOf_disjoint (ks : List Script) : Disjoint (clsOf ks) := by
  intro p hp q hq c hpc hqc
  obtain ⟨k, -, rfl⟩ := List.mem_map.mp hp
  obtain ⟨l, -, rfl⟩ := List.mem_map.mp hq
  have := ((scriptOf_iff c k).mpr hpc).symm.trans ((scriptOf_iff c l).mpr hqc)
  cases this
  rfl

theorem clsOf_kinds (k : Script) : k.cls ∈ kinds := by cases k <;> simp [Script.cls, kinds]

theorem clsOf_sep (ks : List Script) (c : Char) (h : isSep c = true) :
    ∀ p ∈ clsOf ks, p c = false := by
  intro p hp
  obtain ⟨k, -, rfl⟩ := List.mem_map.mp hp
  exact sep_kinds c h _ (clsOf_kinds k)

theorem number_numIn {ks : List Script} {s w r : List Char} (h : number ks s = some (w, r)) :
    NumIn (clsOf ks) w := by
  obtain ⟨-, hne, k, hk, hw, -⟩ := number_some h
  exact ⟨hne, k.cls, List.mem_map_of_mem hk, hw⟩

/-- What the branch numbers at the start of a text are. -/
theorem branchesFrom_spec (ks : List Script) (n : Nat) : ∀ s : List Char, s.length ≤ n →
    s = flat (branchesFrom ks n s).1 ++ (branchesFrom ks n s).2 ∧
    (∀ b ∈ (branchesFrom ks n s).1, IsBranch isSep (clsOf ks) b) ∧
    NoBranch isSep (clsOf ks) (branchesFrom ks n s).2 ∧
    LastEnds (clsOf ks) (branchesFrom ks n s).1 (branchesFrom ks n s).2 := by
  induction n with
  | zero =>
    intro s hs
    have : s = [] := List.length_eq_zero_iff.mp (by omega)
    subst this
    exact ⟨rfl, by simp [branchesFrom], trivial, by simp [LastEnds, branchesFrom]⟩
  | succ n ih =>
    intro s hs
    cases s with
    | nil => exact ⟨rfl, by simp [branchesFrom], trivial, by simp [LastEnds, branchesFrom]⟩
    | cons c s =>
      simp only [branchesFrom]
      split
      · rename_i hc
        have hsep : isSep c = true := isSep_iff.mpr hc
        split
        · rename_i hnum
          refine ⟨rfl, by simp, ?_, by simp [LastEnds]⟩
          cases s with
          | nil => trivial
          | cons d s =>
            intro _ p hp
            obtain ⟨k, hk, rfl⟩ := List.mem_map.mp hp
            exact number_none.mp hnum k hk
        · rename_i x hx
          obtain ⟨w, r⟩ := x
          have hin := number_numIn hx
          obtain ⟨rfl, hne, k, hk, hw, hend⟩ := number_some hx
          have hlen : r.length ≤ n := by simp at hs; omega
          obtain ⟨h1, h2, h3, h4⟩ := ih r hlen
          refine ⟨?_, ?_, h3, ?_⟩
          · simp only [flat_cons, List.cons_append, List.append_assoc, ← h1]
          · intro b hb
            rcases List.mem_cons.mp hb with rfl | hb
            · exact ⟨hsep, hin⟩
            · exact h2 b hb
          · intro b hb q hq hqa
            simp only at hb ⊢
            cases hbs : (branchesFrom ks n r).1 with
            | nil =>
              rw [hbs] at hb h1
              simp only [List.getLast?_singleton, Option.some.injEq] at hb
              subst hb
              simp only [flat, List.flatMap_nil, List.nil_append] at h1
              rw [← h1]
              cases w with
              | nil => exact absurd rfl hne
              | cons d w =>
                simp only [List.all_cons, Bool.and_eq_true] at hw hqa
                have := clsOf_disjoint ks q hq k.cls (List.mem_map_of_mem hk) d hqa.1 hw.1
                subst this
                exact hend
            | cons b' bs' =>
              rw [hbs, List.getLast?_cons_cons, ← hbs] at hb
              exact h4 b hb q hq hqa
      · rename_i hc
        refine ⟨rfl, by simp, ?_, by simp [LastEnds]⟩
        have hsep : isSep c = false := by
          cases h : isSep c with
          | false => rfl
          | true => exact absurd (isSep_iff.mp h) hc
        cases s with
        | nil => trivial
        | cons d s => intro h; rw [hsep] at h; cases h

theorem branches_spec (ks : List Script) (s : List Char) :
    s = flat (branches ks s).1 ++ (branches ks s).2 ∧
    (∀ b ∈ (branches ks s).1, IsBranch isSep (clsOf ks) b) ∧
    NoBranch isSep (clsOf ks) (branches ks s).2 ∧
    LastEnds (clsOf ks) (branches ks s).1 (branches ks s).2 :=
  branchesFrom_spec ks s.length s (Nat.le_refl _)

theorem branchesFrom_of {ks : List Script} {r : List Char} (h2 : NoBranch isSep (clsOf ks) r)
    {bs : List (Char × List Char)} (h1 : ∀ b ∈ bs, IsBranch isSep (clsOf ks) b)
    (h3 : LastEnds (clsOf ks) bs r) (n : Nat) (hn : (flat bs ++ r).length ≤ n) :
    branchesFrom ks n (flat bs ++ r) = (bs, r) := by
  induction bs generalizing n with
  | nil =>
    simp only [flat, List.flatMap_nil, List.nil_append] at hn ⊢
    cases n with
    | zero => rfl
    | succ n =>
      cases r with
      | nil => rfl
      | cons c r =>
        simp only [branchesFrom]
        split
        · rename_i hc
          have : number ks r = none := by
            rw [number_none]
            intro k hk
            cases r with
            | nil => trivial
            | cons d r => exact h2 (isSep_iff.mpr hc) _ (List.mem_map_of_mem hk)
          rw [this]
        · rfl
  | cons b bs ih =>
    obtain ⟨c, w⟩ := b
    obtain ⟨hsep, hne, p, hp, hw⟩ := h1 (c, w) (by simp)
    obtain ⟨k, hk, rfl⟩ := List.mem_map.mp hp
    simp only [flat_cons, List.cons_append, List.append_assoc, List.length_cons] at hn ⊢
    cases n with
    | zero => omega
    | succ n =>
      have hend : Ends k.cls (flat bs ++ r) := by
        cases bs with
        | nil => exact h3 (c, w) rfl _ hp hw
        | cons b' bs' => exact clsOf_sep ks _ (h1 b' (by simp)).1 _ hp
      have hlast : LastEnds (clsOf ks) bs r := by
        intro b hb
        cases bs with
        | nil => cases hb
        | cons b' bs' => exact h3 b (by rw [List.getLast?_cons_cons]; exact hb)
      simp only [branchesFrom]
      rw [if_pos (show c = 'の' ∨ c = 'ノ' from isSep_iff.mp hsep), number_of hk hne hw hend]
      simp only
      rw [ih (fun b hb => h1 b (by simp [hb])) hlast n (by simp at hn ⊢; omega)]

theorem branches_of {ks : List Script} {bs : List (Char × List Char)} {r : List Char}
    (h1 : ∀ b ∈ bs, IsBranch isSep (clsOf ks) b) (h2 : NoBranch isSep (clsOf ks) r)
    (h3 : LastEnds (clsOf ks) bs r) : branches ks (flat bs ++ r) = (bs, r) :=
  branchesFrom_of h2 h1 h3 _ (Nat.le_refl _)

/-! ## Values -/

theorem fit_eq (n : Nat) :
    fit n = if h : n < Spec.limit then some ⟨n, h⟩ else none := rfl

theorem digitValue_eq {w : List Char} (h : NumIn kinds w ∨ 'ノ' ∈ w) :
    digitValue w = (parseUsize w).or (parseZenkakuNum w) := by
  have e1 := scriptOf_eq .ascii
  have e2 := scriptOf_eq .wide
  simp only [Script.cls] at e1 e2
  rw [digitValue, e1, e2]
  rcases h with h | h
  · have hne := h.1
    rw [if_neg hne]
    rcases anyNumber_iff.mpr h with h | h | h
    · have := (asciiNumber_iff.mp h).2
      rw [if_pos this, parseZenkakuNum_ascii this, parseUsize_ascii h, fit_eq]
      split <;> rfl
    · have hall := (wideNumber_iff.mp h).2
      rw [not_all (p := isZenkaku) (q := isDigit) (by simp [kinds]) (by simp [kinds])
        isZenkaku_ne.symm hne hall, if_neg (by simp), if_pos hall, parseUsize_wide h,
        parseZenkakuNum_wide h, fit_eq]
      rfl
    · have hall := (kanjiNumber_iff.mp h).2
      rw [not_all (p := isKansuji) (q := isDigit) (by simp [kinds]) (by simp [kinds])
        isKansuji_ne.symm hne hall, if_neg (by simp),
        not_all (p := isKansuji) (q := isZenkaku) (by simp [kinds]) (by simp [kinds])
        isKansuji_ne'.symm hne hall, if_neg (by simp), (parse_kanji h).1, (parse_kanji h).2]
      rfl
  · rw [parseUsize_none h (by decide) (by decide),
      parseZenkakuNum_none h (by decide) (by decide) (by decide)]
    have n1 : ¬ w.all isDigit = true := fun ha => by
      have := List.all_eq_true.mp ha _ h; revert this; decide
    have n2 : ¬ w.all isZenkaku = true := fun ha => by
      have := List.all_eq_true.mp ha _ h; revert this; decide
    rw [if_neg n1, if_neg n2]
    split <;> rfl

theorem branchValue_eq (E : Ext) {w : List Char} (h : NumIn kinds w ∨ 'ノ' ∈ w) :
    branchValue E w = readPiece E w := by
  rw [branchValue, readPiece, digitValue_eq h]
  cases (parseUsize w).or (parseZenkakuNum w) <;> rfl

theorem allValues_eq {f g : List Char → Option Usize} {ws : List (List Char)}
    (h : ∀ w ∈ ws, f w = g w) : allValues f ws = allPieces g ws := by
  induction ws with
  | nil => rfl
  | cons w ws ih =>
    simp only [allValues, allPieces, h w (by simp), ih fun v hv => h v (by simp [hv])]
    cases g w <;> cases allPieces g ws <;> rfl

/-- The outcome of reading the first number, as the code has it. -/
def Spec.Scan.First.res : First → Res (Option Usize)
  | .number n => .ok (some n)
  | .unreadable => .ok none
  | .overflow => .panic

theorem first_eq (E : Ext) {w : List Char} (h : NumIn kinds w) : (first E w).res = baseRes E w := by
  have hne := h.1
  have hv := digitValue_eq (Or.inl h)
  have head : ∀ k : Script, w.all k.cls = true → w.head?.bind scriptOf = some k := by
    intro k hk
    cases w with
    | nil => exact absurd rfl hne
    | cons c w =>
      simp only [List.all_cons, Bool.and_eq_true] at hk
      exact (scriptOf_iff c k).mpr hk.1
  rcases anyNumber_iff.mpr h with h | h | h
  · have hall := (asciiNumber_iff.mp h).2
    rw [first, head .ascii hall, baseRes, if_pos hall, hv, parseZenkakuNum_ascii hall]
    cases parseUsize w <;> rfl
  · have hall := (wideNumber_iff.mp h).2
    rw [first, head .wide hall, baseRes_zenkaku E hne hall, hv, parseUsize_wide h]
    cases parseZenkakuNum w <;> rfl
  · have hall := (kanjiNumber_iff.mp h).2
    rw [first, head .kanji hall, baseRes_kansuji E hne hall]
    have : kanjiValue E w = E.kansujiUsize w := rfl
    simp only [this]
    cases E.kansujiUsize w <;> rfl

theorem glued_eq {bs : List (Char × List Char)} (h : ∀ b ∈ bs, IsBranch isSep kinds b)
    {cur : List Char} (hc : 'の' ∉ cur) : splitC 'の' (cur ++ flat bs) = glued cur bs := by
  induction bs generalizing cur with
  | nil => simp [flat, glued, splitC_of_not_mem hc]
  | cons b bs ih =>
    obtain ⟨c, w⟩ := b
    have hb := h (c, w) (by simp)
    have hw : 'の' ∉ w := numIn_not_mem (isBranch_num hb) (sep_kinds 'の' (by decide))
    rw [flat_cons, glued]
    split
    · rename_i hcc
      subst hcc
      simp only [List.cons_append]
      rw [splitC_append _ hc, ih (fun b hb => h b (by simp [hb])) hw]
    · rename_i hcc
      rw [← ih (fun b hb => h b (by simp [hb])) (cur := cur ++ c :: w)]
      · simp
      · simp [hc, hw, Ne.symm hcc]

theorem mem_glued {bs : List (Char × List Char)} (h : ∀ b ∈ bs, IsBranch isSep kinds b)
    {cur w : List Char} (hc : cur = [] ∨ NumIn kinds cur ∨ 'ノ' ∈ cur) (hw : w ∈ glued cur bs)
    (hne : w ≠ []) : NumIn kinds w ∨ 'ノ' ∈ w := by
  induction bs generalizing cur with
  | nil =>
    simp only [glued, List.mem_singleton] at hw
    subst hw
    exact hc.resolve_left hne
  | cons b bs ih =>
    obtain ⟨c, v⟩ := b
    have hb := h (c, v) (by simp)
    rw [glued] at hw
    split at hw
    · rcases List.mem_cons.mp hw with rfl | hw
      · exact hc.resolve_left hne
      · exact ih (fun b hb => h b (by simp [hb])) (Or.inr (Or.inl (isBranch_num hb))) hw
    · rename_i hcc
      have : c = 'ノ' := by
        rcases isSep_iff.mp hb.1 with h | h
        · exact absurd h hcc
        · exact h
      subst this
      exact ih (fun b hb => h b (by simp [hb])) (Or.inr (Or.inr (by simp))) hw

theorem glued_pieces {bs : List (Char × List Char)} (h : ∀ b ∈ bs, IsBranch isSep kinds b) :
    noPieces (flat bs) = (glued [] bs).filter (· ≠ []) := by
  rw [noPieces, show flat bs = [] ++ flat bs from rfl, glued_eq h (by simp)]
  congr 1
  funext w
  cases w <;> simp

/-! ## Headings with a unit -/

theorem clsOf_all : clsOf [.ascii, .wide, .kanji] = kinds := rfl
theorem clsOf_digits : clsOf [.wide, .ascii] = kindsP := rfl

theorem unitNumber_some {s r : List Char} {w : List Char} {bs : List (Char × List Char)}
    (h : unitNumber s = some ((w, bs), r)) :
    ∃ u, s = w ++ u :: (flat bs ++ r) ∧ NumIn kinds w ∧ isUnit u = true ∧
      (∀ b ∈ bs, IsBranch isSep kinds b) ∧ NoBranch isSep kinds r ∧ LastEnds kinds bs r := by
  unfold unitNumber at h
  split at h
  · rename_i w' u r' hn
    split at h
    · rename_i hu
      simp only [Option.some.injEq, Prod.mk.injEq] at h
      obtain ⟨⟨rfl, rfl⟩, rfl⟩ := h
      obtain ⟨h1, h2, h3, h4⟩ := branches_spec [.ascii, .wide, .kanji] r'
      obtain ⟨rfl, -⟩ := number_some hn
      exact ⟨u, by rw [← h1], number_numIn hn, isUnit_iff.mpr hu, h2, h3, h4⟩
    · cases h
  · cases h

theorem unitNumber_of {w r : List Char} {u : Char} {bs : List (Char × List Char)}
    (hw : NumIn kinds w) (hu : isUnit u = true) (hbs : ∀ b ∈ bs, IsBranch isSep kinds b)
    (hno : NoBranch isSep kinds r) (hl : LastEnds kinds bs r) :
    unitNumber (w ++ u :: (flat bs ++ r)) = some ((w, bs), r) := by
  obtain ⟨hne, p, hp, hall⟩ := hw
  obtain ⟨k, hk, rfl⟩ := List.mem_map.mp (show p ∈ clsOf [.ascii, .wide, .kanji] from hp)
  rw [unitNumber, number_of hk hne hall (r := u :: (flat bs ++ r)) (unit_kinds u hu _ hp)]
  simp only [isUnit_iff.mp hu, if_true]
  rw [branches_of (ks := [.ascii, .wide, .kanji]) hbs hno hl]

theorem after_some {m s r : List Char} : after m s = some r ↔ s = m ++ r := by
  induction m generalizing s with
  | nil => simp [after]
  | cons c m ih =>
    cases s with
    | nil => simp [after]
    | cons d s =>
      simp only [after, List.cons_append, List.cons.injEq]
      split
      · rename_i h; subst h; simp [ih]
      · rename_i h; simp [Ne.symm h]

/-- A heading that has a range. -/
theorem ranged_unit {s : List Char} {n : Numbered} {m : Option Numbered}
    (h : ranged unitNumber ['か', 'ら', '第'] s = some (n, m)) :
    ∃ u r, s = n.1 ++ u :: (flat n.2 ++ r) ∧ NumIn kinds n.1 ∧ isUnit u = true ∧
      (∀ b ∈ n.2, IsBranch isSep kinds b) ∧ NoBranch isSep kinds r ∧ LastEnds kinds n.2 r ∧
      match m with
      | none => ¬ ∃ ds u bs rest, NumIn kinds ds ∧ IsRange r ds u bs rest
      | some x => ∃ u rest, NumIn kinds x.1 ∧ IsRange r x.1 u x.2 rest := by
  unfold ranged at h
  split at h
  · cases h
  · rename_i n' r hn
    have hno : (∀ m r', (after ['か', 'ら', '第'] r).bind unitNumber = some (m, r') →
        after ['ま', 'で'] r' = none) → ¬ ∃ ds u bs rest, NumIn kinds ds ∧ IsRange r ds u bs rest := by
      rintro hx ⟨ds, u, bs, rest, hds, rfl, hu, hbs⟩
      have := hx (ds, bs) ('ま' :: 'で' :: rest) (by
        show unitNumber _ = _
        exact unitNumber_of hds hu hbs (noBranch_mark _ (by simp)) (lastEnds_mark (by simp)))
      simp [after] at this
    split at h
    · rename_i hx
      simp only [Option.some.injEq, Prod.mk.injEq] at h
      obtain ⟨rfl, rfl⟩ := h
      obtain ⟨u, h1, h2, h3, h4, h5, h6⟩ := unitNumber_some hn
      exact ⟨u, r, h1, h2, h3, h4, h5, h6, hno (fun m r' hm => by rw [hx] at hm; cases hm)⟩
    · rename_i m' r' hx
      split at h
      · rename_i hy
        simp only [Option.some.injEq, Prod.mk.injEq] at h
        obtain ⟨rfl, rfl⟩ := h
        obtain ⟨u, h1, h2, h3, h4, h5, h6⟩ := unitNumber_some hn
        refine ⟨u, r, h1, h2, h3, h4, h5, h6, hno (fun m r' hm => ?_)⟩
        rw [hx] at hm
        cases hm
        exact hy
      · rename_i t hy
        simp only [Option.some.injEq, Prod.mk.injEq] at h
        obtain ⟨rfl, rfl⟩ := h
        obtain ⟨u, h1, h2, h3, h4, h5, h6⟩ := unitNumber_some hn
        refine ⟨u, r, h1, h2, h3, h4, h5, h6, ?_⟩
        obtain ⟨a, ha, hb⟩ := Option.bind_eq_some_iff.mp hx
        obtain ⟨u', g1, g2, g3, g4, -, -⟩ := unitNumber_some hb
        refine ⟨u', t, g2, ?_, g3, g4⟩
        rw [after_some.mp ha, g1, after_some.mp hy]
        simp

theorem withoutDai_lead (s : List Char) :
    ∃ lead, (lead = [] ∨ lead = ['第']) ∧ s = lead ++ withoutDai s := by
  cases s with
  | nil => exact ⟨[], Or.inl rfl, rfl⟩
  | cons c s =>
    by_cases h : c = '第'
    · subst h; exact ⟨['第'], Or.inr rfl, by simp [withoutDai]⟩
    · exact ⟨[], Or.inl rfl, by simp [withoutDai, h]⟩

theorem withoutDai_of {lead s : List Char} (hl : lead = [] ∨ lead = ['第'])
    (hs : ∃ c t, s = c :: t ∧ c ≠ '第') : withoutDai (lead ++ s) = s := by
  obtain ⟨c, t, rfl, hc⟩ := hs
  rcases hl with rfl | rfl
  · simp [withoutDai, hc]
  · simp [withoutDai]

theorem ranged_none {f : List Char → Option (Numbered × List Char)} {mark s : List Char} :
    ranged f mark s = none ↔ f s = none := by
  unfold ranged
  split
  · rename_i h; simp [h]
  · rename_i h
    rw [h]
    split
    · simp
    · split <;> simp

theorem hasUnit_iff (s : List Char) :
    HasUnit s ↔ ranged unitNumber ['か', 'ら', '第'] (withoutDai s) ≠ none := by
  rw [Ne, ranged_none]
  constructor
  · rintro ⟨lead, ds, u, rest, hlead, rfl, hds, hu⟩ h
    rw [List.append_assoc, withoutDai_of hlead (numIn_head hds _)] at h
    obtain ⟨h1, h2, h3, h4⟩ := branches_spec [.ascii, .wide, .kanji] rest
    rw [h1, unitNumber_of hds hu h2 h3 h4] at h
    cases h
  · intro h
    obtain ⟨⟨⟨w, bs⟩, r⟩, hx⟩ := Option.ne_none_iff_exists'.mp h
    obtain ⟨u, h1, h2, h3, -, -, -⟩ := unitNumber_some hx
    obtain ⟨lead, hl, hs⟩ := withoutDai_lead s
    exact ⟨lead, w, u, _, hl, by rw [List.append_assoc, ← h1]; exact hs, h2, h3⟩

theorem unitMeaning_eq (E : Ext) {s : List Char} {n : Numbered} {m : Option Numbered}
    (h : ranged unitNumber ['か', 'ら', '第'] (withoutDai s) = some (n, m)) :
    parseArticleNumber E s = unitMeaning E n m := by
  obtain ⟨u, r, h1, h2, h3, h4, h5, h6, h7⟩ := ranged_unit h
  obtain ⟨lead, hl, hs⟩ := withoutDai_lead s
  obtain ⟨w, bs⟩ := n
  have hb : allValues (branchValue E) (bs.map Prod.snd) =
      allPieces (readPiece E) (bs.map Prod.snd) := by
    apply allValues_eq
    intro v hv
    obtain ⟨b, hb, rfl⟩ := List.mem_map.mp hv
    exact branchValue_eq E (Or.inl (isBranch_num (h4 b hb)))
  rw [hs, h1]
  cases m with
  | none =>
    rw [parse_plain E hl h2 h3 h4 h5 h6 h7, ← first_eq E h2, unitMeaning, hb]
    simp only
    cases first E w with
    | number base =>
      simp only [First.res, Res.bind, orNone]
      cases allPieces (readPiece E) (bs.map Prod.snd) <;> rfl
    | unreadable => rfl
    | overflow => rfl
  | some x =>
    obtain ⟨w2, bs2⟩ := x
    obtain ⟨u2, rest, g1, g2⟩ := h7
    have hb2 : allValues (branchValue E) ((glued [] bs2).filter (· ≠ [])) =
        allPieces (readPiece E) (noPieces (flat bs2)) := by
      rw [glued_pieces g2.2.2]
      apply allValues_eq
      intro v hv
      rw [List.mem_filter] at hv
      exact branchValue_eq E (mem_glued g2.2.2 (Or.inl rfl) hv.1 (by simpa using hv.2))
    rw [parse_range E hl h2 h3 h4 g1 g2, ← first_eq E h2, ← first_eq E g1, unitMeaning, hb]
    simp only [hb2]
    cases first E w with
    | number base =>
      simp only [First.res, Res.bind, orNone]
      cases allPieces (readPiece E) (bs.map Prod.snd) with
      | none => rfl
      | some eda =>
        simp only
        cases first E w2 with
        | number stop =>
          simp only
          cases allPieces (readPiece E) (noPieces (flat bs2)) <;> rfl
        | unreadable => rfl
        | overflow => rfl
    | unreadable => rfl
    | overflow => rfl

/-! ## Numbers of paragraphs -/

theorem digitNumber_some {s r : List Char} {w : List Char} {bs : List (Char × List Char)}
    (h : digitNumber s = some ((w, bs), r)) :
    s = w ++ (flat bs ++ r) ∧ NumIn kindsP w ∧
      (∀ p ∈ kindsP, w.all p = true → Ends p (flat bs ++ r)) ∧
      (∀ b ∈ bs, IsBranch isSep kindsP b) ∧ NoBranch isSep kindsP r ∧ LastEnds kindsP bs r := by
  unfold digitNumber at h
  split at h
  · rename_i w' r' hn
    simp only [Option.some.injEq, Prod.mk.injEq] at h
    obtain ⟨⟨rfl, rfl⟩, rfl⟩ := h
    obtain ⟨h1, h2, h3, h4⟩ := branches_spec [.wide, .ascii] r'
    have hin := number_numIn hn
    obtain ⟨rfl, hne, k, hk, hw, hend⟩ := number_some hn
    refine ⟨by rw [← h1], hin, ?_, h2, h3, h4⟩
    intro p hp hpa
    rw [← h1]
    cases w' with
    | nil => exact absurd rfl hne
    | cons d w' =>
      simp only [List.all_cons, Bool.and_eq_true] at hw hpa
      have := kindsP_disjoint p hp k.cls
        (show k.cls ∈ clsOf [.wide, .ascii] from List.mem_map_of_mem hk) d hpa.1 hw.1
      subst this
      exact hend
  · cases h

theorem digitNumber_of {w r : List Char} {bs : List (Char × List Char)}
    (hw : NumIn kindsP w) (hend : ∀ p ∈ kindsP, w.all p = true → Ends p (flat bs ++ r))
    (hbs : ∀ b ∈ bs, IsBranch isSep kindsP b)
    (hno : NoBranch isSep kindsP r) (hl : LastEnds kindsP bs r) :
    digitNumber (w ++ (flat bs ++ r)) = some ((w, bs), r) := by
  obtain ⟨hne, p, hp, hall⟩ := hw
  obtain ⟨k, hk, rfl⟩ := List.mem_map.mp (show p ∈ clsOf [.wide, .ascii] from hp)
  rw [digitNumber, number_of hk hne hall (hend _ hp hall)]
  simp only
  rw [branches_of (ks := [.wide, .ascii]) hbs hno hl]

theorem ranged_digit {s : List Char} {n : Numbered} {m : Option Numbered}
    (h : ranged digitNumber ['か', 'ら'] s = some (n, m)) :
    ∃ r, s = n.1 ++ (flat n.2 ++ r) ∧ NumIn kindsP n.1 ∧
      (∀ p ∈ kindsP, n.1.all p = true → Ends p (flat n.2 ++ r)) ∧
      (∀ b ∈ n.2, IsBranch isSep kindsP b) ∧ NoBranch isSep kindsP r ∧ LastEnds kindsP n.2 r ∧
      match m with
      | none => ¬ ∃ ds bs rest, NumIn kindsP ds ∧ IsRangeP r ds bs rest
      | some x => ∃ rest, NumIn kindsP x.1 ∧ IsRangeP r x.1 x.2 rest := by
  unfold ranged at h
  split at h
  · cases h
  · rename_i n' r hn
    have hno : (∀ m r', (after ['か', 'ら'] r).bind digitNumber = some (m, r') →
        after ['ま', 'で'] r' = none) → ¬ ∃ ds bs rest, NumIn kindsP ds ∧ IsRangeP r ds bs rest := by
      rintro hx ⟨ds, bs, rest, hds, rfl, hbs⟩
      have := hx (ds, bs) ('ま' :: 'で' :: rest) (by
        show digitNumber _ = _
        exact digitNumber_of hds
          (fun p hp _ => ends_flat hp hbs fun _ => marks_kinds (by simp) p (kindsP_sub hp)) hbs
          (noBranch_mark _ (by simp)) (lastEnds_markP (by simp)))
      simp [after] at this
    split at h
    · rename_i hx
      simp only [Option.some.injEq, Prod.mk.injEq] at h
      obtain ⟨rfl, rfl⟩ := h
      obtain ⟨h1, h2, h3, h4, h5, h6⟩ := digitNumber_some hn
      exact ⟨r, h1, h2, h3, h4, h5, h6, hno (fun m r' hm => by rw [hx] at hm; cases hm)⟩
    · rename_i m' r' hx
      split at h
      · rename_i hy
        simp only [Option.some.injEq, Prod.mk.injEq] at h
        obtain ⟨rfl, rfl⟩ := h
        obtain ⟨h1, h2, h3, h4, h5, h6⟩ := digitNumber_some hn
        refine ⟨r, h1, h2, h3, h4, h5, h6, hno (fun m r' hm => ?_)⟩
        rw [hx] at hm
        cases hm
        exact hy
      · rename_i t hy
        simp only [Option.some.injEq, Prod.mk.injEq] at h
        obtain ⟨rfl, rfl⟩ := h
        obtain ⟨h1, h2, h3, h4, h5, h6⟩ := digitNumber_some hn
        refine ⟨r, h1, h2, h3, h4, h5, h6, ?_⟩
        obtain ⟨a, ha, hb⟩ := Option.bind_eq_some_iff.mp hx
        obtain ⟨g1, g2, -, g4, -, -⟩ := digitNumber_some hb
        refine ⟨t, g2, ?_, g4⟩
        rw [after_some.mp ha, g1, after_some.mp hy]
        simp

theorem piece_eq {w : List Char} (h : NumIn kinds w) :
    readParagraphPiece w = Res.unwrap (digitValue w) := by
  rw [digitValue_eq (Or.inl h), readParagraphPiece]
  cases parseUsize w <;> rfl

/-- The branch numbers of a paragraph. -/
theorem pieces_eq {bs : List (Char × List Char)} (h : ∀ b ∈ bs, IsBranch isSep kindsP b) :
    mapRes readParagraphPiece (noPieces (flat bs)) =
      if ∃ b ∈ bs, b.1 = 'ノ' ∨ digitValue b.2 = none then .panic
      else .ok (bs.filterMap fun b => digitValue b.2) := by
  have hk : ∀ b ∈ bs, NumIn kinds b.2 := fun b hb => numIn_sub (isBranch_num (h b hb))
  split
  · rename_i hx
    rw [pieces_panic h]
    obtain ⟨b, hb, hx⟩ := hx
    refine ⟨b, hb, hx.imp id fun hx => ?_⟩
    rw [← parse_digit_none (digitNumber_iff.mpr (isBranch_num (h b hb))),
      ← digitValue_eq (Or.inl (hk b hb)), hx]
  · rename_i hx
    have hsep : ∀ b ∈ bs, b.1 = 'の' := by
      intro b hb
      rcases isSep_iff.mp (h b hb).1 with h | h
      · exact h
      · exact absurd ⟨b, hb, Or.inl h⟩ hx
    rw [pieces_flat]
    · have hv : ∀ b ∈ bs, digitValue b.2 ≠ none := fun b hb hn => hx ⟨b, hb, Or.inr hn⟩
      clear hx hsep h
      induction bs with
      | nil => rfl
      | cons b bs ih =>
        obtain ⟨n, hn⟩ := Option.ne_none_iff_exists'.mp (hv b (by simp))
        simp only [List.map_cons, mapRes, piece_eq (hk b (by simp)), hn, Res.unwrap, Res.bind_ok,
          List.filterMap_cons]
        rw [ih (fun b hb => hk b (by simp [hb])) fun b hb => hv b (by simp [hb])]
        rfl
    · intro b hb
      exact ⟨hsep b hb, numIn_not_mem (hk b hb) (sep_kinds 'の' (by decide)), (h b hb).2.1⟩

theorem digitMeaning_eq (E : Ext) {s : List Char} (hu : ¬ HasUnit s) {n : Numbered}
    {m : Option Numbered} (h : ranged digitNumber ['か', 'ら'] s = some (n, m)) :
    parseArticleNumber E s = digitMeaning n m := by
  obtain ⟨r, h1, h2, h3, h4, h5, h6, h7⟩ := ranged_digit h
  obtain ⟨w, bs⟩ := n
  rw [parseArticleNumber, article_none hu]
  simp only at h1 h2 h3 h4 h5 h6 h7
  rw [h1]
  have hp := pieces_eq h4
  cases m with
  | none =>
    rw [paragraph_plain h2 h3 h4 h5 h6 h7]
    simp only
    rw [paragraphOfCaps_plain, piece_eq (numIn_sub h2), hp, digitMeaning]
    simp only
    cases digitValue w with
    | none => rfl
    | some base =>
      simp only [Res.unwrap, Res.bind_ok]
      split <;> rfl
  | some x =>
    obtain ⟨w2, bs2⟩ := x
    obtain ⟨rest, g1, g2⟩ := h7
    rw [paragraph_range h2 h4 g1 g2]
    simp only
    rw [paragraphOfCaps_range, piece_eq (numIn_sub h2), hp, digitMeaning,
      ← digitValue_eq (Or.inl (numIn_sub g1))]
    simp only
    cases digitValue w with
    | none => rfl
    | some base =>
      simp only [Res.unwrap, Res.bind_ok]
      split
      · rfl
      · cases digitValue w2 <;> rfl

theorem parseArticleNumber_scan (E : Ext) (s : List Char) :
    parseArticleNumber E s = articleNumber E s := by
  unfold articleNumber
  split
  · rename_i h
    exact unitMeaning_eq E h
  · rename_i h
    have hu : ¬ HasUnit s := fun hu => (hasUnit_iff s).mp hu h
    split
    · rename_i h
      exact digitMeaning_eq E hu h
    · rename_i hd
      rw [ranged_none] at hd
      have : ∀ p ∈ kindsP, Ends p s := by
        unfold digitNumber at hd
        split at hd
        · cases hd
        · rename_i hn
          intro p hp
          obtain ⟨k, hk, rfl⟩ := List.mem_map.mp (show p ∈ clsOf [.wide, .ascii] from hp)
          exact number_none.mp hn k hk
      rw [parseArticleNumber, article_none hu]
      simp only
      rw [paragraph_none this]

end JLaw
