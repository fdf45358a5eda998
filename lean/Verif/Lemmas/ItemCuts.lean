import Verif.Spec.ScanItem
import Verif.Lemmas.Roman

/-!
# The ways to match the number of an item

`Prefers P s o k` says that `o` is what a matcher gives which tries the prefixes of `s` with the property `P`
from the longest one on, and takes the first one whose rest `k` accepts.
-/

namespace JLaw

open Spec.Scan

variable {β : Type}

def Prefers (P : List Char → Prop) (s : List Char) (o : Option β) (k : List Char → Option β) : Prop :=
  match o with
  | none => ∀ w r, P w → s = w ++ r → k r = none
  | some v => ∃ w r, P w ∧ s = w ++ r ∧ k r = some v ∧
      ∀ w' r', P w' → s = w' ++ r' → w.length < w'.length → k r' = none

theorem prefers_star (p : Char → Bool) (k : Caps × List Char → Option β) (s : List Char) :
    Prefers (fun w => w.all p = true) s ((Re.star (.cls p)).first s k) fun r => k ([], r) := by
  induction s with
  | nil =>
    rw [Re.first_star]
    simp only [Re.first_cls_nil, Option.none_or]
    cases h : k ([], []) with
    | none =>
      intro w r hw hs
      obtain ⟨rfl, rfl⟩ := List.append_eq_nil_iff.mp hs.symm
      exact h
    | some v =>
      refine ⟨[], [], rfl, rfl, h, fun w' r' _ hs hl => ?_⟩
      obtain ⟨rfl, rfl⟩ := List.append_eq_nil_iff.mp hs.symm
      cases hl
  | cons c t ih =>
    rw [Re.first_star]
    simp only [Re.first_cls_cons, List.length_cons, Nat.lt_succ_self, if_true, List.nil_append]
    cases hc : p c with
    | false =>
      simp only [Bool.false_eq_true, if_false, Option.none_or]
      have only : ∀ w r : List Char, w.all p = true → c :: t = w ++ r → w = [] := by
        intro w r hw hs
        cases w with
        | nil => rfl
        | cons d w =>
          simp only [List.cons_append, List.cons.injEq] at hs
          simp only [List.all_cons, Bool.and_eq_true] at hw
          rw [← hs.1, hc] at hw
          cases hw.1
      cases h : k ([], c :: t) with
      | none =>
        intro w r hw hs
        have := only w r hw hs
        subst this
        rw [List.nil_append] at hs
        rw [← hs]
        exact h
      | some v =>
        refine ⟨[], c :: t, rfl, rfl, h, fun w' r' hw hs hl => ?_⟩
        rw [only w' r' hw hs] at hl
        cases hl
    | true =>
      simp only [if_true]
      cases ho : (Re.star (.cls p)).first t k with
      | some v =>
        rw [ho] at ih
        obtain ⟨w, r, hw, hs, hk, hm⟩ := ih
        refine ⟨c :: w, r, by simp [hc, hw], by simp [hs], hk, fun w' r' hw' hs' hl => ?_⟩
        cases w' with
        | nil => cases hl
        | cons d w' =>
          simp only [List.cons_append, List.cons.injEq] at hs'
          simp only [List.all_cons, Bool.and_eq_true] at hw'
          exact hm w' r' hw'.2 hs'.2 (by simpa using hl)
      | none =>
        rw [ho] at ih
        simp only [Option.none_or]
        have shorter : ∀ w r : List Char, w.all p = true → c :: t = w ++ r → w ≠ [] → k ([], r) = none := by
          intro w r hw hs hne
          cases w with
          | nil => exact absurd rfl hne
          | cons d w =>
            simp only [List.cons_append, List.cons.injEq] at hs
            simp only [List.all_cons, Bool.and_eq_true] at hw
            exact ih w r hw.2 hs.2
        cases h : k ([], c :: t) with
        | none =>
          intro w r hw hs
          by_cases hne : w = []
          · subst hne
            rw [List.nil_append] at hs
            rw [← hs]
            exact h
          · exact shorter w r hw hs hne
        | some v =>
          exact ⟨[], c :: t, rfl, rfl, h, fun w' r' hw hs hl =>
            shorter w' r' hw hs (by rintro rfl; cases hl)⟩

theorem prefers_plus (p : Char → Bool) (k : Caps × List Char → Option β) (s : List Char) :
    Prefers (fun w => w ≠ [] ∧ w.all p = true) s ((Re.plus (.cls p)).first s k) fun r => k ([], r) := by
  simp only [Re.plus, Re.first_seq]
  cases s with
  | nil =>
    rw [Re.first_cls_nil]
    intro w r hw hs
    exact absurd (List.append_eq_nil_iff.mp hs.symm).1 hw.1
  | cons c t =>
    rw [Re.first_cls_cons]
    cases hc : p c with
    | false =>
      simp only [Bool.false_eq_true, if_false]
      rintro w r ⟨hne, hw⟩ hs
      cases w with
      | nil => exact absurd rfl hne
      | cons d w =>
        simp only [List.cons_append, List.cons.injEq] at hs
        simp only [List.all_cons, Bool.and_eq_true] at hw
        rw [← hs.1, hc] at hw
        cases hw.1
    | true =>
      simp only [if_true, List.nil_append]
      have ih := prefers_star p k t
      have tl : ∀ w r : List Char, w ≠ [] ∧ w.all p = true → c :: t = w ++ r →
          ∃ w', w = c :: w' ∧ w'.all p = true ∧ t = w' ++ r := by
        rintro w r ⟨hne, hw⟩ hs
        cases w with
        | nil => exact absurd rfl hne
        | cons d w =>
          simp only [List.cons_append, List.cons.injEq] at hs
          simp only [List.all_cons, Bool.and_eq_true] at hw
          exact ⟨w, by rw [hs.1], hw.2, hs.2⟩
      cases ho : (Re.star (.cls p)).first t k with
      | none =>
        simp only [ho] at ih
        intro w r hw hs
        obtain ⟨w', rfl, h1, h2⟩ := tl w r hw hs
        exact ih w' r h1 h2
      | some v =>
        simp only [ho] at ih
        obtain ⟨w, r, hw, hs, hk, hm⟩ := ih
        refine ⟨c :: w, r, ⟨by simp, by simp [hc, hw]⟩, by simp [hs], hk, fun w' r' hw' hs' hl => ?_⟩
        obtain ⟨w'', rfl, h1, h2⟩ := tl w' r' hw' hs'
        exact hm w'' r' h1 h2 (by simpa using hl)

/-- A run of characters of one script. -/
def IsRun (w : List Char) : Prop := ∃ p ∈ itemKinds, w ≠ [] ∧ w.all p = true

/-- The script of a run is the one of its first character. -/
theorem isRun_cons {p : Char → Bool} (hp : p ∈ itemKinds) {c : Char} (hc : p c = true) {w : List Char}
    (h : IsRun (c :: w)) : (c :: w).all p = true := by
  obtain ⟨q, hq, -, hw⟩ := h
  have : q c = true := by
    simp only [List.all_cons, Bool.and_eq_true] at hw
    exact hw.1
  rw [itemKinds_disjoint p hp q hq c hc this]
  exact hw

theorem prefers_scripts (k : Caps × List Char → Option β) (s : List Char) :
    Prefers IsRun s ((Re.alts [Re.katakana, .hiragana, .kansuji, .zenkaku, .upper, .lower]).first s k)
      fun r => k ([], r) := by
  rw [scripts_eq]
  have start : ∀ w r : List Char, IsRun w → s = w ++ r → ∃ c t, s = c :: t ∧ ∃ p ∈ itemKinds, p c = true := by
    rintro w r ⟨p, hp, hne, hw⟩ hs
    obtain ⟨c, w, rfl⟩ := List.exists_cons_of_ne_nil hne
    simp only [List.all_cons, Bool.and_eq_true] at hw
    exact ⟨c, w ++ r, hs, p, hp, hw.1⟩
  by_cases h : ∃ c t, s = c :: t ∧ ∃ p ∈ itemKinds, p c = true
  · obtain ⟨c, t, rfl, p, hp, hc⟩ := h
    rw [first_alts_one (a := Re.plus (.cls p))
      (List.mem_map_of_mem (f := fun p : Char → Bool => Re.plus (.cls p)) hp)]
    · have ih := prefers_plus p k (c :: t)
      have conv : ∀ w r : List Char, IsRun w → c :: t = w ++ r → w ≠ [] ∧ w.all p = true := by
        intro w r hw hs
        obtain ⟨-, -, hne, -⟩ := id hw
        obtain ⟨d, w, rfl⟩ := List.exists_cons_of_ne_nil hne
        simp only [List.cons_append, List.cons.injEq] at hs
        rw [← hs.1] at hw ⊢
        exact ⟨by simp, isRun_cons hp hc hw⟩
      cases ho : (Re.plus (.cls p)).first (c :: t) k with
      | none =>
        rw [ho] at ih
        intro w r hw hs
        exact ih w r (conv w r hw hs) hs
      | some v =>
        rw [ho] at ih
        obtain ⟨w, r, hw, hs, hk, hm⟩ := ih
        exact ⟨w, r, ⟨p, hp, hw⟩, hs, hk, fun w' r' hw' hs' hl => hm w' r' (conv w' r' hw' hs') hs' hl⟩
    · intro b hb hbne
      obtain ⟨q, hq, rfl⟩ := List.mem_map.mp hb
      apply first_plus_cls_none
      simp only [Ends]
      cases hqc : q c with
      | false => rfl
      | true => exact absurd (by rw [itemKinds_disjoint q hq p hp c hqc hc]) hbne
  · rw [first_scripts_none]
    · intro w r hw hs
      exact absurd (start w r hw hs) h
    · intro p hp
      cases s with
      | nil => trivial
      | cons c t =>
        simp only [Ends]
        cases hc : p c with
        | false => rfl
        | true => exact absurd ⟨c, t, rfl, p, hp, hc⟩ h

/-! ## Words -/

/-- A word, by the classes of the pattern. -/
def Word (w : List Char) : Prop := IsRun w ∨ ∃ v, IsRun v ∧ w = '（' :: v ++ ['）']

theorem isRun_head {c : Char} {w : List Char} (h : IsRun (c :: w)) : c ≠ '（' ∧ c ≠ '）' := by
  obtain ⟨p, hp, -, hw⟩ := h
  simp only [List.all_cons, Bool.and_eq_true] at hw
  constructor
  · rintro rfl
    rw [(itemKinds_paren hp).1] at hw
    cases hw.1
  · rintro rfl
    rw [(itemKinds_paren hp).2] at hw
    cases hw.1

theorem isRun_close {v : List Char} (h : IsRun v) : '）' ∉ v := by
  obtain ⟨p, hp, -, hw⟩ := h
  intro hm
  have := List.all_eq_true.mp hw _ hm
  rw [(itemKinds_paren hp).2] at this
  cases this

theorem append_close {v w r t : List Char} {c : Char} (hv : c ∉ v) (hw : c ∉ w)
    (h : v ++ c :: r = w ++ c :: t) : v = w ∧ r = t := by
  induction v generalizing w with
  | nil =>
    cases w with
    | nil => simpa using h
    | cons d w =>
      simp only [List.nil_append, List.cons_append, List.cons.injEq] at h
      exact absurd (by simp [h.1]) hw
  | cons d v ih =>
    cases w with
    | nil =>
      simp only [List.nil_append, List.cons_append, List.cons.injEq] at h
      exact absurd (by simp [h.1]) hv
    | cons e w =>
      simp only [List.cons_append, List.cons.injEq] at h
      obtain ⟨h1, h2⟩ := ih (fun h => hv (by simp [h])) (fun h => hw (by simp [h])) h.2
      exact ⟨by rw [h.1, h1], h2⟩

theorem prefers_word (k : Caps × List Char → Option β) (s : List Char) :
    Prefers Word s (Re.itemNumber.first s k) fun r => k ([], r) := by
  rw [Re.itemNumber, Re.first_alt]
  by_cases hs : ∃ t, s = '（' :: t
  · obtain ⟨t, rfl⟩ := hs
    -- the second alternative has no match
    have h2 := prefers_scripts k ('（' :: t)
    have h2n : (Re.alts [Re.katakana, .hiragana, .kansuji, .zenkaku, .upper, .lower]).first ('（' :: t) k = none := by
      cases ho : (Re.alts [Re.katakana, .hiragana, .kansuji, .zenkaku, .upper, .lower]).first ('（' :: t) k with
      | none => rfl
      | some v =>
        rw [ho] at h2
        obtain ⟨w, r, hw, he, -⟩ := h2
        obtain ⟨-, -, hne, -⟩ := id hw
        obtain ⟨c, w, rfl⟩ := List.exists_cons_of_ne_nil hne
        simp only [List.cons_append, List.cons.injEq] at he
        exact absurd he.1.symm (isRun_head hw).1
    rw [h2n, Option.or_none]
    simp only [Re.seqs, Re.first_seq]
    rw [Re.first_ch]
    have ih := prefers_scripts (fun x => (Re.ch '）').first x.2 fun y => k ([] ++ (x.1 ++ y.1), y.2)) t
    have close : ∀ r : List Char, (Re.ch '）').first r (fun y => k ([] ++ (([] : Caps) ++ y.1), y.2)) =
        match r with
        | [] => none
        | c :: r => if c = '）' then k ([], r) else none := by
      intro r
      cases r with
      | nil => simp [Re.ch]
      | cons c r => simp [Re.ch]
    simp only [close] at ih
    have word : ∀ w r : List Char, Word w → '（' :: t = w ++ r → ∃ v, IsRun v ∧ w = '（' :: v ++ ['）'] ∧
        t = v ++ '）' :: r := by
      rintro w r (hw | ⟨v, hv, rfl⟩) he
      · obtain ⟨-, -, hne, -⟩ := id hw
        obtain ⟨c, w, rfl⟩ := List.exists_cons_of_ne_nil hne
        simp only [List.cons_append, List.cons.injEq] at he
        exact absurd he.1.symm (isRun_head hw).1
      · exact ⟨v, hv, rfl, by simpa using he⟩
    cases ho : (Re.alts [Re.katakana, .hiragana, .kansuji, .zenkaku, .upper, .lower]).first t
        (fun x => (Re.ch '）').first x.2 fun y => k ([] ++ (x.1 ++ y.1), y.2)) with
    | none =>
      rw [ho] at ih
      intro w r hw he
      obtain ⟨v, hv, rfl, ht⟩ := word w r hw he
      simpa using ih v _ hv ht
    | some x =>
      rw [ho] at ih
      obtain ⟨v, r, hv, ht, hk, -⟩ := ih
      cases r with
      | nil => cases hk
      | cons c r =>
        by_cases hc : c = '）'
        · subst hc
          simp only [if_true] at hk
          refine ⟨'（' :: v ++ ['）'], r, Or.inr ⟨v, hv, rfl⟩, by simp [ht], hk, fun w' r' hw' he hl => ?_⟩
          obtain ⟨v', hv', rfl, ht'⟩ := word w' r' hw' he
          have := append_close (isRun_close hv) (isRun_close hv') (ht.symm.trans ht')
          rw [this.1] at hl
          exact absurd hl (Nat.lt_irrefl _)
        · simp only [if_neg hc] at hk
          cases hk
  · have h1 : (Re.seqs [.ch '（', .alts [.katakana, .hiragana, .kansuji, .zenkaku, .upper, .lower], .ch '）']).first
        s k = none := by
      simp only [Re.seqs, Re.first_seq]
      cases s with
      | nil => simp [Re.ch]
      | cons c t =>
        rw [Re.first_ch_none]
        rintro rfl
        exact hs ⟨t, rfl⟩
    rw [h1, Option.none_or]
    have ih := prefers_scripts k s
    have word : ∀ w r : List Char, Word w → s = w ++ r → IsRun w := by
      rintro w r (hw | ⟨v, hv, rfl⟩) he
      · exact hw
      · exact absurd ⟨_, he⟩ hs
    cases ho : (Re.alts [Re.katakana, .hiragana, .kansuji, .zenkaku, .upper, .lower]).first s k with
    | none =>
      rw [ho] at ih
      exact fun w r hw he => ih w r (word w r hw he) he
    | some v =>
      rw [ho] at ih
      obtain ⟨w, r, hw, he, hk, hm⟩ := ih
      exact ⟨w, r, Or.inl hw, he, hk, fun w' r' hw' he' hl => hm w' r' (word w' r' hw' he') he' hl⟩

end JLaw
