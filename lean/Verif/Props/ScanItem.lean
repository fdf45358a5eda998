import Verif.Lemmas.ItemValues
import Verif.Lemmas.LineKinds
import Verif.Lemmas.Kansuji

/-!
# What a text says about the number of an item (C86)
-/

namespace JLaw

open Spec

/-! ## Lemmas -/

theorem piecesAtNo_eq (s : List Char) : Scan.piecesAtNo s = splitC 'の' s := by
  induction s with
  | nil => rfl
  | cons c s ih => simp only [Scan.piecesAtNo, splitC, ih]; rfl

theorem filter_pieces (l : List (List Char)) :
    l.filter (fun w => decide (w ≠ [])) = l.filter fun w => !w.isEmpty := by
  apply List.filter_congr
  intro w _
  cases w <;> rfl

theorem pieceValues_eq (E : Ext) (ws : List (List Char)) :
    collectRes (fun w => (parseItemNumberBase E w).bind fun o => .ok (o.toList.map Prod.snd)) ws =
      match Scan.pieceValues E ws with
      | some ns => .ok ns
      | none => .panic := by
  induction ws with
  | nil => rfl
  | cons w ws ih =>
    rw [collectRes, ih, base_start, Scan.pieceValues]
    rcases Scan.itemStart w with _ | ⟨p, k, v⟩
    · simp only [Res.bind, Option.toList, List.map_nil, List.nil_append]
      cases Scan.pieceValues E ws <;> rfl
    · simp only
      cases Scan.wordValue E p k v with
      | none => rfl
      | some x =>
        cases Scan.pieceValues E ws <;> rfl

theorem isWord_start {b : List Char} (h : Scan.IsWord b) : ∃ p k w, Scan.itemStart b = some (p, k, w) := by
  obtain ⟨k, v, hne, hv, h⟩ := h
  have hall : v.all k.cls = true := List.all_eq_true.mpr fun c hc => (itemScript_iff c k).mp (hv c hc)
  rcases h with rfl | rfl
  · have := itemStart_of (paren := false) (rest := []) hne hall fun _ => trivial
    rw [List.append_nil] at this
    exact ⟨_, _, _, this⟩
  · have := itemStart_of (paren := true) (rest := []) hne hall fun _ => trivial
    rw [List.append_nil] at this
    exact ⟨_, _, _, this⟩

theorem cut_iff (t b e : List Char) :
    Scan.Cut t b e ↔ Word b ∧ Branches e ∧ ∃ r, Range r ∧ t = b ++ (e ++ r) := by
  simp only [Scan.Cut, isWord_iff, isBranches_iff, isRangeEnd_iff, List.append_assoc]

/-- A way to cut a text is determined by the lengths. -/
theorem cut_unique {t b e b' e' : List Char} (h : Scan.Cut t b e) (h' : Scan.Cut t b' e')
    (hb : b'.length = b.length) (he : e'.length = e.length) : b' = b ∧ e' = e := by
  obtain ⟨-, -, r, -, ht⟩ := h
  obtain ⟨-, -, r', -, ht'⟩ := h'
  rw [List.append_assoc] at ht ht'
  have h1 := List.append_inj (ht'.symm.trans ht) hb
  have h2 := List.append_inj h1.2 he
  exact ⟨h1.1, h2.1⟩

theorem bestCut_unique {t b e b' e' : List Char} (h : Scan.BestCut t b e) (h' : Scan.BestCut t b' e') :
    b' = b ∧ e' = e := by
  have h1 := h.2 b' e' h'.1
  have h2 := h'.2 b e h.1
  exact cut_unique h.1 h'.1 (by omega) (by omega)

theorem item_trim {s a t z : List Char} (hs : s = a ++ t ++ z) (ha : Blank a) (hz : Blank z)
    (ht : Trimmed t) : trim s = t := by
  subst hs
  by_cases hne : t = []
  · subst hne
    have hall : ∀ c ∈ a ++ [] ++ z, isSpace c = true := by
      intro c hc
      simp only [List.append_nil, List.mem_append] at hc
      rcases hc with hc | hc
      · exact isSpace_iff.mpr (ha c hc)
      · exact isSpace_iff.mpr (hz c hc)
    have : (a ++ [] ++ z).dropWhile isSpace = [] := by
      generalize a ++ [] ++ z = l at hall
      induction l with
      | nil => rfl
      | cons c l ih =>
        rw [List.dropWhile_cons, if_pos (hall c (by simp)), ih fun d hd => hall d (by simp [hd])]
    rw [trim, this]
    rfl
  · exact trim_around ha hz hne ht

/-- The outcome in terms of what the pattern matched. -/
theorem item_outcome (E : Ext) (s : List Char) :
    match reItem.captures (trim s) with
    | none => parseItemNumber E s = .ok none ∧ ¬ ∃ b e, Scan.Cut (trim s) b e
    | some _ => ∃ b e, Scan.BestCut (trim s) b e ∧ parseItemNumber E s = Scan.itemMeaning E s b e := by
  have hc := captures_cut (trim s)
  cases h : reItem.captures (trim s) with
  | none =>
    rw [h] at hc
    refine ⟨by rw [parseItemNumber, h], ?_⟩
    rintro ⟨b, e, hcut⟩
    obtain ⟨hb, he, r, hr, ht⟩ := (cut_iff _ _ _).mp hcut
    exact hc b e r hb he hr ht
  | some caps =>
    have n1 : caps.name "base_number_2" = none := name_none h (by decide +kernel)
    have n2 : caps.name "eda_number_2" = none := name_none h (by decide +kernel)
    rw [h] at hc
    obtain ⟨b, e, r, hb, he, hr, ht, hnb, hne, hm⟩ := hc
    refine ⟨b, e, ⟨(cut_iff _ _ _).mpr ⟨hb, he, r, hr, ht⟩, ?_⟩, ?_⟩
    · intro b' e' hcut
      obtain ⟨hb', he', r', hr', ht'⟩ := (cut_iff _ _ _).mp hcut
      exact hm b' e' r' hb' he' hr' ht'
    · have heda : (match caps.name "eda_numbers" with
          | some m => itemEda E m
          | none => .ok []) =
          match Scan.pieceValues E ((Scan.piecesAtNo e).filter (· ≠ [])) with
          | some ns => .ok ns
          | none => .panic := by
        rw [hne, filter_pieces, piecesAtNo_eq]
        by_cases h0 : e = []
        · subst h0
          rfl
        · rw [if_neg h0]
          exact pieceValues_eq E _
      obtain ⟨p, k, w, hw⟩ := isWord_start ((isWord_iff b).mpr hb)
      rw [parseItemNumber, h]
      simp only [hnb, n1, n2, Res.unwrap, Res.bind, base_start, hw, Scan.itemMeaning]
      cases Scan.wordValue E p k w with
      | none => cases Scan.pieceValues E ((Scan.piecesAtNo e).filter (· ≠ [])) <;> rfl
      | some x =>
        refine Eq.trans (congrArg (fun r : Res (List Usize) => r.bind fun eda =>
          Res.ok (some (⟨s, x.2, eda, [], x.1⟩ : ItemNumber))) heda) ?_
        cases Scan.pieceValues E ((Scan.piecesAtNo e).filter (· ≠ [])) <;> rfl

/-- Which way to cut a text counts, for the examples. -/
theorem bestCut_of {t b e : List Char} {caps : Caps} (h : reItem.captures t = some caps)
    (hb : caps.name "base_number" = some b)
    (he : caps.name "eda_numbers" = if e = [] then none else some e) : Scan.BestCut t b e := by
  have hc := captures_cut t
  rw [h] at hc
  obtain ⟨b', e', r, hwb, hwe, hr, ht, hnb, hne, hm⟩ := hc
  have e1 : b' = b := by
    rw [hb] at hnb
    exact (Option.some.inj hnb).symm
  have e2 : e' = e := by
    rw [he] at hne
    by_cases h1 : e = [] <;> by_cases h2 : e' = []
    · rw [h1, h2]
    · rw [if_pos h1, if_neg h2] at hne
      cases hne
    · rw [if_neg h1, if_pos h2] at hne
      cases hne
    · rw [if_neg h1, if_neg h2] at hne
      exact (Option.some.inj hne).symm
  subst e1 e2
  refine ⟨(cut_iff _ _ _).mpr ⟨hwb, hwe, r, hr, ht⟩, ?_⟩
  intro b'' e'' hcut
  obtain ⟨hb', he', r', hr', ht'⟩ := (cut_iff _ _ _).mp hcut
  exact hm b'' e'' r' hb' he' hr' ht'

/-! ## C86 -/

/-- C86. If a text can be cut into a word, branch numbers and the end of a range at all, exactly one way to
cut it counts. -/
theorem C86_best_cut (t : List Char) (h : ∃ b e, Scan.Cut t b e) (ht : Trimmed t) :
    ∃ b e, Scan.BestCut t b e ∧ ∀ b' e', Scan.BestCut t b' e' → b' = b ∧ e' = e := by
  have htr : trim t = t := item_trim (a := []) (z := []) (by simp) (by simp [Blank]) (by simp [Blank]) ht
  have ho := item_outcome ⟨fun _ => [], fun _ => none, fun _ => none, fun _ => none⟩ t
  rw [htr] at ho
  cases hc : reItem.captures t with
  | none =>
    rw [hc] at ho
    exact absurd h ho.2
  | some caps =>
    rw [hc] at ho
    obtain ⟨b, e, hb, -⟩ := ho
    exact ⟨b, e, hb, fun b' e' hb' => bestCut_unique hb hb'⟩

/-- C86. On every text, blanks at its ends aside, `parse_item_number` gives the number that the way to cut
the text that counts means. -/
theorem C86_item_number (E : Ext) (s a t z b e : List Char) (hs : s = a ++ t ++ z) (ha : Blank a)
    (hz : Blank z) (ht : Trimmed t) (hb : Scan.BestCut t b e) :
    parseItemNumber E s = Scan.itemMeaning E s b e := by
  have ho := item_outcome E s
  rw [item_trim hs ha hz ht] at ho
  cases hc : reItem.captures t with
  | none =>
    rw [hc] at ho
    exact absurd ⟨b, e, hb.1⟩ ho.2
  | some caps =>
    rw [hc] at ho
    obtain ⟨b', e', hb', h⟩ := ho
    obtain ⟨rfl, rfl⟩ := bestCut_unique hb hb'
    exact h

/-- C86. It gives no number exactly for the texts that cannot be cut. -/
theorem C86_no_number (E : Ext) (s a t z : List Char) (hs : s = a ++ t ++ z) (ha : Blank a)
    (hz : Blank z) (ht : Trimmed t) :
    parseItemNumber E s = .ok none ↔ ¬ ∃ b e, Scan.Cut t b e := by
  have ho := item_outcome E s
  rw [item_trim hs ha hz ht] at ho
  cases hc : reItem.captures t with
  | none =>
    rw [hc] at ho
    exact ⟨fun _ => ho.2, fun _ => ho.1⟩
  | some caps =>
    rw [hc] at ho
    obtain ⟨b, e, hb, h⟩ := ho
    constructor
    · intro h'
      rw [h', Scan.itemMeaning] at h
      obtain ⟨p, k, w, hw⟩ := isWord_start hb.1.1
      rw [hw] at h
      simp only at h
      split at h <;> cases h
    · exact fun hn => absurd ⟨b, e, hb.1⟩ hn

/-- A word, two branch numbers, one of them in parentheses, and the end of a range. -/
example : parseItemNumber kanjiExt "　（イ）の二の（３）からホの三まで ".toList =
    .ok (some ⟨"　（イ）の二の（３）からホの三まで ".toList, 1, [2, 3], [], .parenIrohaKatakana⟩) := by
  rw [C86_item_number kanjiExt _ ['　'] "（イ）の二の（３）からホの三まで".toList [' '] "（イ）".toList
    "の二の（３）".toList (by decide +kernel) (by unfold Blank; decide +kernel) (by unfold Blank; decide +kernel)
    (by
      constructor
      · intro c hc
        obtain rfl : c = '（' := by
          have : "（イ）の二の（３）からホの三まで".toList.head? = some '（' := by decide +kernel
          rw [this] at hc
          exact (Option.some.inj hc).symm
        decide +kernel
      · intro c hc
        obtain rfl : c = 'で' := by
          have : "（イ）の二の（３）からホの三まで".toList.getLast? = some 'で' := by decide +kernel
          rw [this] at hc
          exact (Option.some.inj hc).symm
        decide +kernel)
    (bestCut_of (caps := [("base_number", "（イ）".toList), ("eda_numbers", "の二の（３）".toList),
      ("base_number2", "ホ".toList), ("eda_numbers2", "の三".toList)])
      (by decide +kernel) (by decide +kernel) (by decide +kernel))]
  decide +kernel

/-- The first word of this text cannot be the longest run of hiragana, nor any other than い. -/
example : Scan.BestCut "いからはの一まで".toList "い".toList [] :=
  bestCut_of (caps := [("base_number", "い".toList), ("base_number2", "は".toList),
    ("eda_numbers2", "の一".toList)]) (by decide +kernel) (by decide +kernel) (by decide +kernel)

/-- What a text means may be a panic. -/
example : Scan.itemMeaning kanjiExt "いの".toList "いの".toList [] = .panic := by decide +kernel

/-- A text that cannot be cut. -/
example : parseItemNumber kanjiExt "イ２".toList = .ok none := by decide +kernel

end JLaw
