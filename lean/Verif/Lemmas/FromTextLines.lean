import Verif.Lemmas.FromTextViews

/-!
# Lines of a text
-/

namespace JLaw

open Spec

variable {L : Lvl}

theorem trimmed_trim (s : List Char) : Trimmed (trim s) := by
  refine ⟨?_, ?_⟩
  · intro c hc
    rw [← isSpace_false]
    obtain ⟨a, ha⟩ : ∃ a, s.dropWhile isSpace = trim s ++ a := by
      refine ⟨((s.dropWhile isSpace).reverse.takeWhile isSpace).reverse, ?_⟩
      rw [trim, ← List.reverse_append, List.takeWhile_append_dropWhile, List.reverse_reverse]
    have h2 : (s.dropWhile isSpace).head? = some c := by
      rw [ha]
      cases ht : trim s with
      | nil => rw [ht] at hc; cases hc
      | cons d t => rw [ht] at hc; simpa using hc
    cases hd : s.dropWhile isSpace with
    | nil => rw [hd] at h2; cases h2
    | cons d t =>
      rw [hd] at h2
      simp only [List.head?_cons, Option.some.injEq] at h2
      subst h2
      have := List.head_dropWhile_not isSpace (l := s) (by rw [hd]; simp)
      simpa [hd] using this
  · intro c hc
    rw [← isSpace_false]
    rw [trim, List.getLast?_reverse] at hc
    cases hd : (s.dropWhile isSpace).reverse.dropWhile isSpace with
    | nil => rw [hd] at hc; cases hc
    | cons d t =>
      rw [hd] at hc
      simp only [List.head?_cons, Option.some.injEq] at hc
      subst hc
      have := List.head_dropWhile_not isSpace (l := (s.dropWhile isSpace).reverse) (by rw [hd]; simp)
      simpa [hd] using this

theorem of_mem_trim {s : List Char} {c : Char} (h : c ∈ trim s) : c ∈ s := by
  obtain ⟨a, b, _, _, he⟩ := trim_split s
  rw [he]
  simp [h]

theorem trim_trim (s : List Char) : trim (trim s) = trim s := by
  have ht := trimmed_trim s
  by_cases h : trim s = []
  · rw [h]; rfl
  · have := trim_strip (a := []) (b := []) (s := trim s) (by simp) (by simp)
      (fun c hc => isSpace_false.mpr (ht.1 c hc)) (fun c hc => isSpace_false.mpr (ht.2 c hc)) h
    simpa using this

theorem mem_linesOf {ps : List (List Char)} {l : List Char} (h : l ∈ linesOf ps) :
    ∃ p ∈ ps, ∀ c ∈ l, c ∈ p := by
  induction ps with
  | nil => simp [linesOf] at h
  | cons p ps ih =>
    cases ps with
    | nil =>
      simp only [linesOf] at h
      split at h
      · cases h
      · rw [List.mem_singleton.mp h]; exact ⟨p, by simp, fun _ h => h⟩
    | cons p' ps =>
      simp only [linesOf, List.mem_cons] at h
      rcases h with h | h
      · refine ⟨p, by simp, ?_⟩
        intro c hc
        rw [h, stripCR] at hc
        split at hc
        · exact List.dropLast_subset _ hc
        · exact hc
      · obtain ⟨x, hx, hx'⟩ := ih h
        exact ⟨x, by simp [hx], hx'⟩

theorem strLines_newline {text l : List Char} (h : l ∈ strLines text) : '\n' ∉ l := by
  obtain ⟨p, hp, hl⟩ := mem_linesOf h
  exact fun hc => splitC_not_mem hp (hl _ hc)

theorem reSuppl_short {l : List Char} (h : l.length < 2) : reSuppl.captures l = none := by
  match l, h with
  | [], _ => rw [Re.captures_eq]; simp [reSuppl, Re.seqs, Re.ch]
  | [c], _ =>
    rw [Re.captures_eq]
    simp only [reSuppl, Re.seqs, Re.first_seq, Re.ch, Re.first_cls_cons]
    split
    · rw [Re.first_star]; simp
    · rfl

/-- A line from a text is never read as the heading of a supplementary provision. -/
theorem parseLineContents_suppl {E : Ext} {line : List Char} (hn : '\n' ∉ line) {x : TextLine}
    (h : parseLineContents E line = .ok x) (n : Option (List Char)) : x ≠ .suppl n := by
  rintro rfl
  have hsup : splitNumber (trim line) = none → reSuppl.captures (trim line) = none := by
    intro hs
    apply reSuppl_short
    by_contra h2
    rcases split_cases (by omega) (trimmed_trim line) (fun hc => hn (of_mem_trim hc)) with
      ⟨h, c, he, h1, h2, h3, h4⟩ | ⟨h, bs, t, he, h1, h2, h3, h4, h5, h6, h7⟩
    · rw [he, splitNumber_joined h1 h2 h3 h4] at hs; cases hs
    · rw [he, splitNumber_blank h1 h2 h3 h4 h5 h6 h7] at hs; cases hs
  rw [parseLineContents] at h
  split at h
  · obtain ⟨s, _, h⟩ := Res.bind_eq_ok.mp h
    cases h
  · split at h
    · obtain ⟨o, _, h⟩ := Res.bind_eq_ok.mp h
      cases o with
      | some m =>
        simp only [lineOfNumber] at h
        repeat' split at h
        all_goals cases h
      | none =>
        obtain ⟨o, _, h⟩ := Res.bind_eq_ok.mp h
        cases o <;> cases h
    · rename_i hs
      rw [hsup hs] at h
      cases h

theorem mem_of_forall₂ {α β : Type} {R : α → β → Prop} {xs : List α} {ys : List β}
    (h : List.Forall₂ R xs ys) {y : β} (hy : y ∈ ys) : ∃ x ∈ xs, R x y := by
  induction h with
  | nil => cases hy
  | cons hr _ ih =>
    rcases List.mem_cons.mp hy with rfl | hy
    · exact ⟨_, by simp, hr⟩
    · obtain ⟨x, hx, h⟩ := ih hy
      exact ⟨x, by simp [hx], h⟩

theorem readLines_suppl {E : Ext} {text : List Char} {ls : List TextLine}
    (h : readLines E text = .ok ls) (n : Option (List Char)) : TextLine.suppl n ∉ ls := by
  intro hm
  obtain ⟨x, hx, he⟩ := mem_of_forall₂ ((mapRes_eq_ok _ _ _).mp h) hm
  exact parseLineContents_suppl (fun hc => strLines_newline hx (of_mem_trim hc)) he n rfl

/-! ## Few patterns -/

theorem nest_two {p q x : ItemPattern} (hx : x = p ∨ x = q) {l : List ItemPattern}
    (hl : l = [] ∨ (∃ a, l = [a] ∧ (a = p ∨ a = q)) ∨
      ∃ a b, l = [a, b] ∧ a ≠ b ∧ (a = p ∨ a = q) ∧ (b = p ∨ b = q)) :
    (∃ a, nest x l = [a] ∧ (a = p ∨ a = q)) ∨
      ∃ a b, nest x l = [a, b] ∧ a ≠ b ∧ (a = p ∨ a = q) ∧ (b = p ∨ b = q) := by
  rcases hl with rfl | ⟨a, rfl, ha⟩ | ⟨a, b, rfl, hab, ha, hb⟩
  · exact Or.inl ⟨x, rfl, hx⟩
  · by_cases h : x = a
    · exact Or.inl ⟨a, by simp [nest, h], ha⟩
    · exact Or.inr ⟨x, a, by simp [nest, h], h, hx, ha⟩
  · by_cases h : x = a
    · exact Or.inr ⟨a, b, by simp [nest, h], hab, ha, hb⟩
    · have hxb : x = b := by
        rcases hx with rfl | rfl <;> rcases ha with rfl | rfl <;> rcases hb with rfl | rfl <;> simp_all
      subst hxb
      exact Or.inl ⟨x, by simp [nest, h], hx⟩

theorem two_patterns {p q : ItemPattern} (ls : List TextLine)
    (h : ∀ n s, .item n s ∈ ls → n.pattern = p ∨ n.pattern = q) (st : State)
    (hst : ∀ items k, st.place = .article items k →
      items = [] ∨ (∃ a, items = [a] ∧ (a = p ∨ a = q)) ∨
      ∃ a b, items = [a, b] ∧ a ≠ b ∧ (a = p ∨ a = q) ∧ (b = p ∨ b = q)) :
    ∀ d n b, Piece.item (L := L) d n b ∈ meaning st ls → d ≤ 2 := by
  induction ls generalizing st with
  | nil => intro d n b hm; cases hm
  | cons l r ih =>
    intro d n b hm
    rw [meaning] at hm
    cases hn : next st l with
    | none => rw [hn] at hm; cases hm
    | some st' =>
      rw [hn] at hm
      have hr : ∀ n s, .item n s ∈ r → n.pattern = p ∨ n.pattern = q :=
        fun n s hm => h n s (List.mem_cons_of_mem _ hm)
      cases l with
      | item m s =>
        cases hq : st.place with
        | article items k =>
          simp only [next, hq, Option.some.injEq] at hn
          subst hn
          have hx := nest_two (h m s (by simp)) (hst items k hq)
          rcases List.mem_append.mp hm with hm | hm
          · simp only [contributes, saying, List.mem_cons, reduceCtorEq, List.not_mem_nil,
              or_false, Piece.item.injEq] at hm
            rcases hx with ⟨a, ha, _⟩ | ⟨a, b, ha, _⟩ <;> rw [ha] at hm <;> simp at hm <;> omega
          · refine ih hr ⟨st.path, .article (nest m.pattern items) 1⟩ ?_ d n b hm
            intro items' k' he
            simp only [Place.article.injEq] at he
            rw [← he.1]
            exact Or.inr hx
        | preamble k => simp [next, hq] at hn
        | heading => simp [next, hq] at hn
      | text s =>
        have hm' : Piece.item (L := L) d n b ∈ meaning st' r := by
          rcases List.mem_append.mp hm with hm | hm
          · simp only [contributes] at hm
            split at hm <;> simp [saying] at hm
          · exact hm
        refine ih hr st' ?_ d n b hm'
        intro items' k' he
        cases hq : st.place with
        | article items k =>
          simp only [next, hq, Option.some.injEq] at hn
          subst hn
          simp only [Place.article.injEq] at he
          rw [← he.1]; exact hst items k hq
        | preamble k =>
          simp only [next, hq, Option.some.injEq] at hn
          subst hn
          cases he
        | heading => simp [next, hq] at hn
      | article m s =>
        cases hn
        have hm' : Piece.item (L := L) d n b ∈ meaning ⟨st.path, .article [] 1⟩ r := by
          rcases List.mem_append.mp hm with hm | hm
          · simp [contributes, saying] at hm
          · exact hm
        refine ih hr _ ?_ d n b hm'
        intro items' k' he
        simp only [Place.article.injEq] at he
        exact Or.inl he.1.symm
      | paragraph m s =>
        cases hq : st.place with
        | article items k =>
          simp only [next, hq, Option.some.injEq] at hn
          subst hn
          have hm' : Piece.item (L := L) d n b ∈ meaning ⟨st.path, .article [] 1⟩ r := by
            rcases List.mem_append.mp hm with hm | hm
            · simp [contributes, saying] at hm
            · exact hm
          refine ih hr _ ?_ d n b hm'
          intro items' k' he
          simp only [Place.article.injEq] at he
          exact Or.inl he.1.symm
        | preamble k => simp [next, hq] at hn
        | heading => simp [next, hq] at hn
      | caption s =>
        cases hn
        have hm' : Piece.item (L := L) d n b ∈ meaning ⟨st.path, .heading⟩ r := by
          rcases List.mem_append.mp hm with hm | hm
          · simp only [contributes] at hm
            split at hm <;> simp at hm
          · exact hm
        exact ih hr _ (by simp) d n b hm'
      | suppl m => cases hn
      | subsection m s =>
        simp only [next] at hn
        split at hn <;> cases hn
        have hm' : Piece.item (L := L) d n b ∈ meaning ⟨place st.path .subsection, .heading⟩ r := by
          rcases List.mem_append.mp hm with hm | hm
          · simp [contributes, headed] at hm
          · exact hm
        exact ih hr _ (by simp) d n b hm'
      | division m s =>
        simp only [next] at hn
        split at hn <;> cases hn
        have hm' : Piece.item (L := L) d n b ∈ meaning ⟨place st.path .division, .heading⟩ r := by
          rcases List.mem_append.mp hm with hm | hm
          · simp [contributes, headed] at hm
          · exact hm
        exact ih hr _ (by simp) d n b hm'
      | _ =>
        cases hn
        rcases List.mem_append.mp hm with hm | hm
        · simp [contributes, headed] at hm
        · exact ih hr _ (by simp) d n b hm

/-! ## The body -/

theorem body_outcome (ls : List TextLine) : Outcome (L := L) {} start ls :=
  bodyLoop_spec _ _ _ ⟨Or.inl rfl, fun _ _ _ => by simp [start], ⟨rfl, rfl, rfl⟩,
    fun _ => ⟨rfl, rfl, rfl, rfl⟩, by simp⟩

theorem document_finish (title : List Char) (s : BodySt L) : document (finishBody title s) = sofar s := by
  simp only [document, finishBody, sofar]
  congr 1
  cases hp : s.preamble with
  | nil => rfl
  | cons a b => simp

theorem not_suppl_leftOver {q : State} {ls : List TextLine} (h : ∀ n, TextLine.suppl n ∉ ls) :
    Stuck (leftOver q ls) ↔ ∃ t r, leftOver q ls = .text t :: r := by
  refine ⟨?_, fun h => Or.inl h⟩
  rintro (h' | ⟨n, r, h'⟩)
  · exact h'
  · exfalso
    apply h n
    rw [used_append q ls, h']
    simp

/-- More fuel does not change a result. -/
theorem bodyLoop_mono {fuel : Nat} {s s' : BodySt L} {ls : List TextLine}
    (h : bodyLoop fuel s ls = .ok (some s')) (k : Nat) : bodyLoop (fuel + k) s ls = .ok (some s') := by
  have step : ∀ (f : Nat) (s : BodySt L) (l : List TextLine),
      bodyLoop f s l = .ok (some s') → bodyLoop (f + 1) s l = .ok (some s') := by
    intro f
    induction f with
    | zero => intro s l h; cases h
    | succ f ih =>
      intro s l h
      rw [bodyLoop] at h ⊢
      obtain ⟨x, hx, h⟩ := Res.bind_eq_ok.mp h
      rw [hx, Res.bind_ok]
      cases x with
      | none => exact h
      | some y => exact ih _ _ h
  induction k with
  | zero => exact h
  | succ k ih => exact step _ _ _ ih

theorem bodyLoop_mono_panic {fuel : Nat} {s : BodySt L} {ls : List TextLine}
    (h : bodyLoop fuel s ls = .panic) (k : Nat) : bodyLoop (fuel + k) s ls = .panic := by
  have step : ∀ (f : Nat) (s : BodySt L) (l : List TextLine),
      bodyLoop f s l = .panic → bodyLoop (f + 1) s l = .panic := by
    intro f
    induction f with
    | zero => intro s l h; cases h
    | succ f ih =>
      intro s l h
      rw [bodyLoop] at h ⊢
      cases hx : bodyStep s l with
      | ok x =>
        rw [hx, Res.bind_ok] at h
        rw [Res.bind_ok]
        cases x with
        | none => cases h
        | some y => exact ih _ _ h
      | err e => rw [hx] at h; cases h
      | panic => rfl
      | deep => rw [hx] at h; cases h
  induction k with
  | zero => exact h
  | succ k ih => exact step _ _ _ ih

/-- What the results of `parse_body` tell about the lines. -/
theorem parseBody_some {E : Ext} {fuel : Nat} {title text : List Char} {b : LawBody L}
    (h : parseBody E fuel title text = .ok (some b)) :
    ∃ ls s, readLines E text = .ok ls ∧ ¬ TooDeep (meaning (L := L) start ls) ∧
      ¬ Stuck (leftOver start ls) ∧ b = finishBody title s ∧ s.suppl_law_num = none ∧
      s.suppl = [] ∧ sofar s = meaning start ls := by
  obtain ⟨ls, hls, h⟩ := Res.bind_eq_ok.mp h
  obtain ⟨o, ho, h⟩ := Res.bind_eq_ok.mp h
  cases o with
  | none => cases h
  | some s =>
    simp only [Option.map_some, Res.ok.injEq, Option.some.injEq] at h
    have out := body_outcome (L := L) ls
    have hmore := bodyLoop_mono ho (ls.length + 1)
    have hd : ¬ TooDeep (meaning (L := L) start ls) := by
      intro hd
      rw [out.deep hd _ (by omega)] at hmore
      cases hmore
    have hs : ¬ Stuck (leftOver start ls) := by
      intro hs
      rw [out.stuck hd hs] at hmore
      cases hmore
    obtain ⟨s', h1, h2, h3, h4⟩ := out.done hd hs
    rw [h1 _ (by omega)] at hmore
    simp only [Res.ok.injEq, Option.some.injEq] at hmore
    subst hmore
    refine ⟨ls, s', hls, hd, hs, h.symm, h2, h3, ?_⟩
    rw [h4, pending_none]
    rfl

theorem parseBody_lines {E : Ext} {text : List Char} {ls : List TextLine}
    (hls : readLines E text = .ok ls) (fuel : Nat) (title : List Char) :
    parseBody (L := L) E fuel title text =
      (bodyLoop fuel {} ls).bind fun o => .ok (o.map (finishBody title)) := by
  rw [parseBody, hls, Res.bind_ok]

end JLaw
