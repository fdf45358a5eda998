import Verif.Lemmas.FromTextLines
import Verif.Spec.Built

/-!
# Laws that can be built from text: sentences and items
-/

namespace JLaw

open Spec

variable {L : Lvl}

/-! ## Lists -/

theorem closesOne_nil {α : Type} (f : α → Nat) : ClosesOne f [] := by
  intro a x y b h
  simp at h

theorem closesOne_cons {α : Type} (f : α → Nat) (x : α) (l : List α) :
    ClosesOne f (x :: l) ↔ (l ≠ [] → f x ≤ 1) ∧ ClosesOne f l := by
  constructor
  · intro h
    refine ⟨fun hl => ?_, fun a y z b he => h (x :: a) y z b (by rw [he]; rfl)⟩
    cases l with
    | nil => exact absurd rfl hl
    | cons y l => exact h [] x y l rfl
  · rintro ⟨h1, h2⟩ a y z b he
    cases a with
    | nil =>
      simp only [List.nil_append, List.cons.injEq] at he
      obtain ⟨rfl, rfl⟩ := he
      exact h1 (by simp)
    | cons w a =>
      simp only [List.cons_append, List.cons.injEq] at he
      exact h2 a y z b he.2

/-! ## Sentences -/

@[simp] theorem sentenceText_said (n : Usize) (s : List Char) :
    sentenceText (textToSentence (L := L) n s) = s := by
  simp [sentenceText, textToSentence]

theorem sentencesFrom_get (k : Nat) (l : List (List Char)) (i : Nat) (x : Sentence L)
    (h : (sentencesFrom k l)[i]? = some x) :
    ∃ s, l[i]? = some s ∧ x = textToSentence (asUsize (k + i + 1)) s := by
  induction l generalizing k i with
  | nil => simp [sentencesFrom] at h
  | cons s l ih =>
    cases i with
    | zero =>
      simp only [sentencesFrom, List.getElem?_cons_zero, Option.some.injEq] at h
      exact ⟨s, rfl, h.symm⟩
    | succ i =>
      simp only [sentencesFrom, List.getElem?_cons_succ] at h
      obtain ⟨t, h1, h2⟩ := ih (k + 1) i h
      refine ⟨t, h1, ?_⟩
      rw [h2, show k + 1 + i + 1 = k + (i + 1) + 1 by omega]

theorem saidAll_from (s : List Char) (l : List (List Char)) :
    SaidAll (L := L) s (sentencesFrom 0 (s :: l)) := by
  refine ⟨by simp [sentencesFrom], fun i x h => ?_⟩
  obtain ⟨t, -, rfl⟩ := sentencesFrom_get 0 (s :: l) i x h
  rw [sentenceText_said, Said, textToSentence, Nat.zero_add]

theorem sentencesFrom_of (k : Nat) (l : List (Sentence L))
    (h : ∀ i x, l[i]? = some x → Said (k + i + 1) (sentenceText x) x) :
    l = sentencesFrom k (l.map sentenceText) := by
  induction l generalizing k with
  | nil => rfl
  | cons x l ih =>
    have h1 : x = textToSentence (asUsize (k + 1)) (sentenceText x) := h 0 x rfl
    rw [List.map_cons, sentencesFrom, ← h1]
    congr 1
    refine ih (k + 1) fun i y hy => ?_
    have := h (i + 1) y (by simpa using hy)
    rwa [show k + 1 + i + 1 = k + (i + 1) + 1 by omega]

/-- Sentences made from lines are those the reader makes from their texts. -/
theorem Spec.SaidAll.eq {s : List Char} {l : List (Sentence L)} (h : SaidAll s l) :
    ∃ ts, l = sentencesFrom 0 (s :: ts) ∧
      ∀ head : List Char → TextLine, sentenceLines head l = head s :: ts.map .text := by
  obtain ⟨h1, h2⟩ := h
  cases l with
  | nil => cases h1
  | cons x l =>
    have hs : sentenceText x = s := by simpa using h1
    refine ⟨l.map sentenceText, ?_, fun head => ?_⟩
    · have := sentencesFrom_of 0 (x :: l) fun i y hy => by
        have := h2 i y hy
        rwa [Nat.zero_add]
      rwa [List.map_cons, hs] at this
    · rw [sentenceLines, hs, List.map_map]
      rfl

theorem takeTexts_of (ts : List (List Char)) {rest : List TextLine} (h : NoText rest) :
    takeTexts (ts.map .text ++ rest) = (ts, rest) := by
  induction ts with
  | nil =>
    rw [List.map_nil, List.nil_append]
    cases rest with
    | nil => rfl
    | cons l r =>
      cases l with
      | text s => exact absurd rfl (h s r)
      | _ => rfl
  | cons t ts ih => simp [takeTexts, ih]

/-! ## What the readers of items give -/

theorem builtItem_built {γ : Type} {C : γ → Prop} {below : γ → Nat} (n : ItemNumber)
    (s : List Char) (ts : List (List Char)) {cs : List γ} (h : ∀ c ∈ cs, C c)
    (ho : ClosesOne below cs) : ItemBuilt (L := L) C below (builtItem n s ts cs) where
  title := rfl
  struct_list := rfl
  hide := rfl
  num := ⟨_, rfl⟩
  sentence := ⟨_, s, rfl, saidAll_from s ts, isDeleted_iff s⟩
  children := h
  order := ho

/-- Results of a reader of items. -/
def SubBuilt {γ : Type} (C : γ → Prop) (below : γ → Nat) (f : SubReader γ) : Prop :=
  ∀ parent now ls v rest, now ≠ parent → f parent now ls = .ok (v, rest) →
    (∀ c ∈ v, C c) ∧ ClosesOne below v ∧ rest.length ≤ ls.length ∧
    ∀ m t r, v ≠ [] → rest = .item m t :: r →
      m.pattern = parent ∧ ∀ y, v.getLast? = some y → below y = 0

theorem noDeeper_built : SubBuilt (fun _ => True) Empty.elim noDeeper := by
  intro parent now ls v rest _ h
  cases h
  exact ⟨by simp, closesOne_nil _, Nat.le_refl _, fun m t r h => absurd rfl h⟩

theorem goDeeper_built {γ : Type} {C : γ → Prop} {below : γ → Nat} {deeper : SubReader γ}
    (hd : SubBuilt C below deeper) {parent now : ItemPattern} {ls rest : List TextLine} {v : List γ}
    (h : goDeeper deeper parent now ls = .ok (v, rest)) :
    (∀ c ∈ v, C c) ∧ ClosesOne below v ∧ rest.length ≤ ls.length ∧
    ∀ m t r, v ≠ [] → rest = .item m t :: r →
      m.pattern = now ∧ ∀ y, v.getLast? = some y → below y = 0 := by
  unfold goDeeper at h
  have triv : Res.ok (([] : List γ), ls) = .ok (v, rest) → (∀ c ∈ v, C c) ∧ ClosesOne below v ∧
      rest.length ≤ ls.length ∧ ∀ m t r, v ≠ [] → rest = .item m t :: r →
        m.pattern = now ∧ ∀ y, v.getLast? = some y → below y = 0 := by
    intro h
    cases h
    exact ⟨by simp, closesOne_nil _, Nat.le_refl _, fun m t r h => absurd rfl h⟩
  split at h
  · split at h
    · rename_i m _ _ hm
      exact hd now _ _ v rest hm.1 h
    · exact triv h
  · exact triv h

theorem subitemLoop_built {γ : Type} {C : γ → Prop} {below : γ → Nat} {deeper : SubReader γ}
    (hd : SubBuilt C below deeper) {parent now : ItemPattern} (hne : now ≠ parent) (fuel : Nat)
    (ls : List TextLine) (hf : ls.length ≤ fuel) (v : List (ItemOf L γ)) (rest : List TextLine)
    (h : subitemLoop deeper parent now fuel ls = .ok (v, rest)) :
    (∀ c ∈ v, ItemBuilt C below c) ∧ ClosesOne (openBelow below) v ∧ rest.length ≤ ls.length ∧
    (v = [] → rest = ls) ∧ (v ≠ [] → ∃ m t r, ls = .item m t :: r ∧ m.pattern = now) ∧
    ∀ m t r, rest = .item m t :: r →
      m.pattern = parent ∧ ∀ y, v.getLast? = some y → openBelow below y = 0 := by
  induction fuel generalizing ls v rest with
  | zero =>
    have : ls = [] := by cases ls with
      | nil => rfl
      | cons => simp at hf
    subst this
    cases h
    exact ⟨by simp, closesOne_nil _, Nat.le_refl _, fun _ => rfl, fun h => absurd rfl h, by simp⟩
  | succ fuel ih =>
    by_cases hitem : ∃ m t r, ls = .item m t :: r
    · obtain ⟨n, s, r, rfl⟩ := hitem
      rw [subitemLoop] at h
      split at h
      · rename_i hp
        cases h
        refine ⟨by simp, closesOne_nil _, Nat.le_refl _, fun _ => rfl, fun h => absurd rfl h, ?_⟩
        intro m t r' he
        cases he
        exact ⟨hp, by simp⟩
      · split at h
        · rename_i hp hnow
          obtain ⟨⟨cs, rest1⟩, hc, h⟩ := Res.bind_eq_ok.mp h
          obtain ⟨⟨v', rest'⟩, hv, h⟩ := Res.bind_eq_ok.mp h
          simp only [Res.ok.injEq, Prod.mk.injEq] at h
          obtain ⟨rfl, rfl⟩ := h
          obtain ⟨g1, g2, g3, g4⟩ := goDeeper_built hd hc
          have hlen := takeTexts_length r
          simp only [List.length_cons] at hf
          obtain ⟨i1, i2, i3, i4, i5, i6⟩ := ih rest1 (by omega) v' rest' hv
          refine ⟨?_, ?_, ?_, by simp, fun _ => ⟨n, s, r, rfl, hnow⟩, ?_⟩
          · intro c hc
            rcases List.mem_cons.mp hc with rfl | hc
            · exact builtItem_built n s _ g1 g2
            · exact i1 c hc
          · rw [closesOne_cons]
            refine ⟨fun hv' => ?_, i2⟩
            obtain ⟨m, t, r', he, -⟩ := i5 hv'
            simp only [openBelow, builtItem]
            cases hl : cs.getLast? with
            | none => simp
            | some y =>
              have := (g4 m t r' (by rintro rfl; simp at hl) he).2 y hl
              simp [this]
          · simp only [List.length_cons]; omega
          · intro m t r' he
            obtain ⟨j1, j2⟩ := i6 m t r' he
            refine ⟨j1, fun y hy => ?_⟩
            by_cases hv' : v' = []
            · subst hv'
              simp only [List.getLast?_singleton, Option.some.injEq] at hy
              subst hy
              have hr := i4 rfl
              simp only [openBelow, builtItem]
              cases hl : cs.getLast? with
              | none => rfl
              | some y =>
                have := (g4 m t r' (by rintro rfl; simp at hl) (hr ▸ he)).1
                exact absurd (this.symm.trans j1) hne
            · refine j2 y ?_
              rw [← hy]
              cases v' with
              | nil => exact absurd rfl hv'
              | cons a b => simp [List.getLast?_cons_cons]
        · cases h
    · have : subitemLoop (L := L) deeper parent now (fuel + 1) ls = .ok ([], ls) := by
        rw [subitemLoop.eq_def]
        split
        · exact absurd ⟨_, _, _, rfl⟩ hitem
        · rfl
      rw [this] at h
      cases h
      refine ⟨by simp, closesOne_nil _, Nat.le_refl _, fun _ => rfl, fun h => absurd rfl h, ?_⟩
      intro m t r he
      exact absurd ⟨m, t, r, he⟩ hitem

theorem parseSubitem_built {γ : Type} {C : γ → Prop} {below : γ → Nat} {deeper : SubReader γ}
    (hd : SubBuilt C below deeper) :
    SubBuilt (ItemBuilt (L := L) C below) (openBelow below) (parseSubitem deeper) := by
  intro parent now ls v rest hne h
  obtain ⟨h1, h2, h3, -, -, h6⟩ := subitemLoop_built hd hne ls.length ls (Nat.le_refl _) v rest h
  exact ⟨h1, h2, h3, fun m t r _ he => h6 m t r he⟩

theorem parseSubitem1_built : SubBuilt (Subitem1Built (L := L)) subitem1Below parseSubitem1 :=
  parseSubitem_built (parseSubitem_built (parseSubitem_built (parseSubitem_built
    (parseSubitem_built (parseSubitem_built (parseSubitem_built (parseSubitem_built
      (parseSubitem_built (parseSubitem_built noDeeper_built)))))))))

theorem itemLoop_built (fuel : Nat) (ls : List TextLine) (hf : ls.length ≤ fuel)
    (v : List (Item L)) (rest : List TextLine) (h : itemLoop fuel ls = .ok (v, rest)) :
    (∀ c ∈ v, ItemsBuilt c) ∧ ClosesOne itemBelow v ∧ rest.length ≤ ls.length ∧
    (v ≠ [] → ∃ m t r, ls = .item m t :: r) := by
  induction fuel generalizing ls v rest with
  | zero =>
    have : ls = [] := by cases ls with
      | nil => rfl
      | cons => simp at hf
    subst this
    cases h
    exact ⟨by simp, closesOne_nil _, Nat.le_refl _, fun h => absurd rfl h⟩
  | succ fuel ih =>
    by_cases hitem : ∃ m t r, ls = .item m t :: r
    · obtain ⟨n, s, r, rfl⟩ := hitem
      rw [itemLoop] at h
      obtain ⟨⟨cs, rest1⟩, hc, h⟩ := Res.bind_eq_ok.mp h
      obtain ⟨⟨v', rest'⟩, hv, h⟩ := Res.bind_eq_ok.mp h
      simp only [Res.ok.injEq, Prod.mk.injEq] at h
      obtain ⟨rfl, rfl⟩ := h
      have hg : (∀ c ∈ cs, Subitem1Built c) ∧ ClosesOne subitem1Below cs ∧
          rest1.length ≤ (takeTexts r).2.length ∧
          ∀ m t r', cs ≠ [] → rest1 = .item m t :: r' →
            ∀ y, cs.getLast? = some y → subitem1Below y = 0 := by
        have triv : Res.ok (([] : List (Subitem1 L)), (takeTexts r).2) = .ok (cs, rest1) →
            (∀ c ∈ cs, Subitem1Built c) ∧ ClosesOne subitem1Below cs ∧
            rest1.length ≤ (takeTexts r).2.length ∧
            ∀ m t r', cs ≠ [] → rest1 = .item m t :: r' →
              ∀ y, cs.getLast? = some y → subitem1Below y = 0 := by
          intro h
          cases h
          exact ⟨by simp, closesOne_nil _, Nat.le_refl _, fun m t r h => absurd rfl h⟩
        generalize (takeTexts r).2 = ls' at hc triv ⊢
        unfold goSubitem1 at hc
        split at hc
        · split at hc
          · rename_i hm
            obtain ⟨h1, h2, h3, h4⟩ := parseSubitem1_built _ _ _ _ _ hm hc
            exact ⟨h1, h2, h3, fun m t r hne he => (h4 m t r hne he).2⟩
          · exact triv hc
        · exact triv hc
      obtain ⟨g1, g2, g3, g4⟩ := hg
      have hlen := takeTexts_length r
      simp only [List.length_cons] at hf
      obtain ⟨i1, i2, i3, i5⟩ := ih rest1 (by omega) v' rest' hv
      refine ⟨?_, ?_, ?_, fun _ => ⟨n, s, r, rfl⟩⟩
      · intro c hc
        rcases List.mem_cons.mp hc with rfl | hc
        · exact builtItem_built n s _ g1 g2
        · exact i1 c hc
      · rw [closesOne_cons]
        refine ⟨fun hv' => ?_, i2⟩
        obtain ⟨m, t, r', he⟩ := i5 hv'
        simp only [itemBelow, openBelow, builtItem]
        cases hl : cs.getLast? with
        | none => simp
        | some y =>
          have := g4 m t r' (by rintro rfl; simp at hl) he y hl
          simp [this]
      · simp only [List.length_cons]; omega
    · have : itemLoop (L := L) (fuel + 1) ls = .ok ([], ls) := by
        rw [itemLoop.eq_def]
        split
        · exact absurd ⟨_, _, _, rfl⟩ hitem
        · rfl
      rw [this] at h
      cases h
      exact ⟨by simp, closesOne_nil _, Nat.le_refl _, fun h => absurd rfl h⟩

theorem parseParagraph_built {n : ArticleNumber} {s : List Char} {ls rest : List TextLine}
    {x : Paragraph L} (h : parseParagraph n s ls = .ok (x, rest)) :
    ParagraphBuilt s x ∧ x.num = n ∧ rest.length ≤ ls.length := by
  obtain ⟨⟨v, r⟩, hv, h⟩ := Res.bind_eq_ok.mp h
  cases h
  obtain ⟨h1, h2, h3, -⟩ := itemLoop_built _ _ (Nat.le_refl _) v r hv
  have := takeTexts_length ls
  exact ⟨⟨rfl, rfl, rfl, rfl, rfl, rfl, rfl, rfl, saidAll_from s _, h1, h2⟩, rfl, by
    simp only; omega⟩

theorem paragraphLoop_built (fuel : Nat) (ls : List TextLine) (v : List (Paragraph L))
    (rest : List TextLine) (h : paragraphLoop fuel ls = .ok (v, rest)) :
    (∀ q ∈ v, ∃ s, ParagraphBuilt s q) ∧ rest.length ≤ ls.length := by
  induction fuel generalizing ls v rest with
  | zero => cases h; exact ⟨by simp, Nat.le_refl _⟩
  | succ fuel ih =>
    by_cases hp : ∃ m t r, ls = .paragraph m t :: r
    · obtain ⟨n, s, r, rfl⟩ := hp
      rw [paragraphLoop] at h
      obtain ⟨⟨p, rest1⟩, hp, h⟩ := Res.bind_eq_ok.mp h
      obtain ⟨⟨v', rest'⟩, hv, h⟩ := Res.bind_eq_ok.mp h
      cases h
      obtain ⟨h1, -, h3⟩ := parseParagraph_built hp
      obtain ⟨i1, i2⟩ := ih _ _ _ hv
      refine ⟨?_, by simp only [List.length_cons] at i2 ⊢; omega⟩
      intro q hq
      rcases List.mem_cons.mp hq with rfl | hq
      · exact ⟨s, h1⟩
      · exact i1 q hq
    · have : paragraphLoop (L := L) (fuel + 1) ls = .ok ([], ls) := by
        rw [paragraphLoop.eq_def]
        split
        · exact absurd ⟨_, _, _, rfl⟩ hp
        · rfl
      rw [this] at h
      cases h
      exact ⟨by simp, Nat.le_refl _⟩

theorem parseArticle_built {c : Option (List Char)} {n : ArticleNumber} {s : List Char}
    {ls rest : List TextLine} {x : Article L} (h : parseArticle c n s ls = .ok (x, rest)) :
    ArticleBuilt x ∧ rest.length ≤ ls.length := by
  rw [parseArticle, fromNumStr_one] at h
  simp only [Res.bind_ok] at h
  obtain ⟨⟨p, rest1⟩, hp, h⟩ := Res.bind_eq_ok.mp h
  obtain ⟨⟨v, rest'⟩, hv, h⟩ := Res.bind_eq_ok.mp h
  cases h
  obtain ⟨h1, h2, h3⟩ := parseParagraph_built hp
  obtain ⟨i1, i2⟩ := paragraphLoop_built _ _ _ _ hv
  refine ⟨⟨?_, rfl, rfl, rfl, p, v, s, rfl, h2, h1, isDeleted_iff s, i1⟩, by simp only at i2 ⊢; omega⟩
  cases c with
  | none => exact .inl rfl
  | some s => exact .inr ⟨s, rfl⟩

end JLaw
