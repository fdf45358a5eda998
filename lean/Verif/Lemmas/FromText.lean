import Verif.Lemmas.Base
import Verif.Lemmas.Split
import Verif.Spec.FromText

/-!
# Lemmas about building a law from text
-/

namespace JLaw

open Spec

variable {L : Lvl}

/-! ## Outcomes -/

/-- The outcome is a value with `P`, or a panic and `Q` holds; there is no error. -/
def Res.Post {α : Type} (r : Res α) (P : α → Prop) (Q : Prop) : Prop :=
  match r with
  | .ok a => P a
  | .panic => Q
  | _ => False

theorem Res.Post.bind {α β : Type} {r : Res α} {f : α → Res β} {P : α → Prop} {P' : β → Prop}
    {Q : Prop} (h : r.Post P Q) (hf : ∀ a, P a → (f a).Post P' Q) : (r.bind f).Post P' Q := by
  cases r with
  | ok a => exact hf a h
  | err e => exact h
  | panic => exact h
  | deep => exact h

theorem Res.Post.mono {α : Type} {r : Res α} {P P' : α → Prop} {Q Q' : Prop} (h : r.Post P Q)
    (hP : ∀ a, P a → P' a) (hQ : Q → Q') : r.Post P' Q' := by
  cases r with
  | ok a => exact hP a h
  | err e => exact h
  | panic => exact hQ h
  | deep => exact h

/-! ## Trimming -/

theorem trim_strip {a s b : List Char} (ha : ∀ c ∈ a, isSpace c = true)
    (hb : ∀ c ∈ b, isSpace c = true) (h1 : ∀ c, s.head? = some c → isSpace c = false)
    (h2 : ∀ c, s.getLast? = some c → isSpace c = false) (hs : s ≠ []) : trim (a ++ s ++ b) = s := by
  obtain ⟨c, s', rfl⟩ := List.exists_cons_of_ne_nil hs
  have h1 := h1 c rfl
  have e1 : (a ++ (c :: s') ++ b).dropWhile isSpace = (c :: s') ++ b := by
    rw [List.append_assoc, List.dropWhile_append_of_pos ha]
    simp [h1]
  rw [trim, e1, List.reverse_append]
  rw [List.dropWhile_append_of_pos (by simpa using hb)]
  obtain ⟨d, hd⟩ : ∃ d, (c :: s').getLast? = some d := ⟨_, List.getLast?_eq_some_getLast (by simp)⟩
  have h2 := h2 d hd
  rw [← List.head?_reverse] at hd
  cases hr : (c :: s').reverse with
  | nil => simp at hr
  | cons e r =>
    rw [hr] at hd
    simp only [List.head?_cons, Option.some.injEq] at hd
    subst hd
    rw [List.dropWhile_cons, h2, if_neg (by simp), ← hr, List.reverse_reverse]

theorem trim_split (s : List Char) : ∃ a b, (∀ c ∈ a, isSpace c = true) ∧
    (∀ c ∈ b, isSpace c = true) ∧ s = a ++ trim s ++ b := by
  refine ⟨s.takeWhile isSpace, ((s.dropWhile isSpace).reverse.takeWhile isSpace).reverse, ?_, ?_, ?_⟩
  · intro c hc; exact List.all_eq_true.mp List.all_takeWhile c hc
  · intro c hc; exact List.all_eq_true.mp List.all_takeWhile c (List.mem_reverse.mp hc)
  · rw [trim, List.append_assoc, ← List.reverse_append, List.takeWhile_append_dropWhile,
      List.reverse_reverse, List.takeWhile_append_dropWhile]

theorem isDeleted_iff (s : List Char) : isDeleted s = true ↔ SaysDeleted s := by
  rw [isDeleted]
  simp only [Bool.or_eq_true, beq_iff_eq]
  constructor
  · intro h
    obtain ⟨a, b, ha, hb, hs⟩ := trim_split s
    refine ⟨a, b, fun c hc => isSpace_iff.mp (ha c hc), fun c hc => isSpace_iff.mp (hb c hc), ?_⟩
    rcases h with h | h
    · exact Or.inl (by rw [h] at hs; exact hs)
    · exact Or.inr (by rw [h] at hs; exact hs)
  · rintro ⟨a, b, ha, hb, hs | hs⟩
    · left
      rw [hs]
      exact trim_strip (fun c hc => isSpace_iff.mpr (ha c hc)) (fun c hc => isSpace_iff.mpr (hb c hc))
        (by decide) (by decide) (by decide)
    · right
      rw [hs]
      exact trim_strip (fun c hc => isSpace_iff.mpr (ha c hc)) (fun c hc => isSpace_iff.mpr (hb c hc))
        (by decide) (by decide) (by decide)

theorem isDeleted_eq (s : List Char) : (isDeleted s = true) = SaysDeleted s :=
  propext (isDeleted_iff s)

/-! ## Steps of the description -/

/-- The description from state `q` with lines `ls` goes on, after the pieces `ps`, from state `q'`
with lines `ls'`. -/
def Leads (q : State) (ls : List TextLine) (ps : List (Piece L)) (q' : State)
    (ls' : List TextLine) : Prop :=
  meaning q ls = ps ++ meaning (L := L) q' ls' ∧ leftOver q ls = leftOver q' ls'

theorem Leads.refl (q : State) (ls : List TextLine) : Leads (L := L) q ls [] q ls := ⟨rfl, rfl⟩

theorem Leads.trans {q q' q'' : State} {ls ls' ls'' : List TextLine} {ps ps' : List (Piece L)}
    (h : Leads q ls ps q' ls') (h' : Leads q' ls' ps' q'' ls'') : Leads q ls (ps ++ ps') q'' ls'' :=
  ⟨by rw [h.1, h'.1, List.append_assoc], by rw [h.2, h'.2]⟩

theorem Leads.step {q q' : State} {l : TextLine} {r : List TextLine} (h : next q l = some q') :
    Leads (L := L) q (l :: r) (contributes q' r l) q' r := by
  refine ⟨?_, ?_⟩ <;> simp only [meaning, leftOver, h]

/-- The line cannot go on with an article. -/
def Outside : List TextLine → Prop
  | .text _ :: _ => False
  | .item _ _ :: _ => False
  | .paragraph _ _ :: _ => False
  | _ => True

theorem tooDeep_append_left {ps ps' : List (Piece L)} (h : TooDeep ps') : TooDeep (ps ++ ps') := by
  obtain ⟨d, n, b, hm, hd⟩ := h
  exact ⟨d, n, b, List.mem_append_right _ hm, hd⟩

theorem Leads.tooDeep {q q' : State} {ls ls' : List TextLine} {ps : List (Piece L)}
    (h : Leads q ls ps q' ls') (hd : TooDeep (meaning (L := L) q' ls')) :
    TooDeep (meaning (L := L) q ls) := by
  rw [h.1]; exact tooDeep_append_left hd

/-! ## Sentences -/

theorem takeTexts_length (ls : List TextLine) : (takeTexts ls).2.length ≤ ls.length := by
  induction ls with
  | nil => simp [takeTexts]
  | cons l r ih => cases l <;> simp [takeTexts]; omega

theorem takeTexts_head (ls : List TextLine) (s : List Char) (r : List TextLine) :
    (takeTexts ls).2 ≠ .text s :: r := by
  induction ls with
  | nil => simp [takeTexts]
  | cons l r ih => cases l <;> simp_all [takeTexts]

/-- Texts in an article are sentences. -/
theorem takeTexts_leads (path : List Kind) (items : List ItemPattern) (ls : List TextLine) (k : Nat) :
    Leads (L := L) ⟨path, .article items k⟩ ls
      ((sentencesFrom k (takeTexts ls).1).map sentencePiece)
      ⟨path, .article items (k + (takeTexts ls).1.length)⟩ (takeTexts ls).2 := by
  induction ls generalizing k with
  | nil => exact Leads.refl _ _
  | cons l r ih =>
    cases l with
    | text s =>
      have h1 := Leads.step (L := L) (q := ⟨path, .article items k⟩) (l := .text s) (r := r) rfl
      have h2 := ih (k + 1)
      have h3 := h1.trans h2
      simp only [takeTexts, sentencesFrom, List.map_cons, List.length_cons]
      rw [show k + ((takeTexts r).1.length + 1) = k + 1 + (takeTexts r).1.length by omega]
      exact h3
    | _ => exact Leads.refl _ _

/-! ## Items -/

/-- The first line is not a text. -/
def NoText (ls : List TextLine) : Prop := ∀ s r, ls ≠ .text s :: r

/-- A reader of items at depth `d`, entered at an item that opens this depth, does what the
description says, up to a line that is no item or has the pattern one level up. -/
def SubSpec {γ : Type} (pieces : γ → List (Piece L)) (d : Nat) (f : SubReader γ) : Prop :=
  ∀ path k tail parent m t r, nest m.pattern (parent :: tail) = m.pattern :: parent :: tail →
    tail.length + 2 = d →
    (f parent m.pattern (.item m t :: r)).Post (fun x => ∃ items' k',
        Leads ⟨path, .article (parent :: tail) k⟩ (.item m t :: r) (x.1.flatMap pieces)
          ⟨path, .article items' k'⟩ x.2 ∧
        x.2.length ≤ (TextLine.item m t :: r).length ∧ NoText x.2 ∧
        ∀ m' t' r', x.2 = .item m' t' :: r' →
          items' = m.pattern :: parent :: tail ∧ m'.pattern = parent)
      (TooDeep (meaning (L := L) ⟨path, .article (parent :: tail) k⟩ (.item m t :: r)))

/-- An item line and the texts after it. -/
theorem item_leads {γ : Type} (pieces : γ → List (Piece L)) (path : List Kind)
    (items : List ItemPattern) (k : Nat) (n : ItemNumber) (t : List Char) (r : List TextLine)
    (children : List γ) {q' : State} {ls' : List TextLine}
    (h : Leads ⟨path, .article (nest n.pattern items) (1 + (takeTexts r).1.length)⟩ (takeTexts r).2
      (children.flatMap pieces) q' ls') :
    Leads ⟨path, .article items k⟩ (.item n t :: r)
      (itemPieces pieces (nest n.pattern items).length (builtItem n t (takeTexts r).1 children))
      q' ls' := by
  have h1 := Leads.step (L := L) (q := ⟨path, .article items k⟩) (l := .item n t) (r := r) rfl
  have h2 := (h1.trans (takeTexts_leads path (nest n.pattern items) r 1)).trans h
  convert h2 using 1
  simp only [itemPieces, builtItem, contributes, sentencesFrom, List.map_cons, saying, sentencePiece,
    textToSentence, isDeleted_eq, ArticleNumber.fromItemNumber]
  rfl

theorem nest_same (p : ItemPattern) (l : List ItemPattern) : nest p (p :: l) = p :: l := by
  cases l <;> simp [nest]

theorem nest_up {p q : ItemPattern} (h : p ≠ q) (l : List ItemPattern) :
    nest p (q :: p :: l) = p :: l := by
  simp [nest, h]

theorem nest_down {p q q' : ItemPattern} (h : p ≠ q) (h' : p ≠ q') (l : List ItemPattern) :
    nest p (q :: q' :: l) = p :: q :: q' :: l := by
  simp [nest, h, h']

theorem subitemLoop_spec {γ : Type} {pieces : γ → List (Piece L)} {deeper : SubReader γ}
    (path : List Kind) (parent now : ItemPattern) (tail : List ItemPattern) (hne : now ≠ parent)
    (hdeep : SubSpec pieces (tail.length + 3) deeper ∨
      (tail.length + 2 = 11 ∧ ∀ a b ls, deeper a b ls = .ok ([], ls)))
    (fuel : Nat) (items : List ItemPattern) (k : Nat) (ls : List TextLine) (hf : ls.length ≤ fuel)
    (ht : NoText ls)
    (hi : ∀ m t r, ls = .item m t :: r →
      (m.pattern = now ∧ nest now items = now :: parent :: tail) ∨
      (items = now :: parent :: tail ∧ (m.pattern = parent ∨ tail.length + 2 = 11))) :
    (subitemLoop deeper parent now fuel ls).Post (fun x => ∃ items' k',
        Leads ⟨path, .article items k⟩ ls (x.1.flatMap (itemPieces pieces (tail.length + 2)))
          ⟨path, .article items' k'⟩ x.2 ∧ x.2.length ≤ ls.length ∧ NoText x.2 ∧
        ∀ m' t' r', x.2 = .item m' t' :: r' →
          items' = now :: parent :: tail ∧ m'.pattern = parent)
      (TooDeep (meaning (L := L) ⟨path, .article items k⟩ ls)) := by
  induction fuel generalizing items k ls with
  | zero =>
    have : ls = [] := by cases ls with
      | nil => rfl
      | cons => simp at hf
    subst this
    exact ⟨items, k, Leads.refl _ _, Nat.le_refl _, ht, by simp⟩
  | succ fuel ih =>
    by_cases hitem : ∃ m t r, ls = .item m t :: r
    · obtain ⟨m, t, r, rfl⟩ := hitem
      rw [subitemLoop]
      by_cases h1 : m.pattern = parent
      · rw [if_pos h1]
        refine ⟨items, k, Leads.refl _ _, Nat.le_refl _, ht, ?_⟩
        intro m' t' r' he
        simp only [List.cons.injEq, TextLine.item.injEq] at he
        obtain ⟨⟨rfl, -⟩, -⟩ := he
        rcases hi m t r rfl with h | h
        · exact absurd (h.1.symm.trans h1) hne
        · exact ⟨h.1, h1⟩
      · rw [if_neg h1]
        by_cases h2 : m.pattern = now
        · rw [if_pos h2]
          have hn : nest now items = now :: parent :: tail := by
            rcases hi m t r rfl with h | h
            · exact h.2
            · rw [h.1, nest_same]
          have hn' : nest m.pattern items = now :: parent :: tail := by rw [h2, hn]
          have hlen := takeTexts_length r
          have hnt : NoText (takeTexts r).2 := fun s r' => takeTexts_head r s r'
          have hstart := item_leads pieces path items k m t r (children := []) (Leads.refl _ _)
          have deepStart : TooDeep (meaning (L := L)
              ⟨path, .article (now :: parent :: tail) (1 + (takeTexts r).1.length)⟩ (takeTexts r).2) →
              TooDeep (meaning (L := L) ⟨path, .article items k⟩ (.item m t :: r)) := by
            intro h
            refine Leads.tooDeep hstart ?_
            rw [hn']; exact h
          -- the children
          have hchild : (goDeeper deeper parent now (takeTexts r).2).Post (fun c => ∃ items' k',
              Leads ⟨path, .article (now :: parent :: tail) (1 + (takeTexts r).1.length)⟩
                (takeTexts r).2 (c.1.flatMap pieces) ⟨path, .article items' k'⟩ c.2 ∧
              c.2.length ≤ (takeTexts r).2.length ∧ NoText c.2 ∧
              ∀ m' t' r', c.2 = .item m' t' :: r' →
                (m'.pattern = now ∧ nest now items' = now :: parent :: tail) ∨
                (items' = now :: parent :: tail ∧
                  (m'.pattern = parent ∨ tail.length + 2 = 11)))
              (TooDeep (meaning (L := L)
                ⟨path, .article (now :: parent :: tail) (1 + (takeTexts r).1.length)⟩
                (takeTexts r).2)) := by
            generalize (takeTexts r).2 = ls' at hnt ⊢
            generalize 1 + (takeTexts r).1.length = k0
            by_cases hitem : ∃ m t r, ls' = .item m t :: r
            · obtain ⟨m', t', r', rfl⟩ := hitem
              rw [goDeeper]
              by_cases h3 : m'.pattern ≠ now ∧ m'.pattern ≠ parent
              · rw [if_pos h3]
                rcases hdeep with hdeep | ⟨h11, hpass⟩
                · have := hdeep path k0 (parent :: tail) now m' t' r'
                    (nest_down h3.1 h3.2 tail) (by simp)
                  refine this.mono ?_ id
                  rintro c ⟨items', k', hl, hle, hnt', hend⟩
                  refine ⟨items', k', hl, hle, hnt', ?_⟩
                  intro m'' t'' r'' he
                  obtain ⟨h5, h6⟩ := hend m'' t'' r'' he
                  left
                  exact ⟨h6, by rw [h5, nest_up (Ne.symm h3.1)]⟩
                · rw [hpass]
                  refine ⟨_, _, Leads.refl _ _, Nat.le_refl _, hnt, ?_⟩
                  intro m'' t'' r'' he
                  exact Or.inr ⟨rfl, Or.inr h11⟩
              · rw [if_neg h3]
                refine ⟨_, _, Leads.refl _ _, Nat.le_refl _, hnt, ?_⟩
                intro m'' t'' r'' he
                simp only [List.cons.injEq, TextLine.item.injEq] at he
                obtain ⟨⟨rfl, -⟩, -⟩ := he
                by_cases h4 : m'.pattern = now
                · exact Or.inl ⟨h4, nest_same _ _⟩
                · refine Or.inr ⟨rfl, Or.inl ?_⟩
                  by_contra h5
                  exact h3 ⟨h4, h5⟩
            · have : goDeeper deeper parent now ls' = .ok ([], ls') := by
                unfold goDeeper
                split
                · rename_i m' t' r'
                  exact absurd ⟨m', t', r', rfl⟩ hitem
                · rfl
              rw [this]
              refine ⟨_, _, Leads.refl _ _, Nat.le_refl _, hnt, ?_⟩
              intro m'' t'' r'' he
              exact absurd ⟨m'', t'', r'', he⟩ hitem
          refine (hchild.mono (fun _ h => h) deepStart).bind ?_
          rintro ⟨c, ls'⟩ ⟨items', k', hl, hle, hnt', hi'⟩
          simp only at hl hle hnt' hi' ⊢
          have hfull := item_leads pieces path items k m t r (children := c) (by rw [hn']; exact hl)
          rw [hn'] at hfull
          have := ih items' k' ls' (by simp only [List.length_cons] at hf; omega) hnt' hi'
          refine (this.mono (fun _ h => h) (fun h => Leads.tooDeep hfull h)).bind ?_
          rintro ⟨v, ls''⟩ ⟨items'', k'', hl', hle', hnt'', hend⟩
          refine ⟨items'', k'', ?_, ?_, hnt'', hend⟩
          · exact hfull.trans hl'
          · simp only at hle' ⊢
            simp only [List.length_cons]; omega
        · rw [if_neg h2]
          change TooDeep _
          rcases hi m t r rfl with h | ⟨h, h' | h'⟩
          · exact absurd h.1 h2
          · exact absurd h' h1
          · subst h
            simp only [meaning, next]
            refine ⟨(nest m.pattern (now :: parent :: tail)).length, _, _,
              List.mem_append_left _ (List.mem_cons_self ..), ?_⟩
            rw [nest_down h2 h1]
            simp only [List.length_cons]; omega
    · have : subitemLoop (L := L) deeper parent now (fuel + 1) ls = .ok ([], ls) := by
        rw [subitemLoop.eq_def]
        split
        · rename_i m t r _
          exact absurd ⟨_, _, _, rfl⟩ hitem
        · rfl
      rw [this]
      refine ⟨items, k, Leads.refl _ _, Nat.le_refl _, ht, ?_⟩
      intro m' t' r' he
      exact absurd ⟨m', t', r', he⟩ hitem

theorem nest_open_ne {p q : ItemPattern} {l : List ItemPattern} (h : nest p (q :: l) = p :: q :: l) :
    p ≠ q := by
  rintro rfl
  rw [nest_same] at h
  have := congrArg List.length h
  simp at this

theorem noText_item (m : ItemNumber) (t : List Char) (r : List TextLine) : NoText (.item m t :: r) := by
  intro s r'; simp

theorem parseSubitem_spec {γ : Type} {pieces : γ → List (Piece L)} {deeper : SubReader γ} {d : Nat}
    (hdeep : SubSpec pieces (d + 1) deeper ∨ (d = 11 ∧ ∀ a b ls, deeper a b ls = .ok ([], ls))) :
    SubSpec (itemPieces pieces d) d (parseSubitem deeper) := by
  rintro path k tail parent m t r hn rfl
  exact subitemLoop_spec path parent m.pattern tail (nest_open_ne hn) hdeep _ _ _ _ (Nat.le_refl _)
    (noText_item m t r) (by
      intro m' t' r' he
      simp only [List.cons.injEq, TextLine.item.injEq] at he
      obtain ⟨⟨rfl, -⟩, -⟩ := he
      exact Or.inl ⟨rfl, hn⟩)

theorem parseSubitem1_spec : SubSpec (L := L) subitem1 2 parseSubitem1 := by
  have h10 : SubSpec (L := L) subitem10 11 parseSubitem10 :=
    parseSubitem_spec (Or.inr ⟨rfl, fun _ _ _ => rfl⟩)
  have h9 : SubSpec (L := L) subitem9 10 parseSubitem9 := parseSubitem_spec (Or.inl h10)
  have h8 : SubSpec (L := L) subitem8 9 parseSubitem8 := parseSubitem_spec (Or.inl h9)
  have h7 : SubSpec (L := L) subitem7 8 parseSubitem7 := parseSubitem_spec (Or.inl h8)
  have h6 : SubSpec (L := L) subitem6 7 parseSubitem6 := parseSubitem_spec (Or.inl h7)
  have h5 : SubSpec (L := L) subitem5 6 parseSubitem5 := parseSubitem_spec (Or.inl h6)
  have h4 : SubSpec (L := L) subitem4 5 parseSubitem4 := parseSubitem_spec (Or.inl h5)
  have h3 : SubSpec (L := L) subitem3 4 parseSubitem3 := parseSubitem_spec (Or.inl h4)
  have h2 : SubSpec (L := L) subitem2 3 parseSubitem2 := parseSubitem_spec (Or.inl h3)
  exact parseSubitem_spec (Or.inl h2)

/-- The first line is neither a text nor an item. -/
def NoItem (ls : List TextLine) : Prop := NoText ls ∧ ∀ n s r, ls ≠ .item n s :: r

theorem itemLoop_spec (path : List Kind) (fuel : Nat) (items : List ItemPattern) (k : Nat)
    (ls : List TextLine) (hf : ls.length ≤ fuel) (ht : NoText ls)
    (hi : ∀ m t r, ls = .item m t :: r → nest m.pattern items = [m.pattern]) :
    (itemLoop (L := L) fuel ls).Post (fun x => ∃ items' k',
        Leads ⟨path, .article items k⟩ ls (x.1.flatMap Spec.item) ⟨path, .article items' k'⟩ x.2 ∧
        x.2.length ≤ ls.length ∧ NoItem x.2)
      (TooDeep (meaning (L := L) ⟨path, .article items k⟩ ls)) := by
  induction fuel generalizing items k ls with
  | zero =>
    have : ls = [] := by cases ls with
      | nil => rfl
      | cons => simp at hf
    subst this
    exact ⟨items, k, Leads.refl _ _, Nat.le_refl _, ht, by simp⟩
  | succ fuel ih =>
    by_cases hitem : ∃ m t r, ls = .item m t :: r
    · obtain ⟨m, t, r, rfl⟩ := hitem
      rw [itemLoop]
      have hn := hi m t r rfl
      have hlen := takeTexts_length r
      have hnt : NoText (takeTexts r).2 := fun s r' => takeTexts_head r s r'
      have hstart := item_leads (subitem1 (L := L)) path items k m t r (children := []) (Leads.refl _ _)
      rw [hn] at hstart
      have hchild : (goSubitem1 (L := L) m.pattern (takeTexts r).2).Post (fun c => ∃ items' k',
          Leads ⟨path, .article [m.pattern] (1 + (takeTexts r).1.length)⟩
            (takeTexts r).2 (c.1.flatMap subitem1) ⟨path, .article items' k'⟩ c.2 ∧
          c.2.length ≤ (takeTexts r).2.length ∧ NoText c.2 ∧
          ∀ m' t' r', c.2 = .item m' t' :: r' → nest m'.pattern items' = [m'.pattern])
          (TooDeep (meaning (L := L)
            ⟨path, .article [m.pattern] (1 + (takeTexts r).1.length)⟩ (takeTexts r).2)) := by
        generalize (takeTexts r).2 = ls' at hnt ⊢
        generalize 1 + (takeTexts r).1.length = k0
        by_cases hitem : ∃ m t r, ls' = .item m t :: r
        · obtain ⟨m', t', r', rfl⟩ := hitem
          rw [goSubitem1]
          by_cases h3 : m'.pattern ≠ m.pattern
          · rw [if_pos h3]
            have := parseSubitem1_spec (L := L) path k0 [] m.pattern m' t' r'
              (by simp [nest, h3]) (by simp)
            refine this.mono ?_ id
            rintro c ⟨items', k', hl, hle, hnt', hend⟩
            refine ⟨items', k', hl, hle, hnt', ?_⟩
            intro m'' t'' r'' he
            obtain ⟨h5, h6⟩ := hend m'' t'' r'' he
            rw [h5, h6, nest_up (Ne.symm h3)]
          · rw [if_neg h3]
            refine ⟨_, _, Leads.refl _ _, Nat.le_refl _, hnt, ?_⟩
            intro m'' t'' r'' he
            simp only [List.cons.injEq, TextLine.item.injEq] at he
            obtain ⟨⟨rfl, -⟩, -⟩ := he
            rw [← not_ne_iff.mp h3, nest_same]
        · have : goSubitem1 (L := L) m.pattern ls' = .ok ([], ls') := by
            unfold goSubitem1
            split
            · rename_i m' t' r'
              exact absurd ⟨m', t', r', rfl⟩ hitem
            · rfl
          rw [this]
          refine ⟨_, _, Leads.refl _ _, Nat.le_refl _, hnt, ?_⟩
          intro m'' t'' r'' he
          exact absurd ⟨m'', t'', r'', he⟩ hitem
      refine (hchild.mono (fun _ h => h) (fun h => Leads.tooDeep hstart h)).bind ?_
      rintro ⟨c, ls'⟩ ⟨items', k', hl, hle, hnt', hi'⟩
      simp only at hl hle hnt' hi' ⊢
      have hfull := item_leads subitem1 path items k m t r (children := c) (by rw [hn]; exact hl)
      rw [hn] at hfull
      have := ih items' k' ls' (by simp only [List.length_cons] at hf; omega) hnt' hi'
      refine (this.mono (fun _ h => h) (fun h => Leads.tooDeep hfull h)).bind ?_
      rintro ⟨v, ls''⟩ ⟨items'', k'', hl', hle', hnt''⟩
      refine ⟨items'', k'', ?_, ?_, hnt''⟩
      · exact hfull.trans hl'
      · simp only at hle' ⊢
        simp only [List.length_cons]; omega
    · have : itemLoop (L := L) (fuel + 1) ls = .ok ([], ls) := by
        rw [itemLoop.eq_def]
        split
        · rename_i m t r _
          exact absurd ⟨_, _, _, rfl⟩ hitem
        · rfl
      rw [this]
      refine ⟨items, k, Leads.refl _ _, Nat.le_refl _, ht, ?_⟩
      intro m' t' r' he
      exact absurd ⟨m', t', r', he⟩ hitem

/-! ## Paragraphs and articles -/

theorem parseParagraph_spec (path : List Kind) (n : ArticleNumber) (s : List Char)
    (ls : List TextLine) :
    (parseParagraph (L := L) n s ls).Post (fun x => ∃ items' k',
        Spec.paragraph x.1 = .paragraph n :: saying 1 s :: (Spec.paragraph x.1).drop 2 ∧
        Leads ⟨path, .article [] 1⟩ ls ((Spec.paragraph x.1).drop 2) ⟨path, .article items' k'⟩ x.2 ∧
        x.2.length ≤ ls.length ∧ NoItem x.2)
      (TooDeep (meaning (L := L) ⟨path, .article [] 1⟩ ls)) := by
  have h1 := takeTexts_leads (L := L) path [] ls 1
  have hlen := takeTexts_length ls
  have h2 := itemLoop_spec (L := L) path (takeTexts ls).2.length [] (1 + (takeTexts ls).1.length)
    (takeTexts ls).2 (Nat.le_refl _) (fun s r' => takeTexts_head ls s r') (fun m t r _ => rfl)
  rw [parseParagraph]
  refine (h2.mono (fun _ h => h) (fun h => h1.tooDeep h)).bind ?_
  rintro ⟨c, ls'⟩ ⟨items', k', hl, hle, hnt⟩
  refine ⟨items', k', ?_, ?_, Nat.le_trans hle hlen, hnt⟩
  · rfl
  · exact h1.trans hl

theorem outside_iff {ls : List TextLine} :
    Outside ls ↔ NoItem ls ∧ ∀ n s r, ls ≠ .paragraph n s :: r := by
  unfold NoItem NoText
  cases ls with
  | nil => simp [Outside]
  | cons l r => cases l <;> simp [Outside]

theorem paragraphLoop_spec (path : List Kind) (fuel : Nat) (items : List ItemPattern) (k : Nat)
    (ls : List TextLine) (hf : ls.length ≤ fuel) (ht : NoItem ls) :
    (paragraphLoop (L := L) fuel ls).Post (fun x => ∃ items' k',
        Leads ⟨path, .article items k⟩ ls (x.1.flatMap Spec.paragraph) ⟨path, .article items' k'⟩ x.2 ∧
        x.2.length ≤ ls.length ∧ Outside x.2)
      (TooDeep (meaning (L := L) ⟨path, .article items k⟩ ls)) := by
  induction fuel generalizing items k ls with
  | zero =>
    have : ls = [] := by cases ls with
      | nil => rfl
      | cons => simp at hf
    subst this
    exact ⟨items, k, Leads.refl _ _, Nat.le_refl _, trivial⟩
  | succ fuel ih =>
    by_cases hp : ∃ n t r, ls = .paragraph n t :: r
    · obtain ⟨n, t, r, rfl⟩ := hp
      rw [paragraphLoop]
      have hstart := Leads.step (L := L) (q := ⟨path, .article items k⟩) (l := .paragraph n t) (r := r) rfl
      have := parseParagraph_spec (L := L) path n t r
      refine (this.mono (fun _ h => h) (fun h => Leads.tooDeep hstart h)).bind ?_
      rintro ⟨p, ls'⟩ ⟨items', k', hform, hl, hle, hnt'⟩
      simp only at hform hl hle hnt' ⊢
      have hfull : Leads ⟨path, .article items k⟩ (.paragraph n t :: r) (Spec.paragraph p)
          ⟨path, .article items' k'⟩ ls' := by
        rw [hform]
        exact hstart.trans hl
      have := ih items' k' ls' (by simp only [List.length_cons] at hf; omega) hnt'
      refine (this.mono (fun _ h => h) (fun h => Leads.tooDeep hfull h)).bind ?_
      rintro ⟨v, ls''⟩ ⟨items'', k'', hl', hle', hnt''⟩
      refine ⟨items'', k'', ?_, ?_, hnt''⟩
      · exact hfull.trans hl'
      · simp only at hle' ⊢
        simp only [List.length_cons]; omega
    · have : paragraphLoop (L := L) (fuel + 1) ls = .ok ([], ls) := by
        rw [paragraphLoop.eq_def]
        split
        · exact absurd ⟨_, _, _, rfl⟩ hp
        · rfl
      rw [this]
      refine ⟨items, k, Leads.refl _ _, Nat.le_refl _, outside_iff.mpr ⟨ht, ?_⟩⟩
      intro m' t' r' he
      exact hp ⟨m', t', r', he⟩

theorem fromNumStr_one : ArticleNumber.fromNumStr "1" = .ok ⟨1, [], []⟩ := by decide +kernel

/-- The piece of a caption that waits for its article. -/
def captionPiece (c : Option (List Char)) : List (Piece L) :=
  c.toList.map fun s => .caption (plainText s)

theorem parseArticle_spec (path : List Kind) (w : Place) (caption : Option (List Char))
    (n : ArticleNumber) (s : List Char) (r : List TextLine) :
    (parseArticle (L := L) caption n s r).Post (fun x => ∃ items' k' ps,
        Spec.article path x.1 = captionPiece caption ++ ps ∧
        Leads ⟨path, w⟩ (.article n s :: r) ps ⟨path, .article items' k'⟩ x.2 ∧
        x.2.length ≤ r.length ∧ Outside x.2)
      (TooDeep (meaning (L := L) ⟨path, w⟩ (.article n s :: r))) := by
  rw [parseArticle, fromNumStr_one]
  simp only [Res.bind_ok]
  have hstart := Leads.step (L := L) (q := ⟨path, w⟩) (l := .article n s) (r := r) rfl
  have := parseParagraph_spec (L := L) path ⟨1, [], []⟩ s r
  refine (this.mono (fun _ h => h) (fun h => Leads.tooDeep hstart h)).bind ?_
  rintro ⟨p, ls'⟩ ⟨items', k', hform, hl, hle, hnt'⟩
  simp only at hform hl hle hnt' ⊢
  have hfull := hstart.trans hl
  have := paragraphLoop_spec (L := L) path _ items' k' ls' (Nat.le_refl _) hnt'
  refine (this.mono (fun _ h => h) (fun h => Leads.tooDeep hfull h)).bind ?_
  rintro ⟨v, ls''⟩ ⟨items'', k'', hl', hle', hnt''⟩
  refine ⟨items'', k'', _, ?_, hfull.trans hl', Nat.le_trans hle' hle, hnt''⟩
  simp only [Spec.article, captionPiece, contributes, List.flatMap_cons, isDeleted_eq]
  rw [hform]
  cases caption <;> simp [plainText, Text.fromValue]

end JLaw
