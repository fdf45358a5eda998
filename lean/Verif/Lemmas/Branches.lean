import Verif.Lemmas.Regex

/-!
# Matching branch numbers

A branch number is a separator and a number in one script. These lemmas compute how a repetition of
branch numbers matches.
-/

namespace JLaw

variable {β : Type}

/-- The text of a list of branch numbers. -/
def flat (bs : List (Char × List Char)) : List Char := bs.flatMap fun b => b.1 :: b.2

theorem flat_cons (b : Char × List Char) (bs : List (Char × List Char)) :
    flat (b :: bs) = b.1 :: b.2 ++ flat bs := rfl

/-- A separator and a number in one of the scripts. -/
def IsBranch (sep : Char → Bool) (ps : List (Char → Bool)) (b : Char × List Char) : Prop :=
  sep b.1 = true ∧ b.2 ≠ [] ∧ ∃ p ∈ ps, b.2.all p = true

/-- A text does not start with a branch number. -/
def NoBranch (sep : Char → Bool) (ps : List (Char → Bool)) : List Char → Prop
  | c :: d :: _ => sep c = true → ∀ p ∈ ps, p d = false
  | _ => True

/-- The last branch number does not go on in the rest. -/
def LastEnds (ps : List (Char → Bool)) (bs : List (Char × List Char)) (rest : List Char) : Prop :=
  ∀ b, bs.getLast? = some b → ∀ p ∈ ps, b.2.all p = true → Ends p rest

theorem exists_branches (sep : Char → Bool) (ps : List (Char → Bool))
    (hd : Disjoint ps) :
    ∀ n (s : List Char), s.length = n → ∃ bs rest, s = flat bs ++ rest ∧
      (∀ b ∈ bs, IsBranch sep ps b) ∧ NoBranch sep ps rest ∧ LastEnds ps bs rest := by
  intro n
  induction n using Nat.strongRecOn with
  | _ n ih =>
    intro s hs
    by_cases hb : NoBranch sep ps s
    · exact ⟨[], s, rfl, by simp, hb, by simp [LastEnds]⟩
    · match s, hb with
      | [], hb => exact absurd trivial hb
      | [c], hb => exact absurd trivial hb
      | c :: d :: t, hb =>
        simp only [NoBranch, Classical.not_forall, Bool.not_eq_false] at hb
        obtain ⟨hc, p, hp, hpd⟩ := hb
        obtain ⟨ds, rest, hdr, hall, hend⟩ := exists_run p t
        subst hdr
        obtain ⟨bs, r, hr, hbs, hno, hlast⟩ := ih rest.length (by simp at hs; omega) rest rfl
        subst hr
        refine ⟨(c, d :: ds) :: bs, r, by simp [flat_cons], ?_, hno, ?_⟩
        · intro b hb
          rcases List.mem_cons.mp hb with rfl | hb
          · exact ⟨hc, by simp, p, hp, by simp [hpd, hall]⟩
          · exact hbs b hb
        · intro b hb q hq hqa
          cases bs with
          | nil =>
            simp at hb
            subst hb
            have : q = p := hd q hq p hp d (by simp at hqa; exact hqa.1) hpd
            subst this
            simpa [flat] using hend
          | cons b' bs' =>
            rw [List.getLast?_cons_cons] at hb
            exact hlast b hb q hq hqa

theorem first_branches {sep : Char → Bool} {ps : List (Char → Bool)}
    (hd : Disjoint ps) (hsep : ∀ c, sep c = true → ∀ p ∈ ps, p c = false)
    {bs : List (Char × List Char)} {rest : List Char} (hbs : ∀ b ∈ bs, IsBranch sep ps b)
    (hno : NoBranch sep ps rest) (hlast : LastEnds ps bs rest) {k : Caps × List Char → Option β}
    (hk : (k ([], rest)).isSome = true ∨
      ∀ c t, (sep c = true ∨ ∃ p ∈ ps, p c = true) → k ([], c :: t) = none) :
    (Re.star (.seq (.cls sep) (.alts (ps.map fun p => Re.plus (.cls p))))).first (flat bs ++ rest) k
      = k ([], rest) := by
  induction bs with
  | nil =>
    rw [Re.first_star]
    simp only [flat, List.flatMap_nil, List.nil_append]
    rw [show Re.first _ rest _ = none from ?_]
    · rfl
    · rw [Re.first_seq]
      match rest, hno with
      | [], _ => simp
      | [c], _ =>
        simp only [Re.first_cls_cons]
        split
        · apply first_scripts_none; intro p _; trivial
        · rfl
      | c :: d :: t, hno =>
        simp only [Re.first_cls_cons]
        split
        · rename_i hc
          apply first_scripts_none; intro p hp; exact hno hc p hp
        · rfl
  | cons b bs ih =>
    obtain ⟨hsc, hne, p, hp, hall⟩ := hbs b (by simp)
    have hlast' : LastEnds ps bs rest := by
      intro b' hb' q hq hqa
      cases bs with
      | nil => simp at hb'
      | cons b'' bs' => exact hlast b' (by rw [List.getLast?_cons_cons]; exact hb') q hq hqa
    have hend : Ends p (flat bs ++ rest) := by
      cases bs with
      | nil => exact hlast b (by simp) p hp hall
      | cons b' bs' =>
        have := (hbs b' (by simp)).1
        simp only [flat_cons, List.cons_append, Ends]
        exact hsep _ this p hp
    have ih' := ih (fun b hb => hbs b (by simp [hb])) hlast'
    rw [Re.first_star, Re.first_seq]
    simp only [flat_cons, List.cons_append, Re.first_cls_cons, hsc, if_true, List.nil_append,
      List.append_assoc]
    rw [first_scripts hd hp hne hall hend]
    · simp only [List.nil_append]
      rw [if_pos (by simp; omega), ih']
      rcases hk with hk | hk
      · obtain ⟨v, hv⟩ := Option.isSome_iff_exists.mp hk
        rw [hv]; rfl
      · rw [hk b.1 _ (Or.inl hsc)]; simp
    · rcases hk with hk | hk
      · left
        simp only [List.nil_append]
        rw [if_pos (by simp; omega), ih']
        exact hk
      · right
        intro c t hc
        simp only [List.nil_append]
        have hcs : sep c = false := by
          cases h : sep c with
          | false => rfl
          | true => rw [hsep c h p hp] at hc; exact absurd hc (by simp)
        split
        · rw [Re.first_star, Re.first_seq]
          simp only [Re.first_cls_cons, hcs]
          rw [hk c t (Or.inr ⟨p, hp, hc⟩)]
          rfl
        · rfl

/-- A branch number decomposition is unique. -/
theorem flat_unique {sep : Char → Bool} {ps : List (Char → Bool)}
    (hd : Disjoint ps) (hsep : ∀ c, sep c = true → ∀ p ∈ ps, p c = false)
    {bs bs' : List (Char × List Char)} {r r' : List Char}
    (hbs : ∀ b ∈ bs, IsBranch sep ps b) (hbs' : ∀ b ∈ bs', IsBranch sep ps b)
    (hno : NoBranch sep ps r) (hno' : NoBranch sep ps r')
    (hl : LastEnds ps bs r) (hl' : LastEnds ps bs' r') (h : flat bs ++ r = flat bs' ++ r') :
    flat bs = flat bs' ∧ r = r' := by
  have h1 := first_branches (k := fun x => some x.2) hd hsep hbs hno hl (Or.inl rfl)
  have h2 := first_branches (k := fun x => some x.2) hd hsep hbs' hno' hl' (Or.inl rfl)
  rw [h, h2] at h1
  simp only [Option.some.injEq] at h1
  subst h1
  exact ⟨List.append_cancel_right h, rfl⟩

end JLaw
