import Verif.Lemmas.FromTextBody

/-!
# Views of what a text means
-/

namespace JLaw

open Spec

variable {L : Lvl}

theorem used_append (q : State) (ls : List TextLine) : ls = used q ls ++ leftOver q ls := by
  induction ls generalizing q with
  | nil => rfl
  | cons l r ih =>
    rw [used, leftOver]
    cases next q l with
    | none => rfl
    | some q' => simp only [List.cons_append]; rw [← ih q']

theorem next_article (q : State) (n : ArticleNumber) (s : List Char) :
    next q (.article n s) = some ⟨q.path, .article [] 1⟩ := rfl

theorem beforeArticle_used (q : State) (ls : List TextLine) :
    beforeArticle (used q ls) = beforeArticle ls := by
  cases ls with
  | nil => rfl
  | cons l r =>
    rw [used]
    cases l with
    | article n s => rw [next_article]; rfl
    | _ => split <;> rfl

theorem pieceTexts_append (a b : List (Piece L)) :
    pieceTexts (a ++ b) = pieceTexts a ++ pieceTexts b := by
  induction a with
  | nil => rfl
  | cons x a ih => simp only [List.cons_append, pieceTexts, ih, List.append_assoc]

theorem pieceTexts_meaning (q : State) (ls : List TextLine) :
    pieceTexts (meaning (L := L) q ls) = lineTexts (used q ls) := by
  induction ls generalizing q with
  | nil => rfl
  | cons l r ih =>
    rw [meaning, used]
    cases hn : next q l with
    | none => rfl
    | some q' =>
      simp only [pieceTexts_append, lineTexts, ih]
      congr 1
      cases l with
      | caption s =>
        simp only [contributes, beforeArticle_used]
        split <;> rfl
      | item n s =>
        simp only [next] at hn
        split at hn
        · cases hn; rfl
        · cases hn
      | text s =>
        simp only [next] at hn
        split at hn
        · cases hn; rfl
        · cases hn; rfl
        · cases hn
      | suppl n => cases hn
      | _ => rfl

theorem pieceDeletions_meaning (q : State) (ls : List TextLine) :
    pieceDeletions (meaning (L := L) q ls) = lineDeletions (used q ls) := by
  induction ls generalizing q with
  | nil => rfl
  | cons l r ih =>
    rw [meaning, used]
    cases hn : next q l with
    | none => rfl
    | some q' =>
      have e1 : ∀ a b : List (Piece L), pieceDeletions (a ++ b) = pieceDeletions a ++ pieceDeletions b :=
        fun a b => List.filterMap_append
      have e2 : ∀ (l : TextLine) r, lineDeletions (l :: r) = lineDeletions [l] ++ lineDeletions r := by
        intro l r
        rw [← List.singleton_append, lineDeletions, List.filterMap_append]; rfl
      simp only [e1]
      rw [e2, ih]
      congr 1
      cases l with
      | caption s => simp only [contributes]; split <;> rfl
      | item n s =>
        simp only [next] at hn
        split at hn
        · cases hn; rfl
        · cases hn
      | text s =>
        simp only [next] at hn
        split at hn
        · cases hn; rfl
        · cases hn; rfl
        · cases hn
      | suppl n => cases hn
      | _ => rfl

theorem articlesWith_meaning (c : Option (Text L)) (q : State) (ls : List TextLine) :
    articlesWith (if beforeArticle ls then c else none) (meaning q ls) = captioned c (used q ls) := by
  induction ls generalizing q c with
  | nil => rfl
  | cons l r ih =>
    rw [meaning, used]
    cases hn : next q l with
    | none => rfl
    | some q' =>
      have none' : articlesWith (L := L) none (meaning q' r) = captioned none (used q' r) := by
        have := ih none q'
        simpa using this
      cases l with
      | caption s =>
        have := ih (some (plainText s)) q'
        simp only [contributes, captioned, ← this, beforeArticle, Bool.false_eq_true, if_false]
        split
        · rfl
        · rfl
      | article n s =>
        simp only [contributes, captioned, beforeArticle, if_true, saying, articlesWith,
          List.cons_append, List.nil_append, none']
      | paragraph n s =>
        simp only [contributes, captioned, saying, articlesWith,
          List.cons_append, List.nil_append, none']
      | item n s =>
        simp only [next] at hn
        split at hn
        · cases hn
          simp only [contributes, captioned, saying, articlesWith,
            List.cons_append, List.nil_append, none']
        · cases hn
      | text s =>
        simp only [next] at hn
        split at hn
        · cases hn
          simp only [contributes, captioned, saying, articlesWith,
            List.cons_append, List.nil_append, none']
        · cases hn
          simp only [contributes, captioned, saying, articlesWith,
            List.cons_append, List.nil_append, none']
        · cases hn
      | suppl n => cases hn
      | _ =>
        simp only [contributes, captioned, headed, articlesWith,
          List.cons_append, List.nil_append, none']

/-! ## Numbering -/

/-- The number of a piece fits to the pieces before it. -/
def FitsAfter (acc : List (Piece L)) : Piece L → Prop
  | .sentence n _ => n = some (asUsize (if ∃ x ∈ acc, x.isUnit then run acc + 1 else 0))
  | .paragraph n => (¬ ∃ x ∈ acc, x.isUnit) →
      n = ⟨asUsize (acc.filter Piece.isParagraph).length, [], []⟩
  | _ => True

/-- All pieces fit to those before them. -/
def FitAfter (acc : List (Piece L)) : List (Piece L) → Prop
  | [] => True
  | x :: r => FitsAfter acc x ∧ FitAfter (acc ++ [x]) r

theorem FitAfter.append {acc a b : List (Piece L)} (h : FitAfter acc a) (h' : FitAfter (acc ++ a) b) :
    FitAfter acc (a ++ b) := by
  induction a generalizing acc with
  | nil => simpa using h'
  | cons x a ih => exact ⟨h.1, ih h.2 (by simpa using h')⟩

theorem FitAfter.at {acc pre post : List (Piece L)} {x : Piece L}
    (h : FitAfter acc (pre ++ x :: post)) : FitsAfter (acc ++ pre) x := by
  induction pre generalizing acc with
  | nil => simpa using h.1
  | cons y pre ih => simpa using ih h.2

/-- The pieces so far agree with the state. -/
def Agrees (acc : List (Piece L)) (q : State) : Prop :=
  match q.place with
  | .preamble n => (¬ ∃ x ∈ acc, x.isUnit) ∧ (acc.filter Piece.isParagraph).length = n
  | .heading => True
  | .article _ n => (∃ x ∈ acc, x.isUnit) ∧ run acc = n

theorem run_snoc_sentence (acc : List (Piece L)) (n : Option Usize) (c : List (SentenceElement L)) :
    run (acc ++ [.sentence n c]) = run acc + 1 := by
  simp [run, Piece.isSentence, List.takeWhile_cons]

theorem run_snoc_other (acc : List (Piece L)) (x : Piece L) (h : x.isSentence = false) :
    run (acc ++ [x]) = 0 := by
  simp [run, h]

theorem agrees_next {acc : List (Piece L)} {q q' : State} {l : TextLine} {r : List TextLine}
    (h : Agrees acc q) (hn : next q l = some q') :
    FitAfter acc (contributes q' r l) ∧ Agrees (acc ++ contributes q' r l) q' := by
  cases l with
  | caption s =>
    cases hn
    refine ⟨?_, trivial⟩
    simp only [contributes]
    split
    · exact ⟨trivial, trivial⟩
    · trivial
  | part n s => cases hn; exact ⟨⟨trivial, trivial⟩, trivial⟩
  | chapter n s => cases hn; exact ⟨⟨trivial, trivial⟩, trivial⟩
  | section_ n s => cases hn; exact ⟨⟨trivial, trivial⟩, trivial⟩
  | subsection n s =>
    simp only [next] at hn
    split at hn <;> cases hn
    exact ⟨⟨trivial, trivial⟩, trivial⟩
  | division n s =>
    simp only [next] at hn
    split at hn <;> cases hn
    exact ⟨⟨trivial, trivial⟩, trivial⟩
  | article n s =>
    cases hn
    have hu : ∃ x ∈ acc ++ [Piece.article (L := L) q.path n (SaysDeleted s)], x.isUnit :=
      ⟨.article q.path n (SaysDeleted s), by simp, rfl⟩
    have hu' : ∃ x ∈ acc ++ [Piece.article (L := L) q.path n (SaysDeleted s)] ++
        [.paragraph ⟨1, [], []⟩], x.isUnit := by
      obtain ⟨x, hx, h⟩ := hu; exact ⟨x, List.mem_append_left _ hx, h⟩
    refine ⟨⟨trivial, fun h => absurd hu h, ?_, trivial⟩, ?_, ?_⟩
    · show _ = _
      rw [if_pos hu', run_snoc_other _ _ rfl]
    · obtain ⟨x, hx, h⟩ := hu
      exact ⟨x, by simp only [contributes]; simp at hx ⊢; tauto, h⟩
    · have : acc ++ contributes (L := L) ⟨q.path, .article [] 1⟩ r (.article n s) =
          (acc ++ [.article q.path n (SaysDeleted s)] ++ [.paragraph ⟨1, [], []⟩]) ++ [saying 1 s] := by
        simp [contributes]
      rw [this, saying, run_snoc_sentence, run_snoc_other _ _ rfl]
  | paragraph n s =>
    cases hq : q.place with
    | article items k =>
      simp only [next, hq, Option.some.injEq] at hn
      subst hn
      rw [Agrees, hq] at h
      obtain ⟨⟨x, hx, hu⟩, hk⟩ := h
      refine ⟨⟨fun h => absurd ⟨x, hx, hu⟩ h, ?_, trivial⟩, ⟨x, List.mem_append_left _ hx, hu⟩, ?_⟩
      · show _ = _
        rw [if_pos ⟨x, List.mem_append_left _ hx, hu⟩, run_snoc_other _ _ rfl]
      · have : acc ++ contributes (L := L) ⟨q.path, .article [] 1⟩ r (.paragraph n s) =
            (acc ++ [.paragraph n]) ++ [saying 1 s] := by
          simp [contributes]
        rw [this, saying, run_snoc_sentence, run_snoc_other _ _ rfl]
    | preamble k => simp [next, hq] at hn
    | heading => simp [next, hq] at hn
  | item n s =>
    cases hq : q.place with
    | article items k =>
      simp only [next, hq, Option.some.injEq] at hn
      subst hn
      rw [Agrees, hq] at h
      obtain ⟨⟨x, hx, hu⟩, hk⟩ := h
      refine ⟨⟨trivial, ?_, trivial⟩, ⟨x, List.mem_append_left _ hx, hu⟩, ?_⟩
      · show _ = _
        rw [if_pos ⟨x, List.mem_append_left _ hx, hu⟩, run_snoc_other _ _ rfl]
      · have : acc ++ contributes (L := L) ⟨q.path, .article (nest n.pattern items) 1⟩ r (.item n s) =
            (acc ++ [.item (nest n.pattern items).length
              (some ⟨n.base_number, n.eda_numbers, n.range_end_numbers⟩) (SaysDeleted s)]) ++
              [saying 1 s] := by
          simp [contributes]
        rw [this, saying, run_snoc_sentence, run_snoc_other _ _ rfl]
    | preamble k => simp [next, hq] at hn
    | heading => simp [next, hq] at hn
  | text s =>
    cases hq : q.place with
    | article items k =>
      simp only [next, hq, Option.some.injEq] at hn
      subst hn
      rw [Agrees, hq] at h
      obtain ⟨⟨x, hx, hu⟩, hk⟩ := h
      refine ⟨⟨?_, trivial⟩, ⟨x, List.mem_append_left _ hx, hu⟩, ?_⟩
      · show _ = _
        rw [if_pos ⟨x, hx, hu⟩, hk]
      · simp only [contributes, saying]
        rw [run_snoc_sentence, hk]
    | preamble k =>
      simp only [next, hq, Option.some.injEq] at hn
      subst hn
      rw [Agrees, hq] at h
      obtain ⟨h, hk⟩ := h
      have h' : ¬ ∃ x ∈ acc ++ [Piece.paragraph (L := L) ⟨asUsize (k + 1 - 1), [], []⟩], x.isUnit := by
        rintro ⟨x, hx, hu⟩
        rcases List.mem_append.mp hx with hx | hx
        · exact h ⟨x, hx, hu⟩
        · rw [List.mem_singleton.mp hx] at hu; cases hu
      refine ⟨⟨fun _ => ?_, ?_, trivial⟩, ?_, ?_⟩
      · rw [hk]; rfl
      · show _ = _
        rw [if_neg h']
      · rintro ⟨x, hx, hu⟩
        simp only [contributes, saying] at hx
        rcases List.mem_append.mp hx with hx | hx
        · exact h ⟨x, hx, hu⟩
        · simp only [List.mem_cons, List.not_mem_nil, or_false] at hx
          rcases hx with rfl | rfl <;> cases hu
      · simp only [contributes, saying, List.filter_append, List.length_append, hk]
        rfl
    | heading => simp [next, hq] at hn
  | suppl n => cases hn

theorem fitAfter_meaning (acc : List (Piece L)) (q : State) (ls : List TextLine)
    (h : Agrees acc q) : FitAfter acc (meaning q ls) := by
  induction ls generalizing q acc with
  | nil => trivial
  | cons l r ih =>
    rw [meaning]
    cases hn : next q l with
    | none => trivial
    | some q' =>
      have := agrees_next (r := r) h hn
      exact this.1.append (ih _ _ this.2)

theorem article_then_paragraph (q : State) (ls : List TextLine) (pre post : List (Piece L))
    (path : List Kind) (n : ArticleNumber) (d : Prop)
    (h : meaning q ls = pre ++ .article path n d :: post) :
    post.head? = some (.paragraph ⟨1, [], []⟩) := by
  induction ls generalizing q pre with
  | nil => simp [meaning] at h
  | cons l r ih =>
    rw [meaning] at h
    cases hn : next q l with
    | none => rw [hn] at h; simp at h
    | some q' =>
      rw [hn] at h
      simp only at h
      rcases List.append_eq_append_iff.mp h with ⟨a, ha, hb⟩ | ⟨a, ha, hb⟩
      · exact ih q' a hb
      · cases a with
        | nil => exact ih q' [] (by simpa using hb.symm)
        | cons x a =>
          simp only [List.cons_append, List.cons.injEq] at hb
          obtain ⟨rfl, hb⟩ := hb
          cases l with
          | article n' s' =>
            simp only [contributes, saying] at ha
            cases pre with
            | nil =>
              simp only [List.nil_append, List.cons.injEq] at ha
              rw [hb, ← ha.2]; rfl
            | cons y pre =>
              simp only [List.cons_append, List.cons.injEq] at ha
              have := ha.2
              cases pre with
              | nil => simp at this
              | cons z pre =>
                simp only [List.cons_append, List.cons.injEq] at this
                have := this.2
                cases pre with
                | nil => simp at this
                | cons z pre => simp at this
          | caption s' =>
            simp only [contributes] at ha
            have : Piece.article path n d ∈ (if beforeArticle r then [Piece.caption (L := L) (plainText s')] else []) := by
              rw [ha]; simp
            split at this <;> simp at this
          | item n' s' =>
            exfalso
            have : Piece.article path n d ∈ contributes (L := L) q' r (.item n' s') := by rw [ha]; simp
            simp only [contributes] at this
            split at this <;> simp [saying] at this
          | text s' =>
            exfalso
            have : Piece.article path n d ∈ contributes (L := L) q' r (.text s') := by rw [ha]; simp
            simp only [contributes] at this
            split at this <;> simp [saying] at this
          | _ =>
            exfalso
            have hm : Piece.article path n d ∈ pre ++ Piece.article path n d :: a := by simp
            rw [← ha] at hm
            simp [contributes, headed, saying] at hm

end JLaw
