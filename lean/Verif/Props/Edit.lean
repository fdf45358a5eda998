import Verif.Lemmas.Cut
import Verif.Props.UnitsOfLines

/-!
# Edits of a text (C96)
-/

namespace JLaw

open Spec

variable {L : Lvl}

/-- A line that belongs to the article it stands in: a paragraph, an item or a plain text. -/
def WithinArticle : TextLine → Prop
  | .paragraph _ _ | .item _ _ | .text _ => True
  | _ => False

/-! ## Lines -/

theorem meaning_before (a : List TextLine) (q : State) (h : leftOver q a = []) :
    ∃ (P : List (Piece L)) (q' : State) (u : Around → List (Around × UnitView L))
      (v : Around → Around), ∀ n t r,
      meaning q (a ++ .article n t :: r) = P ++ meaning q' (.article n t :: r) ∧
      ∀ o, unitsOfLines q o (a ++ .article n t :: r) =
        u o ++ unitsOfLines q' (v o) (.article n t :: r) := by
  induction a generalizing q with
  | nil => exact ⟨[], q, fun _ => [], id, fun _ _ _ => ⟨rfl, fun _ => rfl⟩⟩
  | cons l a ih =>
    rw [leftOver.eq_def] at h
    simp only at h
    cases hn : next q l with
    | none => rw [hn] at h; cases h
    | some q1 =>
      rw [hn] at h
      obtain ⟨P, q', u, v, h1⟩ := ih q1 h
      have hp : ∀ n t r, meaning q (l :: a ++ .article n t :: r) =
          (contributes q1 (a ++ [.article ⟨1, [], []⟩ []]) l ++ P) ++
            meaning q' (.article n t :: r) := by
        intro n t r
        rw [List.cons_append, meaning, hn]
        simp only
        rw [(h1 n t r).1, List.append_assoc]
        congr 1
        cases l with
        | caption s =>
          cases a with
          | nil => rfl
          | cons x a => cases x <;> rfl
        | _ => rfl
      cases hh : headingOf l with
      | some x =>
        obtain ⟨k, m, s⟩ := x
        refine ⟨_, q', fun o => (o.take (q1.path.length - 1), (k.unit, m, Spec.plainText s)) ::
          u (o.take (q1.path.length - 1) ++ [(k.unit, m)]),
          fun o => v (o.take (q1.path.length - 1) ++ [(k.unit, m)]),
          fun n t r => ⟨hp n t r, fun o => ?_⟩⟩
        rw [List.cons_append, unitsOfLines, hn]
        simp only [hh]
        rw [(h1 n t r).2]
        rfl
      | none =>
        cases ha : articleOf l with
        | some m =>
          refine ⟨_, q', fun o => (o, (.article, m, Spec.plainText [])) :: u o, v,
            fun n t r => ⟨hp n t r, fun o => ?_⟩⟩
          rw [List.cons_append, unitsOfLines, hn]
          simp only [hh, ha]
          rw [(h1 n t r).2]
          rfl
        | none =>
          refine ⟨_, q', u, v, fun n t r => ⟨hp n t r, fun o => ?_⟩⟩
          rw [List.cons_append, unitsOfLines, hn]
          simp only [hh, ha]
          rw [(h1 n t r).2]

theorem meaning_within (m : List TextLine) (hm : ∀ l ∈ m, WithinArticle l) (path : List Spec.Kind)
    (i : List ItemPattern) (k : Nat) (b : List TextLine) :
    ∃ (ps : List (Piece L)) (i' : List ItemPattern) (k' : Nat), (∀ x ∈ ps, Inside x) ∧
      meaning ⟨path, .article i k⟩ (m ++ b) = ps ++ meaning ⟨path, .article i' k'⟩ b ∧
      ∀ o, unitsOfLines (L := L) ⟨path, .article i k⟩ o (m ++ b) =
        unitsOfLines ⟨path, .article i' k'⟩ o b := by
  induction m generalizing i k with
  | nil => exact ⟨[], i, k, by simp, rfl, fun _ => rfl⟩
  | cons l m ih =>
    have hl := hm l (by simp)
    have step : ∃ i1 k1, next ⟨path, .article i k⟩ l = some ⟨path, .article i1 k1⟩ ∧
        headingOf l = none ∧ articleOf l = none ∧
        ∀ r, ∀ x ∈ contributes (L := L) ⟨path, .article i1 k1⟩ r l, Inside x := by
      cases l with
      | paragraph n s => exact ⟨[], 1, rfl, rfl, rfl, by simp [contributes, saying, Inside]⟩
      | item n s => exact ⟨_, 1, rfl, rfl, rfl, by simp [contributes, saying, Inside]⟩
      | text s => exact ⟨_, _, rfl, rfl, rfl, by simp [contributes, saying, Inside]⟩
      | _ => exact hl.elim
    obtain ⟨i1, k1, h1, h2, h3, h4⟩ := step
    obtain ⟨ps, i', k', h5, h6, h7⟩ := ih (fun x hx => hm x (by simp [hx])) i1 k1
    refine ⟨contributes ⟨path, .article i1 k1⟩ (m ++ b) l ++ ps, i', k', ?_, ?_, ?_⟩
    · intro x hx
      rcases List.mem_append.1 hx with hx | hx
      · exact h4 _ x hx
      · exact h5 x hx
    · rw [List.cons_append, meaning, h1]
      simp only
      rw [h6, List.append_assoc]
    · intro o
      rw [List.cons_append, unitsOfLines, h1]
      simp only [h2, h3]
      exact h7 o

theorem next_outside {l : TextLine} (h : ¬ WithinArticle l) (path : List Spec.Kind) (p p' : Place) :
    next ⟨path, p⟩ l = next ⟨path, p'⟩ l := by
  cases l with
  | paragraph n s => exact absurd trivial h
  | item n s => exact absurd trivial h
  | text s => exact absurd trivial h
  | _ => rfl

theorem meaning_after (b : List TextLine) (hb : ∀ l r, b = l :: r → ¬ WithinArticle l)
    (path : List Spec.Kind) (p p' : Place) :
    meaning (L := L) ⟨path, p⟩ b = meaning ⟨path, p'⟩ b ∧
      ∀ o, unitsOfLines (L := L) ⟨path, p⟩ o b = unitsOfLines ⟨path, p'⟩ o b := by
  cases b with
  | nil => exact ⟨rfl, fun _ => rfl⟩
  | cons l r =>
    have h := next_outside (hb l r rfl) path p p'
    exact ⟨by rw [meaning, meaning, h], fun o => by rw [unitsOfLines, unitsOfLines, h]⟩

/-- Lines that start outside an article add articles and change none. -/
theorem cut_after (b : List TextLine) (q : State)
    (hb : q.place = .heading ∨ ∀ l r, b = l :: r → ¬ WithinArticle l) (s : List (List (Piece L)))
    (hs : NotWaiting s) :
    (meaning q b).foldl cutPiece s = (meaning q b).foldl cutPiece [] ++ s := by
  induction b generalizing q with
  | nil => rfl
  | cons l r ih =>
    rw [meaning]
    cases hn : next q l with
    | none => rfl
    | some q' =>
      simp only
      rw [List.foldl_append, List.foldl_append]
      have head : q'.place = .heading → (contributes q' r l).foldl cutPiece s = s →
          (contributes q' r l).foldl cutPiece ([] : List (List (Piece L))) = [] →
          (meaning q' r).foldl cutPiece ((contributes q' r l).foldl cutPiece s) =
            (meaning q' r).foldl cutPiece ((contributes q' r l).foldl cutPiece []) ++ s := by
        intro h1 h2 h3
        rw [h2, h3]
        exact ih q' (.inl h1)
      cases l with
      | caption t =>
        have hq : q'.place = .heading := by cases hn; rfl
        by_cases h : beforeArticle r = true
        · have h1 : contributes (L := L) q' r (.caption t) = [.caption (Spec.plainText t)] := by
            simp [contributes, h]
          rw [h1]
          exact (cut_append (s := [[.caption (Spec.plainText t)]]) (by simp) s (meaning q' r)).1
        · have h1 : contributes (L := L) q' r (.caption t) = [] := by
            simp [contributes, h]
          exact head hq (by rw [h1]; rfl) (by rw [h1]; rfl)
      | part n t => exact head (by cases hn; rfl) rfl rfl
      | chapter n t => exact head (by cases hn; rfl) rfl rfl
      | section_ n t => exact head (by cases hn; rfl) rfl rfl
      | subsection n t =>
        refine head ?_ rfl rfl
        simp only [next] at hn
        split at hn <;> cases hn
        rfl
      | division n t =>
        refine head ?_ rfl rfl
        simp only [next] at hn
        split at hn <;> cases hn
        rfl
      | article n t =>
        have hi : ∀ x ∈ [Piece.paragraph ⟨1, [], []⟩, saying (L := L) 1 t], Inside x := by
          simp [saying, Inside]
        have h1 : ∀ s : List (List (Piece L)), NotWaiting s →
            (contributes q' r (.article n t)).foldl cutPiece s =
              ([Piece.paragraph ⟨1, [], []⟩, saying 1 t].reverse ++
                [.article q'.path n (SaysDeleted t)]) :: s := by
          intro s hs
          rw [contributes, List.foldl_cons, cut_article hs, cut_inside hi]
        rw [h1 s hs, h1 [] (fun t r h => by cases h)]
        exact (cut_append (s := [_]) (List.cons_ne_nil _ _) s (meaning q' r)).1
      | paragraph n t =>
        rcases hb with hb | hb
        · rw [next, hb] at hn; cases hn
        · exact absurd trivial (hb _ _ rfl)
      | item n t =>
        rcases hb with hb | hb
        · rw [next, hb] at hn; cases hn
        · exact absurd trivial (hb _ _ rfl)
      | text t =>
        rcases hb with hb | hb
        · rw [next, hb] at hn; cases hn
        · exact absurd trivial (hb _ _ rfl)
      | suppl n => cases hn

/-! ## Editing an article -/

/-- The pieces of a text in which one article is singled out. -/
theorem meaning_edit (a b : List TextLine) (n : ArticleNumber) (ha : leftOver start a = [])
    (hb : ∀ l r, b = l :: r → ¬ WithinArticle l) :
    ∃ (P Q : List (Piece L)) (path : List Spec.Kind) (U : List (Around × UnitView L)),
      (∀ s, NotWaiting s → Q.foldl cutPiece s = Q.foldl cutPiece [] ++ s) ∧
      ∀ t m, (∀ l ∈ m, WithinArticle l) → ∃ ps, (∀ x ∈ ps, Inside x) ∧
        meaning start (a ++ .article n t :: (m ++ b)) =
          P ++ .article path n (SaysDeleted t) :: (ps ++ Q) ∧
        unitsOfLines start [] (a ++ .article n t :: (m ++ b)) = U := by
  obtain ⟨P, q, u, v, h⟩ := meaning_before (L := L) a start ha
  refine ⟨P, meaning ⟨q.path, .article [] 1⟩ b, q.path, u [] ++
    (v [], (.article, n, Spec.plainText [])) :: unitsOfLines ⟨q.path, .article [] 1⟩ (v []) b,
    fun s hs => cut_after b _ (.inr hb) s hs, fun t m hm => ?_⟩
  obtain ⟨ps, i, k, h1, h2, h3⟩ := meaning_within (L := L) m hm q.path [] 1 b
  refine ⟨.paragraph ⟨1, [], []⟩ :: saying 1 t :: ps, ?_, ?_, ?_⟩
  · intro x hx
    rcases List.mem_cons.1 hx with rfl | hx
    · trivial
    rcases List.mem_cons.1 hx with rfl | hx
    · trivial
    exact h1 x hx
  · rw [(h n t _).1, meaning]
    simp only [next]
    rw [h2, (meaning_after b hb q.path (.article i k) (.article [] 1)).1]
    rfl
  · rw [(h n t _).2, unitsOfLines]
    simp only [next, headingOf, articleOf]
    rw [h3, (meaning_after b hb q.path (.article i k) (.article [] 1)).2]

/-- What an article is called in its pieces. -/
theorem article_called {p path : List Spec.Kind} {x : Article L} {c ps : List (Piece L)}
    {n : ArticleNumber} {d : Prop} (hc : ∀ y ∈ c, ∃ t, y = .caption t)
    (h : Spec.article p x = c ++ .article path n d :: ps) :
    x.num = n ∧ c = x.caption.toList.map fun y => .caption y.text := by
  rw [Spec.article] at h
  cases hx : x.caption with
  | none =>
    rw [hx] at h
    cases c with
    | nil =>
      simp at h
      exact ⟨h.1.2.1, rfl⟩
    | cons y c =>
      obtain ⟨t, rfl⟩ := hc y (by simp)
      simp at h
  | some z =>
    rw [hx] at h
    cases c with
    | nil => simp at h
    | cons y c =>
      cases c with
      | nil =>
        simp at h
        exact ⟨h.2.1.2.1, by simp [h.1]⟩
      | cons w c =>
        obtain ⟨t, rfl⟩ := hc w (by simp)
        simp at h

/-- Is it a piece of a paragraph? -/
def isInside : Piece L → Bool
  | .paragraph _ | .item _ _ _ | .sentence _ _ => true
  | _ => false

theorem isInside_iff (x : Piece L) : isInside x = true ↔ Inside x := by
  cases x <;> simp [isInside, Inside]

theorem main_outside {l : List (MainProvisionContents L)} (hl : ∀ c ∈ l, MainBuilt c) :
    (l.flatMap mainChild).takeWhile isInside = [] := by
  cases l with
  | nil => rfl
  | cons c l =>
    have hc := hl c (by simp)
    rw [List.flatMap_cons]
    cases c with
    | part x => rfl
    | chapter x => rfl
    | section_ x => rfl
    | article a =>
      rw [mainChild, Spec.article]
      cases a.caption <;> rfl
    | paragraph p => exact hc.elim

theorem preamble_takeWhile {title : List Char} {b : LawBody L} (hb : BodyBuilt title b) :
    (document b).takeWhile isInside =
      b.preamble.toList.flatMap fun p => p.children.flatMap Spec.paragraph := by
  rw [document, List.takeWhile_append_of_pos, main_outside hb.children, List.append_nil]
  intro x hx
  obtain ⟨p, -, hp⟩ := List.mem_flatMap.1 hx
  exact (isInside_iff x).2 (paragraphs_inside _ x hp)

theorem preamble_determined {title title' : List Char} {b b' : LawBody L} (hb : BodyBuilt title b)
    (hb' : BodyBuilt title' b')
    (h : (document b).takeWhile isInside = (document b').takeWhile isInside) :
    b.preamble = b'.preamble := by
  rw [preamble_takeWhile hb, preamble_takeWhile hb'] at h
  have h1 := C85_pieces_determine_law [] (smallBody b.preamble []) (smallBody b'.preamble [])
    (smallBody_built hb.preamble (by simp)) (smallBody_built hb'.preamble (by simp))
    (by simpa [document, smallBody] using h)
  exact congrArg (fun b => b.preamble) h1

theorem takeWhile_then {α : Type} {p : α → Bool} (l : List α) {r : List α} (h : r.takeWhile p = []) :
    (l ++ r).takeWhile p = l.takeWhile p := by
  induction l with
  | nil => exact h
  | cons x l ih => rw [List.cons_append, List.takeWhile_cons, List.takeWhile_cons, ih]

theorem takeWhile_stop {α : Type} {p : α → Bool} {x y : α} (hx : p x = false) (hy : p y = false)
    (l r r' : List α) : (l ++ x :: r).takeWhile p = (l ++ y :: r').takeWhile p := by
  induction l with
  | nil => simp [hx, hy]
  | cons z l ih =>
    rw [List.cons_append, List.cons_append, List.takeWhile_cons, List.takeWhile_cons, ih]

theorem groups_split {gs r : List (List (Piece L))} {g : List (Piece L)} {as : List (Article L)}
    (h : GroupsOf (gs ++ g :: r) as) :
    ∃ A x B, as = A ++ x :: B ∧ GroupsOf gs A ∧ GroupsOf r B ∧
      (∃ p, g = (Spec.article p x).reverse) ∧ ArticleBuilt x := by
  induction gs generalizing as with
  | nil =>
    cases h with
    | @cons _ x _ B h1 h2 => exact ⟨[], x, B, rfl, .nil, h2, h1⟩
  | cons g' gs ih =>
    cases h with
    | @cons _ y _ B h1 h2 =>
      obtain ⟨A, x, B, rfl, h3, h4, h5⟩ := ih h2
      exact ⟨y :: A, x, B, rfl, .cons h1 h3, h4, h5⟩

/-- The groups of a document in which one article is singled out. -/
theorem cut_edit (P : List (Piece L)) (path : List Spec.Kind) (n : ArticleNumber) :
    ∃ (c : List (Piece L)) (r : List (List (Piece L))), (∀ y ∈ c, ∃ t, y = .caption t) ∧
      ∀ (d : Prop) (ps Q : List (Piece L)), (∀ y ∈ ps, Inside y) →
        (∀ s, NotWaiting s → Q.foldl cutPiece s = Q.foldl cutPiece [] ++ s) →
        (P ++ .article path n d :: (ps ++ Q)).foldl cutPiece [] =
          Q.foldl cutPiece [] ++ (ps.reverse ++ .article path n d :: c) :: r := by
  have close : ∀ (d : Prop) (ps c : List (Piece L)) r,
      NotWaiting ((ps.reverse ++ .article path n d :: c) :: r) := by
    intro d ps c r t r' h
    injection h with h1 _
    have : Piece.article path n d ∈ [Piece.caption t] := by rw [← h1]; simp
    simp at this
  by_cases hc : NotWaiting (P.foldl cutPiece ([] : List (List (Piece L))))
  · refine ⟨[], P.foldl cutPiece [], by simp, fun d ps Q hp hQ => ?_⟩
    rw [List.foldl_append, List.foldl_cons, List.foldl_append, cut_article hc, cut_inside hp,
      hQ _ (close d ps [] _)]
  · have : ∃ t r, P.foldl cutPiece ([] : List (List (Piece L))) = [.caption t] :: r := by
      by_contra h
      exact hc fun t r he => h ⟨t, r, he⟩
    obtain ⟨t, r, he⟩ := this
    refine ⟨[.caption t], r, by simp, fun d ps Q hp hQ => ?_⟩
    rw [List.foldl_append, List.foldl_cons, List.foldl_append, he]
    simp only [cutPiece]
    rw [cut_inside hp, hQ _ (close d ps _ _)]

/-- C96. Editing one article changes no other article: two texts whose lines differ only in what is
said in one article, which has the same number in both, give laws with the same preamble and the same
units; their articles are the same but for this one, which has the same caption in both. -/
theorem C96_edit (E : Ext) (fuel fuel' : Nat) (title text text' : List Char) (a b m m' : List TextLine)
    (n : ArticleNumber) (t t' : List Char) (x x' : LawBody L)
    (hl : readLines E text = .ok (a ++ .article n t :: (m ++ b)))
    (hl' : readLines E text' = .ok (a ++ .article n t' :: (m' ++ b)))
    (ha : leftOver start a = []) (hm : ∀ l ∈ m, WithinArticle l) (hm' : ∀ l ∈ m', WithinArticle l)
    (hb : ∀ l r, b = l :: r → ¬ WithinArticle l)
    (h : parseBody E fuel title text = .ok (some x))
    (h' : parseBody E fuel' title text' = .ok (some x')) :
    x.preamble = x'.preamble ∧
    (x.main_provision.units.map fun p =>
        (p.1.map fun u => (u.kind, u.num), (p.2.kind, p.2.num, p.2.title))) =
      (x'.main_provision.units.map fun p =>
        (p.1.map fun u => (u.kind, u.num), (p.2.kind, p.2.num, p.2.title))) ∧
    ∃ before after u u',
      (articleListFromMainProvision x.main_provision).1 = before ++ u :: after ∧
      (articleListFromMainProvision x'.main_provision).1 = before ++ u' :: after ∧
      u.num = n ∧ u'.num = n ∧ u.caption = u'.caption := by
  obtain ⟨P, Q, path, U, hQ, hU⟩ := meaning_edit (L := L) a b n ha hb
  obtain ⟨ps, h1, h2, h3⟩ := hU t m hm
  obtain ⟨ps', h1', h2', h3'⟩ := hU t' m' hm'
  have hx := C72_shape E fuel title text x h
  have hx' := C72_shape E fuel' title text' x' h'
  obtain ⟨ls, hls, hd⟩ := C52_document E fuel title text x h
  obtain ⟨ls', hls', hd'⟩ := C52_document E fuel' title text' x' h'
  rw [hl] at hls
  rw [hl'] at hls'
  cases hls
  cases hls'
  rw [h2] at hd
  rw [h2'] at hd'
  refine ⟨?_, ?_, ?_⟩
  · apply preamble_determined hx hx'
    rw [hd, hd']
    exact takeWhile_stop rfl rfl _ _ _
  · obtain ⟨k, hk, hu⟩ := C95_units E fuel title text x h
    obtain ⟨k', hk', hu'⟩ := C95_units E fuel' title text' x' h'
    rw [hl] at hk
    rw [hl'] at hk'
    cases hk
    cases hk'
    rw [hu, hu', h3, h3']
  · have g := document_cuts hx
    have g' := document_cuts hx'
    obtain ⟨c, r, hc, hcut⟩ := cut_edit P path n
    rw [hd, hcut _ ps Q h1 hQ] at g
    rw [hd', hcut _ ps' Q h1' hQ] at g'
    obtain ⟨A, u, B, e1, e2, e3, ⟨p, e4⟩, e5⟩ := groups_split g
    obtain ⟨A', u', B', f1, f2, f3, ⟨p', f4⟩, f5⟩ := groups_split g'
    have hA := groups_determine e2 f2
    have hB := groups_determine e3 f3
    subst hA hB
    have e6 : Spec.article p u = c.reverse ++ .article path n (SaysDeleted t) :: ps := by
      rw [← List.reverse_reverse (Spec.article p u), ← e4]
      simp
    have f6 : Spec.article p' u' = c.reverse ++ .article path n (SaysDeleted t') :: ps' := by
      rw [← List.reverse_reverse (Spec.article p' u'), ← f4]
      simp
    have e7 := article_called (fun y hy => hc y (by simpa using hy)) e6
    have f7 := article_called (fun y hy => hc y (by simpa using hy)) f6
    refine ⟨B.reverse, A.reverse, u, u', ?_, ?_, e7.1, f7.1, ?_⟩
    · rw [← List.reverse_reverse (articleListFromMainProvision x.main_provision).1, e1]
      simp
    · rw [← List.reverse_reverse (articleListFromMainProvision x'.main_provision).1, f1]
      simp
    · have := e7.2.symm.trans f7.2
      rcases e5.caption with hu | ⟨s, hu⟩ <;> rcases f5.caption with hu' | ⟨s', hu'⟩ <;>
        rw [hu, hu'] at this ⊢ <;> simp at this ⊢
      exact this

/-! ## Adding lines at the end -/

theorem last_tail {l : TextLine} {ls : List TextLine}
    (hc : ∀ t, (l :: ls).getLast? ≠ some (.caption t)) : ∀ t, ls.getLast? ≠ some (.caption t) := by
  intro t ht
  cases ls with
  | nil => cases ht
  | cons y ls => exact hc t (by rw [List.getLast?_cons_cons]; exact ht)

theorem contributes_then {l : TextLine} {ls : List TextLine}
    (hc : ∀ t, (l :: ls).getLast? ≠ some (.caption t)) (q : State) (r : List TextLine) :
    contributes (L := L) q (ls ++ r) l = contributes q ls l := by
  cases l with
  | caption s =>
    cases ls with
    | nil => exact absurd rfl (hc s)
    | cons y ls => cases y <;> rfl
  | _ => rfl

/-- Is it a heading? -/
def isHeading (l : TextLine) : Bool := (headingOf l).isSome

theorem next_path {q q' : State} {l : TextLine} (h : next q l = some q') (hl : isHeading l = false) :
    q'.path = q.path := by
  cases l with
  | part n t => cases hl
  | chapter n t => cases hl
  | section_ n t => cases hl
  | subsection n t => cases hl
  | division n t => cases hl
  | suppl n => cases h
  | caption t => cases h; rfl
  | article n t => cases h; rfl
  | paragraph n t => simp only [next] at h; split at h <;> cases h; rfl
  | item n t => simp only [next] at h; split at h <;> cases h; rfl
  | text t => simp only [next] at h; split at h <;> cases h <;> rfl

theorem meaning_then (ls : List TextLine) (q : State) (h : leftOver q ls = [])
    (hc : ∀ t, ls.getLast? ≠ some (.caption t)) :
    ∃ (q' : State) (v : Around → Around),
      ((∀ l ∈ ls, isHeading l = false) → q'.path = q.path ∧ v = id) ∧ ∀ r,
      leftOver q (ls ++ r) = leftOver q' r ∧
      meaning (L := L) q (ls ++ r) = meaning q ls ++ meaning q' r ∧
      ∀ o, unitsOfLines (L := L) q o (ls ++ r) = unitsOfLines q o ls ++ unitsOfLines q' (v o) r := by
  induction ls generalizing q with
  | nil => exact ⟨q, id, fun _ => ⟨rfl, rfl⟩, fun r => ⟨rfl, rfl, fun _ => rfl⟩⟩
  | cons l ls ih =>
    rw [leftOver.eq_def] at h
    simp only at h
    cases hn : next q l with
    | none => rw [hn] at h; cases h
    | some q1 =>
      rw [hn] at h
      obtain ⟨q', v, h0, h1⟩ := ih q1 h (last_tail hc)
      have hlm : ∀ r, leftOver q (l :: ls ++ r) = leftOver q' r ∧
          meaning (L := L) q (l :: ls ++ r) = meaning q (l :: ls) ++ meaning q' r := by
        intro r
        rw [List.cons_append, leftOver, meaning, meaning, hn]
        simp only
        rw [(h1 r).1, (h1 r).2.1, contributes_then hc, List.append_assoc]
        exact ⟨rfl, rfl⟩
      have same : (∀ y ∈ l :: ls, isHeading y = false) → q'.path = q.path ∧ v = id := by
        intro hh
        have := h0 fun y hy => hh y (by simp [hy])
        exact ⟨this.1.trans (next_path hn (hh l (by simp))), this.2⟩
      cases hh : headingOf l with
      | some x =>
        obtain ⟨k, m, s⟩ := x
        refine ⟨q', fun o => v (o.take (q1.path.length - 1) ++ [(k.unit, m)]),
          fun hy => ?_, fun r => ⟨(hlm r).1, (hlm r).2, fun o => ?_⟩⟩
        · have := hy l (by simp)
          simp [isHeading, hh] at this
        · rw [List.cons_append, unitsOfLines, unitsOfLines, hn]
          simp only [hh]
          rw [(h1 r).2.2, List.cons_append]
      | none =>
        refine ⟨q', v, same, fun r => ⟨(hlm r).1, (hlm r).2, fun o => ?_⟩⟩
        rw [List.cons_append, unitsOfLines, unitsOfLines, hn]
        simp only [hh]
        cases articleOf l with
        | some m =>
          simp only
          rw [(h1 r).2.2, List.cons_append]
        | none => exact (h1 r).2.2 o

theorem inside_closed {ps : List (Piece L)} (hp : ∀ x ∈ ps, Inside x) {s : List (List (Piece L))}
    (hs : NotWaiting s) : NotWaiting (ps.foldl cutPiece s) := by
  induction ps generalizing s with
  | nil => exact hs
  | cons x ps ih =>
    have hx := hp x (by simp)
    refine ih (fun y hy => hp y (by simp [hy])) ?_
    cases x <;> first | exact hx.elim | skip
    all_goals
      cases s with
      | nil => exact hs
      | cons g r => intro t r h; simp [cutPiece] at h

theorem article_closed (s : List (List (Piece L))) (p : List Spec.Kind) (n : ArticleNumber) (d : Prop) :
    NotWaiting (cutPiece s (.article p n d)) := by
  by_cases h : NotWaiting s
  · rw [cut_article h]
    intro t r h
    simp at h
  · have : ∃ t r, s = [.caption t] :: r := by
      by_contra hn
      exact h fun t r he => hn ⟨t, r, he⟩
    obtain ⟨t, r, rfl⟩ := this
    intro t' r' h
    simp [cutPiece] at h

/-- After lines that do not end with a caption, no caption is waiting for its article. -/
theorem meaning_closed (a : List TextLine) (q : State) (h : leftOver q a = [])
    (hc : ∀ t, a.getLast? ≠ some (.caption t)) (s : List (List (Piece L)))
    (hs : NotWaiting s ∨ beforeArticle a = true) : NotWaiting ((meaning q a).foldl cutPiece s) := by
  induction a generalizing q s with
  | nil =>
    rcases hs with hs | hs
    · exact hs
    · cases hs
  | cons l r ih =>
    rw [leftOver.eq_def] at h
    simp only at h
    cases hn : next q l with
    | none => rw [hn] at h; cases h
    | some q' =>
      rw [hn] at h
      rw [meaning, hn]
      simp only
      rw [List.foldl_append]
      have ih' := ih q' h (last_tail hc)
      cases l with
      | caption t =>
        by_cases hb : beforeArticle r = true
        · exact ih' _ (.inr hb)
        · have h1 : contributes (L := L) q' r (.caption t) = [] := by
            simp [contributes, hb]
          rw [h1]
          refine ih' _ (.inl ?_)
          rcases hs with hs | hs
          · exact hs
          · cases hs
      | article n t =>
        refine ih' _ (.inl ?_)
        rw [contributes, List.foldl_cons]
        exact inside_closed (by simp [saying, Inside]) (article_closed _ _ _ _)
      | suppl n => cases hn
      | paragraph n t =>
        rcases hs with hs | hs
        · exact ih' _ (.inl (inside_closed (by simp [contributes, saying, Inside]) hs))
        · cases hs
      | item n t =>
        rcases hs with hs | hs
        · refine ih' _ (.inl (inside_closed ?_ hs))
          rw [contributes]
          split <;> simp [saying, Inside]
        · cases hs
      | text t =>
        rcases hs with hs | hs
        · refine ih' _ (.inl (inside_closed ?_ hs))
          rw [contributes]
          split <;> simp [saying, Inside]
        · cases hs
      | _ =>
        rcases hs with hs | hs
        · exact ih' _ (.inl hs)
        · cases hs

theorem groups_append {gs r : List (List (Piece L))} {as : List (Article L)}
    (h : GroupsOf (gs ++ r) as) : ∃ A B, as = A ++ B ∧ GroupsOf gs A ∧ GroupsOf r B := by
  induction gs generalizing as with
  | nil => exact ⟨[], as, rfl, .nil, h⟩
  | cons g' gs ih =>
    cases h with
    | @cons _ y _ B h1 h2 =>
      obtain ⟨A, B, rfl, h3, h4⟩ := ih h2
      exact ⟨y :: A, B, rfl, .cons h1 h3, h4⟩

/-- Lines that start outside an article do not start with pieces of a paragraph. -/
theorem meaning_outside (b : List TextLine) (q : State)
    (hb : q.place = .heading ∨ ∀ l r, b = l :: r → ¬ WithinArticle l) :
    (meaning (L := L) q b).takeWhile isInside = [] := by
  induction b generalizing q with
  | nil => rfl
  | cons l r ih =>
    rw [meaning]
    cases hn : next q l with
    | none => rfl
    | some q' =>
      simp only
      cases l with
      | caption t =>
        by_cases h : beforeArticle r = true
        · simp [contributes, h, isInside]
        · have h1 : contributes (L := L) q' r (.caption t) = [] := by
            simp [contributes, h]
          rw [h1]
          exact ih q' (.inl (by cases hn; rfl))
      | paragraph n t =>
        rcases hb with hb | hb
        · rw [next, hb] at hn; cases hn
        · exact absurd trivial (hb _ _ rfl)
      | item n t =>
        rcases hb with hb | hb
        · rw [next, hb] at hn; cases hn
        · exact absurd trivial (hb _ _ rfl)
      | text t =>
        rcases hb with hb | hb
        · rw [next, hb] at hn; cases hn
        · exact absurd trivial (hb _ _ rfl)
      | suppl n => cases hn
      | _ => rfl

theorem leftOver_left {q : State} {a m : List TextLine} (h : leftOver q (a ++ m) = []) :
    leftOver q a = [] := by
  induction a generalizing q with
  | nil => rfl
  | cons l a ih =>
    rw [List.cons_append, leftOver.eq_def] at h
    rw [leftOver.eq_def]
    simp only at h ⊢
    split at h
    · rename_i q1 hn
      exact ih h
    · cases h

/-- C96. Lines added at the end of a text, the first of which is a heading, a caption or an article,
add articles and units after those of the text and change nothing else, if all lines of the text were
in place and the last one is no caption. -/
theorem C96_append (E : Ext) (fuel fuel' : Nat) (title text text' : List Char) (ls r : List TextLine)
    (x x' : LawBody L) (hl : readLines E text = .ok ls) (hl' : readLines E text' = .ok (ls ++ r))
    (ha : leftOver start ls = []) (hc : ∀ t, ls.getLast? ≠ some (.caption t))
    (hr : ∀ l b, r = l :: b → ¬ WithinArticle l)
    (h : parseBody E fuel title text = .ok (some x))
    (h' : parseBody E fuel' title text' = .ok (some x')) :
    x'.preamble = x.preamble ∧
    (∃ more, (articleListFromMainProvision x'.main_provision).1 =
      (articleListFromMainProvision x.main_provision).1 ++ more) ∧
    ∃ more, (x'.main_provision.units.map fun p =>
        (p.1.map fun u => (u.kind, u.num), (p.2.kind, p.2.num, p.2.title))) =
      (x.main_provision.units.map fun p =>
        (p.1.map fun u => (u.kind, u.num), (p.2.kind, p.2.num, p.2.title))) ++ more := by
  obtain ⟨q, v, -, hr'⟩ := meaning_then (L := L) ls start ha hc
  obtain ⟨-, h1, h2⟩ := hr' r
  have hx := C72_shape E fuel title text x h
  have hx' := C72_shape E fuel' title text' x' h'
  obtain ⟨_, hls, hd⟩ := C52_document E fuel title text x h
  obtain ⟨_, hls', hd'⟩ := C52_document E fuel' title text' x' h'
  rw [hl] at hls
  rw [hl'] at hls'
  cases hls
  cases hls'
  rw [h1, ← hd] at hd'
  have g := document_cuts hx
  have g' := document_cuts hx'
  have hq := cut_after (L := L) r q (.inr hr)
  refine ⟨?_, ?_, ?_⟩
  · apply preamble_determined hx' hx
    rw [hd', takeWhile_then _ (meaning_outside r q (.inr hr))]
  · rw [hd', List.foldl_append, hq _ g.closed] at g'
    obtain ⟨A, B, e1, e2, e3⟩ := groups_append g'
    refine ⟨A.reverse, ?_⟩
    rw [← groups_determine g e3] at e1
    rw [← List.reverse_reverse (articleListFromMainProvision x'.main_provision).1, e1]
    simp
  · obtain ⟨_, hk, hu⟩ := C95_units E fuel title text x h
    obtain ⟨_, hk', hu'⟩ := C95_units E fuel' title text' x' h'
    rw [hl] at hk
    rw [hl'] at hk'
    cases hk
    cases hk'
    exact ⟨unitsOfLines q (v []) r, by rw [hu, hu', h2]⟩

/-- C96. Articles put between two lines of a text (or taken out) leave the others as they are: the
lines put in hold no heading and start with an article or a caption, the lines before do not end with
a caption, and the lines after do not go on with an article. -/
theorem C96_insert (E : Ext) (fuel fuel' : Nat) (title text text' : List Char)
    (a m b : List TextLine) (x x' : LawBody L) (hl : readLines E text = .ok (a ++ b))
    (hl' : readLines E text' = .ok (a ++ (m ++ b))) (ha : leftOver start (a ++ m) = [])
    (hca : ∀ t, a.getLast? ≠ some (.caption t)) (hcm : ∀ t, m.getLast? ≠ some (.caption t))
    (hm : ∀ l ∈ m, isHeading l = false) (hm' : ∀ l r, m = l :: r → ¬ WithinArticle l)
    (hb : ∀ l r, b = l :: r → ¬ WithinArticle l)
    (h : parseBody E fuel title text = .ok (some x))
    (h' : parseBody E fuel' title text' = .ok (some x')) :
    x'.preamble = x.preamble ∧
    (∃ before more after,
      (articleListFromMainProvision x.main_provision).1 = before ++ after ∧
      (articleListFromMainProvision x'.main_provision).1 = before ++ more ++ after) ∧
    ∃ before more after,
      (x.main_provision.units.map fun p =>
        (p.1.map fun u => (u.kind, u.num), (p.2.kind, p.2.num, p.2.title))) = before ++ after ∧
      (x'.main_provision.units.map fun p =>
        (p.1.map fun u => (u.kind, u.num), (p.2.kind, p.2.num, p.2.title))) =
        before ++ more ++ after := by
  have ha' : leftOver start a = [] := leftOver_left ha
  obtain ⟨q, v, -, hr⟩ := meaning_then (L := L) a start ha' hca
  have hm1 : leftOver q m = [] := (hr m).1.symm.trans ha
  obtain ⟨q', w, hq', hr'⟩ := meaning_then (L := L) m q hm1 hcm
  obtain ⟨hq, rfl⟩ := hq' hm
  have hmb : meaning (L := L) q (m ++ b) = meaning q m ++ meaning q b ∧
      ∀ o, unitsOfLines (L := L) q o (m ++ b) = unitsOfLines q o m ++ unitsOfLines q o b := by
    obtain ⟨path, p⟩ := q
    obtain ⟨path', p'⟩ := q'
    obtain rfl : path' = path := hq
    obtain ⟨e1, e2⟩ := meaning_after (L := L) b hb path' p p'
    exact ⟨by rw [(hr' b).2.1, e1], fun o => by rw [(hr' b).2.2, e2]; rfl⟩
  have hx := C72_shape E fuel title text x h
  have hx' := C72_shape E fuel' title text' x' h'
  obtain ⟨_, hls, hd⟩ := C52_document E fuel title text x h
  obtain ⟨_, hls', hd'⟩ := C52_document E fuel' title text' x' h'
  rw [hl] at hls
  rw [hl'] at hls'
  cases hls
  cases hls'
  rw [(hr b).2.1] at hd
  rw [(hr (m ++ b)).2.1] at hd'
  refine ⟨?_, ?_, ?_⟩
  · apply preamble_determined hx' hx
    rw [hd, hd', takeWhile_then _ (meaning_outside b q (.inr hb)), takeWhile_then]
    rw [hmb.1]
    have := meaning_outside (L := L) m q (.inr hm')
    cases m with
    | nil => exact meaning_outside b q (.inr hb)
    | cons l m =>
      rw [← hmb.1]
      exact meaning_outside _ q (.inr fun l' r' e => by
        injection e with e1 _
        exact hm' l' m (by rw [e1]))
  · have g := document_cuts hx
    have g' := document_cuts hx'
    have hP := meaning_closed (L := L) a start ha' hca [] (.inl fun t r h => by cases h)
    have hM := meaning_closed (L := L) m q hm1 hcm _ (.inl hP)
    rw [hd, List.foldl_append, cut_after b q (.inr hb) _ hP] at g
    rw [hd', hmb.1, List.foldl_append, List.foldl_append, cut_after b q (.inr hb) _ hM,
      cut_after m q (.inr hm') _ hP] at g'
    obtain ⟨A, B, e1, e2, e3⟩ := groups_append g
    obtain ⟨A', B', f1, f2, f3⟩ := groups_append g'
    obtain ⟨M, B'', rfl, f4, f5⟩ := groups_append f3
    have hA := groups_determine e2 f2
    have hB := groups_determine e3 f5
    subst hA hB
    refine ⟨B.reverse, M.reverse, A.reverse, ?_, ?_⟩
    · rw [← List.reverse_reverse (articleListFromMainProvision x.main_provision).1, e1]
      simp
    · rw [← List.reverse_reverse (articleListFromMainProvision x'.main_provision).1, f1]
      simp
  · obtain ⟨_, hk, hu⟩ := C95_units E fuel title text x h
    obtain ⟨_, hk', hu'⟩ := C95_units E fuel' title text' x' h'
    rw [hl] at hk
    rw [hl'] at hk'
    cases hk
    cases hk'
    refine ⟨unitsOfLines start [] a, unitsOfLines q (v []) m, unitsOfLines q (v []) b, ?_, ?_⟩
    · rw [hu, (hr b).2.2]
    · rw [hu', (hr (m ++ b)).2.2, hmb.2, List.append_assoc]

/-! ## Examples -/

/-- A text; the second article is edited, another one is put behind it. -/
def editText : List Char := "前文\n第一章　総則\n（目的）\n第一条　甲\n第二条　乙\n第二章　雑則\n第三条　丙".toList

/-- The first article has other paragraphs and items. -/
def editText' : List Char :=
  "前文\n第一章　総則\n（目的）\n第一条　丁\n２　戊\n一　己\n続き\n第二条　乙\n第二章　雑則\n第三条　丙".toList

/-- A text with one more article. -/
def insertText : List Char :=
  "前文\n第一章　総則\n（目的）\n第一条　甲\n（新設）\n第一条の二　丁\n２　戊\n第二条　乙\n第二章　雑則\n第三条　丙".toList

/-- The lines differ only in the first article, and everything is in place. -/
example :
    let a : List TextLine := [.text "前文".toList, .chapter ⟨1, [], []⟩ "総則".toList,
      .caption "目的".toList]
    let b : List TextLine := [.article ⟨2, [], []⟩ "乙".toList, .chapter ⟨2, [], []⟩ "雑則".toList,
      .article ⟨3, [], []⟩ "丙".toList]
    let m : List TextLine := [.paragraph ⟨2, [], []⟩ "戊".toList,
      .item ⟨"一".toList, 1, [], [], .noParenKansuji⟩ "己".toList, .text "続き".toList]
    (match readLines kanjiExt editText with | .ok l => l | _ => []) =
        a ++ .article ⟨1, [], []⟩ "甲".toList :: ([] ++ b) ∧
      (match readLines kanjiExt editText' with | .ok l => l | _ => []) =
        a ++ .article ⟨1, [], []⟩ "丁".toList :: (m ++ b) ∧
      leftOver start a = [] := by
  decide +kernel

/-- The articles of the laws built from them. -/
example : ([editText, editText', insertText].map fun t =>
      match parseBody (L := lvl 1) kanjiExt 20 "法".toList t with
      | .ok (some b) => (articleListFromMainProvision b.main_provision).1.map fun a =>
          ((a.num.base_number, a.num.eda_numbers), a.caption.isSome,
            (textInfoListFromParagraph (render 1) a.paragraph).map fun e => e.2)
      | _ => []) =
    [[((1, []), true, ["甲"]), ((2, []), false, ["乙"]), ((3, []), false, ["丙"])],
      [((1, []), true, ["丁", "戊", "己続き"]), ((2, []), false, ["乙"]), ((3, []), false, ["丙"])],
      [((1, []), true, ["甲"]), ((1, [2]), true, ["丁", "戊"]), ((2, []), false, ["乙"]),
        ((3, []), false, ["丙"])]] := by
  decide +kernel

/-- The hypotheses of C96_insert. -/
example :
    let a : List TextLine := [.text "前文".toList, .chapter ⟨1, [], []⟩ "総則".toList,
      .caption "目的".toList, .article ⟨1, [], []⟩ "甲".toList]
    let b : List TextLine := [.article ⟨2, [], []⟩ "乙".toList, .chapter ⟨2, [], []⟩ "雑則".toList,
      .article ⟨3, [], []⟩ "丙".toList]
    let m : List TextLine := [.caption "新設".toList, .article ⟨1, [2], []⟩ "丁".toList,
      .paragraph ⟨2, [], []⟩ "戊".toList]
    (match readLines kanjiExt editText with | .ok l => l | _ => []) = a ++ b ∧
      (match readLines kanjiExt insertText with | .ok l => l | _ => []) = a ++ (m ++ b) ∧
      leftOver start (a ++ m) = [] ∧ m.all (fun l => !isHeading l) = true := by
  decide +kernel

/-- Without the hypothesis on the end of the lines before: an article put behind a caption takes the
caption, and the article after it loses it. -/
example : (["（目的）\n第一条　甲", "（目的）\n第二条　乙\n第一条　甲"].map fun t =>
      match parseBody (L := lvl 1) kanjiExt 20 "法".toList t.toList with
      | .ok (some b) => (articleListFromMainProvision b.main_provision).1.map fun a =>
          (a.num.base_number, a.caption.isSome)
      | _ => []) = [[(1, true)], [(2, true), (1, false)]] := by
  decide +kernel

end JLaw
