import Verif.Lemmas.FromTextLines
import Verif.Spec.KeepLaw

/-!
# Which laws built from text survive writing and reading
-/

namespace JLaw

open Spec

variable {L : Lvl}

/-! ## Results with a property -/

/-- Every result has the property. -/
def Res.All {α : Type} (r : Res α) (P : α → Prop) : Prop := ∀ a, r = .ok a → P a

theorem Res.All.bind {α β : Type} {r : Res α} {f : α → Res β} {P : α → Prop} {Q : β → Prop}
    (h : r.All P) (hf : ∀ a, P a → (f a).All Q) : (r.bind f).All Q := by
  intro b hb
  obtain ⟨a, ha, hb⟩ := Res.bind_eq_ok.mp hb
  exact hf a (h a ha) b hb

theorem Res.All.ok {α : Type} {a : α} {P : α → Prop} (h : P a) : (Res.ok a).All P := by
  intro b hb; cases hb; exact h

theorem Res.All.panic {α : Type} {P : α → Prop} : (Res.panic : Res α).All P := by
  intro b hb; cases hb

/-! ## Numbers of pieces -/

/-- The number of a piece survives. -/
def PieceKeeps : Piece L → Prop
  | .heading _ n _ _ => n.Keeps
  | .article _ n _ => n.Keeps
  | .paragraph n => n.Keeps
  | .item _ n _ => ∃ k, n = some k ∧ k.Keeps
  | _ => True

/-- The numbers of all pieces survive. -/
def NumsKeep (ps : List (Piece L)) : Prop := ∀ x ∈ ps, PieceKeeps x

theorem numsKeep_append {a b : List (Piece L)} : NumsKeep (a ++ b) ↔ NumsKeep a ∧ NumsKeep b := by
  simp only [NumsKeep, List.mem_append]
  exact ⟨fun h => ⟨fun x hx => h x (.inl hx), fun x hx => h x (.inr hx)⟩,
    fun h x hx => hx.elim (h.1 x) (h.2 x)⟩

theorem numsKeep_cons {x : Piece L} {b : List (Piece L)} :
    NumsKeep (x :: b) ↔ PieceKeeps x ∧ NumsKeep b := by
  simp [NumsKeep]

theorem numsKeep_flatMap {α : Type} {f : α → List (Piece L)} {l : List α} :
    NumsKeep (l.flatMap f) ↔ ∀ x ∈ l, NumsKeep (f x) := by
  simp only [NumsKeep, List.mem_flatMap]
  exact ⟨fun h x hx y hy => h y ⟨x, hx, hy⟩, fun h y ⟨x, hx, hy⟩ => h x hx y hy⟩

theorem numsKeep_sentences (l : List (Sentence L)) : NumsKeep (l.map sentencePiece) := by
  intro x hx
  obtain ⟨s, _, rfl⟩ := List.mem_map.mp hx
  trivial

/-! ## Items -/

variable (K : Keep L)

theorem fromValue_keeps (s : String) : (Text.fromValue s : Text L).Keeps K := by
  intro c hc
  rw [List.mem_singleton.mp hc]
  trivial

theorem sentencesFrom_keeps (i : Nat) (l : List (List Char)) :
    ∀ s ∈ sentencesFrom (L := L) i l, s.Keeps K := by
  induction l generalizing i with
  | nil => intro s hs; cases hs
  | cons a l ih =>
    intro s hs
    rcases List.mem_cons.mp hs with rfl | hs
    · intro c hc
      rw [List.mem_singleton.mp hc]; trivial
    · exact ih _ s hs

theorem builtItem_keeps {γ : Type} {C : γ → Prop} {f : γ → List (Piece L)} {d : Nat}
    {n : ItemNumber} {text : List Char} {texts : List (List Char)} {children : List γ}
    (hc : ∀ c ∈ children, C c ↔ NumsKeep (f c)) :
    ItemOf.Keeps K C (builtItem n text texts children) ↔
      NumsKeep (itemPieces f d (builtItem n text texts children)) := by
  rw [itemPieces, numsKeep_append, numsKeep_cons, numsKeep_flatMap]
  constructor
  · rintro ⟨_, _, h1, _, h2⟩
    exact ⟨⟨h2, numsKeep_sentences _⟩, fun c hm => (hc c hm).mp (h1 c hm)⟩
  · rintro ⟨⟨h2, _⟩, h1⟩
    refine ⟨by (intro t ht; cases ht), ⟨by simp [sentencesFrom], sentencesFrom_keeps K 0 _⟩,
      fun c hm => (hc c hm).mpr (h1 c hm), by simp [builtItem], h2⟩

/-- Results of a reader for items. -/
def SubKeeps {γ : Type} (C : γ → Prop) (f : γ → List (Piece L)) (r : SubReader γ) : Prop :=
  ∀ parent now ls, (r parent now ls).All fun x => ∀ c ∈ x.1, C c ↔ NumsKeep (f c)

theorem parseSubitem_keeps {γ : Type} {C : γ → Prop} {f : γ → List (Piece L)} {deeper : SubReader γ}
    (h : SubKeeps C f deeper) (d : Nat) :
    SubKeeps (ItemOf.Keeps K C) (itemPieces f d) (parseSubitem deeper) := by
  intro parent now ls
  rw [parseSubitem]
  generalize ls.length = fuel
  induction fuel generalizing ls with
  | zero =>
    have : subitemLoop (L := L) deeper parent now 0 ls = .ok ([], ls) := by rw [subitemLoop]; simp
    rw [this]; exact Res.All.ok (by simp)
  | succ fuel ih =>
    have base : ∀ ls' : List TextLine, (Res.ok (([] : List (ItemOf L γ)), ls')).All
        fun x => ∀ c ∈ x.1, ItemOf.Keeps K C c ↔ NumsKeep (itemPieces f d c) :=
      fun ls' => Res.All.ok (by simp)
    cases ls with
    | nil => rw [subitemLoop]; exact base _; simp
    | cons l r =>
      cases l with
      | item n text =>
        rw [subitemLoop]
        split
        · exact base _
        · split
          · have hg : (goDeeper deeper parent now (takeTexts r).2).All
                fun x => ∀ c ∈ x.1, C c ↔ NumsKeep (f c) := by
              unfold goDeeper
              split
              · split
                · exact h _ _ _
                · exact Res.All.ok (by simp)
              · exact Res.All.ok (by simp)
            refine hg.bind fun x hx => (ih x.2).bind fun v hv => Res.All.ok ?_
            intro c hc
            rcases List.mem_cons.mp hc with rfl | hc
            · exact builtItem_keeps K hx
            · exact hv c hc
          · exact Res.All.panic
      | _ => rw [subitemLoop]; exact base _; simp

theorem parseSubitem1_keeps : SubKeeps (Subitem1.Keeps K) subitem1 parseSubitem1 :=
  parseSubitem_keeps K (parseSubitem_keeps K (parseSubitem_keeps K (parseSubitem_keeps K
    (parseSubitem_keeps K (parseSubitem_keeps K (parseSubitem_keeps K (parseSubitem_keeps K
    (parseSubitem_keeps K (parseSubitem_keeps K
      (fun _ _ _ => Res.All.ok (by simp)) 11) 10) 9) 8) 7) 6) 5) 4) 3) 2

theorem itemLoop_keeps (fuel : Nat) (ls : List TextLine) :
    (itemLoop (L := L) fuel ls).All fun x => ∀ c ∈ x.1, Item.Keeps K c ↔ NumsKeep (Spec.item c) := by
  induction fuel generalizing ls with
  | zero => rw [itemLoop]; exact Res.All.ok (by simp); simp
  | succ fuel ih =>
    cases ls with
    | nil => rw [itemLoop]; exact Res.All.ok (by simp); simp
    | cons l r =>
      cases l with
      | item n text =>
        rw [itemLoop]
        have hg : (goSubitem1 n.pattern (takeTexts r).2).All
            fun x => ∀ c ∈ x.1, Subitem1.Keeps K c ↔ NumsKeep (subitem1 c) := by
          unfold goSubitem1
          split
          · split
            · exact parseSubitem1_keeps K _ _ _
            · exact Res.All.ok (by simp)
          · exact Res.All.ok (by simp)
        refine hg.bind fun x hx => (ih x.2).bind fun v hv => Res.All.ok ?_
        intro c hc
        rcases List.mem_cons.mp hc with rfl | hc
        · exact builtItem_keeps K hx
        · exact hv c hc
      | _ => rw [itemLoop]; exact Res.All.ok (by simp); simp

/-! ## Paragraphs and articles -/

theorem parseParagraph_keeps (n : ArticleNumber) (s : List Char) (ls : List TextLine) :
    (parseParagraph (L := L) n s ls).All fun x => x.1.Keeps K ↔ NumsKeep (Spec.paragraph x.1) := by
  rw [parseParagraph]
  refine (itemLoop_keeps K _ _).bind fun c hc => Res.All.ok ?_
  rw [Spec.paragraph, numsKeep_append, numsKeep_cons, numsKeep_flatMap]
  constructor
  · rintro ⟨_, _, _, _, _, _, h1, h2⟩
    exact ⟨⟨h2, numsKeep_sentences _⟩, fun x hx => (hc x hx).mp (h1 x hx)⟩
  · rintro ⟨⟨h2, _⟩, h1⟩
    exact ⟨by (intro t ht; cases ht), by (intro c hc; cases hc), by simp, by simp,
      sentencesFrom_keeps K 0 _, by simp, fun x hx => (hc x hx).mpr (h1 x hx), h2⟩

theorem paragraphLoop_keeps (fuel : Nat) (ls : List TextLine) :
    (paragraphLoop (L := L) fuel ls).All fun x =>
      ∀ p ∈ x.1, p.Keeps K ↔ NumsKeep (Spec.paragraph p) := by
  induction fuel generalizing ls with
  | zero => rw [paragraphLoop]; exact Res.All.ok (by simp); simp
  | succ fuel ih =>
    cases ls with
    | nil => rw [paragraphLoop]; exact Res.All.ok (by simp); simp
    | cons l r =>
      cases l with
      | paragraph n text =>
        rw [paragraphLoop]
        refine (parseParagraph_keeps K n text r).bind fun x hx => (ih x.2).bind fun v hv =>
          Res.All.ok ?_
        intro c hc
        rcases List.mem_cons.mp hc with rfl | hc
        · exact hx
        · exact hv c hc
      | _ => rw [paragraphLoop]; exact Res.All.ok (by simp); simp

theorem parseArticle_keeps (path : List Kind) (caption : Option (List Char)) (n : ArticleNumber)
    (s : List Char) (ls : List TextLine) :
    (parseArticle (L := L) caption n s ls).All fun x =>
      x.1.Keeps K ↔ NumsKeep (Spec.article path x.1) := by
  rw [parseArticle, fromNumStr_one, Res.bind_ok]
  refine (parseParagraph_keeps K _ s ls).bind fun p hp => (paragraphLoop_keeps K _ _).bind fun v hv =>
    Res.All.ok ?_
  rw [Spec.article, numsKeep_append, numsKeep_cons, numsKeep_flatMap]
  have hall : ∀ x ∈ p.1 :: v.1, x.Keeps K ↔ NumsKeep (Spec.paragraph x) := by
    intro x hx
    rcases List.mem_cons.mp hx with rfl | hx
    · exact hp
    · exact hv x hx
  constructor
  · rintro ⟨_, _, h1, _, h2, _⟩
    refine ⟨?_, h2, fun x hx => (hall x hx).mp (h1 x hx)⟩
    intro x hx
    obtain ⟨c, _, rfl⟩ := List.mem_map.mp hx
    trivial
  · rintro ⟨_, h2, h1⟩
    refine ⟨?_, fromValue_keeps K _, fun x hx => (hall x hx).mpr (h1 x hx),
      by (intro t ht; cases ht), h2, Or.inl (by simp)⟩
    intro t ht
    cases caption with
    | none => cases ht
    | some c => cases ht; exact fromValue_keeps K _

/-! ## Units -/

theorem unitLoop_keeps {γ : Type} {C : γ → Prop} {f : List Kind → γ → List (Piece L)}
    {ofArticle : Article L → γ}
    {sub : TextLine → Option (List TextLine → Res (γ × List TextLine))} (path : List Kind)
    (ha : ∀ a, f path (ofArticle a) = Spec.article path a) (hC : ∀ a, C (ofArticle a) ↔ a.Keeps K)
    (hs : ∀ l g, sub l = some g → ∀ r, (g r).All fun x => C x.1 ↔ NumsKeep (f path x.1))
    (fuel : Nat) (c : Option (List Char)) (ls : List TextLine) :
    (unitLoop ofArticle sub fuel c ls).All fun x => ∀ v ∈ x.1, C v ↔ NumsKeep (f path v) := by
  induction fuel generalizing c ls with
  | zero => rw [unitLoop.eq_def]; exact Res.All.ok (by simp)
  | succ fuel ih =>
    cases ls with
    | nil => rw [unitLoop.eq_def]; exact Res.All.ok (by simp)
    | cons l r =>
      by_cases h1 : ∃ s, l = .caption s
      · obtain ⟨s, rfl⟩ := h1
        rw [unitLoop]; exact ih _ _
      · by_cases h2 : ∃ n s, l = .article n s
        · obtain ⟨n, s, rfl⟩ := h2
          rw [unitLoop]
          refine (parseArticle_keeps K path c n s r).bind fun x hx => (ih _ x.2).bind fun v hv =>
            Res.All.ok ?_
          intro w hw
          rcases List.mem_cons.mp hw with rfl | hw
          · rw [ha, hC]; exact hx
          · exact hv w hw
        · have hun : unitLoop ofArticle sub (fuel + 1) c (l :: r) = match sub l with
              | some f => (f r).bind fun x =>
                (unitLoop ofArticle sub fuel none x.2).bind fun v => .ok (x.1 :: v.1, v.2)
              | none => .ok ([], l :: r) := by
            cases l <;> first
              | rfl
              | exact absurd ⟨_, rfl⟩ h1
              | exact absurd ⟨_, _, rfl⟩ h2
          rw [hun]
          cases hsl : sub l with
          | none => exact Res.All.ok (by simp)
          | some g =>
            refine (hs l g hsl r).bind fun x hx => (ih _ x.2).bind fun v hv => Res.All.ok ?_
            intro w hw
            rcases List.mem_cons.mp hw with rfl | hw
            · exact hx
            · exact hv w hw

/-- Results of a reader for units. -/
def UnitKeeps {β : Type} (C : β → Prop) (f : List Kind → β → List (Piece L))
    (r : ArticleNumber → List Char → List TextLine → Res (β × List TextLine)) : Prop :=
  ∀ path n s ls, (r n s ls).All fun x => C x.1 ↔ NumsKeep (f path x.1)

theorem parseUnit_keeps {γ : Type} {C : γ → Prop} {f : List Kind → γ → List (Piece L)}
    {ofArticle : Article L → γ}
    {sub : TextLine → Option (List TextLine → Res (γ × List TextLine))}
    (ha : ∀ path a, f path (ofArticle a) = Spec.article path a) (hC : ∀ a, C (ofArticle a) ↔ a.Keeps K)
    (hs : ∀ path l g, sub l = some g → ∀ r, (g r).All fun x => C x.1 ↔ NumsKeep (f path x.1)) :
    UnitKeeps (HierOf.Keeps K C) (Spec.unit f) (parseUnit ofArticle sub) := by
  intro path n s ls
  rw [parseUnit]
  refine (unitLoop_keeps K path (ha path) hC (hs path) _ _ _).bind fun v hv => Res.All.ok ?_
  rw [Spec.unit, numsKeep_cons, numsKeep_flatMap]
  constructor
  · rintro ⟨_, h1, h2⟩
    exact ⟨h2, fun x hx => (hv x hx).mp (h1 x hx)⟩
  · rintro ⟨h2, h1⟩
    exact ⟨fromValue_keeps K _, fun x hx => (hv x hx).mpr (h1 x hx), h2⟩

theorem parseDivision_keeps : UnitKeeps (L := L) (Division.Keeps K) division parseDivision :=
  parseUnit_keeps K (fun _ _ => rfl) (fun _ => Iff.rfl) (by intro _ l g h; cases h)

theorem parseSubsection_keeps : UnitKeeps (L := L) (Subsection.Keeps K) subsection parseSubsection := by
  refine parseUnit_keeps K (f := subsectionChild) (fun _ _ => rfl) (fun _ => Iff.rfl) ?_
  intro path l g h r
  cases l <;> simp only [subsectionArm, reduceCtorEq, Option.some.injEq] at h
  subst h
  exact (parseDivision_keeps K (path ++ [Kind.division]) _ _ r).bind fun x hx => Res.All.ok hx

theorem parseSection_keeps : UnitKeeps (L := L) (Section.Keeps K) Spec.section_ parseSection := by
  refine parseUnit_keeps K (f := sectionChild) (fun _ _ => rfl) (fun _ => Iff.rfl) ?_
  intro path l g h r
  cases l <;> simp only [sectionArm, reduceCtorEq, Option.some.injEq] at h
  subst h
  exact (parseSubsection_keeps K (path ++ [Kind.subsection]) _ _ r).bind fun x hx => Res.All.ok hx

theorem parseChapter_keeps : UnitKeeps (L := L) (Chapter.Keeps K) chapter parseChapter := by
  refine parseUnit_keeps K (f := chapterChild) (fun _ _ => rfl) (fun _ => Iff.rfl) ?_
  intro path l g h r
  cases l <;> simp only [chapterArm, reduceCtorEq, Option.some.injEq] at h
  subst h
  exact (parseSection_keeps K (path ++ [Kind.section_]) _ _ r).bind fun x hx => Res.All.ok hx

theorem parsePart_keeps : UnitKeeps (L := L) (Part.Keeps K) part parsePart := by
  refine parseUnit_keeps K (f := partChild) (fun _ _ => rfl) (fun _ => Iff.rfl) ?_
  intro path l g h r
  cases l <;> simp only [partArm, reduceCtorEq, Option.some.injEq] at h
  subst h
  exact (parseChapter_keeps K (path ++ [Kind.chapter]) _ _ r).bind fun x hx => Res.All.ok hx

/-! ## The body -/

/-- What has been collected survives as far as its numbers do. -/
def StKeeps (s : BodySt L) : Prop :=
  (s.suppl_law_num = none ∧ s.suppl = []) ∧ ∀ c ∈ s.main, c.Keeps K ↔ NumsKeep (mainChild c)

theorem add_keeps {s : BodySt L} {c : MainProvisionContents L} (h : StKeeps K s)
    (hc : c.Keeps K ↔ NumsKeep (mainChild c)) : StKeeps K (s.add c) := by
  refine ⟨h.1, ?_⟩
  intro x hx
  rcases List.mem_append.mp hx with hx | hx
  · exact h.2 x hx
  · rw [List.mem_singleton.mp hx]; exact hc

theorem bodyStep_keeps {s : BodySt L} (h : StKeeps K s) (ls : List TextLine)
    (hn : ∀ n r, ls ≠ .suppl n :: r) : (bodyStep s ls).All fun o => ∀ s' ls', o = some (s', ls') →
      StKeeps K s' := by
  have hsup : s.suppl_law_num.isSome = false := by rw [h.1.1]; rfl
  have wrap : ∀ (s' : BodySt L) (ls' : List TextLine), StKeeps K s' →
      (Res.ok (some (s', ls'))).All fun o => ∀ s' ls', o = some (s', ls') → StKeeps K s' := by
    intro s' ls' h'
    apply Res.All.ok
    intro a b he
    cases he; exact h'
  have leave : (Res.ok (none : Option (BodySt L × List TextLine))).All
      fun o => ∀ s' ls', o = some (s', ls') → StKeeps K s' := by
    apply Res.All.ok; intro a b he; cases he
  cases ls with
  | nil => exact leave
  | cons l r =>
    cases l with
    | part n t =>
      exact (parsePart_keeps K [.part] n t r).bind fun x hx => wrap _ _ (add_keeps K h hx)
    | chapter n t =>
      rw [bodyStep]
      simp only [hsup]
      exact (parseChapter_keeps K [.chapter] n t r).bind fun x hx => wrap _ _ (add_keeps K h hx)
    | section_ n t =>
      exact (parseSection_keeps K [.section_] n t r).bind fun x hx => wrap _ _ (add_keeps K h hx)
    | article n t =>
      rw [bodyStep]
      simp only [hsup]
      exact (parseArticle_keeps K [] s.caption n t r).bind fun x hx => wrap _ _ (add_keeps K h hx)
    | caption c => exact wrap _ _ h
    | text t =>
      rw [bodyStep]
      split
      · exact wrap _ _ h
      · exact wrap _ _ h
    | suppl n => exact absurd rfl (hn n r)
    | _ => exact leave

theorem bodyLoop_suppl (fuel : Nat) (s : BodySt L) (n : Option (List Char)) (r : List TextLine) :
    bodyLoop fuel s (.suppl n :: r) = .ok none := by
  induction fuel generalizing s with
  | zero => rfl
  | succ fuel ih => rw [bodyLoop]; simp only [bodyStep, Res.bind_ok]; exact ih _

theorem bodyLoop_keeps (fuel : Nat) {s : BodySt L} (h : StKeeps K s) (ls : List TextLine) :
    (bodyLoop fuel s ls).All fun o => ∀ s', o = some s' → StKeeps K s' := by
  induction fuel generalizing s ls with
  | zero =>
    rw [bodyLoop]
    apply Res.All.ok; intro a he; cases he
  | succ fuel ih =>
    by_cases hn : ∃ n r, ls = .suppl n :: r
    · obtain ⟨n, r, rfl⟩ := hn
      rw [bodyLoop_suppl]
      apply Res.All.ok; intro a he; cases he
    · rw [bodyLoop]
      refine (bodyStep_keeps K h ls (fun n r he => hn ⟨n, r, he⟩)).bind fun o ho => ?_
      cases o with
      | none => apply Res.All.ok; intro a he; cases he; exact h
      | some x => exact ih (ho _ _ rfl) _

theorem preambleFrom_keeps (i : Nat) (l : List (List Char)) :
    ∀ p ∈ preambleFrom (L := L) i l, p.Keeps K := by
  induction l generalizing i with
  | nil => intro s hs; cases hs
  | cons a l ih =>
    intro s hs
    rcases List.mem_cons.mp hs with rfl | hs
    · refine ⟨by (intro t ht; cases ht), by (intro c hc; cases hc), by simp, by simp, ?_, by simp,
        by simp, Or.inl rfl⟩
      intro x hx
      rw [List.mem_singleton.mp hx]
      intro c hc
      rw [List.mem_singleton.mp hc]; trivial
    · exact ih _ s hs

theorem preambleFrom_numsKeep (i : Nat) (l : List (List Char)) :
    NumsKeep ((preambleFrom (L := L) i l).flatMap Spec.paragraph) := by
  induction l generalizing i with
  | nil => intro x hx; cases hx
  | cons a l ih =>
    rw [preambleFrom, List.flatMap_cons, numsKeep_append]
    refine ⟨?_, ih _⟩
    simp only [Spec.paragraph]
    rw [numsKeep_append, numsKeep_cons]
    exact ⟨⟨Or.inl rfl, numsKeep_sentences _⟩, by intro x hx; cases hx⟩

theorem finishBody_keeps (title : List Char) {s : BodySt L} (h : StKeeps K s) :
    (finishBody title s).Keeps K ↔ NumsKeep (document (finishBody title s)) := by
  have hs : finishSuppl s = [] := by simp [finishSuppl, h.1.1, h.1.2]
  have hp : NumsKeep ((finishBody title s).preamble.toList.flatMap
      fun p => p.children.flatMap Spec.paragraph) := by
    simp only [finishBody]
    split
    · intro x hx; cases hx
    · simpa using preambleFrom_numsKeep (L := L) 0 s.preamble
  rw [document, numsKeep_append, and_iff_right hp, numsKeep_flatMap]
  constructor
  · rintro ⟨_, _, _, _, hm, _⟩
    exact fun c hc => (h.2 c hc).mp (hm c hc)
  · intro hm
    refine ⟨?_, by simp [finishBody], by simp [finishBody, OptKeeps], ?_,
      fun c hc => (h.2 c hc).mpr (hm c hc), by simp [finishBody, hs], by simp [finishBody],
      by simp [finishBody], by simp [finishBody], by simp [finishBody], by simp [finishBody],
      by simp [finishBody]⟩
    · intro t ht; cases ht; exact fromValue_keeps K _
    · intro t ht
      simp only [finishBody] at ht
      split at ht
      · cases ht
      · cases ht; exact preambleFrom_keeps K 0 _

theorem parseBody_keeps {E : Ext} {fuel : Nat} {title text : List Char} {b : LawBody L}
    (h : parseBody E fuel title text = .ok (some b)) : b.Keeps K ↔ NumsKeep (document b) := by
  obtain ⟨ls, _, h⟩ := Res.bind_eq_ok.mp h
  obtain ⟨o, ho, h⟩ := Res.bind_eq_ok.mp h
  cases o with
  | none => cases h
  | some s =>
    cases h
    exact finishBody_keeps K title
      (bodyLoop_keeps K fuel (s := {}) ⟨⟨rfl, rfl⟩, by simp⟩ ls _ ho s rfl)

/-! ## The numbers of the lines -/

theorem numsKeep_meaning (q : State) (ls : List TextLine)
    (hi : ∀ n s, .item n s ∈ ls → n.range_end_numbers = []) :
    NumsKeep (meaning (L := L) q ls) ↔
      ∀ l ∈ used q ls, ∀ k, numberOf l = some k → k.Keeps := by
  induction ls generalizing q with
  | nil => simp [meaning, used, NumsKeep]
  | cons l r ih =>
    rw [meaning, used]
    cases hn : next q l with
    | none => simp [NumsKeep]
    | some q' =>
      simp only [numsKeep_append, List.forall_mem_cons]
      rw [ih q' fun n s h => hi n s (List.mem_cons_of_mem _ h)]
      refine and_congr_left fun _ => ?_
      cases l with
      | item n s =>
        have h0 := hi n s List.mem_cons_self
        simp only [contributes, numberOf]
        constructor
        · intro _ k hk; cases hk
        · intro _
          split
          · intro x hx
            rcases List.mem_cons.mp hx with rfl | hx
            · exact ⟨_, rfl, Or.inl h0⟩
            · rw [List.mem_singleton.mp hx]; trivial
          · intro x hx; cases hx
      | text s =>
        simp only [contributes, numberOf]
        constructor
        · intro _ k hk; cases hk
        · intro _
          split
          · intro x hx
            rcases List.mem_cons.mp hx with rfl | hx
            · exact Or.inl rfl
            · rw [List.mem_singleton.mp hx]; trivial
          · intro x hx; rw [List.mem_singleton.mp hx]; trivial
          · intro x hx; cases hx
      | caption s =>
        simp only [contributes, numberOf]
        constructor
        · intro _ k hk; cases hk
        · intro _ x hx
          split at hx
          · rw [List.mem_singleton.mp hx]; trivial
          · cases hx
      | suppl s => simp [contributes, numberOf, NumsKeep]
      | article n s =>
        simp [contributes, numberOf, NumsKeep, PieceKeeps, saying, ArticleNumber.Keeps]
      | paragraph n s => simp [contributes, numberOf, NumsKeep, PieceKeeps, saying]
      | _ => simp [contributes, numberOf, NumsKeep, PieceKeeps, headed]

end JLaw
