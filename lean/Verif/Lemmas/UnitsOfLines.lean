import Verif.Spec.UnitsOfLines
import Verif.Spec.Built
import Verif.Lemmas.Utils

/-!
# Facts used for the units of laws built from text
-/

namespace JLaw

open Spec

variable {L : Lvl}

/-- Kind and number of a unit. -/
def UnitHead.brief (u : UnitHead L) : Kind × ArticleNumber := (u.kind, u.num)

/-- Kind, number and title of a unit. -/
def UnitHead.view (u : UnitHead L) : UnitView L := (u.kind, u.num, u.title)

/-- A unit with the units around it. -/
def viewIn (p : List (UnitHead L) × UnitHead L) : Around × UnitView L :=
  (p.1.map UnitHead.brief, p.2.view)

/-- The kind of the innermost unit. -/
def innermost (path : List Spec.Kind) : Kind := (path.getLast?.map Spec.Kind.unit).getD .article

/-- The open units and the units met so far. -/
abbrev UnitSt (L : Lvl) := Around × List (Around × UnitView L)

/-- What a piece of a document adds. -/
def unitPiece (s : UnitSt L) : Piece L → UnitSt L
  | .heading path n t _ =>
    (s.1.take (path.length - 1) ++ [(innermost path, n)],
      s.2 ++ [(s.1.take (path.length - 1), (innermost path, n, t))])
  | .article path n _ => (s.1, s.2 ++ [(s.1.take path.length, (.article, n, Spec.plainText []))])
  | _ => s

/-! ## Lines -/

theorem place_last (path : List Spec.Kind) (k : Spec.Kind) :
    (Spec.place path k).getLast? = some k ∧ 1 ≤ (Spec.place path k).length := by
  unfold Spec.place
  split
  · simp
  · split <;> simp

theorem place_length (path : List Spec.Kind) (k : Spec.Kind) :
    (Spec.place path k).length ≤ path.length + 1 := by
  unfold Spec.place
  split
  · simp
  · split
    · simp only [List.length_append, List.length_singleton]
      exact Nat.add_le_add_right (List.takeWhile_sublist _).length_le 1
    · simp

theorem units_meaning (ls : List TextLine) (q : State) (s : UnitSt L)
    (h : s.1.length = q.path.length) :
    ((meaning q ls).foldl unitPiece s).2 = s.2 ++ unitsOfLines q s.1 ls := by
  induction ls generalizing q s with
  | nil => simp [meaning, unitsOfLines]
  | cons l r ih =>
    rw [meaning, unitsOfLines]
    cases hn : next q l with
    | none => simp
    | some q' =>
      simp only
      rw [List.foldl_append]
      have head : ∀ (k : Spec.Kind) (n : ArticleNumber) (t : List Char), headingOf l = some (k, n, t) →
          q'.path = Spec.place q.path k → contributes (L := L) q' r l = [headed q'.path n t] →
          ((meaning q' r).foldl unitPiece ((contributes q' r l).foldl unitPiece s)).2 =
            s.2 ++ (match headingOf l with
              | some (k, n, s_1) =>
                (s.1.take (q'.path.length - 1), (k.unit, n, Spec.plainText s_1)) ::
                  unitsOfLines q' (s.1.take (q'.path.length - 1) ++ [(k.unit, n)]) r
              | none =>
                match articleOf l with
                | some n => (s.1, (.article, n, Spec.plainText [])) :: unitsOfLines q' s.1 r
                | none => unitsOfLines q' s.1 r) := by
        intro k n t hk hp hc
        have hi : innermost q'.path = k.unit := by
          rw [hp, innermost, (place_last q.path k).1]; rfl
        rw [hc, hk]
        simp only [List.foldl_cons, List.foldl_nil, headed, unitPiece, hi]
        rw [ih]
        · simp
        · have h1 := (place_last q.path k).2
          have h2 := place_length q.path k
          rw [← hp] at h1 h2
          simp only [List.length_append, List.length_take, List.length_singleton, h]
          omega
      cases l with
      | caption t =>
        have hp : q'.path = q.path := by cases hn; rfl
        have : (contributes q' r (.caption t)).foldl unitPiece s = s := by
          simp only [contributes]
          split <;> rfl
        rw [this, ih q' s (by rw [hp, h])]
        rfl
      | part n t => exact head .part n t rfl (by cases hn; rfl) rfl
      | chapter n t => exact head .chapter n t rfl (by cases hn; rfl) rfl
      | section_ n t => exact head .section_ n t rfl (by cases hn; rfl) rfl
      | subsection n t =>
        refine head .subsection n t rfl ?_ rfl
        simp only [next] at hn
        split at hn <;> cases hn
        rfl
      | division n t =>
        refine head .division n t rfl ?_ rfl
        simp only [next] at hn
        split at hn <;> cases hn
        rfl
      | article n t =>
        have hp : q'.path = q.path := by cases hn; rfl
        have : (contributes q' r (.article n t)).foldl unitPiece s =
            (s.1, s.2 ++ [(s.1, (.article, n, Spec.plainText []))]) := by
          simp only [contributes, List.foldl_cons, List.foldl_nil, unitPiece, saying]
          rw [List.take_of_length_le (by rw [hp, h]; exact Nat.le_refl _)]
        rw [this, ih q' _ (by rw [hp, h])]
        simp [headingOf, articleOf]
      | paragraph n t =>
        have hp : q'.path = q.path := by
          simp only [next] at hn
          split at hn <;> cases hn
          rfl
        rw [show (contributes q' r (.paragraph n t)).foldl unitPiece s = s from rfl,
          ih q' s (by rw [hp, h])]
        rfl
      | item n t =>
        have hp : q'.path = q.path := by
          simp only [next] at hn
          split at hn <;> cases hn
          rfl
        have : (contributes q' r (.item n t)).foldl unitPiece s = s := by
          simp only [contributes]
          split <;> rfl
        rw [this, ih q' s (by rw [hp, h])]
        rfl
      | text t =>
        have hp : q'.path = q.path := by
          simp only [next] at hn
          split at hn <;> cases hn <;> rfl
        have : (contributes q' r (.text t)).foldl unitPiece s = s := by
          simp only [contributes]
          split <;> rfl
        rw [this, ih q' s (by rw [hp, h])]
        rfl
      | suppl n => cases hn

/-! ## Paragraphs -/

/-- The pieces announce no unit. -/
def NoUnits (ps : List (Piece L)) : Prop := ∀ s, ps.foldl unitPiece s = s

theorem NoUnits.append {ps qs : List (Piece L)} (h : NoUnits ps) (h' : NoUnits qs) :
    NoUnits (ps ++ qs) := fun s => by rw [List.foldl_append, h, h']

theorem NoUnits.flatMap {γ : Type} {f : γ → List (Piece L)} (h : ∀ x, NoUnits (f x)) (l : List γ) :
    NoUnits (l.flatMap f) := by
  induction l with
  | nil => exact fun _ => rfl
  | cons x l ih => rw [List.flatMap_cons]; exact (h x).append ih

theorem sentences_noUnits (l : List (Sentence L)) : NoUnits (l.map sentencePiece) := by
  induction l with
  | nil => exact fun _ => rfl
  | cons x l ih => exact fun s => ih s

theorem items_noUnits {γ : Type} {f : γ → List (Piece L)} (h : ∀ x, NoUnits (f x)) (d : Nat)
    (x : ItemOf L γ) : NoUnits (itemPieces f d x) := by
  intro s
  rw [itemPieces, List.cons_append, List.foldl_cons]
  refine NoUnits.append ?_ (NoUnits.flatMap h _) s
  cases x.sentence with
  | sentence l => exact sentences_noUnits l
  | _ => exact fun _ => rfl

theorem subitem10_noUnits (x : Subitem10 L) : NoUnits (subitem10 x) :=
  items_noUnits (fun x => x.elim) 11 x
theorem subitem9_noUnits (x : Subitem9 L) : NoUnits (subitem9 x) := items_noUnits subitem10_noUnits 10 x
theorem subitem8_noUnits (x : Subitem8 L) : NoUnits (subitem8 x) := items_noUnits subitem9_noUnits 9 x
theorem subitem7_noUnits (x : Subitem7 L) : NoUnits (subitem7 x) := items_noUnits subitem8_noUnits 8 x
theorem subitem6_noUnits (x : Subitem6 L) : NoUnits (subitem6 x) := items_noUnits subitem7_noUnits 7 x
theorem subitem5_noUnits (x : Subitem5 L) : NoUnits (subitem5 x) := items_noUnits subitem6_noUnits 6 x
theorem subitem4_noUnits (x : Subitem4 L) : NoUnits (subitem4 x) := items_noUnits subitem5_noUnits 5 x
theorem subitem3_noUnits (x : Subitem3 L) : NoUnits (subitem3 x) := items_noUnits subitem4_noUnits 4 x
theorem subitem2_noUnits (x : Subitem2 L) : NoUnits (subitem2 x) := items_noUnits subitem3_noUnits 3 x
theorem subitem1_noUnits (x : Subitem1 L) : NoUnits (subitem1 x) := items_noUnits subitem2_noUnits 2 x
theorem item_noUnits (x : Item L) : NoUnits (Spec.item x) := items_noUnits subitem1_noUnits 1 x

theorem paragraph_noUnits (p : Paragraph L) : NoUnits (Spec.paragraph p) := by
  intro s
  rw [Spec.paragraph, List.cons_append, List.foldl_cons]
  exact (sentences_noUnits _).append (NoUnits.flatMap item_noUnits _) s

/-! ## Units -/

/-- Pieces that lie in the units `path` announce the units of trees. -/
def Announces (path : List Spec.Kind) (ps : List (Piece L)) (ts : List (Rose (UnitHead L))) : Prop :=
  ∀ (s : UnitSt L) (around : List (UnitHead L)), around.length = path.length →
    s.1.take path.length = around.map UnitHead.brief →
    ∃ o, o.take path.length = around.map UnitHead.brief ∧
      ps.foldl unitPiece s = (o, s.2 ++ (Rose.walkAll around ts).map viewIn)

theorem Announces.nil (path : List Spec.Kind) : Announces (L := L) path [] [] :=
  fun s _ _ h => ⟨s.1, h, by simp [Rose.walkAll]⟩

theorem Announces.append {path : List Spec.Kind} {ps qs : List (Piece L)}
    {ts us : List (Rose (UnitHead L))} (h : Announces path ps ts) (h' : Announces path qs us) :
    Announces path (ps ++ qs) (ts ++ us) := by
  intro s around hl hs
  obtain ⟨o, ho, h1⟩ := h s around hl hs
  obtain ⟨o', ho', h2⟩ := h' (o, s.2 ++ (Rose.walkAll around ts).map viewIn) around hl ho
  refine ⟨o', ho', ?_⟩
  rw [List.foldl_append, h1, h2]
  simp [walkAll_eq]

theorem Announces.each {γ : Type} {path : List Spec.Kind} {f : γ → List (Piece L)}
    {tree : γ → Rose (UnitHead L)} (l : List γ) (h : ∀ x ∈ l, Announces path (f x) [tree x]) :
    Announces path (l.flatMap f) (l.map tree) := by
  induction l with
  | nil => exact Announces.nil path
  | cons x l ih =>
    rw [List.flatMap_cons, List.map_cons, ← List.singleton_append]
    exact (h x (by simp)).append (ih fun y hy => h y (by simp [hy]))

theorem article_announces (path : List Spec.Kind) (a : Article L) (ha : ArticleBuilt a) :
    Announces path (Spec.article path a) [a.tree] := by
  intro s around hl hs
  refine ⟨s.1, hs, ?_⟩
  have hc : (a.caption.toList.map fun c => Piece.caption c.text).foldl unitPiece s = s := by
    cases a.caption <;> rfl
  rw [Spec.article, List.foldl_append, hc, List.foldl_cons, NoUnits.flatMap paragraph_noUnits]
  simp [unitPiece, hs, Rose.walkAll, Rose.walk, Article.tree, viewIn, UnitHead.view, UnitHead.kind,
    UnitHead.num, UnitHead.title, ha.title]

theorem unit_announces {γ : Type} {child isArticle : γ → Prop}
    {ps : List Spec.Kind → γ → List (Piece L)} {tree : γ → Rose (UnitHead L)} {k : Spec.Kind}
    {path : List Spec.Kind} (x : HierOf L γ) (hx : UnitBuilt child isArticle x)
    (h : ∀ y, child y → Announces (path ++ [k]) (ps (path ++ [k]) y) [tree y]) (u : UnitHead L)
    (hu : u.view = (k.unit, x.num, x.title)) :
    Announces path (unit ps (path ++ [k]) x) [.node u (x.children.map tree)] := by
  intro s around hl hs
  have hb : u.brief = (k.unit, x.num) := by
    simp only [UnitHead.view, Prod.mk.injEq] at hu
    simp [UnitHead.brief, hu]
  have hi : innermost (path ++ [k]) = k.unit := by simp [innermost]
  obtain ⟨o, ho, h1⟩ := Announces.each x.children (fun y hy => h y (hx.children y hy))
    (unitPiece s (.heading (path ++ [k]) x.num x.title (x.delete = true))) (around ++ [u])
    (by simp [hl]) (by
      simp only [unitPiece, List.length_append, List.length_singleton, Nat.add_sub_cancel, hi, hs,
        List.map_append, List.map_cons, List.map_nil, hb]
      rw [List.take_of_length_le]
      simp [hl])
  refine ⟨o, ?_, ?_⟩
  · have := congrArg (List.take path.length) ho
    rw [List.take_take] at this
    simp only [List.length_append, List.length_singleton] at this
    rw [Nat.min_eq_left (Nat.le_succ _)] at this
    rw [this]
    simp [← hl]
  · rw [unit, List.foldl_cons, h1]
    simp [unitPiece, hs, hi, Rose.walkAll, Rose.walk, viewIn, hu]

theorem division_announces (path : List Spec.Kind) (x : Division L) (hx : DivisionBuilt x) :
    Announces path (division (path ++ [.division]) x) [Division.tree x] :=
  unit_announces x hx (fun y hy => article_announces _ y hy) _ rfl

theorem subsection_announces (path : List Spec.Kind) (x : Subsection L) (hx : SubsectionBuilt x) :
    Announces path (subsection (path ++ [.subsection]) x) [Subsection.tree x] :=
  unit_announces x hx (fun y hy => by
    cases y with
    | article a => exact article_announces _ a hy
    | division d => exact division_announces _ d hy) _ rfl

theorem section_announces (path : List Spec.Kind) (x : Section L) (hx : SectionBuilt x) :
    Announces path (Spec.section_ (path ++ [.section_]) x) [Section.tree x] :=
  unit_announces x hx (fun y hy => by
    cases y with
    | article a => exact article_announces _ a hy
    | subsection d => exact subsection_announces _ d hy
    | division d => exact hy.elim) _ rfl

theorem chapter_announces (path : List Spec.Kind) (x : Chapter L) (hx : ChapterBuilt x) :
    Announces path (chapter (path ++ [.chapter]) x) [Chapter.tree x] :=
  unit_announces x hx (fun y hy => by
    cases y with
    | article a => exact article_announces _ a hy
    | section_ d => exact section_announces _ d hy) _ rfl

theorem part_announces (path : List Spec.Kind) (x : Part L) (hx : PartBuilt x) :
    Announces path (part (path ++ [.part]) x) [Part.tree x] :=
  unit_announces x hx (fun y hy => by
    cases y with
    | article a => exact article_announces _ a hy
    | chapter d => exact chapter_announces _ d hy) _ rfl

theorem main_announces (l : List (MainProvisionContents L)) (hl : ∀ c ∈ l, MainBuilt c) :
    Announces [] (l.flatMap mainChild) (l.filterMap MainProvisionContents.tree?) := by
  induction l with
  | nil => exact Announces.nil []
  | cons c l ih =>
    have h := ih fun y hy => hl y (by simp [hy])
    have hc := hl c (by simp)
    rw [List.flatMap_cons]
    cases c with
    | part x => exact (part_announces [] x hc).append h
    | chapter x => exact (chapter_announces [] x hc).append h
    | section_ x => exact (section_announces [] x hc).append h
    | article a => exact (article_announces [] a hc).append h
    | paragraph p => exact hc.elim

theorem document_units {title : List Char} {b : LawBody L} (hb : BodyBuilt title b) :
    ((document b).foldl unitPiece ([], [])).2 = b.main_provision.units.map viewIn := by
  have hp : NoUnits (b.preamble.toList.flatMap fun p => p.children.flatMap Spec.paragraph) :=
    NoUnits.flatMap (fun p => NoUnits.flatMap paragraph_noUnits _) _
  rw [document, List.foldl_append, hp]
  obtain ⟨o, -, h⟩ := main_announces _ hb.children ([], []) [] rfl rfl
  rw [h, MainProvision.units]
  simp

end JLaw
