import Verif.Lemmas.UnitsOfLines
import Verif.Lemmas.Gather
import Verif.Props.BuiltUnique

/-!
# Facts used for edits of texts: documents cut into articles
-/

namespace JLaw

open Spec

variable {L : Lvl}

/-- The pieces of each article, the last article and the last piece first. -/
def cutPiece (s : List (List (Piece L))) : Piece L → List (List (Piece L))
  | .heading _ _ _ _ => s
  | .caption t => [.caption t] :: s
  | .article p n d =>
    match s with
    | [.caption t] :: r => [.article p n d, .caption t] :: r
    | s => [.article p n d] :: s
  | x =>
    match s with
    | g :: r => (x :: g) :: r
    | [] => []

/-- The last group is not a caption alone. -/
def NotWaiting (s : List (List (Piece L))) : Prop := ∀ t r, s ≠ [.caption t] :: r

/-- A piece of a paragraph. -/
def Inside : Piece L → Prop
  | .paragraph _ | .item _ _ _ | .sentence _ _ => True
  | _ => False

theorem cut_article {s : List (List (Piece L))} (h : NotWaiting s) (p : List Spec.Kind) (n : ArticleNumber)
    (d : Prop) : cutPiece s (.article p n d) = [.article p n d] :: s := by
  rw [cutPiece]
  exact h

theorem cut_inside {ps : List (Piece L)} (h : ∀ x ∈ ps, Inside x) (g : List (Piece L))
    (r : List (List (Piece L))) : ps.foldl cutPiece (g :: r) = (ps.reverse ++ g) :: r := by
  induction ps generalizing g with
  | nil => rfl
  | cons x ps ih =>
    have hx := h x (by simp)
    rw [List.foldl_cons]
    have : cutPiece (g :: r) x = (x :: g) :: r := by
      cases x <;> first | exact hx.elim | rfl
    rw [this, ih fun y hy => h y (by simp [hy])]
    simp

theorem cut_inside_nil {ps : List (Piece L)} (h : ∀ x ∈ ps, Inside x) :
    ps.foldl cutPiece [] = [] := by
  induction ps with
  | nil => rfl
  | cons x ps ih =>
    have hx := h x (by simp)
    rw [List.foldl_cons]
    have : cutPiece [] x = [] := by
      cases x <;> first | exact hx.elim | rfl
    rw [this, ih fun y hy => h y (by simp [hy])]

theorem cut_append {s : List (List (Piece L))} (hs : s ≠ []) (r : List (List (Piece L)))
    (ps : List (Piece L)) : ps.foldl cutPiece (s ++ r) = ps.foldl cutPiece s ++ r ∧
      ps.foldl cutPiece s ≠ [] := by
  induction ps generalizing s with
  | nil => exact ⟨rfl, hs⟩
  | cons x ps ih =>
    have h1 : cutPiece (s ++ r) x = cutPiece s x ++ r ∧ cutPiece s x ≠ [] := by
      cases s with
      | nil => exact absurd rfl hs
      | cons g s =>
        cases x with
        | article p n d =>
          by_cases hg : ∃ t, g = [.caption t]
          · obtain ⟨t, rfl⟩ := hg
            exact ⟨rfl, by simp [cutPiece]⟩
          · have hc : ∀ s : List (List (Piece L)), NotWaiting (g :: s) := fun s t r h => by
              injection h with h1 _
              exact hg ⟨t, h1⟩
            rw [List.cons_append, cut_article (hc _), cut_article (hc _)]
            exact ⟨rfl, by simp⟩
        | _ => exact ⟨rfl, by simp [cutPiece]⟩
    rw [List.foldl_cons, List.foldl_cons, h1.1]
    exact ih h1.2

/-! ## Documents -/

theorem sentences_inside (l : List (Sentence L)) : ∀ x ∈ l.map sentencePiece, Inside x := by
  intro x hx
  obtain ⟨y, -, rfl⟩ := List.mem_map.1 hx
  trivial

theorem items_inside {γ : Type} {f : γ → List (Piece L)} (h : ∀ x, ∀ y ∈ f x, Inside y) (d : Nat)
    (x : ItemOf L γ) : ∀ y ∈ itemPieces f d x, Inside y := by
  intro y hy
  rw [itemPieces, List.cons_append] at hy
  rcases List.mem_cons.1 hy with rfl | hy
  · trivial
  rcases List.mem_append.1 hy with hy | hy
  · revert hy
    cases x.sentence with
    | sentence l => exact fun hy => sentences_inside l y hy
    | _ => exact fun hy => by cases hy
  · obtain ⟨z, -, hz⟩ := List.mem_flatMap.1 hy
    exact h z y hz

theorem item_inside (x : Item L) : ∀ y ∈ Spec.item x, Inside y :=
  items_inside (items_inside (items_inside (items_inside (items_inside (items_inside (items_inside
    (items_inside (items_inside (items_inside (items_inside (fun x => x.elim) 11) 10) 9) 8) 7) 6) 5) 4)
    3) 2) 1 x

theorem paragraph_inside (p : Paragraph L) : ∀ y ∈ Spec.paragraph p, Inside y := by
  intro y hy
  rw [Spec.paragraph, List.cons_append] at hy
  rcases List.mem_cons.1 hy with rfl | hy
  · trivial
  rcases List.mem_append.1 hy with hy | hy
  · exact sentences_inside _ y hy
  · obtain ⟨z, -, hz⟩ := List.mem_flatMap.1 hy
    exact item_inside z y hz

theorem paragraphs_inside (l : List (Paragraph L)) : ∀ y ∈ l.flatMap Spec.paragraph, Inside y := by
  intro y hy
  obtain ⟨p, -, hp⟩ := List.mem_flatMap.1 hy
  exact paragraph_inside p y hp

/-- The groups are the pieces of articles. -/
def GroupsOf (gs : List (List (Piece L))) (as : List (Article L)) : Prop :=
  List.Forall₂ (fun g a => (∃ p, g = (Spec.article p a).reverse) ∧ ArticleBuilt a) gs as

theorem GroupsOf.closed {gs : List (List (Piece L))} {as : List (Article L)} (h : GroupsOf gs as) :
    NotWaiting gs := by
  rintro t r rfl
  cases h with
  | @cons _ a _ _ h _ =>
    obtain ⟨p, hp⟩ := h.1
    have := congrArg List.reverse hp
    rw [List.reverse_reverse, Spec.article] at this
    have hm : Piece.article p a.num (a.delete = true) ∈ [Piece.caption t].reverse := by
      rw [this]
      exact List.mem_append_right _ List.mem_cons_self
    simp at hm

theorem cut_articles (path : List Spec.Kind) (a : Article L) {s : List (List (Piece L))} (h : NotWaiting s) :
    (Spec.article path a).foldl cutPiece s = (Spec.article path a).reverse :: s := by
  rw [Spec.article]
  cases hc : a.caption with
  | none =>
    simp only [Option.toList_none, List.map_nil, List.nil_append, List.foldl_cons]
    rw [cut_article h, cut_inside (paragraphs_inside _)]
    simp
  | some c =>
    simp only [Option.toList_some, List.map_cons, List.map_nil, List.cons_append, List.nil_append,
      List.foldl_cons, cutPiece]
    rw [cut_inside (paragraphs_inside _)]
    simp

/-- Pieces are cut into the articles. -/
def CutsInto (ps : List (Piece L)) (as : List (Article L)) : Prop :=
  ∀ s, NotWaiting s → ∃ gs, ps.foldl cutPiece s = gs ++ s ∧ GroupsOf gs as.reverse

theorem GroupsOf.closed_append {gs s : List (List (Piece L))} {as : List (Article L)}
    (h : GroupsOf gs as) (hs : NotWaiting s) : NotWaiting (gs ++ s) := by
  cases gs with
  | nil => exact hs
  | cons g gs =>
    intro t r he
    injection he with h1 _
    subst h1
    exact h.closed t gs rfl

theorem CutsInto.nil : CutsInto (L := L) [] [] := fun _ _ => ⟨[], rfl, .nil⟩

theorem CutsInto.append {ps qs : List (Piece L)} {as bs : List (Article L)} (h : CutsInto ps as)
    (h' : CutsInto qs bs) : CutsInto (ps ++ qs) (as ++ bs) := by
  intro s hs
  obtain ⟨gs, h1, h2⟩ := h s hs
  obtain ⟨gs', h3, h4⟩ := h' _ (h2.closed_append hs)
  refine ⟨gs' ++ gs, ?_, ?_⟩
  · rw [List.foldl_append, h1, h3, List.append_assoc]
  · rw [List.reverse_append]
    exact List.rel_append h4 h2

theorem CutsInto.flatMap {γ : Type} {f : γ → List (Piece L)} {as : γ → List (Article L)} (l : List γ)
    (h : ∀ x ∈ l, CutsInto (f x) (as x)) : CutsInto (l.flatMap f) (l.flatMap as) := by
  induction l with
  | nil => exact CutsInto.nil
  | cons x l ih => exact (h x (by simp)).append (ih fun y hy => h y (by simp [hy]))

theorem article_cuts (path : List Spec.Kind) (a : Article L) (ha : ArticleBuilt a) :
    CutsInto (Spec.article path a) [a] :=
  fun _ hs => ⟨[(Spec.article path a).reverse], cut_articles path a hs, .cons ⟨⟨path, rfl⟩, ha⟩ .nil⟩

theorem unit_cuts {γ : Type} {child isArticle : γ → Prop} {ps : List Spec.Kind → γ → List (Piece L)}
    {as : γ → List (Article L)} (h : ∀ path y, child y → CutsInto (ps path y) (as y))
    (path : List Spec.Kind) (x : HierOf L γ) (hx : UnitBuilt child isArticle x) :
    CutsInto (unit ps path x) (x.children.flatMap as) := by
  intro s hs
  rw [unit, List.foldl_cons]
  exact CutsInto.flatMap x.children (fun y hy => h path y (hx.children y hy)) s hs

theorem division_cuts (path : List Spec.Kind) (x : Division L) (hx : DivisionBuilt x) :
    CutsInto (division path x) ((articleListFromDivision x).map fun w => w.article) := by
  have := unit_cuts (as := fun a => [a]) (fun p y hy => article_cuts p y hy) path x hx
  rw [division]
  simpa [articleListFromDivision, Function.comp_def] using this

theorem subsection_cuts (path : List Spec.Kind) (x : Subsection L) (hx : SubsectionBuilt x) :
    CutsInto (subsection path x) ((articleListFromSubsection x).map fun w => w.article) := by
  rw [articleListFromSubsection, List.map_flatMap]
  refine unit_cuts (fun p y hy => ?_) path x hx
  cases y with
  | article a => exact article_cuts p a hy
  | division d =>
    rw [List.map_map]
    exact division_cuts _ d hy

theorem section_cuts (path : List Spec.Kind) (x : Section L) (hx : SectionBuilt x) :
    CutsInto (Spec.section_ path x) ((articleListFromSection x).map fun w => w.article) := by
  rw [articleListFromSection, List.map_flatMap]
  refine unit_cuts (fun p y hy => ?_) path x hx
  cases y with
  | article a => exact article_cuts p a hy
  | subsection d =>
    rw [List.map_map]
    exact subsection_cuts _ d hy
  | division d => exact hy.elim

theorem chapter_cuts (path : List Spec.Kind) (x : Chapter L) (hx : ChapterBuilt x) :
    CutsInto (chapter path x) ((articleListFromChapter x).map fun w => w.article) := by
  rw [articleListFromChapter, List.map_flatMap]
  refine unit_cuts (fun p y hy => ?_) path x hx
  cases y with
  | article a => exact article_cuts p a hy
  | section_ d =>
    rw [List.map_map]
    exact section_cuts _ d hy

theorem part_cuts (path : List Spec.Kind) (x : Part L) (hx : PartBuilt x) :
    CutsInto (part path x) ((articleListFromPart x).map fun w => w.article) := by
  rw [articleListFromPart, List.map_flatMap]
  refine unit_cuts (fun p y hy => ?_) path x hx
  cases y with
  | article a => exact article_cuts p a hy
  | chapter d =>
    rw [List.map_map]
    exact chapter_cuts _ d hy

theorem document_cuts {title : List Char} {b : LawBody L} (hb : BodyBuilt title b) :
    GroupsOf ((document b).foldl cutPiece [])
      (articleListFromMainProvision b.main_provision).1.reverse := by
  have hp : (b.preamble.toList.flatMap fun p => p.children.flatMap Spec.paragraph).foldl
      cutPiece ([] : List (List (Piece L))) = [] := by
    apply cut_inside_nil
    intro y hy
    obtain ⟨p, -, hp⟩ := List.mem_flatMap.1 hy
    exact paragraphs_inside _ y hp
  rw [document, List.foldl_append, hp, main_articles]
  obtain ⟨gs, h1, h2⟩ := CutsInto.flatMap (f := mainChild) (as := fun c => match c.act with
      | .close l => l.map fun w => w.article
      | _ => []) b.main_provision.children (fun c hc => by
    have hc := hb.children c hc
    cases c with
    | part x => exact part_cuts _ x hc
    | chapter x => exact chapter_cuts _ x hc
    | section_ x => exact section_cuts _ x hc
    | article a => exact article_cuts _ a hc
    | paragraph p => exact hc.elim) [] (fun t r h => by cases h)
  rw [h1, List.append_nil]
  exact h2

/-! ## Articles and preambles are determined by their pieces -/

/-- A body with a preamble and an article at most. -/
def smallBody (p : Option (Preamble L)) (a : List (Article L)) : LawBody L :=
  { law_title := some ⟨none, none, none, Spec.plainText []⟩, enact_statement := [], subject := none, toc := none
    preamble := p, main_provision := ⟨a.map .article, none⟩, suppl_provision := []
    appdx_table := [], appdx_note := [], appdx_style := [], appdx := [], appdx_fig := []
    appdx_format := [] }

theorem smallBody_built {p : Option (Preamble L)} {a : List (Article L)}
    (hp : ∀ x, p = some x → x.children ≠ [] ∧ ∀ i y, x.children[i]? = some y → PreambleParagraph i y)
    (ha : ∀ x ∈ a, ArticleBuilt x) : BodyBuilt [] (smallBody p a) where
  law_title := rfl
  enact_statement := rfl
  subject := rfl
  toc := rfl
  preamble := hp
  extract := rfl
  children := by
    intro y hy
    obtain ⟨x, hx, rfl⟩ := List.mem_map.1 hy
    exact ha x hx
  order := by
    intro l y z r h
    have : y ∈ a.map MainProvisionContents.article := by
      show y ∈ (smallBody p a).main_provision.children
      rw [h]; simp
    obtain ⟨x, -, rfl⟩ := List.mem_map.1 this
    trivial
  suppl_provision := rfl
  appdx_table := rfl
  appdx_note := rfl
  appdx_style := rfl
  appdx := rfl
  appdx_fig := rfl
  appdx_format := rfl

theorem article_pieces_eq {p p' : List Spec.Kind} {a a' : Article L}
    (h : Spec.article p a = Spec.article p' a') : Spec.article [] a = Spec.article [] a' := by
  rw [Spec.article, Spec.article] at h ⊢
  rcases hc : a.caption with _ | c <;> rcases hc' : a'.caption with _ | c' <;>
    rw [hc, hc'] at h <;> simp at h ⊢ <;> grind

theorem article_determined {p p' : List Spec.Kind} {a a' : Article L} (ha : ArticleBuilt a)
    (ha' : ArticleBuilt a') (h : Spec.article p a = Spec.article p' a') : a = a' := by
  have h1 := C85_pieces_determine_law [] (smallBody none [a]) (smallBody none [a'])
    (smallBody_built (by simp) (by simpa using ha)) (smallBody_built (by simp) (by simpa using ha'))
    (by simpa [document, smallBody, mainChild] using article_pieces_eq h)
  have := congrArg (fun b => b.main_provision.children) h1
  simpa [smallBody] using this

theorem groups_determine {gs : List (List (Piece L))} {as as' : List (Article L)}
    (h : GroupsOf gs as) (h' : GroupsOf gs as') : as = as' := by
  induction h generalizing as' with
  | nil => cases h'; rfl
  | cons h1 _ ih =>
    cases h' with
    | cons h2 h3 =>
      obtain ⟨⟨p, hp⟩, hb⟩ := h1
      obtain ⟨⟨p', hp'⟩, hb'⟩ := h2
      rw [hp] at hp'
      rw [article_determined hb hb' (List.reverse_injective hp'), ih h3]

end JLaw
