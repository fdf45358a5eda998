import Verif.Spec.Gather
import Verif.Spec.Built
import Verif.Lemmas.Utils

/-!
# Facts used for the texts of laws built from text
-/

namespace JLaw

open Spec

variable {L : Lvl}

/-! ## Gathering from the pieces of a document -/

/-- What a piece of a document adds. -/
def gatherPiece (R : Render L) (s : Gathered) : Piece L → Gathered
  | .article _ n _ => (n, []) :: s
  | .paragraph n => s.open_ ⟨n, []⟩ ""
  | .item d n _ => s.openItem d n ""
  | .sentence _ c => s.more (sentenceElementToStr R c)
  | _ => s

theorem more_more (s : Gathered) (t u : String) : (s.more t).more u = s.more (t ++ u) := by
  rcases s with _ | ⟨⟨a, _ | ⟨⟨i, w⟩, es⟩⟩, r⟩ <;> simp [Gathered.more, String.append_assoc]

theorem open_more (s : Gathered) (i : TextIndex) (t : String) :
    (s.open_ i "").more t = s.open_ i t := by
  rcases s with _ | ⟨⟨a, es⟩, r⟩ <;> simp [Gathered.more, Gathered.open_]

theorem openItem_more (a : ArticleNumber) (e : TextIndex × String) (es : List (TextIndex × String))
    (r : Gathered) (d : Nat) (n : Option ArticleNumber) (t : String) :
    (Gathered.openItem d n "" ((a, e :: es) :: r)).more t =
      Gathered.openItem d n t ((a, e :: es) :: r) := by
  simp [Gathered.more, Gathered.openItem]

theorem more_empty (s : Gathered) : s.more "" = s := by
  rcases s with _ | ⟨⟨a, _ | ⟨⟨i, w⟩, es⟩⟩, r⟩ <;> simp [Gathered.more]

theorem sentenceStr_string (R : Render L) (s : String) :
    sentenceElementToStr R [.string s] = s := by
  simp [sentenceElementToStr, SentenceElement.push]

theorem gather_saying (R : Render L) (s : Gathered) (n : Nat) (t : List Char) :
    gatherPiece R s (saying n t) = s.more (String.ofList t) := by
  rw [saying, gatherPiece, sentenceStr_string]

theorem gather_sentences (R : Render L) (l : List (Sentence L)) (s : Gathered) :
    (l.map sentencePiece).foldl (gatherPiece R) s = s.more (sentencesToStr R l) := by
  induction l generalizing s with
  | nil => exact (more_empty s).symm
  | cons x l ih =>
    rw [List.map_cons, List.foldl_cons, ih, sentencePiece, gatherPiece, more_more]
    congr 1
    apply String.toList_inj.mp
    simp [sentencesToStr, String.toList_join]

/-! ## Lines -/

/-- The place is the preamble only before the first article. -/
def BeforeArticles (q : State) (s : Gathered) : Prop := ∀ n, q.place = .preamble n → s = []

/-- The last article has a text. -/
def HasText (q : State) (s : Gathered) : Prop :=
  ∀ i k, q.place = .article i k → ∃ a e es r, s = (a, e :: es) :: r

theorem gather_meaning (R : Render L) (ls : List TextLine) (q : State) (s : Gathered)
    (h1 : BeforeArticles q s) (h2 : HasText q s) :
    (meaning q ls).foldl (gatherPiece R) s = gather q s ls := by
  induction ls generalizing q s with
  | nil => rfl
  | cons l r ih =>
    rw [meaning, gather]
    cases hn : next q l with
    | none => rfl
    | some q' =>
      simp only
      rw [List.foldl_append]
      have key : (contributes q' r l).foldl (gatherPiece R) s = gatherLine q' s l ∧
          BeforeArticles q' (gatherLine q' s l) ∧ HasText q' (gatherLine q' s l) := by
        cases l with
        | caption t =>
          cases hn
          refine ⟨?_, fun _ h => (by cases h), fun _ _ h => (by cases h)⟩
          simp only [contributes]
          split <;> rfl
        | part n t => cases hn; exact ⟨rfl, fun _ h => (by cases h), fun _ _ h => (by cases h)⟩
        | chapter n t => cases hn; exact ⟨rfl, fun _ h => (by cases h), fun _ _ h => (by cases h)⟩
        | section_ n t => cases hn; exact ⟨rfl, fun _ h => (by cases h), fun _ _ h => (by cases h)⟩
        | subsection n t =>
          simp only [next] at hn
          split at hn <;> cases hn
          exact ⟨rfl, fun _ h => (by cases h), fun _ _ h => (by cases h)⟩
        | division n t =>
          simp only [next] at hn
          split at hn <;> cases hn
          exact ⟨rfl, fun _ h => (by cases h), fun _ _ h => (by cases h)⟩
        | article n t =>
          cases hn
          refine ⟨?_, fun _ h => (by cases h), fun _ _ _ => ⟨_, _, _, _, rfl⟩⟩
          simp only [contributes, List.foldl_cons, List.foldl_nil, gather_saying]
          simp [gatherPiece, gatherLine, Gathered.open_, Gathered.more]
        | paragraph n t =>
          simp only [next] at hn
          split at hn <;> cases hn
          rename_i i k hq
          obtain ⟨a, e, es, u, rfl⟩ := h2 _ _ hq
          refine ⟨?_, fun _ h => (by cases h), fun _ _ _ => ⟨_, _, _, _, rfl⟩⟩
          simp only [contributes, List.foldl_cons, List.foldl_nil, gather_saying]
          exact open_more ((a, e :: es) :: u) ⟨n, []⟩ (String.ofList t)
        | item n t =>
          simp only [next] at hn
          split at hn <;> cases hn
          rename_i i k hq
          obtain ⟨a, e, es, u, rfl⟩ := h2 _ _ hq
          refine ⟨?_, fun _ h => (by cases h), fun _ _ _ => ⟨_, _, _, _, rfl⟩⟩
          simp only [contributes, List.foldl_cons, List.foldl_nil, gather_saying]
          exact openItem_more _ _ _ _ _ _ _
        | text t =>
          simp only [next] at hn
          split at hn <;> cases hn
          · rename_i k hq
            have := h1 _ hq
            subst this
            exact ⟨rfl, fun _ _ => rfl, fun _ _ h => (by cases h)⟩
          · rename_i i k hq
            obtain ⟨a, e, es, u, rfl⟩ := h2 _ _ hq
            refine ⟨?_, fun _ h => (by cases h), fun _ _ _ => ⟨_, _, _, _, rfl⟩⟩
            simp only [contributes, List.foldl_cons, List.foldl_nil, gather_saying]
            rfl
        | suppl n => cases hn
      rw [key.1]
      exact ih _ _ key.2.1 key.2.2

/-! ## Items -/

/-- Pieces below `d` items add texts to an article that are all in the same paragraph and below the
same `d` items. -/
def Adds (R : Render L) (d : Nat) (ps : List (Piece L))
    (f : ArticleNumber → List (Option ArticleNumber) → List (TextIndex × String)) : Prop :=
  ∀ p pre, pre.length = d → (∀ e ∈ f p pre, e.1.paragraph = p ∧ e.1.items.take d = pre) ∧
    ∀ a i t es r, i.paragraph = p → i.items.take d = pre →
      ps.foldl (gatherPiece R) ((a, (i, t) :: es) :: r) =
        (a, (f p pre).reverse ++ (i, t) :: es) :: r

theorem Adds.nil (R : Render L) (d : Nat) : Adds R d [] fun _ _ => [] :=
  fun _ _ _ => ⟨by simp, fun _ _ _ _ _ _ _ => rfl⟩

theorem Adds.append {R : Render L} {d : Nat} {ps qs : List (Piece L)}
    {f g : ArticleNumber → List (Option ArticleNumber) → List (TextIndex × String)}
    (hp : Adds R d ps f) (hq : Adds R d qs g) : Adds R d (ps ++ qs) fun p i => f p i ++ g p i := by
  intro p pre hl
  obtain ⟨h1, h2⟩ := hp p pre hl
  obtain ⟨h3, h4⟩ := hq p pre hl
  refine ⟨fun e he => (List.mem_append.1 he).elim (h1 e) (h3 e), fun a i t es r h5 h6 => ?_⟩
  rw [List.foldl_append, h2 a i t es r h5 h6, List.reverse_append, List.append_assoc]
  cases hr : (f p pre).reverse with
  | nil => exact h4 a i t es r h5 h6
  | cons e es' =>
    have he := h1 e (by rw [← List.mem_reverse, hr]; simp)
    exact h4 a e.1 e.2 _ r he.1 he.2

theorem Adds.flatMap {γ : Type} {R : Render L} {d : Nat} {ps : γ → List (Piece L)}
    {f : ArticleNumber → List (Option ArticleNumber) → γ → List (TextIndex × String)} (l : List γ)
    (h : ∀ x ∈ l, Adds R d (ps x) fun p i => f p i x) :
    Adds R d (l.flatMap ps) fun p i => l.flatMap (f p i) := by
  induction l with
  | nil => exact Adds.nil R d
  | cons x l ih =>
    simp only [List.flatMap_cons]
    exact (h x (by simp)).append (ih fun y hy => h y (by simp [hy]))

/-- The texts of items, from a function for lists of children. -/
theorem items_add {γ : Type} {R : Render L} {d : Nat} {ts : Table L → String} {child : γ → Prop}
    {below : γ → Nat} {ps : γ → List (Piece L)}
    {inner : ArticleNumber → List (Option ArticleNumber) → List γ → List (TextIndex × String)}
    (h : ∀ l : List γ, (∀ y ∈ l, child y) → Adds R (d + 1) (l.flatMap ps) fun p i => inner p i l)
    (l : List (ItemOf L γ)) (hl : ∀ x ∈ l, ItemBuilt child below x) :
    Adds R d (l.flatMap (itemPieces ps (d + 1)))
      fun p i => textListFromItems R ts inner p i l := by
  refine Adds.flatMap (f := fun p i t => (⟨p, i ++ [t.num]⟩, t.sentence.toStr R ts) ::
      inner p (i ++ [t.num]) t.children) l fun x hx => ?_
  obtain ⟨sl, s, hs, -⟩ := (hl x hx).sentence
  intro p pre hpre
  obtain ⟨h1, h2⟩ := h x.children (hl x hx).children p (pre ++ [x.num]) (by simp [hpre])
  refine ⟨fun e he => ?_, fun a i t es r h3 h4 => ?_⟩
  · rcases List.mem_cons.1 he with rfl | he
    · exact ⟨rfl, by simp [← hpre]⟩
    · refine ⟨(h1 e he).1, ?_⟩
      have := congrArg (List.take d) (h1 e he).2
      rw [List.take_take, Nat.min_eq_left (Nat.le_succ d)] at this
      rw [this]
      simp [← hpre]
  · rw [itemPieces, hs]
    simp only [List.cons_append, List.foldl_cons, List.foldl_append]
    rw [gather_sentences, gatherPiece, openItem_more]
    simp only [Gathered.openItem, Nat.add_sub_cancel, h3, h4]
    rw [h2 _ _ _ _ _ rfl (by rw [List.take_of_length_le]; simp [hpre])]
    simp [SentenceOrColumnOrTable.toStr]

theorem subitem10_add (R : Render L) (l : List (Subitem10 L)) (hl : ∀ x ∈ l, Subitem10Built x) :
    Adds R 10 (l.flatMap subitem10) fun p i => textListFromSubitem10 R p i l :=
  items_add (inner := fun _ _ _ => []) (fun l _ => by
    cases l with
    | nil => exact Adds.nil R 11
    | cons a _ => exact a.elim) l hl
theorem subitem9_add (R : Render L) (l : List (Subitem9 L)) (hl : ∀ x ∈ l, Subitem9Built x) :
    Adds R 9 (l.flatMap subitem9) fun p i => textListFromSubitem9 R p i l :=
  items_add (subitem10_add R) l hl
theorem subitem8_add (R : Render L) (l : List (Subitem8 L)) (hl : ∀ x ∈ l, Subitem8Built x) :
    Adds R 8 (l.flatMap subitem8) fun p i => textListFromSubitem8 R p i l :=
  items_add (subitem9_add R) l hl
theorem subitem7_add (R : Render L) (l : List (Subitem7 L)) (hl : ∀ x ∈ l, Subitem7Built x) :
    Adds R 7 (l.flatMap subitem7) fun p i => textListFromSubitem7 R p i l :=
  items_add (subitem8_add R) l hl
theorem subitem6_add (R : Render L) (l : List (Subitem6 L)) (hl : ∀ x ∈ l, Subitem6Built x) :
    Adds R 6 (l.flatMap subitem6) fun p i => textListFromSubitem6 R p i l :=
  items_add (subitem7_add R) l hl
theorem subitem5_add (R : Render L) (l : List (Subitem5 L)) (hl : ∀ x ∈ l, Subitem5Built x) :
    Adds R 5 (l.flatMap subitem5) fun p i => textListFromSubitem5 R p i l :=
  items_add (subitem6_add R) l hl
theorem subitem4_add (R : Render L) (l : List (Subitem4 L)) (hl : ∀ x ∈ l, Subitem4Built x) :
    Adds R 4 (l.flatMap subitem4) fun p i => textListFromSubitem4 R p i l :=
  items_add (subitem5_add R) l hl
theorem subitem3_add (R : Render L) (l : List (Subitem3 L)) (hl : ∀ x ∈ l, Subitem3Built x) :
    Adds R 3 (l.flatMap subitem3) fun p i => textListFromSubitem3 R p i l :=
  items_add (subitem4_add R) l hl
theorem subitem2_add (R : Render L) (l : List (Subitem2 L)) (hl : ∀ x ∈ l, Subitem2Built x) :
    Adds R 2 (l.flatMap subitem2) fun p i => textListFromSubitem2 R p i l :=
  items_add (subitem3_add R) l hl
theorem subitem1_add (R : Render L) (l : List (Subitem1 L)) (hl : ∀ x ∈ l, Subitem1Built x) :
    Adds R 1 (l.flatMap subitem1) fun p i => textListFromSubitem1 R p i l :=
  items_add (subitem2_add R) l hl
theorem item_add (R : Render L) (l : List (Item L)) (hl : ∀ x ∈ l, ItemsBuilt x) :
    Adds R 0 (l.flatMap item)
      fun p i => textListFromItems R (tableToStr R) (textListFromSubitem1 R) p i l :=
  items_add (subitem1_add R) l hl

/-! ## Paragraphs, articles and units -/

theorem textInfo_items (R : Render L) (l : List (Paragraph L)) :
    textInfoListFromParagraph R l = l.flatMap fun p =>
      (⟨p.num, []⟩, sentencesToStr R p.sentence) ::
        textListFromItems R (tableToStr R) (textListFromSubitem1 R) p.num [] p.children := by
  rw [textInfo_eq]
  apply flatMap_congr_mem
  intro p _
  congr 1
  exact (textList_walk R 0 _ _ (item_walk R) p.num [] p.children).symm

theorem paragraphs_gather (R : Render L) (l : List (Paragraph L))
    (hl : ∀ p ∈ l, ∃ s, ParagraphBuilt s p) (a : ArticleNumber) (es : List (TextIndex × String))
    (r : Gathered) :
    (l.flatMap Spec.paragraph).foldl (gatherPiece R) ((a, es) :: r) =
      (a, (textInfoListFromParagraph R l).reverse ++ es) :: r := by
  rw [textInfo_items]
  induction l generalizing es with
  | nil => rfl
  | cons p l ih =>
    obtain ⟨s, hp⟩ := hl p (by simp)
    rw [List.flatMap_cons, List.foldl_append, Spec.paragraph]
    simp only [List.cons_append, List.foldl_cons, List.foldl_append]
    rw [gather_sentences, gatherPiece, open_more, Gathered.open_,
      (item_add R p.children hp.children p.num [] rfl).2 _ _ _ _ _ rfl rfl,
      ih fun q hq => hl q (by simp [hq])]
    simp [List.flatMap_cons, List.append_assoc]

/-- What is gathered of an article. -/
def articleTexts (R : Render L) (a : Article L) : ArticleNumber × List (TextIndex × String) :=
  (a.num, (textInfoListFromParagraph R a.paragraph).reverse)

theorem article_gather (R : Render L) (path : List Spec.Kind) (a : Article L) (ha : ArticleBuilt a)
    (s : Gathered) :
    (Spec.article path a).foldl (gatherPiece R) s = articleTexts R a :: s := by
  have hc : (a.caption.toList.map fun c => Piece.caption c.text).foldl (gatherPiece R) s = s := by
    cases a.caption <;> rfl
  rw [Spec.article, List.foldl_append, hc, List.foldl_cons, gatherPiece, paragraphs_gather]
  · simp [articleTexts]
  · obtain ⟨p, r, t, h1, -, h2, -, h3⟩ := ha.paragraph
    intro q hq
    rw [h1] at hq
    rcases List.mem_cons.1 hq with rfl | hq
    · exact ⟨t, h2⟩
    · exact h3 q hq

theorem unit_gather {γ : Type} {R : Render L} {child isArticle : γ → Prop}
    {ps : List Spec.Kind → γ → List (Piece L)} {as : γ → List (Article L)}
    (h : ∀ path y, child y → ∀ s, (ps path y).foldl (gatherPiece R) s =
      ((as y).map (articleTexts R)).reverse ++ s)
    (path : List Spec.Kind) (x : HierOf L γ) (hx : UnitBuilt child isArticle x) (s : Gathered) :
    (unit ps path x).foldl (gatherPiece R) s =
      ((x.children.flatMap as).map (articleTexts R)).reverse ++ s := by
  rw [unit, List.foldl_cons]
  show List.foldl (gatherPiece R) s _ = _
  have hc := hx.children
  generalize x.children = c at hc
  induction c generalizing s with
  | nil => rfl
  | cons y c ih =>
    rw [List.flatMap_cons, List.foldl_append, h path y (hc y (by simp)),
      ih _ fun z hz => hc z (by simp [hz])]
    simp

theorem division_gather (R : Render L) (path : List Spec.Kind) (x : Division L) (hx : DivisionBuilt x)
    (s : Gathered) : (division path x).foldl (gatherPiece R) s =
      (((articleListFromDivision x).map fun w => w.article).map (articleTexts R)).reverse ++ s := by
  have h := unit_gather (R := R) (as := fun a => [a])
    (fun path y hy s => article_gather R path y hy s) path x hx s
  rw [division, h]
  simp [articleListFromDivision, Function.comp_def]

theorem subsection_gather (R : Render L) (path : List Spec.Kind) (x : Subsection L)
    (hx : SubsectionBuilt x) (s : Gathered) : (subsection path x).foldl (gatherPiece R) s =
      (((articleListFromSubsection x).map fun w => w.article).map (articleTexts R)).reverse ++ s := by
  rw [Spec.subsection, articleListFromSubsection, List.map_flatMap]
  refine unit_gather (fun path y hy s => ?_) path x hx s
  cases y with
  | article a => exact article_gather R path a hy s
  | division d =>
    refine (division_gather R _ d hy s).trans ?_
    simp [Function.comp_def]

theorem section_gather (R : Render L) (path : List Spec.Kind) (x : Section L)
    (hx : SectionBuilt x) (s : Gathered) : (Spec.section_ path x).foldl (gatherPiece R) s =
      (((articleListFromSection x).map fun w => w.article).map (articleTexts R)).reverse ++ s := by
  rw [Spec.section_, articleListFromSection, List.map_flatMap]
  refine unit_gather (fun path y hy s => ?_) path x hx s
  cases y with
  | article a => exact article_gather R path a hy s
  | subsection d =>
    refine (subsection_gather R _ d hy s).trans ?_
    simp [Function.comp_def]
  | division d => exact hy.elim

theorem chapter_gather (R : Render L) (path : List Spec.Kind) (x : Chapter L)
    (hx : ChapterBuilt x) (s : Gathered) : (chapter path x).foldl (gatherPiece R) s =
      (((articleListFromChapter x).map fun w => w.article).map (articleTexts R)).reverse ++ s := by
  rw [Spec.chapter, articleListFromChapter, List.map_flatMap]
  refine unit_gather (fun path y hy s => ?_) path x hx s
  cases y with
  | article a => exact article_gather R path a hy s
  | section_ d =>
    refine (section_gather R _ d hy s).trans ?_
    simp [Function.comp_def]

theorem part_gather (R : Render L) (path : List Spec.Kind) (x : Part L)
    (hx : PartBuilt x) (s : Gathered) : (part path x).foldl (gatherPiece R) s =
      (((articleListFromPart x).map fun w => w.article).map (articleTexts R)).reverse ++ s := by
  rw [Spec.part, articleListFromPart, List.map_flatMap]
  refine unit_gather (fun path y hy s => ?_) path x hx s
  cases y with
  | article a => exact article_gather R path a hy s
  | chapter d =>
    refine (chapter_gather R _ d hy s).trans ?_
    simp [Function.comp_def]

theorem main_articles (m : MainProvision L) :
    (articleListFromMainProvision m).1 = m.children.flatMap fun c => match c.act with
      | .close l => l.map fun w => w.article
      | _ => [] := by
  have h := fold_v (m.children.map MainProvisionContents.act) {}
  rw [articleListFromMainProvision, mainProvision_eq]
  simp only [ListSt.finish, h, List.nil_append, List.flatMap_map, List.map_flatMap]
  apply flatMap_congr_mem
  intro c _
  cases c <;> rfl

theorem main_gather (R : Render L) (l : List (MainProvisionContents L)) (hl : ∀ c ∈ l, MainBuilt c)
    (s : Gathered) : (l.flatMap mainChild).foldl (gatherPiece R) s =
      ((l.flatMap fun c => match c.act with
        | .close l => l.map fun w => w.article
        | _ => []).map (articleTexts R)).reverse ++ s := by
  induction l generalizing s with
  | nil => rfl
  | cons c l ih =>
    rw [List.flatMap_cons, List.foldl_append, List.flatMap_cons, List.map_append,
      List.reverse_append, List.append_assoc, ← ih (fun x hx => hl x (by simp [hx]))]
    congr 1
    have hc := hl c (by simp)
    cases c with
    | part x => exact part_gather R _ x hc s
    | chapter x => exact chapter_gather R _ x hc s
    | section_ x => exact section_gather R _ x hc s
    | article a => exact article_gather R _ a hc s
    | paragraph p => exact hc.elim

/-- Of a preamble nothing is gathered. -/
theorem preamble_gather (R : Render L) {title : List Char} {b : LawBody L} (hb : BodyBuilt title b) :
    (b.preamble.toList.flatMap fun p => p.children.flatMap Spec.paragraph).foldl (gatherPiece R) [] =
      [] := by
  cases hp : b.preamble with
  | none => rfl
  | some p =>
    have hc := (hb.preamble p hp).2
    simp only [Option.toList_some, List.flatMap_cons, List.flatMap_nil, List.append_nil]
    have hc : ∀ y ∈ p.children, ∃ i, PreambleParagraph i y := by
      intro y hy
      obtain ⟨i, hi⟩ := List.getElem?_of_mem hy
      exact ⟨i, hc i y hi⟩
    generalize p.children = c at hc
    induction c with
    | nil => rfl
    | cons y c ih =>
      obtain ⟨i, s, x, -, rfl⟩ := hc y (by simp)
      rw [List.flatMap_cons, List.foldl_append]
      exact ih fun z hz => hc z (by simp [hz])

theorem document_gather (R : Render L) {title : List Char} {b : LawBody L} (hb : BodyBuilt title b) :
    (document b).foldl (gatherPiece R) [] =
      ((articleListFromMainProvision b.main_provision).1.map (articleTexts R)).reverse := by
  rw [document, List.foldl_append, preamble_gather R hb, main_gather R _ hb.children, main_articles,
    List.append_nil]

end JLaw
