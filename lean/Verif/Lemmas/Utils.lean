import Verif.Model.Utils
import Verif.Spec.Utils
import Mathlib.Data.List.Forall2

/-!
# Facts used for the lists of articles, the plain text and the tables of contents
-/

namespace JLaw

variable {L : Lvl}

/-! ## Plain text -/

theorem foldl_push {α : Type} {f : String → α → String} {g : α → String}
    (h : ∀ s x, f s x = s ++ g x) (l : List α) (s : String) :
    l.foldl f s = s ++ String.join (l.map g) := by
  induction l generalizing s with
  | nil => simp [String.join]
  | cons a l ih =>
    rw [List.foldl_cons, ih, h, List.map_cons, String.append_assoc]
    congr 1
    apply String.toList_inj.mp
    simp [String.toList_join]

theorem toStr_plain : ∀ (n : Nat) (t : Text (lvl n)), Text.toStr (render n) t = plainText n t
  | 0, t => by
    rw [Text.toStr, foldl_push (g := TextElement.plain Empty.elim), plainText, String.empty_append]
    intro s x
    cases x <;> simp [TextElement.push, TextElement.plain]
    rename_i v; exact Empty.elim v.text
  | n + 1, t => by
    rw [Text.toStr, foldl_push (g := TextElement.plain (plainText n)), plainText,
      String.empty_append]
    intro s x
    cases x <;> simp [TextElement.push, TextElement.plain]
    exact toStr_plain n _

theorem contents_plain (n : Nat) (s : String) (c : Contents (lvl n)) :
    Contents.push (render n) s c = s ++ plainContents n c := by
  cases n with
  | zero =>
    rw [Contents.push, foldl_push (g := ContentsElement.plain Empty.elim), plainContents]
    intro s x
    cases x <;> simp [ContentsElement.push, ContentsElement.plain, String.append_assoc]
    rename_i v; exact Empty.elim v.text
  | succ n =>
    rw [Contents.push, foldl_push (g := ContentsElement.plain (plainText n)), plainContents]
    intro s x
    cases x <;> simp [ContentsElement.push, ContentsElement.plain, String.append_assoc]
    exact toStr_plain n _

theorem sentence_plain (n : Nat) (l : List (SentenceElement (lvl n))) :
    sentenceElementToStr (render n) l = plainSentence n l := by
  cases n with
  | zero =>
    rw [sentenceElementToStr, foldl_push (g := SentenceElement.plain Empty.elim Empty.elim),
      plainSentence, String.empty_append]
    intro s x
    cases x <;> simp [SentenceElement.push, SentenceElement.plain, String.append_assoc]
    · rename_i v; exact Empty.elim v.contentes
    · rename_i v; exact Empty.elim v.contentes
    · rename_i v; exact Empty.elim v.text
  | succ n =>
    rw [sentenceElementToStr,
      foldl_push (g := SentenceElement.plain (plainText n) (plainContents n)),
      plainSentence, String.empty_append]
    intro s x
    cases x <;> simp [SentenceElement.push, SentenceElement.plain, String.append_assoc]
    · exact contents_plain n _ _
    · exact contents_plain n _ _
    · exact toStr_plain n _

theorem sentences_plain (n : Nat) (l : List (Sentence (lvl n))) :
    sentencesToStr (render n) l = String.join (l.map fun s => plainSentence n s.contents) := by
  simp only [sentencesToStr, sentence_plain]

theorem cell_plain (n : Nat) (c : TableColumn (lvl n)) :
    TableColumn.toStr (render n) c = plainCell n c := by
  rw [TableColumn.toStr, plainCell]
  congr 2
  funext x
  cases x <;> simp [TableColumnContents.toStr, TableColumnContents.plain, sentence_plain,
    sentences_plain]

theorem row_plain (n : Nat) (r : TableRow (lvl n)) :
    r.columns.map (render n).column = rowCells n r := by
  cases n with
  | zero =>
    rw [rowCells]
    cases h : r.columns with
    | nil => rfl
    | cons a _ => exact Empty.elim a
  | succ n =>
    rw [rowCells]
    apply List.map_congr_left
    intro c _
    exact cell_plain n c

/-! ## Walks -/

theorem walkAll_eq {α : Type} (around : List α) (ts : List (Rose α)) :
    Rose.walkAll around ts = ts.flatMap (Rose.walk around) := by
  induction ts with
  | nil => rfl
  | cons t ts ih => rw [Rose.walkAll, ih, List.flatMap_cons]

mutual
theorem walk_cons {α : Type} (x : α) (around : List α) : ∀ t : Rose α,
    Rose.walk (x :: around) t = (Rose.walk around t).map fun p => (x :: p.1, p.2)
  | .node a c => by
    rw [Rose.walk, Rose.walk, List.map_cons, List.cons_append, walkAll_cons]
theorem walkAll_cons {α : Type} (x : α) (around : List α) : ∀ ts : List (Rose α),
    Rose.walkAll (x :: around) ts = (Rose.walkAll around ts).map fun p => (x :: p.1, p.2)
  | [] => rfl
  | t :: ts => by
    rw [Rose.walkAll, Rose.walkAll, List.map_append, walk_cons, walkAll_cons]
end

/-- Label at the root. -/
def Rose.label {α : Type} : Rose α → α
  | .node a _ => a

theorem walk_head {α : Type} {t : Rose α} {a : List α} {u : α} (h : (a, u) ∈ Rose.walk [] t) :
    ∃ l, a ++ [u] = t.label :: l := by
  obtain ⟨x, c⟩ := t
  rw [Rose.walk, List.nil_append, walkAll_cons] at h
  rcases List.mem_cons.mp h with h | h
  · cases h; exact ⟨[], rfl⟩
  · obtain ⟨p, hp, he⟩ := List.mem_map.mp h
    cases he
    exact ⟨p.1 ++ [p.2], rfl⟩

/-! ## Lists of articles -/

/-- What the numbered lists report for a unit that is an article. -/
def listed (p : List (UnitHead L) × UnitHead L) : Option (WithNumberArticle L) :=
  p.2.article?.map fun a =>
    { part := numBelow .part (p.1 ++ [p.2])
      chapter := numBelow .chapter (p.1 ++ [p.2])
      section_ := numBelow .section_ (p.1 ++ [p.2])
      subsection := numBelow .subsection (p.1 ++ [p.2])
      division := numOf .division p.1
      article := a }

/-- Setting the number for a unit `p` that holds the unit `x`. -/
def put (p x : UnitHead L) (w : WithNumberArticle L) : WithNumberArticle L :=
  match p.kind with
  | .part => { w with part := some x.num }
  | .chapter => { w with chapter := some x.num }
  | .section_ => { w with section_ := some x.num }
  | .subsection => { w with subsection := some x.num }
  | .division => { w with division := some p.num }
  | .article => w

theorem filterMap_congr_mem {α β : Type} {f g : α → Option β} {l : List α}
    (h : ∀ x ∈ l, f x = g x) : l.filterMap f = l.filterMap g := by
  induction l with
  | nil => rfl
  | cons a l ih =>
    rw [List.filterMap_cons, List.filterMap_cons, h a (by simp), ih fun x hx => h x (by simp [hx])]

theorem filterMap_getElem {α β : Type} {f : α → Option β} {l : List α} {i : Nat} {w : β}
    (h : (l.filterMap f)[i]? = some w) :
    ∃ x, (l.filter fun x => (f x).isSome)[i]? = some x ∧ f x = some w := by
  induction l generalizing i with
  | nil => simp at h
  | cons a l ih =>
    rw [List.filterMap_cons] at h
    cases ha : f a with
    | none =>
      rw [ha] at h
      obtain ⟨x, h1, h2⟩ := ih h
      exact ⟨x, by simpa [List.filter_cons, ha] using h1, h2⟩
    | some b =>
      rw [ha] at h
      cases i with
      | zero =>
        simp only [List.getElem?_cons_zero, Option.some.injEq] at h
        exact ⟨a, by simp [ha], by rw [ha, h]⟩
      | succ i =>
        obtain ⟨x, h1, h2⟩ := ih (i := i) (by simpa using h)
        exact ⟨x, by simpa [List.filter_cons, ha] using h1, h2⟩

theorem listed_put (p : UnitHead L) (t : Rose (UnitHead L)) :
    (Rose.walk [p] t).filterMap listed = ((Rose.walk [] t).filterMap listed).map (put p t.label) := by
  rw [walk_cons, List.filterMap_map, List.map_filterMap]
  apply filterMap_congr_mem
  rintro ⟨a, u⟩ h
  obtain ⟨l, hl⟩ := walk_head h
  simp only [Function.comp, listed, Option.map_map, List.cons_append, hl]
  cases u.article? with
  | none => rfl
  | some a =>
    simp only [Option.map_some, Option.some.injEq, put, numBelow, numOf, Function.comp]
    cases hk : p.kind <;> simp [hk]

theorem listed_node (p : UnitHead L) (hp : p.article? = none) (ts : List (Rose (UnitHead L))) :
    (Rose.walk [] (.node p ts)).filterMap listed =
      ts.flatMap fun t => ((Rose.walk [] t).filterMap listed).map (put p t.label) := by
  have h : listed (([] : List (UnitHead L)), p) = none := by simp [listed, hp]
  rw [Rose.walk, List.filterMap_cons, h, walkAll_eq, List.nil_append]
  simp only [List.filterMap_flatMap, listed_put]

theorem listed_article (a : Article L) :
    (Rose.walk [] a.tree).filterMap listed = [{ article := a }] := by
  simp [Article.tree, Rose.walk, Rose.walkAll, listed, UnitHead.article?, numBelow, numOf]

theorem division_list (d : Division L) :
    articleListFromDivision d = (Rose.walk [] (Division.tree d)).filterMap listed := by
  rw [Division.tree, listed_node _ rfl, articleListFromDivision, List.flatMap_map]
  simp only [listed_article, List.map_cons, List.map_nil]
  exact List.map_eq_flatMap

theorem flatMap_congr_mem {α β : Type} {f g : α → List β} {l : List α}
    (h : ∀ x ∈ l, f x = g x) : l.flatMap f = l.flatMap g := by
  induction l with
  | nil => rfl
  | cons a l ih =>
    rw [List.flatMap_cons, List.flatMap_cons, h a (by simp), ih fun x hx => h x (by simp [hx])]

theorem subsection_list (d : Subsection L) :
    articleListFromSubsection d = (Rose.walk [] (Subsection.tree d)).filterMap listed := by
  rw [Subsection.tree, listed_node _ rfl, articleListFromSubsection, List.flatMap_map]
  apply flatMap_congr_mem
  intro c _
  cases c with
  | article a => simp only [SubsectionContents.tree, listed_article]; rfl
  | division d => simp only [SubsectionContents.tree, division_list]; rfl

theorem section_list (d : Section L) :
    articleListFromSection d = (Rose.walk [] (Section.tree d)).filterMap listed := by
  rw [Section.tree, listed_node _ rfl, articleListFromSection, List.flatMap_map]
  apply flatMap_congr_mem
  intro c _
  cases c with
  | article a => simp only [SectionContents.tree, listed_article]; rfl
  | subsection d => simp only [SectionContents.tree, subsection_list]; rfl
  | division d => simp only [SectionContents.tree, division_list]; rfl

theorem chapter_list (d : Chapter L) :
    articleListFromChapter d = (Rose.walk [] (Chapter.tree d)).filterMap listed := by
  rw [Chapter.tree, listed_node _ rfl, articleListFromChapter, List.flatMap_map]
  apply flatMap_congr_mem
  intro c _
  cases c with
  | article a => simp only [ChapterContents.tree, listed_article]; rfl
  | section_ d => simp only [ChapterContents.tree, section_list]; rfl

theorem part_list (d : Part L) :
    articleListFromPart d = (Rose.walk [] (Part.tree d)).filterMap listed := by
  rw [Part.tree, listed_node _ rfl, articleListFromPart, List.flatMap_map]
  apply flatMap_congr_mem
  intro c _
  cases c with
  | article a => simp only [PartContents.tree, listed_article]; rfl
  | chapter d => simp only [PartContents.tree, chapter_list]; rfl

/-- What a run of the loop over the children of a provision gives, when every child closes the
open group with some articles, joins it, or is passed over. -/
inductive Act (α : Type) (L : Lvl)
  | close (l : List α)
  | keep (p : Paragraph L)
  | pass

/-- Does it close the group? -/
def Act.closes {α : Type} : Act α L → Bool
  | .close _ => true
  | _ => false
/-- Is it passed over? -/
def Act.passes {α : Type} : Act α L → Bool
  | .pass => true
  | _ => false

/-- The effect on the state. -/
def ListSt.act {α : Type} (s : ListSt α L) : Act α L → ListSt α L
  | .close l => s.close l
  | .keep p => s.keep p
  | .pass => s

theorem fold_v {α : Type} (acts : List (Act α L)) (s : ListSt α L) :
    (acts.foldl ListSt.act s).v = s.v ++ acts.flatMap fun | .close l => l | _ => [] := by
  induction acts generalizing s with
  | nil => simp
  | cons a acts ih =>
    rw [List.foldl_cons, ih]
    cases a <;> simp [ListSt.act, ListSt.close, ListSt.keep]

/-- Groups of loose paragraphs. -/
def groups {α : Type} : List (Act α L) → List (Paragraph L) → List (List (Paragraph L))
  | [], g => [g]
  | .close _ :: r, g => g :: groups r []
  | .keep p :: r, g => groups r (g ++ [p])
  | .pass :: r, g => groups r g

theorem fold_groups {α : Type} (acts : List (Act α L)) (s : ListSt α L) :
    (acts.foldl ListSt.act s).finish.2 = s.para_v ++ groups acts s.para_v_tmp := by
  induction acts generalizing s with
  | nil => rfl
  | cons a acts ih =>
    rw [List.foldl_cons, ih]
    cases a <;> simp [ListSt.act, ListSt.close, ListSt.keep, groups]

theorem groups_interleave {α β : Type} (inj : Paragraph L → β) (act : β → Act α L)
    (hk : ∀ b p, act b = .keep p → b = inj p)
    (l : List β) (g : List (Paragraph L)) :
    (groups (l.map act) g).length = (l.filter fun b => (act b).closes).length + 1 ∧
    g.map inj ++ (l.filter fun b => !(act b).passes) =
      interleave ((groups (l.map act) g).map (List.map inj))
        (l.filter fun b => (act b).closes) := by
  induction l generalizing g with
  | nil => simp [groups, interleave]
  | cons b l ih =>
    cases h : act b with
    | close x =>
      simp only [List.map_cons, h, groups, List.filter_cons]
      simpa [interleave, Act.closes, Act.passes] using ih []
    | keep p =>
      simp only [List.map_cons, h, groups, List.filter_cons]
      have := ih (g ++ [p])
      rw [hk b p h]
      simpa [Act.closes, Act.passes] using this
    | pass =>
      simp only [List.map_cons, h, groups, List.filter_cons]
      simpa [Act.closes, Act.passes] using ih g

/-- What the loop over a main provision does with a child. -/
def MainProvisionContents.act : MainProvisionContents L → Act (WithNumberArticle L) L
  | .article t => .close [{ article := t }]
  | .part t => .close (articleListFromPart t)
  | .chapter t => .close (articleListFromChapter t)
  | .section_ t => .close (articleListFromSection t)
  | .paragraph t => .keep t

theorem mainProvision_eq (m : MainProvision L) :
    withNumberArticleListFromMainProvision m =
      ((m.children.map MainProvisionContents.act).foldl ListSt.act {}).finish := by
  rw [withNumberArticleListFromMainProvision, List.foldl_map]
  congr 2
  funext s c
  cases c <;> rfl

/-- What the loop over a supplementary provision does with a child. -/
def SupplProvisionChildrenElement.act :
    SupplProvisionChildrenElement L → Act (WithNumberArticle L) L
  | .article t => .close [{ article := t }]
  | .chapter t => .close (articleListFromChapter t)
  | .paragraph t => .keep t
  | _ => .pass

theorem supplProvision_eq (x : SupplProvision L) :
    withNumberArticleListFromSupplProvision x =
      ((x.children.map SupplProvisionChildrenElement.act).foldl ListSt.act {}).finish := by
  rw [withNumberArticleListFromSupplProvision, List.foldl_map]
  congr 2
  funext s c
  cases c <;> rfl

/-- The action on plain articles. -/
def Act.plain : Act (WithNumberArticle L) L → Act (Article L) L
  | .close l => .close (l.map fun w => w.article)
  | .keep p => .keep p
  | .pass => .pass

theorem supplProvision_plain_eq (x : SupplProvision L) :
    articleListFromSupplProvision x =
      ((x.children.map fun c => c.act.plain).foldl ListSt.act {}).finish := by
  rw [articleListFromSupplProvision, List.foldl_map]
  congr 2
  funext s c
  cases c <;> rfl

theorem groups_plain (l : List (Act (WithNumberArticle L) L)) (g : List (Paragraph L)) :
    groups (l.map Act.plain) g = groups l g := by
  induction l generalizing g with
  | nil => rfl
  | cons a l ih => cases a <;> simp [Act.plain, groups, ih]

theorem flatMap_filterMap_elim {α β γ : Type} (f : β → List γ) (g : α → Option β) (l : List α) :
    (l.filterMap g).flatMap f = l.flatMap fun x => (g x).elim [] f := by
  induction l with
  | nil => rfl
  | cons a l ih =>
    rw [List.filterMap_cons, List.flatMap_cons, ← ih]
    cases g a <;> simp

theorem main_listed (m : MainProvision L) :
    (withNumberArticleListFromMainProvision m).1 = m.units.filterMap listed := by
  rw [mainProvision_eq]
  show (List.foldl ListSt.act {} _).v = _
  rw [fold_v, List.nil_append, List.flatMap_map, MainProvision.units, walkAll_eq,
    List.filterMap_flatMap, flatMap_filterMap_elim]
  apply flatMap_congr_mem
  intro c _
  cases c with
  | part d => simpa [MainProvisionContents.act, MainProvisionContents.tree?] using part_list d
  | chapter d => simpa [MainProvisionContents.act, MainProvisionContents.tree?] using chapter_list d
  | section_ d =>
    simpa [MainProvisionContents.act, MainProvisionContents.tree?] using section_list d
  | article a =>
    simpa [MainProvisionContents.act, MainProvisionContents.tree?] using (listed_article a).symm
  | paragraph p => rfl

theorem suppl_listed (x : SupplProvision L) :
    (withNumberArticleListFromSupplProvision x).1 = x.units.filterMap listed := by
  rw [supplProvision_eq]
  show (List.foldl ListSt.act {} _).v = _
  rw [fold_v, List.nil_append, List.flatMap_map, SupplProvision.units, walkAll_eq,
    List.filterMap_flatMap, flatMap_filterMap_elim]
  apply flatMap_congr_mem
  intro c _
  cases c with
  | chapter d =>
    simpa [SupplProvisionChildrenElement.act, SupplProvisionChildrenElement.tree?]
      using chapter_list d
  | article a =>
    simpa [SupplProvisionChildrenElement.act, SupplProvisionChildrenElement.tree?]
      using (listed_article a).symm
  | paragraph p => rfl
  | supplProvisionAppdxTable p => rfl
  | supplProvisionAppdxStyle p => rfl
  | supplProvisionAppdx p => rfl

theorem suppl_plain (x : SupplProvision L) :
    articleListFromSupplProvision x =
      ((withNumberArticleListFromSupplProvision x).1.map (fun w => w.article),
        (withNumberArticleListFromSupplProvision x).2) := by
  apply Prod.ext
  · rw [supplProvision_plain_eq, supplProvision_eq]
    show (List.foldl ListSt.act {} _).v = List.map _ (List.foldl ListSt.act {} _).v
    rw [fold_v, fold_v, List.nil_append, List.nil_append, List.flatMap_map, List.flatMap_map,
      List.map_flatMap]
    apply flatMap_congr_mem
    intro c _
    cases c <;> rfl
  · show _ = (withNumberArticleListFromSupplProvision x).2
    rw [supplProvision_plain_eq, supplProvision_eq, fold_groups, fold_groups,
      ← groups_plain, List.map_map]
    rfl

theorem listed_articles (l : List (List (UnitHead L) × UnitHead L)) :
    (l.filterMap listed).map (fun w => w.article) = l.filterMap fun p => p.2.article? := by
  rw [List.map_filterMap]
  apply filterMap_congr_mem
  intro p _
  simp only [listed, Option.map_map]
  cases p.2.article? <;> rfl

/-! ## Items -/

/-- The text of an item with the table lost at level 6. -/
def ItemHead.toStr (R : Render L) (u : ItemHead L) : String :=
  u.sentence.toStr R (if u.level = 6 then fun _ => "" else tableToStr R)

/-- The entry for an item. -/
def itemEntry (R : Render L) (para : ArticleNumber) (p : List (ItemHead L) × ItemHead L) :
    TextIndex × String :=
  (⟨para, (p.1 ++ [p.2]).map fun u => u.num⟩, p.2.toStr R)

theorem textList_walk {γ : Type} (R : Render L) (level : Nat)
    (inner : ArticleNumber → List (Option ArticleNumber) → List γ → List (TextIndex × String))
    (tree : γ → Rose (ItemHead L))
    (h : ∀ para around l, inner para (around.map fun u => u.num) l =
      (Rose.walkAll around (l.map tree)).map (itemEntry R para))
    (para : ArticleNumber) (around : List (ItemHead L)) (l : List (ItemOf L γ)) :
    textListFromItems R (if level = 6 then fun _ => "" else tableToStr R) inner para
        (around.map fun u => u.num) l =
      (Rose.walkAll around (l.map (ItemOf.tree level tree))).map (itemEntry R para) := by
  rw [walkAll_eq, textListFromItems, List.flatMap_map, List.map_flatMap]
  apply flatMap_congr_mem
  intro t _
  rw [ItemOf.tree, Rose.walk, List.map_cons, ← h]
  simp [itemEntry, ItemHead.toStr]

theorem subitem10_walk (R : Render L) (para : ArticleNumber) (around : List (ItemHead L))
    (l : List (Subitem10 L)) :
    textListFromSubitem10 R para (around.map fun u => u.num) l =
      (Rose.walkAll around (l.map (ItemOf.tree 10 Empty.elim))).map (itemEntry R para) :=
  textList_walk R 10 _ _ (by
    intro _ _ l
    cases l with
    | nil => rfl
    | cons a _ => exact a.elim) para around l

theorem item_walk (R : Render L) (para : ArticleNumber) (around : List (ItemHead L))
    (l : List (Subitem1 L)) :
    textListFromSubitem1 R para (around.map fun u => u.num) l =
      (Rose.walkAll around (l.map (
        ItemOf.tree 1 <| ItemOf.tree 2 <| ItemOf.tree 3 <| ItemOf.tree 4 <|
        ItemOf.tree 5 <| ItemOf.tree 6 <| ItemOf.tree 7 <| ItemOf.tree 8 <| ItemOf.tree 9 <|
        ItemOf.tree 10 Empty.elim))).map (itemEntry R para) :=
  textList_walk R 1 _ _ (textList_walk R 2 _ _ (textList_walk R 3 _ _ (textList_walk R 4 _ _
    (textList_walk R 5 _ _ (textList_walk R 6 _ _ (textList_walk R 7 _ _ (textList_walk R 8 _ _
      (textList_walk R 9 _ _ (subitem10_walk R))))))))) para around l

theorem paragraph_items (R : Render L) (para : ArticleNumber) (l : List (Item L))
    (v : List (TextIndex × String)) :
    l.foldl (paragraphItemStep R para) ([], v) =
      ([], v ++ (Rose.walkAll [] (l.map Item.tree)).map (itemEntry R para)) := by
  induction l generalizing v with
  | nil => simp [Rose.walkAll]
  | cons t l ih =>
    have h := item_walk R para [⟨0, t.num, t.sentence⟩] t.children
    rw [List.foldl_cons]
    simp only [paragraphItemStep, List.nil_append, List.dropLast_singleton]
    rw [ih, List.map_cons, Rose.walkAll, List.map_append, Item.tree, ItemOf.tree, Rose.walk,
      List.map_cons, List.nil_append, ← h]
    simp [itemEntry, ItemHead.toStr]

theorem textInfo_eq (R : Render L) (l : List (Paragraph L)) :
    textInfoListFromParagraph R l = l.flatMap fun p =>
      (⟨p.num, []⟩, sentencesToStr R p.sentence) :: p.items.map (itemEntry R p.num) := by
  have h : ∀ v : List (TextIndex × String), l.foldl (fun v para =>
      (para.children.foldl (paragraphItemStep R para.num)
        ([], v ++ [(⟨para.num, []⟩, sentencesToStr R para.sentence)])).2) v =
      v ++ l.flatMap fun p =>
        (⟨p.num, []⟩, sentencesToStr R p.sentence) :: p.items.map (itemEntry R p.num) := by
    induction l with
    | nil => simp
    | cons p l ih =>
      intro v
      rw [List.foldl_cons, ih, paragraph_items]
      simp [Paragraph.items]
  exact h []

/-! ## Tables of contents -/

/-- The numbers of the units on the way down, as far as the entries have them right: the chapter
number is only right inside a chapter or outside parts, nothing is said of the division number. -/
def TocOk (path : List (UnitHead L)) (t : Toc) : Prop :=
  t.article_number = none ∧ t.part_number = numOf .part path ∧
  t.section_number = numOf .section_ path ∧ t.subsection_number = numOf .subsection path ∧
  (numOf .chapter path ≠ none ∨ numOf .part path = none →
    t.chapter_number = numOf .chapter path)

/-- What an entry for a unit holds. -/
def TocFits (R : Render L) (p : List (UnitHead L) × UnitHead L) (t : Toc) : Prop :=
  TocOk (p.1 ++ [p.2]) t ∧ t.title = some (p.2.title.toStr R) ∧
  (p.2.kind = .article ∨ p.2.kind = .division → t.division_number = some p.2.num)

theorem numOf_snoc (k : Kind) (path : List (UnitHead L)) (u : UnitHead L) :
    numOf k (path ++ [u]) = (numOf k path).or (if u.kind = k then some u.num else none) := by
  simp only [numOf, List.find?_append, Option.map_or]
  congr 1
  by_cases h : u.kind = k <;> simp [h]

theorem toc_fold {β : Type} {R : Render L} {step : TocSt → β → TocSt}
    {tree : β → Rose (UnitHead L)} {around : List (UnitHead L)} {Inv : Toc → Prop}
    (h : ∀ toc acc b, Inv toc → ∃ new, (step (toc, acc) b).2 = acc ++ new ∧
      List.Forall₂ (TocFits R) (Rose.walk around (tree b)) new ∧ Inv (step (toc, acc) b).1)
    (l : List β) (toc : Toc) (acc : List Toc) (hi : Inv toc) :
    ∃ new, (l.foldl step (toc, acc)).2 = acc ++ new ∧
      List.Forall₂ (TocFits R) (Rose.walkAll around (l.map tree)) new ∧
      Inv (l.foldl step (toc, acc)).1 := by
  induction l generalizing toc acc with
  | nil => exact ⟨[], by simp, .nil, hi⟩
  | cons b l ih =>
    obtain ⟨n1, h1, f1, i1⟩ := h toc acc b hi
    obtain ⟨n2, h2, f2, i2⟩ := ih (step (toc, acc) b).1 (step (toc, acc) b).2 i1
    refine ⟨n1 ++ n2, ?_, ?_, ?_⟩
    · rw [List.foldl_cons]; rw [h2, h1, List.append_assoc]
    · rw [List.map_cons, Rose.walkAll]
      exact List.rel_append f1 f2
    · rw [List.foldl_cons]; exact i2

theorem toc_article {R : Render L} {around : List (UnitHead L)} (a : Article L) (toc : Toc)
    (acc : List Toc) (h : TocOk around toc) :
    ∃ new, (tocArticleStep R (toc, acc) a).2 = acc ++ new ∧
      List.Forall₂ (TocFits R) (Rose.walk around a.tree) new ∧
      TocOk around (tocArticleStep R (toc, acc) a).1 := by
  refine ⟨[toc.forArticle R a], rfl, ?_, h⟩
  rw [Article.tree, Rose.walk, Rose.walkAll]
  refine .cons ⟨?_, rfl, fun _ => rfl⟩ .nil
  obtain ⟨h1, h2, h3, h4, h5⟩ := h
  simpa [TocOk, numOf_snoc, UnitHead.kind, Toc.forArticle, Toc.setArticle] using
    ⟨h1, h2, h3, h4, by simpa using h5⟩

theorem toc_division {R : Render L} {around : List (UnitHead L)} (d : Division L) (toc : Toc)
    (h : TocOk around toc) :
    List.Forall₂ (TocFits R) (Rose.walk around (Division.tree d)) (tocListFromDivision R d toc) := by
  have h' : TocOk (around ++ [.division d.num d.title])
      { toc with division_number := some d.num, title := some (d.title.toStr R) } := by
    obtain ⟨h1, h2, h3, h4, h5⟩ := h
    simpa [TocOk, numOf_snoc, UnitHead.kind] using ⟨h1, h2, h3, h4, by simpa using h5⟩
  obtain ⟨new, hn, hf, _⟩ := toc_fold (step := tocArticleStep R) (tree := Article.tree) (R := R)
    (Inv := TocOk (around ++ [.division d.num d.title]))
    (fun toc acc a hi => toc_article a toc acc hi) d.children _
    [{ toc with division_number := some d.num, title := some (d.title.toStr R) }] h'
  rw [tocListFromDivision, hn, Division.tree, Rose.walk]
  exact .cons ⟨h', rfl, fun _ => rfl⟩ hf

theorem toc_subsection {R : Render L} {around : List (UnitHead L)} (d : Subsection L) (toc : Toc)
    (h : TocOk around toc) (hs : numOf .subsection around = none) :
    List.Forall₂ (TocFits R) (Rose.walk around (Subsection.tree d))
      (tocListFromSubsection R d toc) := by
  have h' : TocOk (around ++ [.subsection d.num d.title])
      { toc with subsection_number := some d.num, title := some (d.title.toStr R) } := by
    obtain ⟨h1, h2, h3, h4, h5⟩ := h
    simpa [TocOk, numOf_snoc, UnitHead.kind, UnitHead.num, hs] using ⟨h1, h2, h3, by simpa using h5⟩
  obtain ⟨new, hn, hf, _⟩ := toc_fold (step := tocSubsectionStep R)
    (tree := SubsectionContents.tree) (R := R)
    (Inv := TocOk (around ++ [.subsection d.num d.title]))
    (fun toc acc a hi => by
      cases a with
      | article a => exact toc_article a toc acc hi
      | division d => exact ⟨_, rfl, toc_division d toc hi, hi⟩) d.children _
    [{ toc with subsection_number := some d.num, title := some (d.title.toStr R) }] h'
  rw [tocListFromSubsection, hn, Subsection.tree, Rose.walk]
  exact .cons ⟨h', rfl, fun h => by simp [UnitHead.kind] at h⟩ hf

theorem toc_section {R : Render L} {around : List (UnitHead L)} (d : Section L) (toc : Toc)
    (h : TocOk around toc) (hs : numOf .subsection around = none)
    (hc : numOf .section_ around = none) :
    List.Forall₂ (TocFits R) (Rose.walk around (Section.tree d)) (tocListFromSection R d toc) := by
  have h' : TocOk (around ++ [.section_ d.num d.title])
      { toc with section_number := some d.num, title := some (d.title.toStr R) } := by
    obtain ⟨h1, h2, h3, h4, h5⟩ := h
    simpa [TocOk, numOf_snoc, UnitHead.kind, UnitHead.num, hc] using ⟨h1, h2, h4, by simpa using h5⟩
  have hs' : numOf .subsection (around ++ [.section_ d.num d.title]) = none := by
    simp [numOf_snoc, hs, UnitHead.kind]
  obtain ⟨new, hn, hf, _⟩ := toc_fold (step := tocSectionStep R)
    (tree := SectionContents.tree) (R := R)
    (Inv := TocOk (around ++ [.section_ d.num d.title]))
    (fun toc acc a hi => by
      cases a with
      | article a => exact toc_article a toc acc hi
      | subsection d => exact ⟨_, rfl, toc_subsection d toc hi hs', hi⟩
      | division d => exact ⟨_, rfl, toc_division d toc hi, hi⟩) d.children _
    [{ toc with section_number := some d.num, title := some (d.title.toStr R) }] h'
  rw [tocListFromSection, hn, Section.tree, Rose.walk]
  exact .cons ⟨h', rfl, fun h => by simp [UnitHead.kind] at h⟩ hf

theorem toc_chapter {R : Render L} {around : List (UnitHead L)} (d : Chapter L) (toc : Toc)
    (h : TocOk around toc) (hs : numOf .subsection around = none)
    (hc : numOf .section_ around = none) (hh : numOf .chapter around = none) :
    List.Forall₂ (TocFits R) (Rose.walk around (Chapter.tree d)) (tocListFromChapter R d toc).2 ∧
    TocOk (around ++ [.chapter d.num d.title]) (tocListFromChapter R d toc).1 := by
  have h' : TocOk (around ++ [.chapter d.num d.title])
      { toc with chapter_number := some d.num, title := some (d.title.toStr R) } := by
    obtain ⟨h1, h2, h3, h4, h5⟩ := h
    simpa [TocOk, numOf_snoc, UnitHead.kind, UnitHead.num, hh] using ⟨h1, h2, h3, h4⟩
  have hs' : numOf .subsection (around ++ [.chapter d.num d.title]) = none := by
    simp [numOf_snoc, hs, UnitHead.kind]
  have hc' : numOf .section_ (around ++ [.chapter d.num d.title]) = none := by
    simp [numOf_snoc, hc, UnitHead.kind]
  obtain ⟨new, hn, hf, hi⟩ := toc_fold (step := tocChapterStep R)
    (tree := ChapterContents.tree) (R := R)
    (Inv := TocOk (around ++ [.chapter d.num d.title]))
    (fun toc acc a hi => by
      cases a with
      | article a => exact toc_article a toc acc hi
      | section_ d => exact ⟨_, rfl, toc_section d toc hi hs' hc', hi⟩) d.children _
    [{ toc with chapter_number := some d.num, title := some (d.title.toStr R) }] h'
  rw [tocListFromChapter, Chapter.tree, Rose.walk]
  refine ⟨?_, hi⟩
  rw [hn]
  exact .cons ⟨h', rfl, fun h => by simp [UnitHead.kind] at h⟩ hf

/-- One round of the loop over the children of a part. -/
theorem toc_part_step {R : Render L} (p : UnitHead L) (hp : p.kind = .part) (toc : Toc)
    (acc : List Toc) (b : PartContents L) (hi : TocOk [p] toc) :
    ∃ new, (tocPartStep R (toc, acc) b).2 = acc ++ new ∧
      List.Forall₂ (TocFits R) (Rose.walk [p] b.tree) new ∧
      TocOk [p] (tocPartStep R (toc, acc) b).1 := by
  cases b with
  | article a => exact toc_article a toc acc hi
  | chapter d =>
    obtain ⟨h1, h2⟩ := toc_chapter (R := R) d toc hi (by simp [numOf, hp]) (by simp [numOf, hp])
      (by simp [numOf, hp])
    refine ⟨_, rfl, h1, ?_⟩
    obtain ⟨h1, h2, h3, h4, h5⟩ := h2
    simp only [numOf_snoc, UnitHead.kind] at h1 h2 h3 h4
    refine ⟨h1, by simpa [tocPartStep] using h2, by simpa [tocPartStep] using h3,
      by simpa [tocPartStep] using h4, ?_⟩
    intro hx
    simp [numOf, hp] at hx

theorem toc_part {R : Render L} (d : Part L) :
    List.Forall₂ (TocFits R) (Rose.walk [] (Part.tree d)) (tocListFromPart R d) := by
  have h' : TocOk [.part d.num d.title]
      { part_number := some d.num, title := some (d.title.toStr R) } := by
    simp [TocOk, numOf, UnitHead.kind, UnitHead.num]
  obtain ⟨new, hn, hf, hi⟩ := toc_fold (step := tocPartStep R) (tree := PartContents.tree) (R := R)
    (Inv := TocOk [.part d.num d.title]) (fun toc acc b => toc_part_step _ rfl toc acc b)
    d.children _ [{ part_number := some d.num, title := some (d.title.toStr R) }] h'
  rw [tocListFromPart, hn, Part.tree, Rose.walk]
  exact .cons ⟨h', rfl, fun h => by simp [UnitHead.kind] at h⟩ hf

theorem tocOk_empty : TocOk ([] : List (UnitHead L)) {} := by simp [TocOk, numOf]

theorem toc_lone_article {R : Render L} (a : Article L) :
    List.Forall₂ (TocFits R) (Rose.walk [] a.tree) [Toc.forArticle R {} a] := by
  obtain ⟨new, h1, h2, _⟩ := toc_article (R := R) a {} [] tocOk_empty
  simp only [tocArticleStep, List.nil_append] at h1
  rw [h1]; exact h2

theorem forall₂_flatMap {α β γ : Type} {r : β → γ → Prop} {f : α → List β} {g : α → List γ}
    {l : List α} (h : ∀ x ∈ l, List.Forall₂ r (f x) (g x)) :
    List.Forall₂ r (l.flatMap f) (l.flatMap g) := by
  induction l with
  | nil => exact .nil
  | cons a l ih =>
    rw [List.flatMap_cons, List.flatMap_cons]
    exact List.rel_append (h a (by simp)) (ih fun x hx => h x (by simp [hx]))

theorem toc_main {R : Render L} (m : MainProvision L) :
    List.Forall₂ (TocFits R) m.units (tocListFromMainProvision R m) := by
  rw [MainProvision.units, walkAll_eq, flatMap_filterMap_elim, tocListFromMainProvision]
  apply forall₂_flatMap
  intro c _
  cases c with
  | part d => exact toc_part d
  | chapter d => exact (toc_chapter d _ tocOk_empty rfl rfl rfl).1
  | section_ d => exact toc_section d _ tocOk_empty rfl rfl
  | article a => exact toc_lone_article a
  | paragraph p => exact .nil

theorem toc_suppl {R : Render L} (x : SupplProvision L) :
    List.Forall₂ (TocFits R) x.units (tocListFromSupplProvision R x) := by
  rw [SupplProvision.units, walkAll_eq, flatMap_filterMap_elim, tocListFromSupplProvision]
  apply forall₂_flatMap
  intro c _
  cases c with
  | chapter d => exact (toc_chapter d _ tocOk_empty rfl rfl rfl).1
  | article a => exact toc_lone_article a
  | paragraph p => exact .nil
  | supplProvisionAppdxTable p => exact .nil
  | supplProvisionAppdxStyle p => exact .nil
  | supplProvisionAppdx p => exact .nil

theorem toc_part_chapter {R : Render L} (l : List (PartContents L)) (toc : Toc) (acc : List Toc)
    (hi : ∃ p : UnitHead L, p.kind = .part ∧ TocOk [p] toc) :
    (l.foldl (tocPartStep R) (toc, acc)).1.chapter_number =
      ((l.filterMap PartContents.chapter?).getLast?.map fun d => d.num).or toc.chapter_number := by
  induction l generalizing toc acc with
  | nil => simp
  | cons b l ih =>
    obtain ⟨p, hp, hi⟩ := hi
    obtain ⟨new, hn, -, hi'⟩ := toc_part_step (R := R) p hp toc acc b hi
    rw [List.foldl_cons]
    have h := ih (tocPartStep R (toc, acc) b).1 (tocPartStep R (toc, acc) b).2 ⟨p, hp, hi'⟩
    rw [h]
    cases b with
    | article a => rfl
    | chapter d =>
      have hc := (toc_chapter (R := R) d toc hi (by simp [numOf, hp]) (by simp [numOf, hp])
        (by simp [numOf, hp])).2.2.2.2.2 (.inl (by simp [numOf, UnitHead.kind]))
      simp only [numOf_snoc, UnitHead.kind, UnitHead.num] at hc
      have hc : (tocPartStep R (toc, acc) (.chapter d)).1.chapter_number = some d.num := by
        rw [tocPartStep, hc]; simp [numOf, hp]
      rw [hc, List.filterMap_cons]
      simp only [PartContents.chapter?, List.getLast?_cons]
      cases (List.filterMap PartContents.chapter? l).getLast? <;> simp

theorem toc_part_entry {R : Render L} (p : Part L) (pre post : List (PartContents L))
    (a : Article L) (hp : p.children = pre ++ .article a :: post) :
    ∃ t, (tocListFromPart R p)[1 + (Rose.walkAll [.part p.num p.title]
        (pre.map PartContents.tree)).length]? = some t ∧
      TocFits R ([.part p.num p.title], .article a) t ∧
      t.chapter_number = (pre.filterMap PartContents.chapter?).getLast?.map fun d => d.num := by
  let toc : Toc := { part_number := some p.num, title := some (p.title.toStr R) }
  have h' : TocOk [.part p.num p.title] toc := by
    simp [toc, TocOk, numOf, UnitHead.kind, UnitHead.num]
  obtain ⟨new, hn, hf, hi⟩ := toc_fold (step := tocPartStep R) (tree := PartContents.tree) (R := R)
    (Inv := TocOk [.part p.num p.title]) (fun toc acc b => toc_part_step _ rfl toc acc b)
    pre toc [toc] h'
  have hc := toc_part_chapter (R := R) pre toc [toc] ⟨_, rfl, h'⟩
  generalize hs : pre.foldl (tocPartStep R) (toc, [toc]) = s at *
  obtain ⟨toc', acc'⟩ := s
  obtain ⟨new2, hn2, hf2, hi2⟩ := toc_article (R := R) a toc' acc' hi
  obtain ⟨new3, hn3, -, -⟩ := toc_fold (step := tocPartStep R) (tree := PartContents.tree) (R := R)
    (Inv := TocOk [.part p.num p.title]) (fun toc acc b => toc_part_step _ rfl toc acc b)
    post _ (tocArticleStep R (toc', acc') a).2 hi2
  refine ⟨toc'.forArticle R a, ?_, ?_, ?_⟩
  · have : tocListFromPart R p = (p.children.foldl (tocPartStep R) (toc, [toc])).2 := rfl
    rw [this, hp, List.foldl_append, hs, List.foldl_cons]
    show (List.foldl (tocPartStep R) (tocArticleStep R (toc', acc') a) post).2[_]? = _
    rw [show tocArticleStep R (toc', acc') a =
      ((tocArticleStep R (toc', acc') a).1, (tocArticleStep R (toc', acc') a).2) from rfl, hn3]
    simp only [tocArticleStep]
    rw [show acc' = [toc] ++ new from hn]
    have hl := hf.length_eq
    rw [List.append_assoc, List.append_assoc, List.getElem?_append_right (by simp)]
    simp [hl]
  · rw [Article.tree, Rose.walk, Rose.walkAll] at hf2
    have : new2 = [toc'.forArticle R a] := by
      simp only [tocArticleStep] at hn2
      exact (List.append_cancel_left hn2).symm
    subst this
    cases hf2 with
    | cons h _ => exact h
  · simpa [Toc.forArticle, Toc.setArticle, toc] using hc

theorem toc_chapter_division {R : Render L} (l : List (ChapterContents L)) (toc : Toc)
    (acc : List Toc) :
    (l.foldl (tocChapterStep R) (toc, acc)).1.division_number =
      ((l.filterMap ChapterContents.article?).getLast?.map fun a => a.num).or
        toc.division_number := by
  induction l generalizing toc acc with
  | nil => simp
  | cons b l ih =>
    rw [List.foldl_cons]
    have h := ih (tocChapterStep R (toc, acc) b).1 (tocChapterStep R (toc, acc) b).2
    rw [h]
    cases b with
    | section_ a => rfl
    | article a =>
      rw [List.filterMap_cons]
      simp only [ChapterContents.article?, List.getLast?_cons]
      cases (List.filterMap ChapterContents.article? l).getLast? <;>
        simp [tocChapterStep, tocArticleStep, Toc.forArticle, Toc.setArticle]

theorem toc_chapter_entry {R : Render L} (c : Chapter L) (pre post : List (ChapterContents L))
    (d : Section L) (hp : c.children = pre ++ .section_ d :: post) :
    ∃ t, (tocListFromChapter R c {}).2[1 + (Rose.walkAll [.chapter c.num c.title]
        (pre.map ChapterContents.tree)).length]? = some t ∧
      TocFits R ([.chapter c.num c.title], .section_ d.num d.title) t ∧
      t.division_number =
        (pre.filterMap ChapterContents.article?).getLast?.map fun a => a.num := by
  let toc : Toc := { chapter_number := some c.num, title := some (c.title.toStr R) }
  have h' : TocOk [.chapter c.num c.title] toc := by
    simp [toc, TocOk, numOf, UnitHead.kind, UnitHead.num]
  have hstep : ∀ toc acc (b : ChapterContents L), TocOk [.chapter c.num c.title] toc →
      ∃ new, (tocChapterStep R (toc, acc) b).2 = acc ++ new ∧
        List.Forall₂ (TocFits R) (Rose.walk [.chapter c.num c.title] b.tree) new ∧
        TocOk [.chapter c.num c.title] (tocChapterStep R (toc, acc) b).1 := by
    intro toc acc b hi
    cases b with
    | article a => exact toc_article a toc acc hi
    | section_ d => exact ⟨_, rfl, toc_section d toc hi (by simp [numOf, UnitHead.kind])
        (by simp [numOf, UnitHead.kind]), hi⟩
  obtain ⟨new, hn, hf, hi⟩ := toc_fold hstep pre toc [toc] h'
  have hc := toc_chapter_division (R := R) pre toc [toc]
  generalize hs : pre.foldl (tocChapterStep R) (toc, [toc]) = s at *
  obtain ⟨toc', acc'⟩ := s
  obtain ⟨new3, hn3, -, -⟩ := toc_fold hstep post toc' (acc' ++ tocListFromSection R d toc') hi
  have hd := toc_section (R := R) d toc' hi (by simp [numOf, UnitHead.kind])
    (by simp [numOf, UnitHead.kind])
  rw [Section.tree, Rose.walk] at hd
  cases hl : tocListFromSection R d toc' with
  | nil => rw [hl] at hd; cases hd
  | cons t r =>
    rw [hl] at hd
    refine ⟨t, ?_, ?_, ?_⟩
    · have : (tocListFromChapter R c {}).2 =
        (c.children.foldl (tocChapterStep R) (toc, [toc])).2 := rfl
      rw [this, hp, List.foldl_append, hs, List.foldl_cons]
      show (List.foldl (tocChapterStep R) (toc', acc' ++ tocListFromSection R d toc') post).2[_]? = _
      rw [hn3, hl, show acc' = [toc] ++ new from hn]
      have hlen := hf.length_eq
      rw [List.append_assoc, List.append_assoc, List.getElem?_append_right (by simp)]
      simp [hlen]
    · cases hd with
      | cons h _ => exact h
    · have : t.division_number = toc'.division_number := by
        have hfold : ∀ (l : List (SectionContents L)) (x : Toc) (acc : List Toc),
            ∃ new, (l.foldl (tocSectionStep R) (x, acc)).2 = acc ++ new := by
          intro l
          induction l with
          | nil => intro x acc; exact ⟨[], by simp⟩
          | cons b l ih =>
            intro x acc
            rw [List.foldl_cons]
            obtain ⟨n, hn⟩ := ih (tocSectionStep R (x, acc) b).1 (tocSectionStep R (x, acc) b).2
            have hb : ∃ n, (tocSectionStep R (x, acc) b).2 = acc ++ n := by
              cases b <;> exact ⟨_, rfl⟩
            obtain ⟨n', hn'⟩ := hb
            exact ⟨n' ++ n, by rw [hn, hn', List.append_assoc]⟩
        rw [tocListFromSection] at hl
        obtain ⟨n, hn⟩ := hfold d.children
          { toc' with section_number := some d.num, title := some (d.title.toStr R) }
          [{ toc' with section_number := some d.num, title := some (d.title.toStr R) }]
        rw [hn] at hl
        cases hl
        rfl
      rw [this, hc]
      simp [toc]

end JLaw
