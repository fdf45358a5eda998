import Verif.Props.Utils
import Verif.Spec.TocLeft

/-! # C49: every number in the generated table of contents -/

namespace JLaw

variable {L : Lvl}

/-- What the entry for a unit holds, given the text of its title. -/
def tocEntry (title : Text L → String)
    (p : List (UnitHead L) × List (Rose (UnitHead L)) × UnitHead L) : Toc :=
  { part_number := numOf .part (p.1 ++ [p.2.2])
    chapter_number :=
      (numOf .chapter (p.1 ++ [p.2.2])).or (p.2.1.filterMap Rose.chapterNum?).getLast?
    section_number := numOf .section_ (p.1 ++ [p.2.2])
    subsection_number := numOf .subsection (p.1 ++ [p.2.2])
    division_number :=
      if p.2.2.kind = .article ∨ p.2.2.kind = .division then some p.2.2.num
      else (p.2.1.filterMap Rose.leaves?).getLast?
    article_number := none
    title := some (title p.2.2.title) }

/-- The shared entry but for its title and division number. -/
def TocNear (around : List (UnitHead L)) (left : List (Rose (UnitHead L))) (t : Toc) : Prop :=
  t.article_number = none ∧ t.part_number = numOf .part around ∧
  t.section_number = numOf .section_ around ∧ t.subsection_number = numOf .subsection around ∧
  t.chapter_number = (numOf .chapter around).or (left.filterMap Rose.chapterNum?).getLast?

/-- The shared entry but for its title. -/
def TocLeft (around : List (UnitHead L)) (left : List (Rose (UnitHead L))) (t : Toc) : Prop :=
  TocNear around left t ∧ t.division_number = (left.filterMap Rose.leaves?).getLast?

theorem getLast?_filterMap_snoc {α β : Type} (f : α → Option β) (l : List α) (x : α) :
    ((l ++ [x]).filterMap f).getLast? = (f x).or (l.filterMap f).getLast? := by
  rw [List.filterMap_append, List.filterMap_cons, List.filterMap_nil]
  cases f x <;> simp

theorem left_fold {β : Type} {R : Render L} {step : TocSt → β → TocSt}
    {tree : β → Rose (UnitHead L)} {around : List (UnitHead L)}
    {Inv : List (Rose (UnitHead L)) → Toc → Prop}
    (h : ∀ left toc acc b, Inv left toc →
      (step (toc, acc) b).2 = acc ++ (Rose.walkLeft around left (tree b)).map
        (tocEntry (Text.toStr R)) ∧ Inv (left ++ [tree b]) (step (toc, acc) b).1)
    (l : List β) (left : List (Rose (UnitHead L))) (toc : Toc) (acc : List Toc)
    (hi : Inv left toc) :
    (l.foldl step (toc, acc)).2 = acc ++ (Rose.walkLeftAll around left (l.map tree)).map
        (tocEntry (Text.toStr R)) ∧
      Inv (left ++ l.map tree) (l.foldl step (toc, acc)).1 := by
  induction l generalizing left toc acc with
  | nil => simpa [Rose.walkLeftAll] using hi
  | cons b l ih =>
    obtain ⟨h1, h2⟩ := h left toc acc b hi
    obtain ⟨h3, h4⟩ := ih (left ++ [tree b]) (step (toc, acc) b).1 (step (toc, acc) b).2 h2
    rw [List.foldl_cons]
    refine ⟨?_, ?_⟩
    · show (List.foldl step ((step (toc, acc) b).1, (step (toc, acc) b).2) l).2 = _
      rw [h3, h1, List.map_cons, Rose.walkLeftAll, List.map_append, List.append_assoc]
    · simpa using h4

theorem left_article {R : Render L} {around : List (UnitHead L)} {left : List (Rose (UnitHead L))}
    (a : Article L) (toc : Toc) (acc : List Toc) (h : TocNear around left toc) :
    (tocArticleStep R (toc, acc) a).2 = acc ++ (Rose.walkLeft around left a.tree).map
        (tocEntry (Text.toStr R)) ∧
      TocLeft around (left ++ [a.tree]) (tocArticleStep R (toc, acc) a).1 := by
  obtain ⟨h1, h2, h3, h4, h5⟩ := h
  constructor
  · simp [tocArticleStep, Article.tree, Rose.walkLeft, Rose.walkLeftAll, tocEntry, Toc.forArticle,
      Toc.setArticle, numOf_snoc, UnitHead.kind, UnitHead.num, UnitHead.title, h1, h2, h3, h4, h5]
  · refine ⟨⟨h1, h2, h3, h4, ?_⟩, ?_⟩
    · rw [getLast?_filterMap_snoc]
      simpa [tocArticleStep, Toc.forArticle, Toc.setArticle, Article.tree, Rose.chapterNum?] using h5
    · rw [getLast?_filterMap_snoc]
      simp [tocArticleStep, Toc.forArticle, Toc.setArticle, Article.tree, Rose.leaves?]

/-- A unit that works on a copy and leaves nothing behind. -/
theorem TocLeft.copy {around : List (UnitHead L)} {left : List (Rose (UnitHead L))} {toc : Toc}
    (h : TocLeft around left toc) (t : Rose (UnitHead L)) (h1 : t.chapterNum? = none)
    (h2 : t.leaves? = none) : TocLeft around (left ++ [t]) toc := by
  obtain ⟨⟨a, b, c, d, e⟩, f⟩ := h
  refine ⟨⟨a, b, c, d, ?_⟩, ?_⟩
  · rw [getLast?_filterMap_snoc, h1]; simpa using e
  · rw [getLast?_filterMap_snoc, h2]; simpa using f

theorem left_division {R : Render L} {around : List (UnitHead L)}
    {left : List (Rose (UnitHead L))} (d : Division L) (toc : Toc) (h : TocNear around left toc) :
    tocListFromDivision R d toc =
      (Rose.walkLeft around left (Division.tree d)).map (tocEntry (Text.toStr R)) := by
  obtain ⟨h1, h2, h3, h4, h5⟩ := h
  have h' : TocNear (around ++ [.division d.num d.title]) left
      { toc with division_number := some d.num, title := some (d.title.toStr R) } := by
    simp [TocNear, numOf_snoc, UnitHead.kind, h1, h2, h3, h4, h5]
  obtain ⟨hn, -⟩ := left_fold (step := tocArticleStep R) (tree := Article.tree) (R := R)
    (Inv := TocNear (around ++ [.division d.num d.title]))
    (fun left toc acc a hi => ⟨(left_article a toc acc hi).1, (left_article a toc acc hi).2.1⟩)
    d.children left _
    [{ toc with division_number := some d.num, title := some (d.title.toStr R) }] h'
  rw [tocListFromDivision, hn, Division.tree, Rose.walkLeft, List.map_cons]
  simp [tocEntry, numOf_snoc, UnitHead.kind, UnitHead.num, UnitHead.title, h1, h2, h3, h4, h5]

theorem left_subsection {R : Render L} {around : List (UnitHead L)}
    {left : List (Rose (UnitHead L))} (d : Subsection L) (toc : Toc) (h : TocLeft around left toc)
    (hs : numOf .subsection around = none) :
    tocListFromSubsection R d toc =
      (Rose.walkLeft around left (Subsection.tree d)).map (tocEntry (Text.toStr R)) := by
  obtain ⟨⟨h1, h2, h3, h4, h5⟩, h6⟩ := h
  have h' : TocLeft (around ++ [.subsection d.num d.title]) left
      { toc with subsection_number := some d.num, title := some (d.title.toStr R) } := by
    simp [TocLeft, TocNear, numOf_snoc, UnitHead.kind, UnitHead.num, hs, h1, h2, h3, h5, h6]
  obtain ⟨hn, -⟩ := left_fold (step := tocSubsectionStep R) (tree := SubsectionContents.tree)
    (R := R) (Inv := TocLeft (around ++ [.subsection d.num d.title]))
    (fun left toc acc b hi => by
      cases b with
      | article a => exact left_article a toc acc hi.1
      | division d =>
        exact ⟨by rw [tocSubsectionStep, left_division d toc hi.1]; rfl, hi.copy _ rfl rfl⟩)
    d.children left _
    [{ toc with subsection_number := some d.num, title := some (d.title.toStr R) }] h'
  rw [tocListFromSubsection, hn, Subsection.tree, Rose.walkLeft, List.map_cons]
  simp [tocEntry, numOf_snoc, UnitHead.kind, UnitHead.num, UnitHead.title, hs, h1, h2, h3, h5, h6]

theorem left_section {R : Render L} {around : List (UnitHead L)}
    {left : List (Rose (UnitHead L))} (d : Section L) (toc : Toc) (h : TocLeft around left toc)
    (hs : numOf .subsection around = none) (hc : numOf .section_ around = none) :
    tocListFromSection R d toc =
      (Rose.walkLeft around left (Section.tree d)).map (tocEntry (Text.toStr R)) := by
  obtain ⟨⟨h1, h2, h3, h4, h5⟩, h6⟩ := h
  have h' : TocLeft (around ++ [.section_ d.num d.title]) left
      { toc with section_number := some d.num, title := some (d.title.toStr R) } := by
    simp [TocLeft, TocNear, numOf_snoc, UnitHead.kind, UnitHead.num, hs, hc, h1, h2, h4, h5, h6]
  have hs' : numOf .subsection (around ++ [.section_ d.num d.title]) = none := by
    simp [numOf_snoc, hs, UnitHead.kind]
  obtain ⟨hn, -⟩ := left_fold (step := tocSectionStep R) (tree := SectionContents.tree)
    (R := R) (Inv := TocLeft (around ++ [.section_ d.num d.title]))
    (fun left toc acc b hi => by
      cases b with
      | article a => exact left_article a toc acc hi.1
      | subsection d =>
        exact ⟨by rw [tocSectionStep, left_subsection d toc hi hs']; rfl, hi.copy _ rfl rfl⟩
      | division d =>
        exact ⟨by rw [tocSectionStep, left_division d toc hi.1]; rfl, hi.copy _ rfl rfl⟩)
    d.children left _
    [{ toc with section_number := some d.num, title := some (d.title.toStr R) }] h'
  rw [tocListFromSection, hn, Section.tree, Rose.walkLeft, List.map_cons]
  simp [tocEntry, numOf_snoc, UnitHead.kind, UnitHead.num, UnitHead.title, hs, hc, h1, h2, h4, h5,
    h6]

theorem left_chapter {R : Render L} {around : List (UnitHead L)}
    {left : List (Rose (UnitHead L))} (d : Chapter L) (toc : Toc) (h : TocLeft around left toc)
    (hs : numOf .subsection around = none) (hc : numOf .section_ around = none)
    (hh : numOf .chapter around = none) :
    (tocListFromChapter R d toc).2 =
      (Rose.walkLeft around left (Chapter.tree d)).map (tocEntry (Text.toStr R)) ∧
    TocLeft around (left ++ [Chapter.tree d]) (tocListFromChapter R d toc).1 := by
  obtain ⟨⟨h1, h2, h3, h4, h5⟩, h6⟩ := h
  have h' : TocLeft (around ++ [.chapter d.num d.title]) left
      { toc with chapter_number := some d.num, title := some (d.title.toStr R) } := by
    simp [TocLeft, TocNear, numOf_snoc, UnitHead.kind, UnitHead.num, hh, h1, h2, h3, h4, h6]
  have hs' : numOf .subsection (around ++ [.chapter d.num d.title]) = none := by
    simp [numOf_snoc, hs, UnitHead.kind]
  have hc' : numOf .section_ (around ++ [.chapter d.num d.title]) = none := by
    simp [numOf_snoc, hc, UnitHead.kind]
  obtain ⟨hn, hi⟩ := left_fold (step := tocChapterStep R) (tree := ChapterContents.tree)
    (R := R) (Inv := TocLeft (around ++ [.chapter d.num d.title]))
    (fun left toc acc b hi => by
      cases b with
      | article a => exact left_article a toc acc hi.1
      | section_ d =>
        exact ⟨by rw [tocChapterStep, left_section d toc hi hs' hc']; rfl, hi.copy _ rfl rfl⟩)
    d.children left _
    [{ toc with chapter_number := some d.num, title := some (d.title.toStr R) }] h'
  constructor
  · rw [tocListFromChapter, hn, Chapter.tree, Rose.walkLeft, List.map_cons]
    simp [tocEntry, numOf_snoc, UnitHead.kind, UnitHead.num, UnitHead.title, hh, h1, h2, h3, h4, h6]
  · have he : tocListFromChapter R d toc = d.children.foldl (tocChapterStep R)
      ({ toc with chapter_number := some d.num, title := some (d.title.toStr R) },
       [{ toc with chapter_number := some d.num, title := some (d.title.toStr R) }]) := rfl
    rw [he]
    obtain ⟨⟨g1, g2, g3, g4, g5⟩, g6⟩ := hi
    have hl : ∀ l : List (ChapterContents L),
        (l.map ChapterContents.tree).filterMap Rose.leaves? =
          (l.map ChapterContents.tree).filterMap Rose.articleNum? := by
      intro l
      rw [List.filterMap_map, List.filterMap_map]
      congr 1
      funext b
      cases b <;> rfl
    refine ⟨⟨g1, ?_, ?_, ?_, ?_⟩, ?_⟩
    · rw [g2]; simp [numOf_snoc, UnitHead.kind]
    · rw [g3]; simp [numOf_snoc, UnitHead.kind]
    · rw [g4]; simp [numOf_snoc, UnitHead.kind]
    · rw [g5, getLast?_filterMap_snoc, hh]
      simp [numOf_snoc, UnitHead.kind, UnitHead.num, hh, Chapter.tree, Rose.chapterNum?]
    · rw [g6, getLast?_filterMap_snoc, List.filterMap_append, List.getLast?_append, hl]
      rfl

theorem left_part {R : Render L} (d : Part L) :
    tocListFromPart R d =
      (Rose.walkLeft [] [] (Part.tree d)).map (tocEntry (Text.toStr R)) := by
  have h' : TocLeft [.part d.num d.title] []
      { part_number := some d.num, title := some (d.title.toStr R) } := by
    simp [TocLeft, TocNear, numOf, UnitHead.kind, UnitHead.num]
  obtain ⟨hn, -⟩ := left_fold (step := tocPartStep R) (tree := PartContents.tree)
    (R := R) (Inv := TocLeft [.part d.num d.title])
    (fun left toc acc b hi => by
      cases b with
      | article a => exact left_article a toc acc hi.1
      | chapter d =>
        obtain ⟨g1, g2⟩ := left_chapter (R := R) d toc hi (by simp [numOf, UnitHead.kind])
          (by simp [numOf, UnitHead.kind]) (by simp [numOf, UnitHead.kind])
        exact ⟨by rw [tocPartStep, g1]; rfl, g2⟩)
    d.children [] _ [{ part_number := some d.num, title := some (d.title.toStr R) }] h'
  rw [tocListFromPart, hn, Part.tree, Rose.walkLeft, List.map_cons]
  simp [tocEntry, numOf, UnitHead.kind, UnitHead.num, UnitHead.title]

theorem tocLeft_empty : TocLeft ([] : List (UnitHead L)) [] {} := by simp [TocLeft, TocNear, numOf]

theorem left_lone_article {R : Render L} (a : Article L) :
    [Toc.forArticle R {} a] = (Rose.walkLeft [] [] a.tree).map (tocEntry (Text.toStr R)) := by
  have h := (left_article (R := R) a {} [] tocLeft_empty.1).1
  rw [List.nil_append] at h
  exact h

theorem toStr_plain_fun (n : Nat) : Text.toStr (render n) = plainText n :=
  funext (toStr_plain n)

/-- C49: every entry of the generated table of contents of a main provision with all its numbers.
The chapter number is that of the chapter around the unit or the unit itself; without one it is that
of the last chapter before it in its part. The division number of an article or division is its own;
that of another unit is the number of the last article that stands before it directly in a unit
around it, or directly in a chapter before it in the same part. -/
theorem C49_every_number_main (n : Nat) (m : MainProvision (lvl n)) :
    tocListFromMainProvision (render n) m = m.places.map (tocEntry (plainText n)) := by
  rw [MainProvision.places, flatMap_filterMap_elim, tocListFromMainProvision, List.map_flatMap,
    ← toStr_plain_fun]
  congr 1
  funext c
  cases c with
  | part d => exact left_part d
  | chapter d => exact (left_chapter d _ tocLeft_empty rfl rfl rfl).1
  | section_ d => exact left_section d _ tocLeft_empty rfl rfl
  | article a => exact left_lone_article a
  | paragraph p => rfl

/-- C49: the same for a supplementary provision. -/
theorem C49_every_number_suppl (n : Nat) (x : SupplProvision (lvl n)) :
    tocListFromSupplProvision (render n) x = x.places.map (tocEntry (plainText n)) := by
  rw [SupplProvision.places, flatMap_filterMap_elim, tocListFromSupplProvision, List.map_flatMap,
    ← toStr_plain_fun]
  congr 1
  funext c
  cases c with
  | chapter d => exact (left_chapter d _ tocLeft_empty rfl rfl rfl).1
  | article a => exact left_lone_article a
  | paragraph p => rfl
  | supplProvisionAppdxTable p => rfl
  | supplProvisionAppdxStyle p => rfl
  | supplProvisionAppdx p => rfl

mutual
theorem walkLeft_walk {α : Type} (around : List α) (left : List (Rose α)) : ∀ t : Rose α,
    (Rose.walkLeft around left t).map (fun p => (p.1, p.2.2)) = Rose.walk around t
  | .node a cs => by
    rw [Rose.walkLeft, Rose.walk, List.map_cons, walkLeftAll_walkAll _ _ cs]
theorem walkLeftAll_walkAll {α : Type} (around : List α) (left : List (Rose α)) :
    ∀ ts : List (Rose α),
    (Rose.walkLeftAll around left ts).map (fun p => (p.1, p.2.2)) = Rose.walkAll around ts
  | [] => rfl
  | t :: ts => by
    rw [Rose.walkLeftAll, Rose.walkAll, List.map_append, walkLeft_walk _ _ t,
      walkLeftAll_walkAll _ _ ts]
end

/-- The places of a main provision are its units, so that the entries are those of C48. -/
theorem C49_places_are_units (m : MainProvision L) :
    m.places.map (fun p => (p.1, p.2.2)) = m.units := by
  rw [MainProvision.places, MainProvision.units, walkAll_eq, List.map_flatMap]
  congr 1
  funext t
  exact walkLeft_walk [] [] t

/-- The same for a supplementary provision. -/
theorem C49_places_are_units_suppl (x : SupplProvision L) :
    x.places.map (fun p => (p.1, p.2.2)) = x.units := by
  rw [SupplProvision.places, SupplProvision.units, walkAll_eq, List.map_flatMap]
  congr 1
  funext t
  exact walkLeft_walk [] [] t

/-- A part with a chapter with article 5, article 9 directly in the part, and a second chapter. -/
def leftPart : MainProvision (lvl 0) :=
  ⟨[.part ⟨⟨[.text "編"]⟩, [
      .chapter ⟨⟨[.text "一章"]⟩, [.article (someArticle 5)], ⟨2, [], []⟩, false, false⟩,
      .chapter ⟨⟨[.text "二章"]⟩, [], ⟨3, [], []⟩, false, false⟩,
      .article (someArticle 9),
      .chapter ⟨⟨[.text "三章"]⟩, [], ⟨4, [], []⟩, false, false⟩], ⟨1, [], []⟩, false, false⟩], none⟩

/-- The second chapter has the number of article 5 as its division number, article 9 the second
chapter as its chapter, and the third chapter the number of article 9. -/
example : (leftPart.places.map (tocEntry (plainText 0))).map
      (fun t => (t.chapter_number.map (·.base_number), t.division_number.map (·.base_number))) =
    [(none, none), (some 2, none), (some 2, some 5), (some 3, some 5), (some 3, some 9),
      (some 4, some 9)] := by
  decide

end JLaw
