import Verif.Extract.Written

/-!
# Lists of articles, seen in what is written
-/

namespace JLaw

open Spec.Doc

variable {L : Lvl}

/-! ## Articles without numbers -/

theorem articlesAmong_eq (c : List XMLNode) : articlesAmong c = c.flatMap articlesIn := by
  induction c with
  | nil => rw [articlesAmong]; rfl
  | cons x c ih => rw [articlesAmong, ih, List.flatMap_cons]

theorem numberedAmong_eq (w : Way) (tag : String) (c : List XMLNode) :
    numberedAmong w tag c = c.flatMap fun x =>
      (numberedIn w x).map fun r => { r with nums := (tag, w.num (attrOf "Num" x)) :: r.nums } := by
  induction c with
  | nil => rw [numberedAmong]; rfl
  | cons x c ih => rw [numberedAmong, ih, List.flatMap_cons]

mutual
theorem numberedIn_articles (w : Way) : ∀ x, (numberedIn w x).map (fun r => r.article) = articlesIn x
  | .element n a c => by
    rw [numberedIn, articlesIn]
    split
    · rfl
    · split
      · next h =>
        subst h
        rw [if_pos (by decide), List.map_map]
        exact List.map_id _
      · split
        · exact numberedAmong_articles w n c
        · rfl
  | .text _ => by rw [numberedIn, articlesIn]; rfl; all_goals nofun
  | .comment _ => by rw [numberedIn, articlesIn]; rfl; all_goals nofun
  | .cdata _ => by rw [numberedIn, articlesIn]; rfl; all_goals nofun
  | .processingInstruction _ _ => by rw [numberedIn, articlesIn]; rfl; all_goals nofun
theorem numberedAmong_articles (w : Way) (tag : String) :
    ∀ c, (numberedAmong w tag c).map (fun r => r.article) = articlesAmong c
  | [] => by rw [numberedAmong, articlesAmong]; rfl
  | x :: c => by
    rw [numberedAmong, articlesAmong, List.map_append, List.map_map, ← numberedIn_articles w x,
      numberedAmong_articles w tag c]
    rfl
end

/-! ## Articles with numbers -/

/-- One of the numbers of an article, if there is one. -/
def numberOf (tag : String) (o : Option ArticleNumber) : List (String × Option String) :=
  o.toList.map fun n => (tag, some n.numStr)

/-- The numbers of an article from that for the subsection on. -/
def WithNumberArticle.low (w : WithNumberArticle L) : List (String × Option String) :=
  numberOf "Subsection" w.subsection ++ numberOf "Division" w.division

/-- The entry of a numbered list, with the numbers and the article as they are written. -/
def WithNumberArticle.numbered (w : WithNumberArticle L) : Numbered :=
  ⟨numberOf "Part" w.part ++ (numberOf "Chapter" w.chapter ++
    (numberOf "Section" w.section_ ++ w.low)), w.article.toXml.node⟩

theorem attrOf_article (x : Article L) : attrOf "Num" x.toXml.node = some x.num.numStr := by
  show Attrs.get _ "Num" = _
  simp [Article.toXml]

theorem attrOf_hier {γ : Type} (tag titleTag : String) (f : γ → Element) (x : HierOf L γ) :
    attrOf "Num" (x.toXml tag titleTag f).node = some x.num.numStr := by
  show Attrs.get _ "Num" = _
  simp [HierOf.toXml]

theorem numberedIn_article (x : Article L) : numberedIn asWritten x.toXml.node = [⟨[], x.toXml.node⟩] := by
  show numberedIn asWritten (.element "Article" _ _) = _
  rw [numberedIn, if_pos rfl]
  rfl

theorem articlesIn_article (x : Article L) : articlesIn x.toXml.node = [x.toXml.node] := by
  show articlesIn (.element "Article" _ _) = _
  rw [articlesIn, if_pos rfl]
  rfl

theorem articlesIn_other {n : String} (h : n ∉ "Article" :: unitTags) (a : Attrs) (c : List XMLNode) :
    articlesIn (.element n a c) = [] := by
  rw [articlesIn, if_neg (fun e => h (by simp [e])), if_neg]
  intro e
  exact h (List.mem_cons_of_mem _ (by simpa using e))

theorem numberedIn_other {n : String} (h : n ∉ "Article" :: unitTags) (a : Attrs) (c : List XMLNode) :
    numberedIn asWritten (.element n a c) = [] := by
  have h1 := numberedIn_articles asWritten (.element n a c)
  rw [articlesIn_other h] at h1
  simpa using h1

/-- Units: those around the articles in a unit have numbers on the way. -/
theorem numberedIn_hier {γ : Type} {tag titleTag : String} {f : γ → Element} (x : HierOf L γ)
    (h1 : tag ∈ ["Part", "Chapter", "Section", "Subsection"]) (h2 : titleTag ∉ "Article" :: unitTags) :
    numberedIn asWritten (x.toXml tag titleTag f).node = x.children.flatMap fun c =>
      (numberedIn asWritten (f c).node).map fun r =>
        { r with nums := (tag, attrOf "Num" (f c).node) :: r.nums } := by
  show numberedIn asWritten (.element tag _ ((x.title.toXml titleTag).node ::
    x.children.map fun c => (f c).node)) = _
  have h3 : tag ≠ "Article" := by rintro rfl; revert h1; decide
  have h4 : tag ≠ "Division" := by rintro rfl; revert h1; decide
  have h5 : unitTags.contains tag = true := by
    have : tag ∈ unitTags := by
      simp only [List.mem_cons, List.not_mem_nil, or_false] at h1
      rcases h1 with rfl | rfl | rfl | rfl <;> decide
    simpa using this
  rw [numberedIn, if_neg h3, if_neg h4, if_pos h5, numberedAmong_eq, List.flatMap_cons, List.flatMap_map]
  have : numberedIn asWritten (x.title.toXml titleTag).node = [] := numberedIn_other h2 _ _
  rw [this]
  rfl

theorem Division.listed (x : Division L) :
    (articleListFromDivision x).map WithNumberArticle.numbered = numberedIn asWritten (Division.toXml x).node := by
  show _ = numberedIn asWritten (.element "Division" (Division.toXml x).attributes
    ((x.title.toXml "DivisionTitle").node :: x.children.map fun c => c.toXml.node))
  have ha : articlesAmong (x.children.map fun c => c.toXml.node) = x.children.map fun c => c.toXml.node := by
    rw [articlesAmong_eq, List.flatMap_map, List.map_eq_flatMap]
    apply flatMap_congr_mem
    intro a _
    exact articlesIn_article a
  have hn : Attrs.get (Division.toXml x).attributes "Num" = some x.num.numStr :=
    attrOf_hier "Division" "DivisionTitle" Article.toXml x
  rw [numberedIn, if_neg (by decide), if_pos rfl, articlesAmong, ha, articleListFromDivision, List.map_map,
    hn]
  have : articlesIn (x.title.toXml "DivisionTitle").node = [] := articlesIn_other (n := "DivisionTitle") (by decide) _ _
  rw [this, List.nil_append, List.map_map]
  rfl

theorem Division.blank {x : Division L} {w : WithNumberArticle L} (h : w ∈ articleListFromDivision x) :
    w.part = none ∧ w.chapter = none ∧ w.section_ = none ∧ w.subsection = none := by
  obtain ⟨a, -, rfl⟩ := List.mem_map.1 h
  exact ⟨rfl, rfl, rfl, rfl⟩

theorem Subsection.blank {x : Subsection L} {w : WithNumberArticle L}
    (h : w ∈ articleListFromSubsection x) :
    w.part = none ∧ w.chapter = none ∧ w.section_ = none := by
  obtain ⟨c, -, h⟩ := List.mem_flatMap.1 h
  cases c with
  | article a =>
    cases List.mem_singleton.1 h
    exact ⟨rfl, rfl, rfl⟩
  | division d =>
    obtain ⟨w', h2, rfl⟩ := List.mem_map.1 h
    have := Division.blank h2
    exact ⟨this.1, this.2.1, this.2.2.1⟩

theorem Section.blank {x : Section L} {w : WithNumberArticle L} (h : w ∈ articleListFromSection x) :
    w.part = none ∧ w.chapter = none := by
  obtain ⟨c, -, h⟩ := List.mem_flatMap.1 h
  cases c with
  | article a =>
    cases List.mem_singleton.1 h
    exact ⟨rfl, rfl⟩
  | subsection d =>
    obtain ⟨w', h2, rfl⟩ := List.mem_map.1 h
    have := Subsection.blank h2
    exact ⟨this.1, this.2.1⟩
  | division d =>
    obtain ⟨w', h2, rfl⟩ := List.mem_map.1 h
    have := Division.blank h2
    exact ⟨this.1, this.2.1⟩

theorem Chapter.blank {x : Chapter L} {w : WithNumberArticle L} (h : w ∈ articleListFromChapter x) :
    w.part = none := by
  obtain ⟨c, -, h⟩ := List.mem_flatMap.1 h
  cases c with
  | article a =>
    cases List.mem_singleton.1 h
    rfl
  | section_ d =>
    obtain ⟨w', h2, rfl⟩ := List.mem_map.1 h
    exact (Section.blank h2).1

theorem Subsection.listed (x : Subsection L) :
    (articleListFromSubsection x).map WithNumberArticle.numbered =
      numberedIn asWritten (Subsection.toXml x).node := by
  rw [Subsection.toXml, numberedIn_hier x (by decide) (by decide), articleListFromSubsection,
    List.map_flatMap]
  apply flatMap_congr_mem
  intro c _
  cases c with
  | article a =>
    show _ = (numberedIn asWritten a.toXml.node).map fun r =>
      { r with nums := ("Subsection", attrOf "Num" a.toXml.node) :: r.nums }
    rw [numberedIn_article, attrOf_article]
    rfl
  | division d =>
    show _ = (numberedIn asWritten (Division.toXml d).node).map fun r =>
      { r with nums := ("Subsection", attrOf "Num" (Division.toXml d).node) :: r.nums }
    rw [← Division.listed, Division.toXml, attrOf_hier, List.map_map, List.map_map]
    apply List.map_congr_left
    intro w h
    have := Division.blank h
    simp [WithNumberArticle.numbered, WithNumberArticle.low, numberOf, this]

theorem Section.listed (x : Section L) :
    (articleListFromSection x).map WithNumberArticle.numbered =
      numberedIn asWritten (Section.toXml x).node := by
  rw [Section.toXml, numberedIn_hier x (by decide) (by decide), articleListFromSection,
    List.map_flatMap]
  apply flatMap_congr_mem
  intro c _
  cases c with
  | article a =>
    show _ = (numberedIn asWritten a.toXml.node).map fun r =>
      { r with nums := ("Section", attrOf "Num" a.toXml.node) :: r.nums }
    rw [numberedIn_article, attrOf_article]
    rfl
  | subsection d =>
    show _ = (numberedIn asWritten (Subsection.toXml d).node).map fun r =>
      { r with nums := ("Section", attrOf "Num" (Subsection.toXml d).node) :: r.nums }
    rw [← Subsection.listed, Subsection.toXml, attrOf_hier, List.map_map, List.map_map]
    apply List.map_congr_left
    intro w h
    have := Subsection.blank h
    simp [WithNumberArticle.numbered, WithNumberArticle.low, numberOf, this]
  | division d =>
    show _ = (numberedIn asWritten (Division.toXml d).node).map fun r =>
      { r with nums := ("Section", attrOf "Num" (Division.toXml d).node) :: r.nums }
    rw [← Division.listed, Division.toXml, attrOf_hier, List.map_map, List.map_map]
    apply List.map_congr_left
    intro w h
    have := Division.blank h
    simp [WithNumberArticle.numbered, WithNumberArticle.low, numberOf, this]

theorem Chapter.listed (x : Chapter L) :
    (articleListFromChapter x).map WithNumberArticle.numbered =
      numberedIn asWritten (Chapter.toXml x).node := by
  rw [Chapter.toXml, numberedIn_hier x (by decide) (by decide), articleListFromChapter,
    List.map_flatMap]
  apply flatMap_congr_mem
  intro c _
  cases c with
  | article a =>
    show _ = (numberedIn asWritten a.toXml.node).map fun r =>
      { r with nums := ("Chapter", attrOf "Num" a.toXml.node) :: r.nums }
    rw [numberedIn_article, attrOf_article]
    rfl
  | section_ d =>
    show _ = (numberedIn asWritten (Section.toXml d).node).map fun r =>
      { r with nums := ("Chapter", attrOf "Num" (Section.toXml d).node) :: r.nums }
    rw [← Section.listed, Section.toXml, attrOf_hier, List.map_map, List.map_map]
    apply List.map_congr_left
    intro w h
    have := Section.blank h
    simp [WithNumberArticle.numbered, WithNumberArticle.low, numberOf, this]

theorem Part.listed (x : Part L) :
    (articleListFromPart x).map WithNumberArticle.numbered =
      numberedIn asWritten (Part.toXml x).node := by
  rw [Part.toXml, numberedIn_hier x (by decide) (by decide), articleListFromPart,
    List.map_flatMap]
  apply flatMap_congr_mem
  intro c _
  cases c with
  | article a =>
    show _ = (numberedIn asWritten a.toXml.node).map fun r =>
      { r with nums := ("Part", attrOf "Num" a.toXml.node) :: r.nums }
    rw [numberedIn_article, attrOf_article]
    rfl
  | chapter d =>
    show _ = (numberedIn asWritten (Chapter.toXml d).node).map fun r =>
      { r with nums := ("Part", attrOf "Num" (Chapter.toXml d).node) :: r.nums }
    rw [← Chapter.listed, Chapter.toXml, attrOf_hier, List.map_map, List.map_map]
    apply List.map_congr_left
    intro w h
    have := Chapter.blank h
    simp [WithNumberArticle.numbered, WithNumberArticle.low, numberOf, this]

/-! ## Provisions -/

/-- The groups of paragraphs for what a loop does, when a cut in what is written is a closing of the
group and the paragraphs kept are the paragraphs written. -/
theorem groups_written {α β : Type} {act : β → Act α L} {f : β → Element} {cut : XMLNode → Bool}
    (h1 : ∀ b, (act b).closes = cut (f b).node)
    (h2 : ∀ b p, act b = .keep p → (f b).node = p.toXml.node)
    (h3 : ∀ b, act b = .pass → Spec.isNamed ["Paragraph"] (f b).node = false)
    (l : List β) (g : List (Paragraph L)) :
    (groups (l.map act) g).map (fun g => g.map fun p => p.toXml.node) =
      paragraphGroups cut (g.map fun p => p.toXml.node) (l.map fun b => (f b).node) := by
  induction l generalizing g with
  | nil => simp [groups, paragraphGroups]
  | cons b l ih =>
    rw [List.map_cons, List.map_cons, paragraphGroups, ← h1]
    cases h : act b with
    | close x =>
      rw [groups, List.map_cons, ih]
      rfl
    | keep p =>
      rw [groups, ih, if_neg (by rw [Act.closes]; decide; nofun), if_pos (by rw [h2 b p h]; rfl), h2 b p h,
        List.map_append]
      rfl
    | pass => rw [groups, ih, if_neg (by rw [Act.closes]; decide; nofun), if_neg (by rw [h3 b h]; decide)]

theorem MainProvision.listed (m : MainProvision L) :
    (withNumberArticleListFromMainProvision m).1.map WithNumberArticle.numbered =
      (Spec.kidsOf m.toXml.node).flatMap (numberedIn asWritten) ∧
    (withNumberArticleListFromMainProvision m).2.map (fun g => g.map fun p => p.toXml.node) =
      paragraphGroups cutsMain [] (Spec.kidsOf m.toXml.node) := by
  have hk : Spec.kidsOf m.toXml.node = m.children.map fun c => c.toXml.node := rfl
  rw [mainProvision_eq, hk]
  constructor
  · show (List.foldl ListSt.act {} _).v.map _ = _
    rw [fold_v, List.nil_append, List.flatMap_map, List.map_flatMap, List.flatMap_map]
    apply flatMap_congr_mem
    intro c _
    cases c with
    | article a =>
      show _ = numberedIn asWritten a.toXml.node
      rw [numberedIn_article]
      rfl
    | part d => exact Part.listed d
    | chapter d => exact Chapter.listed d
    | section_ d => exact Section.listed d
    | paragraph p => exact (numberedIn_other (n := "Paragraph") (by decide) _ _).symm
  · rw [fold_groups, List.nil_append]
    refine groups_written ?_ ?_ ?_ m.children []
    · intro b
      cases b <;> rfl
    · intro b p h
      cases b <;> cases h
      rfl
    · intro b h
      cases b <;> cases h

theorem SupplProvision.listed (x : SupplProvision L) :
    (withNumberArticleListFromSupplProvision x).1.map WithNumberArticle.numbered =
      (Spec.kidsOf x.toXml.node).flatMap (numberedIn asWritten) ∧
    (withNumberArticleListFromSupplProvision x).2.map (fun g => g.map fun p => p.toXml.node) =
      paragraphGroups cutsSuppl [] (Spec.kidsOf x.toXml.node) := by
  have hk : Spec.kidsOf x.toXml.node = (if x.label.contents = [] then [] else
        [(x.label.toXml "SupplProvisionLabel").node]) ++ x.children.map fun c => c.toXml.node := rfl
  rw [supplProvision_eq, hk]
  constructor
  · show (List.foldl ListSt.act {} _).v.map _ = _
    have hl : (if x.label.contents = [] then [] else
        [(x.label.toXml "SupplProvisionLabel").node]).flatMap (numberedIn asWritten) = [] := by
      split
      · rfl
      · rw [List.flatMap_singleton]
        exact numberedIn_other (n := "SupplProvisionLabel") (by decide) _ _
    rw [fold_v, List.nil_append, List.flatMap_map, List.map_flatMap, List.flatMap_append, hl,
      List.nil_append, List.flatMap_map]
    apply flatMap_congr_mem
    intro c _
    cases c with
    | article a =>
      show _ = numberedIn asWritten a.toXml.node
      rw [numberedIn_article]
      rfl
    | chapter d => exact Chapter.listed d
    | paragraph p => exact (numberedIn_other (n := "Paragraph") (by decide) _ _).symm
    | supplProvisionAppdxTable p =>
      exact (numberedIn_other (n := "SupplProvisionAppdxTable") (by decide) _ _).symm
    | supplProvisionAppdxStyle p =>
      exact (numberedIn_other (n := "SupplProvisionAppdxStyle") (by decide) _ _).symm
    | supplProvisionAppdx p =>
      exact (numberedIn_other (n := "Appdx") (by decide) p.toXml.attributes
        p.toXml.children).symm
  · have hl : ∀ c, paragraphGroups cutsSuppl [] ((if x.label.contents = [] then [] else
        [(x.label.toXml "SupplProvisionLabel").node]) ++ c) = paragraphGroups cutsSuppl [] c := by
      intro c
      split
      · rfl
      · rw [List.singleton_append, paragraphGroups]
        rfl
    rw [fold_groups, List.nil_append, hl]
    refine groups_written ?_ ?_ ?_ x.children []
    · intro b
      cases b <;> rfl
    · intro b p h
      cases b <;> cases h
      rfl
    · intro b h
      cases b <;> cases h <;> rfl

end JLaw
