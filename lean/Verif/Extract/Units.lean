import Verif.Extract.Rewritten

/-!
# Units of a document, of what is written for it, and of a law
-/

namespace JLaw

open Spec.Doc
open Spec (rewriteNode rewriteList rewrite isNamed kidsOf isString isElement layouts pick Portion Layout
  Change)

variable {L : Lvl}

theorem unitsAmong_eq (w : Way) (around : List LawUnit) (c : List XMLNode) :
    unitsAmong w around c = c.flatMap (unitsIn w around) := by
  induction c with
  | nil => rw [unitsAmong]; rfl
  | cons x c ih => rw [unitsAmong, ih, List.flatMap_cons]

theorem unitsIn_other {w : Way} {n : String} (h : n ∉ "Article" :: unitTags)
    (around : List LawUnit) (a : Attrs) (c : List XMLNode) :
    unitsIn w around (.element n a c) = [] := by
  rw [unitsIn, if_neg (fun e => h (by simp [e])), if_neg]
  intro e
  exact h (List.mem_cons_of_mem _ (by simpa using e))

theorem unitsIn_nil {w : Way} {around : List LawUnit} {x : XMLNode} (h : isElement x = false) :
    unitsIn w around x = [] := by
  cases x with
  | element n a c => cases h
  | _ => rw [unitsIn]; nofun

/-! ## Units of a law, seen in what is written -/

/-- The tag of a kind of units. -/
def Kind.tag : Kind → String
  | .part => "Part"
  | .chapter => "Chapter"
  | .section_ => "Section"
  | .subsection => "Subsection"
  | .division => "Division"
  | .article => "Article"

/-- The unit, with its number and title as strings. -/
def UnitHead.unit (R : Render L) (u : UnitHead L) : LawUnit :=
  ⟨u.kind.tag, some u.num.numStr, u.title.toStr R⟩

/-- The unit and the units around it. -/
def unitPath (R : Render L) (p : List (UnitHead L) × UnitHead L) :
    List LawUnit × LawUnit :=
  (p.1.map (UnitHead.unit R), p.2.unit R)

variable {R : Render L}

theorem Article.unit_written (hR : R.Fits) (around : List LawUnit) (x : Article L) :
    unitsIn asWritten around x.toXml.node = [(around, (UnitHead.article x).unit R)] := by
  show unitsIn asWritten around (.element "Article" x.toXml.attributes x.toXml.children) = _
  have h1 : tagged "ArticleTitle" x.toXml.children = [(x.title.toXml "ArticleTitle").node] := by
    rw [Article.toXml]
    simp only [tagged_append]
    rw [tagged_others (t := "ArticleTitle") (f := fun c : Caption L => c.toXml "ArticleCaption")
        (fun _ => by show "ArticleCaption" ≠ _; decide),
      tagged_others (t := "ArticleTitle") (f := fun v : Paragraph L => v.toXml)
        (fun _ => by show "Paragraph" ≠ _; decide),
      tagged_others (t := "ArticleTitle") (f := fun c : Text L => c.toXml "SupplNote")
        (fun _ => by show "SupplNote" ≠ _; decide),
      tagged_one (t := "ArticleTitle") (e := x.title.toXml "ArticleTitle") rfl]
    rfl
  have h2 : x.toXml.attributes.get "Num" = some x.num.numStr := attrOf_article x
  rw [unitsIn, if_pos rfl, unitOf, h2]
  show [(around, (⟨_, _, match (tagged "ArticleTitle" _).getLast? with
    | some t => _
    | none => _⟩ : LawUnit))] = _
  rw [h1]
  show [(around, (⟨_, _, titleText asWritten x.title.toChildren⟩ : LawUnit))] = _
  rw [titleText_written, ← Text.toStr_written hR]
  rfl

theorem unitsIn_hier {γ : Type} {tag titleTag : String} {f : γ → Element} (hR : R.Fits)
    (x : HierOf L γ) (ht : titleTag = tag ++ "Title") (h1 : tag ∈ unitTags)
    (h2 : titleTag ∉ "Article" :: unitTags) (h3 : ∀ c, (f c).name ∈ "Article" :: unitTags)
    (around : List LawUnit) :
    unitsIn asWritten around (x.toXml tag titleTag f).node =
      (around, ⟨tag, some x.num.numStr, x.title.toStr R⟩) :: x.children.flatMap fun c =>
        unitsIn asWritten (around ++ [⟨tag, some x.num.numStr, x.title.toStr R⟩]) (f c).node := by
  have hu : unitOf asWritten tag (x.toXml tag titleTag f).attributes ((x.title.toXml titleTag).node ::
      x.children.map fun c => (f c).node) = ⟨tag, some x.num.numStr, x.title.toStr R⟩ := by
    have h4 : tagged titleTag ((x.title.toXml titleTag).node ::
        x.children.map fun c => (f c).node) = [(x.title.toXml titleTag).node] := by
      have : tagged titleTag (x.children.map fun c => (f c).node) = [] := by
        apply tagged_never
        intro y hy
        obtain ⟨c, -, rfl⟩ := List.mem_map.1 hy
        have := h3 c
        show [titleTag].contains (f c).name = false
        have : (f c).name ≠ titleTag := fun e => h2 (e ▸ this)
        simpa using this
      rw [tagged, List.filter_cons_of_pos (by simp [isNamed, Element.node, Text.toXml]), ← tagged, this]
    have h5 : (x.toXml tag titleTag f).attributes.get "Num" = some x.num.numStr :=
      attrOf_hier tag titleTag f x
    rw [unitOf, ← ht, h4, h5]
    show (⟨_, _, titleText asWritten x.title.toChildren⟩ : LawUnit) = _
    rw [titleText_written, ← Text.toStr_written hR]
    rfl
  show unitsIn asWritten around (.element tag (x.toXml tag titleTag f).attributes
    ((x.title.toXml titleTag).node :: x.children.map fun c => (f c).node)) = _
  have h6 : tag ≠ "Article" := by rintro rfl; revert h1; decide
  have h7 : unitsIn asWritten (around ++ [⟨tag, some x.num.numStr, x.title.toStr R⟩])
    (x.title.toXml titleTag).node = [] := unitsIn_other h2 _ _ _
  rw [unitsIn, if_neg h6, if_pos (by simpa using h1), hu, unitsAmong_eq, List.flatMap_cons, h7,
    List.flatMap_map]
  rfl

theorem walk_node (a : UnitHead L) (around : List (UnitHead L)) (c : List (Rose (UnitHead L))) :
    (Rose.walk around (.node a c)).map (unitPath R) =
      (around.map (UnitHead.unit R), a.unit R) ::
        c.flatMap fun t => (Rose.walk (around ++ [a]) t).map (unitPath R) := by
  rw [Rose.walk, walkAll_eq, List.map_cons, List.map_flatMap]
  rfl

theorem Article.walk_written (hR : R.Fits) (around : List (UnitHead L)) (x : Article L) :
    (Rose.walk around x.tree).map (unitPath R) =
      unitsIn asWritten (around.map (UnitHead.unit R)) x.toXml.node := by
  rw [Article.unit_written hR, Article.tree, walk_node]
  rfl

theorem Division.walk_written (hR : R.Fits) (around : List (UnitHead L)) (x : Division L) :
    (Rose.walk around (Division.tree x)).map (unitPath R) =
      unitsIn asWritten (around.map (UnitHead.unit R)) (Division.toXml x).node := by
  rw [Division.toXml, unitsIn_hier (tag := "Division") (titleTag := "DivisionTitle") hR x rfl (by decide) (by decide)
    (fun _ => by show "Article" ∈ _; decide),
    Division.tree, walk_node, List.flatMap_map]
  refine congrArg _ (flatMap_congr_mem fun c _ => ?_)
  rw [Article.walk_written hR, List.map_append]
  rfl

theorem SubsectionContents.name_unit (c : SubsectionContents L) : c.toXml.name ∈ "Article" :: unitTags := by
  cases c with
  | article _ => show "Article" ∈ _; decide
  | division _ => show "Division" ∈ _; decide

theorem Subsection.walk_written (hR : R.Fits) (around : List (UnitHead L)) (x : Subsection L) :
    (Rose.walk around (Subsection.tree x)).map (unitPath R) =
      unitsIn asWritten (around.map (UnitHead.unit R)) (Subsection.toXml x).node := by
  rw [Subsection.toXml, unitsIn_hier (tag := "Subsection") (titleTag := "SubsectionTitle") hR x rfl (by decide) (by decide) SubsectionContents.name_unit,
    Subsection.tree, walk_node, List.flatMap_map]
  refine congrArg _ (flatMap_congr_mem fun c _ => ?_)
  cases c with
  | article a => exact (Article.walk_written hR _ a).trans (by rw [List.map_append]; rfl)
  | division a => exact (Division.walk_written hR _ a).trans (by rw [List.map_append]; rfl)

theorem SectionContents.name_unit (c : SectionContents L) : c.toXml.name ∈ "Article" :: unitTags := by
  cases c with
  | article _ => show "Article" ∈ _; decide
  | subsection _ => show "Subsection" ∈ _; decide
  | division _ => show "Division" ∈ _; decide

theorem Section.walk_written (hR : R.Fits) (around : List (UnitHead L)) (x : Section L) :
    (Rose.walk around (Section.tree x)).map (unitPath R) =
      unitsIn asWritten (around.map (UnitHead.unit R)) (Section.toXml x).node := by
  rw [Section.toXml, unitsIn_hier (tag := "Section") (titleTag := "SectionTitle") hR x rfl (by decide) (by decide) SectionContents.name_unit,
    Section.tree, walk_node, List.flatMap_map]
  refine congrArg _ (flatMap_congr_mem fun c _ => ?_)
  cases c with
  | article a => exact (Article.walk_written hR _ a).trans (by rw [List.map_append]; rfl)
  | subsection a => exact (Subsection.walk_written hR _ a).trans (by rw [List.map_append]; rfl)
  | division a => exact (Division.walk_written hR _ a).trans (by rw [List.map_append]; rfl)

theorem ChapterContents.name_unit (c : ChapterContents L) : c.toXml.name ∈ "Article" :: unitTags := by
  cases c with
  | article _ => show "Article" ∈ _; decide
  | section_ _ => show "Section" ∈ _; decide

theorem Chapter.walk_written (hR : R.Fits) (around : List (UnitHead L)) (x : Chapter L) :
    (Rose.walk around (Chapter.tree x)).map (unitPath R) =
      unitsIn asWritten (around.map (UnitHead.unit R)) (Chapter.toXml x).node := by
  rw [Chapter.toXml, unitsIn_hier (tag := "Chapter") (titleTag := "ChapterTitle") hR x rfl (by decide) (by decide) ChapterContents.name_unit,
    Chapter.tree, walk_node, List.flatMap_map]
  refine congrArg _ (flatMap_congr_mem fun c _ => ?_)
  cases c with
  | article a => exact (Article.walk_written hR _ a).trans (by rw [List.map_append]; rfl)
  | section_ a => exact (Section.walk_written hR _ a).trans (by rw [List.map_append]; rfl)

theorem PartContents.name_unit (c : PartContents L) : c.toXml.name ∈ "Article" :: unitTags := by
  cases c with
  | article _ => show "Article" ∈ _; decide
  | chapter _ => show "Chapter" ∈ _; decide

theorem Part.walk_written (hR : R.Fits) (around : List (UnitHead L)) (x : Part L) :
    (Rose.walk around (Part.tree x)).map (unitPath R) =
      unitsIn asWritten (around.map (UnitHead.unit R)) (Part.toXml x).node := by
  rw [Part.toXml, unitsIn_hier (tag := "Part") (titleTag := "PartTitle") hR x rfl (by decide) (by decide) PartContents.name_unit,
    Part.tree, walk_node, List.flatMap_map]
  refine congrArg _ (flatMap_congr_mem fun c _ => ?_)
  cases c with
  | article a => exact (Article.walk_written hR _ a).trans (by rw [List.map_append]; rfl)
  | chapter a => exact (Chapter.walk_written hR _ a).trans (by rw [List.map_append]; rfl)

theorem MainProvision.units_written (hR : R.Fits) (m : MainProvision L) :
    m.units.map (unitPath R) = (kidsOf m.toXml.node).flatMap (unitsIn asWritten []) := by
  have hk : kidsOf m.toXml.node = m.children.map fun c => c.toXml.node := rfl
  rw [MainProvision.units, walkAll_eq, hk, List.flatMap_map, flatMap_filterMap_elim, List.map_flatMap]
  apply flatMap_congr_mem
  intro c _
  cases c with
  | article a => exact Article.walk_written hR [] a
  | part d => exact Part.walk_written hR [] d
  | chapter d => exact Chapter.walk_written hR [] d
  | section_ d => exact Section.walk_written hR [] d
  | paragraph p => exact (unitsIn_other (n := "Paragraph") (by decide) _ _ _).symm

theorem SupplProvision.units_written (hR : R.Fits) (x : SupplProvision L) :
    x.units.map (unitPath R) = (kidsOf x.toXml.node).flatMap (unitsIn asWritten []) := by
  have hk : kidsOf x.toXml.node = (if x.label.contents = [] then [] else
        [(x.label.toXml "SupplProvisionLabel").node]) ++ x.children.map fun c => c.toXml.node := rfl
  have hl : (if x.label.contents = [] then [] else
      [(x.label.toXml "SupplProvisionLabel").node]).flatMap (unitsIn asWritten []) = [] := by
    split
    · rfl
    · rw [List.flatMap_singleton]
      exact unitsIn_other (n := "SupplProvisionLabel") (by decide) _ _ _
  rw [SupplProvision.units, walkAll_eq, hk, List.flatMap_append, hl, List.nil_append, List.flatMap_map,
    flatMap_filterMap_elim, List.map_flatMap]
  apply flatMap_congr_mem
  intro c _
  cases c with
  | article a => exact Article.walk_written hR [] a
  | chapter d => exact Chapter.walk_written hR [] d
  | paragraph p => exact (unitsIn_other (n := "Paragraph") (by decide) _ _ _).symm
  | supplProvisionAppdxTable p =>
    exact (unitsIn_other (n := "SupplProvisionAppdxTable") (by decide) _ _ _).symm
  | supplProvisionAppdxStyle p =>
    exact (unitsIn_other (n := "SupplProvisionAppdxStyle") (by decide) _ _ _).symm
  | supplProvisionAppdx p =>
    exact (unitsIn_other (n := "Appdx") (by decide) _ p.toXml.attributes p.toXml.children).symm

/-! ## Units of a document and of what is written for it -/

theorem lookup_unitTitle {t : String} (h : t ∈ "Article" :: unitTags) :
    (∃ l, layouts.lookup (t ++ "Title") = some l ∧ l.parts = [.text]) ∧ t ++ "Title" ∉ shifty := by
  simp only [unitTags, List.mem_cons, List.not_mem_nil, or_false] at h
  rcases h with rfl | rfl | rfl | rfl | rfl | rfl <;>
    exact ⟨⟨_, by with_unfolding_all rfl, rfl⟩, by decide⟩

theorem lastTitle_rewritten {t : String} (h : t ∈ "Article" :: unitTags) (c : List XMLNode) :
    (match (tagged (t ++ "Title") c).getLast?.map rewriteNode with
      | some x => titleText asWritten (kidsOf x)
      | none => "") =
    match (tagged (t ++ "Title") c).getLast? with
      | some x => titleText asRead (kidsOf x)
      | none => "" := by
  obtain ⟨⟨l, hl, hp⟩, hs⟩ := lookup_unitTitle h
  cases hx : (tagged (t ++ "Title") c).getLast? with
  | none => rfl
  | some x =>
    obtain ⟨a, d, rfl⟩ := of_tagged (List.mem_of_getLast? hx)
    show titleText asWritten (kidsOf (rewriteNode _)) = titleText asRead d
    rw [kids_of hl, hp, List.flatMap_singleton, titleText_rewritten]

theorem articleTitle_rewritten (a : Attrs) (c : List XMLNode) :
    (match (tagged "ArticleTitle" (kidsOf (rewriteNode (.element "Article" a c)))).getLast? with
      | some x => titleText asWritten (kidsOf x)
      | none => "") =
    match (tagged "ArticleTitle" c).getLast? with
      | some x => titleText asRead (kidsOf x)
      | none => "" := by
  obtain ⟨l, hl, -, hp⟩ := lookup_article
  refine Eq.trans ?_ (lastTitle_rewritten (t := "Article") (by decide) c)
  show _ = (match (tagged "ArticleTitle" c).getLast?.map rewriteNode with
    | some x => titleText asWritten (kidsOf x)
    | none => "")
  rw [kids_of hl, hp]
  simp only [List.flatMap_cons, List.flatMap_nil, List.append_nil, tagged_append]
  rw [tagged_last_none (by decide) (by decide), tagged_last_none (by decide) (by decide),
    tagged_each_none (by decide) (by decide), List.nil_append, List.append_nil, List.append_nil,
    Portion.nodes, pick_eq, List.getLast?_map]
  rw [← tagged]
  cases hx : (tagged "ArticleTitle" c).getLast? with
  | none => rfl
  | some x =>
    obtain ⟨b, d, rfl⟩ := of_tagged (List.mem_of_getLast? hx)
    rw [Option.map_some, tagged_self]
    · rfl
    · intro y hy
      cases List.mem_singleton.1 hy
      show isNamed _ (rewriteNode _) = true
      rw [isNamed_rewrite (by decide)]
      rfl

theorem unitOf_rewritten {t : String} (h : t ∈ "Article" :: unitTags) (a b : Attrs)
    (c : List XMLNode) (hb : rewriteNode (.element t a c) =
      .element t b (kidsOf (rewriteNode (.element t a c)))) :
    unitOf asWritten t b (kidsOf (rewriteNode (.element t a c))) = unitOf asRead t a c := by
  have hn : b.get "Num" = asRead.num (a.get "Num") := by
    have := unit_num h a c
    rw [hb] at this
    exact this
  rw [unitOf, unitOf, hn]
  show (⟨t, _, _⟩ : LawUnit) = ⟨t, _, _⟩
  refine congrArg _ ?_
  rcases List.mem_cons.1 h with rfl | h2
  · exact articleTitle_rewritten a c
  · rw [unit_kids h2, tagged_map (lookup_unitTitle h).2, tagged_filter, List.getLast?_map]
    · exact lastTitle_rewritten h c
    · intro x hx
      obtain ⟨a, c, rfl⟩ := named_of hx
      rfl

mutual
theorem unitsIn_rewritten (around : List LawUnit) : ∀ x,
    unitsIn asWritten around (rewriteNode x) = unitsIn asRead around x
  | .element n a c => by
    by_cases h : n ∈ "Article" :: unitTags
    · obtain ⟨b, hb⟩ := node_kids (unit_not_shifty h) a c
      have hu := unitOf_rewritten h a b c hb
      rw [hb, unitsIn, unitsIn, hu]
      split
      · rfl
      · next h1 =>
        have h2 : n ∈ unitTags := (List.mem_cons.1 h).resolve_left h1
        rw [if_pos (by simpa using h2), if_pos (by simpa using h2), unit_kids h2,
          unitsAmong_rewritten _ c]
    · obtain ⟨m, b, d, h1, h2⟩ := rewrite_other (tags := "Article" :: unitTags)
        (fun t ht => unit_not_shifty ht) h a c
      rw [h1, unitsIn_other h, unitsIn_other h2]
  | .text _ => by rw [rewrite_plain rfl, unitsIn_nil rfl, unitsIn_nil rfl]
  | .comment _ => by rw [rewrite_plain rfl, unitsIn_nil rfl, unitsIn_nil rfl]
  | .cdata _ => by rw [rewrite_plain rfl, unitsIn_nil rfl, unitsIn_nil rfl]
  | .processingInstruction _ _ => by rw [rewrite_plain rfl, unitsIn_nil rfl, unitsIn_nil rfl]
theorem unitsAmong_rewritten (around : List LawUnit) : ∀ c : List XMLNode,
    unitsAmong asWritten around ((c.filter isElement).map rewriteNode) = unitsAmong asRead around c
  | [] => by
    rw [List.filter_nil, List.map_nil, unitsAmong, unitsAmong]
  | x :: c => by
    rw [unitsAmong, ← unitsAmong_rewritten around c, ← unitsIn_rewritten around x]
    cases h : isElement x with
    | false =>
      rw [List.filter_cons_of_neg (by rw [h]; decide), rewrite_plain h, unitsIn_nil h, List.nil_append]
    | true => rw [List.filter_cons_of_pos h, List.map_cons, unitsAmong]
end

end JLaw
