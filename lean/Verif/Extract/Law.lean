import Verif.Extract.Units
import Verif.Reading.RewriteLaw

/-!
# The provisions of a law and those of the document
-/

namespace JLaw

open Spec.Doc
open Spec (rewriteNode rewriteList rewrite isNamed kidsOf isString isElement layouts pick Portion Layout
  Change)

variable {L : Lvl}

/-! ## Texts -/

theorem paragraphs_found {R : Render L} (hR : R.Fits) {l : List (Paragraph L)} {g : List XMLNode}
    (hg : ∀ y ∈ g, isNamed ["Paragraph"] y = true)
    (h : (l.map fun p => p.toXml.node) = g.map rewriteNode) :
    textFromParagraphList R l = paragraphsText asRead g ∧
    (textInfoListFromParagraph R l).map TextIndex.entry = g.flatMap (paragraphEntries asRead) := by
  rw [textFromParagraphList_written hR, textInfo_written hR, h, paragraphsText_rewritten hg]
  refine ⟨rfl, ?_⟩
  have : (l.flatMap fun p => paragraphEntries asWritten p.toXml.node) =
      (l.map fun p => p.toXml.node).flatMap (paragraphEntries asWritten) := by rw [List.flatMap_map]
  rw [this, h, List.flatMap_map]
  apply flatMap_congr_mem
  intro y hy
  exact paragraphEntries_rewritten (hg y hy)

theorem Article.text_found {R : Render L} (hR : R.Fits) {a : Article L} {y : XMLNode}
    (hy : isNamed ["Article"] y = true) (h : a.toXml.node = rewriteNode y) :
    textFromArticle R a = articleText asRead y ∧
    (textInfoListFromParagraph R a.paragraph).map TextIndex.entry =
      (tagged "Paragraph" (kidsOf y)).flatMap (paragraphEntries asRead) := by
  obtain ⟨b, c, rfl⟩ := named_of hy
  refine paragraphs_found (R := R) (l := a.paragraph) hR (fun y hy => (List.mem_filter.1 hy).2) ?_
  have h1 := article_paragraphs b c
  rw [← h] at h1
  refine Eq.trans ?_ h1
  show _ = tagged "Paragraph" a.toXml.children
  rw [Article.toXml]
  simp only [tagged_append]
  rw [tagged_others (t := "Paragraph") (f := fun c : Caption L => c.toXml "ArticleCaption")
      (fun _ => by show "ArticleCaption" ≠ _; decide),
    tagged_nodes (t := "Paragraph") (f := fun v : Paragraph L => v.toXml) (fun _ => rfl),
    tagged_others (t := "Paragraph") (f := fun c : Text L => c.toXml "SupplNote")
      (fun _ => by show "SupplNote" ≠ _; decide),
    tagged_other (t := "Paragraph") (e := a.title.toXml "ArticleTitle")
      (by show "ArticleTitle" ≠ _; decide)]
  simp

mutual
theorem articlesIn_named : ∀ x, ∀ y ∈ articlesIn x, isNamed ["Article"] y = true
  | .element n a c => by
    rw [articlesIn]
    split
    · next h =>
      intro y hy
      cases List.mem_singleton.1 hy
      subst h
      rfl
    · split
      · exact articlesAmong_named c
      · nofun
  | .text _ => by rw [articlesIn_nil rfl]; nofun
  | .comment _ => by rw [articlesIn_nil rfl]; nofun
  | .cdata _ => by rw [articlesIn_nil rfl]; nofun
  | .processingInstruction _ _ => by rw [articlesIn_nil rfl]; nofun
theorem articlesAmong_named : ∀ c, ∀ y ∈ articlesAmong c, isNamed ["Article"] y = true
  | [] => by rw [articlesAmong]; nofun
  | x :: c => by
    rw [articlesAmong]
    intro y hy
    rcases List.mem_append.1 hy with hy | hy
    · exact articlesIn_named x y hy
    · exact articlesAmong_named c y hy
end

theorem paragraphGroups_named {cut : XMLNode → Bool} (c : List XMLNode) : ∀ g : List XMLNode,
    (∀ y ∈ g, isNamed ["Paragraph"] y = true) →
    ∀ g' ∈ paragraphGroups cut g c, ∀ y ∈ g', isNamed ["Paragraph"] y = true := by
  induction c with
  | nil =>
    intro g hg g' h
    cases List.mem_singleton.1 h
    exact hg
  | cons x c ih =>
    intro g hg g' h
    rw [paragraphGroups] at h
    split at h
    · rcases List.mem_cons.1 h with rfl | h
      · exact hg
      · exact ih [] nofun g' h
    · split at h
      · next hx =>
        refine ih _ ?_ g' h
        intro y hy
        rcases List.mem_append.1 hy with hy | hy
        · exact hg y hy
        · cases List.mem_singleton.1 hy
          exact hx
      · exact ih g hg g' h

theorem articles_found {R : Render L} (hR : R.Fits) {l : List (Article L)} {c : List XMLNode}
    (hc : ∀ y ∈ c, isNamed ["Article"] y = true)
    (h : (l.map fun a => a.toXml.node) = c.map rewriteNode) :
    l.map (textFromArticle R) = c.map (articleText asRead) := by
  induction l generalizing c with
  | nil => cases c <;> [rfl; cases h]
  | cons a l ih =>
    cases c with
    | nil => cases h
    | cons y c =>
      injection h with h1 h2
      rw [List.map_cons, List.map_cons, ih (fun z hz => hc z (by simp [hz])) h2,
        (Article.text_found hR (hc y (by simp)) h1).1]

theorem groups_found {R : Render L} (hR : R.Fits) {l : List (List (Paragraph L))}
    {c : List (List XMLNode)} (hc : ∀ g ∈ c, ∀ y ∈ g, isNamed ["Paragraph"] y = true)
    (h : (l.map fun g => g.map fun p => p.toXml.node) = c.map fun g => g.map rewriteNode) :
    l.map (textFromParagraphList R) = c.map (paragraphsText asRead) := by
  induction l generalizing c with
  | nil => cases c <;> [rfl; cases h]
  | cons a l ih =>
    cases c with
    | nil => cases h
    | cons y c =>
      injection h with h1 h2
      rw [List.map_cons, List.map_cons, ih (fun z hz => hc z (by simp [hz])) h2,
        (paragraphs_found hR (hc y (by simp)) h1).1]

/-! ## Tables of contents -/

theorem numberOn_path {R : Render L} (k : Kind) (p : List (UnitHead L) × UnitHead L) :
    numberOn k.tag (unitPath R p) = (numOf k (p.1 ++ [p.2])).map ArticleNumber.numStr := by
  have : (unitPath R p).1 ++ [(unitPath R p).2] = (p.1 ++ [p.2]).map (UnitHead.unit R) := by
    rw [List.map_append]; rfl
  rw [numberOn, this, numOf, List.find?_map, Option.map_map]
  have hf : ((fun u : LawUnit => decide (u.tag = k.tag)) ∘ UnitHead.unit R) =
      fun u => decide (u.kind = k) := by
    funext u
    have : u.kind.tag = k.tag ↔ u.kind = k := by
      cases u.kind <;> cases k <;> decide
    exact decide_eq_decide.2 this
  rw [hf]
  cases (p.1 ++ [p.2]).find? fun u => decide (u.kind = k) <;> rfl

/-! ## Main provisions -/

theorem main_kids (a : Attrs) (c : List XMLNode) :
    kidsOf (rewriteNode (.element "MainProvision" a c)) = (c.filter isElement).map rewriteNode := by
  rw [kids_of (t := "MainProvision") (l := { attrs := [{ name := "Extract" }], parts := [.elements] })
    (by with_unfolding_all rfl)]
  show ([Portion.elements].flatMap fun p => p.nodes (rewriteList c)) = _
  rw [List.flatMap_singleton, Portion.nodes, pick_eq]

/-- What the lists from a main provision are if it is written as a document is. -/
theorem MainProvision.found {m : MainProvision L} {c : List XMLNode}
    (h : kidsOf m.toXml.node = (c.filter isElement).map rewriteNode) :
    (withNumberArticleListFromMainProvision m).1.map WithNumberArticle.numbered =
      (c.flatMap (numberedIn asRead)).map Numbered.rewritten ∧
    (withNumberArticleListFromMainProvision m).2.map (fun g => g.map fun p => p.toXml.node) =
      (paragraphGroups cutsMain [] c).map fun g => g.map rewriteNode := by
  have h1 := m.listed
  rw [h] at h1
  refine ⟨h1.1.trans ?_, h1.2.trans ?_⟩
  · rw [List.flatMap_map, List.map_flatMap]
    apply flatMap_filter
    · intro x _ _
      exact numberedIn_rewritten x
    · intro x _ hx
      rw [numberedIn_nil hx]
      rfl
  · exact paragraphGroups_rewritten (g := [])
      (fun x hx => by cases x <;> first | rfl | cases hx)
      (fun x hx => by cases x <;> first | rfl | cases hx)
      (fun x => isNamed_rewrite (by decide) x) c

theorem MainProvision.found_units {R : Render L} (hR : R.Fits) {m : MainProvision L} {c : List XMLNode}
    (h : kidsOf m.toXml.node = (c.filter isElement).map rewriteNode) :
    m.units.map (unitPath R) = unitsAmong asRead [] c := by
  rw [m.units_written hR, h, ← unitsAmong_eq, unitsAmong_rewritten]

/-! ## Supplementary provisions -/

/-- The tags of the chapters, articles and paragraphs of a supplementary provision. -/
def supplTags : List String := ["Chapter", "Article", "Paragraph"]

theorem lookup_suppl : ∃ l, layouts.lookup "SupplProvision" = some l ∧
    l.parts = [.lastUnlessEmpty "SupplProvisionLabel",
      .each ["Chapter", "Article", "Paragraph", "SupplProvisionAppdxTable",
        "SupplProvisionAppdxStyle", "SupplProvisionAppdx"]] :=
  ⟨_, by with_unfolding_all rfl, rfl⟩

/-- What is written for a supplementary provision holds other elements than chapters, articles and
paragraphs only if they are no units. -/
theorem suppl_kids (a : Attrs) (c : List XMLNode) :
    (kidsOf (rewriteNode (.element "SupplProvision" a c))).filter (isNamed supplTags) =
      (c.filter (isNamed supplTags)).map rewriteNode ∧
    ∀ x ∈ kidsOf (rewriteNode (.element "SupplProvision" a c)), isNamed supplTags x = false →
      ∃ n b d, x = .element n b d ∧ n ∉ "Paragraph" :: "Article" :: unitTags := by
  obtain ⟨l, hl, hp⟩ := lookup_suppl
  have hA : ∀ x ∈ (Portion.lastUnlessEmpty "SupplProvisionLabel").nodes (rewriteList c),
      isNamed ["SupplProvisionLabel"] x = true := by
    intro x hx
    rw [Portion.nodes, pick_eq] at hx
    have hx : x ∈ (c.filter (isNamed ["SupplProvisionLabel"])).map rewriteNode := by
      rw [Option.mem_toList, Option.filter_eq_some_iff] at hx
      exact List.mem_of_getLast? hx.1
    obtain ⟨y, hy, rfl⟩ := List.mem_map.1 hx
    rw [isNamed_rewrite (by decide)]
    exact (List.mem_filter.1 hy).2
  rw [kids_of hl, hp, List.flatMap_cons, List.flatMap_singleton]
  rw [show (Portion.each ["Chapter", "Article", "Paragraph", "SupplProvisionAppdxTable",
        "SupplProvisionAppdxStyle", "SupplProvisionAppdx"]).nodes (rewriteList c) =
      (c.filter (isNamed ["Chapter", "Article", "Paragraph", "SupplProvisionAppdxTable",
        "SupplProvisionAppdxStyle", "SupplProvisionAppdx"])).map rewriteNode from
    by rw [Portion.nodes, pick_eq]]
  constructor
  · rw [List.filter_append, List.filter_eq_nil_iff.2, List.nil_append, List.filter_map, List.filter_filter]
    · refine congrArg _ (List.filter_congr fun x _ => ?_)
      rw [Function.comp, isNamed_rewrite (by decide)]
      cases h : isNamed supplTags x with
      | false => rfl
      | true =>
        cases x with
        | element n a c =>
          have : n ∈ supplTags := by simpa [isNamed] using h
          simp only [supplTags, List.mem_cons, List.not_mem_nil, or_false] at this
          rcases this with rfl | rfl | rfl <;> rfl
        | _ => cases h
    · intro x hx
      obtain ⟨b, d, rfl⟩ := named_of (hA x hx)
      show ¬ (false = true)
      decide
  · intro x hx h
    rcases List.mem_append.1 hx with hx | hx
    · obtain ⟨b, d, rfl⟩ := named_of (hA x hx)
      exact ⟨_, _, _, rfl, by decide⟩
    · obtain ⟨y, hy, rfl⟩ := List.mem_map.1 hx
      rw [isNamed_rewrite (by decide)] at h
      have hy := (List.mem_filter.1 hy).2
      cases y with
      | element n b d =>
        have hn : n ∉ "Paragraph" :: "Article" :: unitTags := by
          have h1 : n ∈ ["Chapter", "Article", "Paragraph", "SupplProvisionAppdxTable",
            "SupplProvisionAppdxStyle", "SupplProvisionAppdx"] := by simpa [isNamed] using hy
          have h2 : n ∉ supplTags := by simpa [isNamed] using h
          simp only [List.mem_cons, List.not_mem_nil, or_false] at h1
          rcases h1 with rfl | rfl | rfl | rfl | rfl | rfl <;> revert h2 <;> decide
        obtain ⟨m, b', d', h1, h2⟩ := rewrite_other (tags := "Paragraph" :: "Article" :: unitTags)
          (by decide) hn b d
        exact ⟨m, b', d', h1, h2⟩
      | _ => cases hy

theorem paragraphGroups_filter {p cut : XMLNode → Bool} {c : List XMLNode}
    (h1 : ∀ x ∈ c, p x = false → cut x = false)
    (h2 : ∀ x ∈ c, p x = false → isNamed ["Paragraph"] x = false) (g : List XMLNode) :
    paragraphGroups cut g (c.filter p) = paragraphGroups cut g c := by
  induction c generalizing g with
  | nil => rfl
  | cons x c ih =>
    have ih := ih (fun y hy => h1 y (by simp [hy])) (fun y hy => h2 y (by simp [hy]))
    cases h : p x with
    | false =>
      rw [List.filter_cons_of_neg (by rw [h]; decide), ih, paragraphGroups, h1 x (by simp) h,
        h2 x (by simp) h, if_neg (by decide), if_neg (by decide)]
    | true => rw [List.filter_cons_of_pos h, paragraphGroups, paragraphGroups, ih, ih, ih]

/-- What the lists from a supplementary provision are if it is written as a document is. -/
theorem SupplProvision.found {x : SupplProvision L} {s : XMLNode}
    (hs : isNamed ["SupplProvision"] s = true) (h : x.toXml.node = rewriteNode s) :
    (withNumberArticleListFromSupplProvision x).1.map WithNumberArticle.numbered =
      ((supplKids s).flatMap (numberedIn asRead)).map Numbered.rewritten ∧
    (withNumberArticleListFromSupplProvision x).2.map (fun g => g.map fun p => p.toXml.node) =
      (paragraphGroups cutsSuppl [] (supplKids s)).map fun g => g.map rewriteNode := by
  obtain ⟨a, c, rfl⟩ := named_of hs
  obtain ⟨k1, k2⟩ := suppl_kids a c
  have h1 := x.listed
  rw [h] at h1
  refine ⟨h1.1.trans ?_, h1.2.trans ?_⟩
  · rw [← flatMap_filter (p := isNamed supplTags) (f := numberedIn asWritten), k1, List.flatMap_map,
      List.map_flatMap]
    · apply flatMap_congr_mem
      intro y _
      exact numberedIn_rewritten y
    · intro _ _ _
      rfl
    · intro y hy hn
      obtain ⟨n, b, d, rfl, hm⟩ := k2 y hy hn
      exact numberedIn_other (fun h => hm (List.mem_cons_of_mem _ h)) b d
  · rw [← paragraphGroups_filter (p := isNamed supplTags), k1]
    · have := paragraphGroups_rewritten (p := fun _ => true) (cut := cutsSuppl) nofun nofun
        (fun x => isNamed_rewrite (by decide) x) [] (c.filter (isNamed supplTags))
      rw [List.filter_eq_self.2 (fun _ _ => rfl)] at this
      exact this
    · intro y hy hn
      obtain ⟨n, b, d, rfl, hm⟩ := k2 y hy hn
      rw [Bool.eq_false_iff]
      intro hc
      have : n ∈ ["Chapter", "Article"] := by simpa [cutsSuppl, isNamed] using hc
      simp only [List.mem_cons, List.not_mem_nil, or_false] at this
      rcases this with rfl | rfl <;> revert hm <;> decide
    · intro y hy hn
      obtain ⟨n, b, d, rfl, hm⟩ := k2 y hy hn
      rw [Bool.eq_false_iff]
      intro hc
      have : n = "Paragraph" := by simpa [isNamed] using hc
      subst this
      revert hm
      decide

theorem SupplProvision.found_units {R : Render L} (hR : R.Fits) {x : SupplProvision L} {s : XMLNode}
    (hs : isNamed ["SupplProvision"] s = true) (h : x.toXml.node = rewriteNode s) :
    x.units.map (unitPath R) = unitsAmong asRead [] (supplKids s) := by
  obtain ⟨a, c, rfl⟩ := named_of hs
  obtain ⟨k1, k2⟩ := suppl_kids a c
  rw [x.units_written hR, h, ← flatMap_filter (p := isNamed supplTags) (f := unitsIn asWritten []), k1,
    List.flatMap_map, unitsAmong_eq]
  · apply flatMap_congr_mem
    intro y _
    exact unitsIn_rewritten [] y
  · intro _ _ _
    rfl
  · intro y hy hn
    obtain ⟨n, b, d, rfl, hm⟩ := k2 y hy hn
    exact unitsIn_other (fun h => hm (List.mem_cons_of_mem _ h)) [] b d

/-! ## Laws -/

theorem lookup_lawBody : ∃ l, layouts.lookup "LawBody" = some l ∧
    l.parts = [.last "LawTitle", .each ["EnactStatement"], .last "TOC",
      .last "Preamble", .last "MainProvision", .each ["SupplProvision"],
      .each ["AppdxTable"], .each ["AppdxNote"], .each ["AppdxStyle"], .each ["Appdx"],
      .each ["AppdxFig"], .each ["AppdxFormat"]] :=
  ⟨_, by with_unfolding_all rfl, rfl⟩

theorem LawBody.provisions (x : LawBody L) :
    tagged "MainProvision" (kidsOf x.toXml.node) = [x.main_provision.toXml.node] ∧
    tagged "SupplProvision" (kidsOf x.toXml.node) = x.suppl_provision.map fun v => v.toXml.node := by
  constructor <;>
  · show tagged _ x.toXml.children = _
    rw [LawBody.toXml]
    simp only [tagged_append]
    rw [tagged_others (f := fun v : LawTitle L => v.toXml) (fun _ => by show "LawTitle" ≠ _; decide),
      tagged_others (f := fun v : Text L => v.toXml "EnactStatement")
        (fun _ => by show "EnactStatement" ≠ _; decide),
      tagged_others (f := fun v : TOC L => v.toXml) (fun _ => by show "TOC" ≠ _; decide),
      tagged_others (f := fun v : Preamble L => v.toXml) (fun _ => by show "Preamble" ≠ _; decide),
      tagged_others (f := fun v : AppdxTable L => AppdxTable.toXml v)
        (fun _ => by show "AppdxTable" ≠ _; decide),
      tagged_others (f := fun v : AppdxNote L => AppdxNote.toXml v)
        (fun _ => by show "AppdxNote" ≠ _; decide),
      tagged_others (f := fun v : AppdxStyle L => AppdxStyle.toXml v)
        (fun _ => by show "AppdxStyle" ≠ _; decide),
      tagged_others (f := fun v : Appdx L => v.toXml) (fun _ => by show "Appdx" ≠ _; decide),
      tagged_others (f := fun v : AppdxFig L => v.toXml) (fun _ => by show "AppdxFig" ≠ _; decide),
      tagged_others (f := fun v : AppdxFormat L => AppdxFormat.toXml v)
        (fun _ => by show "AppdxFormat" ≠ _; decide)]
    first
    | rw [tagged_one (t := "MainProvision") (e := x.main_provision.toXml) rfl,
        tagged_others (f := fun v : SupplProvision L => v.toXml)
          (fun _ => by show "SupplProvision" ≠ _; decide)]
      rfl
    | rw [tagged_other (t := "SupplProvision") (e := x.main_provision.toXml)
          (by show "MainProvision" ≠ _; decide),
        tagged_nodes (f := fun v : SupplProvision L => v.toXml) (fun _ => rfl)]
      simp

/-- The provisions of a law that is written as a document is are those of the document, written. -/
theorem Law.provisions {x : Law L} {e : Element} (hn : e.name = "Law") (h : x.toXml = rewrite e) :
    (∃ s, mainOf e = kidsOf s ∧ isNamed ["MainProvision"] s = true ∧
      x.law_body.main_provision.toXml.node = rewriteNode s) ∧
    List.Forall₂ (fun s y => isNamed ["SupplProvision"] s = true ∧ y.toXml.node = rewriteNode s)
      (supplsOf e) x.law_body.suppl_provision := by
  have hc : [({ name := "LawNum", children := [.text x.law_num] } : Element).node,
      x.law_body.toXml.node] = (e.children.take 2).map rewriteNode := by
    have h1 := congrArg Element.children (h.trans (rewrite_of hn (by with_unfolding_all rfl)))
    refine h1.trans ?_
    show ([Portion.first 2].flatMap fun p => p.nodes (rewriteList e.children)) = _
    rw [List.flatMap_singleton, Portion.nodes, rewriteList_eq, ← List.map_take, List.map_map]
    rfl
  obtain ⟨y, hy, hb⟩ : ∃ y, e.children[1]? = some y ∧ x.law_body.toXml.node = rewriteNode y := by
    have h2 := congrArg (fun l => l[1]?) hc
    simp only [List.getElem?_map, List.getElem?_take] at h2
    cases he : e.children[1]? with
    | none => rw [he] at h2; cases h2
    | some y =>
      rw [he] at h2
      exact ⟨y, rfl, Option.some.inj h2⟩
  have hy2 : isNamed ["LawBody"] y = true := by
    rw [← isNamed_rewrite (by decide), ← hb]
    rfl
  obtain ⟨a, c, rfl⟩ := named_of hy2
  have hbody : Spec.Doc.bodyOf e = c := by
    rw [Spec.Doc.bodyOf, hy]
    rfl
  obtain ⟨l, hl, hp⟩ := lookup_lawBody
  obtain ⟨p1, p2⟩ := x.law_body.provisions
  rw [hb, kids_of hl, hp] at p1 p2
  simp only [List.flatMap_cons, List.flatMap_nil, List.append_nil, tagged_append] at p1 p2
  rw [tagged_last_none (by decide) (by decide), tagged_last_none (by decide) (by decide),
    tagged_last_none (by decide) (by decide), tagged_last (by decide),
    tagged_each_none (by decide) (by decide), tagged_each_none (by decide) (by decide),
    tagged_each_none (by decide) (by decide), tagged_each_none (by decide) (by decide),
    tagged_each_none (by decide) (by decide), tagged_each_none (by decide) (by decide),
    tagged_each_none (by decide) (by decide), tagged_each_none (by decide) (by decide)] at p1
  rw [tagged_last_none (by decide) (by decide), tagged_last_none (by decide) (by decide),
    tagged_last_none (by decide) (by decide), tagged_last_none (by decide) (by decide),
    tagged_each_none (by decide) (by decide), tagged_each (by decide) (by decide),
    tagged_each_none (by decide) (by decide), tagged_each_none (by decide) (by decide),
    tagged_each_none (by decide) (by decide), tagged_each_none (by decide) (by decide),
    tagged_each_none (by decide) (by decide), tagged_each_none (by decide) (by decide)] at p2
  simp only [List.nil_append, List.append_nil] at p1 p2
  constructor
  · rw [mainOf, hbody]
    cases hm : (tagged "MainProvision" c).getLast? with
    | none => rw [hm] at p1; cases p1
    | some s =>
      rw [hm] at p1
      exact ⟨s, rfl, (List.mem_filter.1 (List.mem_of_getLast? hm)).2, (List.cons.inj p1).1.symm⟩
  · rw [supplsOf, hbody]
    have hall : ∀ s ∈ tagged "SupplProvision" c, isNamed ["SupplProvision"] s = true :=
      fun s hs => (List.mem_filter.1 hs).2
    generalize tagged "SupplProvision" c = l1 at p2 hall
    generalize x.law_body.suppl_provision = l2 at p2
    induction l1 generalizing l2 with
    | nil =>
      cases l2 with
      | nil => exact .nil
      | cons y l2 => cases p2
    | cons s l1 ih =>
      cases l2 with
      | nil => cases p2
      | cons y l2 =>
        injection p2 with p3 p4
        exact .cons ⟨hall s (by simp), p3.symm⟩ (ih (fun t ht => hall t (by simp [ht])) l2 p4)

end JLaw
