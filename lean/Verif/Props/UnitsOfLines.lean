import Verif.Lemmas.UnitsOfLines
import Verif.Props.FromText
import Verif.Props.Built
import Verif.Props.Utils

/-!
# The units of a law built from text (C95)
-/

namespace JLaw

open Spec

variable {L : Lvl}

/-- C95. The units of a law built from text, with their kinds, numbers and titles and the units around
them, are those announced by the lines. -/
theorem C95_units (E : Ext) (fuel : Nat) (title text : List Char) (b : LawBody L)
    (h : parseBody E fuel title text = .ok (some b)) :
    ∃ ls, readLines E text = .ok ls ∧
      (b.main_provision.units.map fun p =>
        (p.1.map fun u => (u.kind, u.num), (p.2.kind, p.2.num, p.2.title))) =
        unitsOfLines start [] ls := by
  obtain ⟨ls, hls, hd⟩ := C52_document E fuel title text b h
  refine ⟨ls, hls, ?_⟩
  have h1 := document_units (C72_shape E fuel title text b h)
  rw [hd, units_meaning ls start ([], []) rfl] at h1
  exact h1.symm

/-! ## The table of contents -/

/-- The entry of a line in a table of contents. -/
def entryTitle : TextLine → Option String
  | .part _ s | .chapter _ s | .section_ _ s | .subsection _ s | .division _ s =>
    some (String.ofList s)
  | .article _ _ => some ""
  | _ => none

theorem units_titles (n : Nat) (ls : List TextLine) (q : State) (o : Around) :
    (unitsOfLines (L := lvl n) q o ls).map (fun p => plainText n p.2.2.2) =
      (used q ls).filterMap entryTitle := by
  have hp : ∀ s, plainText n (Spec.plainText s : Text (lvl n)) = String.ofList s := by
    intro s
    cases n <;> simp [plainText, Spec.plainText, TextElement.plain, String.join]
  induction ls generalizing q o with
  | nil => rfl
  | cons l r ih =>
    rw [unitsOfLines, used]
    cases next q l with
    | none => rfl
    | some q' =>
      cases l <;> simp [headingOf, articleOf, entryTitle, List.filterMap_cons, ih, hp]

/-- C95. The table of contents made for a law built from text has one entry for each heading of a
unit, titled with its text, and one for each article, whose title is empty: the caption of an article
is not shown. -/
theorem C95_titles (E : Ext) (n : Nat) (fuel : Nat) (title text : List Char) (b : LawBody (lvl n))
    (h : parseBody E fuel title text = .ok (some b)) :
    ∃ ls, readLines E text = .ok ls ∧
      (tocListFromMainProvision (render n) b.main_provision).map (fun t => t.title) =
        ((used start ls).filterMap entryTitle).map some := by
  obtain ⟨ls, hls, hu⟩ := C95_units E fuel title text b h
  refine ⟨ls, hls, ?_⟩
  rw [C48_main_provision, ← units_titles n ls start [], ← hu]
  simp [Function.comp_def]

/-! ## Articles with numbers -/

/-- The number directly after the one of kind `k`. -/
def afterKind (k : Kind) : Around → Option ArticleNumber
  | u :: v :: r => if u.1 = k then some v.2 else afterKind k (v :: r)
  | _ => none

/-- The number of kind `k`. -/
def ofKind (k : Kind) (l : Around) : Option ArticleNumber := (l.find? fun u => u.1 = k).map Prod.snd

theorem afterKind_brief (k : Kind) (l : List (UnitHead L)) :
    numBelow k l = afterKind k (l.map UnitHead.brief) := by
  induction l with
  | nil => rfl
  | cons u l ih =>
    cases l with
    | nil => rfl
    | cons v l =>
      rw [numBelow, ih]
      rfl

theorem ofKind_brief (k : Kind) (l : List (UnitHead L)) :
    numOf k l = ofKind k (l.map UnitHead.brief) := by
  induction l with
  | nil => rfl
  | cons u l ih =>
    simp only [numOf, ofKind, List.map_cons, List.find?_cons, UnitHead.brief] at ih ⊢
    cases h : decide (u.kind = k) <;> simp [ih]

/-- C95. The list of articles with numbers for a law built from text, read off the lines: for each
article the numbers that src/utils.rs reports for the units around it. The number of the part,
chapter, section or subsection is that of the unit or article below it (C42). -/
theorem C95_numbers (E : Ext) (fuel : Nat) (title text : List Char) (b : LawBody L)
    (h : parseBody E fuel title text = .ok (some b)) :
    ∃ ls, readLines E text = .ok ls ∧
      ((withNumberArticleListFromMainProvision b.main_provision).1.map fun w =>
        (w.part, w.chapter, w.section_, w.subsection, w.division, w.article.num)) =
      (unitsOfLines (L := L) start [] ls).filterMap fun p =>
        if p.2.1 = .article then
          let l := p.1 ++ [(p.2.1, p.2.2.1)]
          some (afterKind .part l, afterKind .chapter l, afterKind .section_ l,
            afterKind .subsection l, ofKind .division p.1, p.2.2.1)
        else none := by
  obtain ⟨ls, hls, hu⟩ := C95_units E fuel title text b h
  refine ⟨ls, hls, ?_⟩
  rw [C42_main_provision, ← hu, List.map_filterMap, List.filterMap_map]
  apply filterMap_congr_mem
  rintro ⟨around, u⟩ _
  simp only [afterKind_brief, ofKind_brief, List.map_append, List.map_cons, List.map_nil]
  cases u <;> rfl

/-! ## Examples -/

/-- A text with chapters, a section and articles. -/
def unitText : List Char :=
  "第一編　甲\n第一条　乙\n第一章　丙\n（見出し）\n第二条　丁\n第一節　戊\n第三条　己\n第二章　庚\n第四条　辛".toList

/-- Its table of contents. -/
example : (match parseBody (L := lvl 1) kanjiExt 20 "法".toList unitText with
    | .ok (some b) => (tocListFromMainProvision (render 1) b.main_provision).map fun t => t.title
    | _ => []) =
    [some "甲", some "", some "丙", some "", some "戊", some "", some "庚", some ""] := by
  decide +kernel

/-- Its units. -/
example : (match readLines kanjiExt unitText with
    | .ok ls => (unitsOfLines (L := lvl 1) start [] ls).map fun p =>
        (p.1.map fun u => (u.1, u.2.base_number), p.2.1, p.2.2.1.base_number)
    | _ => []) =
    [([], .part, 1), ([(.part, 1)], .article, 1), ([(.part, 1)], .chapter, 1),
      ([(.part, 1), (.chapter, 1)], .article, 2), ([(.part, 1), (.chapter, 1)], .section_, 1),
      ([(.part, 1), (.chapter, 1), (.section_, 1)], .article, 3), ([(.part, 1)], .chapter, 2),
      ([(.part, 1), (.chapter, 2)], .article, 4)] := by
  decide +kernel

end JLaw
