import Verif.Stable.Article

/-! # What readers give on clean elements: tables of contents -/

namespace JLaw

variable {L : Lvl} {K : Keep L}

theorem TOCOf.gives (hL : L.Reads K) {γ : Type} {C : γ → Prop}
    {arms : List (String × (Element → Res γ))} (ha : Gives.Arms arms C) {tag : String}
    (ht : tag ∈ numberedTags) (titleTag : String) {e : Element} (he : Clean e) :
    Gives (TOCOf.parser (L := L) tag titleTag arms e) (TOCOf.Keeps K C) := by
  unfold TOCOf.parser TOCOf.step
  refine .ite (fun hn => ?_) fun _ => .err _
  refine .bind (.numParse he (hn ▸ ht)) fun num hnum => .bind .any fun _ _ => ?_
  refine .bind (.forElems (fun s : TOCOf.St L γ => s.title.Keeps K ∧
    OptKeeps (fun t => t.Keeps K) s.article_range ∧ ∀ c ∈ s.children, C c) he.kids ?_ ?_) ?_
  · exact ⟨Text.new_keeps, .none, keeps_nil⟩
  · rintro s x - hx ⟨h1, h2, h3⟩
    gives
    all_goals first
      | (refine .matchTag (.childArms ha fun v hv => .ok ?_) hx (.unexpected _ _); invs)
      | invs
  · rintro s ⟨h1, h2, h3⟩
    exact .ok ⟨h1, h2, hnum, h3⟩

theorem TOCDivision.gives (hL : L.Reads K) {e : Element} (he : Clean e) :
    Gives (TOCDivision.parser e) (TOCDivision.Keeps K) :=
  TOCOf.gives hL Gives.arms_nil (by decide) _ he

macro_rules
  | `(tactic| gives_leaf) => `(tactic| with_reducible exact TOCDivision.gives (by assumption) (by clean))

theorem TOCSubsection.gives (hL : L.Reads K) {e : Element} (he : Clean e) :
    Gives (TOCSubsection.parser e) (TOCSubsection.Keeps K) :=
  TOCOf.gives hL (by gives) (by decide) _ he

macro_rules
  | `(tactic| gives_leaf) => `(tactic| with_reducible exact TOCSubsection.gives (by assumption) (by clean))

theorem TOCSectionContents.arms_gives (hL : L.Reads K) :
    Gives.Arms (TOCSectionContents.arms (L := L)) (TOCSectionContents.Keeps K) := by
  unfold TOCSectionContents.arms
  gives <;> assumption

theorem TOCSection.gives (hL : L.Reads K) {e : Element} (he : Clean e) :
    Gives (TOCSection.parser e) (TOCSection.Keeps K) :=
  TOCOf.gives hL (TOCSectionContents.arms_gives hL) (by decide) _ he

macro_rules
  | `(tactic| gives_leaf) => `(tactic| with_reducible exact TOCSection.gives (by assumption) (by clean))

theorem TOCChapter.gives (hL : L.Reads K) {e : Element} (he : Clean e) :
    Gives (TOCChapter.parser e) (TOCChapter.Keeps K) :=
  TOCOf.gives hL (by gives) (by decide) _ he

macro_rules
  | `(tactic| gives_leaf) => `(tactic| with_reducible exact TOCChapter.gives (by assumption) (by clean))

theorem TOCPart.gives (hL : L.Reads K) {e : Element} (he : Clean e) :
    Gives (TOCPart.parser e) (TOCPart.Keeps K) :=
  TOCOf.gives hL (by gives) (by decide) _ he

macro_rules
  | `(tactic| gives_leaf) => `(tactic| with_reducible exact TOCPart.gives (by assumption) (by clean))

theorem TOCArticle.gives (hL : L.Reads K) {e : Element} (he : Clean e) :
    Gives (TOCArticle.parser e) (TOCArticle.Keeps K) := by
  unfold TOCArticle.parser TOCArticle.step
  refine .ite (fun hn => ?_) fun _ => .err _
  refine .bind (.numParse he (by rw [hn]; decide)) fun num hnum => .bind .any fun _ _ => ?_
  refine .bind (.forElems (fun s : TOCArticle.St L => s.article_title.Keeps K ∧
    OptKeeps (fun t => t.Keeps K) s.article_caption) he.kids ?_ ?_) ?_
  · exact ⟨Text.new_keeps, .none⟩
  · rintro s x - hx ⟨h1, h2⟩
    gives <;> invs
  · rintro s ⟨h1, h2⟩
    split
    · exact .ok ⟨h1, h2 _ ‹_›, hnum⟩
    · exact .err _

macro_rules
  | `(tactic| gives_leaf) => `(tactic| with_reducible exact TOCArticle.gives (by assumption) (by clean))

theorem TOCSupplProvision.gives (hL : L.Reads K) {e : Element} (he : Clean e) :
    Gives (TOCSupplProvision.parser e) (TOCSupplProvision.Keeps K) := by
  unfold TOCSupplProvision.parser TOCSupplProvision.step
  refine .ite (fun hn => ?_) fun _ => .err _
  refine .bind (.forElems (fun s : TOCSupplProvision.St L => s.suppl_provision_label.Keeps K ∧
    OptKeeps (fun t => t.Keeps K) s.article_range ∧ ∀ c ∈ s.children, c.Keeps K) he.kids ?_ ?_) ?_
  · exact ⟨Text.new_keeps, .none, keeps_nil⟩
  · rintro s x - hx ⟨h1, h2, h3⟩
    gives <;> invs
  · exact fun s hs => .ok hs

macro_rules
  | `(tactic| gives_leaf) => `(tactic| with_reducible exact TOCSupplProvision.gives (by assumption) (by clean))

theorem TOC.gives (hL : L.Reads K) {e : Element} (he : Clean e) :
    Gives (TOC.parser e) (TOC.Keeps K) := by
  unfold TOC.parser TOC.step
  refine .ite (fun hn => ?_) fun _ => .err _
  refine .bind (.forElems (fun s : TOC.St L => OptKeeps (fun t => t.Keeps K) s.label ∧
    s.preamble_label = none ∧ (∀ c ∈ s.main_contents, c.Keeps K) ∧
    OptKeeps (fun t => t.Keeps K) s.suppl_provision ∧ ∀ c ∈ s.appdx_table_label, c.Keeps K)
    he.kids ?_ ?_) ?_
  · exact ⟨.none, rfl, keeps_nil, .none, keeps_nil⟩
  · rintro s x - hx ⟨h1, h2, h3, h4, h5⟩
    have hl : x.name ≠ "TOCPreambleLabel" := fun hn => hx.not_lost (by rw [hn]; decide)
    gives
    all_goals first
      | exact absurd (by assumption) hl
      | invs
  · exact fun s hs => .ok hs

macro_rules
  | `(tactic| gives_leaf) => `(tactic| with_reducible exact TOC.gives (by assumption) (by clean))

end JLaw
