import Verif.Stable.Article

/-! # What readers give on clean elements: appendices and supplementary provisions -/

namespace JLaw

variable {L : Lvl} {K : Keep L}

theorem AppdxOf.gives (hL : L.Reads K) {γ : Type} {C : γ → Prop}
    {arms : List (String × (Element → Res γ))} (ha : Gives.Arms arms C) (tag titleTag : String)
    {e : Element} (he : Clean e) :
    Gives (AppdxOf.parser (L := L) tag titleTag arms e) (AppdxOf.Keeps K C) := by
  unfold AppdxOf.parser AppdxOf.step
  refine .ite (fun hn => ?_) fun _ => .err _
  refine .bind .any fun _ _ => ?_
  refine .bind (.forElems (fun s : AppdxOf.St L γ => OptKeeps (fun t => t.Keeps K) s.title ∧
    OptKeeps (fun t => t.Keeps K) s.related_article_num ∧ (∀ c ∈ s.children, C c) ∧
    s.remarks = none) he.kids ?_ ?_) ?_
  · exact ⟨.none, .none, keeps_nil, rfl⟩
  · rintro s x - hx ⟨h1, h2, h3, h4⟩
    refine .cons (fun _ => ?_) <| .cons (fun _ => ?_) <|
      .cons (fun _ => .bind (Remarks.gives hx) fun _ h => h.elim) <| .nil <| .matchTag (.childArms ha fun v hv => .ok ?_) hx (.unexpected _ _)
    · gives; invs
    · gives; invs
    · invs
  · rintro s ⟨h1, h2, h3, h4⟩
    exact .ok ⟨h1, h2, h3, h4⟩

theorem AppdxTableContents.arms_gives (hL : L.Reads K) :
    Gives.Arms (AppdxTableContents.arms (L := L)) (AppdxTableContents.Keeps K) := by
  unfold AppdxTableContents.arms
  gives <;> assumption

theorem AppdxTable.gives (hL : L.Reads K) {e : Element} (he : Clean e) :
    Gives (AppdxTable.parser e) (AppdxTable.Keeps K) :=
  AppdxOf.gives hL (AppdxTableContents.arms_gives hL) _ _ he

theorem AppdxNoteContents.arms_gives (hL : L.Reads K) :
    Gives.Arms (AppdxNoteContents.arms (L := L)) (AppdxNoteContents.Keeps K) := by
  unfold AppdxNoteContents.arms
  gives <;> assumption

theorem AppdxNote.gives (hL : L.Reads K) {e : Element} (he : Clean e) :
    Gives (AppdxNote.parser e) (AppdxNote.Keeps K) :=
  AppdxOf.gives hL (AppdxNoteContents.arms_gives hL) _ _ he

theorem AppdxStyle.gives (hL : L.Reads K) {e : Element} (he : Clean e) :
    Gives (AppdxStyle.parser e) (AppdxStyle.Keeps K) :=
  AppdxOf.gives hL (by gives) _ _ he

theorem AppdxFormat.gives (hL : L.Reads K) {e : Element} (he : Clean e) :
    Gives (AppdxFormat.parser e) (AppdxFormat.Keeps K) :=
  AppdxOf.gives hL (by gives) _ _ he

macro_rules
  | `(tactic| gives_leaf) => `(tactic| with_reducible exact AppdxTable.gives (by assumption) (by clean))
macro_rules
  | `(tactic| gives_leaf) => `(tactic| with_reducible exact AppdxNote.gives (by assumption) (by clean))
macro_rules
  | `(tactic| gives_leaf) => `(tactic| with_reducible exact AppdxStyle.gives (by assumption) (by clean))
macro_rules
  | `(tactic| gives_leaf) => `(tactic| with_reducible exact AppdxFormat.gives (by assumption) (by clean))

theorem Appdx.gives (hL : L.Reads K) {e : Element} (he : Clean e) :
    Gives (Appdx.parser e) (Appdx.Keeps K) := by
  unfold Appdx.parser Appdx.step
  refine .ite (fun hn => ?_) fun _ => .err _
  refine .bind (.forElems (fun s : Appdx.St L => OptKeeps (fun t => t.Keeps K) s.arith_formula_num ∧
    s.related_article_num = none ∧ (∀ c ∈ s.arith_formula, c.Keeps K) ∧ s.remarks = none)
    he.kids ?_ ?_) ?_
  · exact ⟨.none, rfl, keeps_nil, rfl⟩
  · rintro s x hm hx ⟨h1, h2, h3, h4⟩
    have hl : x.name ≠ "RelatedArticleNum" := by
      intro hx'
      obtain ⟨n, a, c⟩ := e
      obtain rfl : n = _ := hn
      obtain ⟨m, b, d⟩ := x
      obtain rfl : m = _ := hx'
      exact he.not_lossy (.related hm)
    gives
    all_goals first
      | exact absurd (by assumption) hl
      | exact False.elim (by assumption)
      | invs
  · exact fun s hs => .ok hs

macro_rules
  | `(tactic| gives_leaf) => `(tactic| with_reducible exact Appdx.gives (by assumption) (by clean))

theorem AppdxFig.gives (hL : L.Reads K) {e : Element} (he : Clean e) :
    Gives (AppdxFig.parser e) (AppdxFig.Keeps K) := by
  unfold AppdxFig.parser AppdxFig.step
  refine .ite (fun hn => ?_) fun _ => .err _
  refine .bind .any fun _ _ => ?_
  refine .bind (.forElems (fun s : AppdxFig.St L => OptKeeps (fun t => t.Keeps K) s.title ∧
    OptKeeps (fun t => t.Keeps K) s.related_article_num ∧ (∀ c ∈ s.children, c.Keeps K))
    he.kids ?_ ?_) ?_
  · invs
  · rintro s x hm hx ⟨h1, h2, h3⟩
    gives <;> invs
  · exact fun s hs => .ok hs

macro_rules
  | `(tactic| gives_leaf) => `(tactic| with_reducible exact AppdxFig.gives (by assumption) (by clean))

theorem SupplProvisionAppdxStyle.gives (hL : L.Reads K) {e : Element} (he : Clean e) :
    Gives (SupplProvisionAppdxStyle.parser e) (SupplProvisionAppdxStyle.Keeps K) := by
  unfold SupplProvisionAppdxStyle.parser SupplAppdxOf.parser SupplAppdxOf.step
  refine .ite (fun hn => ?_) fun _ => .err _
  refine .bind .any fun _ _ => ?_
  refine .bind (.forElems (fun s : SupplAppdxOf.St L (StyleStruct L) =>
    OptKeeps (fun t => t.Keeps K) s.title ∧
    OptKeeps (fun t => t.Keeps K) s.related_article_num ∧ (∀ c ∈ s.structs, StyleStruct.Keeps K c))
    he.kids ?_ ?_) ?_
  · invs
  · rintro s x hm hx ⟨h1, h2, h3⟩
    gives <;> invs
  · rintro s ⟨h1, h2, h3⟩
    split
    · exact .ok ⟨h1 _ ‹_›, h2, h3⟩
    · exact .err _

macro_rules
  | `(tactic| gives_leaf) => `(tactic| with_reducible exact SupplProvisionAppdxStyle.gives (by assumption) (by clean))

/-- Tables without a title are not read. -/
theorem SupplProvisionAppdxTable.gives {e : Element} (he : Clean e) :
    Gives (SupplProvisionAppdxTable.parser (L := L) e) fun _ => False := by
  unfold SupplProvisionAppdxTable.parser SupplAppdxOf.parser SupplAppdxOf.step
  refine .ite (fun hn => ?_) fun _ => .err _
  refine .bind .any fun _ _ => ?_
  refine .bind (.forElems (fun s : SupplAppdxOf.St L (TableStruct L) => s.title = none)
    he.kids rfl ?_) ?_
  · intro s x hm hx hs
    refine .cons (fun hx' => ?_) ?_
    · obtain ⟨n, a, c⟩ := e
      obtain rfl : n = _ := hn
      obtain ⟨m, b, d⟩ := x
      obtain rfl : m = _ := hx'
      exact (he.not_lossy (.supplTable hm)).elim
    · gives
  · intro s hs
    rw [hs]
    exact .err _

macro_rules
  | `(tactic| gives_leaf) => `(tactic| with_reducible exact SupplProvisionAppdxTable.gives (by clean))

theorem SupplProvision.gives (hL : L.Reads K) {e : Element} (he : Clean e) :
    Gives (SupplProvision.parser e) (SupplProvision.Keeps K) := by
  unfold SupplProvision.parser SupplProvision.step
  refine .ite (fun hn => ?_) fun _ => .err _
  refine .bind .any fun _ _ => .bind .any fun _ _ => ?_
  refine .bind (.forElems (fun s : SupplProvision.St L => s.label.Keeps K ∧
    (∀ c ∈ s.children, c.Keeps K)) he.kids ?_ ?_) fun s hs => .ok hs
  · exact ⟨Text.new_keeps, keeps_nil⟩
  · rintro s x hm hx ⟨h1, h2⟩
    have hl : x.name ≠ "SupplProvisionAppdx" := fun hn => hx.not_lost (by rw [hn]; decide)
    gives
    all_goals first
      | exact absurd (by assumption) hl
      | exact False.elim (by assumption)
      | invs

macro_rules
  | `(tactic| gives_leaf) => `(tactic| with_reducible exact SupplProvision.gives (by assumption) (by clean))

end JLaw
