import Verif.Stable.Struct

/-! # What readers give on clean elements: items, paragraphs, articles and the hierarchy -/

namespace JLaw

variable {L : Lvl} {K : Keep L}

theorem ItemOf.gives (hL : L.Reads K) {γ : Type} {C : γ → Prop}
    {arms : List (String × (Element → Res γ))} (ha : Gives.Arms arms C) {tag : String}
    (ht : tag ∈ numberedTags) (titleTag sentTag : String) {e : Element} (he : Clean e) :
    Gives (ItemOf.parser (L := L) tag titleTag sentTag arms e) (ItemOf.Keeps K C) := by
  unfold ItemOf.parser ItemOf.step
  refine .ite (fun hn => ?_) fun _ => .err _
  refine .bind (.numString he (hn ▸ ht)) fun num hnum => .bind .any fun _ _ => .bind .any fun _ _ => ?_
  refine .bind (.forElems (fun s : ItemOf.St L γ => OptKeeps (fun t => t.Keeps K) s.title ∧
    OptKeeps (fun t => t.Keeps K) s.sentence ∧ (∀ c ∈ s.children, C c) ∧
    ∀ v ∈ s.struct_list, v.Keeps K) he.kids ?_ ?_) ?_
  · invs
  · rintro s x - hx ⟨h1, h2, h3, h4⟩
    gives
    all_goals first
      | (refine .matchTag (.childArms ha fun v hv => .ok ?_) hx (.unexpected _ _); invs)
      | invs
  · rintro s ⟨h1, h2, h3, h4⟩
    split
    · obtain ⟨a, e1, e2⟩ := hnum
      refine .ok ⟨h1, h2 _ ‹_›, h3, h4, a, ?_, e2⟩
      simp only [ArticleNumber.parse?, e1]
    · exact .err _

theorem Subitem10.gives (hL : L.Reads K) {e : Element} (he : Clean e) :
    Gives (Subitem10.parser e) (Subitem10.Keeps K) :=
  ItemOf.gives hL Gives.arms_nil (by decide) _ _ he

macro_rules
  | `(tactic| gives_leaf) => `(tactic| with_reducible exact Subitem10.gives (by assumption) (by clean))

theorem Subitem9.gives (hL : L.Reads K) {e : Element} (he : Clean e) :
    Gives (Subitem9.parser e) (Subitem9.Keeps K) :=
  ItemOf.gives hL (by gives) (by decide) _ _ he

macro_rules
  | `(tactic| gives_leaf) => `(tactic| with_reducible exact Subitem9.gives (by assumption) (by clean))

theorem Subitem8.gives (hL : L.Reads K) {e : Element} (he : Clean e) :
    Gives (Subitem8.parser e) (Subitem8.Keeps K) :=
  ItemOf.gives hL (by gives) (by decide) _ _ he

macro_rules
  | `(tactic| gives_leaf) => `(tactic| with_reducible exact Subitem8.gives (by assumption) (by clean))

theorem Subitem7.gives (hL : L.Reads K) {e : Element} (he : Clean e) :
    Gives (Subitem7.parser e) (Subitem7.Keeps K) :=
  ItemOf.gives hL (by gives) (by decide) _ _ he

macro_rules
  | `(tactic| gives_leaf) => `(tactic| with_reducible exact Subitem7.gives (by assumption) (by clean))

theorem Subitem6.gives (hL : L.Reads K) {e : Element} (he : Clean e) :
    Gives (Subitem6.parser e) (Subitem6.Keeps K) :=
  ItemOf.gives hL (by gives) (by decide) _ _ he

macro_rules
  | `(tactic| gives_leaf) => `(tactic| with_reducible exact Subitem6.gives (by assumption) (by clean))

theorem Subitem5.gives (hL : L.Reads K) {e : Element} (he : Clean e) :
    Gives (Subitem5.parser e) (Subitem5.Keeps K) :=
  ItemOf.gives hL (by gives) (by decide) _ _ he

macro_rules
  | `(tactic| gives_leaf) => `(tactic| with_reducible exact Subitem5.gives (by assumption) (by clean))

theorem Subitem4.gives (hL : L.Reads K) {e : Element} (he : Clean e) :
    Gives (Subitem4.parser e) (Subitem4.Keeps K) :=
  ItemOf.gives hL (by gives) (by decide) _ _ he

macro_rules
  | `(tactic| gives_leaf) => `(tactic| with_reducible exact Subitem4.gives (by assumption) (by clean))

theorem Subitem3.gives (hL : L.Reads K) {e : Element} (he : Clean e) :
    Gives (Subitem3.parser e) (Subitem3.Keeps K) :=
  ItemOf.gives hL (by gives) (by decide) _ _ he

macro_rules
  | `(tactic| gives_leaf) => `(tactic| with_reducible exact Subitem3.gives (by assumption) (by clean))

theorem Subitem2.gives (hL : L.Reads K) {e : Element} (he : Clean e) :
    Gives (Subitem2.parser e) (Subitem2.Keeps K) :=
  ItemOf.gives hL (by gives) (by decide) _ _ he

macro_rules
  | `(tactic| gives_leaf) => `(tactic| with_reducible exact Subitem2.gives (by assumption) (by clean))

theorem Subitem1.gives (hL : L.Reads K) {e : Element} (he : Clean e) :
    Gives (Subitem1.parser e) (Subitem1.Keeps K) :=
  ItemOf.gives hL (by gives) (by decide) _ _ he

macro_rules
  | `(tactic| gives_leaf) => `(tactic| with_reducible exact Subitem1.gives (by assumption) (by clean))

theorem Item.gives (hL : L.Reads K) {e : Element} (he : Clean e) :
    Gives (Item.parser e) (Item.Keeps K) :=
  ItemOf.gives hL (by gives) (by decide) _ _ he

macro_rules
  | `(tactic| gives_leaf) => `(tactic| with_reducible exact Item.gives (by assumption) (by clean))

theorem Class.gives (hL : L.Reads K) {e : Element} (he : Clean e) :
    Gives (Class.parser e) (Class.Keeps K) := by
  unfold Class.parser Class.step
  refine .ite (fun hn => ?_) fun _ => .err _
  refine .bind .any fun _ _ => ?_
  refine .bind (.forElems (fun s : Class.St L => OptKeeps (fun t => t.Keeps K) s.class_title ∧
    OptKeeps (fun t => t.Keeps K) s.class_sentence ∧ ∀ c ∈ s.children, Item.Keeps K c)
    he.kids ?_ ?_) ?_
  · invs
  · rintro s x - hx ⟨h1, h2, h3⟩
    gives <;> invs
  · rintro s ⟨h1, h2, h3⟩
    split
    · exact .ok ⟨h1, h2 _ ‹_›, h3⟩
    · exact .err _

macro_rules
  | `(tactic| gives_leaf) => `(tactic| with_reducible exact Class.gives (by assumption) (by clean))

theorem Paragraph.gives (hL : L.Reads K) {e : Element} (he : Clean e) :
    Gives (Paragraph.parser e) (Paragraph.Keeps K) := by
  unfold Paragraph.parser Paragraph.step
  refine .ite (fun hn => ?_) fun _ => .err _
  refine .bind (P := ArticleNumber.Keeps) ?_ fun num hnum => ?_
  · refine .bind (.numString he (by rw [hn]; decide)) fun s hs => ?_
    obtain ⟨a, e1, e2⟩ := hs
    rw [e1]
    exact .ok e2
  refine .bind .any fun _ _ => .bind .any fun _ _ => .bind .any fun _ _ => ?_
  refine .bind (.forElems (fun s : Paragraph.St L => OptKeeps (fun t => t.Keeps K) s.caption ∧
    s.paragraph_num.Keeps K ∧ (∀ v ∈ s.amend_provision, K.amend v) ∧
    (∀ v ∈ s.class_, v.Keeps K) ∧ (∀ v ∈ s.sentence, v.Keeps K) ∧
    (∀ v ∈ s.struct_list, v.Keeps K) ∧ ∀ v ∈ s.children, Item.Keeps K v) he.kids ?_ ?_) ?_
  · exact ⟨.none, Text.new_keeps, keeps_nil, keeps_nil, keeps_nil, keeps_nil, keeps_nil⟩
  · rintro s x - hx ⟨h1, h2, h3, h4, h5, h6, h7⟩
    have hr : Gives (readAll (Sentence.parser (L := L)) x.children) fun l => ∀ v ∈ l, v.Keeps K :=
      .readAll hx.kids fun y hy => Sentence.gives hL hy
    gives <;> invs
  · rintro s ⟨h1, h2, h3, h4, h5, h6, h7⟩
    exact .ok ⟨h1, h2, h3, h4, h5, h6, h7, hnum⟩

macro_rules
  | `(tactic| gives_leaf) => `(tactic| with_reducible exact Paragraph.gives (by assumption) (by clean))

theorem Article.head_gives (hL : L.Reads K) {c : List XMLNode} (hc : CleanKids c)
    (cap : Option (Caption L)) (hcap : OptKeeps (fun t => t.Keeps K) cap) (title : Text L)
    (htitle : title.Keeps K) :
    Gives (Article.head cap title c) fun h => OptKeeps (fun t => t.Keeps K) h.1 ∧ h.2.1.Keeps K ∧
      CleanKids h.2.2 ∧ ∃ x r, h.2.2 = Element.node x :: r := by
  induction c generalizing cap title with
  | nil => exact fun _ h => by cases h
  | cons x c ih =>
    have hc' : CleanKids c := hc.tail
    cases x with
    | element n a d =>
      have he : Clean ⟨n, a, d⟩ := hc.elem (by simp)
      unfold Article.head
      refine .ite (fun _ => .ok ⟨hcap, htitle, hc, ⟨n, a, d⟩, c, rfl⟩) fun _ => .ite (fun _ => ?_) fun _ => ?_
      · exact .bind (Caption.gives hL he) fun v hv => ih hc' _ (.some hv) _ htitle
      · exact .bind (Text.gives hL he.kids) fun v hv => ih hc' _ hcap _ hv
    | _ => exact ih hc' cap hcap title htitle

theorem Article.gives (hL : L.Reads K) {e : Element} (he : Clean e) :
    Gives (Article.parser e) (Article.Keeps K) := by
  unfold Article.parser
  refine .ite (fun hn => ?_) fun _ => .err _
  refine .bind (.numAttr he (by rw [hn]; decide)) fun num hnum => .bind .any fun _ _ => .bind .any fun _ _ => ?_
  refine .bind (Article.head_gives hL he.kids _ .none _ Text.new_keeps) fun h hh => ?_
  obtain ⟨cap, title, rest⟩ := h
  obtain ⟨g1, g2, g3, x, r, g4⟩ := hh
  dsimp only at g1 g2 g3 g4 ⊢
  subst g4
  have step : ∀ (s : Article.St L) (y : Element), Clean y → (∀ v ∈ s.paragraph, v.Keeps K) →
      OptKeeps (fun t => t.Keeps K) s.suppl_note →
      Gives (Article.step e s y) fun s => (∀ v ∈ s.paragraph, v.Keeps K) ∧
        OptKeeps (fun t => t.Keeps K) s.suppl_note ∧ (s.paragraph ≠ [] ∨ s.suppl_note ≠ none) := by
    intro s y hy h1 h2
    unfold Article.step
    gives
    · exact ⟨keeps_push h1 (by assumption), h2, .inl (by simp)⟩
    · exact ⟨h1, .some (by assumption), .inr (by simp)⟩
  have hx : Clean x := g3.elem (n := x.name) (a := x.attributes) (d := x.children) (by simp [Element.node])
  rw [forElems, foldRes, onElem_node]
  refine .bind (P := fun s : Article.St L => (∀ v ∈ s.paragraph, v.Keeps K) ∧
        OptKeeps (fun t => t.Keeps K) s.suppl_note ∧ (s.paragraph ≠ [] ∨ s.suppl_note ≠ none))
    (.bind (step {} x hx keeps_nil .none) fun s hs => ?_) fun s hs => .ok ⟨g1, g2, hs.1, hs.2.1, hnum, hs.2.2⟩
  exact .forElems (fun s : Article.St L => (∀ v ∈ s.paragraph, v.Keeps K) ∧
        OptKeeps (fun t => t.Keeps K) s.suppl_note ∧ (s.paragraph ≠ [] ∨ s.suppl_note ≠ none))
    g3.tail hs fun s y _ hy hs => step s y hy hs.1 hs.2.1

macro_rules
  | `(tactic| gives_leaf) => `(tactic| with_reducible exact Article.gives (by assumption) (by clean))

theorem HierOf.titleOf_gives (hL : L.Reads K) (titleTag : String) {e : Element} (he : Clean e) :
    Gives (HierOf.titleOf titleTag e) (Text.Keeps K) := by
  unfold HierOf.titleOf
  split
  · rename_i n a c r heq
    refine .ite (fun _ => ?_) fun _ => .err _
    have hc : Clean ⟨n, a, c⟩ := he.kids.elem (by rw [heq]; simp)
    exact Text.gives hL hc.kids
  · exact .err _

theorem HierOf.gives (hL : L.Reads K) {γ : Type} {C : γ → Prop}
    {arms : List (String × (Element → Res γ))} (ha : Gives.Arms arms C) {tag : String}
    (ht : tag ∈ numberedTags) (titleTag : String) {e : Element} (he : Clean e) :
    Gives (HierOf.parser (L := L) tag titleTag arms e) (HierOf.Keeps K C) := by
  unfold HierOf.parser
  refine .ite (fun hn => ?_) fun _ => .err _
  refine .bind (.numAttr he (hn ▸ ht)) fun num hnum => .bind .any fun _ _ => .bind .any fun _ _ => ?_
  exact .bind (HierOf.titleOf_gives hL titleTag he) fun t ht =>
    .bind (.readAll he.kids.tail fun x hx => .matchTag ha hx (.unexpected _ _)) fun l hl =>
    .ok ⟨ht, hl, hnum⟩

theorem Division.gives (hL : L.Reads K) {e : Element} (he : Clean e) :
    Gives (Division.parser e) (Division.Keeps K) :=
  HierOf.gives hL (by gives) (by decide) _ he

macro_rules
  | `(tactic| gives_leaf) => `(tactic| with_reducible exact Division.gives (by assumption) (by clean))

theorem SubsectionContents.arms_gives (hL : L.Reads K) :
    Gives.Arms (SubsectionContents.arms (L := L)) (SubsectionContents.Keeps K) := by
  unfold SubsectionContents.arms
  gives <;> assumption

theorem Subsection.gives (hL : L.Reads K) {e : Element} (he : Clean e) :
    Gives (Subsection.parser e) (Subsection.Keeps K) :=
  HierOf.gives hL (SubsectionContents.arms_gives hL) (by decide) _ he

macro_rules
  | `(tactic| gives_leaf) => `(tactic| with_reducible exact Subsection.gives (by assumption) (by clean))

theorem SectionContents.arms_gives (hL : L.Reads K) :
    Gives.Arms (SectionContents.arms (L := L)) (SectionContents.Keeps K) := by
  unfold SectionContents.arms
  gives <;> assumption

theorem Section.gives (hL : L.Reads K) {e : Element} (he : Clean e) :
    Gives (Section.parser e) (Section.Keeps K) :=
  HierOf.gives hL (SectionContents.arms_gives hL) (by decide) _ he

macro_rules
  | `(tactic| gives_leaf) => `(tactic| with_reducible exact Section.gives (by assumption) (by clean))

theorem ChapterContents.arms_gives (hL : L.Reads K) :
    Gives.Arms (ChapterContents.arms (L := L)) (ChapterContents.Keeps K) := by
  unfold ChapterContents.arms
  gives <;> assumption

theorem Chapter.gives (hL : L.Reads K) {e : Element} (he : Clean e) :
    Gives (Chapter.parser e) (Chapter.Keeps K) :=
  HierOf.gives hL (ChapterContents.arms_gives hL) (by decide) _ he

macro_rules
  | `(tactic| gives_leaf) => `(tactic| with_reducible exact Chapter.gives (by assumption) (by clean))

theorem PartContents.arms_gives (hL : L.Reads K) :
    Gives.Arms (PartContents.arms (L := L)) (PartContents.Keeps K) := by
  unfold PartContents.arms
  gives <;> assumption

theorem Part.gives (hL : L.Reads K) {e : Element} (he : Clean e) :
    Gives (Part.parser e) (Part.Keeps K) :=
  HierOf.gives hL (PartContents.arms_gives hL) (by decide) _ he

macro_rules
  | `(tactic| gives_leaf) => `(tactic| with_reducible exact Part.gives (by assumption) (by clean))

end JLaw
