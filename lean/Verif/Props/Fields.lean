import Verif.Props.Num
import Verif.Props.RoundTrip

/-!
# C33, C37: attributes

What the flags of the elements and the header of a law are, in terms of the attributes of the
element. The names are spelt out here; nothing is taken from the tables of the model.
-/

namespace JLaw

/-! ## C33: flags -/

/-- The flag `k` of `e` is `b`: absent and false, or spelt out. -/
def FlagIs (e : Element) (k : String) (b : Bool) : Prop :=
  (e.attributes.get k = none ∧ b = false) ∨ (e.attributes.get k = some "true" ∧ b = true) ∨
    (e.attributes.get k = some "false" ∧ b = false)

/-- Every value read by `p` has the flag `k` of the element in `field`. -/
def ReadsFlag {α : Type} (p : Element → Res α) (k : String) (field : α → Bool) : Prop :=
  ∀ e v, p e = .ok v → FlagIs e k (field v)

/-- Adding the attribute `k` with the value `true` or `false` to an element without it changes
what is read in one field only, and leaves every failure as it is. -/
def FlagOnly {α : Type} (p : Element → Res α) (k : String) (set : α → Bool → α) : Prop :=
  ∀ (t : String) (a : Attrs) (c : List XMLNode) (b : Bool), a.get k = none →
    p ⟨t, a.insert k (if b then "true" else "false"), c⟩ =
      (p ⟨t, a, c⟩).bind fun v => .ok (set v b)

/-- C33, the failing half, in general: any other value of the attribute makes reading fail. -/
theorem ReadsFlag.rejects {α : Type} {p : Element → Res α} {k : String} {field : α → Bool}
    (h : ReadsFlag p k field) (e : Element) (s : String) (hs : e.attributes.get k = some s)
    (h1 : s ≠ "true") (h2 : s ≠ "false") : ∀ v, p e ≠ .ok v := by
  intro v hv
  rcases h e v hv with h | h | h
  · rw [h.1] at hs; cases hs
  · rw [h.1] at hs; cases hs; exact h1 rfl
  · rw [h.1] at hs; cases hs; exact h2 rfl

theorem getBool_flag {e : Element} {k : String} {b : Bool} (h : getBool e k = .ok b) :
    FlagIs e k b := by
  unfold getBool getAttributeOptWithParse at h
  unfold FlagIs
  cases hg : e.attributes.get k with
  | none => rw [hg] at h; cases h; simp
  | some s =>
    rw [hg] at h
    simp only [parseBool] at h
    by_cases h1 : s = "true"
    · subst h1; cases h; simp
    · by_cases h2 : s = "false"
      · subst h2; cases h; simp
      · simp [h1, h2] at h

theorem getBool_insert_self (t : String) (a : Attrs) (c : List XMLNode) (k : String) (b : Bool) :
    getBool ⟨t, a.insert k (if b then "true" else "false"), c⟩ k = .ok b := by
  unfold getBool getAttributeOptWithParse
  cases b <;> simp [parseBool]

theorem getBool_none {t : String} {a : Attrs} {c : List XMLNode} {k : String} (h : a.get k = none) :
    getBool ⟨t, a, c⟩ k = .ok false := by
  simp [getBool, getAttributeOptWithParse, h]

theorem getBool_insert_ne {t : String} {a : Attrs} {c : List XMLNode} {k k' s : String}
    (h : k ≠ k') : getBool ⟨t, a.insert k s, c⟩ k' = getBool ⟨t, a, c⟩ k' := by
  simp [getBool, getAttributeOptWithParse, h]

theorem getOpt_insert_ne {α : Type} {f : String → Option α} {t : String} {a : Attrs}
    {c : List XMLNode} {k k' s : String} (h : k ≠ k') :
    getAttributeOptWithParse f ⟨t, a.insert k s, c⟩ k' =
      getAttributeOptWithParse f ⟨t, a, c⟩ k' := by
  simp [getAttributeOptWithParse, h]

theorem getWith_insert_ne {α : Type} {f : String → Option α} {t : String} {a : Attrs}
    {c : List XMLNode} {k k' s : String} (h : k ≠ k') :
    getAttributeWithParse f ⟨t, a.insert k s, c⟩ k' = getAttributeWithParse f ⟨t, a, c⟩ k' := by
  simp [getAttributeWithParse, h]

theorem numAttr_insert_ne {t : String} {a : Attrs} {c : List XMLNode} {k s : String}
    (h : k ≠ "Num") : numAttr ⟨t, a.insert k s, c⟩ = numAttr ⟨t, a, c⟩ := by
  simp [numAttr, getAttribute, h]

theorem bind_congr_ok {α β γ : Type} {r : Res α} {f : α → Res γ} {g : α → Res β}
    {h : β → Res γ} (hf : ∀ x, f x = (g x).bind h) : r.bind f = (r.bind g).bind h := by
  rw [Res.bind_assoc]
  exact congrArg r.bind (funext hf)

theorem readsFlag_item_Delete {L : Lvl} {γ : Type} {tag titleTag sentTag : String}
    {arms : List (String × (Element → Res γ))} : ReadsFlag (ItemOf.parser (L := L) tag titleTag sentTag arms) "Delete" (·.delete) := by
  intro e v h
  have h := (ite_eq_ok h).2
  obtain ⟨_, h1, h⟩ := Res.bind_eq_ok.1 h
  obtain ⟨_, h2, h⟩ := Res.bind_eq_ok.1 h
  obtain ⟨_, h3, h⟩ := Res.bind_eq_ok.1 h
  obtain ⟨s, h4, h⟩ := Res.bind_eq_ok.1 h
  split at h
  · cases h; exact getBool_flag h2
  · cases h

theorem readsFlag_hier_Delete {L : Lvl} {γ : Type} {tag titleTag : String}
    {arms : List (String × (Element → Res γ))} : ReadsFlag (HierOf.parser (L := L) tag titleTag arms) "Delete" (·.delete) := by
  intro e v h
  have h := (ite_eq_ok h).2
  obtain ⟨_, h1, h⟩ := Res.bind_eq_ok.1 h
  obtain ⟨_, h2, h⟩ := Res.bind_eq_ok.1 h
  obtain ⟨_, h3, h⟩ := Res.bind_eq_ok.1 h
  obtain ⟨_, h4, h⟩ := Res.bind_eq_ok.1 h
  obtain ⟨_, h5, h⟩ := Res.bind_eq_ok.1 h
  cases h; exact getBool_flag h2

theorem readsFlag_article_Delete {L : Lvl} : ReadsFlag (Article.parser (L := L)) "Delete" (·.delete) := by
  intro e v h
  have h := (ite_eq_ok h).2
  obtain ⟨_, h1, h⟩ := Res.bind_eq_ok.1 h
  obtain ⟨_, h2, h⟩ := Res.bind_eq_ok.1 h
  obtain ⟨_, h3, h⟩ := Res.bind_eq_ok.1 h
  obtain ⟨_, h4, h⟩ := Res.bind_eq_ok.1 h
  obtain ⟨_, h5, h⟩ := Res.bind_eq_ok.1 h
  cases h; exact getBool_flag h2

theorem readsFlag_item_Hide {L : Lvl} {γ : Type} {tag titleTag sentTag : String}
    {arms : List (String × (Element → Res γ))} : ReadsFlag (ItemOf.parser (L := L) tag titleTag sentTag arms) "Hide" (·.hide) := by
  intro e v h
  have h := (ite_eq_ok h).2
  obtain ⟨_, h1, h⟩ := Res.bind_eq_ok.1 h
  obtain ⟨_, h2, h⟩ := Res.bind_eq_ok.1 h
  obtain ⟨_, h3, h⟩ := Res.bind_eq_ok.1 h
  obtain ⟨s, h4, h⟩ := Res.bind_eq_ok.1 h
  split at h
  · cases h; exact getBool_flag h3
  · cases h

theorem readsFlag_hier_Hide {L : Lvl} {γ : Type} {tag titleTag : String}
    {arms : List (String × (Element → Res γ))} : ReadsFlag (HierOf.parser (L := L) tag titleTag arms) "Hide" (·.hide) := by
  intro e v h
  have h := (ite_eq_ok h).2
  obtain ⟨_, h1, h⟩ := Res.bind_eq_ok.1 h
  obtain ⟨_, h2, h⟩ := Res.bind_eq_ok.1 h
  obtain ⟨_, h3, h⟩ := Res.bind_eq_ok.1 h
  obtain ⟨_, h4, h⟩ := Res.bind_eq_ok.1 h
  obtain ⟨_, h5, h⟩ := Res.bind_eq_ok.1 h
  cases h; exact getBool_flag h3

theorem readsFlag_article_Hide {L : Lvl} : ReadsFlag (Article.parser (L := L)) "Hide" (·.hide) := by
  intro e v h
  have h := (ite_eq_ok h).2
  obtain ⟨_, h1, h⟩ := Res.bind_eq_ok.1 h
  obtain ⟨_, h2, h⟩ := Res.bind_eq_ok.1 h
  obtain ⟨_, h3, h⟩ := Res.bind_eq_ok.1 h
  obtain ⟨_, h4, h⟩ := Res.bind_eq_ok.1 h
  obtain ⟨_, h5, h⟩ := Res.bind_eq_ok.1 h
  cases h; exact getBool_flag h3

theorem readsFlag_toc_Delete {L : Lvl} {γ : Type} {tag titleTag : String}
    {arms : List (String × (Element → Res γ))} : ReadsFlag (TOCOf.parser (L := L) tag titleTag arms) "Delete" (·.delete) := by
  intro e v h
  have h := (ite_eq_ok h).2
  obtain ⟨_, h1, h⟩ := Res.bind_eq_ok.1 h
  obtain ⟨_, h2, h⟩ := Res.bind_eq_ok.1 h
  obtain ⟨_, h3, h⟩ := Res.bind_eq_ok.1 h
  cases h; exact getBool_flag h2

theorem readsFlag_tOCArticle_Delete {L : Lvl} : ReadsFlag (TOCArticle.parser (L := L)) "Delete" (·.delete) := by
  intro e v h
  have h := (ite_eq_ok h).2
  obtain ⟨_, h1, h⟩ := Res.bind_eq_ok.1 h
  obtain ⟨_, h2, h⟩ := Res.bind_eq_ok.1 h
  obtain ⟨_, h3, h⟩ := Res.bind_eq_ok.1 h
  split at h
  · cases h; exact getBool_flag h2
  · cases h

theorem readsFlag_paragraph_OldStyle {L : Lvl} : ReadsFlag (Paragraph.parser (L := L)) "OldStyle" (·.old_style) := by
  intro e v h
  have h := (ite_eq_ok h).2
  obtain ⟨_, h1, h⟩ := Res.bind_eq_ok.1 h
  obtain ⟨_, h2, h⟩ := Res.bind_eq_ok.1 h
  obtain ⟨_, h3, h⟩ := Res.bind_eq_ok.1 h
  obtain ⟨_, h4, h⟩ := Res.bind_eq_ok.1 h
  obtain ⟨_, h5, h⟩ := Res.bind_eq_ok.1 h
  cases h; exact getBool_flag h2

theorem readsFlag_paragraph_OldNum {L : Lvl} : ReadsFlag (Paragraph.parser (L := L)) "OldNum" (·.old_num) := by
  intro e v h
  have h := (ite_eq_ok h).2
  obtain ⟨_, h1, h⟩ := Res.bind_eq_ok.1 h
  obtain ⟨_, h2, h⟩ := Res.bind_eq_ok.1 h
  obtain ⟨_, h3, h⟩ := Res.bind_eq_ok.1 h
  obtain ⟨_, h4, h⟩ := Res.bind_eq_ok.1 h
  obtain ⟨_, h5, h⟩ := Res.bind_eq_ok.1 h
  cases h; exact getBool_flag h3

theorem readsFlag_paragraph_Hide {L : Lvl} : ReadsFlag (Paragraph.parser (L := L)) "Hide" (·.hide) := by
  intro e v h
  have h := (ite_eq_ok h).2
  obtain ⟨_, h1, h⟩ := Res.bind_eq_ok.1 h
  obtain ⟨_, h2, h⟩ := Res.bind_eq_ok.1 h
  obtain ⟨_, h3, h⟩ := Res.bind_eq_ok.1 h
  obtain ⟨_, h4, h⟩ := Res.bind_eq_ok.1 h
  obtain ⟨_, h5, h⟩ := Res.bind_eq_ok.1 h
  cases h; exact getBool_flag h4

theorem readsFlag_remarksLabel_LineBreak {L : Lvl} : ReadsFlag (RemarksLabel.parser (L := L)) "LineBreak" (·.line_break) := by
  intro e v h
  have h := (ite_eq_ok h).2
  obtain ⟨_, h1, h⟩ := Res.bind_eq_ok.1 h
  obtain ⟨_, h2, h⟩ := Res.bind_eq_ok.1 h
  cases h; exact getBool_flag h1

theorem readsFlag_column_LineBreak {L : Lvl} : ReadsFlag (Column.parser (L := L)) "LineBreak" (·.line_break) := by
  intro e v h
  have h := (ite_eq_ok h).2
  obtain ⟨_, h1, h⟩ := Res.bind_eq_ok.1 h
  obtain ⟨_, h2, h⟩ := Res.bind_eq_ok.1 h
  obtain ⟨_, h3, h⟩ := Res.bind_eq_ok.1 h
  cases h; exact getBool_flag h2

/-- Compares two runs of a reader on elements that differ in the flag `k` only. -/
macro "flag_only " h:ident : tactic => `(tactic|
  (simp only [getBool_insert_self, getBool_none $h]
   split
   · repeat' first
       | rfl
       | rw [numAttr_insert_ne (by decide)]
       | rw [getWith_insert_ne (by decide)]
       | rw [getOpt_insert_ne (by decide)]
       | rw [getBool_insert_ne (by decide)]
       | (refine bind_congr_ok fun _ => ?_)
       | simp only [Res.bind_ok, Attrs.get_insert, String.reduceEq, if_false]
       | (split <;> rfl)
   · rfl))

theorem flagOnly_item_Delete {L : Lvl} {γ : Type} {tag titleTag sentTag : String}
    {arms : List (String × (Element → Res γ))} : FlagOnly (ItemOf.parser (L := L) tag titleTag sentTag arms) "Delete"
    (fun v b => { v with delete := b }) := by
  intro t a c b h
  unfold ItemOf.parser
  flag_only h

theorem flagOnly_hier_Delete {L : Lvl} {γ : Type} {tag titleTag : String}
    {arms : List (String × (Element → Res γ))} : FlagOnly (HierOf.parser (L := L) tag titleTag arms) "Delete"
    (fun v b => { v with delete := b }) := by
  intro t a c b h
  unfold HierOf.parser
  flag_only h

theorem flagOnly_article_Delete {L : Lvl} : FlagOnly (Article.parser (L := L)) "Delete"
    (fun v b => { v with delete := b }) := by
  intro t a c b h
  unfold Article.parser
  flag_only h

theorem flagOnly_item_Hide {L : Lvl} {γ : Type} {tag titleTag sentTag : String}
    {arms : List (String × (Element → Res γ))} : FlagOnly (ItemOf.parser (L := L) tag titleTag sentTag arms) "Hide"
    (fun v b => { v with hide := b }) := by
  intro t a c b h
  unfold ItemOf.parser
  flag_only h

theorem flagOnly_hier_Hide {L : Lvl} {γ : Type} {tag titleTag : String}
    {arms : List (String × (Element → Res γ))} : FlagOnly (HierOf.parser (L := L) tag titleTag arms) "Hide"
    (fun v b => { v with hide := b }) := by
  intro t a c b h
  unfold HierOf.parser
  flag_only h

theorem flagOnly_article_Hide {L : Lvl} : FlagOnly (Article.parser (L := L)) "Hide"
    (fun v b => { v with hide := b }) := by
  intro t a c b h
  unfold Article.parser
  flag_only h

theorem flagOnly_toc_Delete {L : Lvl} {γ : Type} {tag titleTag : String}
    {arms : List (String × (Element → Res γ))} : FlagOnly (TOCOf.parser (L := L) tag titleTag arms) "Delete"
    (fun v b => { v with delete := b }) := by
  intro t a c b h
  unfold TOCOf.parser
  flag_only h

theorem flagOnly_tOCArticle_Delete {L : Lvl} : FlagOnly (TOCArticle.parser (L := L)) "Delete"
    (fun v b => { v with delete := b }) := by
  intro t a c b h
  unfold TOCArticle.parser
  flag_only h

theorem flagOnly_paragraph_OldStyle {L : Lvl} : FlagOnly (Paragraph.parser (L := L)) "OldStyle"
    (fun v b => { v with old_style := b }) := by
  intro t a c b h
  unfold Paragraph.parser
  flag_only h

theorem flagOnly_paragraph_OldNum {L : Lvl} : FlagOnly (Paragraph.parser (L := L)) "OldNum"
    (fun v b => { v with old_num := b }) := by
  intro t a c b h
  unfold Paragraph.parser
  flag_only h

theorem flagOnly_paragraph_Hide {L : Lvl} : FlagOnly (Paragraph.parser (L := L)) "Hide"
    (fun v b => { v with hide := b }) := by
  intro t a c b h
  unfold Paragraph.parser
  flag_only h

theorem flagOnly_remarksLabel_LineBreak {L : Lvl} : FlagOnly (RemarksLabel.parser (L := L)) "LineBreak"
    (fun v b => { v with line_break := b }) := by
  intro t a c b h
  unfold RemarksLabel.parser
  flag_only h

theorem flagOnly_column_LineBreak {L : Lvl} : FlagOnly (Column.parser (L := L)) "LineBreak"
    (fun v b => { v with line_break := b }) := by
  intro t a c b h
  unfold Column.parser
  flag_only h

/-- C33 for items and subitems: the value of every flag. -/
theorem C33_items (n : Nat) :
    ReadsFlag (Item.parser (L := lvl n)) "Delete" (·.delete) ∧
    ReadsFlag (Item.parser (L := lvl n)) "Hide" (·.hide) ∧
    ReadsFlag (Subitem1.parser (L := lvl n)) "Delete" (·.delete) ∧
    ReadsFlag (Subitem1.parser (L := lvl n)) "Hide" (·.hide) ∧
    ReadsFlag (Subitem2.parser (L := lvl n)) "Delete" (·.delete) ∧
    ReadsFlag (Subitem2.parser (L := lvl n)) "Hide" (·.hide) ∧
    ReadsFlag (Subitem3.parser (L := lvl n)) "Delete" (·.delete) ∧
    ReadsFlag (Subitem3.parser (L := lvl n)) "Hide" (·.hide) ∧
    ReadsFlag (Subitem4.parser (L := lvl n)) "Delete" (·.delete) ∧
    ReadsFlag (Subitem4.parser (L := lvl n)) "Hide" (·.hide) ∧
    ReadsFlag (Subitem5.parser (L := lvl n)) "Delete" (·.delete) ∧
    ReadsFlag (Subitem5.parser (L := lvl n)) "Hide" (·.hide) ∧
    ReadsFlag (Subitem6.parser (L := lvl n)) "Delete" (·.delete) ∧
    ReadsFlag (Subitem6.parser (L := lvl n)) "Hide" (·.hide) ∧
    ReadsFlag (Subitem7.parser (L := lvl n)) "Delete" (·.delete) ∧
    ReadsFlag (Subitem7.parser (L := lvl n)) "Hide" (·.hide) ∧
    ReadsFlag (Subitem8.parser (L := lvl n)) "Delete" (·.delete) ∧
    ReadsFlag (Subitem8.parser (L := lvl n)) "Hide" (·.hide) ∧
    ReadsFlag (Subitem9.parser (L := lvl n)) "Delete" (·.delete) ∧
    ReadsFlag (Subitem9.parser (L := lvl n)) "Hide" (·.hide) ∧
    ReadsFlag (Subitem10.parser (L := lvl n)) "Delete" (·.delete) ∧
    ReadsFlag (Subitem10.parser (L := lvl n)) "Hide" (·.hide) :=
  ⟨readsFlag_item_Delete, readsFlag_item_Hide, readsFlag_item_Delete, readsFlag_item_Hide,
   readsFlag_item_Delete, readsFlag_item_Hide, readsFlag_item_Delete, readsFlag_item_Hide,
   readsFlag_item_Delete, readsFlag_item_Hide, readsFlag_item_Delete, readsFlag_item_Hide,
   readsFlag_item_Delete, readsFlag_item_Hide, readsFlag_item_Delete, readsFlag_item_Hide,
   readsFlag_item_Delete, readsFlag_item_Hide, readsFlag_item_Delete, readsFlag_item_Hide,
   readsFlag_item_Delete, readsFlag_item_Hide⟩

/-- C33 for items and subitems: a flag changes one field and nothing else. -/
theorem C33_items_only (n : Nat) :
    FlagOnly (Item.parser (L := lvl n)) "Delete" (fun v b => { v with delete := b }) ∧
    FlagOnly (Item.parser (L := lvl n)) "Hide" (fun v b => { v with hide := b }) ∧
    FlagOnly (Subitem1.parser (L := lvl n)) "Delete" (fun v b => { v with delete := b }) ∧
    FlagOnly (Subitem1.parser (L := lvl n)) "Hide" (fun v b => { v with hide := b }) ∧
    FlagOnly (Subitem2.parser (L := lvl n)) "Delete" (fun v b => { v with delete := b }) ∧
    FlagOnly (Subitem2.parser (L := lvl n)) "Hide" (fun v b => { v with hide := b }) ∧
    FlagOnly (Subitem3.parser (L := lvl n)) "Delete" (fun v b => { v with delete := b }) ∧
    FlagOnly (Subitem3.parser (L := lvl n)) "Hide" (fun v b => { v with hide := b }) ∧
    FlagOnly (Subitem4.parser (L := lvl n)) "Delete" (fun v b => { v with delete := b }) ∧
    FlagOnly (Subitem4.parser (L := lvl n)) "Hide" (fun v b => { v with hide := b }) ∧
    FlagOnly (Subitem5.parser (L := lvl n)) "Delete" (fun v b => { v with delete := b }) ∧
    FlagOnly (Subitem5.parser (L := lvl n)) "Hide" (fun v b => { v with hide := b }) ∧
    FlagOnly (Subitem6.parser (L := lvl n)) "Delete" (fun v b => { v with delete := b }) ∧
    FlagOnly (Subitem6.parser (L := lvl n)) "Hide" (fun v b => { v with hide := b }) ∧
    FlagOnly (Subitem7.parser (L := lvl n)) "Delete" (fun v b => { v with delete := b }) ∧
    FlagOnly (Subitem7.parser (L := lvl n)) "Hide" (fun v b => { v with hide := b }) ∧
    FlagOnly (Subitem8.parser (L := lvl n)) "Delete" (fun v b => { v with delete := b }) ∧
    FlagOnly (Subitem8.parser (L := lvl n)) "Hide" (fun v b => { v with hide := b }) ∧
    FlagOnly (Subitem9.parser (L := lvl n)) "Delete" (fun v b => { v with delete := b }) ∧
    FlagOnly (Subitem9.parser (L := lvl n)) "Hide" (fun v b => { v with hide := b }) ∧
    FlagOnly (Subitem10.parser (L := lvl n)) "Delete" (fun v b => { v with delete := b }) ∧
    FlagOnly (Subitem10.parser (L := lvl n)) "Hide" (fun v b => { v with hide := b }) :=
  ⟨flagOnly_item_Delete, flagOnly_item_Hide, flagOnly_item_Delete, flagOnly_item_Hide,
   flagOnly_item_Delete, flagOnly_item_Hide, flagOnly_item_Delete, flagOnly_item_Hide,
   flagOnly_item_Delete, flagOnly_item_Hide, flagOnly_item_Delete, flagOnly_item_Hide,
   flagOnly_item_Delete, flagOnly_item_Hide, flagOnly_item_Delete, flagOnly_item_Hide,
   flagOnly_item_Delete, flagOnly_item_Hide, flagOnly_item_Delete, flagOnly_item_Hide,
   flagOnly_item_Delete, flagOnly_item_Hide⟩

/-- C33 for articles and the levels above them: the value of every flag. -/
theorem C33_articles (n : Nat) :
    ReadsFlag (Part.parser (L := lvl n)) "Delete" (·.delete) ∧
    ReadsFlag (Part.parser (L := lvl n)) "Hide" (·.hide) ∧
    ReadsFlag (Chapter.parser (L := lvl n)) "Delete" (·.delete) ∧
    ReadsFlag (Chapter.parser (L := lvl n)) "Hide" (·.hide) ∧
    ReadsFlag (Section.parser (L := lvl n)) "Delete" (·.delete) ∧
    ReadsFlag (Section.parser (L := lvl n)) "Hide" (·.hide) ∧
    ReadsFlag (Subsection.parser (L := lvl n)) "Delete" (·.delete) ∧
    ReadsFlag (Subsection.parser (L := lvl n)) "Hide" (·.hide) ∧
    ReadsFlag (Division.parser (L := lvl n)) "Delete" (·.delete) ∧
    ReadsFlag (Division.parser (L := lvl n)) "Hide" (·.hide) ∧
    ReadsFlag (Article.parser (L := lvl n)) "Delete" (·.delete) ∧
    ReadsFlag (Article.parser (L := lvl n)) "Hide" (·.hide) :=
  ⟨readsFlag_hier_Delete, readsFlag_hier_Hide, readsFlag_hier_Delete, readsFlag_hier_Hide,
   readsFlag_hier_Delete, readsFlag_hier_Hide, readsFlag_hier_Delete, readsFlag_hier_Hide,
   readsFlag_hier_Delete, readsFlag_hier_Hide, readsFlag_article_Delete, readsFlag_article_Hide⟩

/-- C33 for articles and the levels above them: a flag changes one field and nothing else. -/
theorem C33_articles_only (n : Nat) :
    FlagOnly (Part.parser (L := lvl n)) "Delete" (fun v b => { v with delete := b }) ∧
    FlagOnly (Part.parser (L := lvl n)) "Hide" (fun v b => { v with hide := b }) ∧
    FlagOnly (Chapter.parser (L := lvl n)) "Delete" (fun v b => { v with delete := b }) ∧
    FlagOnly (Chapter.parser (L := lvl n)) "Hide" (fun v b => { v with hide := b }) ∧
    FlagOnly (Section.parser (L := lvl n)) "Delete" (fun v b => { v with delete := b }) ∧
    FlagOnly (Section.parser (L := lvl n)) "Hide" (fun v b => { v with hide := b }) ∧
    FlagOnly (Subsection.parser (L := lvl n)) "Delete" (fun v b => { v with delete := b }) ∧
    FlagOnly (Subsection.parser (L := lvl n)) "Hide" (fun v b => { v with hide := b }) ∧
    FlagOnly (Division.parser (L := lvl n)) "Delete" (fun v b => { v with delete := b }) ∧
    FlagOnly (Division.parser (L := lvl n)) "Hide" (fun v b => { v with hide := b }) ∧
    FlagOnly (Article.parser (L := lvl n)) "Delete" (fun v b => { v with delete := b }) ∧
    FlagOnly (Article.parser (L := lvl n)) "Hide" (fun v b => { v with hide := b }) :=
  ⟨flagOnly_hier_Delete, flagOnly_hier_Hide, flagOnly_hier_Delete, flagOnly_hier_Hide,
   flagOnly_hier_Delete, flagOnly_hier_Hide, flagOnly_hier_Delete, flagOnly_hier_Hide,
   flagOnly_hier_Delete, flagOnly_hier_Hide, flagOnly_article_Delete, flagOnly_article_Hide⟩

/-- C33 for tables of contents: the value of every flag. -/
theorem C33_toc (n : Nat) :
    ReadsFlag (TOCPart.parser (L := lvl n)) "Delete" (·.delete) ∧
    ReadsFlag (TOCChapter.parser (L := lvl n)) "Delete" (·.delete) ∧
    ReadsFlag (TOCSection.parser (L := lvl n)) "Delete" (·.delete) ∧
    ReadsFlag (TOCSubsection.parser (L := lvl n)) "Delete" (·.delete) ∧
    ReadsFlag (TOCDivision.parser (L := lvl n)) "Delete" (·.delete) ∧
    ReadsFlag (TOCArticle.parser (L := lvl n)) "Delete" (·.delete) :=
  ⟨readsFlag_toc_Delete, readsFlag_toc_Delete, readsFlag_toc_Delete, readsFlag_toc_Delete,
   readsFlag_toc_Delete, readsFlag_tOCArticle_Delete⟩

/-- C33 for tables of contents: a flag changes one field and nothing else. -/
theorem C33_toc_only (n : Nat) :
    FlagOnly (TOCPart.parser (L := lvl n)) "Delete" (fun v b => { v with delete := b }) ∧
    FlagOnly (TOCChapter.parser (L := lvl n)) "Delete" (fun v b => { v with delete := b }) ∧
    FlagOnly (TOCSection.parser (L := lvl n)) "Delete" (fun v b => { v with delete := b }) ∧
    FlagOnly (TOCSubsection.parser (L := lvl n)) "Delete" (fun v b => { v with delete := b }) ∧
    FlagOnly (TOCDivision.parser (L := lvl n)) "Delete" (fun v b => { v with delete := b }) ∧
    FlagOnly (TOCArticle.parser (L := lvl n)) "Delete" (fun v b => { v with delete := b }) :=
  ⟨flagOnly_toc_Delete, flagOnly_toc_Delete, flagOnly_toc_Delete, flagOnly_toc_Delete,
   flagOnly_toc_Delete, flagOnly_tOCArticle_Delete⟩

/-- C33 for paragraphs, labels of remarks and columns: the value of every flag. -/
theorem C33_others (n : Nat) :
    ReadsFlag (Paragraph.parser (L := lvl n)) "OldStyle" (·.old_style) ∧
    ReadsFlag (Paragraph.parser (L := lvl n)) "OldNum" (·.old_num) ∧
    ReadsFlag (Paragraph.parser (L := lvl n)) "Hide" (·.hide) ∧
    ReadsFlag (RemarksLabel.parser (L := lvl n)) "LineBreak" (·.line_break) ∧
    ReadsFlag (Column.parser (L := lvl n)) "LineBreak" (·.line_break) :=
  ⟨readsFlag_paragraph_OldStyle, readsFlag_paragraph_OldNum, readsFlag_paragraph_Hide,
   readsFlag_remarksLabel_LineBreak, readsFlag_column_LineBreak⟩

/-- C33 for paragraphs, labels of remarks and columns: a flag changes one field and nothing else. -/
theorem C33_others_only (n : Nat) :
    FlagOnly (Paragraph.parser (L := lvl n)) "OldStyle" (fun v b => { v with old_style := b }) ∧
    FlagOnly (Paragraph.parser (L := lvl n)) "OldNum" (fun v b => { v with old_num := b }) ∧
    FlagOnly (Paragraph.parser (L := lvl n)) "Hide" (fun v b => { v with hide := b }) ∧
    FlagOnly (RemarksLabel.parser (L := lvl n)) "LineBreak" (fun v b => { v with line_break := b }) ∧
    FlagOnly (Column.parser (L := lvl n)) "LineBreak" (fun v b => { v with line_break := b }) :=
  ⟨flagOnly_paragraph_OldStyle, flagOnly_paragraph_OldNum, flagOnly_paragraph_Hide,
   flagOnly_remarksLabel_LineBreak, flagOnly_column_LineBreak⟩

/-- `Delete="yes"` on an article. -/
example (c : List XMLNode) : ∀ v, Article.parser (L := lvl 2)
    ⟨"Article", [("Num", "1"), ("Delete", "yes")], c⟩ ≠ .ok v :=
  ReadsFlag.rejects readsFlag_article_Delete _ "yes" rfl (by decide) (by decide)

/-- A deleted article is read as the article without the attribute, up to the flag. -/
example : ∃ v : Article (lvl 1), Article.parser sampleArticle.toXml = .ok v ∧
    Article.parser ⟨"Article", sampleArticle.toXml.attributes.insert "Hide" "true",
      sampleArticle.toXml.children⟩ = .ok { v with hide := true } := by
  have h := ((lvl_sound 1) |> fun h => (Article.round_trip h sampleArticle).2 sampleArticle_keeps)
  exact ⟨_, h, (flagOnly_article_Hide "Article" _ _ true rfl).trans (by
    rw [show (⟨"Article", sampleArticle.toXml.attributes, sampleArticle.toXml.children⟩ : Element) =
      sampleArticle.toXml from rfl, h]; rfl)⟩

/-! ## C37: the header of a law -/

/-- The concatenation of the text nodes in a list of nodes. -/
def textNodes (c : List XMLNode) : String :=
  (c.filterMap fun | .text s => some s | _ => none).foldr (· ++ ·) ""

/-- An attribute that is absent or empty stands for nothing, and otherwise for what `R` says. -/
def Maybe {α : Type} (R : List Char → α → Prop) : Option String → Option α → Prop
  | none, o => o = none
  | some s, o => (s = "" ∧ o = none) ∨ ∃ a, o = some a ∧ s ≠ "" ∧ R s.toList a

/-- The header of the law `v` is the one written in the attributes of `e`. -/
structure HeaderOf {L : Lvl} (e : Element) (v : Law L) : Prop where
  era : (e.attributes.get "Era", v.era) ∈ [(some "Meiji", Era.meiji), (some "Taisho", .taisho),
    (some "Showa", .showa), (some "Heisei", .heisei), (some "Reiwa", .reiwa)]
  year : ∃ s, e.attributes.get "Year" = some s ∧ Spec.IsLiteral s.toList v.year
  num_given : ∃ s, e.attributes.get "Num" = some s
  num : Maybe Spec.Denotes (e.attributes.get "Num") v.num
  month : Maybe Spec.IsLiteral (e.attributes.get "PromulgateMonth") v.promulgate_month
  day : Maybe Spec.IsLiteral (e.attributes.get "PromulgateDay") v.promulgate_day
  law_type : (e.attributes.get "LawType", v.law_type) ∈ [
    (some "Constitution", LawType.constitution), (some "Act", .act),
    (some "CabinetOrder", .cabinetOrder), (some "ImperialOrder", .imperialOrder),
    (some "MinisterialOrdinance", .ministerialOrdinance), (some "Rule", .rule),
    (some "Misc", .misc)]
  lang : (e.attributes.get "Lang", v.lang) ∈ [(some "ja", Lang.ja), (some "en", .en)]

theorem era_iff (o : Option String) (x : Era) : Era.fromAttr o = some x ↔
    (o, x) ∈ [(some "Meiji", Era.meiji), (some "Taisho", .taisho),
      (some "Showa", .showa), (some "Heisei", .heisei), (some "Reiwa", .reiwa)] := by
  constructor
  · intro h
    unfold Era.fromAttr at h
    split at h <;> cases h <;> simp
  · intro h
    simp only [List.mem_cons, Prod.mk.injEq, List.not_mem_nil, or_false] at h
    rcases h with ⟨rfl, rfl⟩ | ⟨rfl, rfl⟩ | ⟨rfl, rfl⟩ | ⟨rfl, rfl⟩ | ⟨rfl, rfl⟩ <;> rfl

theorem lawType_iff (o : Option String) (x : LawType) : LawType.fromAttr o = some x ↔
    (o, x) ∈ [
      (some "Constitution", LawType.constitution), (some "Act", .act),
      (some "CabinetOrder", .cabinetOrder), (some "ImperialOrder", .imperialOrder),
      (some "MinisterialOrdinance", .ministerialOrdinance), (some "Rule", .rule),
      (some "Misc", .misc)] := by
  constructor
  · intro h
    unfold LawType.fromAttr at h
    split at h <;> cases h <;> simp
  · intro h
    simp only [List.mem_cons, Prod.mk.injEq, List.not_mem_nil, or_false] at h
    rcases h with ⟨rfl, rfl⟩ | ⟨rfl, rfl⟩ | ⟨rfl, rfl⟩ | ⟨rfl, rfl⟩ | ⟨rfl, rfl⟩ | ⟨rfl, rfl⟩ |
      ⟨rfl, rfl⟩ <;> rfl

theorem lang_iff (o : Option String) (x : Lang) : Lang.fromAttr o = some x ↔
    (o, x) ∈ [(some "ja", Lang.ja), (some "en", .en)] := by
  constructor
  · intro h
    unfold Lang.fromAttr at h
    split at h <;> cases h <;> simp
  · intro h
    simp only [List.mem_cons, Prod.mk.injEq, List.not_mem_nil, or_false] at h
    rcases h with ⟨rfl, rfl⟩ | ⟨rfl, rfl⟩ <;> rfl

theorem ofOption_eq_ok {α : Type} {x : Err} {o : Option α} {a : α} :
    Res.ofOption x o = .ok a ↔ o = some a := by
  cases o <;> simp [Res.ofOption]

theorem year_iff (e : Element) (k : String) (y : Usize) :
    getAttributeWithParse parseUsizeStr e k = .ok y ↔
      ∃ s, e.attributes.get k = some s ∧ Spec.IsLiteral s.toList y := by
  unfold getAttributeWithParse
  cases hg : e.attributes.get k with
  | none => simp
  | some s =>
    simp only [Option.some.injEq, exists_eq_left', ← parseUsize_iff]
    rw [show parseUsize s.toList = parseUsizeStr s from rfl]
    cases parseUsizeStr s <;> simp

theorem numOf_iff (e : Element) (o : Option ArticleNumber) : Law.numOf e = .ok o ↔
    (∃ s, e.attributes.get "Num" = some s) ∧
      Maybe Spec.Denotes (e.attributes.get "Num") o := by
  unfold Law.numOf
  cases hg : e.attributes.get "Num" with
  | none => simp [Res.unwrap]
  | some s =>
    simp only [Res.unwrap, Res.bind_ok, Maybe, Option.some.injEq, exists_eq', true_and]
    by_cases hs : s = ""
    · subst hs
      simp [eq_comm]
    · rw [if_neg hs]
      simp only [Res.bind_eq_ok, (C03_from_num_str_language s).1, Res.ok.injEq, hs, false_and,
        false_or, ne_eq, not_false_eq_true, true_and]
      constructor
      · rintro ⟨a, ha, rfl⟩; exact ⟨a, rfl, ha⟩
      · rintro ⟨a, rfl, ha⟩; exact ⟨a, ha, rfl⟩

theorem usizeOf_iff (e : Element) (k : String) (o : Option Usize) : Law.usizeOf e k = .ok o ↔
    Maybe Spec.IsLiteral (e.attributes.get k) o := by
  unfold Law.usizeOf
  cases hg : e.attributes.get k with
  | none => simp [Maybe, eq_comm]
  | some s =>
    simp only [Maybe]
    by_cases hs : s = ""
    · subst hs
      simp [eq_comm]
    · rw [if_neg hs]
      simp only [hs, false_and, false_or, ne_eq, not_false_eq_true, true_and, ← parseUsize_iff]
      rw [show parseUsize s.toList = parseUsizeStr s from rfl]
      cases parseUsizeStr s <;> simp [eq_comm]

theorem nodesText_eq (c : List XMLNode) : nodesText c = textNodes c := by
  induction c with
  | nil => rfl
  | cons x c ih =>
    cases x <;> simp [nodesText, textNodes, XMLNode.textOrEmpty, ih]

/-- C37: a `Law` element is read as `v` exactly when the header of `v` is what the attributes say,
the first child node is a `LawNum` element with the number of `v`, and the second child node is
an element read as the body of `v`. Any further nodes are ignored. -/
theorem C37_law_header (n : Nat) (e : Element) (v : Law (lvl n)) :
    Law.parser e = .ok v ↔ e.name = "Law" ∧ HeaderOf e v ∧
      ∃ a c b rest, e.children = .element "LawNum" a c :: b.node :: rest ∧
        v.law_num = textNodes c ∧ LawBody.parser b = .ok v.law_body := by
  constructor
  · intro h
    have ⟨hn, h⟩ := ite_eq_ok h
    obtain ⟨era, h1, h⟩ := Res.bind_eq_ok.1 h
    obtain ⟨year, h2, h⟩ := Res.bind_eq_ok.1 h
    obtain ⟨num, h3, h⟩ := Res.bind_eq_ok.1 h
    obtain ⟨month, h4, h⟩ := Res.bind_eq_ok.1 h
    obtain ⟨day, h5, h⟩ := Res.bind_eq_ok.1 h
    obtain ⟨ty, h6, h⟩ := Res.bind_eq_ok.1 h
    obtain ⟨lang, h7, h⟩ := Res.bind_eq_ok.1 h
    obtain ⟨ln, h8, h⟩ := Res.bind_eq_ok.1 h
    obtain ⟨b, h9, h⟩ := Res.bind_eq_ok.1 h
    obtain ⟨body, h10, h⟩ := Res.bind_eq_ok.1 h
    cases h
    refine ⟨hn, ⟨(era_iff _ _).1 (ofOption_eq_ok.1 h1), (year_iff _ _ _).1 h2,
      ((numOf_iff _ _).1 h3).1, ((numOf_iff _ _).1 h3).2, (usizeOf_iff _ _ _).1 h4,
      (usizeOf_iff _ _ _).1 h5, (lawType_iff _ _).1 (ofOption_eq_ok.1 h6),
      (lang_iff _ _).1 (ofOption_eq_ok.1 h7)⟩, ?_⟩
    unfold Law.lawNumOf at h8
    split at h8
    · next m a c rest hc =>
      split at h8
      · next hm =>
        subst hm
        cases h8
        unfold Law.bodyOf at h9
        rw [hc] at h9 ⊢
        split at h9
        · next x m' a' c' rest' hc' =>
          cases h9
          injection hc' with _ hc'
          exact ⟨a, c, _, rest', by rw [hc']; rfl, nodesText_eq c, h10⟩
        · cases h9
      · cases h8
    · cases h8
  · rintro ⟨hn, hh, a, c, b, rest, hc, ht, hb⟩
    unfold Law.parser
    rw [if_pos hn, ofOption_eq_ok.2 ((era_iff _ _).2 hh.era)]
    rw [Res.bind_ok, (year_iff _ _ _).2 hh.year]
    rw [Res.bind_ok, (numOf_iff _ _).2 ⟨hh.num_given, hh.num⟩]
    rw [Res.bind_ok, (usizeOf_iff _ _ _).2 hh.month]
    rw [Res.bind_ok, (usizeOf_iff _ _ _).2 hh.day]
    rw [Res.bind_ok, ofOption_eq_ok.2 ((lawType_iff _ _).2 hh.law_type)]
    rw [Res.bind_ok, ofOption_eq_ok.2 ((lang_iff _ _).2 hh.lang), Res.bind_ok]
    have h8 : Law.lawNumOf e = .ok v.law_num := by
      unfold Law.lawNumOf; rw [hc, ht, ← nodesText_eq]; rfl
    have h9 : Law.bodyOf e = .ok b := by unfold Law.bodyOf; rw [hc]; rfl
    rw [h8, Res.bind_ok, h9, Res.bind_ok, hb]
    rfl

/-- C37: names other than those in the tables are rejected. -/
theorem C37_unknown_names (n : Nat) (e : Element)
    (h : (∀ s ∈ ["Meiji", "Taisho", "Showa", "Heisei", "Reiwa"], e.attributes.get "Era" ≠ some s) ∨
      (∀ s ∈ ["Constitution", "Act", "CabinetOrder", "ImperialOrder", "MinisterialOrdinance",
        "Rule", "Misc"], e.attributes.get "LawType" ≠ some s) ∨
      (∀ s ∈ ["ja", "en"], e.attributes.get "Lang" ≠ some s)) :
    ∀ v, Law.parser (L := lvl n) e ≠ .ok v := by
  intro v hv
  have hh := ((C37_law_header n e v).1 hv).2.1
  rcases h with h | h | h
  · have := hh.era
    simp only [List.mem_cons, Prod.mk.injEq, List.not_mem_nil, or_false] at this h
    rcases this with h' | h' | h' | h' | h' <;> exact h _ (by simp) h'.1
  · have := hh.law_type
    simp only [List.mem_cons, Prod.mk.injEq, List.not_mem_nil, or_false] at this h
    rcases this with h' | h' | h' | h' | h' | h' | h' <;> exact h _ (by simp) h'.1
  · have := hh.lang
    simp only [List.mem_cons, Prod.mk.injEq, List.not_mem_nil, or_false] at this h
    rcases this with h' | h' <;> exact h _ (by simp) h'.1

/-- The sample law has the header in its attributes. -/
example : HeaderOf sampleLaw.toXml sampleLaw :=
  ((C37_law_header 1 _ _).1 ((Law.round_trip (lvl_sound 1) sampleLaw).2 sampleLaw_keeps)).2.1

/-- A law of an unknown era. -/
example (c : List XMLNode) : ∀ v, Law.parser (L := lvl 4)
    ⟨"Law", [("Era", "Keio"), ("Year", "3"), ("Num", ""), ("LawType", "Act"), ("Lang", "ja")], c⟩
      ≠ .ok v :=
  C37_unknown_names 4 _ (.inl (by simp [Attrs.get_cons]))

end JLaw
