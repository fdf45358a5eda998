import Verif.Reading.Struct

/-! # What readers may depend on: items, paragraphs, articles and the hierarchy above them -/

namespace JLaw

variable {L : Lvl} {P : Prop} {m : Nat}

theorem ItemOf.agree (hL : L.Agrees P m) {γ : Type} {arms : List (String × (Element → Res γ))}
    (ha : Agree.Arms P m arms) (tag titleTag sentTag : String) {e e' : Element} (he : Fine P m e e') :
    Agree P (ItemOf.parser (L := L) tag titleTag sentTag arms e) (ItemOf.parser tag titleTag sentTag arms e') := by
  unfold ItemOf.parser ItemOf.step
  agree
  split <;> agree

theorem Subitem10.agree (hL : L.Agrees P m) {e e' : Element} (he : Fine P m e e') :
    Agree P (Subitem10.parser (L := L) e) (Subitem10.parser e') :=
  ItemOf.agree hL Agree.arms_nil _ _ _ he

macro_rules
  | `(tactic| agree_leaf) => `(tactic| with_reducible exact Subitem10.agree (by assumption) (by fine!))

theorem Subitem9.agree (hL : L.Agrees P m) {e e' : Element} (he : Fine P m e e') :
    Agree P (Subitem9.parser (L := L) e) (Subitem9.parser e') :=
  ItemOf.agree hL (by agree) _ _ _ he

macro_rules
  | `(tactic| agree_leaf) => `(tactic| with_reducible exact Subitem9.agree (by assumption) (by fine!))

theorem Subitem8.agree (hL : L.Agrees P m) {e e' : Element} (he : Fine P m e e') :
    Agree P (Subitem8.parser (L := L) e) (Subitem8.parser e') :=
  ItemOf.agree hL (by agree) _ _ _ he

macro_rules
  | `(tactic| agree_leaf) => `(tactic| with_reducible exact Subitem8.agree (by assumption) (by fine!))

theorem Subitem7.agree (hL : L.Agrees P m) {e e' : Element} (he : Fine P m e e') :
    Agree P (Subitem7.parser (L := L) e) (Subitem7.parser e') :=
  ItemOf.agree hL (by agree) _ _ _ he

macro_rules
  | `(tactic| agree_leaf) => `(tactic| with_reducible exact Subitem7.agree (by assumption) (by fine!))

theorem Subitem6.agree (hL : L.Agrees P m) {e e' : Element} (he : Fine P m e e') :
    Agree P (Subitem6.parser (L := L) e) (Subitem6.parser e') :=
  ItemOf.agree hL (by agree) _ _ _ he

macro_rules
  | `(tactic| agree_leaf) => `(tactic| with_reducible exact Subitem6.agree (by assumption) (by fine!))

theorem Subitem5.agree (hL : L.Agrees P m) {e e' : Element} (he : Fine P m e e') :
    Agree P (Subitem5.parser (L := L) e) (Subitem5.parser e') :=
  ItemOf.agree hL (by agree) _ _ _ he

macro_rules
  | `(tactic| agree_leaf) => `(tactic| with_reducible exact Subitem5.agree (by assumption) (by fine!))

theorem Subitem4.agree (hL : L.Agrees P m) {e e' : Element} (he : Fine P m e e') :
    Agree P (Subitem4.parser (L := L) e) (Subitem4.parser e') :=
  ItemOf.agree hL (by agree) _ _ _ he

macro_rules
  | `(tactic| agree_leaf) => `(tactic| with_reducible exact Subitem4.agree (by assumption) (by fine!))

theorem Subitem3.agree (hL : L.Agrees P m) {e e' : Element} (he : Fine P m e e') :
    Agree P (Subitem3.parser (L := L) e) (Subitem3.parser e') :=
  ItemOf.agree hL (by agree) _ _ _ he

macro_rules
  | `(tactic| agree_leaf) => `(tactic| with_reducible exact Subitem3.agree (by assumption) (by fine!))

theorem Subitem2.agree (hL : L.Agrees P m) {e e' : Element} (he : Fine P m e e') :
    Agree P (Subitem2.parser (L := L) e) (Subitem2.parser e') :=
  ItemOf.agree hL (by agree) _ _ _ he

macro_rules
  | `(tactic| agree_leaf) => `(tactic| with_reducible exact Subitem2.agree (by assumption) (by fine!))

theorem Subitem1.agree (hL : L.Agrees P m) {e e' : Element} (he : Fine P m e e') :
    Agree P (Subitem1.parser (L := L) e) (Subitem1.parser e') :=
  ItemOf.agree hL (by agree) _ _ _ he

macro_rules
  | `(tactic| agree_leaf) => `(tactic| with_reducible exact Subitem1.agree (by assumption) (by fine!))

theorem Item.agree (hL : L.Agrees P m) {e e' : Element} (he : Fine P m e e') :
    Agree P (Item.parser (L := L) e) (Item.parser e') :=
  ItemOf.agree hL (by agree) _ _ _ he

macro_rules
  | `(tactic| agree_leaf) => `(tactic| with_reducible exact Item.agree (by assumption) (by fine!))

theorem Class.agree (hL : L.Agrees P m) {e e' : Element} (he : Fine P m e e') :
    Agree P (Class.parser (L := L) e) (Class.parser e') := by
  unfold Class.parser Class.step
  agree
  split <;> agree

macro_rules
  | `(tactic| agree_leaf) => `(tactic| with_reducible exact Class.agree (by assumption) (by fine!))

theorem Paragraph.agree (hL : L.Agrees P m) {e e' : Element} (he : Fine P m e e') :
    Agree P (Paragraph.parser (L := L) e) (Paragraph.parser e') := by
  unfold Paragraph.parser Paragraph.step
  agree

macro_rules
  | `(tactic| agree_leaf) => `(tactic| with_reducible exact Paragraph.agree (by assumption) (by fine!))

theorem Article.head_vis (cap : Option (Caption L)) (title : Text L) (c : List XMLNode) :
    Article.head cap title (vis c) =
      (Article.head cap title c).bind fun h => .ok (h.1, h.2.1, vis h.2.2) := by
  induction c generalizing cap title with
  | nil => rfl
  | cons x c ih =>
    cases x with
    | element n a d =>
      simp only [vis, List.filter_cons, XMLNode.isOther, Bool.not_false, if_true, Article.head]
      split
      · simp
      · split
        · cases Caption.parser (L := L) ⟨n, a, d⟩ with
          | ok v => exact ih _ _
          | _ => rfl
        · cases Text.fromChildren (L := L) d with
          | ok v => exact ih _ _
          | _ => rfl
    | _ => exact ih cap title

theorem Article.head_agree (hL : L.Agrees P m) {α : Type} {c c' : List XMLNode}
    (hc : KidsAll P m c c')
    (hb : (∀ n a d, .element n a d ∈ c → n = "ArticleCaption" ∨ n = "ArticleTitle") → P)
    {k k' : Option (Caption L) × Text L × List XMLNode → Res α}
    (hk : ∀ a t d d', KidsAll P m d d' → Agree P (k (a, t, d)) (k' (a, t, d')))
    (cap : Option (Caption L)) (title : Text L) :
    Agree P ((Article.head cap title c).bind k) ((Article.head cap title c').bind k') := by
  induction hc generalizing cap title with
  | nil => exact ⟨rfl, hb (by simp)⟩
  | @cons x y xs ys hxy hc ih =>
    cases hxy with
    | elem x y h =>
      obtain ⟨xn, xa, xc⟩ := x
      obtain ⟨yn, ya, yc⟩ := y
      obtain rfl : xn = yn := h.same.name
      simp only [Element.node] at hb
      simp only [Article.head, Element.node]
      split
      · exact hk _ _ _ _ (.cons (.elem _ _ h) hc)
      · next hnot =>
        have hb' : (∀ n a d, .element n a d ∈ xs → n = "ArticleCaption" ∨ n = "ArticleTitle") → P := by
          intro h'
          refine hb fun n a d hm => ?_
          cases hm with
          | head =>
            by_cases h1 : xn = "ArticleCaption"
            · exact .inl h1
            · exact .inr (Classical.byContradiction fun h2 => hnot ⟨h1, h2⟩)
          | tail _ hm => exact h' n a d hm
        have hC := Caption.agree hL h.fine
        have hT := Text.agree hL h.fine.kids
        split
        · simp only [Res.bind_assoc]
          exact Agree.bind hC fun v => ih hb' _ _
        · simp only [Res.bind_assoc]
          exact Agree.bind hT fun v => ih hb' _ _
    | text =>
      exact ih (fun h => hb fun n a d hm => h n a d (by simpa using hm)) cap title
    | other _ _ hx hy =>
      have ho : ∀ (x : XMLNode) xs, x.isOther = true →
          Article.head cap title (x :: xs) = Article.head cap title xs := by
        intro x xs hx
        cases x <;> first | rfl | cases hx
      rw [ho _ _ hx, ho _ _ hy]
      refine ih (fun h => hb fun n a d hm => ?_) cap title
      cases hm with
      | head => cases hx
      | tail _ hm => exact h n a d hm

theorem Article.agree (hL : L.Agrees P m) {e e' : Element} (he : Fine P m e e') :
    Agree P (Article.parser (L := L) e) (Article.parser e') := by
  have key : ∀ (x : Element) (num : ArticleNumber) (delete hide : Bool),
      ((Article.head none Text.new x.children).bind fun h =>
        (forElems (Article.step x) {} h.2.2).bind fun s =>
        .ok (⟨h.1, h.2.1, s.paragraph, s.suppl_note, num, delete, hide⟩ : Article L)) =
      ((Article.head none Text.new (vis x.children)).bind fun h =>
        (forElems (Article.step x) {} h.2.2).bind fun s =>
        .ok (⟨h.1, h.2.1, s.paragraph, s.suppl_note, num, delete, hide⟩ : Article L)) := by
    intro x num delete hide
    rw [Article.head_vis, Res.bind_assoc]
    refine congrArg _ (funext fun h => ?_)
    have ho : ∀ (s : Article.St L) y, y.isOther = true → onElem (Article.step x) s y = .ok s := by
      intro s y hy
      cases y <;> first | rfl | cases hy
    rw [forElems, Agree.foldRes_vis ho]
    rfl
  unfold Article.parser
  by_cases hn : e.name = "Article"
  · rw [if_pos hn, if_pos (he.same.name ▸ hn)]
    refine Agree.bind (.numAttr he) fun num => Agree.bind (.getBool he (by decide)) fun delete =>
      Agree.bind (.getBool he (by decide)) fun hide => ?_
    rw [key e, key e']
    refine Article.head_agree hL he.kids (fun h => ?_) (fun a t d d' hd => ?_) _ _
    · refine he.bare ⟨e.node, .refl, e.attributes, e.children, by rw [Element.node, hn], ?_⟩
      intro n a d hm
      exact h n a d (List.mem_filter.2 ⟨hm, rfl⟩)
    · unfold Article.step
      agree
  · rw [if_neg hn, if_neg (he.same.name ▸ hn)]
    exact .wrong he _

macro_rules
  | `(tactic| agree_leaf) => `(tactic| with_reducible exact Article.agree (by assumption) (by fine!))

theorem HierOf.titleOf_agree (hL : L.Agrees P m) {e e' : Element}
    (hc : KidsAll P m e.children e'.children) (titleTag : String) :
    Agree P (HierOf.titleOf (L := L) titleTag e) (HierOf.titleOf titleTag e') := by
  unfold HierOf.titleOf
  generalize e.children = c at hc ⊢
  generalize e'.children = c' at hc ⊢
  cases hc with
  | nil => exact .err _
  | @cons x y _ _ hxy _ =>
    cases hxy with
    | elem x y h =>
      simp only [Element.node, ← h.same.name]
      split
      · exact Text.agree hL h.fine.kids
      · exact .err _
    | text => exact .err _
    | other _ _ hx hy => cases x <;> cases y <;> first | exact .err _ | (cases hx; done) | cases hy

theorem HierOf.agree (hL : L.Agrees P m) {γ : Type} {arms : List (String × (Element → Res γ))}
    (ha : Agree.Arms P m arms) {tag : String} (hp : positionalTags.contains tag = true)
    (titleTag : String) {e e' : Element} (he : Fine P m e e') :
    Agree P (HierOf.parser (L := L) tag titleTag arms e) (HierOf.parser tag titleTag arms e') := by
  refine Agree.ite_pos he hp (fun hc => ?_) (.wrong he _)
  refine Agree.bind (.numAttr he) fun num => Agree.bind (.getBool he (by decide)) fun delete =>
    Agree.bind (.getBool he (by decide)) fun hide => Agree.bind (HierOf.titleOf_agree hL hc _) fun title => ?_
  agree
  exact Agree.matchTag ha (by assumption) (.unexpected he (by assumption))

theorem Division.agree (hL : L.Agrees P m) {e e' : Element} (he : Fine P m e e') :
    Agree P (Division.parser (L := L) e) (Division.parser e') :=
  HierOf.agree hL (by agree) (by decide) _ he

macro_rules
  | `(tactic| agree_leaf) => `(tactic| with_reducible exact Division.agree (by assumption) (by fine!))

theorem Subsection.agree (hL : L.Agrees P m) {e e' : Element} (he : Fine P m e e') :
    Agree P (Subsection.parser (L := L) e) (Subsection.parser e') :=
  HierOf.agree hL (by unfold SubsectionContents.arms; agree) (by decide) _ he

macro_rules
  | `(tactic| agree_leaf) => `(tactic| with_reducible exact Subsection.agree (by assumption) (by fine!))

theorem Section.agree (hL : L.Agrees P m) {e e' : Element} (he : Fine P m e e') :
    Agree P (Section.parser (L := L) e) (Section.parser e') :=
  HierOf.agree hL (by unfold SectionContents.arms; agree) (by decide) _ he

macro_rules
  | `(tactic| agree_leaf) => `(tactic| with_reducible exact Section.agree (by assumption) (by fine!))

theorem Chapter.agree (hL : L.Agrees P m) {e e' : Element} (he : Fine P m e e') :
    Agree P (Chapter.parser (L := L) e) (Chapter.parser e') :=
  HierOf.agree hL (by unfold ChapterContents.arms; agree) (by decide) _ he

macro_rules
  | `(tactic| agree_leaf) => `(tactic| with_reducible exact Chapter.agree (by assumption) (by fine!))

theorem Part.agree (hL : L.Agrees P m) {e e' : Element} (he : Fine P m e e') :
    Agree P (Part.parser (L := L) e) (Part.parser e') :=
  HierOf.agree hL (by unfold PartContents.arms; agree) (by decide) _ he

macro_rules
  | `(tactic| agree_leaf) => `(tactic| with_reducible exact Part.agree (by assumption) (by fine!))

end JLaw
