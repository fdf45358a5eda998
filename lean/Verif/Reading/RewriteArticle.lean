import Verif.Reading.RewriteStruct

/-!
# Reading and writing again: items, paragraphs, articles and the hierarchy above them
-/

namespace JLaw

open Spec

variable {n : Nat} {α β τ : Type}

theorem parseString_ok {e : Element} {k s : String}
    (h : getAttributeWithParse parseString e k = .ok s) : e.attributes.get k = some s := by
  unfold getAttributeWithParse at h
  cases hg : e.attributes.get k with
  | none => rw [hg] at h; cases h
  | some s' =>
    rw [hg] at h
    cases h
    rfl

theorem structs_of (hL : LvlRewrites n) {e : Element} {vs : List (Struct (lvl n))}
    (h : List.Forall₂ Struct.Reads
      (named ["TableStruct", "FigStruct", "StyleStruct", "List"] e.children) vs)
    (he : e.node.height ≤ n) :
    (vs.map fun v => v.toXml.node) = (Portion.each structTags).nodes (rewriteList e.children) :=
  among_of h he (by reads_rewrite Struct.toXml)

/-! ## Items -/

theorem ItemOf.attrs {γ : Type} {tag titleTag sentTag : String} {kids : List String}
    {arms : List (String × (Element → Res γ))} {e : Element} {v : ItemOf (lvl n) γ}
    (h : ItemOf.parser tag titleTag sentTag arms e = .ok v) :
    ((Attrs.insertOpt [] "Num" (v.num.map ArticleNumber.numStr)).insertTrue "Delete"
      v.delete).insertTrue "Hide" v.hide =
      (itemLayout titleTag sentTag kids).setAttrs e.attributes := by
  have h := (ite_eq_ok h).2
  obtain ⟨num, h1, h⟩ := Res.bind_eq_ok.1 h
  obtain ⟨del, h2, h⟩ := Res.bind_eq_ok.1 h
  obtain ⟨hide, h3, h⟩ := Res.bind_eq_ok.1 h
  obtain ⟨s, -, h⟩ := Res.bind_eq_ok.1 h
  split at h
  · cases h
    simp only [Layout.setAttrs, itemLayout, unitCopies, flagCopy, List.foldl_cons, List.foldl_nil,
      apply_flag h2, apply_flag h3, parseString_ok h1, apply_parse?, Attrs.insertTrue_eq]
  · cases h

theorem ItemOf.rewrites (hL : LvlRewrites n) {γ : Type} {tag titleTag sentTag : String}
    {kids : List String} {arms : List (String × (Element → Res γ))} {childXml : γ → Element}
    {e : Element} {v : ItemOf (lvl n) γ} (he : e.node.height ≤ n) (hn : e.name = tag)
    (hl : layouts.lookup tag = some (itemLayout titleTag sentTag kids))
    (ht : layouts.lookup titleTag = some textLayout)
    (hs : layouts.lookup sentTag = some itemSentenceLayout)
    (h : ItemOf.parser tag titleTag sentTag arms e = .ok v)
    (h1 : LastOpt (fun x => Text.fromChildren x.children) titleTag e.children v.title)
    (h2 : LastReq SentenceOrColumnOrTable.fromElement sentTag e.children v.sentence)
    (h3 : (v.children.map fun c => (childXml c).node) =
      (Portion.each kids).nodes (rewriteList e.children))
    (h4 : List.Forall₂ Struct.Reads
      (named ["TableStruct", "FigStruct", "StyleStruct", "List"] e.children) v.struct_list) :
    ItemOf.toXml tag titleTag sentTag childXml v = rewrite e := by
  refine element_eq hn hl rfl (ItemOf.attrs h) ?_
  simp only [itemLayout, List.flatMap_cons, List.flatMap_nil, List.append_nil, List.append_assoc]
  exact app (last_of h1 he fun x v hx => Text.under hL ht x v (by omega))
    (app (must_of (w := fun v => SentenceOrColumnOrTable.toXml v sentTag) h2 he fun x v hx =>
        SentenceOrColumnOrTable.under hL hs x v (by omega))
      (app h3 (structs_of hL h4 he)))

theorem Subitem10.rewrites (hL : LvlRewrites n) :
    Rewrites n "Subitem10" (Subitem10.parser (L := lvl n)) Subitem10.toXml := by
  intro e v he hn h
  obtain ⟨h1, h2⟩ := C60_subitem10 n e v h
  refine ItemOf.rewrites hL he hn (by with_unfolding_all rfl) (by with_unfolding_all rfl)
    (by with_unfolding_all rfl) h h1 h2 ?_ (C36_subitem10 n e v h)
  have hv : v.children = [] := by
    cases v.children with
    | nil => rfl
    | cons x _ => exact x.elim
  have hk : named [] e.children = [] := by simp [named]
  rw [hv, nodes_each_nil hk]
  rfl

macro_rules
  | `(tactic| rewrite_leaf) => `(tactic|
      with_reducible exact Subitem10.rewrites ‹_› _ _ (by omega) ‹_› ‹_›)

theorem Subitem9.rewrites (hL : LvlRewrites n) :
    Rewrites n "Subitem9" (Subitem9.parser (L := lvl n)) Subitem9.toXml := by
  intro e v he hn h
  obtain ⟨h1, h2⟩ := C60_subitem9 n e v h
  obtain ⟨h3, h4⟩ := C36_subitem9 n e v h
  exact ItemOf.rewrites hL he hn (by with_unfolding_all rfl) (by with_unfolding_all rfl)
    (by with_unfolding_all rfl) h h1 h2
    (each_of h3 he fun x v hx => Subitem10.rewrites hL x v (by omega)) h4

macro_rules
  | `(tactic| rewrite_leaf) => `(tactic|
      with_reducible exact Subitem9.rewrites ‹_› _ _ (by omega) ‹_› ‹_›)

theorem Subitem8.rewrites (hL : LvlRewrites n) :
    Rewrites n "Subitem8" (Subitem8.parser (L := lvl n)) Subitem8.toXml := by
  intro e v he hn h
  obtain ⟨h1, h2⟩ := C60_subitem8 n e v h
  obtain ⟨h3, h4⟩ := C36_subitem8 n e v h
  exact ItemOf.rewrites hL he hn (by with_unfolding_all rfl) (by with_unfolding_all rfl)
    (by with_unfolding_all rfl) h h1 h2
    (each_of h3 he fun x v hx => Subitem9.rewrites hL x v (by omega)) h4

macro_rules
  | `(tactic| rewrite_leaf) => `(tactic|
      with_reducible exact Subitem8.rewrites ‹_› _ _ (by omega) ‹_› ‹_›)

theorem Subitem7.rewrites (hL : LvlRewrites n) :
    Rewrites n "Subitem7" (Subitem7.parser (L := lvl n)) Subitem7.toXml := by
  intro e v he hn h
  obtain ⟨h1, h2⟩ := C60_subitem7 n e v h
  obtain ⟨h3, h4⟩ := C36_subitem7 n e v h
  exact ItemOf.rewrites hL he hn (by with_unfolding_all rfl) (by with_unfolding_all rfl)
    (by with_unfolding_all rfl) h h1 h2
    (each_of h3 he fun x v hx => Subitem8.rewrites hL x v (by omega)) h4

macro_rules
  | `(tactic| rewrite_leaf) => `(tactic|
      with_reducible exact Subitem7.rewrites ‹_› _ _ (by omega) ‹_› ‹_›)

theorem Subitem6.rewrites (hL : LvlRewrites n) :
    Rewrites n "Subitem6" (Subitem6.parser (L := lvl n)) Subitem6.toXml := by
  intro e v he hn h
  obtain ⟨h1, h2⟩ := C60_subitem6 n e v h
  obtain ⟨h3, h4⟩ := C36_subitem6 n e v h
  exact ItemOf.rewrites hL he hn (by with_unfolding_all rfl) (by with_unfolding_all rfl)
    (by with_unfolding_all rfl) h h1 h2
    (each_of h3 he fun x v hx => Subitem7.rewrites hL x v (by omega)) h4

macro_rules
  | `(tactic| rewrite_leaf) => `(tactic|
      with_reducible exact Subitem6.rewrites ‹_› _ _ (by omega) ‹_› ‹_›)

theorem Subitem5.rewrites (hL : LvlRewrites n) :
    Rewrites n "Subitem5" (Subitem5.parser (L := lvl n)) Subitem5.toXml := by
  intro e v he hn h
  obtain ⟨h1, h2⟩ := C60_subitem5 n e v h
  obtain ⟨h3, h4⟩ := C36_subitem5 n e v h
  exact ItemOf.rewrites hL he hn (by with_unfolding_all rfl) (by with_unfolding_all rfl)
    (by with_unfolding_all rfl) h h1 h2
    (each_of h3 he fun x v hx => Subitem6.rewrites hL x v (by omega)) h4

macro_rules
  | `(tactic| rewrite_leaf) => `(tactic|
      with_reducible exact Subitem5.rewrites ‹_› _ _ (by omega) ‹_› ‹_›)

theorem Subitem4.rewrites (hL : LvlRewrites n) :
    Rewrites n "Subitem4" (Subitem4.parser (L := lvl n)) Subitem4.toXml := by
  intro e v he hn h
  obtain ⟨h1, h2⟩ := C60_subitem4 n e v h
  obtain ⟨h3, h4⟩ := C36_subitem4 n e v h
  exact ItemOf.rewrites hL he hn (by with_unfolding_all rfl) (by with_unfolding_all rfl)
    (by with_unfolding_all rfl) h h1 h2
    (each_of h3 he fun x v hx => Subitem5.rewrites hL x v (by omega)) h4

macro_rules
  | `(tactic| rewrite_leaf) => `(tactic|
      with_reducible exact Subitem4.rewrites ‹_› _ _ (by omega) ‹_› ‹_›)

theorem Subitem3.rewrites (hL : LvlRewrites n) :
    Rewrites n "Subitem3" (Subitem3.parser (L := lvl n)) Subitem3.toXml := by
  intro e v he hn h
  obtain ⟨h1, h2⟩ := C60_subitem3 n e v h
  obtain ⟨h3, h4⟩ := C36_subitem3 n e v h
  exact ItemOf.rewrites hL he hn (by with_unfolding_all rfl) (by with_unfolding_all rfl)
    (by with_unfolding_all rfl) h h1 h2
    (each_of h3 he fun x v hx => Subitem4.rewrites hL x v (by omega)) h4

macro_rules
  | `(tactic| rewrite_leaf) => `(tactic|
      with_reducible exact Subitem3.rewrites ‹_› _ _ (by omega) ‹_› ‹_›)

theorem Subitem2.rewrites (hL : LvlRewrites n) :
    Rewrites n "Subitem2" (Subitem2.parser (L := lvl n)) Subitem2.toXml := by
  intro e v he hn h
  obtain ⟨h1, h2⟩ := C60_subitem2 n e v h
  obtain ⟨h3, h4⟩ := C36_subitem2 n e v h
  exact ItemOf.rewrites hL he hn (by with_unfolding_all rfl) (by with_unfolding_all rfl)
    (by with_unfolding_all rfl) h h1 h2
    (each_of h3 he fun x v hx => Subitem3.rewrites hL x v (by omega)) h4

macro_rules
  | `(tactic| rewrite_leaf) => `(tactic|
      with_reducible exact Subitem2.rewrites ‹_› _ _ (by omega) ‹_› ‹_›)

theorem Subitem1.rewrites (hL : LvlRewrites n) :
    Rewrites n "Subitem1" (Subitem1.parser (L := lvl n)) Subitem1.toXml := by
  intro e v he hn h
  obtain ⟨h1, h2⟩ := C60_subitem1 n e v h
  obtain ⟨h3, h4⟩ := C36_subitem1 n e v h
  exact ItemOf.rewrites hL he hn (by with_unfolding_all rfl) (by with_unfolding_all rfl)
    (by with_unfolding_all rfl) h h1 h2
    (each_of h3 he fun x v hx => Subitem2.rewrites hL x v (by omega)) h4

macro_rules
  | `(tactic| rewrite_leaf) => `(tactic|
      with_reducible exact Subitem1.rewrites ‹_› _ _ (by omega) ‹_› ‹_›)

theorem Item.rewrites (hL : LvlRewrites n) :
    Rewrites n "Item" (Item.parser (L := lvl n)) Item.toXml := by
  intro e v he hn h
  obtain ⟨h1, h2⟩ := C60_item n e v h
  obtain ⟨h3, h4⟩ := C36_item n e v h
  exact ItemOf.rewrites hL he hn (by with_unfolding_all rfl) (by with_unfolding_all rfl)
    (by with_unfolding_all rfl) h h1 h2
    (each_of h3 he fun x v hx => Subitem1.rewrites hL x v (by omega)) h4

macro_rules
  | `(tactic| rewrite_leaf) => `(tactic|
      with_reducible exact Item.rewrites ‹_› _ _ (by omega) ‹_› ‹_›)

/-! ## Classes and paragraphs -/

theorem Class.rewrites (hL : LvlRewrites n) :
    Rewrites n "Class" (Class.parser (L := lvl n)) Class.toXml := by
  intro e v he hn h
  obtain ⟨h1, h2⟩ := C60_class n e v h
  have h3 := C36_class n e v h
  have h4 : e.attributes.get "Num" = some v.num := by
    have h := (ite_eq_ok h).2
    obtain ⟨num, hnum, h⟩ := Res.bind_eq_ok.1 h
    obtain ⟨s, -, h⟩ := Res.bind_eq_ok.1 h
    split at h
    · cases h; exact getAttribute_ok hnum
    · cases h
  refine element_eq hn (by with_unfolding_all rfl) rfl ?_ ?_
  · simp only [Layout.setAttrs, List.foldl_cons, List.foldl_nil, Change.apply, h4]
    rfl
  · simp only [List.flatMap_cons, List.flatMap_nil, List.append_nil, List.append_assoc]
    exact app (last_of h1 he fun x v hx => Text.under hL (by with_unfolding_all rfl) x v (by omega))
      (app (must_of (w := fun v => SentenceOrColumnOrTable.toXml v "ClassSentence") h2 he fun x v hx =>
        SentenceOrColumnOrTable.under hL (by with_unfolding_all rfl) x v (by omega))
        (each_of h3 he fun x v hx => Item.rewrites hL x v (by omega)))

macro_rules
  | `(tactic| rewrite_leaf) => `(tactic|
      with_reducible exact Class.rewrites ‹_› _ _ (by omega) ‹_› ‹_›)

/-- A field that holds the elements inside all elements with a tag. -/
theorem merged_of {R : Element → α → Prop} {w : α → Element} {t : String} {e : Element}
    {vs : List α} (ht : layouts.lookup t = some { parts := [.elements] })
    (h : List.Forall₂ R ((named [t] e.children).flatMap fun x => elems x.children) vs)
    (he : e.node.height ≤ n) (hw : ∀ x v, x.node.height < n → R x v → w v = rewrite x) :
    [(⟨t, [], vs.map fun v => (w v).node⟩ : Element).node] =
      (Portion.merged t).nodes (rewriteList e.children) := by
  rw [Portion.nodes, pick_isNamed]
  have hk : (again (named [t] e.children)).flatMap kidsOf =
      again ((named [t] e.children).flatMap fun x => elems x.children) := by
    rw [again, List.flatMap_map, again, List.map_flatMap]
    refine List.flatMap_congr fun x hx => ?_
    rw [rewrite_of (name_named hx) ht]
    simp only [List.flatMap_cons, List.flatMap_nil, List.append_nil, nodes_elements]
    rfl
  rw [hk, map_of_forall₂ h fun x hx v hv => ?_]
  · rfl
  · obtain ⟨y, hy, hx⟩ := List.mem_flatMap.1 hx
    exact hw x v (height_elems (Nat.le_of_lt (height_named he hy)) hx) hv

theorem Paragraph.rewrites (hL : LvlRewrites n) :
    Rewrites n "Paragraph" (Paragraph.parser (L := lvl n)) Paragraph.toXml := by
  intro e v he hn h
  obtain ⟨h1, h2⟩ := C60_paragraph n e v h
  obtain ⟨h3, h4, h5, h6⟩ := C36_paragraph n e v h
  have h7 := C36_paragraph_sentences n e v h
  have hs : layouts.lookup "ParagraphSentence" = some { parts := [.elements] } := by
    with_unfolding_all rfl
  refine element_eq hn (by with_unfolding_all rfl) rfl ?_ ?_
  · have h := (ite_eq_ok h).2
    obtain ⟨num, hnum, h⟩ := Res.bind_eq_ok.1 h
    obtain ⟨s, hs, hnum⟩ := Res.bind_eq_ok.1 hnum
    obtain ⟨a1, ha1, h⟩ := Res.bind_eq_ok.1 h
    obtain ⟨a2, ha2, h⟩ := Res.bind_eq_ok.1 h
    obtain ⟨a3, ha3, h⟩ := Res.bind_eq_ok.1 h
    obtain ⟨s, -, h⟩ := Res.bind_eq_ok.1 h
    cases h
    have hp := apply_num (e := e) (a := num) (by
      rw [numAttr, getAttribute, parseString_ok hs]; exact hnum)
    simp only [Layout.setAttrs, flagCopy, List.foldl_cons, List.foldl_nil,
      apply_flag ha1, apply_flag ha2, apply_flag ha3, hp, Attrs.insertTrue_eq]
    rfl
  · simp only [List.flatMap_cons, List.flatMap_nil, List.append_nil, List.append_assoc]
    exact app (last_of h1 he fun x v hx =>
        Caption.under hL (by with_unfolding_all rfl) x v (by omega))
      (app (lastOr_of h2 he (fun x v hx =>
        Text.under hL (by with_unfolding_all rfl) x v (by omega)) rfl)
      (app (merged_of hs h7 he fun x v hx hv =>
        Sentence.rewrites hL x v (by omega) (ite_eq_ok hv).1 hv)
      (app (each_of h3 he hL.amend)
      (app (each_of h4 he fun x v hx => Class.rewrites hL x v (by omega))
      (app (structs_of hL h5 he)
        (each_of h6 he fun x v hx => Item.rewrites hL x v (by omega)))))))

macro_rules
  | `(tactic| rewrite_leaf) => `(tactic|
      with_reducible exact Paragraph.rewrites ‹_› _ _ (by omega) ‹_› ‹_›)

/-! ## Articles -/

theorem Article.rewrites (hL : LvlRewrites n) :
    Rewrites n "Article" (Article.parser (L := lvl n)) Article.toXml := by
  intro e v he hn h
  obtain ⟨h1, h2, h3⟩ := C60_article n e v h
  have h4 := C36_article n e v h
  refine element_eq hn (by with_unfolding_all rfl) rfl ?_ ?_
  · have h := (ite_eq_ok h).2
    obtain ⟨num, hnum, h⟩ := Res.bind_eq_ok.1 h
    obtain ⟨a1, ha1, h⟩ := Res.bind_eq_ok.1 h
    obtain ⟨a2, ha2, h⟩ := Res.bind_eq_ok.1 h
    obtain ⟨hd, -, h⟩ := Res.bind_eq_ok.1 h
    obtain ⟨s, -, h⟩ := Res.bind_eq_ok.1 h
    cases h
    simp only [Layout.setAttrs, unitCopies, flagCopy, List.foldl_cons, List.foldl_nil,
      apply_flag ha1, apply_flag ha2, apply_num hnum, Attrs.insertTrue_eq]
    rfl
  · simp only [List.flatMap_cons, List.flatMap_nil, List.append_nil, List.append_assoc]
    exact app (last_of h1 he fun x v hx =>
        Caption.under hL (by with_unfolding_all rfl) x v (by omega))
      (app (lastOr_of h2 he (fun x v hx =>
        Text.under hL (by with_unfolding_all rfl) x v (by omega)) rfl)
      (app (each_of h4 he fun x v hx => Paragraph.rewrites hL x v (by omega))
        (last_of h3 he fun x v hx => Text.under hL (by with_unfolding_all rfl) x v (by omega))))

macro_rules
  | `(tactic| rewrite_leaf) => `(tactic|
      with_reducible exact Article.rewrites ‹_› _ _ (by omega) ‹_› ‹_›)

/-! ## Parts, chapters, sections, subsections and divisions -/

theorem HierOf.rewrites (hL : LvlRewrites n) {γ : Type} {tag titleTag : String}
    {arms : List (String × (Element → Res γ))} {childXml : γ → Element}
    {e : Element} {v : HierOf (lvl n) γ} (he : e.node.height ≤ n)
    (ht : layouts.lookup tag = some unitLayout)
    (hl : layouts.lookup titleTag = some textLayout)
    (hchild : ∀ o x v, x.node.height < n → matchTag arms (unexpected o) x = .ok v →
      childXml v = rewrite x)
    (h : HierOf.parser tag titleTag arms e = .ok v) :
    HierOf.toXml tag titleTag childXml v = rewrite e := by
  have hn := (ite_eq_ok h).1
  have h := (ite_eq_ok h).2
  obtain ⟨num, hnum, h⟩ := Res.bind_eq_ok.1 h
  obtain ⟨a1, ha1, h⟩ := Res.bind_eq_ok.1 h
  obtain ⟨a2, ha2, h⟩ := Res.bind_eq_ok.1 h
  obtain ⟨t, h1, h⟩ := Res.bind_eq_ok.1 h
  obtain ⟨c, h2, h⟩ := Res.bind_eq_ok.1 h
  cases h
  unfold HierOf.titleOf at h1
  split at h1
  case' h_2 => cases h1
  next m a d rest hc =>
  split at h1
  case' isFalse => cases h1
  next hm =>
  refine element_eq hn ht rfl ?_ ?_
  · simp only [Layout.setAttrs, unitLayout, unitCopies, flagCopy, List.foldl_cons, List.foldl_nil,
      apply_flag ha1, apply_flag ha2, apply_num hnum, Attrs.insertTrue_eq]
    rfl
  · simp only [unitLayout, List.flatMap_cons, List.flatMap_nil, List.append_nil]
    have hx : ∀ y : Element, y ∈ elems (.element m a d :: rest) → y.node.height < n :=
      fun y hy => height_elems he (by rw [hc]; exact hy)
    have hx1 := hx ⟨m, a, d⟩ (by rw [elems_element]; simp)
    have ht := Text.under hL hl ⟨m, a, d⟩ t (by omega) hm h1
    rw [Portion.nodes, pick_eq, hc, List.filter_cons_of_pos rfl, List.map_cons,
      filter_isElement, map_rewriteNode]
    rw [hc, List.tail_cons] at h2
    refine congrArg₂ List.cons ?_ (map_of_forall₂ (readAll_forall₂ h2) fun y hy w hw =>
      hchild e y w (hx y (by rw [elems_element]; simp [hy])) hw)
    exact (congrArg Element.node ht).trans (rewriteNode_node ⟨m, a, d⟩).symm

/-- The arms of an enumeration of elements. -/
syntax "arms_again " ident ident : tactic
macro_rules
  | `(tactic| arms_again $d:ident $w:ident) => `(tactic|
    (intro o x v hx
     unfold $d:ident
     arms_cases
     all_goals first
       | (intro hn h
          obtain ⟨v, hv, h⟩ := Res.bind_eq_ok.1 h
          cases h
          unfold $w:ident
          rewrite_leaf)
       | (intro h; cases h)))

theorem Division.rewrites (hL : LvlRewrites n) :
    Rewrites n "Division" (Division.parser (L := lvl n)) Division.toXml := by
  intro e v he hn h
  refine HierOf.rewrites hL he (by with_unfolding_all rfl) (by with_unfolding_all rfl) ?_ h
  intro o x v hx
  arms_cases
  · intro hn hv; rewrite_leaf
  · intro h; cases h

macro_rules
  | `(tactic| rewrite_leaf) => `(tactic|
      with_reducible exact Division.rewrites ‹_› _ _ (by omega) ‹_› ‹_›)

theorem Subsection.rewrites (hL : LvlRewrites n) :
    Rewrites n "Subsection" (Subsection.parser (L := lvl n)) Subsection.toXml := by
  intro e v he hn h
  refine HierOf.rewrites hL he (by with_unfolding_all rfl) (by with_unfolding_all rfl) ?_ h
  arms_again SubsectionContents.arms SubsectionContents.toXml

macro_rules
  | `(tactic| rewrite_leaf) => `(tactic|
      with_reducible exact Subsection.rewrites ‹_› _ _ (by omega) ‹_› ‹_›)

theorem Section.rewrites (hL : LvlRewrites n) :
    Rewrites n "Section" (Section.parser (L := lvl n)) Section.toXml := by
  intro e v he hn h
  refine HierOf.rewrites hL he (by with_unfolding_all rfl) (by with_unfolding_all rfl) ?_ h
  arms_again SectionContents.arms SectionContents.toXml

macro_rules
  | `(tactic| rewrite_leaf) => `(tactic|
      with_reducible exact Section.rewrites ‹_› _ _ (by omega) ‹_› ‹_›)

theorem Chapter.rewrites (hL : LvlRewrites n) :
    Rewrites n "Chapter" (Chapter.parser (L := lvl n)) Chapter.toXml := by
  intro e v he hn h
  refine HierOf.rewrites hL he (by with_unfolding_all rfl) (by with_unfolding_all rfl) ?_ h
  arms_again ChapterContents.arms ChapterContents.toXml

macro_rules
  | `(tactic| rewrite_leaf) => `(tactic|
      with_reducible exact Chapter.rewrites ‹_› _ _ (by omega) ‹_› ‹_›)

theorem Part.rewrites (hL : LvlRewrites n) :
    Rewrites n "Part" (Part.parser (L := lvl n)) Part.toXml := by
  intro e v he hn h
  refine HierOf.rewrites hL he (by with_unfolding_all rfl) (by with_unfolding_all rfl) ?_ h
  arms_again PartContents.arms PartContents.toXml

macro_rules
  | `(tactic| rewrite_leaf) => `(tactic|
      with_reducible exact Part.rewrites ‹_› _ _ (by omega) ‹_› ‹_›)

end JLaw
