import Verif.Reading.RewriteAppdx

/-!
# Reading and writing again: the law
-/

namespace JLaw

open Spec

variable {n : Nat} {α β : Type}

/-! ## Cells and contents -/

theorem apply_border (e : Element) (k : String) :
    Change.border.apply (e.attributes.get k) = some (TableColumn.border e k).toAttr := by
  unfold TableColumn.border
  generalize e.attributes.get k = o
  cases o with
  | none => rfl
  | some s =>
    unfold LineStyle.fromAttr
    split
    · next h => cases h; rfl
    · next h => cases h; rfl
    · next h => cases h; rfl
    · next h => cases h; rfl
    · next h1 h2 h3 h4 =>
      have e1 : s ≠ "solid" := fun h => h1 (by rw [h])
      have e2 : s ≠ "none" := fun h => h2 (by rw [h])
      have e3 : s ≠ "dotted" := fun h => h3 (by rw [h])
      have e4 : s ≠ "double" := fun h => h4 (by rw [h])
      have hf : (some s).filter (fun s => lineStyles.contains s) = none := by
        simp [Option.filter, lineStyles, e1, e2, e3, e4]
      rw [Change.apply, hf]
      rfl

theorem apply_valign (o : Option String) :
    (Change.only valignValues).apply o = (Position.fromAttr o).map Position.toAttr := by
  cases o with
  | none => rfl
  | some s =>
    unfold Position.fromAttr
    split
    · next h => cases h; rfl
    · next h => cases h; rfl
    · next h => cases h; rfl
    · next h1 h2 h3 =>
      have e1 : s ≠ "top" := fun h => h1 (by rw [h])
      have e2 : s ≠ "middle" := fun h => h2 (by rw [h])
      have e3 : s ≠ "bottom" := fun h => h3 (by rw [h])
      simp [Change.apply, valignValues, e1, e2, e3]

theorem TableColumn.rewrites (hL : LvlRewrites n) :
    Rewrites n "TableColumn" (TableColumn.parser (L := lvl n)) TableColumn.toXml := by
  intro e v he hn h
  have h := (ite_eq_ok h).2
  obtain ⟨a1, ha1, h⟩ := Res.bind_eq_ok.1 h
  obtain ⟨a2, ha2, h⟩ := Res.bind_eq_ok.1 h
  obtain ⟨l, hl, h⟩ := Res.bind_eq_ok.1 h
  cases h
  refine element_eq hn (by with_unfolding_all rfl) rfl ?_ ?_
  · simp only [Layout.setAttrs, List.foldl_cons, List.foldl_nil, apply_border, apply_align,
      apply_valign, parseStringOpt_ok ha1, parseStringOpt_ok ha2]
    rfl
  · simp only [List.flatMap_cons, List.flatMap_nil, List.append_nil]
    exact mixed_of hl he (fun _ => rfl) (by arms_rewrite TableColumnContents.arms)

macro_rules
  | `(tactic| rewrite_leaf) => `(tactic|
      with_reducible exact TableRow.rewrites ‹_› _ _ (by omega) ‹_› ‹_›)

macro_rules
  | `(tactic| rewrite_leaf) => `(tactic|
      with_reducible exact TableColumn.rewrites ‹_› _ _ (by omega) ‹_› ‹_›)

theorem Contents.rewrites (hL : LvlRewrites n) (e : Element) (v : Contents (lvl n))
    (he : e.node.height ≤ n + 1) (h : Contents.parser e = .ok v) :
    v.toChildren = Portion.mixed.nodes (rewriteList e.children) := by
  obtain ⟨l, hl, h⟩ := Res.bind_eq_ok.1 h
  cases h
  exact mixed_of hl he (fun _ => rfl) (by arms_rewrite ContentsElement.arms)

/-! ## The law -/

theorem LawTitle.rewrites (hL : LvlRewrites n) :
    Rewrites n "LawTitle" (LawTitle.parser (L := lvl n)) LawTitle.toXml := by
  intro e v he hn h
  have h := (ite_eq_ok h).2
  obtain ⟨a1, ha1, h⟩ := Res.bind_eq_ok.1 h
  obtain ⟨a2, ha2, h⟩ := Res.bind_eq_ok.1 h
  obtain ⟨a3, ha3, h⟩ := Res.bind_eq_ok.1 h
  obtain ⟨t, ht, h⟩ := Res.bind_eq_ok.1 h
  cases h
  refine element_eq hn (by with_unfolding_all rfl) rfl ?_ ?_
  · simp only [Layout.setAttrs, List.foldl_cons, List.foldl_nil, Change.apply,
      parseStringOpt_ok ha1, parseStringOpt_ok ha2, parseStringOpt_ok ha3]
  · simp only [List.flatMap_cons, List.flatMap_nil, List.append_nil]
    exact Text.rewrites hL (fun x hx => height_elems he hx) ht

macro_rules
  | `(tactic| rewrite_leaf) => `(tactic|
      with_reducible exact LawTitle.rewrites ‹_› _ _ (by omega) ‹_› ‹_›)

theorem Preamble.rewrites (hL : LvlRewrites n) :
    Rewrites n "Preamble" (Preamble.parser (L := lvl n)) Preamble.toXml := by
  intro e v he hn h
  have h1 := C36_preamble n e v h
  refine element_eq hn (by with_unfolding_all rfl) rfl rfl ?_
  simp only [List.flatMap_cons, List.flatMap_nil, List.append_nil]
  exact each_of h1 he fun x v hx => Paragraph.rewrites hL x v (by omega)

macro_rules
  | `(tactic| rewrite_leaf) => `(tactic|
      with_reducible exact Preamble.rewrites ‹_› _ _ (by omega) ‹_› ‹_›)

theorem MainProvision.rewrites (hL : LvlRewrites n) :
    Rewrites n "MainProvision" (MainProvision.parser (L := lvl n)) MainProvision.toXml := by
  intro e v he hn h
  have h := (ite_eq_ok h).2
  obtain ⟨a1, ha1, h⟩ := Res.bind_eq_ok.1 h
  obtain ⟨l, hl, h⟩ := Res.bind_eq_ok.1 h
  cases h
  refine element_eq hn (by with_unfolding_all rfl) rfl ?_ ?_
  · simp only [Layout.setAttrs, List.foldl_cons, List.foldl_nil, Change.apply,
      apply_opt ha1 boolStr_parse]
  · simp only [List.flatMap_cons, List.flatMap_nil, List.append_nil]
    have key : ∀ (o x : Element) (v : MainProvisionContents (lvl n)), x.node.height < n →
        matchTag MainProvisionContents.arms (unexpected o) x = .ok v →
        v.toXml = rewrite x := by
      arms_again MainProvisionContents.arms MainProvisionContents.toXml
    exact elements_of (readAll_forall₂ hl) he fun x v hx hv => key e x v hx hv

theorem LawBody.rewrites (hL : LvlRewrites n) :
    Rewrites n "LawBody" (LawBody.parser (L := lvl n)) LawBody.toXml := by
  intro e v he hn h
  obtain ⟨h1, h2, h3, h4⟩ := C60_lawbody n e v h
  obtain ⟨h5, h6, h7, h8, h9, h10, h11, h12⟩ := C36_lawbody n e v h
  refine element_eq hn (by with_unfolding_all rfl) rfl ?_ ?_
  · have h := (ite_eq_ok h).2
    obtain ⟨a1, ha1, h⟩ := Res.bind_eq_ok.1 h
    obtain ⟨s, -, h⟩ := Res.bind_eq_ok.1 h
    split at h
    · cases h
      simp only [Layout.setAttrs, List.foldl_cons, List.foldl_nil, Change.apply,
        parseStringOpt_ok ha1]
    · cases h
  · simp only [List.flatMap_cons, List.flatMap_nil, List.append_nil, List.append_assoc]
    exact app (last_of h1 he fun x v hx => LawTitle.rewrites hL x v (by omega))
      (app (each_of (w := fun v => Text.toXml v "EnactStatement") h5 he
        fun x v hx => Text.under hL (by with_unfolding_all rfl) x v (by omega))
      (app (last_of h2 he fun x v hx => TOC.rewrites hL x v (by omega))
      (app (last_of h3 he fun x v hx => Preamble.rewrites hL x v (by omega))
      (app (must_of h4 he fun x v hx => MainProvision.rewrites hL x v (by omega))
      (app (each_of h6 he fun x v hx => SupplProvision.rewrites hL x v (by omega))
      (app (each_of h7 he fun x v hx => AppdxTable.rewrites hL x v (by omega))
      (app (each_of h8 he fun x v hx => AppdxNote.rewrites hL x v (by omega))
      (app (each_of h9 he fun x v hx => AppdxStyle.rewrites hL x v (by omega))
      (app (each_of h10 he fun x v hx => Appdx.rewrites hL x v (by omega))
      (app (each_of h11 he fun x v hx => AppdxFig.rewrites hL x v (by omega))
        (each_of h12 he fun x v hx => AppdxFormat.rewrites hL x v (by omega))))))))))))

macro_rules
  | `(tactic| rewrite_leaf) => `(tactic|
      with_reducible exact LawBody.rewrites ‹_› _ _ (by omega) ‹_› ‹_›)

/-! ## Amendments -/

theorem AmendProvision.sentence_rewrites (hL : LvlRewrites n) :
    Rewrites n "AmendProvisionSentence" (AmendProvision.sentenceOf (L := lvl n))
      (fun s => AmendProvision.wrap s.toXml) := by
  intro e v he hn h
  refine element_eq hn (by with_unfolding_all rfl) rfl rfl ?_
  simp only [List.flatMap_cons, List.flatMap_nil, List.append_nil]
  unfold AmendProvision.sentenceOf at h
  split at h
  · next m a c rest hc =>
    have hx : (⟨m, a, c⟩ : Element) ∈ elems e.children := by rw [hc, elems_element]; simp
    rw [Sentence.rewrites hL _ v (Nat.le_of_lt (height_elems he hx)) (ite_eq_ok h).1 h, hc,
      Portion.nodes, rewriteList_eq, ← rewriteNode_node]
    rfl
  · cases h

/-- What is written of the children of the elements with one tag, each in an element of its own. -/
theorem wrapped_of {R : Element → α → Prop} {w : α → Element} {t wrapper : String} {e : Element}
    {vs : List α} (ht : layouts.lookup t = some { parts := [.elements] })
    (h : List.Forall₂ R ((named [t] e.children).flatMap fun x => elems x.children) vs)
    (he : e.node.height ≤ n) (hw : ∀ x v, x.node.height < n → R x v → w v = rewrite x) :
    (vs.map fun v => (⟨wrapper, [], [(w v).node]⟩ : Element).node) =
      (Portion.wrapped t wrapper).nodes (rewriteList e.children) := by
  have h2 := merged_of ht h he hw
  simp only [Portion.nodes, Element.node, List.cons.injEq, XMLNode.element.injEq, and_true,
    true_and] at h2
  rw [Portion.nodes, ← h2, List.map_map]
  rfl

macro_rules
  | `(tactic| rewrite_leaf) => `(tactic|
      with_reducible exact Text.under ‹_› (by with_unfolding_all rfl) _ _ (by omega) ‹_› ‹_›)

theorem NewProvision.rewrites (hL : LvlRewrites n) :
    ∀ (x : Element) (v : NewProvision (lvl n)), x.node.height < n → v.Reads x →
      v.toXml = rewrite x := by
  reads_rewrite NewProvision.toXml

theorem AmendProvision.rewrites (hL : LvlRewrites n) :
    Rewrites n "AmendProvision" (AmendProvision.parser (L := lvl n)) AmendProvision.toXml := by
  intro e v he hn h
  have h1 := C36_amendprovision n e v h
  have h2 : LastOpt AmendProvision.sentenceOf "AmendProvisionSentence" e.children v.sentence := by
    have h := (ite_eq_ok h).2
    obtain ⟨s, hs, h⟩ := Res.bind_eq_ok.1 h
    cases h
    refine lastOpt_of_rel (forElems_last (fun s => s.sentence) hs rfl ?_)
    intro s x s' h
    simp only [AmendProvision.step, matchTag_cons, matchTag_nil] at h
    split at h
    · next hx =>
      obtain ⟨w, hw, h⟩ := Res.bind_eq_ok.1 h
      cases h
      exact .inl ⟨by simp [hx], w, hw, rfl⟩
    · next hx =>
      split at h
      · obtain ⟨w, -, h⟩ := Res.bind_eq_ok.1 h
        cases h
        exact .inr ⟨by simpa using hx, rfl⟩
      · cases h
  refine element_eq hn (by with_unfolding_all rfl) rfl rfl ?_
  simp only [List.flatMap_cons, List.flatMap_nil, List.append_nil]
  exact app (last_of (w := fun s => AmendProvision.wrap (Sentence.toXml s)) h2 he
      fun x v hx => AmendProvision.sentence_rewrites hL x v (by omega))
    (wrapped_of (by with_unfolding_all rfl) h1 he (NewProvision.rewrites hL))

/-! ## All levels -/

/-- Everything that is read is written as the table says. -/
theorem lvl_rewrites : ∀ n, LvlRewrites n
  | 0 =>
    { text := fun _ t _ => t.elim
      contents := fun _ v _ _ => v.elim
      item := fun _ v _ _ _ => v.elim
      column := fun _ v _ _ _ => v.elim
      amend := fun _ v _ _ _ => v.elim }
  | n + 1 =>
    have hL := lvl_rewrites n
    { text := fun l t h => by
        cases h
        change List.map TextElement.toNode (l.map TextElement.text) = _
        rw [List.map_map]
        rfl
      contents := fun e v he h => Contents.rewrites hL e v he h
      item := fun x v hx hn h => Item.rewrites hL x v (Nat.le_of_lt_succ hx) hn h
      column := fun x v hx hn h => TableColumn.rewrites hL x v (Nat.le_of_lt_succ hx) hn h
      amend := fun x v hx hn h => AmendProvision.rewrites hL x v (Nat.le_of_lt_succ hx) hn h }

/-! ## The whole document -/

theorem apply_usizeOf {e : Element} {k : String} {o : Option Usize} (h : Law.usizeOf e k = .ok o) :
    Change.count.apply (e.attributes.get k) = o.map usizeStr := by
  unfold Law.usizeOf at h
  cases hg : e.attributes.get k with
  | none => rw [hg] at h; cases h; rfl
  | some s =>
    rw [hg] at h
    simp only at h
    rw [Change.apply, Option.bind_some, literal?_str]
    split at h
    · next hs => cases h; subst hs; rfl
    · split at h
      · next v hv => cases h; rw [hv]
      · cases h

theorem apply_year {e : Element} {k : String} {v : Usize}
    (h : getAttributeWithParse parseUsizeStr e k = .ok v) :
    Change.count.apply (e.attributes.get k) = some (usizeStr v) := by
  unfold getAttributeWithParse at h
  cases hg : e.attributes.get k with
  | none => rw [hg] at h; cases h
  | some s =>
    rw [hg] at h
    simp only at h
    rw [Change.apply, Option.bind_some, literal?_str]
    split at h
    · next v hv => cases h; rw [hv]; rfl
    · cases h

theorem apply_numOf {e : Element} {o : Option ArticleNumber} (h : Law.numOf e = .ok o) :
    Change.number.apply (e.attributes.get "Num") = o.map ArticleNumber.numStr := by
  obtain ⟨s, hs, h⟩ := Res.bind_eq_ok.1 h
  cases hg : e.attributes.get "Num" with
  | none => rw [hg] at hs; cases hs
  | some s' =>
    rw [hg] at hs
    cases hs
    rw [apply_parse?]
    split at h
    · next h0 => cases h; subst h0; rfl
    · obtain ⟨a, ha, h⟩ := Res.bind_eq_ok.1 h
      cases h
      rw [ArticleNumber.parse?, ha]

theorem Era.toAttr_fromAttr {o : Option String} {v : Era} (h : Era.fromAttr o = some v) :
    o = some v.toAttr := by
  unfold Era.fromAttr at h
  split at h <;> cases h <;> rfl

theorem LawType.toAttr_fromAttr {o : Option String} {v : LawType}
    (h : LawType.fromAttr o = some v) : o = some v.toAttr := by
  unfold LawType.fromAttr at h
  split at h <;> cases h <;> rfl

theorem Lang.toAttr_fromAttr {o : Option String} {v : Lang} (h : Lang.fromAttr o = some v) :
    o = some v.toAttr := by
  unfold Lang.fromAttr at h
  split at h <;> cases h <;> rfl

theorem ofOption_ok {d : Err} {o : Option α} {v : α} (h : Res.ofOption d o = .ok v) :
    o = some v := by
  cases o with
  | none => cases h
  | some w => cases h; rfl

theorem Law.rewrites (e : Element) (v : Law (lvl n)) (he : e.node.height ≤ n)
    (h : Law.parser e = .ok v) : v.toXml = rewrite e := by
  obtain ⟨hn, h⟩ := ite_eq_ok h
  obtain ⟨era, hera, h⟩ := Res.bind_eq_ok.1 h
  obtain ⟨year, hyear, h⟩ := Res.bind_eq_ok.1 h
  obtain ⟨num, hnum, h⟩ := Res.bind_eq_ok.1 h
  obtain ⟨month, hmonth, h⟩ := Res.bind_eq_ok.1 h
  obtain ⟨day, hday, h⟩ := Res.bind_eq_ok.1 h
  obtain ⟨type, htype, h⟩ := Res.bind_eq_ok.1 h
  obtain ⟨lang, hlang, h⟩ := Res.bind_eq_ok.1 h
  obtain ⟨ln, hln, h⟩ := Res.bind_eq_ok.1 h
  obtain ⟨b, hb, h⟩ := Res.bind_eq_ok.1 h
  obtain ⟨body, hbody, h⟩ := Res.bind_eq_ok.1 h
  cases h
  refine element_eq hn (by with_unfolding_all rfl) rfl ?_ ?_
  · have e1 := Era.toAttr_fromAttr (ofOption_ok hera)
    have e2 := LawType.toAttr_fromAttr (ofOption_ok htype)
    have e3 := Lang.toAttr_fromAttr (ofOption_ok hlang)
    simp only [Layout.setAttrs, List.foldl_cons, List.foldl_nil, apply_year hyear,
      apply_numOf hnum, apply_usizeOf hmonth, apply_usizeOf hday]
    simp only [Change.apply, e1, e2, e3]
    rfl
  · simp only [List.flatMap_cons, List.flatMap_nil, List.append_nil]
    unfold Law.lawNumOf at hln
    split at hln
    · next m a c rest hc =>
      obtain ⟨hm, hln⟩ := ite_eq_ok hln
      cases hln
      unfold Law.bodyOf at hb
      rw [hc] at hb
      cases rest with
      | nil => cases hb
      | cons y rest =>
        cases y with
        | element m2 a2 c2 =>
          cases hb
          have hx : (⟨m2, a2, c2⟩ : Element) ∈ elems e.children := by
            rw [hc, elems_element, elems_element]; simp
          have hr := LawBody.rewrites (lvl_rewrites n) _ body (Nat.le_of_lt (height_elems he hx))
            (ite_eq_ok hbody).1 hbody
          have hl : rewrite ⟨m, a, c⟩ = ⟨"LawNum", [], [.text (nodesText c)]⟩ := by
            rw [rewrite_of (t := "LawNum") hm (by with_unfolding_all rfl)]
            simp only [List.flatMap_cons, List.flatMap_nil, List.append_nil, nodes_joined]
            rfl
          rw [hr, hc, Portion.nodes, rewriteList_eq, ← rewriteNode_node, ← hl, ← rewriteNode_node]
          rfl
        | _ => cases hb
    · cases hln

end JLaw
