import Verif.Reading.RewriteArticle

/-!
# Reading and writing again: tables of contents, appendices and supplementary provisions
-/

namespace JLaw

open Spec

variable {n : Nat} {α β τ : Type}

/-- A text that is written under another tag. -/
theorem Text.retagged (hL : LvlRewrites n) {t under : String}
    (ht : layouts.lookup t = some textLayout) (x : Element) (v : Text (lvl n))
    (hx : x.node.height < n) (hn : x.name = t) (h : Text.fromChildren x.children = .ok v) :
    (v.toXml under).node = retag under (rewrite x).node := by
  rw [← Text.under hL ht x v (by omega) hn h]
  rfl

theorem TextWithWritingMode.retagged (hL : LvlRewrites n) {t under : String}
    (ht : layouts.lookup t = some directedLayout) (x : Element) (v : TextWithWritingMode (lvl n))
    (hx : x.node.height < n) (hn : x.name = t) (h : TextWithWritingMode.parser x = .ok v) :
    (v.toXml under).node = retag under (rewrite x).node := by
  rw [← TextWithWritingMode.under hL ht x v (by omega) hn h]
  rfl

/-- A field that is written under another tag. -/
theorem lastUnder_of {p : Element → Res α} {w : α → Element} {t under : String} {e : Element}
    {o : Option α} (h : LastOpt p t e.children o) (he : e.node.height ≤ n)
    (hw : ∀ x v, x.node.height < n → x.name = t → p x = .ok v →
      (w v).node = retag under (rewrite x).node) :
    (o.toList.map fun v => (w v).node) =
      (Portion.lastUnder t under).nodes (rewriteList e.children) := by
  rw [Portion.nodes, pick_isNamed, again, List.getLast?_map]
  cases o with
  | none => rw [show named [t] e.children = [] from h]; rfl
  | some v =>
    obtain ⟨x, hx, hv⟩ := h
    have hm := getLast?_named hx
    rw [hx, Option.toList_some, List.map_cons, hw x v (height_named he hm) (name_named hm) hv]
    rfl

/-! ## Tables of contents -/

theorem TOCOf.rewrites (hL : LvlRewrites n) {γ : Type} {tag titleTag : String}
    {kids : List String} {arms : List (String × (Element → Res γ))} {childXml : γ → Element}
    {e : Element} {v : TOCOf (lvl n) γ} (he : e.node.height ≤ n) (hn : e.name = tag)
    (hl : layouts.lookup tag = some (tocLayout titleTag kids))
    (ht : layouts.lookup titleTag = some textLayout)
    (h : TOCOf.parser tag titleTag arms e = .ok v)
    (h1 : LastOr Text.new (fun x => Text.fromChildren x.children) titleTag e.children v.title)
    (h2 : LastOpt (fun x => Text.fromChildren x.children) "ArticleRange" e.children v.article_range)
    (h3 : (v.children.map fun c => (childXml c).node) =
      (Portion.each kids).nodes (rewriteList e.children)) :
    TOCOf.toXml tag titleTag childXml v = rewrite e := by
  refine element_eq hn hl rfl ?_ ?_
  · have h := (ite_eq_ok h).2
    obtain ⟨num, hnum, h⟩ := Res.bind_eq_ok.1 h
    obtain ⟨a1, ha1, h⟩ := Res.bind_eq_ok.1 h
    obtain ⟨s, -, h⟩ := Res.bind_eq_ok.1 h
    cases h
    simp only [Layout.setAttrs, tocLayout, flagCopy, List.foldl_cons, List.foldl_nil,
      apply_flag ha1, apply_parse hnum, Attrs.insertTrue_eq]
    rfl
  · simp only [tocLayout, List.flatMap_cons, List.flatMap_nil, List.append_nil, List.append_assoc]
    exact app (lastOr_of (w := fun v => Text.toXml v titleTag) h1 he
        (fun x v hx => Text.under hL ht x v (by omega)) rfl)
      (app (last_of h2 he fun x v hx => Text.under hL (by with_unfolding_all rfl) x v (by omega)) h3)

theorem TOCDivision.rewrites (hL : LvlRewrites n) :
    Rewrites n "TOCDivision" (TOCDivision.parser (L := lvl n)) TOCDivision.toXml := by
  intro e v he hn h
  obtain ⟨h1, h2⟩ := C60_tocdivision n e v h
  refine TOCOf.rewrites hL he hn (by with_unfolding_all rfl) (by with_unfolding_all rfl) h h1 h2 ?_
  have hv : v.children = [] := by
    cases v.children with
    | nil => rfl
    | cons x _ => exact x.elim
  have hk : named [] e.children = [] := by simp [named]
  rw [hv, nodes_each_nil hk]
  rfl

macro_rules
  | `(tactic| rewrite_leaf) => `(tactic|
      with_reducible exact TOCDivision.rewrites ‹_› _ _ (by omega) ‹_› ‹_›)

theorem TOCSubsection.rewrites (hL : LvlRewrites n) :
    Rewrites n "TOCSubsection" (TOCSubsection.parser (L := lvl n)) TOCSubsection.toXml := by
  intro e v he hn h
  obtain ⟨h1, h2⟩ := C60_tocsubsection n e v h
  have h3 := C36_tocsubsection n e v h
  exact TOCOf.rewrites hL he hn (by with_unfolding_all rfl) (by with_unfolding_all rfl) h h1 h2
    (each_of h3 he fun x v hx => TOCDivision.rewrites hL x v (by omega))

macro_rules
  | `(tactic| rewrite_leaf) => `(tactic|
      with_reducible exact TOCSubsection.rewrites ‹_› _ _ (by omega) ‹_› ‹_›)

theorem TOCSection.rewrites (hL : LvlRewrites n) :
    Rewrites n "TOCSection" (TOCSection.parser (L := lvl n)) TOCSection.toXml := by
  intro e v he hn h
  obtain ⟨h1, h2⟩ := C60_tocsection n e v h
  have h3 := C36_tocsection n e v h
  exact TOCOf.rewrites hL he hn (by with_unfolding_all rfl) (by with_unfolding_all rfl) h h1 h2
    (among_of h3 he (by reads_rewrite TOCSectionContents.toXml))

macro_rules
  | `(tactic| rewrite_leaf) => `(tactic|
      with_reducible exact TOCSection.rewrites ‹_› _ _ (by omega) ‹_› ‹_›)

theorem TOCChapter.rewrites (hL : LvlRewrites n) :
    Rewrites n "TOCChapter" (TOCChapter.parser (L := lvl n)) TOCChapter.toXml := by
  intro e v he hn h
  obtain ⟨h1, h2⟩ := C60_tocchapter n e v h
  have h3 := C36_tocchapter n e v h
  exact TOCOf.rewrites hL he hn (by with_unfolding_all rfl) (by with_unfolding_all rfl) h h1 h2
    (each_of h3 he fun x v hx => TOCSection.rewrites hL x v (by omega))

macro_rules
  | `(tactic| rewrite_leaf) => `(tactic|
      with_reducible exact TOCChapter.rewrites ‹_› _ _ (by omega) ‹_› ‹_›)

theorem TOCPart.rewrites (hL : LvlRewrites n) :
    Rewrites n "TOCPart" (TOCPart.parser (L := lvl n)) TOCPart.toXml := by
  intro e v he hn h
  obtain ⟨h1, h2⟩ := C60_tocpart n e v h
  have h3 := C36_tocpart n e v h
  exact TOCOf.rewrites hL he hn (by with_unfolding_all rfl) (by with_unfolding_all rfl) h h1 h2
    (each_of h3 he fun x v hx => TOCChapter.rewrites hL x v (by omega))

macro_rules
  | `(tactic| rewrite_leaf) => `(tactic|
      with_reducible exact TOCPart.rewrites ‹_› _ _ (by omega) ‹_› ‹_›)

theorem TOCArticle.rewrites (hL : LvlRewrites n) :
    Rewrites n "TOCArticle" (TOCArticle.parser (L := lvl n)) TOCArticle.toXml := by
  intro e v he hn h
  obtain ⟨h1, h2⟩ := C60_tocarticle n e v h
  refine element_eq hn (by with_unfolding_all rfl) rfl ?_ ?_
  · have h := (ite_eq_ok h).2
    obtain ⟨num, hnum, h⟩ := Res.bind_eq_ok.1 h
    obtain ⟨a1, ha1, h⟩ := Res.bind_eq_ok.1 h
    obtain ⟨s, -, h⟩ := Res.bind_eq_ok.1 h
    split at h
    · cases h
      simp only [Layout.setAttrs, flagCopy, List.foldl_cons, List.foldl_nil,
        apply_flag ha1, apply_parse hnum, Attrs.insertTrue_eq]
      rfl
    · cases h
  · simp only [List.flatMap_cons, List.flatMap_nil, List.append_nil]
    exact app (lastOr_of (w := fun v => Text.toXml v "ArticleTitle") h1 he
        (fun x v hx => Text.under hL (by with_unfolding_all rfl) x v (by omega)) rfl)
      (must_of (w := fun v => Caption.toXml v "ArticleCaption") h2 he
        fun x v hx => Caption.under hL (by with_unfolding_all rfl) x v (by omega))

macro_rules
  | `(tactic| rewrite_leaf) => `(tactic|
      with_reducible exact TOCArticle.rewrites ‹_› _ _ (by omega) ‹_› ‹_›)

theorem TOCSupplProvision.rewrites (hL : LvlRewrites n) :
    Rewrites n "TOCSupplProvision" (TOCSupplProvision.parser (L := lvl n))
      TOCSupplProvision.toXml := by
  intro e v he hn h
  obtain ⟨h1, h2⟩ := C60_tocsupplprovision n e v h
  have h3 := C36_tocsupplprovision n e v h
  refine element_eq hn (by with_unfolding_all rfl) rfl rfl ?_
  simp only [List.flatMap_cons, List.flatMap_nil, List.append_nil, List.append_assoc]
  exact app (lastOr_of (w := fun v => Text.toXml v "SupplProvisionLabel") h1 he
        (fun x v hx => Text.under hL (by with_unfolding_all rfl) x v (by omega)) rfl)
    (app (last_of h2 he fun x v hx => Text.under hL (by with_unfolding_all rfl) x v (by omega))
      (among_of h3 he (by reads_rewrite TOCSupplProvisionContents.toXml)))

theorem TOC.rewrites (hL : LvlRewrites n) :
    Rewrites n "TOC" (TOC.parser (L := lvl n)) TOC.toXml := by
  intro e v he hn h
  obtain ⟨h1, h2, h3⟩ := C60_toc n e v h
  obtain ⟨h4, h5⟩ := C36_toc n e v h
  refine element_eq hn (by with_unfolding_all rfl) rfl rfl ?_
  simp only [List.flatMap_cons, List.flatMap_nil, List.append_nil, List.append_assoc]
  exact app (last_of h1 he fun x v hx => Text.under hL (by with_unfolding_all rfl) x v (by omega))
    (app (lastUnder_of h2 he (Text.retagged hL (by with_unfolding_all rfl)))
    (app (among_of h4 he (by reads_rewrite TOCMainContents.toXml))
    (app (last_of h3 he fun x v hx => TOCSupplProvision.rewrites hL x v (by omega))
      (each_of h5 he fun x v hx => Text.under hL (by with_unfolding_all rfl) x v (by omega)))))

macro_rules
  | `(tactic| rewrite_leaf) => `(tactic|
      with_reducible exact TOC.rewrites ‹_› _ _ (by omega) ‹_› ‹_›)

/-! ## Appendices -/

theorem parseStringOpt_ok {e : Element} {k : String} {o : Option String}
    (h : getAttributeOptWithParse parseString e k = .ok o) : e.attributes.get k = o := by
  rw [apply_opt h (str := id) (fun s v hv => by cases hv; rfl), Option.map_id]
  rfl

theorem AppdxOf.rewrites (hL : LvlRewrites n) {γ : Type} {tag titleTag : String}
    {kids : List String} {arms : List (String × (Element → Res γ))} {childXml : γ → Element}
    {e : Element} {v : AppdxOf (lvl n) γ} (he : e.node.height ≤ n) (hn : e.name = tag)
    (hl : layouts.lookup tag = some (appdxLayout titleTag kids))
    (ht : layouts.lookup titleTag = some directedLayout)
    (h : AppdxOf.parser tag titleTag arms e = .ok v)
    (h1 : LastOpt TextWithWritingMode.parser titleTag e.children v.title)
    (h2 : LastOpt (fun x => Text.fromChildren x.children) "RelatedArticleNum" e.children
      v.related_article_num)
    (h3 : LastOpt Remarks.parser "Remarks" e.children v.remarks)
    (h4 : (v.children.map fun c => (childXml c).node) =
      (Portion.each kids).nodes (rewriteList e.children)) :
    AppdxOf.toXml tag titleTag childXml v = rewrite e := by
  refine element_eq hn hl rfl ?_ ?_
  · have h := (ite_eq_ok h).2
    obtain ⟨num, hnum, h⟩ := Res.bind_eq_ok.1 h
    obtain ⟨s, -, h⟩ := Res.bind_eq_ok.1 h
    cases h
    simp only [Layout.setAttrs, appdxLayout, List.foldl_cons, List.foldl_nil, Change.apply,
      parseStringOpt_ok hnum]
  · simp only [appdxLayout, List.flatMap_cons, List.flatMap_nil, List.append_nil,
      List.append_assoc]
    exact app (last_of h1 he fun x v hx => TextWithWritingMode.under hL ht x v (by omega))
      (app (last_of h2 he fun x v hx => Text.under hL (by with_unfolding_all rfl) x v (by omega))
      (app h4 (last_of h3 he fun x v hx => Remarks.rewrites hL x v (by omega))))

theorem AppdxTable.rewrites (hL : LvlRewrites n) :
    Rewrites n "AppdxTable" (AppdxTable.parser (L := lvl n)) AppdxTable.toXml := by
  intro e v he hn h
  obtain ⟨h1, h2, h3⟩ := C60_appdxtable n e v h
  have h4 := C36_appdxtable n e v h
  exact AppdxOf.rewrites hL he hn (by with_unfolding_all rfl) (by with_unfolding_all rfl) h h1 h2
    h3 (among_of h4 he (by reads_rewrite AppdxTableContents.toXml))

macro_rules
  | `(tactic| rewrite_leaf) => `(tactic|
      with_reducible exact AppdxTable.rewrites ‹_› _ _ (by omega) ‹_› ‹_›)

theorem AppdxNote.rewrites (hL : LvlRewrites n) :
    Rewrites n "AppdxNote" (AppdxNote.parser (L := lvl n)) AppdxNote.toXml := by
  intro e v he hn h
  obtain ⟨h1, h2, h3⟩ := C60_appdxnote n e v h
  have h4 := C36_appdxnote n e v h
  exact AppdxOf.rewrites hL he hn (by with_unfolding_all rfl) (by with_unfolding_all rfl) h h1 h2
    h3 (among_of h4 he (by reads_rewrite AppdxNoteContents.toXml))

macro_rules
  | `(tactic| rewrite_leaf) => `(tactic|
      with_reducible exact AppdxNote.rewrites ‹_› _ _ (by omega) ‹_› ‹_›)

theorem AppdxStyle.rewrites (hL : LvlRewrites n) :
    Rewrites n "AppdxStyle" (AppdxStyle.parser (L := lvl n)) AppdxStyle.toXml := by
  intro e v he hn h
  obtain ⟨h1, h2, h3⟩ := C60_appdxstyle n e v h
  have h4 := C36_appdxstyle n e v h
  exact AppdxOf.rewrites hL he hn (by with_unfolding_all rfl) (by with_unfolding_all rfl) h h1 h2
    h3 (each_of h4 he fun x v hx => StyleStruct.rewrites hL x v (by omega))

macro_rules
  | `(tactic| rewrite_leaf) => `(tactic|
      with_reducible exact AppdxStyle.rewrites ‹_› _ _ (by omega) ‹_› ‹_›)

theorem AppdxFormat.rewrites (hL : LvlRewrites n) :
    Rewrites n "AppdxFormat" (AppdxFormat.parser (L := lvl n)) AppdxFormat.toXml := by
  intro e v he hn h
  obtain ⟨h1, h2, h3⟩ := C60_appdxformat n e v h
  have h4 := C36_appdxformat n e v h
  exact AppdxOf.rewrites hL he hn (by with_unfolding_all rfl) (by with_unfolding_all rfl) h h1 h2
    h3 (each_of h4 he fun x v hx => FormatStruct.rewrites hL x v (by omega))

macro_rules
  | `(tactic| rewrite_leaf) => `(tactic|
      with_reducible exact AppdxFormat.rewrites ‹_› _ _ (by omega) ‹_› ‹_›)

theorem Appdx.rewrites (hL : LvlRewrites n) :
    Rewrites n "Appdx" (Appdx.parser (L := lvl n)) Appdx.toXml := by
  intro e v he hn h
  obtain ⟨h1, h2, h3⟩ := C60_appdx n e v h
  have h4 := C36_appdx n e v h
  refine element_eq hn (by with_unfolding_all rfl) rfl rfl ?_
  simp only [List.flatMap_cons, List.flatMap_nil, List.append_nil, List.append_assoc]
  exact app (last_of h1 he fun x v hx => Text.under hL (by with_unfolding_all rfl) x v (by omega))
    (app (lastUnder_of h2 he (Text.retagged hL (by with_unfolding_all rfl)))
    (app (each_of h4 he fun x v hx => ArithFormula.rewrites hL x v (by omega))
      (last_of h3 he fun x v hx => Remarks.rewrites hL x v (by omega))))

macro_rules
  | `(tactic| rewrite_leaf) => `(tactic|
      with_reducible exact Appdx.rewrites ‹_› _ _ (by omega) ‹_› ‹_›)

theorem AppdxFig.rewrites (hL : LvlRewrites n) :
    Rewrites n "AppdxFig" (AppdxFig.parser (L := lvl n)) AppdxFig.toXml := by
  intro e v he hn h
  obtain ⟨h1, h2⟩ := C60_appdxfig n e v h
  have h3 := C36_appdxfig n e v h
  refine element_eq hn (by with_unfolding_all rfl) rfl ?_ ?_
  · have h := (ite_eq_ok h).2
    obtain ⟨num, hnum, h⟩ := Res.bind_eq_ok.1 h
    obtain ⟨s, -, h⟩ := Res.bind_eq_ok.1 h
    cases h
    simp only [Layout.setAttrs, List.foldl_cons, List.foldl_nil, Change.apply,
      parseStringOpt_ok hnum]
  · simp only [List.flatMap_cons, List.flatMap_nil, List.append_nil, List.append_assoc]
    exact app (last_of h1 he fun x v hx => TextWithWritingMode.under hL (by with_unfolding_all rfl) x v (by omega))
      (app (last_of h2 he fun x v hx => Text.under hL (by with_unfolding_all rfl) x v (by omega))
        (among_of h3 he (by reads_rewrite AppdxFigContents.toXml)))

macro_rules
  | `(tactic| rewrite_leaf) => `(tactic|
      with_reducible exact AppdxFig.rewrites ‹_› _ _ (by omega) ‹_› ‹_›)

/-! ## Supplementary provisions -/

theorem SupplAppdxOf.num_eq {γ : Type} {tag titleTag structTag missing wrong : String}
    {structP : Element → Res γ} {dflt : Element → Element → Err} {e : Element}
    {v : SupplAppdxOf (lvl n) γ}
    (h : SupplAppdxOf.parser tag titleTag structTag missing wrong structP dflt e = .ok v) :
    e.attributes.get "Num" = v.num := by
  have h := (ite_eq_ok h).2
  obtain ⟨num, hnum, h⟩ := Res.bind_eq_ok.1 h
  obtain ⟨s, -, h⟩ := Res.bind_eq_ok.1 h
  split at h
  · cases h; exact parseStringOpt_ok hnum
  · cases h

theorem SupplProvisionAppdxTable.rewrites (hL : LvlRewrites n) :
    Rewrites n "SupplProvisionAppdxTable" (SupplProvisionAppdxTable.parser (L := lvl n))
      SupplProvisionAppdxTable.toXml := by
  intro e v he hn h
  obtain ⟨h1, h2⟩ := C60_supplprovisionappdxtable n e v h
  have h3 := C36_supplprovisionappdxtable n e v h
  refine element_eq hn (by with_unfolding_all rfl) rfl ?_ ?_
  · simp only [Layout.setAttrs, List.foldl_cons, List.foldl_nil, Change.apply,
      SupplAppdxOf.num_eq h]
  · simp only [List.flatMap_cons, List.flatMap_nil, List.append_nil, List.append_assoc]
    exact app (lastUnder_of (o := some v.title) h1 he
        (TextWithWritingMode.retagged hL (by with_unfolding_all rfl)))
      (app (last_of h2 he fun x v hx => Text.under hL (by with_unfolding_all rfl) x v (by omega))
        (each_of h3 he fun x v hx => TableStruct.rewrites hL x v (by omega)))

macro_rules
  | `(tactic| rewrite_leaf) => `(tactic|
      with_reducible exact SupplProvisionAppdxTable.rewrites ‹_› _ _ (by omega) ‹_› ‹_›)

theorem SupplProvisionAppdxStyle.rewrites (hL : LvlRewrites n) :
    Rewrites n "SupplProvisionAppdxStyle" (SupplProvisionAppdxStyle.parser (L := lvl n))
      SupplProvisionAppdxStyle.toXml := by
  intro e v he hn h
  obtain ⟨h1, h2⟩ := C60_supplprovisionappdxstyle n e v h
  have h3 := C36_supplprovisionappdxstyle n e v h
  refine element_eq hn (by with_unfolding_all rfl) rfl ?_ ?_
  · simp only [Layout.setAttrs, List.foldl_cons, List.foldl_nil, Change.apply,
      SupplAppdxOf.num_eq h]
  · simp only [List.flatMap_cons, List.flatMap_nil, List.append_nil, List.append_assoc]
    exact app (last_of (o := some v.title) h1 he fun x v hx => TextWithWritingMode.under hL (by with_unfolding_all rfl) x v (by omega))
      (app (last_of h2 he fun x v hx => Text.under hL (by with_unfolding_all rfl) x v (by omega))
        (each_of h3 he fun x v hx => StyleStruct.rewrites hL x v (by omega)))

macro_rules
  | `(tactic| rewrite_leaf) => `(tactic|
      with_reducible exact SupplProvisionAppdxStyle.rewrites ‹_› _ _ (by omega) ‹_› ‹_›)

theorem SupplProvisionAppdx.rewrites (hL : LvlRewrites n) :
    Rewrites n "SupplProvisionAppdx" (SupplProvisionAppdx.parser (L := lvl n))
      SupplProvisionAppdx.toXml := by
  intro e v he hn h
  obtain ⟨h1, h2⟩ := C60_supplprovisionappdx n e v h
  have h3 := C36_supplprovisionappdx n e v h
  refine element_eq hn (by with_unfolding_all rfl) rfl ?_ ?_
  · have h := (ite_eq_ok h).2
    obtain ⟨num, hnum, h⟩ := Res.bind_eq_ok.1 h
    obtain ⟨s, -, h⟩ := Res.bind_eq_ok.1 h
    cases h
    simp only [Layout.setAttrs, List.foldl_cons, List.foldl_nil, Change.apply,
      parseStringOpt_ok hnum]
  · simp only [List.flatMap_cons, List.flatMap_nil, List.append_nil, List.append_assoc]
    exact app (last_of h1 he fun x v hx => Text.under hL (by with_unfolding_all rfl) x v (by omega))
      (app (lastUnder_of h2 he (Text.retagged hL (by with_unfolding_all rfl)))
        (each_of h3 he fun x v hx => ArithFormula.rewrites hL x v (by omega)))

macro_rules
  | `(tactic| rewrite_leaf) => `(tactic|
      with_reducible exact SupplProvisionAppdx.rewrites ‹_› _ _ (by omega) ‹_› ‹_›)

theorem SupplProvisionType.toAttr_fromAttr {o : Option String} {t : Option SupplProvisionType}
    (h : SupplProvisionType.fromAttr o = .ok t) : o = t.map SupplProvisionType.toAttr := by
  unfold SupplProvisionType.fromAttr at h
  split at h <;> cases h <;> rfl

/-- The label of a supplementary provision is not written if it is empty. -/
theorem label_of (hL : LvlRewrites n) {t : String} {e : Element} {v : Text (lvl n)}
    (ht : layouts.lookup t = some textLayout)
    (h : LastOr Text.new (fun x => Text.fromChildren x.children) t e.children v)
    (he : e.node.height ≤ n) :
    (if v.contents = [] then [] else [(v.toXml t).node]) =
      (Portion.lastUnlessEmpty t).nodes (rewriteList e.children) := by
  rw [Portion.nodes, pick_isNamed, again, List.getLast?_map]
  rcases h with ⟨h, rfl⟩ | ⟨x, hx, hv⟩
  · rw [h]; rfl
  · have hm := getLast?_named hx
    have hw := Text.under hL ht x v (Nat.le_of_lt (height_named he hm)) (name_named hm) hv
    rw [hx, Option.map_some, ← hw, Option.filter_some]
    cases hc : v.contents with
    | nil => simp [kidsOf, Element.node, Text.toXml, Text.toChildren, hc]
    | cons a l => simp [kidsOf, Element.node, Text.toXml, Text.toChildren, hc]

theorem SupplProvision.rewrites (hL : LvlRewrites n) :
    Rewrites n "SupplProvision" (SupplProvision.parser (L := lvl n)) SupplProvision.toXml := by
  intro e v he hn h
  have h1 := C60_supplprovision n e v h
  have h2 := C36_supplprovision n e v h
  refine element_eq hn (by with_unfolding_all rfl) rfl ?_ ?_
  · have h := (ite_eq_ok h).2
    obtain ⟨ty, hty, h⟩ := Res.bind_eq_ok.1 h
    obtain ⟨ex, hex, h⟩ := Res.bind_eq_ok.1 h
    obtain ⟨s, -, h⟩ := Res.bind_eq_ok.1 h
    cases h
    simp only [Layout.setAttrs, List.foldl_cons, List.foldl_nil, Change.apply,
      SupplProvisionType.toAttr_fromAttr hty, apply_opt hex boolStr_parse]
  · simp only [List.flatMap_cons, List.flatMap_nil, List.append_nil]
    exact app (label_of hL (by with_unfolding_all rfl) h1 he)
      (among_of h2 he (by reads_rewrite SupplProvisionChildrenElement.toXml))

macro_rules
  | `(tactic| rewrite_leaf) => `(tactic|
      with_reducible exact SupplProvision.rewrites ‹_› _ _ (by omega) ‹_› ‹_›)

end JLaw
