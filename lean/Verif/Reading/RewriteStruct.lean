import Verif.Reading.RewriteText

/-!
# Reading and writing again: sentences, tables, lists and structures
-/

namespace JLaw

open Spec

variable {n : Nat} {α β τ : Type}

theorem app {a b c d : List α} (h1 : a = b) (h2 : c = d) : a ++ c = b ++ d := by rw [h1, h2]

/-- The arms of an enumeration of what has been read. -/
syntax "reads_rewrite " ident : tactic
macro_rules
  | `(tactic| reads_rewrite $d:ident) => `(tactic|
    (intro x v hx hr
     cases v <;>
      (obtain ⟨hn, hv⟩ := hr
       unfold $d:ident
       rewrite_leaf)))

/-! ## Texts under a tag -/

theorem Text.under (hL : LvlRewrites n) {t : String} (ht : layouts.lookup t = some textLayout) :
    Rewrites n t (fun x => Text.fromChildren (L := lvl n) x.children) (fun v => v.toXml t) := by
  intro e v he hn h
  refine element_eq hn ht rfl rfl ?_
  simp only [textLayout, List.flatMap_cons, List.flatMap_nil, List.append_nil]
  exact Text.rewrites hL (fun x hx => height_elems he hx) h

theorem TextWithWritingMode.under (hL : LvlRewrites n) {t : String}
    (ht : layouts.lookup t = some directedLayout) :
    Rewrites n t (TextWithWritingMode.parser (L := lvl n)) (fun v => v.toXml t) := by
  intro e v he hn h
  obtain ⟨x, hx, h⟩ := Res.bind_eq_ok.1 h
  cases h
  refine element_eq hn ht rfl ?_ ?_
  · simp only [Layout.setAttrs, directedLayout, writingMode, List.foldl_cons, List.foldl_nil,
      apply_writingMode]
  · simp only [directedLayout, List.flatMap_cons, List.flatMap_nil, List.append_nil]
    exact Text.rewrites hL (fun x hx => height_elems he hx) hx

theorem Caption.under (hL : LvlRewrites n) {t : String}
    (ht : layouts.lookup t = some captionLayout) :
    Rewrites n t (Caption.parser (L := lvl n)) (fun v => v.toXml t) := by
  intro e v he hn h
  obtain ⟨x, hx, h⟩ := Res.bind_eq_ok.1 h
  obtain ⟨c, hc, h⟩ := Res.bind_eq_ok.1 h
  cases h
  refine element_eq hn ht rfl ?_ ?_
  · simp only [Layout.setAttrs, captionLayout, List.foldl_cons, List.foldl_nil, Change.apply,
      apply_opt hc boolStr_parse]
  · simp only [captionLayout, List.flatMap_cons, List.flatMap_nil, List.append_nil]
    exact Text.rewrites hL (fun x hx => height_elems he hx) hx

/-! ## Sentences, columns, figures and remarks -/

theorem SentenceFunction.toStr_ofStr (s : String) (v : SentenceFunction)
    (h : SentenceFunction.ofStr s = some v) : v.toStr = s := by
  unfold SentenceFunction.ofStr at h
  split at h <;> cases h <;> rfl

theorem SentenceIndent.toStr_ofStr (s : String) (v : SentenceIndent)
    (h : SentenceIndent.ofStr s = some v) : v.toStr = s := by
  unfold SentenceIndent.ofStr at h
  split at h <;> cases h <;> rfl

theorem Sentence.rewrites (hL : LvlRewrites n) :
    Rewrites n "Sentence" (Sentence.parser (L := lvl n)) Sentence.toXml := by
  intro e v he hn h
  have h := (ite_eq_ok h).2
  obtain ⟨a1, h1, h⟩ := Res.bind_eq_ok.1 h
  obtain ⟨a2, h2, h⟩ := Res.bind_eq_ok.1 h
  obtain ⟨a3, h3, h⟩ := Res.bind_eq_ok.1 h
  obtain ⟨c, hc, h⟩ := Res.bind_eq_ok.1 h
  cases h
  refine element_eq hn (by with_unfolding_all rfl) rfl ?_ ?_
  · simp only [Layout.setAttrs, writingMode, List.foldl_cons, List.foldl_nil, apply_count h1,
      apply_writingMode]
    simp only [Change.apply, apply_opt h2 SentenceFunction.toStr_ofStr,
      apply_opt h3 SentenceIndent.toStr_ofStr]
  · simp only [List.flatMap_cons, List.flatMap_nil, List.append_nil]
    exact mixed_of hc he (fun _ => rfl) (by arms_rewrite SentenceElement.elem)

macro_rules
  | `(tactic| rewrite_leaf) => `(tactic|
      with_reducible exact Sentence.rewrites ‹_› _ _ (by omega) ‹_› ‹_›)

theorem Column.rewrites (hL : LvlRewrites n) :
    Rewrites n "Column" (Column.parser (L := lvl n)) Column.toXml := by
  intro e v he hn h
  have h := (ite_eq_ok h).2
  obtain ⟨a1, h1, h⟩ := Res.bind_eq_ok.1 h
  obtain ⟨a2, h2, h⟩ := Res.bind_eq_ok.1 h
  obtain ⟨c, hc, h⟩ := Res.bind_eq_ok.1 h
  cases h
  refine element_eq hn (by with_unfolding_all rfl) rfl ?_ ?_
  · simp only [Layout.setAttrs, List.foldl_cons, List.foldl_nil, apply_count h1,
      apply_orFalse h2, apply_align]
    rfl
  · simp only [List.flatMap_cons, List.flatMap_nil, List.append_nil]
    exact elements_of (readAll_forall₂ hc) he fun x v hx hv =>
      Sentence.rewrites hL x v (by omega) (ite_eq_ok hv).1 hv

macro_rules
  | `(tactic| rewrite_leaf) => `(tactic|
      with_reducible exact Column.rewrites ‹_› _ _ (by omega) ‹_› ‹_›)

theorem Fig.rewrites : Rewrites n "Fig" Fig.parser Fig.toXml := by
  intro e v he hn h
  obtain ⟨s, hs, h⟩ := Res.bind_eq_ok.1 h
  cases h
  have hs : e.attributes.get "src" = some s := by
    cases hg : e.attributes.get "src" with
    | none => rw [hg] at hs; cases hs
    | some v => rw [hg] at hs; cases hs; rfl
  refine element_eq hn (by with_unfolding_all rfl) rfl ?_ rfl
  simp only [Layout.setAttrs, List.foldl_cons, List.foldl_nil, Change.apply, hs]
  rfl

macro_rules
  | `(tactic| rewrite_leaf) => `(tactic|
      with_reducible exact Fig.rewrites _ _ (Nat.le_refl _) ‹_› ‹_›)

macro_rules
  | `(tactic| rewrite_leaf) => `(tactic|
      with_reducible exact LvlRewrites.item ‹_› _ _ (by omega) ‹_› ‹_›)
macro_rules
  | `(tactic| rewrite_leaf) => `(tactic|
      with_reducible exact LvlRewrites.column ‹_› _ _ (by omega) ‹_› ‹_›)
macro_rules
  | `(tactic| rewrite_leaf) => `(tactic|
      with_reducible exact LvlRewrites.amend ‹_› _ _ (by omega) ‹_› ‹_›)

theorem Remarks.rewrites (hL : LvlRewrites n) :
    Rewrites n "Remarks" (Remarks.parser (L := lvl n)) Remarks.toXml := by
  intro e v he hn h
  refine element_eq hn (by with_unfolding_all rfl) rfl rfl ?_
  simp only [List.flatMap_cons, List.flatMap_nil, List.append_nil]
  exact among_of (C36_remarks n e v h) he (by reads_rewrite RemarksContents.toXml)

macro_rules
  | `(tactic| rewrite_leaf) => `(tactic|
      with_reducible exact Remarks.rewrites ‹_› _ _ (by omega) ‹_› ‹_›)

/-! ## Tables -/

theorem TableHeaderRow.rewrites (hL : LvlRewrites n) :
    Rewrites n "TableHeaderRow" (TableHeaderRow.parser (L := lvl n)) TableHeaderRow.toXml := by
  intro e v he hn h
  refine element_eq hn (by with_unfolding_all rfl) rfl rfl ?_
  simp only [List.flatMap_cons, List.flatMap_nil, List.append_nil]
  exact each_of (C36_table_header_row n e v h) he fun x v hx hn hv =>
    Text.under hL (by with_unfolding_all rfl) x v (by omega) hn hv

theorem TableRow.rewrites (hL : LvlRewrites n) :
    Rewrites n "TableRow" (TableRow.parser (L := lvl n)) TableRow.toXml := by
  intro e v he hn h
  refine element_eq hn (by with_unfolding_all rfl) rfl rfl ?_
  simp only [List.flatMap_cons, List.flatMap_nil, List.append_nil]
  exact each_of (C36_table_row n e v h) he hL.column

theorem Table.rewrites (hL : LvlRewrites n) :
    Rewrites n "Table" (Table.parser (L := lvl n)) Table.toXml := by
  intro e v he hn h
  obtain ⟨h1, h2⟩ := C36_table n e v h
  have h := (ite_eq_ok h).2
  obtain ⟨s, -, h⟩ := Res.bind_eq_ok.1 h
  have hw : v.writing_mode = Table.writingMode (e.attributes.get "WritingMode") := by
    cases h; rfl
  refine element_eq hn (by with_unfolding_all rfl) rfl ?_ ?_
  · simp only [Layout.setAttrs, Spec.writingMode, List.foldl_cons, List.foldl_nil, apply_tableMode,
      hw]
  · simp only [List.flatMap_cons, List.flatMap_nil, List.append_nil]
    exact app
      (each_of h1 he fun x v hx => TableHeaderRow.rewrites hL x v (by omega))
      (each_of h2 he fun x v hx => TableRow.rewrites hL x v (by omega))

macro_rules
  | `(tactic| rewrite_leaf) => `(tactic|
      with_reducible exact Table.rewrites ‹_› _ _ (by omega) ‹_› ‹_›)

/-! ## The sentences of items -/

theorem SentenceOrColumnOrTable.nonempty {e : Element} {v : SentenceOrColumnOrTable (lvl n)}
    (h : SentenceOrColumnOrTable.fromElement e = .ok v) : v.toChildren ≠ [] := by
  obtain ⟨s, -, h⟩ := Res.bind_eq_ok.1 h
  unfold choose at h
  split at h
  · next hc => cases h; simpa [toChildren] using hc
  · split at h
    · next hc => cases h; simpa [toChildren] using hc
    · split at h
      · cases h; simp [toChildren]
      · cases h

theorem nodes_either_left {p q : Portion} {c : List (XMLNode × XMLNode)} (h : p.nodes c ≠ []) :
    (Portion.either p q).nodes c = p.nodes c := by
  rw [Portion.nodes, if_neg]
  rwa [List.isEmpty_iff]

theorem nodes_either_right {p q : Portion} {c : List (XMLNode × XMLNode)} (h : p.nodes c = []) :
    (Portion.either p q).nodes c = q.nodes c := by
  rw [Portion.nodes, if_pos]
  rw [h]; rfl

theorem nodes_each_nil {tags : List String} {c : List XMLNode} (h : named tags c = []) :
    (Portion.each tags).nodes (rewriteList c) = [] := by rw [nodes_each, h]; rfl

theorem SentenceOrColumnOrTable.under (hL : LvlRewrites n) {t : String}
    (ht : layouts.lookup t = some itemSentenceLayout) :
    Rewrites n t (SentenceOrColumnOrTable.fromElement (L := lvl n)) (fun v => v.toXml t) := by
  intro e v he hn h
  refine element_eq hn ht rfl rfl ?_
  simp only [itemSentenceLayout, List.flatMap_cons, List.flatMap_nil, List.append_nil]
  have h' := C36_sentence_or_column_or_table n e v h
  have h0 := SentenceOrColumnOrTable.nonempty h
  cases v with
  | column l =>
    have hc : toChildren (.column l) = _ :=
      each_of h' he fun x v hx => Column.rewrites hL x v (by omega)
    rw [hc] at h0 ⊢
    rw [nodes_either_left h0]
  | sentence l =>
    have hc : toChildren (.sentence l) = _ :=
      each_of h'.2 he fun x v hx => Sentence.rewrites hL x v (by omega)
    rw [hc] at h0 ⊢
    rw [nodes_either_right (nodes_each_nil h'.1), nodes_either_left h0]
  | table t =>
    rw [nodes_either_right (nodes_each_nil h'.1), nodes_either_right (nodes_each_nil h'.2.1)]
    exact must_of h'.2.2 he fun x v hx => Table.rewrites hL x v (by omega)

/-! ## Structures with a title and remarks -/

/-- Whether a node is remarks that are accepted. -/
abbrev goodRemarks (x : XMLNode) : Bool := isNamed ["Remarks"] x && accepts x

theorem nodes_before (tag other : String) (c : List XMLNode) :
    (Portion.before tag other).nodes (rewriteList c) =
      ((c.takeWhile fun x => !isNamed [other] x).filter
        fun x => isNamed [tag] x && accepts x).map rewriteNode := by
  rw [Portion.nodes, rewriteList_eq, List.takeWhile_map, ← rewriteList_eq, pick_eq]
  rfl

theorem nodes_after (tag other : String) (c : List XMLNode) :
    (Portion.after tag other).nodes (rewriteList c) =
      ((c.dropWhile fun x => !isNamed [other] x).filter
        fun x => isNamed [tag] x && accepts x).map rewriteNode := by
  rw [Portion.nodes, rewriteList_eq, List.dropWhile_map, ← rewriteList_eq, pick_eq]
  rfl

/-- The remarks of a structure, before and after the body. -/
theorem BodyStruct.fold (hL : LvlRewrites n) {titleTag bodyTag : String} {titleP : Element → Res τ}
    {bodyP : Element → Res β} {outer : Element} {c : List XMLNode} {s s' : BodyStruct.St (lvl n) τ β}
    (ht : titleTag ≠ "Remarks") (hb : bodyTag ≠ "Remarks") (htb : titleTag ≠ bodyTag)
    (hc : ∀ x ∈ elems c, x.node.height < n)
    (h : forElems (BodyStruct.step titleTag bodyTag titleP bodyP outer) s c = .ok s') :
    (s.body.isSome →
      s'.title_remarks = s.title_remarks ∧
      (s'.body_remarks.map fun r => r.toXml.node) = (s.body_remarks.map fun r => r.toXml.node) ++
        (c.filter goodRemarks).map rewriteNode) ∧
    (s.body = none →
      (s'.title_remarks.map fun r => r.toXml.node) = (s.title_remarks.map fun r => r.toXml.node) ++
        ((c.takeWhile fun x => !isNamed [bodyTag] x).filter goodRemarks).map rewriteNode ∧
      (s'.body_remarks.map fun r => r.toXml.node) = (s.body_remarks.map fun r => r.toXml.node) ++
        ((c.dropWhile fun x => !isNamed [bodyTag] x).filter goodRemarks).map rewriteNode) := by
  unfold forElems at h
  induction c generalizing s with
  | nil => cases h; simp
  | cons x c ih =>
    rw [foldRes_cons] at h
    obtain ⟨s1, h1, h2⟩ := Res.bind_eq_ok.1 h
    cases x with
    | element m a d =>
      have hx := hc ⟨m, a, d⟩ (by rw [elems_element]; simp)
      have ih2 := ih (fun y hy => hc y (by rw [elems_element]; simp [hy])) h2
      revert h1
      simp only [onElem, BodyStruct.step]
      arms_cases
      · intro hm h1
        obtain ⟨v, -, h1⟩ := Res.bind_eq_ok.1 h1
        cases h1
        simp only at hm ih2
        subst hm
        simpa [goodRemarks, isNamed, ht, htb] using ih2
      · intro hm h1
        obtain ⟨o, ho, h1⟩ := Res.bind_eq_ok.1 h1
        cases h1
        simp only at hm
        subst hm
        have hacc := accepts_iff ⟨"Remarks", a, d⟩
        have hrw := rewriteNode_node ⟨"Remarks", a, d⟩
        simp only [Element.node] at hacc hrw
        rcases skipErr_of (Remarks.takes (lvl_takes True n) (fine_self (Nat.le_of_lt hx)) rfl) ho
          with ⟨v, hv, rfl, hq⟩ | ⟨rfl, hq⟩
        · have hw := Remarks.rewrites hL _ v (Nat.le_of_lt hx) rfl hv
          have ha := hacc.2 hq
          cases hbd : s.body with
          | none =>
            simp only [addRemarks, hbd] at ih2
            simp [goodRemarks, isNamed, hb.symm, ha, hrw, ← hw, Element.node] at ih2 ⊢
            simpa using ih2
          | some b =>
            simp only [addRemarks, hbd] at ih2
            simp [goodRemarks, isNamed, hb.symm, ha, hrw, ← hw, Element.node] at ih2 ⊢
            simpa using ih2
        · have ha : accepts (.element "Remarks" a d) = false := by
            rw [← Bool.not_eq_true]; exact fun h => hq (hacc.1 h)
          simp only [addRemarks] at ih2
          simpa [goodRemarks, isNamed, hb.symm, ha] using ih2
      · intro hm h1
        obtain ⟨v, -, h1⟩ := Res.bind_eq_ok.1 h1
        cases h1
        simp only at hm ih2
        subst hm
        simp [goodRemarks, isNamed, hb] at ih2 ⊢
        exact ⟨fun _ => ih2, fun _ => by simp [ih2.1, ih2.2]⟩
      · intro h1; cases h1
    | _ =>
      cases h1
      have ih2 := ih (fun y hy => hc y hy) h2
      simpa [goodRemarks, isNamed] using ih2

/-- The remarks of a structure are written before and after the body. -/
theorem BodyStruct.remarks (hL : LvlRewrites n) {tag titleTag bodyTag : String}
    {titleP : Element → Res τ} {bodyP : Element → Res β} {e : Element}
    {v : BodyStruct (lvl n) τ β} (he : e.node.height ≤ n)
    (ht : titleTag ≠ "Remarks") (hb : bodyTag ≠ "Remarks") (htb : titleTag ≠ bodyTag)
    (h : BodyStruct.parser tag titleTag bodyTag titleP bodyP e = .ok v) :
    (v.title_remarks.map fun r => r.toXml.node) =
      (Portion.before "Remarks" bodyTag).nodes (rewriteList e.children) ∧
    (v.body_remarks.map fun r => r.toXml.node) =
      (Portion.after "Remarks" bodyTag).nodes (rewriteList e.children) := by
  have h := (ite_eq_ok h).2
  obtain ⟨s, hs, h⟩ := Res.bind_eq_ok.1 h
  obtain ⟨h1, h2⟩ := (BodyStruct.fold hL ht hb htb (fun x hx => height_elems he hx) hs).2 rfl
  rw [nodes_before, nodes_after]
  split at h
  · cases h
    exact ⟨h1, h2⟩
  · cases h

theorem BodyStruct.rewrites (hL : LvlRewrites n) {tag titleTag bodyTag : String}
    {titleP : Element → Res τ} {bodyP : Element → Res β} {titleXml : τ → Element}
    {bodyXml : β → Element} {e : Element} {v : BodyStruct (lvl n) τ β} (he : e.node.height ≤ n)
    (hn : e.name = tag) (hl : layouts.lookup tag = some (structLayout titleTag bodyTag))
    (ht : titleTag ≠ "Remarks") (hb : bodyTag ≠ "Remarks") (htb : titleTag ≠ bodyTag)
    (h : BodyStruct.parser tag titleTag bodyTag titleP bodyP e = .ok v)
    (h1 : LastOpt titleP titleTag e.children v.title) (h2 : LastReq bodyP bodyTag e.children v.body)
    (htitle : Rewrites n titleTag titleP titleXml) (hbody : Rewrites n bodyTag bodyP bodyXml) :
    BodyStruct.toXml tag titleXml bodyXml v = rewrite e := by
  obtain ⟨h3, h4⟩ := BodyStruct.remarks hL he ht hb htb h
  refine element_eq hn hl rfl rfl ?_
  simp only [structLayout, List.flatMap_cons, List.flatMap_nil, List.append_nil, List.append_assoc]
  exact app (last_of h1 he fun x v hx => htitle x v (by omega)) (app h3
    (app (must_of h2 he fun x v hx => hbody x v (by omega)) h4))

theorem NoteStruct.rewrites (hL : LvlRewrites n) :
    Rewrites n "NoteStruct" (NoteStruct.parser (L := lvl n)) NoteStruct.toXml := by
  intro e v he hn h
  obtain ⟨h1, h2⟩ := C60_noteStruct n e v h
  exact BodyStruct.rewrites hL he hn (by with_unfolding_all rfl) (by decide) (by decide)
    (by decide) h h1 h2 (Text.under hL (by with_unfolding_all rfl))
    (Note.rewrites hL)

macro_rules
  | `(tactic| rewrite_leaf) => `(tactic|
      with_reducible exact NoteStruct.rewrites ‹_› _ _ (by omega) ‹_› ‹_›)

theorem StyleStruct.rewrites (hL : LvlRewrites n) :
    Rewrites n "StyleStruct" (StyleStruct.parser (L := lvl n)) StyleStruct.toXml := by
  intro e v he hn h
  obtain ⟨h1, h2⟩ := C60_styleStruct n e v h
  exact BodyStruct.rewrites hL he hn (by with_unfolding_all rfl) (by decide) (by decide)
    (by decide) h h1 h2 (Text.under hL (by with_unfolding_all rfl))
    (Style.rewrites hL)

macro_rules
  | `(tactic| rewrite_leaf) => `(tactic|
      with_reducible exact StyleStruct.rewrites ‹_› _ _ (by omega) ‹_› ‹_›)

theorem FormatStruct.rewrites (hL : LvlRewrites n) :
    Rewrites n "FormatStruct" (FormatStruct.parser (L := lvl n)) FormatStruct.toXml := by
  intro e v he hn h
  obtain ⟨h1, h2⟩ := C60_formatStruct n e v h
  exact BodyStruct.rewrites hL he hn (by with_unfolding_all rfl) (by decide) (by decide)
    (by decide) h h1 h2 (Text.under hL (by with_unfolding_all rfl))
    (Format.rewrites hL)

macro_rules
  | `(tactic| rewrite_leaf) => `(tactic|
      with_reducible exact FormatStruct.rewrites ‹_› _ _ (by omega) ‹_› ‹_›)

theorem FigStruct.rewrites (hL : LvlRewrites n) :
    Rewrites n "FigStruct" (FigStruct.parser (L := lvl n)) FigStruct.toXml := by
  intro e v he hn h
  obtain ⟨h1, h2⟩ := C60_figStruct n e v h
  exact BodyStruct.rewrites hL he hn (by with_unfolding_all rfl) (by decide) (by decide)
    (by decide) h h1 h2 (Text.under hL (by with_unfolding_all rfl))
    (Fig.rewrites)

macro_rules
  | `(tactic| rewrite_leaf) => `(tactic|
      with_reducible exact FigStruct.rewrites ‹_› _ _ (by omega) ‹_› ‹_›)

theorem TableStruct.rewrites (hL : LvlRewrites n) :
    Rewrites n "TableStruct" (TableStruct.parser (L := lvl n)) TableStruct.toXml := by
  intro e v he hn h
  obtain ⟨h1, h2⟩ := C60_tableStruct n e v h
  exact BodyStruct.rewrites hL he hn (by with_unfolding_all rfl) (by decide) (by decide)
    (by decide) h h1 h2 (TextWithWritingMode.under hL (by with_unfolding_all rfl))
    (Table.rewrites hL)

macro_rules
  | `(tactic| rewrite_leaf) => `(tactic|
      with_reducible exact TableStruct.rewrites ‹_› _ _ (by omega) ‹_› ‹_›)

/-! ## Lists -/

theorem ListSentence.rewrites (hL : LvlRewrites n) (x : Element) (v : ListSentence (lvl n))
    (hx : x.node.height < n) (hr : v.Reads x) : v.toXml = rewrite x := by
  revert hx hr
  revert x v
  reads_rewrite ListSentence.toXml

theorem listSentences_rewrites (hL : LvlRewrites n) {sentTag errName : String} {e : Element}
    {l : List (ListSentence (lvl n))} (he : e.node.height ≤ n)
    (hl : layouts.lookup sentTag = some { parts := [.elements] })
    (h : listSentences sentTag errName e = .ok l) :
    ∃ x rest, e.children = x :: rest ∧ isElement x = true ∧
      (listSentencesXml sentTag l).node = rewriteNode x := by
  obtain ⟨a, c, rest, hc, hr⟩ := listSentences_ok h
  refine ⟨_, rest, hc, rfl, ?_⟩
  have hx : (⟨sentTag, a, c⟩ : Element).node.height < n :=
    height_elems he (by rw [hc, elems_element]; simp)
  refine Eq.trans ?_ (rewriteNode_node ⟨sentTag, a, c⟩).symm
  refine congrArg Element.node (element_eq rfl hl rfl rfl ?_)
  simp only [List.flatMap_cons, List.flatMap_nil, List.append_nil]
  exact elements_of (e := ⟨sentTag, a, c⟩) (listSentences_reads hr) (Nat.le_of_lt hx)
    (ListSentence.rewrites hL)

theorem ListOf.rewrites (hL : LvlRewrites n) {γ : Type} {tag sentTag errName : String}
    {childP : Element → Res γ} {childXml : γ → Element}
    {e : Element} {v : ListOf (lvl n) γ} (he : e.node.height ≤ n)
    (ht : layouts.lookup tag = some { parts := [.elements] })
    (hl : layouts.lookup sentTag = some { parts := [.elements] })
    (hchild : ∀ x v, x.node.height < n → childP x = .ok v → childXml v = rewrite x)
    (h : ListOf.parser tag sentTag errName childP e = .ok v) :
    ListOf.toXml tag sentTag childXml v = rewrite e := by
  have hn := (ite_eq_ok h).1
  have h := (ite_eq_ok h).2
  obtain ⟨l, h1, h⟩ := Res.bind_eq_ok.1 h
  obtain ⟨c, h2, h⟩ := Res.bind_eq_ok.1 h
  cases h
  obtain ⟨x, rest, hc, hx, hs⟩ := listSentences_rewrites hL he hl h1
  refine element_eq hn ht rfl rfl ?_
  simp only [List.flatMap_cons, List.flatMap_nil, List.append_nil]
  rw [Portion.nodes, pick_eq, hc, List.filter_cons_of_pos hx, List.map_cons, ← hs,
    filter_isElement, map_rewriteNode]
  rw [hc, List.tail_cons] at h2
  refine congrArg _ (map_of_forall₂ (readAll_forall₂ h2) fun y hy w hw => ?_)
  refine hchild y w (height_elems he ?_) hw
  rw [hc]
  cases x with
  | element m a d => rw [elems_element]; simp [hy]
  | _ => cases hx

theorem Sublist3.rewrites (hL : LvlRewrites n) :
    Rewrites n "Sublist3" (Sublist3.parser (L := lvl n)) Sublist3.toXml := by
  intro e v he hn h
  have h := (ite_eq_ok h).2
  obtain ⟨l, h1, h⟩ := Res.bind_eq_ok.1 h
  cases h
  obtain ⟨x, rest, hc, hx, hs⟩ := listSentences_rewrites hL he (by with_unfolding_all rfl) h1
  refine element_eq hn (by with_unfolding_all rfl) rfl rfl ?_
  simp only [List.flatMap_cons, List.flatMap_nil, List.append_nil]
  rw [Portion.nodes, rewriteList_eq, hc, hs]
  rfl

theorem Sublist2.rewrites (hL : LvlRewrites n) :
    Rewrites n "Sublist2" (Sublist2.parser (L := lvl n)) Sublist2.toXml := by
  intro e v he hn h
  exact ListOf.rewrites hL he (by with_unfolding_all rfl) (by with_unfolding_all rfl)
    (fun x v hx hv => Sublist3.rewrites hL x v (by omega) (ite_eq_ok hv).1 hv) h

theorem Sublist1.rewrites (hL : LvlRewrites n) :
    Rewrites n "Sublist1" (Sublist1.parser (L := lvl n)) Sublist1.toXml := by
  intro e v he hn h
  exact ListOf.rewrites hL he (by with_unfolding_all rfl) (by with_unfolding_all rfl)
    (fun x v hx hv => Sublist2.rewrites hL x v (by omega) (ite_eq_ok hv).1 hv) h

theorem LawList.rewrites (hL : LvlRewrites n) :
    Rewrites n "List" (LawList.parser (L := lvl n)) LawList.toXml := by
  intro e v he hn h
  exact ListOf.rewrites hL he (by with_unfolding_all rfl) (by with_unfolding_all rfl)
    (fun x v hx hv => Sublist1.rewrites hL x v (by omega) (ite_eq_ok hv).1 hv) h

macro_rules
  | `(tactic| rewrite_leaf) => `(tactic|
      with_reducible exact LawList.rewrites ‹_› _ _ (by omega) ‹_› ‹_›)

/-! ## Structures -/

theorem Struct.rewrites (hL : LvlRewrites n) (x : Element) (v : Struct (lvl n))
    (hx : x.node.height < n) (h : Struct.parser x = .ok v) : v.toXml = rewrite x := by
  unfold Struct.parser at h
  revert h
  arms_cases
  all_goals first
    | (intro hn h
       obtain ⟨w, hv, h⟩ := Res.bind_eq_ok.1 h
       cases h
       unfold Struct.toXml
       rewrite_leaf)
    | (intro h; cases h)

end JLaw
