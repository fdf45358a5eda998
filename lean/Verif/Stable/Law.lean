import Verif.Stable.Appdx
import Verif.Stable.Toc

/-! # What readers give on clean elements: laws, cells, raw contents and amendments -/

namespace JLaw

variable {L : Lvl} {K : Keep L}

theorem LawTitle.gives (hL : L.Reads K) {e : Element} (he : Clean e) :
    Gives (LawTitle.parser e) (LawTitle.Keeps K) := by
  unfold LawTitle.parser
  gives
  assumption

macro_rules
  | `(tactic| gives_leaf) => `(tactic| with_reducible exact LawTitle.gives (by assumption) (by clean))

theorem Preamble.gives (hL : L.Reads K) {e : Element} (he : Clean e) :
    Gives (Preamble.parser e) (Preamble.Keeps K) := by
  unfold Preamble.parser
  refine .ite (fun hn => ?_) fun _ => .err _
  exact .bind (.readTagged he.kids fun x hx => Paragraph.gives hL hx) fun l hl => .ok hl

macro_rules
  | `(tactic| gives_leaf) => `(tactic| with_reducible exact Preamble.gives (by assumption) (by clean))

theorem MainProvisionContents.arms_gives (hL : L.Reads K) :
    Gives.Arms (MainProvisionContents.arms (L := L)) (MainProvisionContents.Keeps K) := by
  unfold MainProvisionContents.arms
  gives <;> assumption

theorem MainProvision.gives (hL : L.Reads K) {e : Element} (he : Clean e) :
    Gives (MainProvision.parser e) (MainProvision.Keeps K) := by
  unfold MainProvision.parser
  refine .ite (fun hn => .bind .any fun _ _ => ?_) fun _ => .err _
  exact .bind (.readAll he.kids fun x hx => .matchTag (MainProvisionContents.arms_gives hL) hx
    (.unexpected _ _)) fun l hl => .ok hl

macro_rules
  | `(tactic| gives_leaf) => `(tactic| with_reducible exact MainProvision.gives (by assumption) (by clean))

theorem LawBody.gives (hL : L.Reads K) {e : Element} (he : Clean e) :
    Gives (LawBody.parser e) (LawBody.Keeps K) := by
  unfold LawBody.parser LawBody.step
  refine .ite (fun hn => .bind .any fun _ _ => ?_) fun _ => .err _
  refine .bind (.forElems (fun s : LawBody.St L => OptKeeps (fun t => t.Keeps K) s.law_title ∧
    (∀ t ∈ s.enact_statement, t.Keeps K) ∧ OptKeeps (fun t => t.Keeps K) s.toc ∧
    OptKeeps (fun t => t.Keeps K) s.preamble ∧ OptKeeps (fun t => t.Keeps K) s.main_provision ∧
    (∀ v ∈ s.suppl_provision, v.Keeps K) ∧ (∀ v ∈ s.appdx_table, AppdxTable.Keeps K v) ∧
    (∀ v ∈ s.appdx_note, AppdxNote.Keeps K v) ∧ (∀ v ∈ s.appdx_style, AppdxStyle.Keeps K v) ∧
    (∀ v ∈ s.appdx, v.Keeps K) ∧ (∀ v ∈ s.appdx_fig, v.Keeps K) ∧
    ∀ v ∈ s.appdx_format, AppdxFormat.Keeps K v) he.kids ?_ ?_) ?_
  · exact ⟨.none, keeps_nil, .none, .none, .none, keeps_nil, keeps_nil, keeps_nil, keeps_nil,
      keeps_nil, keeps_nil, keeps_nil⟩
  · rintro s x - hx ⟨h1, h2, h3, h4, h5, h6, h7, h8, h9, h10, h11, h12⟩
    gives <;> invs
  · rintro s ⟨h1, h2, h3, h4, h5, h6, h7, h8, h9, h10, h11, h12⟩
    split
    · exact .ok ⟨h1, h2, h3, h4, h5 _ ‹_›, h6, h7, h8, h9, h10, h11, h12⟩
    · exact .err _

theorem Law.numOf_gives {e : Element} (he : Clean e) (hn : e.name = "Law") :
    Gives (Law.numOf e) fun o => ∃ n, o = some n ∧ n.Keeps := by
  unfold Law.numOf
  cases hs : e.attributes.get "Num" with
  | none => exact fun _ h => by cases h
  | some s =>
    obtain ⟨a, h1, h2⟩ := Gives.fromNumStr he (by rw [hn]; decide) hs
    refine .bind (.ok (P := (· = s)) rfl) fun t ht => ?_
    subst ht
    refine .ite (fun h => ?_) fun _ => ?_
    · rw [h] at h1
      have hd : (match ArticleNumber.fromNumStr "" with | .ok _ => true | _ => false) = false := by
        decide
      rw [h1] at hd
      cases hd
    · rw [h1]
      exact .ok ⟨a, rfl, h2⟩

theorem Law.gives (hL : L.Reads K) {e : Element} (he : Clean e) :
    Gives (Law.parser e) (Law.Keeps K) := by
  unfold Law.parser
  refine .ite (fun hn => .bind .any fun _ _ => .bind .any fun _ _ =>
    .bind (Law.numOf_gives he hn) fun num hnum => .bind .any fun _ _ => .bind .any fun _ _ =>
    .bind .any fun _ _ => .bind .any fun _ _ => .bind .any fun _ _ =>
    .bind (P := Clean) ?_ fun b hb => .bind (LawBody.gives hL hb) fun x hx => .ok ⟨hnum, hx⟩)
    fun _ => .err _
  unfold Law.bodyOf
  split
  · rename_i heq
    exact .ok (he.kids.elem (by rw [heq]; simp))
  · exact .err _

/-! ## Cells, raw contents, amendments -/

theorem TableColumnContents.arms_gives (hL : L.Reads K) :
    Gives.Arms (TableColumnContents.arms (L := L)) (TableColumnContents.Keeps K) := by
  unfold TableColumnContents.arms
  gives <;> assumption

theorem TableColumn.border_ne (e : Element) (k : String) : TableColumn.border e k ≠ .double := by
  unfold TableColumn.border
  have h := LineStyle.fromAttr_ne (e.attributes.get k)
  revert h
  cases LineStyle.fromAttr (e.attributes.get k) with
  | none => exact fun _ => by decide
  | some s => exact fun h hs => h (congrArg some hs)

theorem Align.fromAttr_none {o : Option String}
    (h : ∀ s ∈ ["left", "center", "right", "justify"], o ≠ some s) : Align.fromAttr o = none := by
  unfold Align.fromAttr
  split <;> first | rfl | exact absurd rfl (h _ (by decide))

theorem Position.fromAttr_none {o : Option String}
    (h : ∀ s ∈ ["top", "middle", "bottom"], o ≠ some s) : Position.fromAttr o = none := by
  unfold Position.fromAttr
  split <;> first | rfl | exact absurd rfl (h _ (by decide))

theorem TableColumn.gives (hL : L.Reads K) {e : Element} (he : Clean e) :
    Gives (TableColumn.parser e) (TableColumn.Keeps K) := by
  unfold TableColumn.parser
  refine .ite (fun hn => .bind .any fun _ _ => .bind .any fun _ _ => ?_) fun _ => .err _
  refine .bind (.mixed he.kids (fun x hx => .matchTag (TableColumnContents.arms_gives hL) hx
    (.unexpected _ _)) fun _ => trivial) fun l hl => .ok ?_
  obtain ⟨n, a, c⟩ := e
  obtain rfl : n = _ := hn
  exact ⟨hl, border_ne _ _, border_ne _ _, border_ne _ _, border_ne _ _,
    Align.fromAttr_none fun s hs h => he.not_lossy (.align hs h),
    Position.fromAttr_none fun s hs h => he.not_lossy (.valign hs h)⟩

theorem ContentsElement.arms_gives (hL : L.Reads K) :
    Gives.Arms (ContentsElement.arms (L := L)) (ContentsElement.Keeps K) := by
  unfold ContentsElement.arms
  gives <;> assumption

theorem Contents.gives (hL : L.Reads K) {e : Element} (he : Clean e) :
    Gives (Contents.parser e) (Contents.Keeps K) := by
  unfold Contents.parser
  exact .bind (.mixed he.kids (fun x hx => .matchTag (ContentsElement.arms_gives hL) hx
    (.unexpected _ _)) fun _ => trivial) fun l hl => .ok hl

theorem AmendProvision.sentenceOf_gives (hL : L.Reads K) {e : Element} (he : Clean e) :
    Gives (AmendProvision.sentenceOf e) (Sentence.Keeps K) := by
  unfold AmendProvision.sentenceOf
  split
  · rename_i heq
    exact Sentence.gives hL (he.kids.elem (by rw [heq]; simp))
  · exact .err _

theorem AmendProvision.gives (hL : L.Reads K) {e : Element} (he : Clean e) :
    Gives (AmendProvision.parser e) (AmendProvision.Keeps K) := by
  unfold AmendProvision.parser AmendProvision.step
  refine .ite (fun hn => ?_) fun _ => .err _
  refine .bind (.forElems (fun s : AmendProvision.St L => OptKeeps (fun t => t.Keeps K) s.sentence ∧
    s.new_provision = []) he.kids ?_ ?_) ?_
  · exact ⟨.none, rfl⟩
  · rintro s x - hx ⟨h1, h2⟩
    refine .cons (fun _ => .bind (AmendProvision.sentenceOf_gives hL hx) fun v hv => .ok ?_) <|
      .cons (fun hn => (hx.not_lost (by rw [hn]; decide)).elim) <| .nil <| .unexpected _ _
    invs
  · exact fun s hs => .ok hs

/-! ## All levels -/

theorem Lvl.Reads.succ (hL : L.Reads K) : L.succ.Reads K.succ where
  plain l := .ok fun c hc => by
    obtain ⟨s, -, rfl⟩ := List.mem_map.1 hc
    exact ⟨s, rfl⟩
  contents _ h := Contents.gives hL h
  item _ h := Item.gives hL h
  column _ h := TableColumn.gives hL h
  amend _ h := AmendProvision.gives hL h

theorem lvl_reads : ∀ n, (lvl n).Reads (kcanon n)
  | 0 => ⟨fun _ => .deep, fun _ _ => .deep, fun _ _ => .deep, fun _ _ => .deep, fun _ _ => .deep⟩
  | n + 1 => (lvl_reads n).succ

end JLaw
