import Verif.Lemmas.Xml
import Verif.Spec.Keep

/-! # Round trips: text, lines, sentences -/

namespace JLaw

variable {L : Lvl} {K : Keep L}

/-- The strings among the nodes. -/
def nodeStrings : List XMLNode → List String
  | [] => []
  | .text s :: ns => s :: nodeStrings ns
  | _ :: ns => nodeStrings ns

/-- `K` describes the survivors of the five types of level `L`. -/
structure Lvl.Sound (L : Lvl) (K : Keep L) : Prop where
  text : ∀ t, L.textOfStrings (nodeStrings (L.textToChildren t)) = .ok t ↔ K.plain t
  contents : ∀ (e : Element) c, e.children = L.contentsToChildren c →
    (L.contentsParser e = .ok c ↔ K.contents c)
  item : ∀ x, L.itemParser (L.itemToXml x) = .ok x ↔ K.item x
  item_name : ∀ x, (L.itemToXml x).name = "Item"
  column : ∀ x, L.columnParser (L.columnToXml x) = .ok x ↔ K.column x
  column_name : ∀ x, (L.columnToXml x).name = "TableColumn"
  amend : ∀ x, L.amendParser (L.amendToXml x) = .ok x ↔ K.amend x
  amend_name : ∀ x, (L.amendToXml x).name = "AmendProvision"

theorem Ruby.fold_strings (c : List XMLNode) (s : Ruby.St) :
    ∃ r, foldRes Ruby.step s c = .ok ⟨s.text ++ nodeStrings c, r⟩ := by
  induction c generalizing s with
  | nil => exact ⟨s.ruby, by simp [nodeStrings]⟩
  | cons n ns ih =>
    cases n with
    | element n a c =>
      simp only [foldRes_cons, Ruby.step, nodeStrings]
      split
      · exact ih _
      · exact ih _
    | text t =>
      obtain ⟨r, h⟩ := ih { s with text := s.text ++ [t] }
      exact ⟨r, by simpa [Ruby.step, nodeStrings] using h⟩
    | comment t => exact ih s
    | cdata t => exact ih s
    | processingInstruction t d => exact ih s

@[simp] theorem nodesText_single (s : String) : nodesText [.text s] = s := by
  simp [nodesText, XMLNode.textOrEmpty]

theorem Ruby.parser_toXml (r : Ruby L) :
    Ruby.parser r.toXml =
      (L.textOfStrings (nodeStrings (L.textToChildren r.text))).bind fun t => .ok ⟨t, r.ruby⟩ := by
  unfold Ruby.parser Ruby.toXml
  rw [if_pos rfl]
  simp only [foldRes_append]
  obtain ⟨o, h⟩ := Ruby.fold_strings (L.textToChildren r.text) {}
  rw [h]
  simp [Ruby.step]

theorem Ruby.round_trip (hL : L.Sound K) (r : Ruby L) :
    Ruby.parser r.toXml = .ok r ↔ r.Keeps K := by
  obtain ⟨t, s⟩ := r
  rw [Ruby.parser_toXml, Ruby.Keeps, ← hL.text]
  simp [Res.bind_eq_ok]

theorem Sup.round_trip (x : Sup) : Sup.parser x.toXml = .ok x := rfl

theorem Sub.round_trip (x : Sub) : Sub.parser x.toXml = .ok x := rfl

theorem QuoteStruct.round_trip (hL : L.Sound K) (q : QuoteStruct L) :
    QuoteStruct.parser q.toXml = .ok q ↔ q.Keeps K := by
  obtain ⟨c⟩ := q
  unfold QuoteStruct.parser QuoteStruct.toXml
  rw [QuoteStruct.Keeps, ← hL.contents (rawXml "QuoteStruct" c) c rfl]
  simp [Res.bind_eq_ok]

theorem ArithFormula.round_trip (hL : L.Sound K) (a : ArithFormula L) :
    ArithFormula.parser a.toXml = .ok a ↔ a.Keeps K := by
  obtain ⟨n, c⟩ := a
  unfold ArithFormula.parser ArithFormula.toXml
  rw [ArithFormula.Keeps, ← hL.contents (rawXml "ArithFormula" c) c rfl]
  simp only [getAttributeOptWithParse, rawXml, Attrs.get_nil, Res.bind_ok, Res.bind_eq_ok,
    Res.ok.injEq, mk.injEq]
  grind

/-- Injectivity of a constructor. -/
macro "inj" : tactic => `(tactic| (intro a b h; injection h))

theorem LineContents.round_trip (hL : L.Sound K) (outer : Element) (x : LineContents L) :
    mixedNode (LineContents.elem outer) .string x.toNode = .ok [x] ↔ x.Keeps K := by
  cases x with
  | quoteStruct v => exact mixed_arm (QuoteStruct.round_trip hL v) rfl (by inj)
  | arithFormula v => exact mixed_arm (ArithFormula.round_trip hL v) rfl (by inj)
  | ruby v => exact mixed_arm (Ruby.round_trip hL v) rfl (by inj)
  | sup v => exact mixed_arm (iff_of_true (Sup.round_trip v) trivial) rfl (by inj)
  | sub v => exact mixed_arm (iff_of_true (Sub.round_trip v) trivial) rfl (by inj)
  | string s => exact iff_of_true rfl trivial

theorem LineContents.toNode_shape (x : LineContents L) :
    (∃ e : Element, x.toNode = e.node) ∨ ∃ s, x.toNode = .text s := by
  cases x <;> first | exact .inl ⟨_, rfl⟩ | exact .inr ⟨_, rfl⟩

theorem LineStyle.fromAttr_toAttr (s : LineStyle) :
    LineStyle.fromAttr (some s.toAttr) = some s ↔ s ≠ .double := by
  cases s <;> decide

theorem LineStyle.fromAttr_toAttr_isSome (s : LineStyle) :
    ∃ t, LineStyle.fromAttr (some s.toAttr) = some t := by
  cases s <;> exact ⟨_, rfl⟩

theorem Line.toXml_name (x : Line L) : x.toXml.name = "Line" := rfl

theorem Line.round_trip (hL : L.Sound K) (x : Line L) :
    Line.parser x.toXml = .ok x ↔ x.Keeps K := by
  obtain ⟨c, s⟩ := x
  obtain ⟨t, ht⟩ := LineStyle.fromAttr_toAttr_isSome s
  simp only [Line.Keeps, ← LineStyle.fromAttr_toAttr, ← LineContents.round_trip hL (Line.toXml ⟨c, s⟩),
    ← mixed_map_eq_self _ _ LineContents.toNode c LineContents.toNode_shape]
  unfold Line.parser
  rw [if_pos (Line.toXml_name _)]
  simp only [Line.toXml, Attrs.get_insert, if_true, ht, Res.ofOption, Res.bind_ok, Res.bind_eq_ok,
    Res.ok.injEq, mk.injEq, Option.some.injEq]
  grind

theorem pushOk_eq_single {α β : Type} {f : α → β} (hf : ∀ a b, f a = f b → a = b) {r : Res α}
    {x : α} : pushOk f r = .ok [f x] ↔ r = .ok x := by
  unfold pushOk
  cases r with
  | ok a =>
    simp only [Res.skipErr_ok, Res.bind_ok, Option.toList_some, List.map_cons, List.map_nil,
      Res.ok.injEq, List.cons.injEq, and_true]
    exact ⟨hf a x, fun h => h ▸ rfl⟩
  | err e => simp
  | panic => simp
  | deep => simp

theorem pushOk_length {α β : Type} {f : α → β} {r : Res α} {l : List β} (h : pushOk f r = .ok l) :
    l.length ≤ 1 := by
  unfold pushOk at h
  cases r with
  | ok a => simp at h; simp [← h]
  | err e => simp at h; simp [h]
  | panic => simp at h
  | deep => simp at h

theorem TextElement.ofNode_length {n : XMLNode} {l : List (TextElement L)}
    (h : TextElement.ofNode n = .ok l) : l.length ≤ 1 := by
  cases n with
  | element n a c =>
    simp only [TextElement.ofNode, matchTag_cons, matchTag_nil] at h
    split at h
    · exact pushOk_length h
    split at h
    · exact pushOk_length h
    split at h
    · exact pushOk_length h
    split at h
    · exact pushOk_length h
    · cases h; simp
  | text s => cases h; simp
  | comment s => cases h; simp
  | cdata s => cases h; simp
  | processingInstruction s d => cases h; simp

theorem TextElement.round_trip (hL : L.Sound K) (x : TextElement L) :
    TextElement.ofNode x.toNode = .ok [x] ↔ x.Keeps K := by
  cases x with
  | ruby v => rw [TextElement.Keeps, ← Ruby.round_trip hL]; exact pushOk_eq_single (by inj)
  | line v => rw [TextElement.Keeps, ← Line.round_trip hL]; exact pushOk_eq_single (by inj)
  | sup v => exact iff_of_true rfl trivial
  | sub v => exact iff_of_true rfl trivial
  | text s => exact iff_of_true rfl trivial

theorem collect_text (hL : L.Sound K) (l : List (TextElement L)) :
    collectRes TextElement.ofNode (l.map TextElement.toNode) = .ok l ↔ ∀ c ∈ l, c.Keeps K := by
  rw [collectRes_map, collectRes_eq_self _ _ fun x _ l h => TextElement.ofNode_length h]
  simp only [TextElement.round_trip hL]

theorem Text.fromChildren_toChildren (hL : L.Sound K) (t : Text L) :
    Text.fromChildren t.toChildren = .ok t ↔ t.Keeps K := by
  obtain ⟨l⟩ := t
  rw [Text.Keeps, ← collect_text hL]
  simp [Text.fromChildren, Text.toChildren, Res.bind_eq_ok]

theorem Text.round_trip (hL : L.Sound K) (t : Text L) (name : String) :
    Text.ofElement (t.toXml name) = .ok t ↔ t.Keeps K :=
  Text.fromChildren_toChildren hL t

theorem WritingMode.fromAttr_toAttr (m : WritingMode) : WritingMode.fromAttr m.toAttr = m := by
  cases m <;> rfl

theorem TextWithWritingMode.round_trip (hL : L.Sound K) (t : TextWithWritingMode L)
    (name : String) : TextWithWritingMode.parser (t.toXml name) = .ok t ↔ t.Keeps K := by
  obtain ⟨l, m⟩ := t
  rw [TextWithWritingMode.Keeps, ← collect_text hL]
  simp [TextWithWritingMode.parser, TextWithWritingMode.toXml, Text.fromChildren, Res.bind_eq_ok,
    WritingMode.fromAttr_toAttr]

theorem SentenceElement.round_trip (hL : L.Sound K) (outer : Element) (x : SentenceElement L) :
    mixedNode (SentenceElement.elem outer) .string x.toNode = .ok [x] ↔ x.Keeps K := by
  cases x with
  | line v => exact mixed_arm (Line.round_trip hL v) rfl (by inj)
  | quoteStruct v => exact mixed_arm (QuoteStruct.round_trip hL v) rfl (by inj)
  | arithFormula v => exact mixed_arm (ArithFormula.round_trip hL v) rfl (by inj)
  | ruby v => exact mixed_arm (Ruby.round_trip hL v) rfl (by inj)
  | sup v => exact mixed_arm (iff_of_true (Sup.round_trip v) trivial) rfl (by inj)
  | sub v => exact mixed_arm (iff_of_true (Sub.round_trip v) trivial) rfl (by inj)
  | string s => exact iff_of_true rfl trivial

theorem SentenceElement.toNode_shape (x : SentenceElement L) :
    (∃ e : Element, x.toNode = e.node) ∨ ∃ s, x.toNode = .text s := by
  cases x <;> first | exact .inl ⟨_, rfl⟩ | exact .inr ⟨_, rfl⟩

theorem SentenceFunction.ofStr_toStr (x : SentenceFunction) : ofStr x.toStr = some x := by
  cases x <;> rfl

theorem SentenceIndent.ofStr_toStr (x : SentenceIndent) : ofStr x.toStr = some x := by
  cases x <;> rfl

theorem Sentence.toXml_name (x : Sentence L) : x.toXml.name = "Sentence" := rfl

theorem Sentence.round_trip (hL : L.Sound K) (x : Sentence L) :
    Sentence.parser x.toXml = .ok x ↔ x.Keeps K := by
  obtain ⟨c, n, f, i, m⟩ := x
  simp only [Sentence.Keeps, ← SentenceElement.round_trip hL (Sentence.toXml ⟨c, n, f, i, m⟩),
    ← mixed_map_eq_self _ _ SentenceElement.toNode c SentenceElement.toNode_shape]
  unfold Sentence.parser
  rw [if_pos (Sentence.toXml_name _),
    getOpt_of_get parseUsizeStr usizeStr parseUsizeStr_usizeStr _ _ n (by simp [Sentence.toXml]),
    getOpt_of_get SentenceFunction.ofStr _ SentenceFunction.ofStr_toStr _ _ f
      (by simp [Sentence.toXml]),
    getOpt_of_get SentenceIndent.ofStr _ SentenceIndent.ofStr_toStr _ _ i
      (by simp [Sentence.toXml])]
  simp [Sentence.toXml, Res.bind_eq_ok, WritingMode.fromAttr_toAttr]

end JLaw
