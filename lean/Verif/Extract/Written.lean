import Verif.Lemmas.Utils
import Verif.Lemmas.Xml
import Verif.Spec.Extract

/-!
# Lists of articles and plain text, seen in what is written

For any value the functions of src/utils.rs give what `Spec/Extract.lean` says of the elements that are
written for it.
-/

namespace JLaw

open Spec.Doc

variable {L : Lvl}

/-! ## Strings -/

theorem join_cons (s : String) (l : List String) : String.join (s :: l) = s ++ String.join l := by
  apply String.toList_inj.mp
  simp [String.toList_join]

theorem join_append (l r : List String) : String.join (l ++ r) = String.join l ++ String.join r := by
  apply String.toList_inj.mp
  simp [String.toList_join]

@[simp] theorem join_nil : String.join [] = "" := rfl

theorem join_single (s : String) : String.join [s] = s := by
  rw [join_cons, join_nil, String.append_empty]

theorem nestedText_append (c d : List XMLNode) : nestedText (c ++ d) = nestedText c ++ nestedText d := by
  induction c with
  | nil => rw [List.nil_append, nestedText, String.empty_append]
  | cons x c ih => rw [List.cons_append, nestedText, nestedText, ih, String.append_assoc]

theorem nestedText_eq (c : List XMLNode) : nestedText c = String.join (c.map nestedPiece) := by
  induction c with
  | nil => rfl
  | cons x c ih => rw [nestedText, ih, List.map_cons, join_cons]

theorem titlePiece_written : titlePiece asWritten = nestedPiece := by
  funext x
  cases x with
  | element n a c => rw [titlePiece, nestedPiece]; rfl
  | text s => rw [titlePiece, nestedPiece]
  | comment s => rw [titlePiece, nestedPiece] <;> nofun
  | cdata s => rw [titlePiece, nestedPiece] <;> nofun
  | processingInstruction s d => rw [titlePiece, nestedPiece] <;> nofun

theorem titleText_written (c : List XMLNode) : titleText asWritten c = nestedText c := by
  rw [titleText, titlePiece_written, nestedText_eq]

/-! ## Levels -/

/-- The texts of the types of a level are those of what is written for them. -/
structure Render.Fits (R : Render L) : Prop where
  text : ∀ t, R.text t = nestedText (L.textToChildren t)
  contents : ∀ s c, R.contents s c =
    s ++ String.join ((L.contentsToChildren c).map (quotedPiece asWritten))
  column : ∀ c, R.column c = cellText asWritten (L.columnToXml c).node
  column_name : ∀ c, (L.columnToXml c).name = "TableColumn"
  amend_name : ∀ c, (L.amendToXml c).name = "AmendProvision"

variable {R : Render L}

theorem ruby_written (hR : R.Fits) (r : Ruby L) : nestedText r.toXml.children = R.text r.text := by
  rw [hR.text]
  show nestedText (L.textToChildren r.text ++ _) = _
  rw [nestedText_append]
  simp [nestedText, nestedPiece, Element.node]

theorem firstString_single (s : String) : firstString [.text s] = s := rfl

theorem TextElement.push_written (hR : R.Fits) (s : String) (x : TextElement L) :
    TextElement.push R s x = s ++ nestedPiece x.toNode := by
  cases x with
  | ruby r =>
    show s ++ R.text r.text = s ++ nestedPiece (.element "Ruby" _ r.toXml.children)
    rw [nestedPiece, if_pos rfl, ruby_written hR]
  | line l =>
    show s = s ++ nestedPiece (.element "Line" _ _)
    rw [nestedPiece, if_neg (by decide), if_neg (by decide), String.append_empty]
  | sup x =>
    show s ++ x.text = s ++ nestedPiece (.element "Sup" _ _)
    rw [nestedPiece, if_neg (by decide), if_pos (by decide)]
    rfl
  | sub x =>
    show s ++ x.text = s ++ nestedPiece (.element "Sub" _ _)
    rw [nestedPiece, if_neg (by decide), if_pos (by decide)]
    rfl
  | text t =>
    show s ++ t = s ++ nestedPiece (.text t)
    rw [nestedPiece]

theorem texts_written (hR : R.Fits) (l : List (TextElement L)) :
    l.foldl (TextElement.push R) "" = nestedText (l.map TextElement.toNode) := by
  rw [foldl_push (TextElement.push_written hR), String.empty_append, nestedText_eq, List.map_map]
  rfl

theorem Text.toStr_written (hR : R.Fits) (t : Text L) : t.toStr R = nestedText t.toChildren :=
  texts_written hR t.contents

theorem quoted_ruby (hR : R.Fits) (r : Ruby L) :
    quotedPiece asWritten r.toXml.node = R.text r.text := by
  show quotedPiece asWritten (.element "Ruby" _ r.toXml.children) = _
  rw [quotedPiece, if_pos rfl]
  exact ruby_written hR r

theorem quoted_sub (x : Sub) : quotedPiece asWritten x.toXml.node = "_{" ++ x.text ++ "}" := by
  show quotedPiece asWritten (.element "Sub" _ _) = _
  rw [quotedPiece, if_neg (by decide), if_pos rfl]
  rfl

theorem quoted_sup (x : Sup) : quotedPiece asWritten x.toXml.node = "^{" ++ x.text ++ "}" := by
  show quotedPiece asWritten (.element "Sup" _ _) = _
  rw [quotedPiece, if_neg (by decide), if_neg (by decide), if_pos rfl]
  rfl

theorem quoted_other (w : Spec.Doc.Way) {n : String} (a : Attrs) (c : List XMLNode)
    (h : n ∉ ["Ruby", "Sub", "Sup"]) : quotedPiece w (.element n a c) = "" := by
  simp only [List.mem_cons, List.not_mem_nil, or_false, not_or] at h
  rw [quotedPiece, if_neg h.1, if_neg h.2.1, if_neg h.2.2]

theorem ContentsElement.push_written (hR : R.Fits) (s : String) (x : ContentsElement L) :
    ContentsElement.push R s x = s ++ quotedPiece asWritten x.toNode := by
  cases x with
  | ruby r =>
    show s ++ R.text r.text = s ++ quotedPiece asWritten r.toXml.node
    rw [quoted_ruby hR]
  | sub x =>
    show ((s ++ "_{") ++ x.text) ++ "}" = s ++ quotedPiece asWritten x.toXml.node
    rw [quoted_sub, String.append_assoc, String.append_assoc, String.append_assoc]
  | sup x =>
    show ((s ++ "^{") ++ x.text) ++ "}" = s ++ quotedPiece asWritten x.toXml.node
    rw [quoted_sup, String.append_assoc, String.append_assoc, String.append_assoc]
  | string t =>
    show s ++ t = s ++ quotedPiece asWritten (.text t)
    rw [quotedPiece]
  | _ =>
    refine (String.append_empty (s := s)).symm.trans (congrArg (s ++ ·) (Eq.symm ?_))
    rfl

theorem Contents.push_written (hR : R.Fits) (s : String) (c : Contents L) :
    Contents.push R s c = s ++ String.join (c.toChildren.map (quotedPiece asWritten)) := by
  rw [Contents.push, foldl_push (ContentsElement.push_written hR), Contents.toChildren, List.map_map]
  rfl

theorem SentenceElement.push_written (hR : R.Fits) (s : String) (x : SentenceElement L) :
    SentenceElement.push R s x = s ++ sentencePiece asWritten x.toNode := by
  have plain : ∀ {n : String} (a : Attrs) (c : List XMLNode), n ∉ ["ArithFormula", "QuoteStruct"] →
      sentencePiece asWritten (.element n a c) = quotedPiece asWritten (.element n a c) := by
    intro n a c h
    simp only [List.mem_cons, List.not_mem_nil, or_false, not_or] at h
    rw [sentencePiece, if_neg (by simpa using h)]
  cases x with
  | ruby r =>
    show s ++ R.text r.text = s ++ sentencePiece asWritten (.element "Ruby" _ _)
    rw [plain _ _ (by decide), ← quoted_ruby hR]
    rfl
  | sub x =>
    show ((s ++ "_{") ++ x.text) ++ "}" = s ++ sentencePiece asWritten (.element "Sub" _ _)
    rw [plain _ _ (by decide), String.append_assoc, String.append_assoc]
    exact congrArg (s ++ ·) (String.append_assoc.symm.trans (quoted_sub x).symm)
  | sup x =>
    show ((s ++ "^{") ++ x.text) ++ "}" = s ++ sentencePiece asWritten (.element "Sup" _ _)
    rw [plain _ _ (by decide), String.append_assoc, String.append_assoc]
    exact congrArg (s ++ ·) (String.append_assoc.symm.trans (quoted_sup x).symm)
  | string t =>
    show s ++ t = s ++ sentencePiece asWritten (.text t)
    rw [sentencePiece, quotedPiece]
    nofun
  | arithFormula v =>
    show R.contents s v.contentes = s ++ sentencePiece asWritten (.element "ArithFormula" _ _)
    rw [hR.contents, sentencePiece, if_pos (by decide)]
    rfl
  | quoteStruct v =>
    show R.contents s v.contentes = s ++ sentencePiece asWritten (.element "QuoteStruct" _ _)
    rw [hR.contents, sentencePiece, if_pos (by decide)]
    rfl
  | line v =>
    show s = s ++ sentencePiece asWritten (.element "Line" _ _)
    rw [plain _ _ (by decide), quoted_other _ _ _ (by decide), String.append_empty]

theorem Sentence.text_written (hR : R.Fits) (x : Sentence L) :
    sentenceElementToStr R x.contents = sentenceText asWritten x.toXml.node := by
  rw [sentenceElementToStr, foldl_push (SentenceElement.push_written hR), String.empty_append]
  show _ = String.join ((x.contents.map SentenceElement.toNode).map _)
  rw [List.map_map]
  rfl

/-- All nodes have the tag. -/
theorem tagged_all {α : Type} {t : String} {f : α → XMLNode} (h : ∀ x, Spec.isNamed [t] (f x) = true)
    (l : List α) : tagged t (l.map f) = l.map f := by
  rw [tagged, List.filter_eq_self]
  intro x hx
  obtain ⟨y, -, rfl⟩ := List.mem_map.1 hx
  exact h y

/-- No node has the tag. -/
theorem tagged_none {α : Type} {t : String} {f : α → XMLNode} (h : ∀ x, Spec.isNamed [t] (f x) = false)
    (l : List α) : tagged t (l.map f) = [] := by
  rw [tagged, List.filter_eq_nil_iff]
  intro x hx
  obtain ⟨y, -, rfl⟩ := List.mem_map.1 hx
  rw [h y]
  decide

theorem tagged_append (t : String) (c d : List XMLNode) : tagged t (c ++ d) = tagged t c ++ tagged t d :=
  List.filter_append ..

theorem sentences_written (hR : R.Fits) (l : List (Sentence L)) :
    sentencesToStr R l = sentencesText asWritten (l.map fun s => s.toXml.node) := by
  rw [sentencesText, tagged_all (fun _ => rfl), List.map_map, sentencesToStr]
  congr 1
  apply List.map_congr_left
  intro x _
  exact Sentence.text_written hR x

theorem TableColumnContents.text_written (hR : R.Fits) (x : TableColumnContents L) :
    x.toStr R = cellPiece asWritten x.toNode := by
  cases x with
  | string s =>
    show s = cellPiece asWritten (.text s)
    rw [cellPiece]
  | sentence v =>
    show sentenceElementToStr R v.contents = cellPiece asWritten (.element "Sentence" _ _)
    rw [cellPiece, if_pos rfl, Sentence.text_written hR]
    rfl
  | column v =>
    show sentencesToStr R v.sentence = cellPiece asWritten (.element "Column" _ _)
    rw [cellPiece, if_neg (by decide), if_pos rfl, sentences_written hR]
    rfl
  | _ => rfl

theorem TableColumn.text_written (hR : R.Fits) (x : TableColumn L) :
    x.toStr R = cellText asWritten x.toXml.node := by
  rw [TableColumn.toStr]
  show _ = String.join ((x.contents.map TableColumnContents.toNode).map _)
  rw [List.map_map]
  congr 1
  apply List.map_congr_left
  intro y _
  exact TableColumnContents.text_written hR y

theorem isNamed_node {e : Element} {t : String} (h : e.name = t) : Spec.isNamed [t] e.node = true := by
  rw [← h]
  show List.contains [e.name] e.name = true
  simp

theorem tableToStr_written (hR : R.Fits) (t : Table L) :
    tableToStr R t = tableText asWritten t.toXml.node := by
  have h1 : tagged "TableHeaderRow" (Spec.kidsOf t.toXml.node) =
      t.table_header_row.map fun r => r.toXml.node := by
    show tagged _ ((t.table_header_row.map fun r => r.toXml.node) ++
      t.table_row.map fun r => r.toXml.node) = _
    rw [tagged_append, tagged_all (fun _ => rfl), tagged_none (fun _ => rfl), List.append_nil]
  have h2 : tagged "TableRow" (Spec.kidsOf t.toXml.node) = t.table_row.map fun r => r.toXml.node := by
    show tagged _ ((t.table_header_row.map fun r => r.toXml.node) ++
      t.table_row.map fun r => r.toXml.node) = _
    rw [tagged_append, tagged_none (fun _ => rfl), tagged_all (fun _ => rfl), List.nil_append]
  rw [tableToStr, tableText, h1, h2, List.map_map, List.map_map]
  congr 3
  · apply List.map_congr_left
    intro r _
    show _ = String.join ((tagged "TableHeaderColumn"
      (r.columns.map fun t => (t.toXml "TableHeaderColumn").node)).map _)
    rw [tagged_all (fun _ => rfl), List.map_map]
    congr 1
    apply List.map_congr_left
    intro x _
    rw [Text.toStr_written hR]
    exact (titleText_written _).symm
  · funext r
    show _ = String.intercalate " " ((tagged "TableColumn"
      (r.columns.map fun c => (L.columnToXml c).node)).map _)
    rw [tagged_all (fun c => isNamed_node (hR.column_name c)), List.map_map]
    congr 1
    apply List.map_congr_left
    intro x _
    exact hR.column x

theorem body_written (hR : R.Fits) (b : Bool) (x : SentenceOrColumnOrTable L) :
    x.toStr R (fun t => if b then tableToStr R t else "") = bodyText asWritten b x.toChildren := by
  cases x with
  | sentence l =>
    show sentencesToStr R l = bodyText asWritten b (l.map fun s => s.toXml.node)
    rw [bodyText, tagged_none (fun _ => rfl), if_neg (by simp), tagged_all (fun _ => rfl)]
    split
    · exact sentences_written hR l
    · next h =>
      have : l = [] := by simpa using h
      subst this
      rfl
  | column l =>
    show String.intercalate " " (l.flatMap fun c => c.sentence.map fun s =>
      sentenceElementToStr R s.contents) = bodyText asWritten b (l.map fun s => s.toXml.node)
    rw [bodyText, tagged_all (fun _ => rfl)]
    split
    · rw [List.flatMap_map]
      congr 1
      apply flatMap_congr_mem
      intro c _
      show _ = (tagged "Sentence" (c.sentence.map fun s => s.toXml.node)).map _
      rw [tagged_all (fun _ => rfl), List.map_map]
      apply List.map_congr_left
      intro s _
      exact Sentence.text_written hR s
    · next h =>
      have : l = [] := by simpa using h
      subst this
      rfl
  | table t =>
    show (if b then tableToStr R t else "") = bodyText asWritten b [t.toXml.node]
    have h1 : tagged "Column" [t.toXml.node] = [] := rfl
    have h2 : tagged "Sentence" [t.toXml.node] = [] := rfl
    have h3 : tagged "Table" [t.toXml.node] = [t.toXml.node] := rfl
    rw [tableToStr_written hR]
    unfold bodyText
    rw [h1, h2, h3]
    rfl

/-! ## Items and paragraphs -/

theorem isNamed_self {e : Element} {t : String} : Spec.isNamed [t] e.node = decide (e.name = t) := by
  show List.contains [t] e.name = _
  simp

theorem isNamed_not {e : Element} {t : String} (h : e.name ≠ t) : Spec.isNamed [t] e.node = false := by
  rw [isNamed_self, decide_eq_false h]

theorem tagged_nodes {α : Type} {t : String} {f : α → Element} (h : ∀ x, (f x).name = t) (l : List α) :
    tagged t (l.map fun x => (f x).node) = l.map fun x => (f x).node :=
  tagged_all (fun x => isNamed_node (h x)) l

theorem tagged_others {α : Type} {t : String} {f : α → Element} (h : ∀ x, (f x).name ≠ t) (l : List α) :
    tagged t (l.map fun x => (f x).node) = [] :=
  tagged_none (fun x => isNamed_not (h x)) l

theorem tagged_one {t : String} {e : Element} (h : e.name = t) : tagged t [e.node] = [e.node] :=
  tagged_nodes (f := fun _ : Unit => e) (fun _ => h) [()]

theorem tagged_other {t : String} {e : Element} (h : e.name ≠ t) : tagged t [e.node] = [] :=
  tagged_others (f := fun _ : Unit => e) (fun _ => h) [()]

/-- The tags of structures. -/
def structNames : List String := ["TableStruct", "FigStruct", "StyleStruct", "List"]

theorem Struct.name_mem (v : Struct L) : v.toXml.name ∈ structNames := by
  cases v with
  | tableStruct v =>
    show "TableStruct" ∈ structNames
    decide
  | figStruct v =>
    show "FigStruct" ∈ structNames
    decide
  | styleStruct v =>
    show "StyleStruct" ∈ structNames
    decide
  | list v =>
    show "List" ∈ structNames
    decide

theorem tagged_structs {t : String} (h : t ∉ structNames) (l : List (Struct L)) :
    tagged t (l.map fun v => v.toXml.node) = [] :=
  tagged_others (f := Struct.toXml) (t := t) (fun v e => h (e ▸ v.name_mem)) l

theorem itemEntries_congr (w : Way) (para : Option String) (around : List (Option String))
    {tags : List String} {c d : List XMLNode}
    (h : ∀ t, tags.head? = some t → tagged t c = tagged t d) :
    itemEntries w para around tags c = itemEntries w para around tags d := by
  cases tags with
  | nil => rw [itemEntries, itemEntries]
  | cons t tags => rw [itemEntries, itemEntries, h t rfl]

/-- An entry of `text_info_list_from_paragraph` with the numbers as they are written. -/
def TextIndex.entry (p : TextIndex × String) : Entry :=
  ⟨some p.1.paragraph.numStr, p.1.items.map fun o => o.map ArticleNumber.numStr, p.2⟩

theorem items_written {γ : Type} (hR : R.Fits) {b : Bool} {tag titleTag sentTag ctag : String}
    {tags : List String} {childXml : γ → Element}
    {inner : ArticleNumber → List (Option ArticleNumber) → List γ → List (TextIndex × String)}
    (hb : b = decide (tag ≠ "Subitem6")) (hs : sentTag = tag ++ "Sentence")
    (hst : sentTag ∉ titleTag :: ctag :: structNames)
    (hct : ctag ∉ titleTag :: sentTag :: structNames)
    (hc : ∀ c, (childXml c).name = ctag) (ht : ∀ t, tags.head? = some t → t = ctag)
    (hi : ∀ para around l, (inner para around l).map TextIndex.entry =
      itemEntries asWritten (some para.numStr) (around.map fun o => o.map ArticleNumber.numStr) tags
        (l.map fun c => (childXml c).node))
    (para : ArticleNumber) (around : List (Option ArticleNumber)) (l : List (ItemOf L γ)) :
    (textListFromItems R (fun t => if b then tableToStr R t else "") inner para around l).map
        TextIndex.entry =
      itemEntries asWritten (some para.numStr) (around.map fun o => o.map ArticleNumber.numStr)
        (tag :: tags) (l.map fun x => (ItemOf.toXml tag titleTag sentTag childXml x).node) := by
  simp only [List.mem_cons, not_or] at hst hct
  rw [itemEntries, tagged_nodes (f := ItemOf.toXml tag titleTag sentTag childXml) (fun _ => rfl), textListFromItems, List.map_flatMap,
    List.flatMap_map]
  apply flatMap_congr_mem
  intro x _
  have hnum : attrOf "Num" (ItemOf.toXml tag titleTag sentTag childXml x).node =
      x.num.map ArticleNumber.numStr := by
    show Attrs.get _ "Num" = _
    cases h : x.num <;> simp [ItemOf.toXml, h, Attrs.get]
  have hkids : Spec.kidsOf (ItemOf.toXml tag titleTag sentTag childXml x).node =
      (x.title.toList.map fun t => (t.toXml titleTag).node) ++
      [(x.sentence.toXml sentTag).node] ++ (x.children.map fun c => (childXml c).node) ++
      x.struct_list.map fun v => v.toXml.node := rfl
  have hsent : tagged (tag ++ "Sentence") (Spec.kidsOf (ItemOf.toXml tag titleTag sentTag childXml x).node) =
      [(x.sentence.toXml sentTag).node] := by
    rw [hkids, ← hs, tagged_append, tagged_append, tagged_append, tagged_structs hst.2.2,
      tagged_others (fun _ e => hst.1 e.symm), tagged_one (t := sentTag) (e := x.sentence.toXml sentTag) rfl,
      tagged_others (fun c e => hst.2.1 ((hc c).symm.trans e).symm)]
    rfl
  have hin : itemEntries asWritten (some para.numStr)
        ((around.map fun o => o.map ArticleNumber.numStr) ++ [x.num.map ArticleNumber.numStr]) tags
        (Spec.kidsOf (ItemOf.toXml tag titleTag sentTag childXml x).node) =
      (inner para (around ++ [x.num]) x.children).map TextIndex.entry := by
    rw [hi, List.map_append]
    apply itemEntries_congr
    intro t h
    cases ht t h
    rw [hkids, tagged_append, tagged_append, tagged_append, tagged_structs hct.2.2,
      tagged_others (fun _ e => hct.1 e.symm), tagged_other (fun e => hct.2.1 e.symm), List.append_nil,
      List.nil_append, List.nil_append]
  rw [hsent, List.map_cons]
  congr 1
  · show Entry.mk _ _ _ = Entry.mk _ _ _
    rw [hnum, List.map_append, body_written hR, hb]
    rfl
  · rw [hnum]
    exact hin.symm

theorem Subitem10.extracted (hR : R.Fits) (para : ArticleNumber) (around : List (Option ArticleNumber))
    (l : List (Subitem10 L)) : (textListFromSubitem10 R para around l).map TextIndex.entry =
      itemEntries asWritten (some para.numStr) (around.map fun o => o.map ArticleNumber.numStr)
        ["Subitem10"] (l.map fun x => (Subitem10.toXml x).node) :=
  items_written (b := true) (ctag := "") hR (by decide) (by decide) (by decide) (by decide)
    (fun c => c.elim) (fun _ h => by cases h) (fun _ _ l => by
      cases l with
      | nil => rw [itemEntries]; rfl
      | cons c _ => exact c.elim) para around l

theorem Subitem9.extracted (hR : R.Fits) (para : ArticleNumber) (around : List (Option ArticleNumber))
    (l : List (Subitem9 L)) : (textListFromSubitem9 R para around l).map TextIndex.entry =
      itemEntries asWritten (some para.numStr) (around.map fun o => o.map ArticleNumber.numStr)
        (levelTags.drop 9) (l.map fun x => (Subitem9.toXml x).node) :=
  items_written (b := true) (ctag := "Subitem10")
    (tags := levelTags.drop 10) hR (by decide) (by decide) (by decide) (by decide)
    (fun _ => rfl) (fun _ h => by cases h; rfl) (Subitem10.extracted hR) para around l

theorem Subitem8.extracted (hR : R.Fits) (para : ArticleNumber) (around : List (Option ArticleNumber))
    (l : List (Subitem8 L)) : (textListFromSubitem8 R para around l).map TextIndex.entry =
      itemEntries asWritten (some para.numStr) (around.map fun o => o.map ArticleNumber.numStr)
        (levelTags.drop 8) (l.map fun x => (Subitem8.toXml x).node) :=
  items_written (b := true) (ctag := "Subitem9")
    (tags := levelTags.drop 9) hR (by decide) (by decide) (by decide) (by decide)
    (fun _ => rfl) (fun _ h => by cases h; rfl) (Subitem9.extracted hR) para around l

theorem Subitem7.extracted (hR : R.Fits) (para : ArticleNumber) (around : List (Option ArticleNumber))
    (l : List (Subitem7 L)) : (textListFromSubitem7 R para around l).map TextIndex.entry =
      itemEntries asWritten (some para.numStr) (around.map fun o => o.map ArticleNumber.numStr)
        (levelTags.drop 7) (l.map fun x => (Subitem7.toXml x).node) :=
  items_written (b := true) (ctag := "Subitem8")
    (tags := levelTags.drop 8) hR (by decide) (by decide) (by decide) (by decide)
    (fun _ => rfl) (fun _ h => by cases h; rfl) (Subitem8.extracted hR) para around l

theorem Subitem6.extracted (hR : R.Fits) (para : ArticleNumber) (around : List (Option ArticleNumber))
    (l : List (Subitem6 L)) : (textListFromSubitem6 R para around l).map TextIndex.entry =
      itemEntries asWritten (some para.numStr) (around.map fun o => o.map ArticleNumber.numStr)
        (levelTags.drop 6) (l.map fun x => (Subitem6.toXml x).node) :=
  items_written (b := false) (ctag := "Subitem7")
    (tags := levelTags.drop 7) hR (by decide) (by decide) (by decide) (by decide)
    (fun _ => rfl) (fun _ h => by cases h; rfl) (Subitem7.extracted hR) para around l

theorem Subitem5.extracted (hR : R.Fits) (para : ArticleNumber) (around : List (Option ArticleNumber))
    (l : List (Subitem5 L)) : (textListFromSubitem5 R para around l).map TextIndex.entry =
      itemEntries asWritten (some para.numStr) (around.map fun o => o.map ArticleNumber.numStr)
        (levelTags.drop 5) (l.map fun x => (Subitem5.toXml x).node) :=
  items_written (b := true) (ctag := "Subitem6")
    (tags := levelTags.drop 6) hR (by decide) (by decide) (by decide) (by decide)
    (fun _ => rfl) (fun _ h => by cases h; rfl) (Subitem6.extracted hR) para around l

theorem Subitem4.extracted (hR : R.Fits) (para : ArticleNumber) (around : List (Option ArticleNumber))
    (l : List (Subitem4 L)) : (textListFromSubitem4 R para around l).map TextIndex.entry =
      itemEntries asWritten (some para.numStr) (around.map fun o => o.map ArticleNumber.numStr)
        (levelTags.drop 4) (l.map fun x => (Subitem4.toXml x).node) :=
  items_written (b := true) (ctag := "Subitem5")
    (tags := levelTags.drop 5) hR (by decide) (by decide) (by decide) (by decide)
    (fun _ => rfl) (fun _ h => by cases h; rfl) (Subitem5.extracted hR) para around l

theorem Subitem3.extracted (hR : R.Fits) (para : ArticleNumber) (around : List (Option ArticleNumber))
    (l : List (Subitem3 L)) : (textListFromSubitem3 R para around l).map TextIndex.entry =
      itemEntries asWritten (some para.numStr) (around.map fun o => o.map ArticleNumber.numStr)
        (levelTags.drop 3) (l.map fun x => (Subitem3.toXml x).node) :=
  items_written (b := true) (ctag := "Subitem4")
    (tags := levelTags.drop 4) hR (by decide) (by decide) (by decide) (by decide)
    (fun _ => rfl) (fun _ h => by cases h; rfl) (Subitem4.extracted hR) para around l

theorem Subitem2.extracted (hR : R.Fits) (para : ArticleNumber) (around : List (Option ArticleNumber))
    (l : List (Subitem2 L)) : (textListFromSubitem2 R para around l).map TextIndex.entry =
      itemEntries asWritten (some para.numStr) (around.map fun o => o.map ArticleNumber.numStr)
        (levelTags.drop 2) (l.map fun x => (Subitem2.toXml x).node) :=
  items_written (b := true) (ctag := "Subitem3")
    (tags := levelTags.drop 3) hR (by decide) (by decide) (by decide) (by decide)
    (fun _ => rfl) (fun _ h => by cases h; rfl) (Subitem3.extracted hR) para around l

theorem Subitem1.extracted (hR : R.Fits) (para : ArticleNumber) (around : List (Option ArticleNumber))
    (l : List (Subitem1 L)) : (textListFromSubitem1 R para around l).map TextIndex.entry =
      itemEntries asWritten (some para.numStr) (around.map fun o => o.map ArticleNumber.numStr)
        (levelTags.drop 1) (l.map fun x => (Subitem1.toXml x).node) :=
  items_written (b := true) (ctag := "Subitem2")
    (tags := levelTags.drop 2) hR (by decide) (by decide) (by decide) (by decide)
    (fun _ => rfl) (fun _ h => by cases h; rfl) (Subitem2.extracted hR) para around l

theorem Item.extracted (hR : R.Fits) (para : ArticleNumber) (l : List (Item L)) :
    (textListFromItems R (tableToStr R) (textListFromSubitem1 R) para [] l).map TextIndex.entry =
      itemEntries asWritten (some para.numStr) [] levelTags (l.map fun x => (Item.toXml x).node) :=
  items_written (b := true) (ctag := "Subitem1")
    (tags := levelTags.drop 1) hR (by decide) (by decide) (by decide) (by decide)
    (fun _ => rfl) (fun _ h => by cases h; rfl) (Subitem1.extracted hR) para [] l

theorem paragraph_items_eq (para : ArticleNumber) (l : List (Item L)) (v : List (TextIndex × String)) :
    l.foldl (paragraphItemStep R para) ([], v) =
      ([], v ++ textListFromItems R (tableToStr R) (textListFromSubitem1 R) para [] l) := by
  induction l generalizing v with
  | nil => simp [textListFromItems]
  | cons t l ih =>
    rw [List.foldl_cons]
    simp only [paragraphItemStep, List.nil_append, List.dropLast_singleton]
    rw [ih]
    simp [textListFromItems]

theorem Paragraph.tagged_items (hR : R.Fits) (p : Paragraph L) {t : String} (h : t ∉ structNames)
    (h2 : t ∉ ["ParagraphCaption", "ParagraphNum", "AmendProvision", "Class"]) :
    tagged t (Spec.kidsOf p.toXml.node) =
      tagged t [(Paragraph.sentenceXml p.sentence).node] ++
        tagged t (p.children.map fun v => (Item.toXml v).node) := by
  simp only [List.mem_cons, List.not_mem_nil, or_false, not_or] at h2
  show tagged t ((p.caption.toList.map fun c => (c.toXml "ParagraphCaption").node) ++
      [(p.paragraph_num.toXml "ParagraphNum").node] ++
      [(Paragraph.sentenceXml p.sentence).node] ++
      (p.amend_provision.map fun v => (L.amendToXml v).node) ++
      (p.class_.map fun v => v.toXml.node) ++
      (p.struct_list.map fun v => v.toXml.node) ++
      p.children.map fun v => (Item.toXml v).node) = _
  simp only [tagged_append]
  rw [tagged_structs h, tagged_others (fun _ => Ne.symm h2.1), tagged_other (Ne.symm h2.2.1),
    tagged_others (fun _ => by rw [hR.amend_name]; exact Ne.symm h2.2.2.1),
    tagged_others (fun _ => Ne.symm h2.2.2.2)]
  simp

/-- The text of paragraphs is that of the elements written for them. -/
theorem textInfo_written (hR : R.Fits) (l : List (Paragraph L)) :
    (textInfoListFromParagraph R l).map TextIndex.entry =
      l.flatMap fun p => paragraphEntries asWritten p.toXml.node := by
  have h : ∀ v : List (TextIndex × String), (l.foldl (fun v para =>
      (para.children.foldl (paragraphItemStep R para.num)
        ([], v ++ [(⟨para.num, []⟩, sentencesToStr R para.sentence)])).2) v).map TextIndex.entry =
      v.map TextIndex.entry ++ l.flatMap fun p => paragraphEntries asWritten p.toXml.node := by
    induction l with
    | nil => simp
    | cons p l ih =>
      intro v
      rw [List.foldl_cons, ih, paragraph_items_eq, List.flatMap_cons, List.map_append, List.map_append,
        Item.extracted hR, List.append_assoc, List.append_assoc]
      congr 1
      rw [← List.append_assoc]
      congr 1
      have hnum : attrOf "Num" p.toXml.node = some p.num.numStr := by
        show Attrs.get _ "Num" = _
        simp [Paragraph.toXml]
      have hs : tagged "ParagraphSentence" (Spec.kidsOf p.toXml.node) =
          [(Paragraph.sentenceXml p.sentence).node] := by
        rw [Paragraph.tagged_items hR p (by decide) (by decide),
          tagged_others (t := "ParagraphSentence") (f := Item.toXml) (fun _ => by
            show "Item" ≠ "ParagraphSentence"
            decide)]
        rfl
      have hi : tagged "Item" (Spec.kidsOf p.toXml.node) =
          p.children.map fun v => (Item.toXml v).node := by
        rw [Paragraph.tagged_items hR p (by decide) (by decide),
          tagged_nodes (t := "Item") (f := Item.toXml) (fun _ => rfl)]
        rfl
      rw [paragraphEntries, hnum, hs, List.map_cons, List.map_nil, List.singleton_append]
      congr 1
      · show Entry.mk _ _ _ = Entry.mk _ _ _
        rw [sentences_written hR]
        show Entry.mk _ _ _ = Entry.mk _ _ (sentencesText asWritten
          ((p.sentence.map fun s => s.toXml.node) ++ []))
        rw [List.append_nil]
        rfl
      · apply itemEntries_congr
        intro t ht
        cases (Option.some.inj ht)
        rw [hi, tagged_nodes (t := "Item") (f := Item.toXml) (fun _ => rfl)]
  exact h []

theorem textFromParagraphList_written (hR : R.Fits) (l : List (Paragraph L)) :
    textFromParagraphList R l = paragraphsText asWritten (l.map fun p => p.toXml.node) := by
  rw [paragraphsText, List.flatMap_map, ← textInfo_written hR, List.map_map]
  rfl

/-! ## All levels -/

theorem render_fits : ∀ n, (render n).Fits
  | 0 => ⟨fun x => Empty.elim x, fun _ x => Empty.elim x, fun x => Empty.elim x, fun x => Empty.elim x,
    fun x => Empty.elim x⟩
  | n + 1 =>
    have h := render_fits n
    { text := fun t => Text.toStr_written h t
      contents := fun s c => Contents.push_written h s c
      column := fun c => TableColumn.text_written h c
      column_name := fun _ => rfl
      amend_name := fun _ => rfl }


end JLaw
