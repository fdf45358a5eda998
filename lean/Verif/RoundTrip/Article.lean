import Verif.Props.Num
import Verif.RoundTrip.Struct
import Verif.Spec.KeepLaw

/-! # Round trips: items, paragraphs, articles and the hierarchy above them -/

namespace JLaw

variable {L : Lvl} {K : Keep L}

theorem ArticleNumber.fromNumStr_numStr (a : ArticleNumber) :
    ArticleNumber.fromNumStr a.numStr = .ok a ↔ a.Keeps := (C01_num_str_round_trip a).2

theorem ArticleNumber.parse?_numStr (a : ArticleNumber) :
    ArticleNumber.parse? a.numStr = some a ↔ a.Keeps := by
  rw [← ArticleNumber.fromNumStr_numStr]
  unfold ArticleNumber.parse?
  cases h : ArticleNumber.fromNumStr a.numStr <;> simp

theorem numAttr_of_get (e : Element) (a : ArticleNumber)
    (h : e.attributes.get "Num" = some a.numStr) :
    numAttr e = ArticleNumber.fromNumStr a.numStr := by
  unfold numAttr getAttribute
  rw [h]
  rfl

/-- Names of the tags of structures. -/
def structTags : List String := ["TableStruct", "FigStruct", "StyleStruct", "List"]

theorem Struct.toXml_name_mem (x : Struct L) : x.toXml.name ∈ structTags := by
  cases x with
  | tableStruct v => exact .head _
  | figStruct v => exact .tail _ (.head _)
  | styleStruct v => exact .tail _ (.tail _ (.head _))
  | list v => exact .tail _ (.tail _ (.tail _ (.head _)))

section
variable {γ : Type} {titleTag sentTag : String} {arms : List (String × (Element → Res γ))}

theorem ItemOf.step_title (e : Element) (s : ItemOf.St L γ) (t : Text L) :
    onElem (ItemOf.step titleTag sentTag arms e) s (t.toXml titleTag).node =
      (Text.ofElement (t.toXml titleTag)).bind fun v => .ok { s with title := some v } := by
  have hn : (t.toXml titleTag).name = titleTag := rfl
  rw [onElem_node, ItemOf.step, matchTag_cons, if_pos hn]

theorem ItemOf.step_sentence (h : titleTag ≠ sentTag) (e : Element) (s : ItemOf.St L γ)
    (t : SentenceOrColumnOrTable L) :
    onElem (ItemOf.step titleTag sentTag arms e) s (t.toXml sentTag).node =
      (SentenceOrColumnOrTable.fromElement (t.toXml sentTag)).bind fun v =>
        .ok { s with sentence := some v } := by
  have hn : (t.toXml sentTag).name = sentTag := rfl
  rw [onElem_node, ItemOf.step, matchTag_cons, if_neg (by rw [hn]; exact h.symm), matchTag_cons,
    if_pos hn]

theorem ItemOf.step_struct (h1 : titleTag ∉ structTags) (h2 : sentTag ∉ structTags) (e : Element)
    (s : ItemOf.St L γ) (x : Struct L) :
    onElem (ItemOf.step titleTag sentTag arms e) s x.toXml.node =
      (Struct.parser x.toXml).bind fun v => .ok { s with struct_list := s.struct_list ++ [v] } := by
  have hn := x.toXml_name_mem
  rw [onElem_node, ItemOf.step, matchTag_cons, if_neg (by rintro rfl; exact h1 hn), matchTag_cons,
    if_neg (by rintro rfl; exact h2 hn)]
  cases x <;> simp [Struct.toXml, Struct.parser, TableStruct.toXml, FigStruct.toXml,
    StyleStruct.toXml, LawList.toXml, BodyStruct.toXml_name, ListOf.toXml_name, Res.bind_assoc]

theorem ItemOf.step_child {childXml : γ → Element}
    (hn : ∀ c, (childXml c).name ∈ arms.map Prod.fst)
    (hd : ∀ t ∈ arms.map Prod.fst, t ≠ titleTag ∧ t ≠ sentTag ∧ t ∉ structTags) (e : Element)
    (s : ItemOf.St L γ) (x : γ) :
    onElem (ItemOf.step titleTag sentTag arms e) s (childXml x).node =
      (matchTag arms (fun _ => .deep) (childXml x)).bind fun v =>
        .ok { s with children := s.children ++ [v] } := by
  obtain ⟨h1, h2, h3⟩ := hd _ (hn x)
  simp only [structTags, List.mem_cons, List.not_mem_nil, not_or, or_false] at h3
  simp only [onElem_node, ItemOf.step, matchTag_cons, h1, h2, h3, if_false, matchTag_nil]
  exact matchTag_childArms _ _ _ _ _ (hn x)

theorem ItemOf.toXml_name (tag : String) (childXml : γ → Element) (x : ItemOf L γ) :
    (ItemOf.toXml tag titleTag sentTag childXml x).name = tag := rfl

theorem ItemOf.round_trip (hL : L.Sound K) {tag : String} {childXml : γ → Element} {C : γ → Prop}
    (hts : titleTag ≠ sentTag) (h1 : titleTag ∉ structTags) (h2 : sentTag ∉ structTags)
    (hn : ∀ c, (childXml c).name ∈ arms.map Prod.fst)
    (hd : ∀ t ∈ arms.map Prod.fst, t ≠ titleTag ∧ t ≠ sentTag ∧ t ∉ structTags)
    (hC : ∀ c, matchTag arms (fun _ => .deep) (childXml c) = .ok c ↔ C c) (x : ItemOf L γ) :
    ItemOf.parser tag titleTag sentTag arms (ItemOf.toXml tag titleTag sentTag childXml x) =
      .ok x ↔ ItemOf.Keeps K C x := by
  obtain ⟨t, s, c, l, n, d, h⟩ := x
  simp only [ItemOf.Keeps, OptKeeps, ← Text.round_trip hL _ titleTag,
    ← SentenceOrColumnOrTable.round_trip hL _ sentTag, ← hC, ← Struct.round_trip hL,
    ← optRes_eq_self, ← mapRes_eq_self, ← ArticleNumber.parse?_numStr]
  unfold ItemOf.parser
  rw [if_pos (ItemOf.toXml_name ..), getBool_of_get _ _ d (by simp [ItemOf.toXml]),
    getBool_of_get _ _ h (by simp [ItemOf.toXml])]
  simp only [ItemOf.toXml, forElems, foldRes_append, foldRes_cons, foldRes_nil,
    ItemOf.step_sentence hts,
    foldRes_optSet (fun s : ItemOf.St L γ => s.title) (fun s v => { s with title := v })
      (fun t : Text L => (t.toXml titleTag).node) (fun t => Text.ofElement (t.toXml titleTag))
      (ItemOf.step_title _) (fun _ => rfl),
    foldRes_push (fun s : ItemOf.St L γ => s.children) (fun s v => { s with children := v })
      (fun c => (childXml c).node) (fun c => matchTag arms (fun _ => .deep) (childXml c))
      (ItemOf.step_child hn hd _) (fun _ _ => rfl) (fun _ _ _ => rfl) (fun _ => rfl),
    foldRes_push (fun s : ItemOf.St L γ => s.struct_list) (fun s v => { s with struct_list := v })
      (fun c : Struct L => c.toXml.node) (fun c => Struct.parser c.toXml)
      (ItemOf.step_struct h1 h2 _) (fun _ _ => rfl) (fun _ _ _ => rfl) (fun _ => rfl),
    Res.bind_assoc, Res.bind_ok, Res.bind_eq_ok]
  cases n with
  | none => simp [getAttributeWithParse]
  | some n =>
    simp [getAttributeWithParse, parseString]

end

/-- Same when there is one kind of child. -/
theorem ItemOf.round_trip_single {γ : Type} (hL : L.Sound K)
    {tag titleTag sentTag childTag : String} {childP : Element → Res γ} {childXml : γ → Element}
    {C : γ → Prop} (hn : ∀ c, (childXml c).name = childTag)
    (hC : L.Sound K → ∀ c, childP (childXml c) = .ok c ↔ C c)
    (hts : titleTag ≠ sentTag) (h1 : titleTag ∉ structTags) (h2 : sentTag ∉ structTags)
    (hd : childTag ≠ titleTag ∧ childTag ≠ sentTag ∧ childTag ∉ structTags) (x : ItemOf L γ) :
    ItemOf.parser tag titleTag sentTag [(childTag, childP)]
      (ItemOf.toXml tag titleTag sentTag childXml x) = .ok x ↔ ItemOf.Keeps K C x :=
  ItemOf.round_trip hL hts h1 h2 (by simp [hn]) (by simpa using hd)
    (fun c => by rw [matchTag_single (hn c)]; exact hC hL c) x

theorem Subitem10.toXml_name (x : Subitem10 L) : (Subitem10.toXml x).name = "Subitem10" := rfl

theorem Subitem10.round_trip (hL : L.Sound K) (x : Subitem10 L) :
    Subitem10.parser (Subitem10.toXml x) = .ok x ↔ Subitem10.Keeps K x :=
  ItemOf.round_trip hL (by decide) (by decide) (by decide) (fun c => c.elim) (by simp)
    (fun c => c.elim) x

theorem Subitem9.toXml_name (x : Subitem9 L) : (Subitem9.toXml x).name = "Subitem9" := rfl

theorem Subitem9.round_trip (hL : L.Sound K) (x : Subitem9 L) :
    Subitem9.parser (Subitem9.toXml x) = .ok x ↔ Subitem9.Keeps K x :=
  ItemOf.round_trip_single hL Subitem10.toXml_name Subitem10.round_trip (by decide) (by decide)
    (by decide) (by decide) x

theorem Subitem8.toXml_name (x : Subitem8 L) : (Subitem8.toXml x).name = "Subitem8" := rfl

theorem Subitem8.round_trip (hL : L.Sound K) (x : Subitem8 L) :
    Subitem8.parser (Subitem8.toXml x) = .ok x ↔ Subitem8.Keeps K x :=
  ItemOf.round_trip_single hL Subitem9.toXml_name Subitem9.round_trip (by decide) (by decide)
    (by decide) (by decide) x

theorem Subitem7.toXml_name (x : Subitem7 L) : (Subitem7.toXml x).name = "Subitem7" := rfl

theorem Subitem7.round_trip (hL : L.Sound K) (x : Subitem7 L) :
    Subitem7.parser (Subitem7.toXml x) = .ok x ↔ Subitem7.Keeps K x :=
  ItemOf.round_trip_single hL Subitem8.toXml_name Subitem8.round_trip (by decide) (by decide)
    (by decide) (by decide) x

theorem Subitem6.toXml_name (x : Subitem6 L) : (Subitem6.toXml x).name = "Subitem6" := rfl

theorem Subitem6.round_trip (hL : L.Sound K) (x : Subitem6 L) :
    Subitem6.parser (Subitem6.toXml x) = .ok x ↔ Subitem6.Keeps K x :=
  ItemOf.round_trip_single hL Subitem7.toXml_name Subitem7.round_trip (by decide) (by decide)
    (by decide) (by decide) x

theorem Subitem5.toXml_name (x : Subitem5 L) : (Subitem5.toXml x).name = "Subitem5" := rfl

theorem Subitem5.round_trip (hL : L.Sound K) (x : Subitem5 L) :
    Subitem5.parser (Subitem5.toXml x) = .ok x ↔ Subitem5.Keeps K x :=
  ItemOf.round_trip_single hL Subitem6.toXml_name Subitem6.round_trip (by decide) (by decide)
    (by decide) (by decide) x

theorem Subitem4.toXml_name (x : Subitem4 L) : (Subitem4.toXml x).name = "Subitem4" := rfl

theorem Subitem4.round_trip (hL : L.Sound K) (x : Subitem4 L) :
    Subitem4.parser (Subitem4.toXml x) = .ok x ↔ Subitem4.Keeps K x :=
  ItemOf.round_trip_single hL Subitem5.toXml_name Subitem5.round_trip (by decide) (by decide)
    (by decide) (by decide) x

theorem Subitem3.toXml_name (x : Subitem3 L) : (Subitem3.toXml x).name = "Subitem3" := rfl

theorem Subitem3.round_trip (hL : L.Sound K) (x : Subitem3 L) :
    Subitem3.parser (Subitem3.toXml x) = .ok x ↔ Subitem3.Keeps K x :=
  ItemOf.round_trip_single hL Subitem4.toXml_name Subitem4.round_trip (by decide) (by decide)
    (by decide) (by decide) x

theorem Subitem2.toXml_name (x : Subitem2 L) : (Subitem2.toXml x).name = "Subitem2" := rfl

theorem Subitem2.round_trip (hL : L.Sound K) (x : Subitem2 L) :
    Subitem2.parser (Subitem2.toXml x) = .ok x ↔ Subitem2.Keeps K x :=
  ItemOf.round_trip_single hL Subitem3.toXml_name Subitem3.round_trip (by decide) (by decide)
    (by decide) (by decide) x

theorem Subitem1.toXml_name (x : Subitem1 L) : (Subitem1.toXml x).name = "Subitem1" := rfl

theorem Subitem1.round_trip (hL : L.Sound K) (x : Subitem1 L) :
    Subitem1.parser (Subitem1.toXml x) = .ok x ↔ Subitem1.Keeps K x :=
  ItemOf.round_trip_single hL Subitem2.toXml_name Subitem2.round_trip (by decide) (by decide)
    (by decide) (by decide) x

theorem Item.toXml_name (x : Item L) : (Item.toXml x).name = "Item" := rfl

theorem Item.round_trip (hL : L.Sound K) (x : Item L) :
    Item.parser (Item.toXml x) = .ok x ↔ Item.Keeps K x :=
  ItemOf.round_trip_single hL Subitem1.toXml_name Subitem1.round_trip (by decide) (by decide)
    (by decide) (by decide) x

/-- A run of children that push on the field `f` of the state `S` in the loop body `st`: writer `g`, reader `p`. -/
macro "seg! " S:term:max st:term:max f:ident g:term:max p:term:max h:term:max : term =>
  `(foldRes_push (step := onElem ($st _)) (fun s : $S => s.$f) (fun s v => { s with $f:ident := v }) $g $p $h
    (fun _ _ => rfl) (fun _ _ _ => rfl) (fun _ => rfl))

/-- An optional child that sets the field `f` of the state `S` in the loop body `st`: writer `g`, reader `p`. -/
macro "opt! " S:term:max st:term:max f:ident g:term:max p:term:max h:term:max : term =>
  `(foldRes_optSet (step := onElem ($st _)) (fun s : $S => s.$f) (fun s v => { s with $f:ident := v }) $g $p $h
    (fun _ => rfl))

theorem Class.toXml_name (x : Class L) : x.toXml.name = "Class" := rfl

theorem Class.step_sentence (e : Element) (s : Class.St L) (t : SentenceOrColumnOrTable L) :
    onElem (Class.step e) s (t.toXml "ClassSentence").node =
      (SentenceOrColumnOrTable.fromElement (t.toXml "ClassSentence")).bind fun v =>
        .ok { s with class_sentence := some v } := rfl

theorem Class.round_trip (hL : L.Sound K) (x : Class L) :
    Class.parser x.toXml = .ok x ↔ x.Keeps K := by
  obtain ⟨t, s, c, n⟩ := x
  simp only [Class.Keeps, OptKeeps, ← Text.round_trip hL _ "ClassTitle",
    ← SentenceOrColumnOrTable.round_trip hL _ "ClassSentence", ← Item.round_trip hL,
    ← optRes_eq_self, ← mapRes_eq_self]
  unfold Class.parser
  rw [if_pos (Class.toXml_name ..)]
  simp only [Class.toXml, forElems, foldRes_append, foldRes_cons, foldRes_nil,
    Class.step_sentence,
    opt! (Class.St L) Class.step class_title (fun t : Text L => (t.toXml "ClassTitle").node)
      (fun t => Text.ofElement (t.toXml "ClassTitle")) (fun _ _ => rfl),
    seg! (Class.St L) Class.step children (fun c : Item L => (Item.toXml c).node)
      (fun c => Item.parser (Item.toXml c)) (fun _ _ => rfl),
    Res.bind_assoc, Res.bind_ok, Res.bind_eq_ok]
  simp [getAttribute]

/-! ## Paragraphs -/

theorem Paragraph.toXml_name (x : Paragraph L) : x.toXml.name = "Paragraph" := rfl

theorem Paragraph.step_num (e : Element) (s : Paragraph.St L) (t : Text L) :
    onElem (Paragraph.step e) s (t.toXml "ParagraphNum").node =
      (Text.ofElement (t.toXml "ParagraphNum")).bind fun v =>
        .ok { s with paragraph_num := v } := rfl

theorem Paragraph.step_sentence (e : Element) (s : Paragraph.St L) (l : List (Sentence L)) :
    onElem (Paragraph.step e) s (Paragraph.sentenceXml l).node =
      (mapRes (fun x => Sentence.parser x.toXml) l).bind fun v =>
        .ok { s with sentence := s.sentence ++ v } := by
  have h : onElem (Paragraph.step e) s (Paragraph.sentenceXml l).node =
      (readAll Sentence.parser (Paragraph.sentenceXml l).children).bind fun v =>
        .ok { s with sentence := s.sentence ++ v } := rfl
  rw [h, Paragraph.sentenceXml, readAll_map]

theorem Paragraph.step_amend (hL : L.Sound K) (e : Element) (s : Paragraph.St L)
    (x : L.AmendProvision) :
    onElem (Paragraph.step e) s (L.amendToXml x).node =
      (L.amendParser (L.amendToXml x)).bind fun v =>
        .ok { s with amend_provision := s.amend_provision ++ [v] } := by
  simp [Paragraph.step, hL.amend_name]

theorem Paragraph.step_struct (e : Element) (s : Paragraph.St L) (x : Struct L) :
    onElem (Paragraph.step e) s x.toXml.node =
      (Struct.parser x.toXml).bind fun v => .ok { s with struct_list := s.struct_list ++ [v] } := by
  rw [onElem_node, Paragraph.step]
  cases x <;> simp [Struct.toXml, Struct.parser, TableStruct.toXml, FigStruct.toXml,
    StyleStruct.toXml, LawList.toXml, BodyStruct.toXml_name, ListOf.toXml_name, Res.bind_assoc]

theorem Paragraph.round_trip (hL : L.Sound K) (x : Paragraph L) :
    Paragraph.parser x.toXml = .ok x ↔ x.Keeps K := by
  obtain ⟨cap, pn, am, cl, se, st, ch, n, b1, b2, b3⟩ := x
  simp only [Paragraph.Keeps, OptKeeps, ← Caption.round_trip hL _ "ParagraphCaption",
    ← Text.round_trip hL _ "ParagraphNum", ← Item.round_trip hL, ← hL.amend,
    ← Class.round_trip hL, ← Sentence.round_trip hL, ← Struct.round_trip hL,
    ← optRes_eq_self, ← mapRes_eq_self, ← ArticleNumber.fromNumStr_numStr]
  unfold Paragraph.parser
  rw [if_pos (Paragraph.toXml_name ..),
    getBool_of_get _ _ b1 (by simp [Paragraph.toXml]),
    getBool_of_get _ _ b2 (by simp [Paragraph.toXml]),
    getBool_of_get _ _ b3 (by simp [Paragraph.toXml])]
  simp only [Paragraph.toXml, forElems, foldRes_append, foldRes_cons, foldRes_nil,
    Paragraph.step_num, Paragraph.step_sentence,
    opt! (Paragraph.St L) Paragraph.step caption
      (fun t : Caption L => (t.toXml "ParagraphCaption").node)
      (fun t => Caption.parser (t.toXml "ParagraphCaption")) (fun _ _ => rfl),
    seg! (Paragraph.St L) Paragraph.step amend_provision
      (fun c : L.AmendProvision => (L.amendToXml c).node)
      (fun c => L.amendParser (L.amendToXml c)) (Paragraph.step_amend hL _),
    seg! (Paragraph.St L) Paragraph.step class_ (fun c : Class L => c.toXml.node)
      (fun c => Class.parser c.toXml) (fun _ _ => rfl),
    seg! (Paragraph.St L) Paragraph.step struct_list (fun c : Struct L => c.toXml.node)
      (fun c => Struct.parser c.toXml) (Paragraph.step_struct _),
    seg! (Paragraph.St L) Paragraph.step children (fun c : Item L => (Item.toXml c).node)
      (fun c => Item.parser (Item.toXml c)) (fun _ _ => rfl),
    Res.bind_assoc, Res.bind_ok, Res.bind_eq_ok]
  simp [getAttributeWithParse, parseString]
  grind

/-! ## Articles -/

theorem Article.toXml_name (x : Article L) : x.toXml.name = "Article" := rfl

theorem Article.head_written (cap : Option (Caption L)) (t : Text L) (rest : List XMLNode) :
    Article.head (L := L) none Text.new
      ((cap.toList.map fun c => (c.toXml "ArticleCaption").node) ++
        [(t.toXml "ArticleTitle").node] ++ rest) =
    (optRes (fun c => Caption.parser (c.toXml "ArticleCaption")) cap).bind fun c =>
      (Text.ofElement (t.toXml "ArticleTitle")).bind fun t => Article.head c t rest := by
  cases cap with
  | none => simp [optRes, Article.head, Text.toXml, Element.node, Text.ofElement]
  | some c =>
    simp [optRes, Article.head, Text.toXml, Element.node, Text.ofElement, Caption.toXml,
      Res.bind_assoc]

theorem Article.head_rest (c : Option (Caption L)) (t : Text L) (ps : List (Paragraph L))
    (o : Option (Text L)) :
    Article.head c t ((ps.map fun v => v.toXml.node) ++
      o.toList.map fun t => (t.toXml "SupplNote").node) =
    if ps = [] ∧ o = none then .panic
    else .ok (c, t, (ps.map fun v => v.toXml.node) ++
      o.toList.map fun t => (t.toXml "SupplNote").node) := by
  cases ps with
  | cons p ps => simp [Article.head, Paragraph.toXml, Element.node]
  | nil => cases o <;> simp [Article.head, Text.toXml, Element.node]

theorem Article.round_trip (hL : L.Sound K) (x : Article L) :
    Article.parser x.toXml = .ok x ↔ x.Keeps K := by
  obtain ⟨cap, t, p, o, n, b1, b2⟩ := x
  simp only [Article.Keeps, OptKeeps, ← Caption.round_trip hL _ "ArticleCaption",
    ← Text.round_trip hL t "ArticleTitle", ← Text.round_trip hL _ "SupplNote",
    ← Paragraph.round_trip hL,
    ← optRes_eq_self, ← mapRes_eq_self, ← ArticleNumber.fromNumStr_numStr]
  unfold Article.parser
  rw [if_pos (Article.toXml_name ..), numAttr_of_get _ n (by simp [Article.toXml]),
    getBool_of_get _ _ b1 (by simp [Article.toXml]),
    getBool_of_get _ _ b2 (by simp [Article.toXml])]
  simp only [Article.toXml, List.append_assoc _ (p.map _)]
  simp only [Article.head_written, Article.head_rest]
  by_cases h : p = [] ∧ o = none
  · simp [h, Res.bind_eq_ok]
  · simp only [if_neg h, forElems, foldRes_append,
      opt! (Article.St L) Article.step suppl_note
        (fun t : Text L => (t.toXml "SupplNote").node)
        (fun t => Text.ofElement (t.toXml "SupplNote")) (fun _ _ => rfl),
      seg! (Article.St L) Article.step paragraph (fun c : Paragraph L => c.toXml.node)
        (fun c => Paragraph.parser c.toXml) (fun _ _ => rfl),
      Res.bind_assoc, Res.bind_ok, Res.bind_eq_ok]
    simp
    grind

/-! ## The hierarchy above articles -/

theorem HierOf.toXml_name {γ : Type} (tag titleTag : String) (childXml : γ → Element)
    (x : HierOf L γ) : (HierOf.toXml tag titleTag childXml x).name = tag := rfl

theorem HierOf.round_trip {γ : Type} (hL : L.Sound K) {tag titleTag : String}
    {arms : List (String × (Element → Res γ))} {childXml : γ → Element} {C : γ → Prop}
    (hC : ∀ e c, matchTag arms (unexpected e) (childXml c) = .ok c ↔ C c) (x : HierOf L γ) :
    HierOf.parser tag titleTag arms (HierOf.toXml tag titleTag childXml x) = .ok x ↔
      HierOf.Keeps K C x := by
  obtain ⟨t, c, n, b1, b2⟩ := x
  simp only [HierOf.Keeps, ← Text.round_trip hL t titleTag,
    ← hC (HierOf.toXml tag titleTag childXml ⟨t, c, n, b1, b2⟩), ← mapRes_eq_self,
    ← ArticleNumber.fromNumStr_numStr]
  unfold HierOf.parser
  rw [if_pos (HierOf.toXml_name ..), numAttr_of_get _ n (by simp [HierOf.toXml]),
    getBool_of_get _ _ b1 (by simp [HierOf.toXml]),
    getBool_of_get _ _ b2 (by simp [HierOf.toXml])]
  have ht : HierOf.titleOf (L := L) titleTag (HierOf.toXml tag titleTag childXml ⟨t, c, n, b1, b2⟩) =
      Text.ofElement (t.toXml titleTag) := by
    simp [HierOf.titleOf, HierOf.toXml, Text.toXml, Element.node, Text.ofElement]
  have hc : (HierOf.toXml tag titleTag childXml ⟨t, c, n, b1, b2⟩).children.tail =
      c.map fun c => (childXml c).node := rfl
  rw [ht, hc, readAll_map]
  simp [Res.bind_eq_ok]
  grind

theorem Division.round_trip (hL : L.Sound K) (x : Division L) :
    Division.parser (Division.toXml x) = .ok x ↔ Division.Keeps K x :=
  HierOf.round_trip hL (fun _ c =>
    (Eq.congr_left (matchTag_single (Article.toXml_name c))).trans (Article.round_trip hL c)) x

theorem SubsectionContents.round_trip (hL : L.Sound K) (d : Element → Res (SubsectionContents L))
    (x : SubsectionContents L) : matchTag SubsectionContents.arms d x.toXml = .ok x ↔ x.Keeps K := by
  cases x with
  | article v => exact elem_arm (Article.round_trip hL v) rfl (by inj)
  | division v => exact elem_arm (Division.round_trip hL v) rfl (by inj)

theorem Subsection.round_trip (hL : L.Sound K) (x : Subsection L) :
    Subsection.parser (Subsection.toXml x) = .ok x ↔ Subsection.Keeps K x :=
  HierOf.round_trip hL (fun _ c => SubsectionContents.round_trip hL _ c) x

theorem SectionContents.round_trip (hL : L.Sound K) (d : Element → Res (SectionContents L))
    (x : SectionContents L) : matchTag SectionContents.arms d x.toXml = .ok x ↔ x.Keeps K := by
  cases x with
  | article v => exact elem_arm (Article.round_trip hL v) rfl (by inj)
  | subsection v => exact elem_arm (Subsection.round_trip hL v) rfl (by inj)
  | division v => exact elem_arm (Division.round_trip hL v) rfl (by inj)

theorem Section.round_trip (hL : L.Sound K) (x : Section L) :
    Section.parser (Section.toXml x) = .ok x ↔ Section.Keeps K x :=
  HierOf.round_trip hL (fun _ c => SectionContents.round_trip hL _ c) x

theorem ChapterContents.round_trip (hL : L.Sound K) (d : Element → Res (ChapterContents L))
    (x : ChapterContents L) : matchTag ChapterContents.arms d x.toXml = .ok x ↔ x.Keeps K := by
  cases x with
  | article v => exact elem_arm (Article.round_trip hL v) rfl (by inj)
  | section_ v => exact elem_arm (Section.round_trip hL v) rfl (by inj)

theorem Chapter.round_trip (hL : L.Sound K) (x : Chapter L) :
    Chapter.parser (Chapter.toXml x) = .ok x ↔ Chapter.Keeps K x :=
  HierOf.round_trip hL (fun _ c => ChapterContents.round_trip hL _ c) x

theorem PartContents.round_trip (hL : L.Sound K) (d : Element → Res (PartContents L))
    (x : PartContents L) : matchTag PartContents.arms d x.toXml = .ok x ↔ x.Keeps K := by
  cases x with
  | article v => exact elem_arm (Article.round_trip hL v) rfl (by inj)
  | chapter v => exact elem_arm (Chapter.round_trip hL v) rfl (by inj)

theorem Part.round_trip (hL : L.Sound K) (x : Part L) :
    Part.parser (Part.toXml x) = .ok x ↔ Part.Keeps K x :=
  HierOf.round_trip hL (fun _ c => PartContents.round_trip hL _ c) x

end JLaw
