import Verif.Props.Built
import Verif.Props.Extract
import Verif.Props.FromTextRoundTrip
import Verif.Props.Io
import Verif.Props.Message
import Verif.Reading.SettleWeight

/-!
# Laws in XML files (C88, C89)

An XML file keeps `Spec.settle` of a document: texts without blank texts and without a border between
neighbours. Whether a law is the same after that, and which laws are.
-/

namespace JLaw

open Spec Spec.Doc

/-! ## C88: what a file keeps -/

/-- **C88.** What a file keeps is kept by a file, and a document is kept by a file exactly if no text
follows another one and no text is blank. -/
theorem C88_settle (e : Element) :
    Settled (settle e) ∧ (settle e = e ↔ Settled e) ∧ settle (settle e) = settle e :=
  ⟨settle_settled e, settle_eq_iff e, (settle_eq_iff _).2 (settle_settled e)⟩

theorem settle_height {n : Nat} {e : Element} (h : e.node.height ≤ n) :
    (settle e).node.height ≤ n := by
  rw [← settleNode_node]
  exact (height_settle _).trans h

/-- **C88.** A quiet document and what a file keeps of it are both read, or both make the program
panic, or both give the same error. -/
theorem C88_same_outcome (n : Nat) (e : Element) (hn : e.node.height ≤ n) (hq : Quiet e) :
    ((∃ x : Law (lvl n), Law.parser (settle e) = .ok x) ↔ ∃ x : Law (lvl n), Law.parser e = .ok x) ∧
    (∀ E, Law.parser (L := lvl n) (settle e) = .err E ↔ Law.parser (L := lvl n) e = .err E) ∧
    (Law.parser (L := lvl n) (settle e) = .panic ↔ Law.parser (L := lvl n) e = .panic) := by
  have hs := settle_height hn
  refine ⟨?_, fun E => ?_, ?_⟩
  · rw [C78_read_iff n e hn, C78_read_iff n _ hs, judgeLaw_settle hq]
  · rw [C78_error_iff n e hn, C78_error_iff n _ hs, judgeLaw_settle hq]
  · rw [C78_panic_iff n e hn, C78_panic_iff n _ hs, judgeLaw_settle hq]

theorem rewrite_settle_doc {e : Element} (hq : Quiet e) : rewrite (settle e) = rewrite e := by
  have h := rewrite_settle e.node hq
  rw [settleNode_node] at h
  exact node_inj (by simpa only [Element.node, rewriteNode, rewrite] using h)

/-- **C88.** What is written for a law read from a file of a quiet document is what is written for a
law read from the document. -/
theorem C88_same_writing (n : Nat) (e : Element) (hn : e.node.height ≤ n) (hq : Quiet e)
    (x y : Law (lvl n)) (hx : Law.parser e = .ok x) (hy : Law.parser (settle e) = .ok y) :
    x.toXml = y.toXml := by
  rw [C77_law_rewritten n e hn x hx, C77_law_rewritten n _ (settle_height hn) y hy,
    rewrite_settle_doc hq]

/-- **C88.** If there is nothing lossy in a quiet document, reading does not see whether it has been
in a file. -/
theorem C88_law_same (n : Nat) (e : Element) (hn : e.node.height ≤ n) (hq : Quiet e) (hc : Clean e) :
    Law.parser (L := lvl n) (settle e) = Law.parser e := by
  obtain ⟨h1, h2, h3⟩ := C88_same_outcome n e hn hq
  have ho := C78_outcome n e hn
  split at ho
  · obtain ⟨x, hx⟩ := ho
    obtain ⟨y, hy⟩ := h1.2 ⟨x, hx⟩
    have hw := C88_same_writing n e hn hq x y hx hy
    have h := C59_clean_law_stable n e x hc hx
    rw [hw, C59_clean_law_stable n _ y (settle_clean hc) hy] at h
    rw [hx, hy, h]
  · rw [ho, (h2 _).2 ho]
  · rw [ho, h3.2 ho]

/-- **C88.** So a law that is written without a text next to another one and without blank texts is
read from a file as it is read from the document that was written. -/
theorem C88_written (n : Nat) (x : Law (lvl n)) (hn : x.toXml.node.height ≤ n)
    (hq : Quiet x.toXml) : Law.parser (L := lvl n) (settle x.toXml) = Law.parser x.toXml :=
  C88_law_same n _ hn hq (C68_written_clean n x)

theorem written_string {n : Nat} (x : Law (lvl n)) (t : String) (a : Attrs) (c : List XMLNode)
    (h : Within (.element t a c) x.toXml.node) (ht : t ∈ stringTags) : ∃ s, c = [.text s] := by
  have hc := C75_every_element n x ⟨t, a, c⟩ h
  cases hc with
  | intro e forms f hl hf _ hs _ =>
    have key : forms = [stringForm] := by
      simp only [stringTags, List.mem_cons, List.not_mem_nil, or_false] at ht
      rcases ht with rfl | rfl | rfl | rfl <;> exact Option.some.inj (hl.symm.trans rfl)
    subst key
    cases List.mem_singleton.1 hf
    obtain ⟨c1, c2, h1, ⟨s, h2⟩, h3⟩ := hs
    exact ⟨s, by rw [show c = c1 ++ c2 from h1, h2, show c2 = [] from h3, List.append_nil]⟩

/-- **C88.** A law comes back from an XML file exactly if it comes back from the document that is
written for it and this document is quiet. -/
theorem C88_survives_iff (n : Nat) (x : Law (lvl n)) (hn : x.toXml.node.height ≤ n) :
    Law.parser (settle x.toXml) = .ok x ↔ Law.parser x.toXml = .ok x ∧ Quiet x.toXml := by
  constructor
  · intro h
    have hq : Quiet x.toXml := by
      refine quiet_of_weight x.toXml.node (fun t a c h1 h2 => written_string x t a c h1 h2) ?_
      have h1 := C77_law_rewritten n _ (settle_height hn) x h
      have h2 := weight_rewrite (μ := sizes) (settle x.toXml).node
      rw [show rewriteNode (settle x.toXml).node = (rewrite (settle x.toXml)).node by
        rw [Element.node, rewriteNode]; rfl, ← h1, ← settleNode_node] at h2
      exact h2
    exact ⟨(C88_written n x hn hq).symm.trans h, hq⟩
  · rintro ⟨h, hq⟩
    rw [C88_written n x hn hq, h]

/-- **C88.** The same with what a law must keep. -/
theorem C88_survives_keeps (n : Nat) (x : Law (lvl n)) (hn : x.toXml.node.height ≤ n) :
    Law.parser (settle x.toXml) = .ok x ↔ x.Keeps (kcanon n) ∧ Quiet x.toXml := by
  rw [C88_survives_iff n x hn, C28_law_survives]

/-- **C88.** A law that has been read from a file is read back from the file that is written for it,
if the first file has nothing lossy, no comments, and no text cut in two by something that is not
read. -/
theorem C88_read_written (n : Nat) (e : Element) (hn : e.node.height + 1 ≤ n) (hs : Settled e)
    (hp : NoComments e) (hu : WholeTexts e) (hc : Clean e) (x : Law (lvl n)) (h : Law.parser e = .ok x) :
    Law.parser (settle x.toXml) = .ok x := by
  have hx := C77_law_rewritten n e (Nat.le_of_succ_le hn) x h
  have hq : Quiet x.toXml := hx ▸ rewrite_quiet_doc hs hp hu
  have hh : x.toXml.node.height ≤ n := hx ▸ (height_rewrite e).trans hn
  exact (C88_survives_iff n x hh).2 ⟨C59_clean_law_stable n e x hc h, hq⟩

/-- **C88.** With an XML reader that gives back what a file keeps of the document that is written, a
law comes back from the string and from a file with the string exactly if it keeps its XML and is
written as a quiet document. -/
theorem C88_files (n : Nat) (emit : Element → Emit) (parse : ByteArray → Option Element)
    (law : Law (lvl n)) (hn : law.toXml.node.height ≤ n) (s : String)
    (_hs : toXmlString emit law = .ok s) (hp : parse s.toByteArray = some (settle law.toXml))
    (file : String → Option ByteArray) (path : String) (hf : file path = some s.toByteArray) :
    (parseXml parse s.toByteArray = .ok law ↔ law.Keeps (kcanon n) ∧ Quiet law.toXml) ∧
    (parseXmlFile parse file path = .ok law ↔ law.Keeps (kcanon n) ∧ Quiet law.toXml) := by
  have h : parseXml parse s.toByteArray = .ok law ↔ law.Keeps (kcanon n) ∧ Quiet law.toXml := by
    rw [parseXml, hp]
    exact C88_survives_keeps n law hn
  exact ⟨h, by rw [parseXmlFile, hf]; exact h⟩

/-! ## C89: laws from text -/

mutual
theorem articlesIn_within : ∀ x, ∀ y ∈ articlesIn x, Within y x
  | .element n a c => by
    rw [articlesIn]
    split
    · intro y hy; cases List.mem_singleton.1 hy; exact .refl
    · split
      · intro y hy
        obtain ⟨z, hz, h⟩ := articlesAmong_within c y hy
        exact .child _ _ _ z hz h
      · nofun
  | .text _ => by rw [articlesIn_nil rfl]; nofun
  | .comment _ => by rw [articlesIn_nil rfl]; nofun
  | .cdata _ => by rw [articlesIn_nil rfl]; nofun
  | .processingInstruction _ _ => by rw [articlesIn_nil rfl]; nofun
theorem articlesAmong_within : ∀ c, ∀ y ∈ articlesAmong c, ∃ z ∈ c, Within y z
  | [] => by rw [articlesAmong]; nofun
  | x :: c => by
    rw [articlesAmong]
    intro y hy
    rcases List.mem_append.1 hy with hy | hy
    · exact ⟨x, List.mem_cons_self, articlesIn_within x y hy⟩
    · obtain ⟨z, hz, h⟩ := articlesAmong_within c y hy
      exact ⟨z, List.mem_cons_of_mem _ hz, h⟩
end

theorem within_kid {x y : XMLNode} (h : y ∈ kidsOf x) : Within y x := by
  cases x with
  | element n a c => exact .child _ _ _ y h .refl
  | _ => cases h

theorem mainOf_within {e : Element} {y : XMLNode} (h : y ∈ mainOf e) : Within y e.node := by
  unfold mainOf at h
  cases hl : (tagged "MainProvision" (bodyOf e)).getLast? with
  | none => rw [hl] at h; cases h
  | some m =>
    rw [hl] at h
    have h1 : m ∈ bodyOf e := (List.mem_filter.1 (List.mem_of_getLast? hl)).1
    refine (within_kid h).trans ?_
    unfold bodyOf at h1
    cases hb : e.children[1]? with
    | none => rw [hb] at h1; cases h1
    | some b =>
      rw [hb] at h1
      exact (within_kid h1).trans (.child _ _ _ b (List.mem_of_getElem? hb) .refl)

theorem settled_title {e : Element} (hs : Settled e) {y : XMLNode} (hy : Within y e.node)
    (hn : isNamed ["Article"] y = true) {b : Attrs} {d : List XMLNode}
    (h : .element "ArticleTitle" b d ∈ kidsOf (rewriteNode y)) {s : String} (ht : .text s ∈ d) :
    blank s = false := by
  obtain ⟨a, c, rfl⟩ := named_of hn
  have hl : layouts.lookup "Article" = some { attrs := unitCopies, parts :=
      [.last "ArticleCaption", .lastOr "ArticleTitle", .each ["Paragraph"], .last "SupplNote"] } := by
    with_unfolding_all rfl
  rw [kids_of hl] at h
  have key : ∀ z, z ∈ c → rewriteNode z = .element "ArticleTitle" b d → blank s = false := by
    intro z hz he
    have hz' : isNamed ["ArticleTitle"] z = true := by
      rw [← isNamed_rewrite (by simp [shifty]), he]; rfl
    obtain ⟨a', c', rfl⟩ := named_of hz'
    have hk := kids_of (t := "ArticleTitle") (l := textLayout) (by with_unfolding_all rfl) a' c'
    rw [he] at hk
    have hk : d = _ := hk
    rw [hk] at ht
    simp only [textLayout, List.flatMap_cons, List.flatMap_nil, List.append_nil, Portion.nodes]
      at ht
    obtain ⟨w, hw, -⟩ := mem_pick ht
    obtain ⟨hw1, hw2⟩ := mem_rewriteList hw
    cases w with
    | text t =>
      rw [rewriteNode_text] at hw2
      cases hw2
      exact (hs "ArticleTitle" a' c' (Within.trans (.child _ _ _ _ hz .refl) hy)).2 s hw1
    | element m b' d' => rw [rewriteNode] at hw2; cases hw2
    | _ => simp [rewriteNode] at hw2
  have each : ∀ tags z, z ∈ pick (isNamed tags) (rewriteList c) → ∃ w ∈ c, z = rewriteNode w := by
    intro tags z hz
    obtain ⟨w, hw, -⟩ := mem_pick hz
    exact ⟨w, mem_rewriteList hw⟩
  have last : ∀ t z, z ∈ (pick (isNamed [t]) (rewriteList c)).getLast?.toList →
      ∃ w ∈ c, z = rewriteNode w := fun t z hz => each _ z (mem_getLast? hz)
  have find : .element "ArticleTitle" b d = XMLNode.element "ArticleTitle" [] [] ∨
      ∃ w ∈ c, .element "ArticleTitle" b d = rewriteNode w := by
    simp only [List.flatMap_cons, List.flatMap_nil, List.append_nil, List.mem_append,
      Portion.nodes] at h
    rcases h with h | h | h | h
    · exact .inr (last _ _ h)
    · cases hp : (pick (isNamed ["ArticleTitle"]) (rewriteList c)).getLast? with
      | none => rw [hp] at h; exact .inl (List.mem_singleton.1 h)
      | some w =>
        rw [hp] at h
        cases List.mem_singleton.1 h
        exact .inr (each _ _ (List.mem_of_getLast? hp))
    · exact .inr (each _ _ h)
    · exact .inr (last _ _ h)
  rcases find with h | ⟨w, hw, h⟩
  · cases h; cases ht
  · exact key w hw h.symm

/-- **C89.** No article of the main provision of a law that has been read from a file has a title with
a blank text. -/
theorem C89_titles_read (n : Nat) (e : Element) (hn : e.node.height ≤ n) (hs : Settled e)
    (x : Law (lvl n)) (h : Law.parser e = .ok x) :
    ∀ a ∈ (articleListFromMainProvision x.law_body.main_provision).1,
      ∀ s, .text s ∈ a.title.contents → blank s = false := by
  intro a ha s hm
  have hl := (C81_main_provision n e hn x h).2.1
  have h1 : a.toXml.node ∈ (articlesAmong (mainOf e)).map rewriteNode :=
    hl ▸ List.mem_map.2 ⟨a, ha, rfl⟩
  obtain ⟨y, hy, hr⟩ := List.mem_map.1 h1
  obtain ⟨z, hz, hw⟩ := articlesAmong_within _ y hy
  refine settled_title hs (hw.trans (mainOf_within hz)) (articlesAmong_named _ y hy)
    (b := []) (d := (a.title.toXml "ArticleTitle").children) ?_ ?_
  · rw [hr]
    simp [Element.node, Article.toXml, kidsOf, Text.toXml]
  · exact List.mem_map.2 ⟨_, hm, rfl⟩

section Built

variable {L : Lvl}

/-- The article has the title of the articles of `parse_text`. -/
def Untitled (w : WithNumberArticle L) : Prop := w.article.title = Spec.plainText []

theorem division_untitled {d : Division L} (h : DivisionBuilt d) :
    ∀ w ∈ articleListFromDivision d, Untitled w := by
  intro w hw
  obtain ⟨a, ha, rfl⟩ := List.mem_map.1 hw
  exact (h.children a ha).title

theorem subsection_untitled {d : Subsection L} (h : SubsectionBuilt d) :
    ∀ w ∈ articleListFromSubsection d, Untitled w := by
  intro w hw
  obtain ⟨c, hc, hw⟩ := List.mem_flatMap.1 hw
  have hb := h.children c hc
  cases c with
  | article a => cases List.mem_singleton.1 hw; exact hb.title
  | division t =>
    obtain ⟨v, hv, rfl⟩ := List.mem_map.1 hw
    exact division_untitled hb v hv

theorem section_untitled {d : Section L} (h : SectionBuilt d) :
    ∀ w ∈ articleListFromSection d, Untitled w := by
  intro w hw
  obtain ⟨c, hc, hw⟩ := List.mem_flatMap.1 hw
  have hb := h.children c hc
  cases c with
  | article a => cases List.mem_singleton.1 hw; exact hb.title
  | subsection t =>
    obtain ⟨v, hv, rfl⟩ := List.mem_map.1 hw
    exact subsection_untitled hb v hv
  | division t => cases hb

theorem chapter_untitled {d : Chapter L} (h : ChapterBuilt d) :
    ∀ w ∈ articleListFromChapter d, Untitled w := by
  intro w hw
  obtain ⟨c, hc, hw⟩ := List.mem_flatMap.1 hw
  have hb := h.children c hc
  cases c with
  | article a => cases List.mem_singleton.1 hw; exact hb.title
  | section_ t =>
    obtain ⟨v, hv, rfl⟩ := List.mem_map.1 hw
    exact section_untitled hb v hv

theorem part_untitled {d : Part L} (h : PartBuilt d) :
    ∀ w ∈ articleListFromPart d, Untitled w := by
  intro w hw
  obtain ⟨c, hc, hw⟩ := List.mem_flatMap.1 hw
  have hb := h.children c hc
  cases c with
  | article a => cases List.mem_singleton.1 hw; exact hb.title
  | chapter t =>
    obtain ⟨v, hv, rfl⟩ := List.mem_map.1 hw
    exact chapter_untitled hb v hv

theorem main_untitled (c : List (MainProvisionContents L)) : ∀ s : ListSt (WithNumberArticle L) L,
    (∀ y ∈ c, MainBuilt y) → (∀ w ∈ s.v, Untitled w) →
    ∀ w ∈ (c.foldl mainProvisionStep s).v, Untitled w := by
  induction c with
  | nil => exact fun s _ h => h
  | cons y c ih =>
    intro s hc hs
    refine ih _ (fun z hz => hc z (List.mem_cons_of_mem _ hz)) ?_
    have hy := hc y List.mem_cons_self
    have key : ∀ l : List (WithNumberArticle L), (∀ w ∈ l, Untitled w) →
        ∀ w ∈ (s.close l).v, Untitled w := fun l hl w hw =>
      (List.mem_append.1 hw).elim (hs w) (hl w)
    cases y with
    | part t => exact key _ (part_untitled hy)
    | chapter t => exact key _ (chapter_untitled hy)
    | section_ t => exact key _ (section_untitled hy)
    | article t => exact key _ fun w hw => by cases List.mem_singleton.1 hw; exact hy.title
    | paragraph t => cases hy

end Built

/-- **C89.** The title of every article of a law that `parse_text` builds is one empty text. -/
theorem C89_titles_built {L : Lvl} (E : Ext) (fuel : Nat) (title text : List Char) (b : LawBody L)
    (h : parseBody E fuel title text = .ok (some b)) :
    ∀ a ∈ (articleListFromMainProvision b.main_provision).1, a.title = ⟨[.text ""]⟩ := by
  intro a ha
  obtain ⟨w, hw, rfl⟩ := List.mem_map.1 ha
  exact main_untitled _ {} (C72_shape E fuel title text b h).children nofun w hw

/-- **C89.** A law with an article that `parse_text` builds does not come back from the XML file that
is written for it, whatever the text and the number of the law. -/
theorem C89_from_text (n : Nat) (E : Ext) (cal : Calendar) (fuel : Nat) (text : List Char)
    (year : Usize) (month day : Option Usize) (lawType : LawType) (lang : Lang)
    (num : Option ArticleNumber) (lawNum : String) (title : List Char) (x : Law (lvl n))
    (h : parseText E cal fuel text year month day lawType lang num lawNum title = .ok (some x))
    (ha : (articleListFromMainProvision x.law_body.main_provision).1 ≠ [])
    (hn : x.toXml.node.height ≤ n) : Law.parser (settle x.toXml) ≠ .ok x := by
  intro hx
  obtain ⟨a, hm⟩ := List.exists_mem_of_ne_nil _ ha
  have hb := (C57_header E cal fuel text year month day lawType lang num lawNum title x h).2.2.2.2.2.2.2.2
  have ht := C89_titles_built E fuel title text _ hb a hm
  have := C89_titles_read n _ (settle_height hn) (settle_settled _) x hx a hm "" (by rw [ht]; simp)
  exact absurd this (by decide +kernel)

/-! ## Examples -/

mutual
/-- The condition holds for a node and everything in it. -/
def everywhere (p : XMLNode → Bool) : XMLNode → Bool
  | .element n a c => p (.element n a c) && everywhereIn p c
  | x => p x
/-- The condition holds everywhere in the nodes. -/
def everywhereIn (p : XMLNode → Bool) : List XMLNode → Bool
  | [] => true
  | x :: c => everywhere p x && everywhereIn p c
end

theorem everywhereIn_mem {p : XMLNode → Bool} {c : List XMLNode} (h : everywhereIn p c = true)
    {x : XMLNode} (hx : x ∈ c) : everywhere p x = true := by
  induction c with
  | nil => cases hx
  | cons y c ih =>
    rw [everywhereIn, Bool.and_eq_true] at h
    rcases List.mem_cons.1 hx with rfl | hx
    · exact h.1
    · exact ih h.2 hx

theorem everywhere_spec {p : XMLNode → Bool} {x y : XMLNode} (hy : Within y x)
    (h : everywhere p x = true) : p y = true := by
  induction hy with
  | refl =>
    cases y with
    | element n a c => rw [everywhere, Bool.and_eq_true] at h; exact h.1
    | _ => exact h
  | child n a c z hz _ ih =>
    rw [everywhere, Bool.and_eq_true] at h
    exact ih (everywhereIn_mem h.2 hz)

/-- The condition of `WholeTexts` for one element. -/
def wholeHere : XMLNode → Bool
  | .element n _ c =>
    (!textElements.contains n || c.all fun
      | .element m b d => ["Ruby", "Sup", "Sub"].contains m || m == "Line" && accepts (.element m b d)
      | _ => true) &&
    (n != "Ruby" || decide ((c.filter isString).length ≤ 1))
  | _ => true

theorem whole_of {e : Element} (h : everywhere wholeHere e.node = true) : WholeTexts e := by
  intro n a c hw
  have := everywhere_spec hw h
  simp only [wholeHere, Bool.and_eq_true, Bool.or_eq_true, Bool.not_eq_true', List.all_eq_true,
    bne_iff_ne, decide_eq_true_eq, List.contains_eq_mem, decide_eq_false_iff_not] at this
  refine ⟨fun hn m b d hm => ?_, fun hn => ?_⟩
  · rcases this.1 with h | h
    · exact absurd hn h
    · simpa only [Bool.or_eq_true, Bool.and_eq_true, decide_eq_true_eq, beq_iff_eq] using h _ hm
  · exact this.2.elim (absurd hn) id

theorem no_comments_of {e : Element} (h : everywhere (fun x => !x.isOther) e.node = true) :
    NoComments e := fun x hx => by simpa using everywhere_spec hx h

/-- `C88_read_written` at a document that is not what is written. -/
example : Settled cleanDoc ∧ NoComments cleanDoc ∧ WholeTexts cleanDoc ∧ Clean cleanDoc ∧
    cleanDoc.node.height + 1 ≤ 12 ∧ isRead 12 cleanDoc = true ∧ rewrite cleanDoc ≠ cleanDoc :=
  ⟨(settle_eq_iff _).1 (by with_unfolding_all rfl), no_comments_of (by decide +kernel),
    whole_of (by decide +kernel), cleanDoc_clean, by decide +kernel, by decide +kernel,
    fun h => absurd (congrArg (fun e => e.attributes) h) (by decide +kernel)⟩

/-- The condition of `Quiet` for one element. -/
def quietHere : XMLNode → Bool
  | .element n _ c => apartHere c && c.all fun
    | .text s => !blank s || s == "" && stringTags.contains n
    | _ => true
  | _ => true
where
  /-- No text follows another one. -/
  apartHere : List XMLNode → Bool
    | .text _ :: .text _ :: _ => false
    | _ :: c => apartHere c
    | [] => true

theorem apart_of {c : List XMLNode} (h : quietHere.apartHere c = true) : Apart c := by
  fun_induction quietHere.apartHere c with
  | case1 => cases h
  | case2 x c hx ih =>
    rw [Apart]
    · exact ih h
    · exact hx
  | case3 => trivial

theorem quiet_of {e : Element} (h : everywhere quietHere e.node = true) : Quiet e := by
  intro n a c hw
  have := everywhere_spec hw h
  rw [quietHere, Bool.and_eq_true, List.all_eq_true] at this
  refine ⟨apart_of this.1, fun s hs hb => ?_⟩
  have := this.2 _ hs
  simpa [hb] using this

/-- A law whose number in words is an empty text. -/
def unnamed : Element :=
  ⟨"Law", [("Era", "Reiwa"), ("Year", "5"), ("Num", "1"), ("LawType", "Act"), ("Lang", "ja")],
    [plainNode "LawNum" [.text ""],
      plainNode "LawBody" [plainNode "MainProvision" [paraNode "1" []]]]⟩

/-- `C88_law_same` and the theorems before it at a document that a file changes. -/
example : unnamed.node.height ≤ 12 ∧ Quiet unnamed ∧ settle unnamed ≠ unnamed ∧
    isRead 12 unnamed = true :=
  ⟨by decide +kernel, quiet_of (by decide +kernel),
    fun h => absurd (congrArg (fun e => (e.children.map fun x => (kidsOf x).length)) h)
      (by decide +kernel), by decide +kernel⟩

/-- A document with an error, to which `C88_same_outcome` applies, and one that makes the program
panic. -/
example : Quiet (lawDoc [] [paraNode "x" []] []) ∧
    judgeLaw (lawDoc [] [paraNode "x" []] []) ≠ .fine ∧
    Quiet (lawDoc [] [.element "Article" [("Num", "1")] []] []) ∧
    judgeLaw (lawDoc [] [.element "Article" [("Num", "1")] []] []) = .crash :=
  ⟨quiet_of (by decide +kernel), by decide +kernel, quiet_of (by decide +kernel), by decide +kernel⟩

/-- `C88_survives_iff`, `C88_written` and `C88_files` at a law that a file changes. -/
example : ∃ x : Law (lvl 12), x.toXml.node.height ≤ 12 ∧ Quiet x.toXml ∧ settle x.toXml ≠ x.toXml ∧
    Law.parser (settle x.toXml) = .ok x ∧ x.Keeps (kcanon 12) := by
  obtain ⟨x, hx⟩ := isRead_iff.1 (by decide +kernel : isRead 12 (rewrite unnamed) = true)
  have hw := C77_law_rewritten 12 _ (by decide +kernel) x hx
  have he : rewrite (rewrite unnamed) = rewrite unnamed := by with_unfolding_all rfl
  rw [he] at hw
  have hh : x.toXml.node.height ≤ 12 := by rw [hw]; decide +kernel
  have hq : Quiet x.toXml := by rw [hw]; exact quiet_of (by decide +kernel)
  have hk : Law.parser x.toXml = .ok x := by rw [hw]; exact hx
  refine ⟨x, hh, hq, ?_, (C88_survives_iff 12 x hh).2 ⟨hk, hq⟩, (C28_law_survives 12 x).1 hk⟩
  rw [hw]
  exact fun h => absurd (congrArg (fun e => (e.children.map fun x => (kidsOf x).length)) h)
    (by decide +kernel)

/-- A calendar that always names the present era. -/
def reiwaCalendar : Calendar := fun _ _ _ => some (some "令和")

/-- `C89_from_text` at a law with a chapter and two articles, which without the file would come
back. -/
example : ∃ x : Law (lvl 12), parseText kanjiExt reiwaCalendar 9
      "第一章　総則\n第一条　甲\n２　乙\n第二条　丙".toList 5 none none .act .ja (some ⟨1, [], []⟩)
      "令和五年法律第一号" "題".toList = .ok (some x) ∧
    (articleListFromMainProvision x.law_body.main_provision).1.length = 2 ∧
    x.toXml.node.height ≤ 12 ∧ Law.parser x.toXml = .ok x ∧
    Law.parser (settle x.toXml) ≠ .ok x := by
  have h : (match parseText (L := lvl 12) kanjiExt reiwaCalendar 9
      "第一章　総則\n第一条　甲\n２　乙\n第二条　丙".toList 5 none none .act .ja (some ⟨1, [], []⟩)
      "令和五年法律第一号" "題".toList with
    | .ok (some x) => (articleListFromMainProvision x.law_body.main_provision).1.length == 2 &&
        decide (x.toXml.node.height ≤ 12)
    | _ => false) = true := by decide +kernel
  split at h
  case h_2 => cases h
  case h_1 x hx =>
    simp only [Bool.and_eq_true, beq_iff_eq, decide_eq_true_eq] at h
    have hls : readLines kanjiExt "第一章　総則\n第一条　甲\n２　乙\n第二条　丙".toList =
        .ok [.chapter ⟨1, [], []⟩ "総則".toList, .article ⟨1, [], []⟩ "甲".toList,
          .paragraph ⟨2, [], []⟩ "乙".toList, .article ⟨2, [], []⟩ "丙".toList] := by decide +kernel
    refine ⟨x, hx, h.1, h.2, C58_without_ranges _ _ _ _ _ _ _ _ _ _ _ _ _ x _ hx hls rfl
      (by simp [Spec.numberOf]), C89_from_text _ _ _ _ _ _ _ _ _ _ _ _ _ x hx ?_ h.2⟩
    intro h0
    rw [h0] at h
    cases h.1

/-! The exclusions are needed. -/

mutual
/-- The texts in a node. -/
def textsIn : XMLNode → List String
  | .element _ _ c => textsAmong c
  | .text s => [s]
  | _ => []
/-- The texts in the nodes. -/
def textsAmong : List XMLNode → List String
  | [] => []
  | x :: c => textsIn x ++ textsAmong c
end

/-- The document is read, but the law is not read back from the file that is written for it. -/
def LostInFile (e : Element) : Prop :=
  ∃ x : Law (lvl 12), Law.parser e = .ok x ∧ Law.parser (settle x.toXml) ≠ .ok x

theorem lost_of {e : Element} (hn : e.node.height ≤ 12) (hm : (rewrite e).node.height ≤ 12)
    (hr : isRead 12 e = true)
    (ht : textsIn (rewrite (settle (rewrite e))).node ≠ textsIn (rewrite e).node) :
    LostInFile e := by
  unfold isRead at hr
  split at hr
  case h_2 => cases hr
  case h_1 x hx =>
    refine ⟨x, hx, fun h => ht ?_⟩
    have h1 := C77_law_rewritten 12 e hn x hx
    rw [h1] at h
    rw [← C77_law_rewritten 12 _ (settle_height hm) x h, h1]

/-- A law with one article with the given nodes in its title and in its sentence. -/
def texted (title sentence : List XMLNode) : Element :=
  lawDoc [] [.element "Article" [("Num", "1")] [plainNode "ArticleTitle" title,
    .element "Paragraph" [("Num", "1")] [plainNode "ParagraphNum" [],
      plainNode "ParagraphSentence" [plainNode "Sentence" sentence]]]] []

/-- **C88.** None of the conditions of `C88_read_written` on texts can be dropped: two texts next to
each other, a blank text, and, although they are settled, a comment in a text, an element that is not
read in a title, and a ruby in two pieces. -/
theorem C88_conditions_needed :
    LostInFile (texted [] [.text "甲", .text "乙"]) ∧
    LostInFile (texted [.text " "] [.text "甲"]) ∧
    (∀ e ∈ [texted [] [.text "甲", .comment "注", .text "乙"],
        texted [.text "甲", plainNode "QuoteStruct" [], .text "乙"] [],
        texted [] [plainNode "Ruby" [.text "甲", plainNode "Rt" [.text "こう"], .text "乙"]]],
      Settled e ∧ LostInFile e) := by
  refine ⟨lost_of (by decide +kernel) (by decide +kernel) (by decide +kernel) (by decide +kernel),
    lost_of (by decide +kernel) (by decide +kernel) (by decide +kernel) (by decide +kernel), ?_⟩
  intro e he
  simp only [List.mem_cons, List.not_mem_nil, or_false] at he
  rcases he with rfl | rfl | rfl
  all_goals exact ⟨(settle_eq_iff _).1 (by with_unfolding_all rfl), lost_of (by decide +kernel)
    (by decide +kernel) (by decide +kernel) (by decide +kernel)⟩

end JLaw
