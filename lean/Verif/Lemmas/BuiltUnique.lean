import Verif.Lemmas.BuiltReads

/-!
# The pieces of a law determine its lines
-/

namespace JLaw

open Spec

variable {L : Lvl}

namespace Spec

variable (H : Nat → ArticleNumber → ItemNumber)

/-- The line of the heading of the innermost unit of a path. -/
def headLine (path : List Kind) (n : ArticleNumber) (s : List Char) : TextLine :=
  match path.getLast? with
  | some .part => .part n s
  | some .chapter => .chapter n s
  | some .section_ => .section_ n s
  | some .subsection => .subsection n s
  | some .division => .division n s
  | none => .text s

/-- The plain string of the contents of a sentence made from a line. -/
def contentsChars (c : List (SentenceElement L)) : List Char :=
  match c with
  | [.string s] => s.toList
  | _ => []

/-- The lines of pieces; `started` says whether the preamble is over, `art` is the number of an
article whose first paragraph comes next, `head` makes the line of the next sentence. -/
def pieceLines : Bool → Option ArticleNumber → (List Char → TextLine) → List (Piece L) → List TextLine
  | _, _, _, [] => []
  | s, a, h, x :: r =>
    match x with
    | .heading p n t _ => headLine p n (textChars t) :: pieceLines true none .text r
    | .caption t => .caption (textChars t) :: pieceLines true none .text r
    | .article _ n _ => pieceLines true (some n) .text r
    | .paragraph n =>
      match a with
      | some m => pieceLines s none (.article m) r
      | none => pieceLines s none (if s then .paragraph n else .text) r
    | .item d n _ => pieceLines s none (.item (H d (n.getD ⟨0, [], []⟩))) r
    | .sentence _ c => h (contentsChars c) :: pieceLines s none .text r

end Spec

variable {H : Nat → ArticleNumber → ItemNumber}

theorem saidAll_ne {s : List Char} {l : List (Sentence L)} (h : SaidAll s l) : l ≠ [] := by
  rintro rfl
  exact absurd h.1 (by simp)

theorem pieceLines_texts (s : Bool) (l : List (Sentence L)) (r : List (Piece L)) :
    pieceLines H s none .text (l.map sentencePiece ++ r) =
      (l.map fun y => .text (sentenceText y)) ++ pieceLines H s none .text r := by
  induction l with
  | nil => rfl
  | cons x l ih =>
    rw [List.map_cons, List.cons_append, List.map_cons, List.cons_append, ← ih]
    rfl

theorem pieceLines_sentences (s : Bool) (h : List Char → TextLine) {l : List (Sentence L)} (hl : l ≠ [])
    (r : List (Piece L)) :
    pieceLines H s none h (l.map sentencePiece ++ r) =
      sentenceLines h l ++ pieceLines H s none .text r := by
  cases l with
  | nil => exact absurd rfl hl
  | cons x l =>
    rw [List.map_cons, List.cons_append, sentenceLines, List.cons_append, ← pieceLines_texts]
    rfl

/-- The lines of `pieces` are `lines`, whatever follows. -/
def Lines (H : Nat → ArticleNumber → ItemNumber) (pieces : List (Piece L)) (lines : List TextLine) : Prop :=
  ∀ r, pieceLines H true none .text (pieces ++ r) = lines ++ pieceLines H true none .text r

theorem lines_flatMap {α : Type} {f : α → List (Piece L)} {g : α → List TextLine} {l : List α}
    (h : ∀ x ∈ l, Lines H (f x) (g x)) : Lines H (l.flatMap f) (l.flatMap g) := by
  induction l with
  | nil => intro r; rfl
  | cons x l ih =>
    intro r
    rw [List.flatMap_cons, List.flatMap_cons, List.append_assoc, h x (by simp), ih (fun y hy => h y (by simp [hy])),
      List.append_assoc]

theorem lines_item {γ : Type} {C : γ → Prop} {below : γ → Nat} {f : γ → List (Piece L)}
    {g : γ → List TextLine} (d : Nat) (hc : ∀ y, C y → Lines H (f y) (g y)) {x : ItemOf L γ}
    (h : ItemBuilt C below x) : Lines H (itemPieces f d x) (itemLines H g d x) := by
  obtain ⟨l, s, hs, hl, -⟩ := h.sentence
  intro r
  rw [itemPieces, itemLines, hs]
  simp only [List.cons_append, pieceLines, List.append_assoc]
  rw [pieceLines_sentences _ _ (saidAll_ne hl), lines_flatMap fun y hy => hc y (h.children y hy)]

theorem lines_items {x : Item L} (h : ItemsBuilt x) : Lines H (Spec.item x) (itemsLines H x) :=
  lines_item 1 (fun _ => lines_item 2 fun _ => lines_item 3 fun _ => lines_item 4 fun _ => lines_item 5 fun _ =>
    lines_item 6 fun _ => lines_item 7 fun _ => lines_item 8 fun _ => lines_item 9 fun _ => lines_item 10 fun _ =>
    lines_item 11 fun y => y.elim) h

theorem lines_paragraph {s : List Char} {x : Paragraph L} (h : ParagraphBuilt s x) :
    Lines H (Spec.paragraph x) (paragraphLines H (.paragraph x.num) x) := by
  intro r
  simp only [Spec.paragraph, paragraphLines, List.cons_append, pieceLines, List.append_assoc, if_pos]
  rw [pieceLines_sentences _ _ (saidAll_ne h.sentence), lines_flatMap fun y hy => lines_items (h.children y hy)]

theorem lines_article {x : Article L} (path : List Kind) (h : ArticleBuilt x) :
    Lines H (Spec.article path x) (articleLines H x) := by
  obtain ⟨p, q, s, hp, -, hb, -, hq⟩ := h.paragraph
  have key : ∀ r, pieceLines H true none .text
      (.article path x.num (x.delete = true) :: x.paragraph.flatMap Spec.paragraph ++ r) =
      (paragraphLines H (.article x.num) p ++ q.flatMap fun q => paragraphLines H (.paragraph q.num) q) ++
        pieceLines H true none .text r := by
    intro r
    rw [hp]
    simp only [List.cons_append, List.flatMap_cons, Spec.paragraph, paragraphLines, pieceLines, List.append_assoc]
    rw [pieceLines_sentences _ _ (saidAll_ne hb.sentence),
      lines_flatMap fun y hy => lines_items (hb.children y hy)]
    have := lines_flatMap (H := H) (l := q) (f := Spec.paragraph) (g := fun q => paragraphLines H (.paragraph q.num) q)
      (fun y hy => (hq y hy).elim fun s hs => lines_paragraph hs) r
    simp only [paragraphLines] at this
    rw [this]
  intro r
  rw [Spec.article, articleLines, hp]
  rw [hp] at key
  rcases h.caption with hc | ⟨t, hc⟩
  · rw [hc]
    exact key r
  · rw [hc]
    simp only [Option.toList, List.map_cons, List.map_nil, List.append_assoc]
    rw [List.cons_append, List.nil_append, pieceLines, key r]
    simp

theorem lines_unit {γ : Type} {C A : γ → Prop} {f : List Kind → γ → List (Piece L)} {g : γ → List TextLine}
    (k : ArticleNumber → List Char → TextLine) (path : List Kind) (hk : headLine path = k)
    (hc : ∀ y, C y → Lines H (f path y) (g y)) {x : HierOf L γ} (h : UnitBuilt C A x) :
    Lines H (Spec.unit f path x) (unitLines k g x) := by
  intro r
  simp only [Spec.unit, unitLines, List.cons_append, pieceLines, hk]
  rw [lines_flatMap fun y hy => hc y (h.children y hy)]

theorem headLine_snoc (path : List Kind) (k : Kind) : headLine (path ++ [k]) = headLine [k] := by
  funext n s
  simp [headLine]

theorem lines_division (path : List Kind) {x : Division L} (h : DivisionBuilt x) :
    Lines H (Spec.division (path ++ [.division]) x) (divisionLines H x) :=
  lines_unit _ _ (headLine_snoc _ _) (fun _ hy => lines_article _ hy) h

theorem lines_subsection (path : List Kind) {x : Subsection L} (h : SubsectionBuilt x) :
    Lines H (Spec.subsection (path ++ [.subsection]) x) (subsectionLines H x) := by
  refine lines_unit _ _ (headLine_snoc _ _) (fun y hy => ?_) h
  cases y with
  | article a => exact lines_article _ hy
  | division d => exact lines_division _ hy

theorem lines_section (path : List Kind) {x : Section L} (h : SectionBuilt x) :
    Lines H (Spec.section_ (path ++ [.section_]) x) (sectionLines H x) := by
  refine lines_unit _ _ (headLine_snoc _ _) (fun y hy => ?_) h
  cases y with
  | article a => exact lines_article _ hy
  | subsection d => exact lines_subsection _ hy
  | division d => exact absurd hy (by simp)

theorem lines_chapter (path : List Kind) {x : Chapter L} (h : ChapterBuilt x) :
    Lines H (Spec.chapter (path ++ [.chapter]) x) (chapterLines H x) := by
  refine lines_unit _ _ (headLine_snoc _ _) (fun y hy => ?_) h
  cases y with
  | article a => exact lines_article _ hy
  | section_ d => exact lines_section _ hy

theorem lines_part {x : Part L} (h : PartBuilt x) :
    Lines H (Spec.part [.part] x) (partLines H x) := by
  refine lines_unit _ _ rfl (fun y hy => ?_) h
  cases y with
  | article a => exact lines_article _ hy
  | chapter d => exact lines_chapter _ hy

theorem lines_main {x : MainProvisionContents L} (h : MainBuilt x) :
    Lines H (mainChild x) (mainLines H x) := by
  cases x with
  | part x => exact lines_part h
  | chapter x => exact lines_chapter [] h
  | section_ x => exact lines_section [] h
  | article x => exact lines_article _ h
  | paragraph x => exact absurd h (by simp [MainBuilt])

/-- The first piece of a child of the main provision ends the preamble. -/
theorem main_starts {x : MainProvisionContents L} (h : MainBuilt x) (r : List (Piece L)) :
    pieceLines H false none .text (mainChild x ++ r) = pieceLines H true none .text (mainChild x ++ r) := by
  cases x with
  | part x => rfl
  | chapter x => rfl
  | section_ x => rfl
  | article x =>
    simp only [mainChild, Spec.article]
    cases x.caption <;> rfl
  | paragraph x => exact absurd h (by simp [MainBuilt])

theorem lines_preamble {l : List (Paragraph L)} (i : Nat)
    (h : ∀ j y, l[j]? = some y → PreambleParagraph (i + j) y) (r : List (Piece L)) :
    pieceLines H false none .text (l.flatMap Spec.paragraph ++ r) =
      (l.flatMap fun y => sentenceLines .text y.sentence) ++ pieceLines H false none .text r := by
  induction l generalizing i with
  | nil => rfl
  | cons x l ih =>
    obtain ⟨s, y, hy, hx⟩ := h 0 x rfl
    have := ih (i + 1) fun j z hz => by
      have := h (j + 1) z (by simpa using hz)
      rwa [show i + (j + 1) = i + 1 + j by omega] at this
    rw [List.flatMap_cons, List.flatMap_cons, List.append_assoc, List.append_assoc, ← this, hx]
    rfl

/-- The pieces of a law built from lines determine its lines. -/
theorem pieceLines_document {title : List Char} {b : LawBody L} (h : BodyBuilt title b) :
    pieceLines H false none .text (document b) = bodyLines H b := by
  have hm : pieceLines H false none .text (b.main_provision.children.flatMap mainChild) =
      b.main_provision.children.flatMap (mainLines H) := by
    have hc := h.children
    cases he : b.main_provision.children with
    | nil => rfl
    | cons x l =>
      rw [he] at hc
      rw [List.flatMap_cons, main_starts (hc x (by simp)), ← List.flatMap_cons]
      have := lines_flatMap (H := H) (fun y hy => lines_main (hc y hy)) []
      simpa [pieceLines] using this
  rw [document, bodyLines]
  cases hp : b.preamble with
  | none => simpa using hm
  | some p =>
    simp only [Option.toList, List.flatMap_cons, List.flatMap_nil, List.append_nil]
    rw [lines_preamble 0 (by simpa using (h.preamble p hp).2), hm]

end JLaw
