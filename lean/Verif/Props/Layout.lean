import Verif.Props.ScanLine

/-!
# C92: which blanks of a text matter
-/

namespace JLaw

open Spec

/-- The lines differ in blanks at their ends only. -/
def SameUpToEnds (l l' : List Char) : Prop :=
  ∃ pre t post pre' post', l = pre ++ t ++ post ∧ l' = pre' ++ t ++ post' ∧
    Blank pre ∧ Blank post ∧ Blank pre' ∧ Blank post'

/-- The lines have the same heading and the same text, and the heading is read as one. -/
def SameHeading (E : Ext) (l l' : List Char) : Prop :=
  ∃ h t r, Headed l h t ∧ Headed l' h t ∧ parseLineContents E l = .ok r ∧
    (∀ s, r ≠ .caption s) ∧ ∀ s, r ≠ .text s

theorem trim_ends {pre t post : List Char} (hpre : Blank pre) (hpost : Blank post) :
    trim (pre ++ t ++ post) = trim t := by
  obtain ⟨a, b, he, ha, hb⟩ := trim_blank t
  by_cases ht : trim t = []
  · have hbl : ∀ c ∈ pre ++ t ++ post, isSpace c = true := by
      intro c hc
      rw [he, ht] at hc
      simp only [List.mem_append, List.append_nil] at hc
      rcases hc with (hc | hc | hc) | hc
      · exact isSpace_iff.mpr (hpre c hc)
      · exact isSpace_iff.mpr (ha c hc)
      · exact isSpace_iff.mpr (hb c hc)
      · exact isSpace_iff.mpr (hpost c hc)
    have h0 : (pre ++ t ++ post).dropWhile isSpace = [] := by
      simpa using List.dropWhile_append_of_pos (l₂ := []) hbl
    rw [ht, trim, h0]
    rfl
  · have h1 : Blank (pre ++ a) := fun c hc => (List.mem_append.1 hc).elim (hpre c) (ha c)
    have h2 : Blank (b ++ post) := fun c hc => (List.mem_append.1 hc).elim (hb c) (hpost c)
    have := trim_around h1 h2 ht (trimmed_trim t)
    rw [← this]
    congr 1
    conv => lhs; rw [he]
    simp only [List.append_assoc]

/-- **C92.** Blanks at the ends of a line do not matter. -/
theorem C92_ends (E : Ext) (l l' : List Char) (h : SameUpToEnds l l') :
    parseLineContents E l = parseLineContents E l' := by
  obtain ⟨pre, t, post, pre', post', rfl, rfl, h1, h2, h3, h4⟩ := h
  exact line_trim E (by rw [trim_ends h1 h2, trim_ends h3 h4])

/-- **C92.** If a line is read as a heading with a text, it does not matter which blanks are between
the two, and how many. -/
theorem C92_between (E : Ext) (l l' : List Char) (h : SameHeading E l l') :
    parseLineContents E l = parseLineContents E l' := by
  obtain ⟨h, t, r, hl, hl', hr, hc, ht⟩ := h
  obtain ⟨bs, ⟨hb, hbs⟩, hl, hs⟩ := headed_trim_blank hl
  obtain ⟨hne, hte⟩ : h ≠ [] ∧ t ≠ [] := by
    obtain ⟨-, -, -, -, -, -, h1, -, h2, -⟩ := hl'
    exact ⟨h1.1, h2⟩
  obtain ⟨bs', -, hl', hs'⟩ := headed_trim_blank hl'
  have hn : reCaption.captures (trim l) = none := by
    cases h0 : reCaption.captures (trim l) with
    | none => rfl
    | some caps =>
      obtain ⟨s, -, -, -, rfl⟩ := (caption_iff _ _).mp h0
      rw [parseLineContents, h0] at hr
      simp only [Caps.name, List.reverse_cons, List.reverse_nil, List.nil_append, List.lookup_cons,
        beq_self_eq_true, Res.unwrap, Res.bind_ok, Res.ok.injEq] at hr
      exact absurd hr.symm (hc s)
  have hn' : reCaption.captures (trim l') = none := by
    cases h0 : reCaption.captures (trim l') with
    | none => rfl
    | some caps =>
      obtain ⟨s, he, -, hp, -⟩ := (caption_iff _ _).mp h0
      obtain ⟨c, h0, rfl⟩ := List.exists_cons_of_ne_nil hne
      obtain ⟨t0, d, rfl⟩ : ∃ t0 d, t = t0 ++ [d] :=
        ⟨_, _, (List.dropLast_append_getLast hte).symm⟩
      rw [hl', List.cons_append, List.cons_append, List.cons.injEq, ← List.append_assoc,
        ← List.append_assoc] at he
      obtain ⟨rfl, he⟩ := he
      obtain ⟨he', hd⟩ := List.append_inj' he rfl
      cases hd
      have : reCaption.captures (trim l) = some [("caption", h0 ++ bs ++ t0)] := by
        refine (caption_iff _ _).mpr ⟨_, by rw [hl]; simp, by simp [hb], fun hm => ?_, rfl⟩
        simp only [List.mem_append] at hm
        rcases hm with (hm | hm) | hm
        · exact hp (by rw [← he']; simp [hm])
        · exact absurd (hbs _ hm) (by decide)
        · exact hp (by rw [← he']; simp [hm])
      rw [hn] at this
      cases this
  rw [parseLineContents, hn, hs] at hr
  rw [parseLineContents, hn, hs, parseLineContents, hn', hs']
  simp only at hr ⊢
  cases ha : parseArticleNumber E h with
  | ok o =>
    cases o with
    | some n => rfl
    | none =>
      cases hi : parseItemNumber E h with
      | ok o =>
        cases o with
        | some n => rfl
        | none =>
          simp only [ha, hi, Res.bind] at hr
          cases hr
          exact absurd rfl (ht _)
      | _ => rfl
  | _ => rfl

theorem readLines_same (E : Ext) {text text' : List Char} {lines lines' : List (List Char)}
    (h : Scan.HasLines text lines) (h' : Scan.HasLines text' lines')
    (hs : List.Forall₂ (fun l l' => SameUpToEnds l l' ∨ SameHeading E l l') lines lines') :
    readLines E text = readLines E text' := by
  rw [readLines_hasLines E h, readLines_hasLines E h']
  clear h h'
  induction hs with
  | nil => rfl
  | cons h _ ih =>
    have := h.elim (C92_ends E _ _) (C92_between E _ _)
    rw [mapRes, mapRes, this, ih]

/-- **C92.** Texts whose lines differ in such blanks only, and in the ends of lines, lead to the same
law, to the same panic, or both to none. -/
theorem C92_layout (n : Nat) (E : Ext) (cal : Calendar) (fuel : Nat) (text text' : List Char)
    (lines lines' : List (List Char)) (h : Scan.HasLines text lines) (h' : Scan.HasLines text' lines')
    (hs : List.Forall₂ (fun l l' => SameUpToEnds l l' ∨ SameHeading E l l') lines lines')
    (year : Usize) (month day : Option Usize) (lawType : LawType) (lang : Lang)
    (num : Option ArticleNumber) (lawNum : String) (title : List Char) :
    (parseText E cal fuel text year month day lawType lang num lawNum title :
      Res (Option (Law (lvl n)))) =
    parseText E cal fuel text' year month day lawType lang num lawNum title := by
  simp only [parseText, parseBody, readLines_same E h h' hs]

/-! ## Lines of blanks -/

/-- **C92.** A line of blanks is not skipped: it is read as an empty plain text. -/
theorem C92_blank_line (E : Ext) (l : List Char) (h : Blank l) :
    parseLineContents E l = .ok (.text []) := by
  have : parseLineContents E l = parseLineContents E [] :=
    C92_ends E _ _ ⟨l, [], [], [], [], by simp, rfl, h, by simp [Blank], by simp [Blank],
      by simp [Blank]⟩
  rw [this]
  rfl

theorem mapRes_append_ok {α β : Type} {f : α → Res β} {a b : List α} {ls : List β}
    (h : mapRes f (a ++ b) = .ok ls) :
    mapRes f a = .ok (ls.take a.length) ∧ mapRes f b = .ok (ls.drop a.length) := by
  simp only [mapRes_eq_ok] at h ⊢
  induction a generalizing ls with
  | nil => exact ⟨.nil, h⟩
  | cons x a ih =>
    cases h with
    | cons hx h => exact ⟨.cons hx (ih h).1, (ih h).2⟩

/-- **C92.** A line of blanks put between the lines of a text puts an empty plain text between what
they say. -/
theorem C92_blank_line_between (E : Ext) (text text' : List Char) (a b : List (List Char))
    (l : List Char) (hl : Blank l) (h : Scan.HasLines text (a ++ b))
    (h' : Scan.HasLines text' (a ++ l :: b)) (ls : List TextLine) (hr : readLines E text = .ok ls) :
    readLines E text' = .ok (ls.take a.length ++ .text [] :: ls.drop a.length) := by
  rw [readLines_hasLines E h] at hr
  rw [readLines_hasLines E h']
  obtain ⟨h1, h2⟩ := mapRes_append_ok hr
  rw [mapRes_eq_ok] at h1 h2 ⊢
  exact List.rel_append h1 (.cons (C92_blank_line E l hl) h2)

/-- The number of pieces of the law read from a text. -/
def piecesRead (E : Ext) (text : List Char) : Option Nat :=
  match (parseBody E 100 "法".toList text : Res (Option (LawBody (lvl 1)))) with
  | .ok (some b) => some (document b).length
  | _ => none

/-- **C92.** So the law is another one: with an empty line between its two articles a text leads to a
law with one piece more, an empty sentence at the end of the first article. -/
theorem C92_blank_line_matters :
    piecesRead kanjiExt "第一条　甲\n第二条　乙".toList = some 6 ∧
    piecesRead kanjiExt "第一条　甲\n\n第二条　乙".toList = some 7 := by
  decide +kernel

theorem lines_then {L : Lvl} {q : State} {as : List TextLine} (h : leftOver q as = [])
    (r : List TextLine) : ∃ q', leftOver q (as ++ r) = leftOver q' r ∧
      (∀ d n b, Piece.item d n b ∈ meaning (L := L) q (as ++ r) →
        Piece.item d n b ∈ meaning (L := L) q as ∨ Piece.item d n b ∈ meaning (L := L) q' r) ∧
      ((∃ x, as.getLast? = some x ∧ ((∃ s, x = .caption s) ∨ kindOf x ≠ none)) →
        q'.place = .heading) ∧ (as = [] → q' = q) := by
  induction as generalizing q with
  | nil => exact ⟨q, rfl, fun d n b h => Or.inr h, by simp, fun _ => rfl⟩
  | cons a as ih =>
    rw [leftOver] at h
    cases hq : next q a with
    | none => rw [hq] at h; cases h
    | some q1 =>
      rw [hq] at h
      obtain ⟨q', h1, h2, h3, h4⟩ := ih h
      refine ⟨q', ?_, ?_, ?_, by simp⟩
      · rw [List.cons_append, leftOver, hq]
        exact h1
      · intro d n b hm
        rw [List.cons_append, meaning, hq, List.mem_append] at hm
        rw [meaning, hq, List.mem_append]
        rcases hm with hm | hm
        · refine Or.inl (Or.inl ?_)
          cases a <;> first
            | exact hm
            | (simp only [contributes] at hm; split at hm <;> simp at hm)
        · exact (h2 d n b hm).imp Or.inr id
      · rintro ⟨x, hx, hk⟩
        cases as with
        | cons a' as => exact h3 ⟨x, by simpa using hx, hk⟩
        | nil =>
          obtain rfl := h4 rfl
          simp only [List.getLast?_singleton, Option.some.injEq] at hx
          subst hx
          cases a <;> simp_all [next, kindOf] <;> grind

/-- **C92.** A line of blanks under a heading or a caption, and the law is never built. -/
theorem C92_blank_line_under_heading {L : Lvl} (E : Ext) (title text text' : List Char)
    (a b : List (List Char)) (l : List Char) (hl : Blank l) (h : Scan.HasLines text (a ++ b))
    (h' : Scan.HasLines text' (a ++ l :: b)) (as bs : List TextLine) (ha : as.length = a.length)
    (hr : readLines E text = .ok (as ++ bs)) (hp : leftOver start as = [])
    (hd : ¬ TooDeep (meaning (L := L) start as)) (x : TextLine) (hx : as.getLast? = some x)
    (hk : (∃ s, x = .caption s) ∨ kindOf x ≠ none) (fuel : Nat) :
    parseBody (L := L) E fuel title text' = .ok none := by
  have hr' := C92_blank_line_between E text text' a b l hl h h' _ hr
  rw [← ha, List.take_left, List.drop_left] at hr'
  obtain ⟨q', h1, h2, h3, -⟩ := lines_then (L := L) hp (.text [] :: bs)
  have hq := h3 ⟨x, hx, hk⟩
  have hn : next q' (.text []) = none := by rw [next, hq]
  refine (C51_termination E title text' _ hr' ?_).1 ⟨[], bs, ?_⟩ fuel
  · rintro ⟨d, n, b, hm, hlt⟩
    rcases h2 d n b hm with hm | hm
    · exact hd ⟨d, n, b, hm, hlt⟩
    · rw [meaning, hn] at hm
      cases hm
  · rw [h1, leftOver, hn]

/-! ## Examples -/

/-- Blanks around a line, and two kinds of blanks between its number and its text. -/
example : SameUpToEnds "第一条　甲".toList " 第一条　甲\r".toList ∧
    SameHeading kanjiExt "第一条　甲".toList "第一条 \t 甲　".toList ∧
    SameHeading kanjiExt "（１）　甲".toList "（１） 甲".toList := by
  refine ⟨⟨[], "第一条　甲".toList, [], " ".toList, "\r".toList, ?_⟩,
    ⟨"第一条".toList, "甲".toList, .article ⟨1, [], []⟩ "甲".toList,
      ⟨[], "　".toList, [], ?_⟩, ⟨[], " \t ".toList, "　".toList, ?_⟩, ?_, ?_, ?_⟩,
    ⟨"（１）".toList, "甲".toList, .item ⟨"（１）".toList, 1, [], [], .parenZenkakuNum⟩ "甲".toList,
      ⟨[], "　".toList, [], ?_⟩, ⟨[], " ".toList, [], ?_⟩, ?_, ?_, ?_⟩⟩
  all_goals first | (simp [Blank, Trimmed, blanks]; done) | decide +kernel

/-- Two texts that `C92_layout` is about: indentation, a carriage return and a line feed at the end. -/
example (year : Usize) (cal : Calendar) :
    (parseText kanjiExt cal 9 "第一条　甲\n乙".toList year none none .act .ja none "" [] :
      Res (Option (Law (lvl 1)))) =
    parseText kanjiExt cal 9 "第一条　 甲\r\n　乙\n".toList year none none .act .ja none "" [] := by
  refine C92_layout 1 kanjiExt cal 9 _ _ ["第一条　甲".toList, "乙".toList]
    ["第一条　 甲\r".toList, "　乙".toList]
    ⟨["第一条　甲".toList], "乙".toList, by decide +kernel, by decide +kernel, by decide +kernel,
      by decide +kernel⟩
    ⟨["第一条　 甲\r".toList, "　乙".toList], [], by decide +kernel, by decide +kernel,
      by decide +kernel, by decide +kernel⟩ ?_ _ _ _ _ _ _ _ _
  refine .cons (Or.inr ⟨"第一条".toList, "甲".toList, .article ⟨1, [], []⟩ "甲".toList,
      ⟨[], "　".toList, [], ?_⟩, ⟨[], "　 ".toList, "\r".toList, ?_⟩, ?_, ?_, ?_⟩)
    (.cons (Or.inl ⟨[], "乙".toList, [], "　".toList, [], ?_⟩) .nil)
  all_goals first | (simp [Blank, Trimmed, blanks]; done) | decide +kernel

/-- Blanks within a caption or a plain text are part of what it says. -/
example : parseLineContents kanjiExt "（甲 乙）".toList ≠ parseLineContents kanjiExt "（甲　乙）".toList ∧
    parseLineContents kanjiExt "甲 乙".toList ≠ parseLineContents kanjiExt "甲　乙".toList := by
  decide +kernel

/-- A text that `C92_blank_line_under_heading` is about, with its first line a caption. -/
example : Scan.HasLines "（甲）\n第一条　乙".toList (["（甲）".toList] ++ ["第一条　乙".toList]) ∧
    Scan.HasLines "（甲）\n　\n第一条　乙".toList
      (["（甲）".toList] ++ "　".toList :: ["第一条　乙".toList]) ∧
    readLines kanjiExt "（甲）\n第一条　乙".toList =
      .ok ([.caption "甲".toList] ++ [.article ⟨1, [], []⟩ "乙".toList]) ∧
    leftOver start [.caption "甲".toList] = [] ∧
    ¬ TooDeep (meaning (L := lvl 1) start [.caption "甲".toList]) := by
  refine ⟨⟨["（甲）".toList], "第一条　乙".toList, ?_⟩,
    ⟨["（甲）".toList, "　".toList], "第一条　乙".toList, ?_⟩, ?_, rfl, ?_⟩
  iterate 3 decide +kernel
  rintro ⟨d, n, b, hm, -⟩
  cases hm

end JLaw
