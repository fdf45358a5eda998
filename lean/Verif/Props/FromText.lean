import Verif.Lemmas.FromTextLines
import Verif.Lemmas.Kansuji

/-!
# Properties of laws built from text (C50 to C57)

The lines of the text are those the first loop of `parse_body` finds (`readLines`). What they mean is
described in Verif/Spec/FromText.lean.
-/

namespace JLaw

open Spec

variable {L : Lvl}

/-! ## C50 -/

/-- C50. No line of a text is read as the heading of a supplementary provision. -/
theorem C50_no_supplementary_line (E : Ext) (text : List Char) (ls : List TextLine)
    (h : readLines E text = .ok ls) (n : Option (List Char)) : TextLine.suppl n ∉ ls :=
  readLines_suppl h n

/-- C50. A law built from text has no supplementary provision. -/
theorem C50_no_supplementary_provision (E : Ext) (fuel : Nat) (title text : List Char)
    (b : LawBody L) (h : parseBody E fuel title text = .ok (some b)) : b.suppl_provision = [] := by
  obtain ⟨ls, s, _, _, _, rfl, h2, h3, _⟩ := parseBody_some h
  simp only [finishBody, finishSuppl, h2, h3]

/-- A text with the usual heading of a supplementary provision: the heading becomes part of the
sentence before it, and the article after it becomes part of the main provision. -/
example : readLines kanjiExt "第一条　甲\n附　則\n第一条　乙".toList =
    .ok [.article ⟨1, [], []⟩ "甲".toList, .text "附　則".toList, .article ⟨1, [], []⟩ "乙".toList] := by
  decide +kernel

/-! ## C51 -/

/-- C51. When the lines can be read, and no item lies too deep (C53), the loop of `parse_body` goes on
forever exactly when the first line that is out of place is a plain text. Otherwise it ends within
one iteration per line and one more. -/
theorem C51_termination (E : Ext) (title text : List Char) (ls : List TextLine)
    (hls : readLines E text = .ok ls) (hd : ¬ TooDeep (meaning (L := L) start ls)) :
    ((∃ t r, leftOver start ls = .text t :: r) →
      ∀ fuel, parseBody (L := L) E fuel title text = .ok none) ∧
    ((¬ ∃ t r, leftOver start ls = .text t :: r) → ∃ b : LawBody L,
      ∀ fuel, ls.length < fuel → parseBody E fuel title text = .ok (some b)) := by
  have out := body_outcome (L := L) ls
  rw [← not_suppl_leftOver (fun n => readLines_suppl hls n)]
  refine ⟨fun hs fuel => ?_, fun hs => ?_⟩
  · rw [parseBody_lines hls, out.stuck hd hs]; rfl
  · obtain ⟨s, h1, _⟩ := out.done hd hs
    refine ⟨finishBody title s, fun fuel hf => ?_⟩
    rw [parseBody_lines hls, h1 fuel hf]; rfl

/-- A blank line after a heading: building the law never ends. -/
theorem C51_blank_line_after_heading (title : List Char) (fuel : Nat) :
    parseBody (L := L) kanjiExt fuel title "第一章　総則\n\n第一条　甲".toList = .ok none := by
  have hls : readLines kanjiExt "第一章　総則\n\n第一条　甲".toList =
      .ok [.chapter ⟨1, [], []⟩ "総則".toList, .text [], .article ⟨1, [], []⟩ "甲".toList] := by
    decide +kernel
  refine (C51_termination kanjiExt title _ _ hls ?_).1 ⟨_, _, rfl⟩ fuel
  rintro ⟨d, n, b, hm, _⟩
  simp [meaning, next, start, contributes, headed] at hm

/-- Without the blank line it ends. -/
example (title : List Char) : ∃ b : LawBody L,
    parseBody kanjiExt 3 title "第一章　総則\n第一条　甲".toList = .ok (some b) := by
  have hls : readLines kanjiExt "第一章　総則\n第一条　甲".toList =
      .ok [.chapter ⟨1, [], []⟩ "総則".toList, .article ⟨1, [], []⟩ "甲".toList] := by
    decide +kernel
  obtain ⟨b, hb⟩ := (C51_termination (L := L) kanjiExt title _ _ hls (by
    rintro ⟨d, n, b, hm, _⟩
    simp [meaning, next, contributes, headed, saying] at hm)).2 (by
      rintro ⟨t, r, h⟩
      simp [leftOver, next] at h)
  exact ⟨b, hb 3 (by simp)⟩

/-! ## C52 -/

/-- C52. The pieces of the preamble and the main provision, in document order, are those that the
lines mean, one line after the other, up to the first line that is out of place. -/
theorem C52_document (E : Ext) (fuel : Nat) (title text : List Char) (b : LawBody L)
    (h : parseBody E fuel title text = .ok (some b)) :
    ∃ ls, readLines E text = .ok ls ∧ document b = meaning start ls := by
  obtain ⟨ls, s, hls, _, _, rfl, _, _, hm⟩ := parseBody_some h
  exact ⟨ls, hls, by rw [document_finish, hm]⟩

/-- C52. The lines before the first one that is out of place are all used: the titles, captions and
sentences of the law in document order are the texts of these lines in their order, except for
captions that no article follows. The lines after them are lost, and the first of these is a
paragraph, an item, a subsection or a division. -/
theorem C52_lines_conserved (E : Ext) (fuel : Nat) (title text : List Char) (b : LawBody L)
    (h : parseBody E fuel title text = .ok (some b)) :
    ∃ ls, readLines E text = .ok ls ∧ ls = used start ls ++ leftOver start ls ∧
      pieceTexts (document b) = lineTexts (used start ls) ∧
      ∀ l r, leftOver start ls = l :: r → (∃ n s, l = .paragraph n s) ∨ (∃ n s, l = .item n s) ∨
        (∃ n s, l = .subsection n s) ∨ ∃ n s, l = .division n s := by
  obtain ⟨ls, s, hls, _, hst, rfl, _, _, hm⟩ := parseBody_some h
  refine ⟨ls, hls, used_append _ _, ?_, ?_⟩
  · rw [document_finish, hm, pieceTexts_meaning]
  · intro l r hl
    have hnext : ∀ (q : State) (ls : List TextLine), leftOver q ls = l :: r → ∃ q', next q' l = none := by
      intro q ls
      induction ls generalizing q with
      | nil => intro h; cases h
      | cons x xs ih =>
        intro h
        rw [leftOver] at h
        cases hn : next q x with
        | none => rw [hn] at h; simp only [List.cons.injEq] at h; exact ⟨q, h.1 ▸ hn⟩
        | some q' => rw [hn] at h; exact ih q' h
    obtain ⟨q, hq⟩ := hnext _ _ hl
    cases l with
    | text t => exact absurd (Or.inl ⟨t, r, hl⟩) hst
    | suppl n => exact absurd (Or.inr ⟨n, r, hl⟩) hst
    | paragraph n t => exact Or.inl ⟨n, t, rfl⟩
    | item n t => exact Or.inr (Or.inl ⟨n, t, rfl⟩)
    | subsection n t => exact Or.inr (Or.inr (Or.inl ⟨n, t, rfl⟩))
    | division n t => exact Or.inr (Or.inr (Or.inr ⟨n, t, rfl⟩))
    | _ => cases hq

/-- A paragraph directly after a heading: the rest of the text is lost. -/
example (title : List Char) : ∃ b : LawBody L,
    parseBody kanjiExt 5 title "第一章　総則\n１　甲\n第一条　乙".toList = .ok (some b) ∧
      document b = [.heading [.chapter] ⟨1, [], []⟩ (plainText "総則".toList)
        (SaysDeleted "総則".toList)] := by
  have hls : readLines kanjiExt "第一章　総則\n１　甲\n第一条　乙".toList =
      .ok [.chapter ⟨1, [], []⟩ "総則".toList, .paragraph ⟨1, [], []⟩ "甲".toList,
        .article ⟨1, [], []⟩ "乙".toList] := by
    decide +kernel
  obtain ⟨b, hb⟩ := (C51_termination (L := L) kanjiExt title _ _ hls (by
    rintro ⟨d, n, b, hm, _⟩
    simp [meaning, next, contributes, headed] at hm)).2 (by
      rintro ⟨t, r, h⟩
      simp [leftOver, next] at h)
  have h5 := hb 5 (by simp)
  refine ⟨b, h5, ?_⟩
  obtain ⟨ls, hls', hd⟩ := C52_document kanjiExt 5 title _ b h5
  rw [hls] at hls'
  cases hls'
  rw [hd]
  rfl

/-! ## C53 -/

/-- C53. When the lines can be read, building the law panics exactly when an item lies deeper than
the eleven levels of the schema. -/
theorem C53_panics_when_too_deep (E : Ext) (title text : List Char) (ls : List TextLine)
    (hls : readLines E text = .ok ls) :
    (∃ fuel, parseBody (L := L) E fuel title text = .panic) ↔
      TooDeep (meaning (L := L) start ls) := by
  have out := body_outcome (L := L) ls
  constructor
  · rintro ⟨fuel, hp⟩
    rw [parseBody_lines hls] at hp
    cases hb : bodyLoop fuel ({} : BodySt L) ls with
    | ok x => rw [hb] at hp; cases hp
    | err e => rw [hb] at hp; cases hp
    | deep => rw [hb] at hp; cases hp
    | panic =>
      by_contra hd
      by_cases hs : Stuck (leftOver start ls)
      · rw [out.stuck hd hs fuel] at hb; cases hb
      · obtain ⟨s, h1, _⟩ := out.done hd hs
        have := bodyLoop_mono_panic hb (ls.length + 1)
        rw [h1 _ (by omega)] at this
        cases this
  · intro hd
    refine ⟨ls.length + 1, ?_⟩
    rw [parseBody_lines hls, out.deep hd _ (by omega)]
    rfl

/-- C53. A text whose items have at most two patterns never panics for this reason. -/
theorem C53_two_patterns (E : Ext) (title text : List Char) (ls : List TextLine)
    (hls : readLines E text = .ok ls) (p q : ItemPattern)
    (h : ∀ n s, .item n s ∈ ls → n.pattern = p ∨ n.pattern = q) (fuel : Nat) :
    parseBody (L := L) E fuel title text ≠ .panic := by
  intro hp
  obtain ⟨d, n, b, hm, hd⟩ := (C53_panics_when_too_deep E title text ls hls).mp ⟨fuel, hp⟩
  have := two_patterns ls h start (by intro items k h; cases h) d n b hm
  omega

/-- C53. Three patterns are enough to panic: an item whose pattern is that of the level two levels up
opens a further level. Here are twelve items `一`, `イ`, `１`, `一`, ... -/
theorem C53_three_patterns_panic (title : List Char) (ns : List ItemNumber) (ss : List (List Char))
    (text : List Char) (E : Ext) (n : ArticleNumber) (s : List Char)
    (hlen : ns.length = 12 ∧ ss.length = 12)
    (hpat : ns.map (·.pattern) = (List.replicate 4
      [ItemPattern.noParenKansuji, .noParenIrohaKatakana, .noParenZenkakuNum]).flatten)
    (hls : readLines E text = .ok (.article n s :: (ns.zip ss).map fun x => .item x.1 x.2)) :
    ∃ fuel, parseBody (L := L) E fuel title text = .panic := by
  rw [C53_panics_when_too_deep E title text _ hls]
  obtain ⟨h1, h2⟩ := hlen
  rcases ns with _ | ⟨n1, _ | ⟨n2, _ | ⟨n3, _ | ⟨n4, _ | ⟨n5, _ | ⟨n6, _ | ⟨n7, _ | ⟨n8, _ |
    ⟨n9, _ | ⟨n10, _ | ⟨n11, _ | ⟨n12, _ | ⟨n13, ns⟩⟩⟩⟩⟩⟩⟩⟩⟩⟩⟩⟩⟩ <;> simp at h1
  rcases ss with _ | ⟨s1, _ | ⟨s2, _ | ⟨s3, _ | ⟨s4, _ | ⟨s5, _ | ⟨s6, _ | ⟨s7, _ | ⟨s8, _ |
    ⟨s9, _ | ⟨s10, _ | ⟨s11, _ | ⟨s12, _ | ⟨s13, ss⟩⟩⟩⟩⟩⟩⟩⟩⟩⟩⟩⟩⟩ <;> simp at h2
  simp [List.replicate] at hpat
  obtain ⟨e1, e2, e3, e4, e5, e6, e7, e8, e9, e10, e11, e12⟩ := hpat
  refine ⟨12, some ⟨n12.base_number, n12.eda_numbers, n12.range_end_numbers⟩, SaysDeleted s12, ?_,
    by omega⟩
  simp [meaning, next, nest, contributes, e1, e2, e3, e4, e5, e6, e7, e8, e9, e10, e11, e12]

/-- C53. Closing two levels at once does not panic, but the item is put below the innermost one
instead of beside the outermost one. -/
theorem C53_closing_two_levels (E : Ext) (fuel : Nat) (title text : List Char) (b : LawBody L)
    (n : ArticleNumber) (s s1 s2 s3 s4 : List Char) (i1 i2 i3 i4 : ItemNumber)
    (hls : readLines E text = .ok [.article n s, .item i1 s1, .item i2 s2, .item i3 s3, .item i4 s4])
    (h12 : i1.pattern ≠ i2.pattern) (h13 : i1.pattern ≠ i3.pattern) (h23 : i2.pattern ≠ i3.pattern)
    (h14 : i4.pattern = i1.pattern) (h : parseBody E fuel title text = .ok (some b)) :
    (document b).filterMap (fun x =>
      match x with
      | .item d _ _ => some d
      | _ => none) = [1, 2, 3, 4] := by
  obtain ⟨ls, hls', hd⟩ := C52_document E fuel title text b h
  rw [hls] at hls'
  cases hls'
  rw [hd]
  simp [meaning, next, start, nest, contributes, saying, h14, h12, h13, h12.symm, h13.symm, h23.symm]

/-- Such a text. -/
example : ∃ i1 i2 i3 i4 : ItemNumber,
    readLines kanjiExt "第一条　甲\n一　乙\nイ　丙\n（１）　丁\n二　戊".toList = .ok [
      .article ⟨1, [], []⟩ "甲".toList, .item i1 "乙".toList, .item i2 "丙".toList,
      .item i3 "丁".toList, .item i4 "戊".toList] ∧
    i1.pattern ≠ i2.pattern ∧ i1.pattern ≠ i3.pattern ∧ i2.pattern ≠ i3.pattern ∧
    i4.pattern = i1.pattern :=
  ⟨⟨"一".toList, 1, [], [], .noParenKansuji⟩, ⟨"イ".toList, 1, [], [], .noParenIrohaKatakana⟩,
    ⟨"（１）".toList, 1, [], [], .parenZenkakuNum⟩, ⟨"二".toList, 2, [], [], .noParenKansuji⟩,
    by decide +kernel⟩

/-! ## C54 -/

/-- C54. Every article has as its caption the text of the caption line directly before it, and no
caption when another kind of line or none is before it. -/
theorem C54_captions (E : Ext) (fuel : Nat) (title text : List Char) (b : LawBody L)
    (h : parseBody E fuel title text = .ok (some b)) :
    ∃ ls, readLines E text = .ok ls ∧
      articlesWith none (document b) = captioned none (used start ls) := by
  obtain ⟨ls, s, hls, _, hst, rfl, _, _, hm⟩ := parseBody_some h
  refine ⟨ls, hls, ?_⟩
  rw [document_finish, hm]
  have := articlesWith_meaning (L := L) none start ls
  simpa using this

/-- Two captions in a row: the second counts. -/
example : captioned (L := L) none [.caption "甲".toList, .caption "乙".toList,
    .article ⟨1, [], []⟩ "丙".toList, .article ⟨2, [], []⟩ "丁".toList] =
    [(some (plainText "乙".toList), ⟨1, [], []⟩), (none, ⟨2, [], []⟩)] := rfl

/-! ## C55 -/

/-- C55. The units, articles and items of the law in document order are marked as deleted exactly
when the lines for them say so. -/
theorem C55_deleted (E : Ext) (fuel : Nat) (title text : List Char) (b : LawBody L)
    (h : parseBody E fuel title text = .ok (some b)) :
    ∃ ls, readLines E text = .ok ls ∧
      pieceDeletions (document b) = lineDeletions (used start ls) := by
  obtain ⟨ls, s, hls, _, hst, rfl, _, _, hm⟩ := parseBody_some h
  exact ⟨ls, hls, by rw [document_finish, hm, pieceDeletions_meaning]⟩

example : SaysDeleted "　（削除）".toList ∧ ¬ SaysDeleted "削除する".toList := by
  constructor
  · exact ⟨['　'], [], by decide, by decide, Or.inr rfl⟩
  · rw [← isDeleted_iff]; decide

/-! ## C56 -/

/-- C56. Outside the preamble, which ends with the first unit or article, a sentence has the number 1
more than the number of sentences directly before it; in the preamble it has the number 0. The
paragraphs of the preamble are numbered from 0. The first paragraph of an article has the number 1. -/
theorem C56_numbering (E : Ext) (fuel : Nat) (title text : List Char) (b : LawBody L)
    (h : parseBody E fuel title text = .ok (some b)) :
    (∀ pre n c post, document b = pre ++ .sentence n c :: post →
      ((∃ x ∈ pre, x.isUnit) → n = some (asUsize (run pre + 1))) ∧
      ((¬ ∃ x ∈ pre, x.isUnit) → n = some 0)) ∧
    (∀ pre n post, document b = pre ++ .paragraph n :: post → (¬ ∃ x ∈ pre, x.isUnit) →
      n = ⟨asUsize (pre.filter Piece.isParagraph).length, [], []⟩) ∧
    ∀ pre path n d post, document b = pre ++ .article path n d :: post →
      post.head? = some (.paragraph ⟨1, [], []⟩) := by
  obtain ⟨ls, hls, hd⟩ := C52_document E fuel title text b h
  have hfit := fitAfter_meaning (L := L) [] start ls (by simp [Agrees, start])
  rw [← hd] at hfit
  refine ⟨?_, ?_, ?_⟩
  · intro pre n c post he
    rw [he] at hfit
    have := hfit.at
    simp only [List.nil_append, FitsAfter] at this
    refine ⟨fun hu => by rw [this, if_pos hu], fun hu => by rw [this, if_neg hu]; rfl⟩
  · intro pre n post he
    rw [he] at hfit
    exact hfit.at
  · intro pre path n d post he
    rw [hd] at he
    exact article_then_paragraph start ls pre post path n d he

/-- C56. The paragraphs of the preamble are numbered from 0, and their sentences have the number 0. -/
theorem C56_preamble (E : Ext) (fuel : Nat) (title text : List Char) (b : LawBody L)
    (h : parseBody E fuel title text = .ok (some b)) (p : Preamble L) (hp : b.preamble = some p)
    (i : Nat) (x : Paragraph L) (hx : p.children[i]? = some x) :
    x.num = ⟨asUsize i, [], []⟩ ∧ ∃ s, x.sentence = [s] ∧ s.num = some 0 := by
  obtain ⟨ls, s, _, _, _, rfl, _⟩ := parseBody_some h
  simp only [finishBody] at hp
  split at hp
  · cases hp
  · cases hp
    have key : ∀ (l : List (List Char)) (k i : Nat) (x : Paragraph L),
        (preambleFrom k l)[i]? = some x →
        x.num = ⟨asUsize (k + i), [], []⟩ ∧ ∃ s, x.sentence = [s] ∧ s.num = some 0 := by
      intro l
      induction l with
      | nil => intro k i x h; simp [preambleFrom] at h
      | cons a l ih =>
        intro k i x h
        cases i with
        | zero =>
          simp only [preambleFrom, List.getElem?_cons_zero, Option.some.injEq] at h
          subst h
          exact ⟨rfl, _, rfl, rfl⟩
        | succ i =>
          simp only [preambleFrom, List.getElem?_cons_succ] at h
          have := ih (k + 1) i x h
          rwa [Nat.add_assoc, Nat.add_comm 1] at this
    have := key s.preamble 0 i x hx
    rwa [Nat.zero_add] at this

/-- A text with a preamble and an article of two sentences. -/
example : ∃ ls, readLines kanjiExt "前文一\n前文二\n第一条　甲\n乙".toList = .ok ls ∧
    meaning (L := L) start ls = [
      .paragraph ⟨0, [], []⟩, .sentence (some 0) [.string "前文一"],
      .paragraph ⟨1, [], []⟩, .sentence (some 0) [.string "前文二"],
      .article [] ⟨1, [], []⟩ (SaysDeleted "甲".toList), .paragraph ⟨1, [], []⟩,
      .sentence (some 1) [.string "甲"], .sentence (some 2) [.string "乙"]] := by
  refine ⟨[.text "前文一".toList, .text "前文二".toList, .article ⟨1, [], []⟩ "甲".toList,
    .text "乙".toList], by decide +kernel, ?_⟩
  rfl

/-! ## C57 -/

/-- The five eras and their names. -/
def eraNames : List (String × Era) :=
  [("明治", .meiji), ("大正", .taisho), ("昭和", .showa), ("平成", .heisei), ("令和", .reiwa)]

/-- The date that is looked up in the calendar: year, month and day up to a multiple of `2 ^ 32`, the
year between `-2 ^ 31` and `2 ^ 31 - 1`, month and day between `0` and `2 ^ 32 - 1`. A month or a day
that is not given is the first one. -/
def Spec.LookedUp (year : Usize) (month day : Option Usize) (y : Int) (m d : Nat) : Prop :=
  (-2147483648 ≤ y ∧ y < 2147483648 ∧ ∃ k : Int, (year.val : Int) = y + k * 4294967296) ∧
  (m < 4294967296 ∧ ∃ k, (month.getD 1).val = m + k * 4294967296) ∧
  (d < 4294967296 ∧ ∃ k, (day.getD 1).val = d + k * 4294967296)

theorem asU32_iff (n : Usize) (m : Nat) :
    asU32 n = m ↔ m < 4294967296 ∧ ∃ k, n.val = m + k * 4294967296 := by
  unfold asU32
  constructor
  · rintro rfl
    exact ⟨Nat.mod_lt _ (by decide), n.val / 4294967296, by omega⟩
  · rintro ⟨h, k, e⟩
    omega

theorem asI32_iff (n : Usize) (y : Int) :
    asI32 n = y ↔ -2147483648 ≤ y ∧ y < 2147483648 ∧ ∃ k : Int, (n.val : Int) = y + k * 4294967296 := by
  unfold asI32
  constructor
  · rintro rfl
    refine ⟨?_, ?_, ?_⟩
    · split <;> omega
    · split <;> omega
    · split
      · exact ⟨n.val / 4294967296, by omega⟩
      · exact ⟨n.val / 4294967296 + 1, by omega⟩
  · rintro ⟨h1, h2, k, e⟩
    split <;> omega

theorem lookedUp_iff (year : Usize) (month day : Option Usize) (y : Int) (m d : Nat) :
    LookedUp year month day y m d ↔
      asI32 year = y ∧ asU32 (month.getD 1) = m ∧ asU32 (day.getD 1) = d := by
  rw [LookedUp, asI32_iff, asU32_iff, asU32_iff]

/-- C57. A law built from text has the header it was given, the era of the date, and the body built
from the text. The date is computed with the given year as the year of the common era, even though
it is stored as the year of the era. -/
theorem C57_header (E : Ext) (cal : Calendar) (fuel : Nat) (text : List Char) (year : Usize)
    (month day : Option Usize) (lawType : LawType) (lang : Lang) (num : Option ArticleNumber)
    (lawNum : String) (title : List Char) (l : Law L)
    (h : parseText E cal fuel text year month day lawType lang num lawNum title = .ok (some l)) :
    l.year = year ∧ l.promulgate_month = month ∧ l.promulgate_day = day ∧ l.law_type = lawType ∧
    l.lang = lang ∧ l.num = num ∧ l.law_num = lawNum ∧
    (∃ y m d name, LookedUp year month day y m d ∧ cal y m d = some (some name) ∧
      (name, l.era) ∈ eraNames) ∧
    parseBody E fuel title text = .ok (some l.law_body) := by
  obtain ⟨d, hd, h⟩ := Res.bind_eq_ok.mp h
  obtain ⟨name, hn, h⟩ := Res.bind_eq_ok.mp h
  obtain ⟨era, he, h⟩ := Res.bind_eq_ok.mp h
  obtain ⟨o, ho, h⟩ := Res.bind_eq_ok.mp h
  cases o with
  | none => cases h
  | some b =>
    simp only [Option.map_some, Res.ok.injEq, Option.some.injEq] at h
    subst h
    have hd' : cal (asI32 year) (asU32 (month.getD 1)) (asU32 (day.getD 1)) = some d := by
      revert hd
      cases cal (asI32 year) (asU32 (month.getD 1)) (asU32 (day.getD 1)) with
      | none => intro h; cases h
      | some x => intro h; cases h; rfl
    have hn' : d = some name := by
      cases d with
      | none => cases hn
      | some x => cases hn; rfl
    refine ⟨rfl, rfl, rfl, rfl, rfl, rfl, rfl,
      ⟨_, _, _, name, (lookedUp_iff ..).2 ⟨rfl, rfl, rfl⟩, by rw [hd', hn'], ?_⟩, ho⟩
    unfold eraOfName at he
    split at he <;> cases he <;> simp [eraNames]

/-- C57. `parse_text` panics exactly when the date does not exist, has no era, or an era with another
name than the five, or when building the body panics. -/
theorem C57_panics (E : Ext) (cal : Calendar) (fuel : Nat) (text : List Char) (year : Usize)
    (month day : Option Usize) (lawType : LawType) (lang : Lang) (num : Option ArticleNumber)
    (lawNum : String) (title : List Char) :
    parseText (L := L) E cal fuel text year month day lawType lang num lawNum title = .panic ↔
      (¬ ∃ y m d name era, LookedUp year month day y m d ∧ cal y m d = some (some name) ∧
        (name, era) ∈ eraNames) ∨ parseBody (L := L) E fuel title text = .panic := by
  have hl : (∃ y m d name era, LookedUp year month day y m d ∧ cal y m d = some (some name) ∧
        (name, era) ∈ eraNames) ↔
      ∃ name era, cal (asI32 year) (asU32 (month.getD 1)) (asU32 (day.getD 1)) = some (some name) ∧
        (name, era) ∈ eraNames := by
    constructor
    · rintro ⟨y, m, d, name, era, h, h'⟩
      obtain ⟨rfl, rfl, rfl⟩ := (lookedUp_iff ..).1 h
      exact ⟨name, era, h'⟩
    · rintro ⟨name, era, h⟩
      exact ⟨_, _, _, name, era, (lookedUp_iff ..).2 ⟨rfl, rfl, rfl⟩, h⟩
  rw [hl]
  clear hl
  unfold parseText
  cases cal (asI32 year) (asU32 (month.getD 1)) (asU32 (day.getD 1)) with
  | none => simp [Res.unwrap]
  | some d =>
    cases d with
    | none => simp [Res.unwrap]
    | some name =>
      simp only [Res.unwrap, Res.bind_ok, Option.some.injEq]
      have key : (∃ era, eraOfName name = .ok era ∧ (name, era) ∈ eraNames) ∨
          (eraOfName name = .panic ∧ ∀ era, (name, era) ∉ eraNames) := by
        unfold eraOfName
        split
        · exact Or.inl ⟨_, rfl, by simp [eraNames]⟩
        · exact Or.inl ⟨_, rfl, by simp [eraNames]⟩
        · exact Or.inl ⟨_, rfl, by simp [eraNames]⟩
        · exact Or.inl ⟨_, rfl, by simp [eraNames]⟩
        · exact Or.inl ⟨_, rfl, by simp [eraNames]⟩
        · refine Or.inr ⟨rfl, ?_⟩
          intro era hm
          simp [eraNames] at hm
          simp_all
      rcases key with ⟨era, he, hm⟩ | ⟨he, hm⟩
      · rw [he, Res.bind_ok]
        have : ∃ name' era, name = name' ∧ (name', era) ∈ eraNames := ⟨name, era, rfl, hm⟩
        simp only [this, not_true_eq_false, false_or]
        cases parseBody (L := L) E fuel title text <;> simp [Res.bind]
      · rw [he]
        refine ⟨fun _ => Or.inl ?_, fun _ => rfl⟩
        rintro ⟨n', era, rfl, h⟩
        exact hm era h

/-- A calendar that knows the eras by the year alone, for the example. -/
def roughCalendar : Calendar := fun y _ _ =>
  if y < 1868 then some none else if y < 1912 then some (some "明治")
  else if y < 1926 then some (some "大正") else if y < 1989 then some (some "昭和")
  else if y < 2019 then some (some "平成") else some (some "令和")

/-- A year so large that another one is looked up. -/
example : LookedUp 6442450944 none (some 4294967298) (-2147483648) 1 2 :=
  (lookedUp_iff ..).2 (by decide)

/-- With the year of the era as the schema wants it, building the law panics; with the year of the
common era it does not, but then this year is stored in the law. -/
example (num : Option ArticleNumber) (title : List Char) :
    parseText (L := L) kanjiExt roughCalendar 2 "第一条　甲".toList 29 none none .act .ja num "" title =
      .panic ∧
    ∃ l : Law L, parseText kanjiExt roughCalendar 2 "第一条　甲".toList 1896 none none .act .ja num
      "" title = .ok (some l) ∧ l.era = .meiji ∧ l.year = 1896 := by
  refine ⟨?_, ?_⟩
  · rw [C57_panics]
    left
    rintro ⟨y, m, d, name, era, hd, h, -⟩
    obtain ⟨rfl, rfl, rfl⟩ := (lookedUp_iff ..).1 hd
    have : roughCalendar (asI32 29) (asU32 ((none : Option Usize).getD 1))
      (asU32 ((none : Option Usize).getD 1)) = some none := by decide
    rw [this] at h
    cases h
  · have hls : readLines kanjiExt "第一条　甲".toList = .ok [.article ⟨1, [], []⟩ "甲".toList] := by
      decide +kernel
    have hcal : roughCalendar (asI32 1896) (asU32 ((none : Option Usize).getD 1))
      (asU32 ((none : Option Usize).getD 1)) = some (some "明治") := by decide
    obtain ⟨b, hb⟩ := (C51_termination (L := L) kanjiExt title _ _ hls (by
      rintro ⟨d, n, b, hm, _⟩
      simp [meaning, next, contributes, saying] at hm)).2 (by
        rintro ⟨t, r, h⟩
        simp [leftOver, next] at h)
    refine ⟨⟨.meiji, 1896, num, none, none, .act, .ja, "", b⟩, ?_, rfl, rfl⟩
    rw [parseText, hcal]
    simp only [Res.unwrap, Res.bind_ok]
    rw [hb 2 (by simp)]
    rfl

end JLaw
