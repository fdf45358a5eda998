import Verif.Lemmas.Utils

/-!
# C39 to C49: lists of articles, plain text, generated tables of contents
-/

namespace JLaw

variable {L : Lvl}

/-! ## C39 and C40: the lists of articles -/

/-- C39: the articles of a main provision, at any level, in document order. -/
theorem C39_main_provision (m : MainProvision L) :
    (articleListFromMainProvision m).1 = m.units.filterMap fun p => p.2.article? := by
  rw [articleListFromMainProvision]
  exact (congrArg _ (main_listed m)).trans (listed_articles _)

/-- C39: the articles of a supplementary provision, at any level, in document order. -/
theorem C39_suppl_provision (x : SupplProvision L) :
    (articleListFromSupplProvision x).1 = x.units.filterMap fun p => p.2.article? := by
  rw [suppl_plain]
  exact (congrArg _ (suppl_listed x)).trans (listed_articles _)

theorem C40_main_provision (m : MainProvision L) :
    (withNumberArticleListFromMainProvision m).1.map (fun w => w.article) =
      (articleListFromMainProvision m).1 ∧
    (withNumberArticleListFromMainProvision m).2 = (articleListFromMainProvision m).2 :=
  ⟨rfl, rfl⟩

theorem C40_suppl_provision (x : SupplProvision L) :
    (withNumberArticleListFromSupplProvision x).1.map (fun w => w.article) =
      (articleListFromSupplProvision x).1 ∧
    (withNumberArticleListFromSupplProvision x).2 = (articleListFromSupplProvision x).2 := by
  rw [suppl_plain]
  exact ⟨rfl, rfl⟩

/-- An article with a number, used in the examples. -/
def someArticle (n : Usize) : Article (lvl 0) :=
  ⟨none, ⟨[.text "条"]⟩, [], none, ⟨n, [], []⟩, false, false⟩
/-- A paragraph with a number, used in the examples. -/
def loosePara (n : Usize) : Paragraph (lvl 0) :=
  ⟨none, ⟨[]⟩, [], [], [⟨[.string "本文"], none, none, none, .vertical⟩], [], [], ⟨n, [], []⟩,
    false, false, false⟩
/-- A chapter with an article and a section with an article. -/
def someChapter : Chapter (lvl 0) :=
  ⟨⟨[.text "章"]⟩, [.article (someArticle 5),
    .section_ ⟨⟨[.text "節"]⟩, [.article (someArticle 6)], ⟨4, [], []⟩, false, false⟩],
    ⟨2, [], []⟩, false, false⟩
/-- A part with the chapter and an article. -/
def somePart : Part (lvl 0) :=
  ⟨⟨[.text "編"]⟩, [.chapter someChapter, .article (someArticle 7)], ⟨1, [], []⟩, false, false⟩
/-- A main provision with loose paragraphs before, between and after. -/
def someMain : MainProvision (lvl 0) :=
  ⟨[.paragraph (loosePara 1), .article (someArticle 1), .paragraph (loosePara 2),
    .paragraph (loosePara 3), .part somePart], none⟩

example : (articleListFromMainProvision someMain).1.map (fun a => a.num.base_number) =
    [1, 5, 6, 7] := by
  rw [C39_main_provision]; decide

/-! ## C41: the groups of loose paragraphs -/

/-- C41: the children of a main provision are the groups with the other children between them, so
there is one group more than there are other children. -/
theorem C41_main_provision (m : MainProvision L) :
    let groups := (articleListFromMainProvision m).2
    let others := m.children.filter fun c => c.paragraph?.isNone
    groups.length = others.length + 1 ∧
    m.children = interleave (groups.map (List.map .paragraph)) others := by
  have h := groups_interleave (L := L) MainProvisionContents.paragraph MainProvisionContents.act
    (by intro b p h; cases b <;> cases h; rfl) m.children []
  have hg : (articleListFromMainProvision m).2 = groups (m.children.map (·.act)) [] := by
    show (withNumberArticleListFromMainProvision m).2 = _
    rw [mainProvision_eq, fold_groups]; rfl
  have ho : (m.children.filter fun c => c.paragraph?.isNone) =
      m.children.filter fun b => b.act.closes := by
    apply List.filter_congr
    intro c _
    cases c <;> rfl
  have ha : (m.children.filter fun b => !b.act.passes) = m.children := by
    apply List.filter_eq_self.2
    intro c _
    cases c <;> rfl
  simp only [hg, ho]
  rw [ha] at h
  simpa using h

/-- C41 for supplementary provisions, whose appended tables and styles are passed over. -/
theorem C41_suppl_provision (x : SupplProvision L) :
    let groups := (articleListFromSupplProvision x).2
    let others := x.children.filter fun c => c.tree?.isSome
    groups.length = others.length + 1 ∧
    (x.children.filter fun c => c.tree?.isSome || c.paragraph?.isSome) =
      interleave (groups.map (List.map .paragraph)) others := by
  have h := groups_interleave (L := L) SupplProvisionChildrenElement.paragraph
    SupplProvisionChildrenElement.act
    (by intro b p h; cases b <;> cases h; rfl) x.children []
  have hg : (articleListFromSupplProvision x).2 = groups (x.children.map (·.act)) [] := by
    rw [suppl_plain, supplProvision_eq]
    show (List.foldl ListSt.act _ _).finish.2 = _
    rw [fold_groups]; rfl
  have ho : (x.children.filter fun c => c.tree?.isSome) =
      x.children.filter fun b => b.act.closes := by
    apply List.filter_congr
    intro c _
    cases c <;> rfl
  have ha : (x.children.filter fun c => c.tree?.isSome || c.paragraph?.isSome) =
      x.children.filter fun b => !b.act.passes := by
    apply List.filter_congr
    intro c _
    cases c <;> rfl
  simp only [hg, ho, ha]
  simpa using h

example : (articleListFromMainProvision someMain).2.map (List.map fun p => p.num.base_number) =
    [[1], [2, 3], []] := by decide

/-! ## C42: the numbers reported with an article -/

/-- C42: for a part, chapter, section or subsection around the article, the number reported is that
of the unit (or article) directly below it; for a division it is its own number; nothing is
reported for units that are not around the article. -/
theorem C42_main_provision (m : MainProvision L) :
    (withNumberArticleListFromMainProvision m).1 = m.units.filterMap fun p =>
      p.2.article?.map fun a =>
        { part := numBelow .part (p.1 ++ [p.2])
          chapter := numBelow .chapter (p.1 ++ [p.2])
          section_ := numBelow .section_ (p.1 ++ [p.2])
          subsection := numBelow .subsection (p.1 ++ [p.2])
          division := numOf .division p.1
          article := a } :=
  main_listed m

theorem C42_suppl_provision (x : SupplProvision L) :
    (withNumberArticleListFromSupplProvision x).1 = x.units.filterMap fun p =>
      p.2.article?.map fun a =>
        { part := numBelow .part (p.1 ++ [p.2])
          chapter := numBelow .chapter (p.1 ++ [p.2])
          section_ := numBelow .section_ (p.1 ++ [p.2])
          subsection := numBelow .subsection (p.1 ++ [p.2])
          division := numOf .division p.1
          article := a } :=
  suppl_listed x

/-- The number reported for the unit of a kind. -/
def WithNumberArticle.reported (w : WithNumberArticle L) : Kind → Option ArticleNumber
  | .part => w.part
  | .chapter => w.chapter
  | .section_ => w.section_
  | .subsection => w.subsection
  | .division => w.division
  | .article => none

theorem numBelow_split (k : Kind) (before after : List (UnitHead L)) (u v : UnitHead L)
    (hk : u.kind = k) (hb : ∀ w ∈ before, w.kind ≠ k) :
    numBelow k (before ++ u :: v :: after) = some v.num := by
  induction before with
  | nil => simp [numBelow, hk]
  | cons w before ih =>
    have hw := hb w (by simp)
    have := ih fun w' h => hb w' (by simp [h])
    cases before with
    | nil => simpa [numBelow, hw] using this
    | cons w' r => simpa [numBelow, hw] using this

/-- C42: the number reported for an enclosing unit `u` that is no division is `u`'s own exactly when
the unit `v` below it on the way to the article happens to bear the same number. -/
theorem C42_right_by_coincidence (m : MainProvision L) (i : Nat) (w : WithNumberArticle L)
    (hw : (withNumberArticleListFromMainProvision m).1[i]? = some w) :
    ∃ p, (m.units.filter fun p => p.2.article?.isSome)[i]? = some p ∧
      p.2.article? = some w.article ∧
      ∀ (k : Kind) (before after : List (UnitHead L)) (u v : UnitHead L),
        k ≠ .division → k ≠ .article → u.kind = k → (∀ x ∈ before, x.kind ≠ k) →
        p.1 ++ [p.2] = before ++ u :: v :: after →
        (w.reported k = some u.num ↔ v.num = u.num) := by
  rw [main_listed] at hw
  obtain ⟨p, h1, h2⟩ := filterMap_getElem hw
  refine ⟨p, by simpa [listed] using h1, ?_, ?_⟩
  · rw [listed, Option.map_eq_some_iff] at h2
    obtain ⟨a, ha, rfl⟩ := h2
    exact ha
  · intro k before after u v hd ha hk hb hs
    have hn := numBelow_split k before after u v hk hb
    rw [listed, Option.map_eq_some_iff] at h2
    obtain ⟨a, -, rfl⟩ := h2
    rw [hs]
    cases k with
    | division => exact absurd rfl hd
    | article => exact absurd rfl ha
    | _ => simp [WithNumberArticle.reported, hn]

/-- C42: there are provisions for which a wrong part number and a wrong chapter number are
reported. -/
theorem C42_wrong_numbers : ∃ (m : MainProvision (lvl 0)) (p : Part (lvl 0)) (c : Chapter (lvl 0)),
    m.children = [.part p] ∧ p.children = [.chapter c] ∧ c.children.length = 1 ∧
    ∃ w, (withNumberArticleListFromMainProvision m).1 = [w] ∧ w.part ≠ some p.num ∧
      w.part = some c.num ∧ w.chapter ≠ some c.num ∧ w.chapter = some w.article.num :=
  ⟨⟨[.part ⟨⟨[]⟩, [.chapter ⟨⟨[]⟩, [.article (someArticle 3)], ⟨2, [], []⟩, false, false⟩],
      ⟨1, [], []⟩, false, false⟩], none⟩, _, _, rfl, rfl, rfl, _, rfl, by decide, by decide,
      by decide, by decide⟩

example : (withNumberArticleListFromMainProvision someMain).1.map
      (fun w => (w.part.map (·.base_number), w.chapter.map (·.base_number),
        w.section_.map (·.base_number), w.article.num.base_number)) =
    [(none, none, none, 1), (some 2, some 5, none, 5), (some 2, some 4, some 6, 6),
      (some 7, none, none, 7)] := by
  rw [C42_main_provision]; decide

/-! ## C43 to C45: entries of text -/

/-- C43: one entry per paragraph, item and subitem in document order, whose index is the number of
the paragraph and the numbers of the items on the way down. -/
theorem C43_indices (R : Render L) (l : List (Paragraph L)) :
    (textInfoListFromParagraph R l).map Prod.fst = l.flatMap fun p =>
      ⟨p.num, []⟩ :: p.items.map fun i => ⟨p.num, (i.1 ++ [i.2]).map fun u => u.num⟩ := by
  rw [textInfo_eq, List.map_flatMap]
  simp only [List.map_cons, List.map_map]
  rfl

/-- C44: the text of each entry; a table at the sixth level of subitems gives the empty text. -/
theorem C44_texts (n : Nat) (l : List (Paragraph (lvl n))) :
    (textInfoListFromParagraph (render n) l).map Prod.snd = l.flatMap fun p =>
      String.join (p.sentence.map fun s => plainSentence n s.contents) ::
        p.items.map fun i => match i.2.sentence with
          | .sentence l => String.join (l.map fun s => plainSentence n s.contents)
          | .column cs => String.intercalate " "
              (cs.flatMap fun c => c.sentence.map fun s => plainSentence n s.contents)
          | .table t => if i.2.level = 6 then "" else tableToStr (render n) t := by
  rw [textInfo_eq, List.map_flatMap]
  apply flatMap_congr_mem
  intro p _
  rw [List.map_cons, sentences_plain, List.map_map]
  congr 1
  apply List.map_congr_left
  rintro ⟨a, u⟩ _
  simp only [Function.comp, itemEntry, ItemHead.toStr]
  cases u.sentence with
  | sentence l => simp [SentenceOrColumnOrTable.toStr, sentences_plain]
  | column cs => simp [SentenceOrColumnOrTable.toStr, sentence_plain]
  | table t => by_cases h : u.level = 6 <;> simp [SentenceOrColumnOrTable.toStr, h]

/-- An item with a table, used in the examples. -/
def tableItem {γ : Type} (n : Usize) (c : List γ) : ItemOf (lvl 0) γ :=
  ⟨none, .table ⟨[⟨[⟨[.text "見出し"]⟩]⟩], [], .vertical⟩, c, [], some ⟨n, [], []⟩, false, false⟩
/-- A paragraph with items down to the sixth level of subitems, used in the examples. -/
def deepPara : Paragraph (lvl 0) :=
  { loosePara 1 with
    children := [tableItem 1 [tableItem 2 [tableItem 3 [tableItem 4 [tableItem 5 [tableItem 6
      [tableItem 7 []]]]]]], tableItem 8 []] }

example : (textInfoListFromParagraph (render 0) [deepPara]).map
      (fun e => e.1.items.map (Option.map fun i => i.base_number)) =
    [[], [some 1], [some 1, some 2], [some 1, some 2, some 3], [some 1, some 2, some 3, some 4],
      [some 1, some 2, some 3, some 4, some 5], [some 1, some 2, some 3, some 4, some 5, some 6],
      [some 1, some 2, some 3, some 4, some 5, some 6, some 7], [some 8]] := by
  decide

example : (textInfoListFromParagraph (render 0) [deepPara]).map Prod.snd =
    ["本文", "見出し\n", "見出し\n", "見出し\n", "見出し\n", "見出し\n", "見出し\n", "",
      "見出し\n"] := by
  rw [C44_texts]; decide

/-- C45: the entries of two lists of paragraphs, one after the other. -/
theorem C45_append (R : Render L) (l r : List (Paragraph L)) :
    textInfoListFromParagraph R (l ++ r) =
      textInfoListFromParagraph R l ++ textInfoListFromParagraph R r := by
  simp only [textInfo_eq, List.flatMap_append]

/-- C45: the text of paragraphs is that of the entries with a line feed between each two, so the
texts of two lists that are not empty are joined by a line feed. -/
theorem C45_join (R : Render L) :
    textFromParagraphList R [] = "" ∧
    (∀ p : Paragraph L, textFromParagraphList R [p] =
      ((textInfoListFromParagraph R [p]).tail.map Prod.snd).foldl (fun s t => s ++ "\n" ++ t)
        (sentencesToStr R p.sentence)) ∧
    (∀ l r : List (Paragraph L), l ≠ [] → r ≠ [] → textFromParagraphList R (l ++ r) =
      textFromParagraphList R l ++ "\n" ++ textFromParagraphList R r) ∧
    (∀ a : Article L, textFromArticle R a = textFromParagraphList R a.paragraph) := by
  refine ⟨rfl, ?_, ?_, fun _ => rfl⟩
  · intro p
    rw [textFromParagraphList, textInfo_eq]
    simp only [List.flatMap_cons, List.flatMap_nil, List.append_nil, List.map_cons, List.tail_cons]
    generalize (p.items.map (itemEntry R p.num)).map Prod.snd = l
    generalize sentencesToStr R p.sentence = s
    induction l generalizing s with
    | nil => simp
    | cons t l ih =>
      rw [List.foldl_cons, ← ih, String.intercalate_cons_append, String.intercalate_cons_cons]
  · intro l r hl hr
    rw [textFromParagraphList, C45_append, List.map_append,
      String.intercalate_append_of_ne_nil]
    · rfl
    · rw [textInfo_eq]
      cases l with
      | nil => exact absurd rfl hl
      | cons p l => simp
    · rw [textInfo_eq]
      cases r with
      | nil => exact absurd rfl hr
      | cons p l => simp

example : textFromParagraphList (render 0) [loosePara 1, loosePara 2] = "本文\n本文" := by
  decide

/-! ## C46: sentences -/

/-- C46: the text of a sentence is that of its parts one after the other: strings as they are, base
texts of ruby, scripts in braces, formulas and quoted structures by their own direct strings, ruby
and scripts, and nothing for lines. -/
theorem C46_sentence (n : Nat) (l : List (SentenceElement (lvl (n + 1)))) :
    sentenceElementToStr (render (n + 1)) l = String.join (l.map fun
      | .string t => t
      | .ruby r => plainText n r.text
      | .sub x => "_{" ++ x.text ++ "}"
      | .sup x => "^{" ++ x.text ++ "}"
      | .arithFormula a => plainContents n a.contentes
      | .quoteStruct q => plainContents n q.contentes
      | .line _ => "") := by
  rw [sentence_plain, plainSentence]
  congr 2
  funext x
  cases x <;> rfl

/-- C46: the same for titles and base texts, where scripts have no braces. -/
theorem C46_text (n : Nat) (t : Text (lvl (n + 1))) :
    Text.toStr (render (n + 1)) t = String.join (t.contents.map fun
      | .text s => s
      | .ruby r => Text.toStr (render n) r.text
      | .sub x => x.text
      | .sup x => x.text
      | .line _ => "") := by
  rw [toStr_plain, plainText]
  congr 2
  funext x
  cases x with
  | ruby r => exact (toStr_plain n _).symm
  | _ => rfl

/-- C46: the text of a title with a writing mode does not depend on the mode. -/
theorem C46_text_with_writing_mode (n : Nat) (t : TextWithWritingMode (lvl (n + 1))) :
    t.toStr (render (n + 1)) = String.join (t.contents.map fun
      | .text s => s
      | .ruby r => Text.toStr (render n) r.text
      | .sub x => x.text
      | .sup x => x.text
      | .line _ => "") :=
  C46_text n ⟨t.contents⟩

example : TextWithWritingMode.toStr (render 1) ⟨[.text "別表", .sup ⟨"2"⟩], .horizontal⟩ = "別表2" := by
  decide

/-- C46: splitting a sentence. -/
theorem C46_append (n : Nat) (l r : List (SentenceElement (lvl n))) :
    sentenceElementToStr (render n) (l ++ r) =
      sentenceElementToStr (render n) l ++ sentenceElementToStr (render n) r := by
  apply String.toList_inj.mp
  cases n <;> simp [sentence_plain, plainSentence, String.toList_join]

example : sentenceElementToStr (render 2)
    [.string "甲", .ruby ⟨(⟨[.text "乙", .sup ⟨"2"⟩]⟩ : Text (lvl 1)), "おつ"⟩, .sub ⟨"1"⟩,
      .quoteStruct ⟨(⟨[.string "丙", .sup ⟨"3"⟩]⟩ : Contents (lvl 1))⟩] = "甲乙2_{1}丙^{3}" := by
  decide

/-! ## C47: tables -/

/-- C47: the lines of a table: one for the header rows, then one per row with the cells joined by a
space; a table without rows still has a second, empty line. -/
theorem C47_table_lines (n : Nat) (t : Table (lvl n))
    (hh : ∀ r ∈ t.table_header_row, ∀ c ∈ r.columns, '\n' ∉ (plainText n c).toList)
    (hc : ∀ r ∈ t.table_row, ∀ c ∈ rowCells n r, '\n' ∉ c.toList) :
    (tableToStr (render n) t).toList.splitOn '\n' =
      (String.intercalate " " (t.table_header_row.map fun r =>
        String.join (r.columns.map (plainText n)))).toList ::
      (if t.table_row = [] then [[]] else
        t.table_row.map fun r => (String.intercalate " " (rowCells n r)).toList) := by
  have inter : ∀ l : List String, (∀ s ∈ l, '\n' ∉ s.toList) →
      '\n' ∉ (String.intercalate " " l).toList := by
    intro l
    induction l with
    | nil => simp
    | cons a l ih =>
      intro h
      cases l with
      | nil => simpa using h
      | cons b l =>
        have h1 := h a (by simp)
        have h2 := ih fun s hs => h s (by simp [hs])
        rw [String.intercalate_cons_cons, String.toList_append, String.toList_append]
        simp only [List.mem_append, not_or]
        exact ⟨⟨h1, by decide⟩, h2⟩
  have hrow : (t.table_row.map fun row => String.intercalate " " (row.columns.map (render n).column))
      = t.table_row.map fun r => String.intercalate " " (rowCells n r) := by
    simp only [row_plain]
  have hcol : (Text.toStr (render n)) = plainText n := funext (toStr_plain n)
  rw [tableToStr, hrow, hcol]
  generalize hH : String.intercalate " " (t.table_header_row.map fun r =>
        String.join (r.columns.map (plainText n))) = H
  have hHn : '\n' ∉ H.toList := by
    rw [← hH]
    apply inter
    intro s hs
    obtain ⟨r, hr, rfl⟩ := List.mem_map.1 hs
    simp only [String.toList_join, List.mem_flatMap, List.mem_map, not_exists, not_and]
    rintro x ⟨c, hcm, rfl⟩
    exact hh r hr c hcm
  have hR : ∀ s ∈ t.table_row.map fun r => String.intercalate " " (rowCells n r),
      '\n' ∉ s.toList := by
    intro s hs
    obtain ⟨r, hr, rfl⟩ := List.mem_map.1 hs
    exact inter _ (hc r hr)
  have key : (H ++ "\n" ++ String.intercalate "\n"
      (t.table_row.map fun r => String.intercalate " " (rowCells n r))).toList =
      ['\n'].intercalate (H.toList :: (if t.table_row = [] then [[]] else
        t.table_row.map fun r => (String.intercalate " " (rowCells n r)).toList)) := by
    cases ht : t.table_row with
    | nil => simp [List.intercalate]
    | cons a l => simp [String.toList_append, String.toList_intercalate, List.intercalate,
        Function.comp_def]
  rw [key, List.splitOn_intercalate _ _ (by simp)]
  intro l hl
  rcases List.mem_cons.1 hl with rfl | hl
  · exact hHn
  · split at hl
    · simp_all
    · obtain ⟨r, hr, rfl⟩ := List.mem_map.1 hl
      exact hR _ (List.mem_map.2 ⟨r, hr, rfl⟩)

/-- A table with two header rows and two rows. -/
def smallTable : Table (lvl 1) :=
  ⟨[⟨[⟨[.text "甲"]⟩, ⟨[.text "乙"]⟩]⟩, ⟨[⟨[.text "丙"]⟩]⟩],
    [⟨[(⟨[.string "1", .string "2"], .solid, .solid, .solid, .solid, none, none, none, none⟩ :
        TableColumn (lvl 0)),
      (⟨[.string "3"], .solid, .solid, .solid, .solid, none, none, none, none⟩ : TableColumn (lvl 0))]⟩,
     ⟨[]⟩], .vertical⟩

example : tableToStr (render 1) smallTable = "甲乙 丙\n12 3\n" := by decide

/-! ## C48 and C49: generated tables of contents -/

/-- C48: one entry per unit in document order, with the text of the unit's title. -/
theorem C48_main_provision (n : Nat) (m : MainProvision (lvl n)) :
    (tocListFromMainProvision (render n) m).map (fun t => t.title) =
      m.units.map fun p => some (plainText n p.2.title) := by
  have h := toc_main (R := render n) m
  generalize m.units = l at h
  generalize tocListFromMainProvision (render n) m = r at h
  induction h with
  | nil => rfl
  | cons h _ ih => rw [List.map_cons, List.map_cons, ih, h.2.1, toStr_plain]

theorem C48_suppl_provision (n : Nat) (x : SupplProvision (lvl n)) :
    (tocListFromSupplProvision (render n) x).map (fun t => t.title) =
      x.units.map fun p => some (plainText n p.2.title) := by
  have h := toc_suppl (R := render n) x
  generalize x.units = l at h
  generalize tocListFromSupplProvision (render n) x = r at h
  induction h with
  | nil => rfl
  | cons h _ ih => rw [List.map_cons, List.map_cons, ih, h.2.1, toStr_plain]

/-- What the numbers of an entry are for a unit and the units around it. -/
def tocNumbers (p : List (UnitHead L) × UnitHead L) (t : Toc) : Prop :=
  t.article_number = none ∧
  t.part_number = numOf .part (p.1 ++ [p.2]) ∧
  t.section_number = numOf .section_ (p.1 ++ [p.2]) ∧
  t.subsection_number = numOf .subsection (p.1 ++ [p.2]) ∧
  (numOf .chapter (p.1 ++ [p.2]) ≠ none ∨ numOf .part (p.1 ++ [p.2]) = none →
    t.chapter_number = numOf .chapter (p.1 ++ [p.2])) ∧
  (p.2.kind = .article ∨ p.2.kind = .division → t.division_number = some p.2.num)

/-- C49: no entry has an article number, that of an article is its division number; the numbers of
the part, section and subsection are right, that of the chapter is right inside chapters and outside
parts. -/
theorem C49_main_provision (R : Render L) (m : MainProvision L) :
    List.Forall₂ tocNumbers m.units (tocListFromMainProvision R m) :=
  (toc_main m).imp fun _ _ h =>
    ⟨h.1.1, h.1.2.1, h.1.2.2.1, h.1.2.2.2.1, h.1.2.2.2.2, h.2.2⟩

theorem C49_suppl_provision (R : Render L) (x : SupplProvision L) :
    List.Forall₂ tocNumbers x.units (tocListFromSupplProvision R x) :=
  (toc_suppl x).imp fun _ _ h =>
    ⟨h.1.1, h.1.2.1, h.1.2.2.1, h.1.2.2.2.1, h.1.2.2.2.2, h.2.2⟩

/-- C49: an article directly in a part gets the number of the last chapter before it. -/
theorem C49_chapter_stays (R : Render L) (p : Part L) (before after : List (PartContents L))
    (a : Article L) (hp : p.children = before ++ .article a :: after) :
    ∃ t, (tocListFromPart R p)[1 + (Rose.walkAll [.part p.num p.title]
        (before.map PartContents.tree)).length]? = some t ∧
      t.division_number = some a.num ∧
      t.chapter_number = (before.filterMap PartContents.chapter?).getLast?.map fun d => d.num := by
  obtain ⟨t, h1, h2, h3⟩ := toc_part_entry (R := R) p before after a hp
  exact ⟨t, h1, h2.2.2 (.inl rfl), h3⟩

/-- C49: a section in a chapter gets the number of the last article directly in the chapter before
it as its division number. -/
theorem C49_article_number_stays (R : Render L) (c : Chapter L)
    (before after : List (ChapterContents L)) (d : Section L)
    (hp : c.children = before ++ .section_ d :: after) :
    ∃ t, (tocListFromChapter R c {}).2[1 + (Rose.walkAll [.chapter c.num c.title]
        (before.map ChapterContents.tree)).length]? = some t ∧
      t.section_number = some d.num ∧
      t.division_number =
        (before.filterMap ChapterContents.article?).getLast?.map fun a => a.num := by
  obtain ⟨t, h1, h2, h3⟩ := toc_chapter_entry (R := R) c before after d hp
  refine ⟨t, h1, ?_, h3⟩
  rw [h2.1.2.2.1]
  simp [numOf, UnitHead.kind, UnitHead.num]

example : (tocListFromMainProvision (render 0) someMain).map
      (fun t => (t.title, t.part_number.map (·.base_number), t.chapter_number.map (·.base_number),
        t.division_number.map (·.base_number))) =
    [(some "条", none, none, some 1), (some "編", some 1, none, none),
      (some "章", some 1, some 2, none), (some "条", some 1, some 2, some 5),
      (some "節", some 1, some 2, some 5), (some "条", some 1, some 2, some 6),
      (some "条", some 1, some 2, some 7)] := by
  decide

end JLaw
