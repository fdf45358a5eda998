import Verif.Spec.ScanLine
import Verif.Props.ScanItem
import Verif.Props.BuiltUnique
import Verif.Props.LineKinds
import Verif.Props.Letters
import Verif.Lemmas.FromTextLines

/-!
# What a line of a text says (C87)
-/

namespace JLaw

open Spec

/-! ## Lemmas -/

theorem lineOfNumber_eq (h : List Char) (n : ArticleNumber) (u : List Char) :
    lineOfNumber h n u = Scan.unitLine h n u := by
  have e : ∀ c : Char, h.contains c = decide (c ∈ h) := fun c => by
    rw [Bool.eq_iff_iff, List.contains_iff_mem, decide_eq_true_iff]
  simp only [lineOfNumber, Scan.unitLine, List.find?_cons, List.find?_nil, e]
  cases decide ('編' ∈ h)
  · cases decide ('章' ∈ h)
    · cases decide ('節' ∈ h)
      · cases decide ('款' ∈ h)
        · cases decide ('目' ∈ h)
          · cases decide ('条' ∈ h) <;> rfl
          · rfl
        · rfl
      · rfl
    · rfl
  · rfl

theorem articleNumber_outcome (E : Ext) (s : List Char) :
    Scan.articleNumber E s = .panic ∨ ∃ o, Scan.articleNumber E s = .ok o := by
  have hu : ∀ n m, Scan.unitMeaning E n m = .panic ∨ ∃ o, Scan.unitMeaning E n m = .ok o := by
    intro n m
    unfold Scan.unitMeaning
    repeat' split
    all_goals first | exact Or.inl rfl | exact Or.inr ⟨_, rfl⟩
  have hd : ∀ n m, Scan.digitMeaning n m = .panic ∨ ∃ o, Scan.digitMeaning n m = .ok o := by
    intro n m
    unfold Scan.digitMeaning
    repeat' split
    all_goals first | exact Or.inl rfl | exact Or.inr ⟨_, rfl⟩
  unfold Scan.articleNumber
  split
  · exact hu _ _
  · split
    · exact hd _ _
    · exact Or.inr ⟨_, rfl⟩

theorem heading_split {t h u : List Char} (hh : Scan.HeadingOf t h u) (hn : '\n' ∉ t) :
    splitNumber t = some (h, u) := by
  obtain ⟨hne, hb, ⟨c, hc, rfl, rfl⟩ | ⟨bs, hbs, hbb, rfl, hu, hub⟩⟩ := hh
  · exact splitNumber_joined hne (fun c hc => isSpace_false.mpr (hb c hc)) (isSpace_false.mpr hc)
      fun h => hn (by simp [h])
  · rw [List.append_assoc]
    apply splitNumber_blank hne (fun c hc => isSpace_false.mpr (hb c hc)) hbs
      (fun c hc => isSpace_iff.mpr (hbb c hc)) hu _ fun h => hn (by simp [h])
    cases u with
    | nil => trivial
    | cons c u => exact isSpace_false.mpr (hub c rfl)

theorem heading_exists {t : List Char} (h2 : 2 ≤ t.length) (ht : Trimmed t) (hn : '\n' ∉ t) :
    ∃ h u, Scan.HeadingOf t h u := by
  rcases split_cases h2 ht hn with ⟨h, c, rfl, hne, hh, hc, -⟩ | ⟨h, bs, u, rfl, hne, hh, hbs, hbb, hu, hub, -⟩
  · exact ⟨h, [c], hne, fun c hc => isSpace_false.mp (hh c hc), Or.inl ⟨c, isSpace_false.mp hc, rfl, rfl⟩⟩
  · refine ⟨h, u, hne, fun c hc => isSpace_false.mp (hh c hc), Or.inr ⟨bs, hbs, fun c hc => isSpace_iff.mp (hbb c hc),
      by simp, hu, ?_⟩⟩
    intro c hc
    cases u with
    | nil => cases hc
    | cons d u =>
      simp only [List.head?_cons, Option.some.injEq] at hc
      subst hc
      exact isSpace_false.mp hub

theorem caption_none {t : List Char} (h : ¬ ∃ s, Scan.IsCaption t s) : reCaption.captures t = none := by
  cases hc : reCaption.captures t with
  | none => rfl
  | some caps =>
    obtain ⟨s, h1, h2, h3, -⟩ := (caption_iff _ _).mp hc
    exact absurd ⟨s, h1, h2, h3⟩ h

theorem heading_trimmed {t h u : List Char} (hh : Scan.HeadingOf t h u) : Trimmed h :=
  ⟨fun c hc => hh.2.1 c (List.mem_of_mem_head? hc), fun c hc => hh.2.1 c (List.mem_of_mem_getLast? hc)⟩

theorem heading_item (E : Ext) {t h u : List Char} (hh : Scan.HeadingOf t h u) :
    (parseItemNumber E h = .ok none ∧ ¬ ∃ b e, Scan.Cut h b e) ∨
    ∃ b e, Scan.BestCut h b e ∧ parseItemNumber E h = Scan.itemMeaning E h b e := by
  have hs : h = [] ++ h ++ [] := by simp
  have hb : Blank [] := by simp [Blank]
  by_cases hc : ∃ b e, Scan.Cut h b e
  · obtain ⟨b, e, hbc, -⟩ := C86_best_cut h hc (heading_trimmed hh)
    exact Or.inr ⟨b, e, hbc, C86_item_number E h [] h [] b e hs hb hb (heading_trimmed hh) hbc⟩
  · exact Or.inl ⟨(C86_no_number E h [] h [] hs hb hb (heading_trimmed hh)).mpr hc, hc⟩

theorem suppl_short {t : List Char} (h : t.length < 2) : reSuppl.captures t = none := by
  rw [Re.captures_eq]
  match t, h with
  | [], _ => simp [reSuppl, Re.seqs, Re.ch]
  | [c], _ =>
    simp only [reSuppl, Re.seqs, Re.first_seq]
    by_cases hc : c = '附'
    · subst hc
      rw [Re.first_ch, Re.first_star]
      simp [Re.ch]
    · rw [Re.first_ch_none hc]

theorem splitC_ended {ps : List (List Char)} {z : List Char} (hp : ∀ p ∈ ps, '\n' ∉ p) (hz : '\n' ∉ z) :
    splitC '\n' ((ps.flatMap fun p => p ++ ['\n']) ++ z) = ps ++ [z] := by
  induction ps with
  | nil => exact splitC_of_not_mem hz
  | cons p ps ih =>
    simp only [List.flatMap_cons, List.append_assoc, List.cons_append, List.nil_append]
    rw [splitC_append _ (hp p (by simp))]
    rw [ih fun q hq => hp q (by simp [hq])]

theorem linesOf_ended (ps : List (List Char)) (z : List Char) :
    linesOf (ps ++ [z]) = ps.map stripCR ++ if z = [] then [] else [z] := by
  induction ps with
  | nil => cases z <;> simp [linesOf]
  | cons p ps ih =>
    have : ∀ l : List (List Char), l ≠ [] → linesOf (p :: l) = stripCR p :: linesOf l := by
      intro l hl
      cases l with
      | nil => exact absurd rfl hl
      | cons q l => rfl
    rw [List.cons_append, this _ (by simp), ih]
    rfl

theorem readLines_hasLines (E : Ext) {text : List Char} {lines : List (List Char)}
    (h : Scan.HasLines text lines) : readLines E text = mapRes (parseLineContents E) lines := by
  obtain ⟨ps, z, hp, hz, rfl, rfl⟩ := h
  rw [readLines, strLines, splitC_ended hp hz, linesOf_ended, mapRes_append, mapRes_append, mapRes_map]
  rw [mapRes_congr (fun p => parseLineContents E (trim (stripCR p))) (parseLineContents E) ps
      fun p _ => line_trim E (by rw [trim_trim, trim_stripCR]),
    mapRes_congr (fun p => parseLineContents E (trim p)) (parseLineContents E) (if z = [] then [] else [z])
      fun p _ => line_trim E (by rw [trim_trim])]

theorem hasLines_no_feed {text : List Char} {lines : List (List Char)} (h : Scan.HasLines text lines) :
    ∀ l ∈ lines, '\n' ∉ l := by
  obtain ⟨ps, z, hp, hz, -, rfl⟩ := h
  intro l hl
  rcases List.mem_append.mp hl with hl | hl
  · exact hp l hl
  · split at hl
    · cases hl
    · rw [List.mem_singleton] at hl
      exact hl ▸ hz

/-! ## C87 -/

/-- C87. What `parse_line_contents` gives for any line without line feeds, blanks at its ends aside, is what
the line says, and nothing else. -/
theorem C87_line (E : Ext) (line pre t post : List Char) (hl : line = pre ++ t ++ post) (hpre : Blank pre)
    (hpost : Blank post) (ht : Trimmed t) (hn : '\n' ∉ t) (r : Res TextLine) :
    parseLineContents E line = r ↔ Scan.LineSays E t r := by
  have htr : trim line = t := item_trim hl hpre hpost ht
  constructor
  · rintro rfl
    by_cases hcap : ∃ s, Scan.IsCaption t s
    · obtain ⟨s, hs⟩ := hcap
      have : parseLineContents E line = .ok (.caption s) :=
        line_caption ⟨pre, post, by rw [hl, hs.1], hpre, hpost, hs.2⟩
      rw [this]
      exact .caption s hs
    · rw [parseLineContents, htr, caption_none hcap]
      by_cases h2 : t.length < 2
      · rw [splitNumber_short h2, suppl_short h2]
        exact .short h2
      · obtain ⟨h, u, hh⟩ := heading_exists (by omega) ht hn
        rw [heading_split hh hn]
        simp only [parseArticleNumber_scan]
        rcases articleNumber_outcome E h with ha | ⟨o, ha⟩
        · rw [ha]
          exact .bigNumber h u hcap hh ha
        · rw [ha]
          cases o with
          | some n =>
            simp only [Res.bind, lineOfNumber_eq]
            exact .number h u n hcap hh ha
          | none =>
            simp only [Res.bind]
            rcases heading_item E hh with ⟨hi, hc⟩ | ⟨b, e, hb, hi⟩
            · rw [hi]
              exact .text h u hcap hh ha hc
            · obtain ⟨p, k, w, hw⟩ := isWord_start hb.1.1
              have : Scan.itemMeaning E h b e = .panic ∨ ∃ n, Scan.itemMeaning E h b e = .ok (some n) := by
                rw [Scan.itemMeaning, hw]
                simp only
                split
                · exact Or.inr ⟨_, rfl⟩
                · exact Or.inl rfl
              rw [hi]
              rcases this with hm | ⟨n, hm⟩
              · rw [hm]
                exact .noItem h u b e hcap hh ha hb hm
              · rw [hm]
                exact .item h u b e n hcap hh ha hb hm
  · intro hs
    cases hs with
    | caption s hs => exact line_caption ⟨pre, post, by rw [hl, hs.1], hpre, hpost, hs.2⟩
    | short h2 =>
      have hcap : ¬ ∃ s, Scan.IsCaption t s := by
        rintro ⟨s, rfl, -⟩
        simp only [List.cons_append, List.length_cons, List.length_append] at h2
        omega
      rw [parseLineContents, htr, caption_none hcap, splitNumber_short h2, suppl_short h2]
    | number h u n hcap hh ha =>
      rw [parseLineContents, htr, caption_none hcap, heading_split hh hn]
      simp only [parseArticleNumber_scan, ha, Res.bind, lineOfNumber_eq]
    | bigNumber h u hcap hh ha =>
      rw [parseLineContents, htr, caption_none hcap, heading_split hh hn]
      simp only [parseArticleNumber_scan, ha, Res.bind]
    | item h u b e n hcap hh ha hb hm =>
      rw [parseLineContents, htr, caption_none hcap, heading_split hh hn]
      have hi := C86_item_number E h [] h [] b e (by simp) (by simp [Blank]) (by simp [Blank])
        (heading_trimmed hh) hb
      simp only [parseArticleNumber_scan, ha, Res.bind, hi, hm]
    | noItem h u b e hcap hh ha hb hm =>
      rw [parseLineContents, htr, caption_none hcap, heading_split hh hn]
      have hi := C86_item_number E h [] h [] b e (by simp) (by simp [Blank]) (by simp [Blank])
        (heading_trimmed hh) hb
      simp only [parseArticleNumber_scan, ha, Res.bind, hi, hm]
    | text h u hcap hh ha hc =>
      rw [parseLineContents, htr, caption_none hcap, heading_split hh hn]
      have hi := (C86_no_number E h [] h [] (by simp) (by simp [Blank]) (by simp [Blank])
        (heading_trimmed hh)).mpr hc
      simp only [parseArticleNumber_scan, ha, Res.bind, hi]

/-- C87. The same without naming the blanks. -/
theorem C87_says (E : Ext) (line : List Char) (hn : '\n' ∉ line) (r : Res TextLine) :
    parseLineContents E line = r ↔ Scan.Says E line r := by
  constructor
  · intro h
    obtain ⟨pre, post, hl, h1, h2⟩ := trim_blank line
    refine ⟨pre, trim line, post, hl, h1, h2, trimmed_trim line, ?_⟩
    exact (C87_line E line pre _ post hl h1 h2 (trimmed_trim line)
      (fun h => hn (by rw [hl]; simp [h])) r).mp h
  · rintro ⟨pre, t, post, hl, h1, h2, ht, hs⟩
    exact (C87_line E line pre t post hl h1 h2 ht (fun h => hn (by rw [hl]; simp [h])) r).mpr hs

/-- C87. Every text has lines, in one way. -/
theorem C87_lines (text : List Char) :
    ∃ lines, Scan.HasLines text lines ∧ ∀ lines', Scan.HasLines text lines' → lines' = lines := by
  have hex : ∃ (ps : List (List Char)) (z : List Char), (∀ p ∈ ps, '\n' ∉ p) ∧ '\n' ∉ z ∧
      text = (ps.flatMap fun p => p ++ ['\n']) ++ z := by
    induction text with
    | nil => exact ⟨[], [], by simp, by simp, rfl⟩
    | cons c text ih =>
      obtain ⟨ps, z, hp, hz, rfl⟩ := ih
      by_cases hc : c = '\n'
      · subst hc
        exact ⟨[] :: ps, z, by simpa using hp, hz, rfl⟩
      · cases ps with
        | nil =>
          refine ⟨[], c :: z, by simp, ?_, rfl⟩
          simpa using ⟨fun h => hc h.symm, hz⟩
        | cons p ps =>
          refine ⟨(c :: p) :: ps, z, ?_, hz, rfl⟩
          intro q hq
          rcases List.mem_cons.mp hq with rfl | hq
          · simpa using ⟨fun h => hc h.symm, hp p (by simp)⟩
          · exact hp q (by simp [hq])
  obtain ⟨ps, z, hp, hz, ht⟩ := hex
  refine ⟨_, ⟨ps, z, hp, hz, ht, rfl⟩, ?_⟩
  rintro _ ⟨ps', z', hp', hz', ht', rfl⟩
  have h := splitC_ended hp' hz'
  rw [← ht', ht, splitC_ended hp hz] at h
  obtain ⟨rfl, he⟩ := List.append_inj' h rfl
  rw [List.singleton_inj.mp he]

/-- C87. The lines of any text are read as what each of them says, and the text cannot be read exactly if
one of its lines cannot. -/
theorem C87_text (E : Ext) (text : List Char) (lines : List (List Char)) (h : Scan.HasLines text lines) :
    (∀ ls, readLines E text = .ok ls ↔ List.Forall₂ (fun l r => Scan.Says E l (.ok r)) lines ls) ∧
    (readLines E text = .panic ↔ ∃ l ∈ lines, Scan.Says E l .panic) ∧
    (readLines E text = .panic ∨ ∃ ls, readLines E text = .ok ls) := by
  have hn := hasLines_no_feed h
  rw [readLines_hasLines E h]
  refine ⟨fun ls => ?_, ?_, okOrPanic_mapRes (okOrPanic_line E) lines⟩
  · rw [mapRes_eq_ok]
    clear h
    induction lines generalizing ls with
    | nil => cases ls <;> simp
    | cons l lines ih =>
      cases ls with
      | nil => simp
      | cons r ls =>
        rw [List.forall₂_cons, List.forall₂_cons, C87_says E l (hn l (by simp)),
          ih (fun l hl => hn l (by simp [hl]))]
  · rw [mapRes_panic (okOrPanic_line E)]
    constructor
    · rintro ⟨l, hl, hp⟩
      exact ⟨l, hl, (C87_says E l (hn l hl) _).mp hp⟩
    · rintro ⟨l, hl, hp⟩
      exact ⟨l, hl, (C87_says E l (hn l hl) _).mpr hp⟩

/-- C87. What `parse_body` builds from a text, from the text alone: if the lines say `ls`, of which none
lies too deep and none is a plain text out of place, the only law of the shape of C72 whose pieces are the
meaning of `ls`. -/
theorem C87_law {L : Lvl} (E : Ext) (fuel : Nat) (title text : List Char) (lines : List (List Char))
    (ls : List TextLine) (h : Scan.HasLines text lines)
    (hls : List.Forall₂ (fun l r => Scan.Says E l (.ok r)) lines ls)
    (hd : ¬ TooDeep (meaning (L := L) start ls)) (hs : ¬ ∃ t r, leftOver start ls = .text t :: r)
    (hf : ls.length < fuel) (b : LawBody L) :
    parseBody E fuel title text = .ok (some b) ↔ BodyBuilt title b ∧ document b = meaning start ls :=
  C85_law_of_text E fuel title text ls (((C87_text E text lines h).1 ls).mpr hls) hd hs hf b

/-! ## Examples -/

/-- The lines of a text with a carriage return, an empty line and a line feed at its end. -/
example : Scan.HasLines "第一条　甲\r\n\n乙\n".toList
    ["第一条　甲\r".toList, [], "乙".toList] :=
  ⟨["第一条　甲\r".toList, [], "乙".toList], [], by decide +kernel, by decide +kernel, by decide +kernel,
    by decide +kernel⟩

/-- An article number among blanks. -/
example : Scan.Says kanjiExt " 第一条の二　甲乙 \r".toList (.ok (.article ⟨1, [2], []⟩ "甲乙".toList)) :=
  (C87_says kanjiExt _ (by decide +kernel) _).mp (by decide +kernel)

/-- A line that says something through each of the constructors but `bigNumber`. -/
example : Scan.LineSays kanjiExt "（甲）".toList (.ok (.caption "甲".toList)) ∧
    Scan.LineSays kanjiExt "甲".toList (.ok (.text "甲".toList)) ∧
    Scan.LineSays kanjiExt "第二章　甲".toList (.ok (.chapter ⟨2, [], []⟩ "甲".toList)) ∧
    Scan.LineSays kanjiExt "イ　甲".toList (.ok (.item ⟨"イ".toList, 1, [], [], .noParenIrohaKatakana⟩ "甲".toList)) ∧
    Scan.LineSays kanjiExt "アメリカ 甲".toList .panic ∧
    Scan.LineSays kanjiExt "甲　乙".toList (.ok (.text "甲　乙".toList)) := by
  have key : ∀ t r, Trimmed t → '\n' ∉ t → parseLineContents kanjiExt t = r →
      Scan.LineSays kanjiExt t r := fun t r ht hn h =>
    (C87_line kanjiExt t [] t [] (by simp) (by simp [Blank]) (by simp [Blank]) ht hn r).mp h
  refine ⟨key _ _ ?_ ?_ ?_, key _ _ ?_ ?_ ?_, key _ _ ?_ ?_ ?_, key _ _ ?_ ?_ ?_, key _ _ ?_ ?_ ?_,
    key _ _ ?_ ?_ ?_⟩
  all_goals first | decide +kernel | (unfold Trimmed; decide +kernel)

end JLaw
