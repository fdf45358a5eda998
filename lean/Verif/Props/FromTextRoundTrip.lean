import Verif.Lemmas.FromTextKeep
import Verif.Lemmas.Kansuji
import Verif.Props.FromText
import Verif.Props.Items
import Verif.Props.RoundTrip

/-!
# Laws built from text survive writing and reading (C58)
-/

namespace JLaw

open Spec

/-- Items read from lines have no range. -/
theorem readLines_item {E : Ext} {text : List Char} {ls : List TextLine}
    (h : readLines E text = .ok ls) (n : ItemNumber) (s : List Char) (hm : .item n s ∈ ls) :
    n.range_end_numbers = [] := by
  obtain ⟨x, _, he⟩ := mem_of_forall₂ ((mapRes_eq_ok _ _ _).mp h) hm
  rw [parseLineContents] at he
  split at he
  · obtain ⟨s, _, he⟩ := Res.bind_eq_ok.mp he
    cases he
  · split at he
    · obtain ⟨o, _, he⟩ := Res.bind_eq_ok.mp he
      cases o with
      | some m =>
        simp only [lineOfNumber] at he
        repeat' split at he
        all_goals cases he
      | none =>
        obtain ⟨o, ho, he⟩ := Res.bind_eq_ok.mp he
        cases o with
        | none => cases he
        | some i => cases he; exact C12_no_item_range E _ _ ho
    · split at he <;> cases he

/-- C58. A law built from text survives writing and reading exactly when it was given a number, and
this number and those of all headings, articles and paragraphs that were used have no range or exactly
one branch number. -/
theorem C58_law_from_text_survives (d : Nat) (E : Ext) (cal : Calendar) (fuel : Nat)
    (text : List Char) (year : Usize) (month day : Option Usize) (lawType : LawType) (lang : Lang)
    (num : Option ArticleNumber) (lawNum : String) (title : List Char) (x : Law (lvl d))
    (h : parseText E cal fuel text year month day lawType lang num lawNum title = .ok (some x)) :
    ∃ ls, readLines E text = .ok ls ∧
      (Law.parser x.toXml = .ok x ↔
        (∃ n, num = some n ∧ (n.range_end_numbers = [] ∨ n.eda_numbers.length = 1)) ∧
        ∀ l ∈ used start ls, ∀ n, numberOf l = some n →
          n.range_end_numbers = [] ∨ n.eda_numbers.length = 1) := by
  obtain ⟨_, _, h⟩ := Res.bind_eq_ok.mp h
  obtain ⟨_, _, h⟩ := Res.bind_eq_ok.mp h
  obtain ⟨era, _, h⟩ := Res.bind_eq_ok.mp h
  obtain ⟨o, ho, h⟩ := Res.bind_eq_ok.mp h
  cases o with
  | none => cases h
  | some b =>
    cases h
    obtain ⟨ls, s, hls, _, _, hb, _, _, hm⟩ := parseBody_some ho
    refine ⟨ls, hls, ?_⟩
    rw [C28_law_survives]
    refine and_congr_right fun _ => ?_
    rw [parseBody_keeps (kcanon d) ho, hb, document_finish, hm,
      numsKeep_meaning _ _ (readLines_item hls)]
    rfl

/-- C58. In particular it survives when no number has a range. -/
theorem C58_without_ranges (d : Nat) (E : Ext) (cal : Calendar) (fuel : Nat)
    (text : List Char) (year : Usize) (month day : Option Usize) (lawType : LawType) (lang : Lang)
    (num : ArticleNumber) (lawNum : String) (title : List Char) (x : Law (lvl d)) (ls : List TextLine)
    (h : parseText E cal fuel text year month day lawType lang (some num) lawNum title = .ok (some x))
    (hls : readLines E text = .ok ls) (hnum : num.range_end_numbers = [])
    (hr : ∀ l ∈ ls, ∀ n, numberOf l = some n → n.range_end_numbers = []) :
    Law.parser x.toXml = .ok x := by
  obtain ⟨ls', hls', hiff⟩ := C58_law_from_text_survives d E cal fuel text year month day lawType lang
    (some num) lawNum title x h
  rw [hls] at hls'
  cases hls'
  refine hiff.mpr ⟨⟨num, rfl, Or.inl hnum⟩, fun l hl n hn => Or.inl (hr l ?_ n hn)⟩
  rw [used_append start ls]
  exact List.mem_append_left _ hl

/-- A text with a heading, articles, a paragraph and items, without a range. -/
example : ∃ ls, readLines kanjiExt
    "第一章　総則\n（目的）\n第一条　甲\n２　乙\n一　丙\nイ　丁\n第一条の二　戊".toList = .ok ls ∧
      ∀ l ∈ ls, ∀ n, numberOf l = some n → n.range_end_numbers = [] :=
  ⟨[.chapter ⟨1, [], []⟩ "総則".toList, .caption "目的".toList, .article ⟨1, [], []⟩ "甲".toList,
    .paragraph ⟨2, [], []⟩ "乙".toList, .item ⟨"一".toList, 1, [], [], .noParenKansuji⟩ "丙".toList,
    .item ⟨"イ".toList, 1, [], [], .noParenIrohaKatakana⟩ "丁".toList,
    .article ⟨1, [2], []⟩ "戊".toList], by decide +kernel, by simp [numberOf]⟩

/-- Deleted articles are usually given as a range, and then the law does not survive. -/
theorem C58_range_of_articles (d : Nat) (cal : Calendar) (fuel : Nat) (year : Usize)
    (month day : Option Usize) (lawType : LawType) (lang : Lang) (num : Option ArticleNumber)
    (lawNum : String) (title : List Char) (x : Law (lvl d))
    (h : parseText kanjiExt cal fuel "第一条から第三条まで　削除".toList year month day lawType lang num
      lawNum title = .ok (some x)) : Law.parser x.toXml ≠ .ok x := by
  obtain ⟨ls, hls, hiff⟩ := C58_law_from_text_survives d kanjiExt cal fuel _ year month day lawType
    lang num lawNum title x h
  have hl : readLines kanjiExt "第一条から第三条まで　削除".toList =
      .ok [.article ⟨1, [], [3]⟩ "削除".toList] := by decide +kernel
  rw [hl] at hls
  cases hls
  intro hk
  have := (hiff.mp hk).2 (.article ⟨1, [], [3]⟩ "削除".toList) (by simp [used, next]) _ rfl
  simp at this

/-- Such a law is built, whatever the calendar says as long as it names an era. -/
example (d : Nat) (year : Usize) (lawType : LawType) (lang : Lang) (num : Option ArticleNumber)
    (lawNum : String) (title : List Char) : ∃ x : Law (lvl d),
    parseText kanjiExt (fun _ _ _ => some (some "令和")) 2 "第一条から第三条まで　削除".toList year none
      none lawType lang num lawNum title = .ok (some x) := by
  have hls : readLines kanjiExt "第一条から第三条まで　削除".toList =
      .ok [.article ⟨1, [], [3]⟩ "削除".toList] := by decide +kernel
  obtain ⟨b, hb⟩ := (C51_termination (L := lvl d) kanjiExt title _ _ hls (by
    rintro ⟨d, n, b, hm, _⟩
    simp [meaning, next, contributes, saying] at hm)).2 (by
      rintro ⟨t, r, h⟩
      simp [leftOver, next] at h)
  refine ⟨⟨.reiwa, year, num, none, none, lawType, lang, lawNum, b⟩, ?_⟩
  simp only [parseText, Res.unwrap, Res.bind_ok, eraOfName]
  rw [hb 2 (by simp)]
  rfl

end JLaw
