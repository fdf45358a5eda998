import Verif.Lemmas.Scan
import Verif.Lemmas.Kansuji

/-!
# What a text says about a number (C84)
-/

namespace JLaw

open Spec

/-! ## C84 -/

/-- C84. On every text `parse_article_number` gives what going through the text once from left to
right gives: an optional 第, the longest run of digits of one script, a unit, branch numbers, and the end
of a range if there is a complete one; without a unit the same with digits only. What follows does not
matter. -/
theorem C84_article_number (E : Ext) (s : List Char) :
    parseArticleNumber E s = Scan.articleNumber E s :=
  parseArticleNumber_scan E s

/-- A range whose end has a branch number with ノ: the crate for kanji numerals is asked about
二ノ三. -/
example : parseArticleNumber kanjiExt "第三条から第五条の二ノ三までとする".toList = .ok none := by
  rw [C84_article_number]; decide +kernel

/-- An end of a range without まで does not count. -/
example : parseArticleNumber kanjiExt "3章の１０から第4章".toList = .ok (some ⟨3, [10], []⟩) := by
  rw [C84_article_number]; decide +kernel

/-- A branch number that is too big is not an error. -/
example : parseArticleNumber kanjiExt "１条の18446744073709551616".toList = .ok none := by
  rw [C84_article_number]; decide +kernel

/-- A text that mixes the scripts. -/
example : parseArticleNumber kanjiExt "１2条".toList = .ok (some ⟨1, [], []⟩) := by
  rw [C84_article_number]; decide +kernel

end JLaw
