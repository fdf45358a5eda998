import Verif.Props.Settle
import Verif.Reading.SettleWritten

/-!
# Laws in XML files again and again (C90)

What becomes of a law that is written to a file, read, written, read, and so on. `Spec.settle` is what
a file keeps of a document.
-/

namespace JLaw

open Spec

/-- **C90.** A file of what is written for a law, whatever is in the law, is read exactly if the
document that is written would be read, with the same error or panic otherwise. -/
theorem C90_same_outcome (n : Nat) (x : Law (lvl n)) (hn : x.toXml.node.height ≤ n) :
    ((∃ y : Law (lvl n), Law.parser (settle x.toXml) = .ok y) ↔
      ∃ y : Law (lvl n), Law.parser x.toXml = .ok y) ∧
    (∀ E, Law.parser (L := lvl n) (settle x.toXml) = .err E ↔
      Law.parser (L := lvl n) x.toXml = .err E) ∧
    (Law.parser (L := lvl n) (settle x.toXml) = .panic ↔
      Law.parser (L := lvl n) x.toXml = .panic) := by
  have hs := settle_height hn
  have hj : judgeLaw (settle x.toXml) = judgeLaw x.toXml := by
    have h1 := judge_firm _ (written_firm x)
    rw [settleNode_node] at h1
    rw [judgeLaw, judgeLaw, h1]
    rfl
  refine ⟨?_, fun E => ?_, ?_⟩
  · rw [C78_read_iff n _ hn, C78_read_iff n _ hs, hj]
  · rw [C78_error_iff n _ hn, C78_error_iff n _ hs, hj]
  · rw [C78_panic_iff n _ hn, C78_panic_iff n _ hs, hj]

/-- In a file of a law that has been read, no text is cut in two. -/
theorem read_whole {n : Nat} {e : Element} (hn : e.node.height ≤ n) (hc : Clean e) {y : Law (lvl n)}
    (h : Law.parser e = .ok y) : WholeTexts (settle y.toXml) := by
  have hj := (C78_read_iff n e hn).1 ⟨y, h⟩
  have hj : judge e.node = .fine := by
    rw [judgeLaw] at hj
    split at hj
    · exact hj
    · cases hj
  have hh := rewrite_held e.node hj hc
  rw [Element.node, rewriteNode, show rebuild e.name e.attributes (rewriteList e.children) = rewrite e
    from rfl, ← C77_law_rewritten n e hn y h] at hh
  intro t a c hw
  rw [← settleNode_node] at hw
  exact settle_whole hh (written_firm y) hw

/-- **C90.** A law that has been read from a document in which nothing is lossy is read from a file of
what is written for it, and what is read then no longer changes, however often it is written to a file
and read. -/
theorem C90_read_twice (n : Nat) (e : Element) (hn : e.node.height + 2 ≤ n) (hc : Clean e)
    (y : Law (lvl n)) (h : Law.parser e = .ok y) :
    ∃ z : Law (lvl n), Law.parser (settle y.toXml) = .ok z ∧ Law.parser (settle z.toXml) = .ok z := by
  have hn0 : e.node.height ≤ n := by omega
  have hx := C77_law_rewritten n e hn0 y h
  have hh : y.toXml.node.height + 1 ≤ n := by
    have := height_rewrite e
    rw [← hx] at this
    omega
  obtain ⟨z, hz⟩ := (C90_same_outcome n y (by omega)).1.2 ⟨y, C59_clean_law_stable n e y hc h⟩
  have hs : (settle y.toXml).node.height + 1 ≤ n := by
    have := height_settle y.toXml.node
    rw [settleNode_node] at this
    omega
  exact ⟨z, hz, C88_read_written n _ hs (settle_settled _) (settle_plain (written_plain y))
    (read_whole hn0 hc h) (settle_clean (C68_written_clean n y)) z hz⟩

/-- **C90.** So files settle for every law, whatever is in it: if it can be read from its file at all,
what is read from the second file is what is read from the third. -/
theorem C90_files_settle (n : Nat) (x y : Law (lvl n)) (hn : x.toXml.node.height + 2 ≤ n)
    (h : Law.parser (settle x.toXml) = .ok y) :
    ∃ z : Law (lvl n), Law.parser (settle y.toXml) = .ok z ∧ Law.parser (settle z.toXml) = .ok z := by
  refine C90_read_twice n _ ?_ (settle_clean (C68_written_clean n x)) y h
  have := height_settle x.toXml.node
  rw [settleNode_node] at this
  omega

/-- **C90.** The first file settles a law that has been read from a document in which nothing is
lossy: what is read from it is what is read from the second. -/
theorem C90_first_file (n : Nat) (e : Element) (hn : e.node.height + 2 ≤ n) (hc : Clean e)
    (y z : Law (lvl n)) (h : Law.parser e = .ok y) (hz : Law.parser (settle y.toXml) = .ok z) :
    Law.parser (settle z.toXml) = .ok z := by
  obtain ⟨w, h1, h2⟩ := C90_read_twice n e hn hc y h
  rw [h1] at hz
  cases hz
  exact h2

/-- The law that is read from the `k`-th file, each file written for the law read from the one
before. -/
def throughFiles {n : Nat} (x : Law (lvl n)) : Nat → Res (Law (lvl n))
  | 0 => .ok x
  | k + 1 => (throughFiles x k).bind fun y => Law.parser (settle y.toXml)

theorem throughFiles_stays {n : Nat} {x z : Law (lvl n)} {k : Nat} (h : throughFiles x k = .ok z)
    (hz : Law.parser (settle z.toXml) = .ok z) : ∀ m, k ≤ m → throughFiles x m = .ok z := by
  intro m hm
  induction hm with
  | refl => exact h
  | step _ ih => rw [throughFiles, ih]; exact hz

/-- **C90.** From the second file on nothing changes any more. -/
theorem C90_through_files (n : Nat) (x : Law (lvl n)) (hn : x.toXml.node.height + 2 ≤ n) (k : Nat)
    (hk : 2 ≤ k) : throughFiles x k = throughFiles x 2 := by
  have h1 : throughFiles x 1 = Law.parser (settle x.toXml) := rfl
  cases hr : Law.parser (L := lvl n) (settle x.toXml) with
  | ok y =>
    obtain ⟨z, hz, hz'⟩ := C90_files_settle n x y hn hr
    have h2 : throughFiles x 2 = .ok z := by rw [throughFiles, h1, hr]; exact hz
    rw [h2]
    exact throughFiles_stays h2 hz' k hk
  | _ =>
    have key : ∀ m, throughFiles x (m + 1) = Law.parser (settle x.toXml) := by
      intro m
      induction m with
      | zero => exact h1
      | succ m ih => rw [throughFiles, ih, hr]; rfl
    obtain ⟨j, rfl⟩ : ∃ j, k = j + 1 := ⟨k - 1, by omega⟩
    rw [key, key]

/-! ## Examples -/

/-- A law whose title is the given text. -/
def titled (t : Text (lvl 12)) : Law (lvl 12) :=
  { era := .reiwa, year := 5, num := some ⟨1, [], []⟩, promulgate_month := none,
    promulgate_day := none, law_type := .act, lang := .ja, law_num := "令和五年法律第一号",
    law_body :=
      { law_title := some ⟨none, none, none, t⟩, enact_statement := [], subject := none,
        toc := none, preamble := none, main_provision := ⟨[], none⟩, suppl_provision := [],
        appdx_table := [], appdx_note := [], appdx_style := [], appdx := [], appdx_fig := [],
        appdx_format := [] } }

/-- A ruby whose base has a superscript in it. -/
def rubyTitle : Text (lvl 12) :=
  ⟨[.ruby ⟨(⟨[.text "甲", .sup ⟨"乙"⟩, .text "丙"]⟩ : Text (lvl 11)), "よみ"⟩]⟩

/-- **C90.** One file is not enough: what is read from the second file can differ from what is read
from the first. The superscript in the base of the ruby is lost in the first file, and the texts
around it become one in the second. -/
theorem C90_second_needed :
    ∃ x y z : Law (lvl 12), x.toXml.node.height + 2 ≤ 12 ∧ throughFiles x 1 = .ok y ∧
      throughFiles x 2 = .ok z ∧ y ≠ z := by
  have hh : (titled rubyTitle).toXml.node.height + 2 ≤ 12 := by decide +kernel
  obtain ⟨y, hy⟩ := isRead_iff.1
    (by decide +kernel : isRead 12 (settle (titled rubyTitle).toXml) = true)
  obtain ⟨z, hz, -⟩ := C90_files_settle 12 _ y hh hy
  have hy1 : throughFiles (titled rubyTitle) 1 = .ok y := hy
  refine ⟨titled rubyTitle, y, z, hh, hy1, by rw [throughFiles, hy1]; exact hz, fun h => ?_⟩
  subst h
  have h1 := C77_law_rewritten 12 _ (settle_height (by omega)) y hy
  have hyh : y.toXml.node.height ≤ 12 := by rw [h1]; decide +kernel
  have h2 := C77_law_rewritten 12 _ (settle_height hyh) y hz
  rw [h1] at h2
  exact absurd (congrArg (fun e : Element => textsIn e.node) h2) (by decide +kernel)

/-- `C90_same_outcome` at a law that is not read from its file: it has no number. -/
example : (({ titled ⟨[]⟩ with num := none } : Law (lvl 12)).toXml.node.height ≤ 12) ∧
    Law.parser (L := lvl 12) (settle ({ titled ⟨[]⟩ with num := none } : Law (lvl 12)).toXml) = .panic :=
  ⟨by decide +kernel, (C90_same_outcome 12 _ (by decide +kernel)).2.2.2
    (C28_law_without_number_panics 12 _ rfl)⟩

/-- The node is an element of a kind of which nothing is lossy but a number, and the number is 1. -/
def cleanHere : XMLNode → Bool
  | .element n a _ => !riskyTags.contains n ||
      (["Law", "Article", "Paragraph"].contains n && a.get "Num" == some "1")
  | _ => true

theorem clean_of {e : Element} (h : everywhere cleanHere e.node = true) : Clean e := by
  intro x hx hl
  have h := everywhere_spec hx h
  cases x with
  | element n a c =>
    simp only [cleanHere, Bool.or_eq_true, Bool.not_eq_true', Bool.and_eq_true, beq_iff_eq] at h
    rcases h with h | ⟨hn, ha⟩
    · have := hl.risky
      rw [← List.contains_iff_mem, h] at this
      cases this
    · have hg : GoodNumber "1" :=
        (by decide +kernel : ArticleNumber.numStr ⟨1, [], []⟩ = "1") ▸ goodNumber_numStr _
      cases hl with
      | number _ h1 h2 => rw [ha] at h1; cases h1; exact h2 hg
      | tag h1 =>
        simp only [lostTags, List.mem_cons, List.not_mem_nil, or_false] at h1
        rcases h1 with rfl | rfl | rfl <;> exact absurd hn (by decide)
      | _ => exact absurd hn (by decide)
  | _ => cases hl

/-- `C90_read_twice` and `C90_first_file` at a document of a file with a text that is cut in two and a
comment: the first file changes the law. -/
example : ∀ e ∈ [texted [.text "甲", plainNode "QuoteStruct" [], .text "乙"] [],
      texted [] [.text "甲", .comment "注", .text "乙"]],
    e.node.height + 2 ≤ 12 ∧ Clean e ∧ isRead 12 e = true ∧ LostInFile e := by
  intro e he
  have hl := (C88_conditions_needed.2.2 e (by
    simp only [List.mem_cons, List.not_mem_nil, or_false] at he ⊢
    rcases he with rfl | rfl <;> simp)).2
  simp only [List.mem_cons, List.not_mem_nil, or_false] at he
  rcases he with rfl | rfl
  all_goals exact ⟨by decide +kernel, clean_of (by decide +kernel), by decide +kernel, hl⟩

end JLaw
