import Verif.Lemmas.BuiltText

/-!
# Laws that can be built from text (C72, C73)
-/

namespace JLaw

open Spec

variable {L : Lvl}

/-! ## C72 -/

/-- C72. Every body that is built from a text has the shape that Spec/Built.lean describes. -/
theorem C72_shape (E : Ext) (fuel : Nat) (title text : List Char) (b : LawBody L)
    (h : parseBody E fuel title text = .ok (some b)) : BodyBuilt title b := by
  rw [parseBody] at h
  obtain ⟨ls, -, h⟩ := Res.bind_eq_ok.mp h
  obtain ⟨o, ho, h⟩ := Res.bind_eq_ok.mp h
  cases o with
  | none => cases h
  | some s =>
    cases h
    obtain ⟨ls', hi⟩ := bodyLoop_built fuel (bodyInv_start ls) ho
    exact finishBody_built title hi

/-- The patterns 一, イ, （１） in turn. -/
def Spec.turns (d : Nat) : ItemPattern :=
  match d % 3 with
  | 1 => .noParenKansuji
  | 2 => .noParenIrohaKatakana
  | _ => .parenZenkakuNum

theorem turns_ne (d : Nat) : turns d ≠ turns (d + 1) ∧ turns d ≠ turns (d + 2) := by
  have h : d % 3 = 0 ∨ d % 3 = 1 ∨ d % 3 = 2 := by omega
  rcases h with h | h | h
  · have h1 : (d + 1) % 3 = 1 := by omega
    have h2 : (d + 2) % 3 = 2 := by omega
    simp [turns, h, h1, h2]
  · have h1 : (d + 1) % 3 = 2 := by omega
    have h2 : (d + 2) % 3 = 0 := by omega
    simp [turns, h, h1, h2]
  · have h1 : (d + 1) % 3 = 0 := by omega
    have h2 : (d + 2) % 3 = 1 := by omega
    simp [turns, h, h1, h2]

/-- C72. A body can be built from lines other than headings of supplementary provisions exactly when
it has this shape. -/
theorem C72_exact (title : List Char) (b : LawBody L) :
    (∃ ls : List TextLine, (∀ n, TextLine.suppl n ∉ ls) ∧ ∃ fuel s,
      bodyLoop fuel {} ls = .ok (some s) ∧ finishBody title s = b) ↔ BodyBuilt title b := by
  constructor
  · rintro ⟨ls, -, fuel, s, h, rfl⟩
    obtain ⟨ls', hi⟩ := bodyLoop_built fuel (bodyInv_start ls) h
    exact finishBody_built title hi
  · intro h
    have hH : Headings (fun d n => ⟨[], n.base_number, n.eda_numbers, n.range_end_numbers, turns d⟩) turns :=
      ⟨fun _ _ => rfl, fun _ _ => rfl, turns_ne⟩
    have hr := bodyLines_read hH h _ (Nat.lt_succ_self _)
    obtain ⟨o, ho, hr⟩ := Res.bind_eq_ok.mp hr
    cases o with
    | none => cases hr
    | some s =>
      refine ⟨_, ?_, _, s, ho, ?_⟩
      · exact bodyLines_noSuppl b
      · simpa using hr

/-! ## C73 -/

/-- C73. A line of prose is read as a text: a line that is not in parentheses and whose first word
does not look like a heading. -/
theorem C73_prose (E : Ext) (s : List Char) (h : Prose s) :
    parseLineContents E s = .ok (.text s) := line_prose E h

/-- C73. So is every line whose first character is not 第, no digit, and no character of the headings
of items. -/
theorem C73_prose_head (E : Ext) (c : Char) (r : List Char) (h : Content (c :: r)) (hi : ¬ ItemChar c)
    (hd : c ≠ '第') (hn : ¬ ('0'.toNat ≤ c.toNat ∧ c.toNat ≤ '9'.toNat)) :
    Prose (c :: r) ∧ parseLineContents E (c :: r) = .ok (.text (c :: r)) := by
  have hp : Prose (c :: r) := by
    refine ⟨h, fun t he => ?_, fun w hw hwn => ?_⟩
    · simp only [List.cons_append, List.cons.injEq] at he
      exact hi (he.1 ▸ by unfold ItemChar; decide)
    · obtain ⟨d, w, rfl⟩ := List.exists_cons_of_ne_nil hwn
      have hcd : d = c := by
        rcases hw.2 with ⟨b, t, he, -⟩ | ⟨b, he, -⟩ <;>
          (simp only [List.cons_append, List.cons.injEq] at he; exact he.1.symm)
      subst hcd
      refine ⟨?_, ⟨d, by simp, hi⟩, fun x hx => ?_⟩
      · rintro ⟨lead, ds, u, t, he, hl, hds, -⟩
        have hne : ds ≠ [] := by
          rcases hds with h | h | h
          · exact h.1
          · exact h.1
          · exact h.1
        rcases hl with rfl | rfl
        · obtain ⟨x, ds, rfl⟩ := List.exists_cons_of_ne_nil hne
          simp only [List.nil_append, List.cons_append, List.cons.injEq] at he
          obtain ⟨rfl, -⟩ := he
          rcases hds with h | h | h
          · exact hn (h.2 d (by simp))
          · exact hi (.inr (.inr (.inl (h.2 d (by simp)))))
          · exact hi (.inr (.inr (.inr (.inr (.inr (.inl (h.2 d (by simp))))))))
        · simp only [List.cons_append, List.cons.injEq] at he
          exact hd he.1
      · simp only [List.head?_cons, Option.some.injEq] at hx
        subst hx
        exact ⟨fun h => hi (.inr (.inr (.inl h))), hn⟩
  exact ⟨hp, line_prose E hp⟩

/-- C73. A body of this shape is read back from its text, when the patterns of items on three
successive levels differ, and each line can be told from the other kinds of lines. -/
theorem C73_text_round_trip (E : Ext) (hE : ReadsKansuji E) (pat : Nat → ItemPattern)
    (hp : ∀ d, pat d ≠ pat (d + 1) ∧ pat d ≠ pat (d + 2)) (title : List Char) (b : LawBody L)
    (hb : BodyBuilt title b) (hw : ∀ l ∈ bodyLines (headingIn E pat) b, Writable E l)
    (fuel : Nat) (hf : (bodyLines (headingIn E pat) b).length < fuel) :
    parseBody E fuel title (lawText E pat b) = .ok (some b) := by
  have hH : Headings (headingIn E pat) pat := ⟨fun _ _ => rfl, fun _ _ => rfl, hp⟩
  rw [parseBody, lawText, readLines_lineText hE _ hw, Res.bind_ok]
  exact bodyLines_read hH hb fuel hf

/-! ## Examples -/

section Examples

/-- The lines of a law: a preamble, a chapter with an article that has a caption, two paragraphs, items
and a subitem, and a chapter that has been deleted. -/
def exampleLines : List TextLine := [
  .text "朕は、裁可する。".toList,
  .chapter ⟨1, [], []⟩ "総則".toList,
  .caption "目的".toList,
  .article ⟨1, [2], []⟩ "次のとおり定める。".toList,
  .item (headingIn kanjiExt turns 1 ⟨1, [], []⟩) "甲".toList,
  .item (headingIn kanjiExt turns 2 ⟨1, [], []⟩) "乙".toList,
  .item (headingIn kanjiExt turns 2 ⟨2, [], []⟩) "丙".toList,
  .item (headingIn kanjiExt turns 1 ⟨2, [], []⟩) "丁".toList,
  .text "但し、例外がある。".toList,
  .paragraph ⟨2, [], []⟩ "前項は、適用しない。".toList,
  .chapter ⟨2, [], []⟩ "削除".toList]

/-- What the main loop makes of these lines. -/
def exampleState : BodySt Lvl.zero :=
  match bodyLoop 12 {} exampleLines with
  | .ok (some s) => s
  | _ => {}

theorem example_read : bodyLoop 12 {} exampleLines = .ok (some exampleState) := rfl

/-- This law has the shape of C72. -/
theorem example_built : BodyBuilt "題".toList (finishBody "題".toList exampleState) :=
  (C72_exact _ _).mp ⟨exampleLines, by simp [exampleLines], 12, _, example_read, rfl⟩

theorem example_lines : bodyLines (headingIn kanjiExt turns) (finishBody "題".toList exampleState) =
    exampleLines := by
  decide +kernel

theorem example_text : lawText kanjiExt turns (finishBody "題".toList exampleState) =
    ("朕は、裁可する。\n第一章　総則\n（目的）\n第一条の二　次のとおり定める。\n一　甲\nイ　乙\nロ　丙\n二　丁\n" ++
      "但し、例外がある。\n２　前項は、適用しない。\n第二章　削除").toList := by
  rw [lawText, example_lines]
  decide +kernel

theorem example_writable : ∀ l ∈ exampleLines, Writable kanjiExt l := by
  have content : ∀ s : List Char, s ≠ [] → (∀ c ∈ s, c ∉ blanks) → Content s := fun s h1 h2 =>
    ⟨h1, ⟨fun c hc => h2 c (List.mem_of_mem_head? hc), fun c hc => h2 c (List.mem_of_mem_getLast? hc)⟩,
      fun h => h2 _ h newline_blank⟩
  have num : ∀ a ∈ [(⟨1, [], []⟩ : ArticleNumber), ⟨2, [], []⟩, ⟨1, [2], []⟩],
      ∀ m ∈ components a, 1 ≤ m.val ∧ m.val ≤ 9999 := by
    intro a ha
    simp only [List.mem_cons, List.not_mem_nil, or_false] at ha
    rcases ha with rfl | rfl | rfl <;> simp [components]
  intro l hl
  simp only [exampleLines, List.mem_cons, List.not_mem_nil, or_false] at hl
  rcases hl with rfl | rfl | rfl | rfl | rfl | rfl | rfl | rfl | rfl | rfl | rfl
  · exact (C73_prose_head kanjiExt _ _ (content _ (by decide) (by decide +kernel))
      (by unfold ItemChar; decide) (by decide) (by decide)).1
  · exact ⟨num _ (by simp), content _ (by decide) (by decide +kernel)⟩
  · exact ⟨by decide, by decide, by decide⟩
  · exact ⟨num _ (by simp), content _ (by decide) (by decide +kernel)⟩
  · exact ⟨by decide +kernel, rfl, by decide, by simp [headingIn], content _ (by decide) (by decide +kernel)⟩
  · exact ⟨by decide +kernel, rfl, by decide, by simp [headingIn], content _ (by decide) (by decide +kernel)⟩
  · exact ⟨by decide +kernel, rfl, by decide, by simp [headingIn], content _ (by decide) (by decide +kernel)⟩
  · exact ⟨by decide +kernel, rfl, by decide, by simp [headingIn], content _ (by decide) (by decide +kernel)⟩
  · exact (C73_prose_head kanjiExt _ _ (content _ (by decide) (by decide +kernel))
      (by unfold ItemChar; decide) (by decide) (by decide)).1
  · exact ⟨by decide, content _ (by decide) (by decide +kernel)⟩
  · exact ⟨num _ (by simp), content _ (by decide) (by decide +kernel)⟩

/-- The law is read back from its text. -/
example : parseBody kanjiExt 12 "題".toList
    ("朕は、裁可する。\n第一章　総則\n（目的）\n第一条の二　次のとおり定める。\n一　甲\nイ　乙\nロ　丙\n二　丁\n" ++
      "但し、例外がある。\n２　前項は、適用しない。\n第二章　削除").toList =
    .ok (some (finishBody "題".toList exampleState)) := by
  rw [← example_text]
  exact C73_text_round_trip kanjiExt kanjiExt_reads turns turns_ne _ _ example_built
    (by rw [example_lines]; exact example_writable) 12 (by rw [example_lines]; decide)

/-- The chapters, the articles and the items of this law. -/
example : document (finishBody "題".toList exampleState) ≠ [] ∧
    (finishBody "題".toList exampleState).main_provision.children.length = 2 := by
  decide +kernel

/-- A law with an article after a chapter cannot be built from text. -/
example (title : List Char) (b : LawBody L) (x : Chapter L) (y : Article L)
    (h : b.main_provision.children = [.chapter x, .article y]) :
    ¬ ∃ ls : List TextLine, (∀ n, TextLine.suppl n ∉ ls) ∧ ∃ fuel s,
      bodyLoop fuel {} ls = .ok (some s) ∧ finishBody title s = b := by
  rw [C72_exact]
  intro hb
  exact hb.order [] _ _ [] h

end Examples

end JLaw
