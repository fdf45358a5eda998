import Verif.Lemmas.BuiltUnique
import Verif.Props.Built
import Verif.Props.FromText

/-!
# The law that is built from a text (C85)
-/

namespace JLaw

open Spec

variable {L : Lvl}

/-- C85. Two laws of the shape of C72 with the same pieces are the same law. -/
theorem C85_pieces_determine_law (title : List Char) (b b' : LawBody L) (h : BodyBuilt title b)
    (h' : BodyBuilt title b') (hd : document b = document b') : b = b' := by
  have hH : Headings (fun d n => ⟨[], n.base_number, n.eda_numbers, n.range_end_numbers, turns d⟩) turns :=
    ⟨fun _ _ => rfl, fun _ _ => rfl, turns_ne⟩
  have hl : bodyLines (fun d n => ⟨[], n.base_number, n.eda_numbers, n.range_end_numbers, turns d⟩) b =
      bodyLines (fun d n => ⟨[], n.base_number, n.eda_numbers, n.range_end_numbers, turns d⟩) b' := by
    rw [← pieceLines_document h, ← pieceLines_document h', hd]
  have h1 := bodyLines_read hH h _ (Nat.lt_succ_self _)
  have h2 := bodyLines_read hH h' _ (Nat.lt_succ_self _)
  rw [hl, h2] at h1
  injection h1 with h1
  injection h1 with h1
  exact h1.symm

/-- C85. What `parse_body` builds from lines that can be read, of which none lies too deep and none is a
plain text out of place: the only law of the shape of C72 whose pieces are the meaning of the lines. -/
theorem C85_law_of_text (E : Ext) (fuel : Nat) (title text : List Char) (ls : List TextLine)
    (hls : readLines E text = .ok ls) (hd : ¬ TooDeep (meaning (L := L) start ls))
    (hs : ¬ ∃ t r, leftOver start ls = .text t :: r) (hf : ls.length < fuel) (b : LawBody L) :
    parseBody E fuel title text = .ok (some b) ↔ BodyBuilt title b ∧ document b = meaning start ls := by
  have some_of : ∀ b : LawBody L, parseBody E fuel title text = .ok (some b) →
      BodyBuilt title b ∧ document b = meaning start ls := by
    intro b hb
    obtain ⟨ls', hls', hm⟩ := C52_document E fuel title text b hb
    rw [hls] at hls'
    injection hls' with he
    subst he
    exact ⟨C72_shape E fuel title text b hb, hm⟩
  refine ⟨some_of b, fun ⟨hb, hm⟩ => ?_⟩
  obtain ⟨b', hb'⟩ := (C51_termination E title text ls hls hd).2 hs
  have hp := hb' fuel hf
  obtain ⟨h1, h2⟩ := some_of b' hp
  rw [hp, C85_pieces_determine_law title b b' hb h1 (hm.trans h2.symm)]

/-- C85. Such a law exists for every such text. -/
theorem C85_exists_unique (E : Ext) (title text : List Char) (ls : List TextLine)
    (hls : readLines E text = .ok ls) (hd : ¬ TooDeep (meaning (L := L) start ls))
    (hs : ¬ ∃ t r, leftOver start ls = .text t :: r) :
    ∃ b : LawBody L, (BodyBuilt title b ∧ document b = meaning start ls) ∧
      ∀ b' : LawBody L, BodyBuilt title b' ∧ document b' = meaning start ls → b' = b := by
  obtain ⟨b, hb⟩ := (C51_termination (L := L) E title text ls hls hd).2 hs
  have h := (C85_law_of_text E _ title text ls hls hd hs (Nat.lt_succ_self _) b).mp (hb _ (Nat.lt_succ_self _))
  exact ⟨b, h, fun b' h' => C85_pieces_determine_law title b' b h'.1 h.1 (h'.2.trans h.2.symm)⟩

/-! ## Examples -/

/-- Two articles, the second with an item: any law of the shape of C72 with these pieces is the one that is
built. -/
example (b : LawBody Lvl.zero) (h : BodyBuilt "題".toList b)
    (hd : document b = [.article [] ⟨1, [], []⟩ False, .paragraph ⟨1, [], []⟩,
      .sentence (some 1) [.string "甲"], .article [] ⟨2, [], []⟩ False, .paragraph ⟨1, [], []⟩,
      .sentence (some 1) [.string "乙"], .item 1 (some ⟨1, [], []⟩) False,
      .sentence (some 1) [.string "丙"]]) :
    parseBody kanjiExt 5 "題".toList "第一条　甲\n第二条　乙\n一　丙".toList = .ok (some b) := by
  have hls : readLines kanjiExt "第一条　甲\n第二条　乙\n一　丙".toList =
      .ok [.article ⟨1, [], []⟩ "甲".toList, .article ⟨2, [], []⟩ "乙".toList,
        .item ⟨"一".toList, 1, [], [], .noParenKansuji⟩ "丙".toList] := by
    decide +kernel
  have deleted : ∀ s, isDeleted s = false → SaysDeleted s = False := fun s hs => by
    rw [← isDeleted_eq, hs]
    simp
  have h1 := deleted "甲".toList (by decide +kernel)
  have h2 := deleted "乙".toList (by decide +kernel)
  have h3 := deleted "丙".toList (by decide +kernel)
  have hm : meaning (L := Lvl.zero) start [.article ⟨1, [], []⟩ "甲".toList, .article ⟨2, [], []⟩ "乙".toList,
        .item ⟨"一".toList, 1, [], [], .noParenKansuji⟩ "丙".toList] = document b := by
    rw [hd]
    simp only [meaning, next, start, contributes, h1, h2, h3]
    rfl
  refine (C85_law_of_text kanjiExt 5 _ _ _ hls ?_ ?_ (by decide) b).mpr ⟨h, hm.symm⟩
  · rw [hm, hd]
    rintro ⟨d, n, x, hx, hlt⟩
    simp at hx
    omega
  · rintro ⟨t, r, hr⟩
    simp [leftOver, next, start] at hr

end JLaw
