import Verif.Reading.Rewrite

/-!
# Reading and writing again: texts, lines, sentences, tables, lists and structures
-/

namespace JLaw

open Spec

variable {n : Nat} {α β : Type}

/-- Where the contents of a piece begin. -/
theorem element_eq {e : Element} {t t' : String} {a : Attrs} {c : List XMLNode} {l : Layout}
    (hn : e.name = t) (hl : layouts.lookup t = some l) (ht : l.tag.getD t = t')
    (ha : a = l.setAttrs e.attributes)
    (hc : c = l.parts.flatMap fun p => p.nodes (rewriteList e.children)) :
    (⟨t', a, c⟩ : Element) = rewrite e := by
  rw [rewrite_of hn hl, ht, ha, hc]

/-! ## Texts -/

theorem Ruby.fold {c : List XMLNode} {s s' : Ruby.St} (h : foldRes Ruby.step s c = .ok s') :
    s'.text.map XMLNode.text = s.text.map XMLNode.text ++ c.filter isString ∧
    s'.ruby = (((named ["Rt"] c).getLast?.map fun x => nodesText x.children).or s.ruby) := by
  induction c generalizing s with
  | nil => cases h; simp [named, elems]
  | cons x c ih =>
    rw [foldRes_cons] at h
    obtain ⟨t, ht, h⟩ := Res.bind_eq_ok.1 h
    obtain ⟨h1, h2⟩ := ih h
    cases x with
    | element m a d =>
      rw [Ruby.step] at ht
      have hc : named ["Rt"] (.element m a d :: c) =
          if m = "Rt" then ⟨m, a, d⟩ :: named ["Rt"] c else named ["Rt"] c := by
        unfold named
        rw [elems_element, List.filter_cons]
        simp
      rw [hc]
      split at ht
      · next hm =>
        cases ht
        refine ⟨by rw [h1]; rfl, ?_⟩
        rw [h2, if_pos hm, List.getLast?_cons]
        cases (named ["Rt"] c).getLast? <;> rfl
      · next hm =>
        cases ht
        exact ⟨by rw [h1]; rfl, by rw [h2, if_neg hm]⟩
    | text s =>
      cases ht
      refine ⟨?_, h2⟩
      rw [h1, List.filter_cons_of_pos rfl]
      simp
    | _ => cases ht; exact ⟨h1, h2⟩

theorem nodesText_join (c : List XMLNode) : nodesText c = String.join (c.map string) := by
  have key : ∀ (l : List String) (s : String), l.foldl (· ++ ·) s = s ++ l.foldl (· ++ ·) "" := by
    intro l
    induction l with
    | nil => simp
    | cons a l ih =>
      intro s
      rw [List.foldl_cons, List.foldl_cons, ih, ih ("" ++ a)]
      simp [String.append_assoc]
  induction c with
  | nil => rfl
  | cons x c ih =>
    have h : String.join (string x :: c.map string) = string x ++ String.join (c.map string) := by
      unfold String.join
      rw [List.foldl_cons, key, String.empty_append]
    rw [nodesText, ih, List.map_cons, h]
    cases x <;> rfl

theorem nodes_joined (c : List XMLNode) :
    Portion.joined.nodes (rewriteList c) = [.text (nodesText c)] := by
  rw [Portion.nodes, rewriteList_eq, List.map_map, nodesText_join]
  rfl

theorem filter_isString_rewrite (c : List XMLNode) :
    (c.filter isString).map rewriteNode = c.filter isString := by
  rw [List.map_congr_left (g := id), List.map_id]
  intro x hx
  have := (List.mem_filter.1 hx).2
  cases x with
  | text s => simp [rewriteNode]
  | _ => cases this

theorem Ruby.rewrites (hL : LvlRewrites n) :
    Rewrites n "Ruby" (Ruby.parser (L := lvl n)) Ruby.toXml := by
  intro e v he hn h
  have h := (ite_eq_ok h).2
  obtain ⟨s, hs, h⟩ := Res.bind_eq_ok.1 h
  obtain ⟨t, ht, h⟩ := Res.bind_eq_ok.1 h
  cases h
  obtain ⟨h1, h2⟩ := Ruby.fold hs
  refine element_eq hn (by with_unfolding_all rfl) rfl rfl ?_
  simp only [List.flatMap_cons, List.flatMap_nil, List.append_nil]
  congr 1
  · rw [hL.text _ _ ht, h1, Portion.nodes, pick_eq, filter_isString_rewrite]
    rfl
  · rw [Portion.nodes, pick_isNamed, again, List.getLast?_map, h2]
    cases hl : (named ["Rt"] e.children).getLast? with
    | none => rfl
    | some x =>
      have hx := rewrite_of (name_named (getLast?_named hl))
        (l := { parts := [.joined] }) (by with_unfolding_all rfl)
      simp only [Option.map_some, Option.some_or, Option.getD_some]
      rw [hx]
      simp only [List.flatMap_cons, List.flatMap_nil, List.append_nil, nodes_joined]
      rfl

theorem firstString_eq (c : List XMLNode) :
    Portion.firstString.nodes (rewriteList c) = [.text (firstText c)] := by
  rw [Portion.nodes, rewriteList_eq]
  cases c with
  | nil => rfl
  | cons x c => cases x <;> rfl

theorem Sup.rewrites : Rewrites n "Sup" Sup.parser Sup.toXml := by
  intro e v he hn h
  have h := (ite_eq_ok h).2
  cases h
  refine element_eq hn (by with_unfolding_all rfl) rfl rfl ?_
  simp only [List.flatMap_cons, List.flatMap_nil, List.append_nil, firstString_eq]

theorem Sub.rewrites : Rewrites n "Sub" Sub.parser Sub.toXml := by
  intro e v he hn h
  have h := (ite_eq_ok h).2
  cases h
  refine element_eq hn (by with_unfolding_all rfl) rfl rfl ?_
  simp only [List.flatMap_cons, List.flatMap_nil, List.append_nil, firstString_eq]

theorem raw_eq (hL : LvlRewrites n) {e : Element} {t : String} {c : (lvl n).Contents}
    (he : e.node.height ≤ n) (hn : e.name = t) (hl : layouts.lookup t = some mixedLayout)
    (h : (lvl n).contentsParser e = .ok c) : rawXml t c = rewrite e := by
  refine element_eq hn hl rfl rfl ?_
  simp only [mixedLayout, List.flatMap_cons, List.flatMap_nil, List.append_nil]
  exact hL.contents e c he h

theorem QuoteStruct.rewrites (hL : LvlRewrites n) :
    Rewrites n "QuoteStruct" (QuoteStruct.parser (L := lvl n)) QuoteStruct.toXml := by
  intro e v he hn h
  obtain ⟨c, hc, h⟩ := Res.bind_eq_ok.1 h
  cases h
  exact raw_eq hL he hn (by with_unfolding_all rfl) hc

theorem ArithFormula.rewrites (hL : LvlRewrites n) :
    Rewrites n "ArithFormula" (ArithFormula.parser (L := lvl n)) ArithFormula.toXml := by
  intro e v he hn h
  obtain ⟨_, -, h⟩ := Res.bind_eq_ok.1 h
  obtain ⟨c, hc, h⟩ := Res.bind_eq_ok.1 h
  cases h
  exact raw_eq hL he hn (by with_unfolding_all rfl) hc

theorem Style.rewrites (hL : LvlRewrites n) :
    Rewrites n "Style" (Style.parser (L := lvl n)) Style.toXml := by
  intro e v he hn h
  obtain ⟨c, hc, h⟩ := Res.bind_eq_ok.1 h
  cases h
  exact raw_eq hL he hn (by with_unfolding_all rfl) hc

theorem Note.rewrites (hL : LvlRewrites n) :
    Rewrites n "Note" (Note.parser (L := lvl n)) Note.toXml := by
  intro e v he hn h
  obtain ⟨c, hc, h⟩ := Res.bind_eq_ok.1 h
  cases h
  exact raw_eq hL he hn (by with_unfolding_all rfl) hc

theorem Format.rewrites (hL : LvlRewrites n) :
    Rewrites n "Format" (Format.parser (L := lvl n)) Format.toXml := by
  intro e v he hn h
  obtain ⟨c, hc, h⟩ := Res.bind_eq_ok.1 h
  cases h
  exact raw_eq hL he hn (by with_unfolding_all rfl) hc

/-- The element is read by a reader that is known. -/
syntax "rewrite_leaf" : tactic

macro_rules
  | `(tactic| rewrite_leaf) => `(tactic| with_reducible exact Sup.rewrites _ _ (Nat.le_refl _) ‹_› ‹_›)
macro_rules
  | `(tactic| rewrite_leaf) => `(tactic| with_reducible exact Sub.rewrites _ _ (Nat.le_refl _) ‹_› ‹_›)
macro_rules
  | `(tactic| rewrite_leaf) => `(tactic| with_reducible exact Ruby.rewrites ‹_› _ _ (by omega) ‹_› ‹_›)
macro_rules
  | `(tactic| rewrite_leaf) => `(tactic| with_reducible exact QuoteStruct.rewrites ‹_› _ _ (by omega) ‹_› ‹_›)
macro_rules
  | `(tactic| rewrite_leaf) => `(tactic| with_reducible exact ArithFormula.rewrites ‹_› _ _ (by omega) ‹_› ‹_›)
macro_rules
  | `(tactic| rewrite_leaf) => `(tactic| with_reducible exact Style.rewrites ‹_› _ _ (by omega) ‹_› ‹_›)
macro_rules
  | `(tactic| rewrite_leaf) => `(tactic| with_reducible exact Note.rewrites ‹_› _ _ (by omega) ‹_› ‹_›)
macro_rules
  | `(tactic| rewrite_leaf) => `(tactic| with_reducible exact Format.rewrites ‹_› _ _ (by omega) ‹_› ‹_›)

/-- The arms of an enumeration with mixed contents. -/
syntax "arms_rewrite " ident : tactic
macro_rules
  | `(tactic| arms_rewrite $d:ident) => `(tactic|
    (intro x w hx hv
     unfold $d:ident at hv
     revert hv
     arms_cases
     all_goals first
       | (intro hn h
          obtain ⟨v, hv, h⟩ := Res.bind_eq_ok.1 h
          cases h
          change Element.node _ = _
          refine congrArg Element.node ?_
          rewrite_leaf)
       | (intro h; cases h; done)))

theorem Line.rewrites (hL : LvlRewrites n) :
    Rewrites n "Line" (Line.parser (L := lvl n)) Line.toXml := by
  intro e v he hn h
  have h := (ite_eq_ok h).2
  obtain ⟨st, hst, h⟩ := Res.bind_eq_ok.1 h
  obtain ⟨c, hc, h⟩ := Res.bind_eq_ok.1 h
  cases h
  have hst : LineStyle.fromAttr (e.attributes.get "Style") = some st := by
    cases hs : LineStyle.fromAttr (e.attributes.get "Style") with
    | none => rw [hs] at hst; cases hst
    | some v => rw [hs] at hst; cases hst; rfl
  refine element_eq hn (by with_unfolding_all rfl) rfl ?_ ?_
  · simp only [Layout.setAttrs, List.foldl_cons, List.foldl_nil, apply_style hst]
    rfl
  · simp only [List.flatMap_cons, List.flatMap_nil, List.append_nil]
    exact mixed_of hc he (fun _ => rfl) (by arms_rewrite LineContents.elem)

macro_rules
  | `(tactic| rewrite_leaf) => `(tactic| with_reducible exact Line.rewrites ‹_› _ _ (by omega) ‹_› ‹_›)

theorem fine_self {x : Element} (h : x.node.height ≤ n) : Fine True n x x :=
  ⟨rfl, h, fun _ => trivial⟩

/-- A part that leaves no trace if it is not accepted. -/
theorem skipErr_of {r : Res α} {Q : Prop} {o : Option α} (hE : Exact True r Q)
    (h : r.skipErr = .ok o) : (∃ v, r = .ok v ∧ o = some v ∧ Q) ∨ (o = none ∧ ¬ Q) := by
  cases r with
  | ok v => cases h; exact .inl ⟨v, rfl, rfl, hE.sound ⟨v, rfl⟩⟩
  | err e =>
    cases h
    refine .inr ⟨rfl, fun hq => ?_⟩
    rcases hE.complete hq with ⟨_, h⟩ | ⟨_, h⟩ <;> cases h
  | panic => cases h
  | deep => cases h

theorem pushOk_of {r : Res α} {f : α → β} {Q : Prop} {l : List β} (hE : Exact True r Q)
    (h : pushOk f r = .ok l) : (∃ v, r = .ok v ∧ l = [f v] ∧ Q) ∨ (l = [] ∧ ¬ Q) := by
  obtain ⟨o, ho, h⟩ := Res.bind_eq_ok.1 h
  cases h
  rcases skipErr_of hE ho with ⟨v, hv, rfl, hq⟩ | ⟨rfl, hq⟩
  · exact .inl ⟨v, hv, rfl, hq⟩
  · exact .inr ⟨rfl, hq⟩

/-- Whether a node is kept in a text. -/
abbrev inText (x : XMLNode) : Bool :=
  isString x || isNamed ["Ruby", "Sup", "Sub"] x || (isNamed ["Line"] x && accepts x)

theorem TextElement.rewrites (hL : LvlRewrites n) {x : Element} (hx : x.node.height < n)
    {l : List (TextElement (lvl n))} (h : TextElement.ofNode x.node = .ok l) :
    l.map TextElement.toNode = if inText x.node then [(rewrite x).node] else [] := by
  rw [Element.node, TextElement.ofNode] at h
  revert h
  have hf := fine_self (Nat.le_of_lt hx)
  have hacc : inText x.node = (isNamed ["Ruby", "Sup", "Sub"] x.node ||
      (isNamed ["Line"] x.node && accepts x.node)) := by simp [inText, Element.node, isString]
  rw [hacc]
  clear hacc
  rw [matchTag_cons]
  split
  · next hn =>
    intro h
    replace hn : x.name = "Ruby" := hn
    rw [if_pos (by simp [isNamed, Element.node, hn])]
    rcases pushOk_of ((Ruby.takes (lvl_takes True n) hf hn).congr
      (iff_of_true (Exact.free hn rfl) trivial)) h with ⟨v, hv, rfl, -⟩ | ⟨-, h⟩
    · exact congrArg (fun e => [Element.node e]) (Ruby.rewrites hL x v (by omega) hn hv)
    · exact absurd trivial h
  next h1 =>
  rw [matchTag_cons]
  split
  · next hn =>
    intro h
    replace hn : x.name = "Line" := hn
    have hb : (isNamed ["Ruby", "Sup", "Sub"] x.node ||
        (isNamed ["Line"] x.node && accepts x.node)) = accepts x.node := by
      simp [isNamed, Element.node, hn]
    rw [hb]
    rcases pushOk_of (Line.takes (lvl_takes True n) hf hn) h with ⟨v, hv, rfl, hq⟩ | ⟨rfl, hq⟩
    · rw [if_pos ((accepts_iff x).2 hq)]
      exact congrArg (fun e => [Element.node e]) (Line.rewrites hL x v (by omega) hn hv)
    · rw [if_neg fun h => hq ((accepts_iff x).1 h)]
      rfl
  next h2 =>
  rw [matchTag_cons]
  split
  · next hn =>
    intro h
    replace hn : x.name = "Sup" := hn
    rw [if_pos (by simp [isNamed, Element.node, hn])]
    rw [Sup.parser, if_pos hn] at h
    cases h
    exact congrArg (fun e => [Element.node e]) (Sup.rewrites x _ (Nat.le_refl _) hn (if_pos hn))
  next h3 =>
  rw [matchTag_cons]
  split
  · next hn =>
    intro h
    replace hn : x.name = "Sub" := hn
    rw [if_pos (by simp [isNamed, Element.node, hn])]
    rw [Sub.parser, if_pos hn] at h
    cases h
    exact congrArg (fun e => [Element.node e]) (Sub.rewrites x _ (Nat.le_refl _) hn (if_pos hn))
  next h4 =>
  intro h
  cases h
  simp only at h1 h2 h3 h4
  simp [isNamed, Element.node, h1, h2, h3, h4]

theorem Text.rewrites (hL : LvlRewrites n) {c : List XMLNode} {t : Text (lvl n)}
    (hc : ∀ x ∈ elems c, x.node.height < n) (h : Text.fromChildren c = .ok t) :
    t.toChildren = Portion.text.nodes (rewriteList c) := by
  obtain ⟨l, hl, h⟩ := Res.bind_eq_ok.1 h
  cases h
  clear h
  rw [Portion.nodes, pick_eq, Text.toChildren]
  change l.map _ = (c.filter inText).map rewriteNode
  induction c generalizing l with
  | nil => cases hl; rfl
  | cons x c ih =>
    rw [collectRes_cons] at hl
    obtain ⟨a, ha, hl⟩ := Res.bind_eq_ok.1 hl
    obtain ⟨b, hb, hl⟩ := Res.bind_eq_ok.1 hl
    cases hl
    rw [List.map_append, List.filter_cons]
    cases x with
    | element m at' d =>
      have := TextElement.rewrites hL (x := ⟨m, at', d⟩) (hc _ (by simp [elems])) ha
      rw [this, ih (fun y hy => hc y (by rw [elems_element]; simp [hy])) b hb]
      rw [Element.node]
      split
      · rw [List.map_cons, ← rewriteNode_node]; rfl
      · rfl
    | text s =>
      cases ha
      rw [ih (fun y hy => hc y hy) b hb, if_pos (by simp [inText, isString])]
      simp [rewriteNode, TextElement.toNode]
    | _ =>
      cases ha
      rw [ih (fun y hy => hc y hy) b hb]
      simp [inText, isString, isNamed]

end JLaw
