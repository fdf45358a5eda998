import Verif.Reading.Settle
import Verif.Spec.XmlText

/-!
# Reading XML texts that have been written
-/

namespace JLaw

open Spec

/-! ## Strings -/

theorem escape_append (s t : List Char) : escape (s ++ t) = escape s ++ escape t :=
  List.flatMap_append

theorem unescape_char (c : Char) (r : List Char) :
    unescape (escapeChar c ++ r) = (unescape r).map (c :: ·) := by
  unfold escapeChar
  split
  · next h => subst h; exact unescape.eq_2 r
  split
  · next h => subst h; exact unescape.eq_3 r
  split
  · next h => subst h; exact unescape.eq_4 r
  split
  · next h => subst h; exact unescape.eq_5 r
  · next h _ _ _ =>
    rw [List.singleton_append, unescape.eq_6 _ _ (fun _ hc => absurd hc h) (fun _ hc => absurd hc h)
      (fun _ hc => absurd hc h) (fun _ hc => absurd hc h), if_neg h]

theorem unescape_escape (s : List Char) : unescape (escape s) = some s := by
  induction s with
  | nil => rfl
  | cons c s ih => rw [escape, List.flatMap_cons, unescape_char]; exact congrArg _ ih

theorem mem_escape {s : List Char} {c : Char} (h : c ∈ escape s) : c ≠ '<' ∧ c ≠ '"' := by
  obtain ⟨d, -, hd⟩ := List.mem_flatMap.1 h
  clear h
  unfold escapeChar at hd
  split at hd
  · revert hd c; decide
  split at hd
  · revert hd c; decide
  split at hd
  · revert hd c; decide
  split at hd
  · revert hd c; decide
  · next h1 _ h2 =>
    cases List.mem_singleton.1 hd
    exact ⟨by assumption, h2⟩

theorem mem_indent {level : Nat} {c : Char} (h : c ∈ indent level) : c = '\n' ∨ c = ' ' := by
  rcases List.mem_cons.1 h with h | h
  · exact .inl h
  · exact .inr (List.eq_of_mem_replicate h)

theorem escape_indent (level : Nat) : escape (indent level) = indent level := by
  have h : ∀ l : List Char, (∀ c ∈ l, c = '\n' ∨ c = ' ') → escape l = l := by
    intro l
    induction l with
    | nil => intro _; rfl
    | cons c l ih =>
      intro hl
      rw [escape, List.flatMap_cons]
      have hi : l.flatMap escapeChar = l := ih fun d hd => hl d (List.mem_cons_of_mem _ hd)
      rw [hi]
      rcases hl c List.mem_cons_self with rfl | rfl <;> rfl
  exact h _ fun c hc => mem_indent hc

theorem blank_indent (level : Nat) : blank (String.ofList (indent level)) = true := by
  rw [blank, String.toList_ofList, List.all_eq_true]
  intro c hc
  rcases mem_indent hc with rfl | rfl <;> rfl

theorem textNode_indent (level : Nat) : textNode (indent level) = [] := by
  rw [textNode, if_pos (blank_indent level)]

theorem textNode_nil : textNode [] = [] := rfl

/-! ## Runs of texts -/

/-- The nodes as they are found in a file, after a text that has been begun. -/
def tidyFrom (s : List Char) : List XMLNode → List XMLNode
  | [] => textNode s
  | .text t :: c => tidyFrom (s ++ t.toList) c
  | x :: c => textNode s ++ x :: tidyFrom [] c

theorem tidy_text_text (s t : String) (c : List XMLNode) :
    tidy (.text s :: .text t :: c) = tidy (.text (s ++ t) :: c) := by
  simp only [tidy, joinTexts_cons_text]
  cases hj : joinTexts c with
  | nil => rfl
  | cons x d => cases x <;> simp [String.append_assoc]

theorem tidy_text_other {s : List Char} {x : XMLNode} (hx : isString x = false) (c : List XMLNode) :
    tidy (.text (String.ofList s) :: x :: c) = textNode s ++ x :: tidy c := by
  have hb : isBlank x = false := by cases x <;> first | rfl | cases hx
  simp only [tidy, joinTexts_cons_text, joinTexts_cons_other hx]
  rw [textNode]
  cases x <;> by_cases h : blank (String.ofList s) <;> simp_all [isBlank, isString]

theorem tidy_text_nil (s : List Char) : tidy [.text (String.ofList s)] = textNode s := by
  rw [textNode]
  by_cases h : blank (String.ofList s) <;> simp [tidy, joinTexts, isBlank, h]

theorem tidyFrom_eq (c : List XMLNode) (s : List Char) :
    tidyFrom s c = tidy (.text (String.ofList s) :: c) ∧ tidyFrom [] c = tidy c := by
  induction c generalizing s with
  | nil => exact ⟨(tidy_text_nil s).symm, rfl⟩
  | cons x c ih =>
    cases x with
    | text t =>
      refine ⟨?_, ?_⟩
      · rw [tidyFrom, (ih _).1, tidy_text_text]
        congr 3
        rw [String.ofList_append, String.ofList_toList]
      · rw [tidyFrom, (ih _).1, List.nil_append, String.ofList_toList]
    | _ =>
      refine ⟨?_, ?_⟩
      · rw [tidy_text_other rfl, ← (ih []).2, tidyFrom]
        nofun
      · rw [tidyFrom, (ih []).2, textNode_nil, List.nil_append]
        · simp [tidy, joinTexts, isBlank]
        · nofun

/-! ## Steps -/

theorem readChars_append (q : Reader) (a b : List Char) :
    readChars q (a ++ b) = (readChars q a).bind fun q' => readChars q' b := by
  unfold readChars
  exact List.foldlM_append

theorem readChars_cons (q : Reader) (c : Char) (b : List Char) :
    readChars q (c :: b) = (readChar q c).bind fun q' => readChars q' b := rfl

theorem readChars_text (st : List Frame) (r : Option Element) (l : List Char) :
    ∀ raw, (∀ c ∈ l, c ≠ '<') →
      readChars ⟨st, r, .text raw⟩ l = some ⟨st, r, .text (raw ++ l)⟩ := by
  induction l with
  | nil => intro raw _; rw [List.append_nil]; rfl
  | cons c l ih =>
    intro raw h
    rw [readChars_cons, readChar]
    simp only [if_neg (h c List.mem_cons_self), Option.bind_some]
    rw [ih _ fun d hd => h d (List.mem_cons_of_mem _ hd), List.append_assoc, List.singleton_append]

theorem alnum_ne {c d : Char} (h : c.isAlphanum = true) (hd : d.isAlphanum = false) : c ≠ d := by
  rintro rfl
  rw [h] at hd
  cases hd

theorem readChars_start (st : List Frame) (r : Option Element) (l : List Char) :
    ∀ n, (∀ c ∈ l, c.isAlphanum = true) →
      readChars ⟨st, r, .start n⟩ l = some ⟨st, r, .start (n ++ l)⟩ := by
  induction l with
  | nil => intro n _; rw [List.append_nil]; rfl
  | cons c l ih =>
    intro n h
    have hc := h c List.mem_cons_self
    have h1 : c ≠ '/' := alnum_ne hc (by decide)
    have h2 : c ≠ ' ' := alnum_ne hc (by decide)
    have h3 : c ≠ '>' := alnum_ne hc (by decide)
    rw [readChars_cons, readChar]
    simp only [h1, h2, h3, and_false, if_false, Option.bind_some]
    rw [ih _ fun d hd => h d (List.mem_cons_of_mem _ hd), List.append_assoc, List.singleton_append]

theorem readChars_close (st : List Frame) (r : Option Element) (l : List Char) :
    ∀ n, (∀ c ∈ l, c.isAlphanum = true) →
      readChars ⟨st, r, .close n⟩ l = some ⟨st, r, .close (n ++ l)⟩ := by
  induction l with
  | nil => intro n _; rw [List.append_nil]; rfl
  | cons c l ih =>
    intro n h
    have h3 : c ≠ '>' := alnum_ne (h c List.mem_cons_self) (by decide)
    rw [readChars_cons, readChar]
    simp only [h3, if_false, Option.bind_some]
    rw [ih _ fun d hd => h d (List.mem_cons_of_mem _ hd), List.append_assoc, List.singleton_append]

theorem readChars_key (st : List Frame) (r : Option Element) (n : String) (a : Attrs) (l : List Char) :
    ∀ k, (∀ c ∈ l, c.isAlphanum = true) →
      readChars ⟨st, r, .key n a k⟩ l = some ⟨st, r, .key n a (k ++ l)⟩ := by
  induction l with
  | nil => intro n _; rw [List.append_nil]; rfl
  | cons c l ih =>
    intro k h
    have h3 : c ≠ '=' := alnum_ne (h c List.mem_cons_self) (by decide)
    rw [readChars_cons, readChar]
    simp only [h3, if_false, Option.bind_some]
    rw [ih _ fun d hd => h d (List.mem_cons_of_mem _ hd), List.append_assoc, List.singleton_append]

theorem readChars_value (st : List Frame) (r : Option Element) (n : String) (a : Attrs) (k : String)
    (l : List Char) : ∀ raw, (∀ c ∈ l, c ≠ '"') →
      readChars ⟨st, r, .value n a k raw⟩ l = some ⟨st, r, .value n a k (raw ++ l)⟩ := by
  induction l with
  | nil => intro n _; rw [List.append_nil]; rfl
  | cons c l ih =>
    intro raw h
    rw [readChars_cons, readChar]
    simp only [if_neg (h c List.mem_cons_self), Option.bind_some]
    rw [ih _ fun d hd => h d (List.mem_cons_of_mem _ hd), List.append_assoc, List.singleton_append]

/-- One attribute. -/
theorem readChars_attr (st : List Frame) (r : Option Element) (n : String) (a : Attrs)
    (p : String × String) (hp : SimpleName p.1) (rest : List Char) :
    readChars ⟨st, r, .attrs n a⟩
        ((' ' :: p.1.toList ++ '=' :: '"' :: escape p.2.toList ++ ['"']) ++ rest) =
      readChars ⟨st, r, .attrs n (a ++ [p])⟩ rest := by
  obtain ⟨hne, hal⟩ := hp
  cases hk : p.1.toList with
  | nil => exact absurd hk hne
  | cons c k =>
    have hall : ∀ d ∈ c :: k, d.isAlphanum = true := fun d hd => hal d (hk ▸ hd)
    have hc := hall c List.mem_cons_self
    have h1 : c ≠ '/' := alnum_ne hc (by decide)
    have h2 : c ≠ ' ' := alnum_ne hc (by decide)
    have h3 : c ≠ '>' := alnum_ne hc (by decide)
    have hstr : String.ofList (c :: k) = p.1 := by rw [← hk, String.ofList_toList]
    simp only [List.cons_append, List.append_assoc, List.nil_append]
    rw [readChars_cons, readChar]
    simp only [if_true, Option.bind_some]
    rw [readChars_cons, readChar]
    simp only [h1, h2, h3, if_false, Option.bind_some]
    rw [readChars_append, readChars_key _ _ _ _ _ _ fun d hd => hall d (List.mem_cons_of_mem _ hd),
      Option.bind_some, readChars_cons, readChar]
    simp only [if_true, Option.bind_some, List.singleton_append, hstr]
    rw [readChars_cons, readChar]
    simp only [if_true, Option.bind_some]
    rw [readChars_append, readChars_value _ _ _ _ _ _ _ fun d hd => (mem_escape hd).2,
      Option.bind_some, readChars_cons, readChar]
    simp only [if_true, List.nil_append, unescape_escape, Option.bind_some, String.ofList_toList]

theorem readChars_attrs (st : List Frame) (r : Option Element) (n : String) (b : Attrs)
    (hb : ∀ p ∈ b, SimpleName p.1) (rest : List Char) :
    ∀ a, readChars ⟨st, r, .attrs n a⟩ (writeAttrs b ++ rest) =
      readChars ⟨st, r, .attrs n (a ++ b)⟩ rest := by
  induction b with
  | nil => intro a; rw [List.append_nil]; rfl
  | cons p b ih =>
    intro a
    rw [writeAttrs, List.flatMap_cons, List.append_assoc,
      readChars_attr _ _ _ _ p (hb p List.mem_cons_self)]
    rw [show b.flatMap _ = writeAttrs b from rfl, ih fun q hq => hb q (List.mem_cons_of_mem _ hq),
      List.append_assoc, List.singleton_append]

/-- After the name of a tag, the attributes and a blank or `>`. -/
theorem readChars_tag (st : List Frame) (n : String) (b : Attrs) (hb : ∀ p ∈ b, SimpleName p.1)
    (hn : SimpleName n) {c : Char} (hc : c = ' ' ∨ c = '>') (rest : List Char) :
    readChars ⟨st, none, .start []⟩ (n.toList ++ (writeAttrs b ++ c :: rest)) =
      readChars ⟨st, none, .attrs n b⟩ (c :: rest) := by
  rw [readChars_append, readChars_start _ _ _ _ hn.2, Option.bind_some, List.nil_append]
  cases b with
  | nil =>
    rw [writeAttrs, List.flatMap_nil, List.nil_append, readChars_cons, readChars_cons]
    simp only [readChar, String.ofList_toList]
    rcases hc with rfl | rfl <;> simp
  | cons p b =>
    have h : readChars ⟨st, none, .start n.toList⟩ (writeAttrs (p :: b) ++ c :: rest) =
        readChars ⟨st, none, .attrs n []⟩ (writeAttrs (p :: b) ++ c :: rest) := by
      rw [writeAttrs, List.flatMap_cons]
      simp only [List.cons_append, List.append_assoc]
      rw [readChars_cons, readChars_cons]
      simp [readChar, String.ofList_toList]
    rw [h, readChars_attrs _ _ _ _ hb, List.nil_append]

theorem readChars_lt {st st' : List Frame} {raw s : List Char} (hu : unescape raw = some s)
    (ha : addText s st = some st') (rest : List Char) :
    readChars ⟨st, none, .text raw⟩ ('<' :: rest) = readChars ⟨st', none, .start []⟩ rest := by
  rw [readChars_cons, readChar]
  simp [hu, ha]

/-! ## Documents -/

/-- A node that the writer can write. -/
def Writable : XMLNode → Prop
  | .element n a _ => SimpleName n ∧ ∀ p ∈ a, SimpleName p.1
  | .text _ => True
  | _ => False

mutual
theorem readChars_node : ∀ (n : String) (a : Attrs) (c : List XMLNode),
    (∀ y, Within y (.element n a c) → Writable y) → ∀ (level : Nat) (st st' : List Frame)
      (raw s : List Char), unescape raw = some s → addText s st = some st' →
      readChars ⟨st, none, .text raw⟩ (writeNode level (.element n a c)) =
        addElement (settle ⟨n, a, c⟩) st'
  | n, a, [], h, level, st, st', raw, s, hu, ha => by
    obtain ⟨hn, hb⟩ := h _ .refl
    simp only [writeNode, List.cons_append, List.append_assoc]
    rw [readChars_lt hu ha]
    show readChars _ (n.toList ++ (writeAttrs a ++ ' ' :: ['/', '>'])) = _
    rw [readChars_tag _ _ _ hb hn (.inl rfl)]
    simp only [readChars_cons, readChar, if_true, Option.bind_some]
    cases st' <;> rfl
  | n, a, x :: c, h, level, st, st', raw, s, hu, ha => by
    obtain ⟨hn, hb⟩ := h _ .refl
    have hc : ∀ z ∈ x :: c, ∀ y, Within y z → Writable y :=
      fun z hz y hy => h y (.child _ _ _ z hz hy)
    simp only [writeNode, List.cons_append, List.append_assoc]
    rw [readChars_lt hu ha, readChars_tag _ _ _ hb hn (.inr rfl), readChars_cons]
    obtain ⟨ch, s', raw', h1, h2, h3⟩ :=
      readChars_nodes (x :: c) hc (level + 1) false ⟨n, a, []⟩ st' [] (fun _ => rfl)
    have hq : readChar ⟨st', none, .attrs n a⟩ '>' = some ⟨⟨n, a, []⟩ :: st', none, .text (escape [])⟩ := by
      simp [readChar, escape]
    rw [hq, Option.bind_some, readChars_append, h2, Option.bind_some]
    show readChars _ ('<' :: '/' :: (n.toList ++ ['>'])) = _
    rw [readChars_lt h1 rfl, readChars_cons]
    simp only [readChar, and_self, if_true, Option.bind_some]
    rw [readChars_append, readChars_close _ _ _ _ hn.2, Option.bind_some, readChars_cons]
    simp only [readChar, if_true, List.nil_append, String.ofList_toList, h3]
    rw [(tidyFrom_eq _ []).2]
    cases st' <;> rfl
theorem readChars_nodes : ∀ (c : List XMLNode), (∀ x ∈ c, ∀ y, Within y x → Writable y) →
    ∀ (level : Nat) (afterText : Bool) (f : Frame) (st : List Frame) (s : List Char),
      (afterText = false → s = []) → ∃ ch s' raw', unescape raw' = some s' ∧
        readChars ⟨f :: st, none, .text (escape s)⟩ (writeNodes level afterText c) =
          some ⟨⟨f.name, f.attributes, ch⟩ :: st, none, .text raw'⟩ ∧
        ch ++ textNode s' = f.children ++ tidyFrom s (settleEach c)
  | [], _, level, true, f, st, s, _ => by
    refine ⟨f.children, s, escape s, unescape_escape s, rfl, rfl⟩
  | [], _, level, false, f, st, s, hs => by
    cases hs rfl
    refine ⟨f.children, indent (level - 1), indent (level - 1), ?_, ?_, ?_⟩
    · have := unescape_escape (indent (level - 1))
      rwa [escape_indent] at this
    · rw [writeNodes]
      exact readChars_text _ _ _ _ fun c hc => by
        rcases mem_indent hc with rfl | rfl <;> decide
    · rw [textNode_indent]
      rfl
  | .text t :: c, h, level, b, f, st, s, _ => by
    obtain ⟨ch, s', raw', h1, h2, h3⟩ := readChars_nodes c
      (fun x hx => h x (List.mem_cons_of_mem _ hx)) level true f st (s ++ t.toList) nofun
    refine ⟨ch, s', raw', h1, ?_, h3⟩
    rw [writeNodes, readChars_append, readChars_text _ _ _ _ fun d hd => (mem_escape hd).1,
      Option.bind_some, ← escape_append]
    exact h2
  | .element n a d :: c, h, level, b, f, st, s, hs => by
    have hx : ∀ y, Within y (.element n a d) → Writable y := h _ List.mem_cons_self
    have hd := readChars_node n a d hx level
    obtain ⟨ch, s', raw', h1, h2, h3⟩ := readChars_nodes c
      (fun x hx => h x (List.mem_cons_of_mem _ hx)) level false
      ⟨f.name, f.attributes, f.children ++ textNode s ++ [(settle ⟨n, a, d⟩).node]⟩ st []
      (fun _ => rfl)
    refine ⟨ch, s', raw', h1, ?_, ?_⟩
    · rw [writeNodes, List.append_assoc, readChars_append]
      have key : ∀ raw t, unescape raw = some t → textNode t = textNode s →
          readChars ⟨f :: st, none, .text raw⟩ (writeNode level (.element n a d) ++ writeNodes level false c)
            = some ⟨⟨f.name, f.attributes, ch⟩ :: st, none, .text raw'⟩ := by
        intro raw t hu ht
        rw [readChars_append, hd (f :: st) _ raw t hu rfl]
        simp only [addElement, Option.bind_some, ht]
        exact h2
      cases b with
      | true =>
        simp only [if_true]
        exact key _ s (unescape_escape s) rfl
      | false =>
        cases hs rfl
        simp only [Bool.false_eq_true, if_false]
        rw [readChars_text _ _ _ _ fun c hc => by
          rcases mem_indent hc with rfl | rfl <;> decide]
        refine key _ (indent level) ?_ (by rw [textNode_indent, textNode_nil])
        have := unescape_escape (indent level)
        rwa [escape_indent] at this
    · rw [h3]
      simp [settleEach, settleNode, tidyFrom, Element.node, settle]
  | .comment _ :: _, h, _, _, _, _, _, _ => (h _ List.mem_cons_self _ .refl).elim
  | .cdata _ :: _, h, _, _, _, _, _, _ => (h _ List.mem_cons_self _ .refl).elim
  | .processingInstruction _ _ :: _, h, _, _, _, _, _, _ => (h _ List.mem_cons_self _ .refl).elim
end

theorem readXml_writeXml {e : Element} (h : ∀ y, Within y e.node → Writable y) :
    readXml (writeXml e) = some (settle e) := by
  have hd : afterDeclaration (writeXml e) = indent 0 ++ writeNode 0 e.node := rfl
  have hi : unescape (indent 0) = some (indent 0) := rfl
  rw [readXml, hd, readChars_append, readChars_text _ _ _ _ fun c hc => by
    rcases mem_indent hc with rfl | rfl <;> decide, Option.bind_some, List.nil_append,
    show e.node = .element e.name e.attributes e.children from rfl,
    readChars_node e.name e.attributes e.children h 0 [] [] _ _ hi (by rw [addText, if_pos (blank_indent 0)])]
  rfl

end JLaw
