import Verif.Stable.Gives

/-! # What readers give on clean elements: text, lines and sentences -/

namespace JLaw

variable {L : Lvl} {K : Keep L}

theorem Ruby.gives (hL : L.Reads K) {e : Element} : Gives (Ruby.parser e) (Ruby.Keeps K) := by
  unfold Ruby.parser
  gives
  assumption

macro_rules
  | `(tactic| gives_leaf) => `(tactic| with_reducible exact Ruby.gives (by assumption))

theorem QuoteStruct.gives (hL : L.Reads K) {e : Element} (he : Clean e) :
    Gives (QuoteStruct.parser e) (QuoteStruct.Keeps K) := by
  unfold QuoteStruct.parser
  gives
  assumption

macro_rules
  | `(tactic| gives_leaf) => `(tactic| with_reducible exact QuoteStruct.gives (by assumption) (by clean))

theorem ArithFormula.gives (hL : L.Reads K) {e : Element} (he : Clean e)
    (hn : e.name = "ArithFormula") : Gives (ArithFormula.parser e) (ArithFormula.Keeps K) := by
  unfold ArithFormula.parser
  have : e.attributes.get "Num" = none := by
    cases h : e.attributes.get "Num" with
    | none => rfl
    | some s =>
      obtain ⟨n, a, c⟩ := e
      obtain rfl : n = _ := hn
      exact absurd (Lossy.formula h) he.not_lossy
  simp only [getAttributeOptWithParse, this]
  exact .bind (.ok (P := (· = none)) rfl) fun _ h => .bind (hL.contents _ he) fun c hc => .ok ⟨h, hc⟩

macro_rules
  | `(tactic| gives_leaf) => `(tactic| with_reducible exact ArithFormula.gives (by assumption) (by clean) (by assumption))

theorem LineStyle.fromAttr_ne (o : Option String) : LineStyle.fromAttr o ≠ some .double := by
  unfold LineStyle.fromAttr
  split <;> simp

theorem LineContents.gives (hL : L.Reads K) (o : Element) {e : Element} (he : Clean e) :
    Gives (LineContents.elem o e) (LineContents.Keeps K) := by
  unfold LineContents.elem
  gives <;> assumption

theorem Line.gives (hL : L.Reads K) {e : Element} (he : Clean e) :
    Gives (Line.parser e) (Line.Keeps K) := by
  unfold Line.parser
  refine .ite (fun _ => ?_) fun _ => .err _
  have h := LineStyle.fromAttr_ne (e.attributes.get "Style")
  revert h
  cases LineStyle.fromAttr (e.attributes.get "Style") with
  | none => exact fun _ => .err _
  | some style =>
    intro h
    simp only [Res.ofOption, Res.bind]
    refine .bind (.mixed he.kids (fun x hx => LineContents.gives hL e hx) fun _ => trivial)
      fun l hl => .ok ⟨fun hs => h (congrArg some hs), hl⟩

macro_rules
  | `(tactic| gives_leaf) => `(tactic| with_reducible exact Line.gives (by assumption) (by clean))

theorem Gives.pushOk {α : Type} {f : α → TextElement L} {r : Res α} {P : α → Prop} (h : Gives r P)
    (hf : ∀ v, P v → (f v).Keeps K) :
    Gives (pushOk f r) fun l => ∀ c ∈ l, TextElement.Keeps K c := by
  refine .bind (.skipErr h) fun o ho => .ok ?_
  cases o with
  | none => simp
  | some v => simpa using hf v (ho v rfl)

theorem TextElement.gives (hL : L.Reads K) {c : List XMLNode} (hc : CleanKids c) {x : XMLNode}
    (hx : x ∈ c) : Gives (TextElement.ofNode x) fun l => ∀ c ∈ l, TextElement.Keeps K c := by
  unfold TextElement.ofNode
  split
  · have he := hc.elem hx
    refine .cons (fun _ => .pushOk (Ruby.gives hL) fun _ h => h) <|
      .cons (fun _ => .pushOk (Line.gives hL he) fun _ h => h) <|
      .cons (fun _ => .pushOk .any fun _ _ => trivial) <|
      .cons (fun _ => .pushOk .any fun _ _ => trivial) <| .nil <| .ok (by simp)
  · exact .ok (by simp [TextElement.Keeps])
  · exact .ok (by simp)

theorem Text.gives (hL : L.Reads K) {c : List XMLNode} (hc : CleanKids c) :
    Gives (Text.fromChildren c) (Text.Keeps K) := by
  unfold Text.fromChildren
  exact .bind (.collectRes fun x hx => TextElement.gives hL hc hx) fun l hl => .ok hl

macro_rules
  | `(tactic| gives_leaf) => `(tactic| with_reducible exact Text.gives (by assumption) (by clean))

theorem Text.new_keeps : Text.Keeps K Text.new := fun _ h => by cases h

theorem Text.ofElement_gives (hL : L.Reads K) {e : Element} (he : Clean e) :
    Gives (Text.ofElement e) (Text.Keeps K) := Text.gives hL he.kids

macro_rules
  | `(tactic| gives_leaf) => `(tactic| with_reducible exact Text.ofElement_gives (by assumption) (by clean))

theorem TextWithWritingMode.gives (hL : L.Reads K) {e : Element} (he : Clean e) :
    Gives (TextWithWritingMode.parser e) (TextWithWritingMode.Keeps K) := by
  unfold TextWithWritingMode.parser
  gives
  assumption

macro_rules
  | `(tactic| gives_leaf) => `(tactic| with_reducible exact TextWithWritingMode.gives (by assumption) (by clean))

theorem SentenceElement.gives (hL : L.Reads K) (o : Element) {e : Element} (he : Clean e) :
    Gives (SentenceElement.elem o e) (SentenceElement.Keeps K) := by
  unfold SentenceElement.elem
  gives <;> assumption

theorem Sentence.gives (hL : L.Reads K) {e : Element} (he : Clean e) :
    Gives (Sentence.parser e) (Sentence.Keeps K) := by
  unfold Sentence.parser
  refine .ite (fun _ => .bind .any fun _ _ => .bind .any fun _ _ => .bind .any fun _ _ => ?_)
    fun _ => .err _
  exact .bind (.mixed he.kids (fun x hx => SentenceElement.gives hL e hx) fun _ => trivial)
    fun l hl => .ok hl

macro_rules
  | `(tactic| gives_leaf) => `(tactic| with_reducible exact Sentence.gives (by assumption) (by clean))

end JLaw
