import Verif.Spec.Built
import Verif.Spec.Lines

/-!
# The text of a law

How the lines of a law are written down, and which of them can be read again.
-/

namespace JLaw.Spec

/-- A character that can stand in the heading of an item. -/
def ItemChar (c : Char) : Prop :=
  ('ア'.toNat ≤ c.toNat ∧ c.toNat ≤ 'ン'.toNat) ∨ ('あ'.toNat ≤ c.toNat ∧ c.toNat ≤ 'ん'.toNat) ∨
  ('０'.toNat ≤ c.toNat ∧ c.toNat ≤ '９'.toNat) ∨ ('Ａ'.toNat ≤ c.toNat ∧ c.toNat ≤ 'Ｚ'.toNat) ∨
  ('ａ'.toNat ≤ c.toNat ∧ c.toNat ≤ 'ｚ'.toNat) ∨ c ∈ kanji ∨ c ∈ ['（', '）']

/-- A text that starts with a number and a unit, as in 第三条. -/
def StartsWithNumber (s : List Char) : Prop :=
  ∃ lead ds u r, s = lead ++ ds ++ u :: r ∧ (lead = [] ∨ lead = ['第']) ∧ AnyNumber ds ∧
    u ∈ "編章節款目条項号".toList

/-- A text that can stand in a line after a heading. -/
def Content (s : List Char) : Prop := s ≠ [] ∧ Trimmed s ∧ '\n' ∉ s

/-- The part of a line in which a heading is looked for: what comes before the first blank, or
everything but the last character when there is no blank. -/
def FirstWord (s w : List Char) : Prop :=
  (∀ c ∈ w, c ∉ blanks) ∧ ((∃ b t, s = w ++ b :: t ∧ b ∈ blanks) ∨ ∃ c, s = w ++ [c] ∧ c ∉ blanks)

/-- A line that cannot be taken for a heading: it is not in parentheses, and its first word does not
start with a digit, nor with a number and a unit, and has a character that is not used in headings
of items. -/
structure Prose (s : List Char) : Prop where
  content : Content s
  caption : ∀ t, s ≠ '（' :: t ++ ['）']
  word : ∀ w, FirstWord s w → w ≠ [] → ¬ StartsWithNumber w ∧ (∃ c ∈ w, ¬ ItemChar c) ∧
    ∀ c, w.head? = some c → ¬ ('０'.toNat ≤ c.toNat ∧ c.toNat ≤ '９'.toNat) ∧
      ¬ ('0'.toNat ≤ c.toNat ∧ c.toNat ≤ '9'.toNat)

/-- A line that is read as what it was written for. -/
def Writable (E : Ext) : TextLine → Prop
  | .caption s => s ≠ [] ∧ '）' ∉ s ∧ '\n' ∉ s
  | .part n s | .chapter n s | .section_ n s | .subsection n s | .division n s | .article n s =>
    (∀ m ∈ components n, 1 ≤ m.val ∧ m.val ≤ 9999) ∧ Content s
  | .paragraph n s => n.range_end_numbers.length ≤ 1 ∧ Content s
  | .item m s =>
    (ArticleNumber.mk m.base_number m.eda_numbers []).itemText E m.pattern = .ok m.str ∧
    m.range_end_numbers = [] ∧
    m.pattern ∈ [.noParenKansuji, .parenKansuji, .noParenIrohaKatakana, .parenIrohaKatakana,
      .parenZenkakuNum] ∧
    (m.pattern = .noParenKansuji ∨ m.pattern = .parenKansuji →
      ∀ k ∈ m.base_number :: m.eda_numbers, 1 ≤ k.val ∧ k.val ≤ 9999) ∧ Content s
  | .suppl _ => False
  | .text s => Prose s

/-- A line as text, with one blank after the heading. -/
def lineText (E : Ext) : TextLine → List Char
  | .caption s => '（' :: s ++ ['）']
  | .part n s => n.partText E ++ '　' :: s
  | .chapter n s => n.chapterText E ++ '　' :: s
  | .section_ n s => n.sectionText E ++ '　' :: s
  | .subsection n s => n.subsectionText E ++ '　' :: s
  | .division n s => n.divisionText E ++ '　' :: s
  | .article n s => n.articleText E ++ '　' :: s
  | .paragraph n s => n.paragraphText ++ '　' :: s
  | .item m s => m.str ++ '　' :: s
  | .suppl _ => ['附', '則']
  | .text s => s

/-- The heading with the number `n` in the pattern for the depth `d`. -/
def headingIn (E : Ext) (pat : Nat → ItemPattern) (d : Nat) (n : ArticleNumber) : ItemNumber :=
  ⟨match n.itemText E (pat d) with
    | .ok t => t
    | _ => [], n.base_number, n.eda_numbers, n.range_end_numbers, pat d⟩

/-- The text of a law, whose items of depth `d` have the pattern `pat d`. -/
def lawText {L : Lvl} (E : Ext) (pat : Nat → ItemPattern) (x : LawBody L) : List Char :=
  List.intercalate ['\n'] ((bodyLines (headingIn E pat) x).map (lineText E))

end JLaw.Spec
