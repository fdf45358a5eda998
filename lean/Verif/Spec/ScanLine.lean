import Verif.Spec.Scan
import Verif.Spec.ScanItem
import Verif.Spec.Lines
import Verif.Model.FromText

/-!
# What a line of a text says

The reading of one line without patterns: what is taken for the heading of the line, and what the heading
makes of it. Of the model only the type of what is read is used.
-/

namespace JLaw.Spec.Scan

/-- What is taken for the heading of a line `t` of two or more characters, and the text after it: what is
before the first blank, and without blanks everything but the last character. -/
def HeadingOf (t h u : List Char) : Prop :=
  h ≠ [] ∧ (∀ c ∈ h, c ∉ blanks) ∧
    ((∃ c, c ∉ blanks ∧ t = h ++ [c] ∧ u = [c]) ∨
      ∃ bs, bs ≠ [] ∧ Blank bs ∧ t = h ++ bs ++ u ∧ u ≠ [] ∧ ∀ c, u.head? = some c → c ∉ blanks)

/-- A line that consists of something in parentheses. -/
def IsCaption (t s : List Char) : Prop := t = '（' :: s ++ ['）'] ∧ s ≠ [] ∧ '）' ∉ s

/-- What a heading with a number stands for: the first of the units that occurs anywhere in it decides, and a
heading without one is a paragraph. -/
def unitLine (h : List Char) (n : ArticleNumber) (u : List Char) : TextLine :=
  match ['編', '章', '節', '款', '目', '条'].find? (· ∈ h) with
  | some '編' => .part n u
  | some '章' => .chapter n u
  | some '節' => .section_ n u
  | some '款' => .subsection n u
  | some '目' => .division n u
  | some '条' => .article n u
  | _ => .paragraph n u

/-- What the line `t`, without blanks at its ends, says. -/
inductive LineSays (E : Ext) (t : List Char) : Res TextLine → Prop
  /-- something in parentheses -/
  | caption (s : List Char) : IsCaption t s → LineSays E t (.ok (.caption s))
  /-- no or one character -/
  | short : t.length < 2 → LineSays E t (.ok (.text t))
  /-- a heading with the number of a part, ..., article or paragraph -/
  | number (h u : List Char) (n : ArticleNumber) : (¬ ∃ s, IsCaption t s) → HeadingOf t h u →
      articleNumber E h = .ok (some n) → LineSays E t (.ok (unitLine h n u))
  /-- such a number that is too big -/
  | bigNumber (h u : List Char) : (¬ ∃ s, IsCaption t s) → HeadingOf t h u →
      articleNumber E h = .panic → LineSays E t .panic
  /-- the number of an item -/
  | item (h u b e : List Char) (n : ItemNumber) : (¬ ∃ s, IsCaption t s) → HeadingOf t h u →
      articleNumber E h = .ok none → BestCut h b e → itemMeaning E h b e = .ok (some n) →
      LineSays E t (.ok (.item n u))
  /-- something that looks like the number of an item -/
  | noItem (h u b e : List Char) : (¬ ∃ s, IsCaption t s) → HeadingOf t h u →
      articleNumber E h = .ok none → BestCut h b e → itemMeaning E h b e = .panic → LineSays E t .panic
  /-- anything else -/
  | text (h u : List Char) : (¬ ∃ s, IsCaption t s) → HeadingOf t h u →
      articleNumber E h = .ok none → (¬ ∃ b e, Cut h b e) → LineSays E t (.ok (.text t))

/-- What a line says, blanks at its ends aside. -/
def Says (E : Ext) (line : List Char) (r : Res TextLine) : Prop :=
  ∃ pre t post, line = pre ++ t ++ post ∧ Blank pre ∧ Blank post ∧ Trimmed t ∧ LineSays E t r

/-- The lines of a text: each of `ps` is ended by a line feed, and what is after the last line feed is a
line unless it is empty. -/
def HasLines (text : List Char) (lines : List (List Char)) : Prop :=
  ∃ ps z, (∀ p ∈ ps, '\n' ∉ p) ∧ '\n' ∉ z ∧ text = (ps.flatMap fun p => p ++ ['\n']) ++ z ∧
    lines = ps ++ if z = [] then [] else [z]

end JLaw.Spec.Scan
