import Verif.Spec.NumText

/-!
# How lines of a text are put together
-/

namespace JLaw.Spec

/-- All characters are blanks. -/
def Blank (s : List Char) : Prop := ∀ c ∈ s, c ∈ blanks

/-- A line with a heading `h`, blanks, and a text `t`, that may have blanks around it. -/
def Headed (line h t : List Char) : Prop :=
  ∃ pre bs post, line = pre ++ (h ++ (bs ++ t)) ++ post ∧ Blank pre ∧ Blank post ∧
    (h ≠ [] ∧ ∀ c ∈ h, c ∉ blanks) ∧ (bs ≠ [] ∧ Blank bs) ∧ t ≠ [] ∧ Trimmed t ∧ '\n' ∉ t

/-- A line of two or more characters without blanks in it, that may have blanks around it: `h` is
everything but the last character `c`. -/
def Unbroken (line h : List Char) (c : Char) : Prop :=
  ∃ pre post, line = pre ++ (h ++ [c]) ++ post ∧ Blank pre ∧ Blank post ∧ h ≠ [] ∧
    ∀ d ∈ h ++ [c], d ∉ blanks

/-- A line with something in parentheses and nothing else, that may have blanks around it. -/
def Captioned (line s : List Char) : Prop :=
  ∃ pre post, line = pre ++ ('（' :: s ++ ['）']) ++ post ∧ Blank pre ∧ Blank post ∧ s ≠ [] ∧ '）' ∉ s

end JLaw.Spec
