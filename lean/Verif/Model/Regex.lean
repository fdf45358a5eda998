import Verif.Model.Base

/-!
# Regular expressions

The operators of the `regex` crate that occur in src/article_number.rs and src/parse_from_text.rs,
with leftmost-first matching: `run` lists the ways to match a prefix of the text in order of
preference, and the match is the first of them. Every pattern of the crate but one starts with `^`,
so matching starts at the beginning of the text only.
-/

namespace JLaw

/-- A regular expression. -/
inductive Re where
  /-- the empty pattern -/
  | eps
  /-- one character of a class -/
  | cls (p : Char → Bool)
  /-- one after the other -/
  | seq (a b : Re)
  /-- `a|b` -/
  | alt (a b : Re)
  /-- `a*`, greedy -/
  | star (a : Re)
  /-- `(?<name>a)` -/
  | cap (name : String) (a : Re)
  /-- `$` -/
  | eos

/-- Texts of the named groups that took part in a match. -/
abbrev Caps := List (String × List Char)

/-- `a*` by repeating a matcher that uses up text each time. -/
def starRun (f : List Char → List (Caps × List Char)) :
    Nat → List Char → List (Caps × List Char)
  | 0, s => [([], s)]
  | n + 1, s =>
    ((f s).flatMap fun x =>
      if x.2.length < s.length then (starRun f n x.2).map fun y => (x.1 ++ y.1, y.2) else []) ++
    [([], s)]

/-- The ways to match a prefix of a text, each with the groups and the rest of the text, the
preferred one first. -/
def Re.run : Re → List Char → List (Caps × List Char)
  | .eps, s => [([], s)]
  | .cls _, [] => []
  | .cls p, c :: s => if p c then [([], s)] else []
  | .seq a b, s => (a.run s).flatMap fun x => (b.run x.2).map fun y => (x.1 ++ y.1, y.2)
  | .alt a b, s => a.run s ++ b.run s
  | .star a, s => starRun a.run s.length s
  | .cap n a, s => (a.run s).map fun x => ((n, s.take (s.length - x.2.length)) :: x.1, x.2)
  | .eos, s => if s = [] then [([], [])] else []

/-- `Regex::captures` for a pattern that starts with `^`. -/
def Re.captures (r : Re) (s : List Char) : Option Caps := (r.run s).head?.map Prod.fst

/-- `Captures::name`. -/
def Caps.name (c : Caps) (n : String) : Option (List Char) := c.reverse.lookup n

/-- `a+`. -/
def Re.plus (a : Re) : Re := .seq a (.star a)
/-- `a?`. -/
def Re.opt (a : Re) : Re := .alt a .eps
/-- One given character. -/
def Re.ch (c : Char) : Re := .cls (· == c)
/-- A literal text. -/
def Re.lit : List Char → Re
  | [] => .eps
  | [c] => .ch c
  | c :: cs => .seq (.ch c) (.lit cs)
/-- First of several alternatives. -/
def Re.alts : List Re → Re
  | [] => .cls fun _ => false
  | [a] => a
  | a :: as => .alt a (alts as)
/-- Several patterns one after the other. -/
def Re.seqs : List Re → Re
  | [] => .eps
  | [a] => a
  | a :: as => .seq a (seqs as)

/-- A class given by its first and last character. -/
def between (a b : Char) (c : Char) : Bool := a.toNat ≤ c.toNat && c.toNat ≤ b.toNat

/-- The Unicode property `White_Space`: `\s` in patterns and the blanks removed by `str::trim`. -/
def isSpace (c : Char) : Bool :=
  (9 ≤ c.toNat && c.toNat ≤ 13) || c.toNat == 0x20 || c.toNat == 0x85 || c.toNat == 0xA0 ||
  c.toNat == 0x1680 || (0x2000 ≤ c.toNat && c.toNat ≤ 0x200A) || c.toNat == 0x2028 ||
  c.toNat == 0x2029 || c.toNat == 0x202F || c.toNat == 0x205F || c.toNat == 0x3000

/-- `str::trim`. -/
def trim (s : List Char) : List Char :=
  ((s.dropWhile isSpace).reverse.dropWhile isSpace).reverse

end JLaw
