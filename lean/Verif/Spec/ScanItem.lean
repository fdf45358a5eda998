import Verif.Spec.Scan

/-!
# What a text says about the number of an item

The words of which the number of an item consists, the ways to cut a text into a number, branch numbers and
the end of a range, and the values of the words. Nothing here is a pattern or goes back to an earlier
choice: a text may be cut in several ways, and the way with the longest first word is the one that counts.
-/

namespace JLaw.Spec.Scan

/-! ## Words -/

/-- The scripts of the numbers of items. -/
inductive ItemScript where
  | katakana
  | hiragana
  | kanji
  | wide
  | upper
  | lower
  deriving DecidableEq

/-- The script of a character. -/
def itemScript (c : Char) : Option ItemScript :=
  if 'ア'.toNat ≤ c.toNat ∧ c.toNat ≤ 'ン'.toNat then some .katakana
  else if 'あ'.toNat ≤ c.toNat ∧ c.toNat ≤ 'ん'.toNat then some .hiragana
  else if c ∈ Spec.kanji then some .kanji
  else if '０'.toNat ≤ c.toNat ∧ c.toNat ≤ '９'.toNat then some .wide
  else if 'Ａ'.toNat ≤ c.toNat ∧ c.toNat ≤ 'Ｚ'.toNat then some .upper
  else if 'ａ'.toNat ≤ c.toNat ∧ c.toNat ≤ 'ｚ'.toNat then some .lower
  else none

/-- A word: characters of one script, in parentheses or not. -/
def IsWord (w : List Char) : Prop :=
  ∃ k v, v ≠ [] ∧ (∀ c ∈ v, itemScript c = some k) ∧ (w = v ∨ w = '（' :: v ++ ['）'])

/-- Branch numbers: words, each after の. -/
def IsBranches (e : List Char) : Prop :=
  ∃ ws : List (List Char), (∀ w ∈ ws, IsWord w) ∧ e = ws.flatMap fun w => 'の' :: w

/-- The end of a range, or nothing. -/
def IsRangeEnd (r : List Char) : Prop :=
  r = [] ∨ ∃ w e, IsWord w ∧ IsBranches e ∧ r = 'か' :: 'ら' :: w ++ e ++ ['ま', 'で']

/-- A text can be cut into the word `b`, the branch numbers `e` and the end of a range. -/
def Cut (t b e : List Char) : Prop := IsWord b ∧ IsBranches e ∧ ∃ r, IsRangeEnd r ∧ t = b ++ e ++ r

/-- The way to cut a text that counts: the first word is the longest one, and after it the branch numbers
are the longest. -/
def BestCut (t b e : List Char) : Prop :=
  Cut t b e ∧ ∀ b' e', Cut t b' e' →
    b'.length < b.length ∨ (b'.length = b.length ∧ e'.length ≤ e.length)

/-! ## Values -/

/-- The longest word at the start of a text: whether it is in parentheses, its script and its
characters. -/
def itemStart : List Char → Option (Bool × ItemScript × List Char)
  | [] => none
  | c :: s =>
    if c = '（' then
      match s with
      | [] => none
      | d :: s =>
        match itemScript d with
        | none => none
        | some k =>
          if (s.dropWhile fun x => itemScript x = some k).head? = some '）' then
            some (true, k, d :: s.takeWhile fun x => itemScript x = some k)
          else none
    else
      match itemScript c with
      | none => none
      | some k => some (false, k, c :: s.takeWhile fun x => itemScript x = some k)

/-- The place of a character in a list, counted from 1. -/
def place (c : Char) : List Char → Option Nat
  | [] => none
  | d :: l => if c = d then some 1 else (place c l).map (· + 1)

/-- The place of a word of one kana in the iroha order. -/
def kanaValue (order : List Char) : List Char → Option Usize
  | [c] => (place c order).bind fit
  | _ => none

/-- A full-width letter of the roman numerals I, X, L and C as an ASCII capital; V is left as it is. -/
def narrow (c : Char) : Char :=
  if c = 'Ｉ' ∨ c = 'ｉ' then 'I'
  else if c = 'Ｘ' ∨ c = 'ｘ' then 'X'
  else if c = 'Ｌ' ∨ c = 'ｌ' then 'L'
  else if c = 'Ｃ' ∨ c = 'ｃ' then 'C'
  else c

/-- Numbers written one after the other in decimal digits; each of them is less than a hundred. -/
def juxtaposed (ns : List Nat) : Nat := ns.foldl (fun v n => v * (if n < 10 then 10 else 100) + n) 0

/-- The value of a word of letters, and whether it is a roman numeral. -/
def letterValue (E : Ext) (a : Char) (w : List Char) : Option (Bool × Usize) :=
  if ∃ c ∈ w, c ∈ "ＩＸＶＬＣｉｘｖｌｃ".toList then
    (E.romanNum (w.map narrow)).map fun i : Int => (true, Fin.ofNat _ (i % (limit : Int)).toNat)
  else (fit (juxtaposed (w.map fun c => c.toNat - a.toNat + 1))).map fun n => (false, n)

/-- The pattern and the value of a word; nothing when reading it panics. -/
def wordValue (E : Ext) (paren : Bool) (k : ItemScript) (w : List Char) : Option (ItemPattern × Usize) :=
  match k with
  | .katakana => (kanaValue irohaKatakana w).map fun n =>
      (if paren then .parenIrohaKatakana else .noParenIrohaKatakana, n)
  | .hiragana => (kanaValue irohaHiragana w).map fun n =>
      (if paren then .parenIrohaHiragana else .noParenIrohaHiragana, n)
  | .kanji => (kanjiValue E w).map fun n => (if paren then .parenKansuji else .noParenKansuji, n)
  | .wide => (fit (value '０' w)).map fun n => (if paren then .parenZenkakuNum else .noParenZenkakuNum, n)
  | .upper => (letterValue E 'Ａ' w).map fun x =>
      (match x.1, paren with
        | true, true => .parenZenkakuRomanUpper
        | true, false => .noParenZenkakuRomanUpper
        | false, true => .parenZenkakuUpper
        | false, false => .noParenZenkakuUpper, x.2)
  | .lower => (letterValue E 'ａ' w).map fun x =>
      (match x.1, paren with
        | true, true => .parenZenkakuRomanLower
        | true, false => .noParenZenkakuRomanLower
        | false, true => .parenZenkakuLower
        | false, false => .noParenZenkakuLower, x.2)

/-- The pieces of a text between the characters の. -/
def piecesAtNo : List Char → List (List Char)
  | [] => [[]]
  | c :: s =>
    if c = 'の' then [] :: piecesAtNo s
    else
      match piecesAtNo s with
      | [] => [[c]]
      | w :: ws => (c :: w) :: ws

/-- The values of the words at the start of pieces; pieces that start with no word do not count. Nothing when
reading one of them panics. -/
def pieceValues (E : Ext) : List (List Char) → Option (List Usize)
  | [] => some []
  | s :: r =>
    match itemStart s with
    | none => pieceValues E r
    | some (p, k, w) =>
      match wordValue E p k w, pieceValues E r with
      | some x, some ns => some (x.2 :: ns)
      | _, _ => none

/-- What the text `s` means when it is cut into the word `b`, the branch numbers `e` and the end of a range,
which does not count. -/
def itemMeaning (E : Ext) (s b e : List Char) : Res (Option ItemNumber) :=
  match itemStart b with
  | none => .ok none
  | some (p, k, w) =>
    match wordValue E p k w, pieceValues E ((piecesAtNo e).filter (· ≠ [])) with
    | some (pattern, n), some ns => .ok (some ⟨s, n, ns, [], pattern⟩)
    | _, _ => .panic

end JLaw.Spec.Scan
