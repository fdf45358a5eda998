import Verif.Spec.Num
import Verif.Model.NumText

/-!
# What number texts mean

Descriptions of the texts of numbers that do not mention the patterns or the readers.
-/

namespace JLaw.Spec

/-- Value of a list of decimal digits in a script whose digits start at `zero`. -/
def value (zero : Char) (ds : List Char) : Nat :=
  ds.foldl (fun v c => v * 10 + (c.toNat - zero.toNat)) 0

/-- A number in ASCII digits. -/
def AsciiNumber (ds : List Char) : Prop :=
  ds ≠ [] ∧ ∀ c ∈ ds, '0'.toNat ≤ c.toNat ∧ c.toNat ≤ '9'.toNat

/-- A number in full-width digits. -/
def WideNumber (ds : List Char) : Prop :=
  ds ≠ [] ∧ ∀ c ∈ ds, '０'.toNat ≤ c.toNat ∧ c.toNat ≤ '９'.toNat

/-- The kanji of numbers below ten thousand. -/
def kanji : List Char := ['一', '二', '三', '四', '五', '六', '七', '八', '九', '十', '百', '千']

/-- A number in kanji. -/
def KanjiNumber (ds : List Char) : Prop := ds ≠ [] ∧ ∀ c ∈ ds, c ∈ kanji

/-- A number in one of the three scripts. -/
def AnyNumber (ds : List Char) : Prop := AsciiNumber ds ∨ WideNumber ds ∨ KanjiNumber ds

/-- A number in digits. -/
def DigitNumber (ds : List Char) : Prop := AsciiNumber ds ∨ WideNumber ds

/-- The number of elements of `usize`. -/
def limit : Nat := 18446744073709551616

/-- A number in digits that `usize` cannot hold. -/
def TooBig (ds : List Char) : Prop :=
  (AsciiNumber ds ∧ limit ≤ value '0' ds) ∨ (WideNumber ds ∧ limit ≤ value '０' ds)

/-- The first number of a heading can be read. -/
def ReadableBase (E : Ext) (ds : List Char) : Prop :=
  (DigitNumber ds ∧ ¬ TooBig ds) ∨ (KanjiNumber ds ∧ ∃ n, E.kansujiNum ds = some n)

/-- A branch number can be read; the kanji numeral crate is also tried on digits. -/
def ReadableBranch (E : Ext) (ds : List Char) : Prop :=
  (DigitNumber ds ∧ ¬ TooBig ds) ∨ ∃ n, E.kansujiNum ds = some n

/-- The units of hierarchy levels and smaller parts. -/
def units : List Char := ['編', '章', '節', '款', '目', '条', '項', '号']

/-- Text of branch numbers, each given by its separator and its number. -/
def branches (bs : List (Char × List Char)) : List Char := (bs.map fun b => b.1 :: b.2).flatten

/-- Separators of branch numbers. -/
def IsSeparator (c : Char) : Prop := c = 'の' ∨ c = 'ノ'

/-- The kanji numeral crate handles the numbers 1 to 9999: it writes them with the twelve kanji, and
reads back what it wrote. -/
def ReadsKansuji (E : Ext) : Prop :=
  ∀ n : Usize, 1 ≤ n.val → n.val ≤ 9999 →
    KanjiNumber (E.kansujiStr n) ∧ E.kansujiNum (E.kansujiStr n) = some n.val

/-- All numbers in an article number. -/
def components (a : ArticleNumber) : List Usize :=
  a.base_number :: a.eda_numbers ++ a.range_end_numbers

/-- A number has a text in a pattern of item headings: kanji and digits always, iroha from 1 to 47,
roman when the crate has a numeral for it, letters never. -/
def Renderable (E : Ext) (n : Usize) : ItemPattern → Prop
  | .noParenKansuji | .parenKansuji | .noParenZenkakuNum | .parenZenkakuNum => True
  | .noParenIrohaKatakana | .parenIrohaKatakana | .noParenIrohaHiragana | .parenIrohaHiragana =>
    1 ≤ n.val ∧ n.val ≤ 47
  | .noParenZenkakuRomanUpper | .parenZenkakuRomanUpper | .noParenZenkakuRomanLower
  | .parenZenkakuRomanLower => ∃ t, E.romanStr (asI32 n) = some t
  | .noParenZenkakuUpper | .parenZenkakuUpper | .noParenZenkakuLower | .parenZenkakuLower => False

/-- The pattern without parentheses. -/
def plain : ItemPattern → ItemPattern
  | .parenKansuji => .noParenKansuji
  | .parenIrohaKatakana => .noParenIrohaKatakana
  | .parenIrohaHiragana => .noParenIrohaHiragana
  | .parenZenkakuNum => .noParenZenkakuNum
  | .parenZenkakuRomanUpper => .noParenZenkakuRomanUpper
  | .parenZenkakuRomanLower => .noParenZenkakuRomanLower
  | .parenZenkakuUpper => .noParenZenkakuUpper
  | .parenZenkakuLower => .noParenZenkakuLower
  | p => p

/-- The iroha order in katakana. -/
def irohaKatakana : List Char :=
  "イロハニホヘトチリヌルヲワカヨタレソツネナラムウヰノオクヤマケフコエテアサキユメミシヱヒモセス".toList

/-- The iroha order in hiragana. -/
def irohaHiragana : List Char :=
  "いろはにほへとちりぬるをわかよたれそつねならむうゐのおくやまけふこえてあさきゆめみしゑひもせす".toList

/-- The white space characters of Unicode. -/
def blanks : List Char :=
  ['\t', '\n', '\x0b', '\x0c', '\r', ' ', '\u0085', '\u00a0', '\u1680', '\u2000', '\u2001', '\u2002',
    '\u2003', '\u2004', '\u2005', '\u2006', '\u2007', '\u2008', '\u2009', '\u200a', '\u2028', '\u2029',
    '\u202f', '\u205f', '　']

/-- A line that is not empty at its ends: the first and the last character are no blanks. -/
def Trimmed (l : List Char) : Prop :=
  (∀ c, l.head? = some c → c ∉ blanks) ∧ ∀ c, l.getLast? = some c → c ∉ blanks

/-- The roman numeral crate has numerals for some of the numbers 1 to 3999, writes them with the
usual letters, and reads back what it wrote. -/
def ReadsRoman (E : Ext) : Prop :=
  ∀ i t, E.romanStr i = some t →
    1 ≤ i ∧ i ≤ 3999 ∧ t ≠ [] ∧ (∀ c ∈ t, c ∈ "IVXLCDM".toList) ∧ E.romanNum t = some i

/-- The number has a roman numeral without V, D and M. -/
def ShortRoman (E : Ext) (n : Usize) : Prop :=
  n.val < 2147483648 ∧ ∃ t, E.romanStr (n.val : Nat) = some t ∧ ∀ c ∈ t, c ∈ "IXLC".toList

end JLaw.Spec
