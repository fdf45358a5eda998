import Verif.Model.Num
import Verif.Model.Regex

/-!
# Number texts

Models the second part of src/article_number.rs: the texts produced for numbers and the parsers for
them. Strings are lists of characters here. The crates `kansuji` and `roman` are a parameter.
-/

namespace JLaw

/-- What the crates `kansuji` and `roman` compute. They are assumed to return, never to panic. -/
structure Ext where
  /-- `Kansuji::from(n).to_string()` for a `usize` -/
  kansujiStr : Usize → List Char
  /-- `Kansuji::try_from(s).ok()` as `u128` -/
  kansujiNum : List Char → Option Nat
  /-- `roman::to` of an `i32` -/
  romanStr : Int → Option (List Char)
  /-- `roman::from`, giving an `i32` -/
  romanNum : List Char → Option Int

/-- `n as usize` for a `u128`. -/
def asUsize (n : Nat) : Usize := Fin.ofNat 18446744073709551616 n

/-- `n as i32` for a `usize`. -/
def asI32 (n : Usize) : Int :=
  if n.val % 4294967296 < 2147483648 then (n.val % 4294967296 : Nat)
  else (n.val % 4294967296 : Nat) - 4294967296

/-- `n as usize` for an `i32`. -/
def i32AsUsize (n : Int) : Usize := asUsize (n % 18446744073709551616).toNat

/-- `str::replace` of a character by a character. -/
def replaceC (c d : Char) (s : List Char) : List Char := s.map fun x => if x = c then d else x

/-- Several calls of `str::replace`, from left to right. -/
def replaceAll (l : List (Char × Char)) (s : List Char) : List Char :=
  l.foldl (fun s p => replaceC p.1 p.2 s) s

/-- `parse_zenkaku_num`, src/article_number.rs 614-628. -/
def parseZenkakuNum (s : List Char) : Option Usize :=
  parseUsize (replaceAll [('０', '0'), ('１', '1'), ('２', '2'), ('３', '3'), ('４', '4'), ('５', '5'),
    ('６', '6'), ('７', '7'), ('８', '8'), ('９', '9')] s)

/-- `to_zenkaku_num`, src/article_number.rs 630-642. -/
def toZenkakuNum (n : Usize) : List Char :=
  replaceAll [('0', '０'), ('1', '１'), ('2', '２'), ('3', '３'), ('4', '４'), ('5', '５'),
    ('6', '６'), ('7', '７'), ('8', '８'), ('9', '９')] (digits n.val)

/-- Table of `parse_iroha_katakana`, src/article_number.rs 644-695. -/
def parseIrohaKatakana.table : List (Char × Usize) := [
  ('イ', 1), ('ロ', 2), ('ハ', 3), ('ニ', 4), ('ホ', 5), ('ヘ', 6), ('ト', 7), ('チ', 8),
  ('リ', 9), ('ヌ', 10), ('ル', 11), ('ヲ', 12), ('ワ', 13), ('カ', 14), ('ヨ', 15),
  ('タ', 16), ('レ', 17), ('ソ', 18), ('ツ', 19), ('ネ', 20), ('ナ', 21), ('ラ', 22),
  ('ム', 23), ('ウ', 24), ('ヰ', 25), ('ノ', 26), ('オ', 27), ('ク', 28), ('ヤ', 29),
  ('マ', 30), ('ケ', 31), ('フ', 32), ('コ', 33), ('エ', 34), ('テ', 35), ('ア', 36),
  ('サ', 37), ('キ', 38), ('ユ', 39), ('メ', 40), ('ミ', 41), ('シ', 42), ('ヱ', 43),
  ('ヒ', 44), ('モ', 45), ('セ', 46), ('ス', 47)]
/-- `parse_iroha_katakana`, src/article_number.rs 644-695. -/
def parseIrohaKatakana : List Char → Option Usize
  | [c] => parseIrohaKatakana.table.lookup c
  | _ => none

/-- Table of `to_iroha_katakana`, src/article_number.rs 697-748. -/
def toIrohaKatakana.table : List (Usize × Char) := [
  (1, 'イ'), (2, 'ロ'), (3, 'ハ'), (4, 'ニ'), (5, 'ホ'), (6, 'ヘ'), (7, 'ト'), (8, 'チ'),
  (9, 'リ'), (10, 'ヌ'), (11, 'ル'), (12, 'ヲ'), (13, 'ワ'), (14, 'カ'), (15, 'ヨ'),
  (16, 'タ'), (17, 'レ'), (18, 'ソ'), (19, 'ツ'), (20, 'ネ'), (21, 'ナ'), (22, 'ラ'),
  (23, 'ム'), (24, 'ウ'), (25, 'ヰ'), (26, 'ノ'), (27, 'オ'), (28, 'ク'), (29, 'ヤ'),
  (30, 'マ'), (31, 'ケ'), (32, 'フ'), (33, 'コ'), (34, 'エ'), (35, 'テ'), (36, 'ア'),
  (37, 'サ'), (38, 'キ'), (39, 'ユ'), (40, 'メ'), (41, 'ミ'), (42, 'シ'), (43, 'ヱ'),
  (44, 'ヒ'), (45, 'モ'), (46, 'セ'), (47, 'ス')]
/-- `to_iroha_katakana`, src/article_number.rs 697-748. -/
def toIrohaKatakana (n : Usize) : Option (List Char) := (toIrohaKatakana.table.lookup n).map fun c => [c]

/-- Table of `parse_iroha_hiragana`, src/article_number.rs 750-801. -/
def parseIrohaHiragana.table : List (Char × Usize) := [
  ('い', 1), ('ろ', 2), ('は', 3), ('に', 4), ('ほ', 5), ('へ', 6), ('と', 7), ('ち', 8),
  ('り', 9), ('ぬ', 10), ('る', 11), ('を', 12), ('わ', 13), ('か', 14), ('よ', 15),
  ('た', 16), ('れ', 17), ('そ', 18), ('つ', 19), ('ね', 20), ('な', 21), ('ら', 22),
  ('む', 23), ('う', 24), ('ゐ', 25), ('の', 26), ('お', 27), ('く', 28), ('や', 29),
  ('ま', 30), ('け', 31), ('ふ', 32), ('こ', 33), ('え', 34), ('て', 35), ('あ', 36),
  ('さ', 37), ('き', 38), ('ゆ', 39), ('め', 40), ('み', 41), ('し', 42), ('ゑ', 43),
  ('ひ', 44), ('も', 45), ('せ', 46), ('す', 47)]
/-- `parse_iroha_hiragana`, src/article_number.rs 750-801. -/
def parseIrohaHiragana : List Char → Option Usize
  | [c] => parseIrohaHiragana.table.lookup c
  | _ => none

/-- Table of `to_iroha_hiragana`, src/article_number.rs 803-854. -/
def toIrohaHiragana.table : List (Usize × Char) := [
  (1, 'い'), (2, 'ろ'), (3, 'は'), (4, 'に'), (5, 'ほ'), (6, 'へ'), (7, 'と'), (8, 'ち'),
  (9, 'り'), (10, 'ぬ'), (11, 'る'), (12, 'を'), (13, 'わ'), (14, 'か'), (15, 'よ'),
  (16, 'た'), (17, 'れ'), (18, 'そ'), (19, 'つ'), (20, 'ね'), (21, 'な'), (22, 'ら'),
  (23, 'む'), (24, 'う'), (25, 'ゐ'), (26, 'の'), (27, 'お'), (28, 'く'), (29, 'や'),
  (30, 'ま'), (31, 'け'), (32, 'ふ'), (33, 'こ'), (34, 'え'), (35, 'て'), (36, 'あ'),
  (37, 'さ'), (38, 'き'), (39, 'ゆ'), (40, 'め'), (41, 'み'), (42, 'し'), (43, 'ゑ'),
  (44, 'ひ'), (45, 'も'), (46, 'せ'), (47, 'す')]
/-- `to_iroha_hiragana`, src/article_number.rs 803-854. -/
def toIrohaHiragana (n : Usize) : Option (List Char) := (toIrohaHiragana.table.lookup n).map fun c => [c]

/-- `parse_roman`, src/article_number.rs 856-873; there is no replacement for V. -/
def parseRoman (E : Ext) (s : List Char) : Option Usize :=
  (E.romanNum (replaceAll [('i', 'I'), ('x', 'X'), ('l', 'L'), ('c', 'C'), ('ｉ', 'I'), ('ｘ', 'X'),
    ('ｌ', 'L'), ('ｃ', 'C'), ('Ｉ', 'I'), ('Ｘ', 'X'), ('Ｌ', 'L'), ('Ｃ', 'C')] s)).map i32AsUsize

/-- `to_zenkaku_roman_upper`, src/article_number.rs 875-882. -/
def toZenkakuRomanUpper (E : Ext) (n : Usize) : Option (List Char) :=
  (E.romanStr (asI32 n)).map
    (replaceAll [('I', 'Ｉ'), ('X', 'Ｘ'), ('L', 'Ｌ'), ('C', 'Ｃ')])

/-- `to_zenkaku_roman_lower`, src/article_number.rs 884-891. -/
def toZenkakuRomanLower (E : Ext) (n : Usize) : Option (List Char) :=
  (E.romanStr (asI32 n)).map
    (replaceAll [('I', 'ｉ'), ('X', 'ｘ'), ('L', 'ｌ'), ('C', 'ｃ')])

/-- `parse_zenkaku_alphabet`, src/article_number.rs 893-909; only called on full-width letters, for
which the subtraction does not underflow. -/
def parseZenkakuAlphabet (s : List Char) : Option Usize :=
  parseUsize (s.flatMap fun c =>
    digits (if c.toNat < 0xFF41 then c.toNat - 0xFF20 else c.toNat - 0xFF40))

/-- `char::from_digit(n, 10)`. -/
def fromDigit (n : Nat) : Option Char := if n < 10 then some (digitChar n) else none

/-- The body of the `map` in `to_zenkaku_alphabet_upper` and `to_zenkaku_alphabet_lower`,
src/article_number.rs 914-917 and 924-927: the number is far above the radix. -/
def alphabetOfDigit (offset : Nat) (c : Char) : Res Char :=
  (Res.unwrap (parseUsize [c])).bind fun n => Res.unwrap (fromDigit (n.val + offset))

/-- `to_zenkaku_alphabet_upper`, src/article_number.rs 911-919. -/
def toZenkakuAlphabetUpper (n : Usize) : Res (List Char) :=
  mapRes (alphabetOfDigit 0xFF20) (digits n.val)

/-- `to_zenkaku_alphabet_lower`, src/article_number.rs 921-929. -/
def toZenkakuAlphabetLower (n : Usize) : Res (List Char) :=
  mapRes (alphabetOfDigit 0xFF40) (digits n.val)

/-! ## Texts of numbers -/

/-- The branch numbers of a text: `の` and the text of each number. Source: src/article_number.rs
92-111, 144-176. -/
def edaText (f : Usize → List Char) (l : List Usize) : List Char :=
  l.flatMap fun n => 'の' :: f n

/-- `gen_articles_text`, src/article_number.rs 92-111. -/
def ArticleNumber.genArticlesText (E : Ext) (a : ArticleNumber) (suffix : Char) : List Char :=
  '第' :: E.kansujiStr a.base_number ++ suffix :: edaText E.kansujiStr a.eda_numbers ++
    match a.range_end_numbers with
    | [] => []
    | n :: l => ['か', 'ら', '第'] ++ E.kansujiStr n ++ suffix :: edaText E.kansujiStr l ++ ['ま', 'で']

/-- `part_text`, src/article_number.rs 114-116 (`Part::number_text`, src/article.rs 41-43). -/
def ArticleNumber.partText (E : Ext) (a : ArticleNumber) : List Char := a.genArticlesText E '編'
/-- `chapter_text`, src/article_number.rs 119-121 (`Chapter::number_text`, src/article.rs 159). -/
def ArticleNumber.chapterText (E : Ext) (a : ArticleNumber) : List Char := a.genArticlesText E '章'
/-- `section_text`, src/article_number.rs 124-126 (`Section::number_text`, src/article.rs 277). -/
def ArticleNumber.sectionText (E : Ext) (a : ArticleNumber) : List Char := a.genArticlesText E '節'
/-- `subsection_text`, src/article_number.rs 129-131 (`number_text`, src/article.rs 403). -/
def ArticleNumber.subsectionText (E : Ext) (a : ArticleNumber) : List Char :=
  a.genArticlesText E '款'
/-- `division_text`, src/article_number.rs 134-136 (`number_text`, src/article.rs 523). -/
def ArticleNumber.divisionText (E : Ext) (a : ArticleNumber) : List Char := a.genArticlesText E '目'
/-- `article_text`, src/article_number.rs 139-141 (`Article::number_text`, src/article.rs 632). -/
def ArticleNumber.articleText (E : Ext) (a : ArticleNumber) : List Char := a.genArticlesText E '条'

/-- `paragraph_text`, src/article_number.rs 144-159. -/
def ArticleNumber.paragraphText (a : ArticleNumber) : List Char :=
  toZenkakuNum a.base_number ++ edaText toZenkakuNum a.eda_numbers ++
    match a.range_end_numbers with
    | [] => []
    | n :: l => ['か', 'ら'] ++ toZenkakuNum n ++ edaText toZenkakuNum l ++ ['ま', 'で']

/-- `ItemPattern`, src/article_number.rs 333-366. -/
inductive ItemPattern
  | noParenKansuji | noParenIrohaKatakana | noParenIrohaHiragana | noParenZenkakuNum
  | noParenZenkakuRomanUpper | noParenZenkakuRomanLower | noParenZenkakuUpper
  | noParenZenkakuLower
  | parenKansuji | parenIrohaKatakana | parenIrohaHiragana | parenZenkakuNum
  | parenZenkakuRomanUpper | parenZenkakuRomanLower | parenZenkakuUpper | parenZenkakuLower
  deriving DecidableEq, Repr

/-- `format!("（{}）", s)`. -/
def inParens (r : Res (List Char)) : Res (List Char) := r.bind fun s => .ok ('（' :: s ++ ['）'])

/-- `ItemPattern::num_to_str`, src/article_number.rs 369-406. In the two parenthesised roman
patterns upper and lower case are exchanged, as in the source. -/
def ItemPattern.numToStr (E : Ext) (n : Usize) : ItemPattern → Res (List Char)
  | .noParenKansuji => .ok (E.kansujiStr n)
  | .noParenIrohaKatakana => Res.unwrap (toIrohaKatakana n)
  | .noParenIrohaHiragana => Res.unwrap (toIrohaHiragana n)
  | .noParenZenkakuNum => .ok (toZenkakuNum n)
  | .noParenZenkakuRomanUpper => Res.unwrap (toZenkakuRomanUpper E n)
  | .noParenZenkakuRomanLower => Res.unwrap (toZenkakuRomanLower E n)
  | .noParenZenkakuUpper => toZenkakuAlphabetUpper n
  | .noParenZenkakuLower => toZenkakuAlphabetLower n
  | .parenKansuji => inParens (.ok (E.kansujiStr n))
  | .parenIrohaKatakana => inParens (Res.unwrap (toIrohaKatakana n))
  | .parenIrohaHiragana => inParens (Res.unwrap (toIrohaHiragana n))
  | .parenZenkakuNum => inParens (.ok (toZenkakuNum n))
  | .parenZenkakuRomanUpper => inParens (Res.unwrap (toZenkakuRomanLower E n))
  | .parenZenkakuRomanLower => inParens (Res.unwrap (toZenkakuRomanUpper E n))
  | .parenZenkakuUpper => inParens (toZenkakuAlphabetUpper n)
  | .parenZenkakuLower => inParens (toZenkakuAlphabetLower n)

/-- `ItemPattern::num_to_str_no_paren`, src/article_number.rs 408-433. -/
def ItemPattern.numToStrNoParen (E : Ext) (n : Usize) : ItemPattern → Res (List Char)
  | .noParenKansuji => .ok (E.kansujiStr n)
  | .noParenIrohaKatakana => Res.unwrap (toIrohaKatakana n)
  | .noParenIrohaHiragana => Res.unwrap (toIrohaHiragana n)
  | .noParenZenkakuNum => .ok (toZenkakuNum n)
  | .noParenZenkakuRomanUpper => Res.unwrap (toZenkakuRomanUpper E n)
  | .noParenZenkakuRomanLower => Res.unwrap (toZenkakuRomanLower E n)
  | .noParenZenkakuUpper => toZenkakuAlphabetUpper n
  | .noParenZenkakuLower => toZenkakuAlphabetLower n
  | .parenKansuji => .ok (E.kansujiStr n)
  | .parenIrohaKatakana => Res.unwrap (toIrohaKatakana n)
  | .parenIrohaHiragana => Res.unwrap (toIrohaHiragana n)
  | .parenZenkakuNum => .ok (toZenkakuNum n)
  | .parenZenkakuRomanUpper => Res.unwrap (toZenkakuRomanUpper E n)
  | .parenZenkakuRomanLower => Res.unwrap (toZenkakuRomanLower E n)
  | .parenZenkakuUpper => toZenkakuAlphabetUpper n
  | .parenZenkakuLower => toZenkakuAlphabetLower n

/-- The loops over branch numbers in `item_text`, src/article_number.rs 164-166 and 171-173. -/
def ItemPattern.edaText (E : Ext) (p : ItemPattern) (l : List Usize) : Res (List Char) :=
  collectRes (fun n => (p.numToStrNoParen E n).bind fun s => .ok ('の' :: s)) l

/-- `item_text`, src/article_number.rs 162-177. -/
def ArticleNumber.itemText (E : Ext) (a : ArticleNumber) (p : ItemPattern) : Res (List Char) :=
  (p.numToStr E a.base_number).bind fun base =>
  (p.edaText E a.eda_numbers).bind fun eda =>
  match a.range_end_numbers with
  | [] => .ok (base ++ eda)
  | n :: l =>
    (p.numToStr E n).bind fun base2 =>
    (p.edaText E l).bind fun eda2 =>
    .ok (base ++ eda ++ ['か', 'ら'] ++ base2 ++ eda2 ++ ['ま', 'で'])

/-- `from_text`, src/article_number.rs 179-181: `todo!()`. -/
def ArticleNumber.fromText : Res ArticleNumber := .panic

/-! ## Parsing texts of numbers -/

/-- `[０-９]`. -/
def isZenkaku : Char → Bool := between '０' '９'
/-- `[一二三四五六七八九十百千]`. -/
def isKansuji (c : Char) : Bool := "一二三四五六七八九十百千".toList.contains c
/-- `(編|章|節|款|目|条|項|号)`. Source: src/article_number.rs 212-212. -/
def isUnit (c : Char) : Bool := "編章節款目条項号".toList.contains c
/-- `(の|ノ)`. Source: src/article_number.rs 212-214. -/
def isSep (c : Char) : Bool := c == 'の' || c == 'ノ'

/-- `[0-9]+`. -/
def Re.arabic : Re := .plus (.cls isDigit)
/-- `[０-９]+`. -/
def Re.zenkaku : Re := .plus (.cls isZenkaku)
/-- `[一二三四五六七八九十百千]+`. -/
def Re.kansuji : Re := .plus (.cls isKansuji)

/-- The branch numbers in `re_article`, src/article_number.rs 212. -/
def Re.articleEda : Re := .star (.seq (.cls isSep) (.alts [.arabic, .zenkaku, .kansuji]))

/-- `re_article`, src/article_number.rs 212. -/
def reArticle : Re := .seqs [
  .opt (.ch '第'),
  .alts [.cap "arabic_num" .arabic, .cap "zenkaku_num" .zenkaku, .cap "kansuji" .kansuji],
  .cap "suffix" (.cls isUnit),
  .cap "eda_str" .articleEda,
  .opt (.seqs [
    .lit ['か', 'ら'],
    .ch '第',
    .alts [.cap "arabic_num_2" .arabic, .cap "zenkaku_num_2" .zenkaku, .cap "kansuji_2" .kansuji],
    .cap "suffix_2" (.cls isUnit),
    .cap "eda_str_2" .articleEda,
    .lit ['ま', 'で']])]

/-- The branch numbers in `re_paragraph`, src/article_number.rs 214. -/
def Re.paragraphEda : Re := .star (.seq (.cls isSep) (.alts [.zenkaku, .arabic]))

/-- `re_paragraph`, src/article_number.rs 213-216. -/
def reParagraph : Re := .seqs [
  .cap "num" (.alts [.zenkaku, .arabic]),
  .cap "eda_str" .paragraphEda,
  .opt (.seqs [
    .lit ['か', 'ら'],
    .cap "num_2" (.alts [.zenkaku, .arabic]),
    .cap "eda_str_2" .paragraphEda,
    .lit ['ま', 'で']])]

/-- `?` on an `Option` in a function that returns an `Option`. -/
def orNone {α β : Type} (o : Option α) (f : α → Res (Option β)) : Res (Option β) :=
  match o with
  | some a => f a
  | none => .ok none

/-- `Kansuji::try_from(s).ok()` as `usize`. -/
def Ext.kansujiUsize (E : Ext) (s : List Char) : Option Usize := (E.kansujiNum s).map asUsize

/-- A branch number, src/article_number.rs 236-244 and 267-275. -/
def readPiece (E : Ext) (s : List Char) : Option Usize :=
  ((parseUsize s).or (parseZenkakuNum s)).or (E.kansujiUsize s)

/-- A loop that stops with `None` at the first number that cannot be read. -/
def allPieces (f : List Char → Option Usize) : List (List Char) → Option (List Usize)
  | [] => some []
  | s :: r => (f s).bind fun n => (allPieces f r).bind fun ns => some (n :: ns)

/-- `.split('の').filter(|s| !s.is_empty())`. Source: src/article_number.rs 292-292, 570-571. -/
def noPieces (s : List Char) : List (List Char) := (splitC 'の' s).filter fun w => !w.isEmpty

/-- The number in three scripts, src/article_number.rs 219-229 and 251-259: `none` stands for no
group with a number, the inner option for `?`. -/
def numberOfCaps (E : Ext) (caps : Caps) (arabic zenkaku kansuji : String) :
    Option (Res (Option Usize)) :=
  match caps.name arabic with
  | some s => some ((Res.unwrap (parseUsize s)).bind fun n => .ok (some n))
  | none =>
    match caps.name zenkaku with
    | some s => some (.ok (parseZenkakuNum s))
    | none =>
      match caps.name kansuji with
      | some s => some (.ok (E.kansujiUsize s))
      | none => none

/-- The branch for `re_article`, src/article_number.rs 217-282. -/
def articleOfCaps (E : Ext) (caps : Caps) : Res (Option ArticleNumber) :=
  match numberOfCaps E caps "arabic_num" "zenkaku_num" "kansuji" with
  | none => .ok none
  | some r => r.bind fun o => orNone o fun base =>
    (Res.unwrap (caps.name "eda_str")).bind fun eda_str =>
    orNone (allPieces (readPiece E) (noPieces (replaceC 'ノ' 'の' eda_str))) fun eda =>
    (match numberOfCaps E caps "arabic_num_2" "zenkaku_num_2" "kansuji_2" with
      | none => Res.ok (some [])
      | some r => r.bind fun o => orNone o fun n => .ok (some [n])).bind fun o =>
    orNone o fun range =>
    match caps.name "eda_str_2" with
    | none => .ok (some ⟨base, eda, range⟩)
    | some s => orNone (allPieces (readPiece E) (noPieces s)) fun eda2 =>
      .ok (some ⟨base, eda, range ++ eda2⟩)

/-- A number of a paragraph, src/article_number.rs 285-289 and 294-298: the second `unwrap`
panics. -/
def readParagraphPiece (s : List Char) : Res Usize :=
  match parseUsize s with
  | some n => .ok n
  | none => Res.unwrap (parseZenkakuNum s)

/-- The branch for `re_paragraph`, src/article_number.rs 285-314. -/
def paragraphOfCaps (caps : Caps) : Res (Option ArticleNumber) :=
  (Res.unwrap (caps.name "num")).bind fun num =>
  (readParagraphPiece num).bind fun base =>
  (Res.unwrap (caps.name "eda_str")).bind fun eda_str =>
  (mapRes readParagraphPiece (noPieces eda_str)).bind fun eda =>
  match caps.name "num_2" with
  | none => .ok (some ⟨base, eda, []⟩)
  | some s => orNone ((parseUsize s).or (parseZenkakuNum s)) fun n => .ok (some ⟨base, eda, [n]⟩)

/-- `parse_article_number`, src/article_number.rs 211-317. -/
def parseArticleNumber (E : Ext) (s : List Char) : Res (Option ArticleNumber) :=
  match reArticle.captures s with
  | some caps => articleOfCaps E caps
  | none =>
    match reParagraph.captures s with
    | some caps => paragraphOfCaps caps
    | none => .ok none

/-! ## Items -/

/-- `ItemNumber`, src/article_number.rs 320-329. -/
structure ItemNumber where
  str : List Char
  base_number : Usize
  eda_numbers : List Usize
  range_end_numbers : List Usize
  pattern : ItemPattern
  deriving DecidableEq, Repr

/-- `from_item_number`, src/article_number.rs 195-201. -/
def ArticleNumber.fromItemNumber (n : ItemNumber) : ArticleNumber :=
  ⟨n.base_number, n.eda_numbers, n.range_end_numbers⟩

/-- `[ア-ン]+`. -/
def Re.katakana : Re := .plus (.cls (between 'ア' 'ン'))
/-- `[あ-ん]+`. -/
def Re.hiragana : Re := .plus (.cls (between 'あ' 'ん'))
/-- `[Ａ-Ｚ]+`. -/
def Re.upper : Re := .plus (.cls (between 'Ａ' 'Ｚ'))
/-- `[ａ-ｚ]+`. -/
def Re.lower : Re := .plus (.cls (between 'ａ' 'ｚ'))

/-- The pattern of `parse_item_number_base`, src/article_number.rs 438. -/
def reItemBase : Re := .cap "str" (.alt
  (.seqs [.ch '（', .alts [.cap "paren_iroha_katakana" .katakana,
    .cap "paren_iroha_hiragana" .hiragana, .cap "paren_kansuji" .kansuji,
    .cap "paren_zenkaku_num" .zenkaku, .cap "paren_zenkaku_upper" .upper,
    .cap "paren_zenkaku_lower" .lower], .ch '）'])
  (.alts [.cap "no_paren_iroha_katakana" .katakana,
    .cap "no_paren_iroha_hiragana" .hiragana, .cap "no_paren_kansuji" .kansuji,
    .cap "no_paren_zenkaku_num" .zenkaku, .cap "no_paren_zenkaku_upper" .upper,
    .cap "no_paren_zenkaku_lower" .lower]))

/-- `re_is_roman.is_match`, src/article_number.rs 439. -/
def isRoman (s : List Char) : Bool :=
  s.any fun c => "ixvlcIXVLCｉｘｖｌｃＩＸＶＬＣ".toList.contains c

/-- The branches for full-width letters, e.g. src/article_number.rs 458-465. -/
def readLetters (E : Ext) (roman alphabet : ItemPattern) (s : List Char) :
    Res (ItemPattern × Usize) :=
  if isRoman s then (Res.unwrap (parseRoman E s)).bind fun n => .ok (roman, n)
  else (Res.unwrap (parseZenkakuAlphabet s)).bind fun n => .ok (alphabet, n)

/-- The branches of `parse_item_number_base` in order, src/article_number.rs 441-513: the group, and
what is done with its text. -/
def itemBranches (E : Ext) : List (String × (List Char → Res (ItemPattern × Usize))) := [
  ("paren_iroha_katakana", fun s =>
    (Res.unwrap (parseIrohaKatakana s)).bind fun n => .ok (.parenIrohaKatakana, n)),
  ("paren_iroha_hiragana", fun s =>
    (Res.unwrap (parseIrohaHiragana s)).bind fun n => .ok (.parenIrohaHiragana, n)),
  ("paren_kansuji", fun s => (Res.unwrap (E.kansujiUsize s)).bind fun n => .ok (.parenKansuji, n)),
  ("paren_zenkaku_num", fun s =>
    (Res.unwrap (parseZenkakuNum s)).bind fun n => .ok (.parenZenkakuNum, n)),
  ("paren_zenkaku_upper", readLetters E .parenZenkakuRomanUpper .parenZenkakuUpper),
  ("paren_zenkaku_lower", readLetters E .parenZenkakuRomanLower .parenZenkakuLower),
  ("no_paren_iroha_katakana", fun s =>
    (Res.unwrap (parseIrohaKatakana s)).bind fun n => .ok (.noParenIrohaKatakana, n)),
  ("no_paren_iroha_hiragana", fun s =>
    (Res.unwrap (parseIrohaHiragana s)).bind fun n => .ok (.noParenIrohaHiragana, n)),
  ("no_paren_kansuji", fun s =>
    (Res.unwrap (E.kansujiUsize s)).bind fun n => .ok (.noParenKansuji, n)),
  ("no_paren_zenkaku_num", fun s =>
    (Res.unwrap (parseZenkakuNum s)).bind fun n => .ok (.noParenZenkakuNum, n)),
  ("no_paren_zenkaku_upper", readLetters E .noParenZenkakuRomanUpper .noParenZenkakuUpper),
  ("no_paren_zenkaku_lower", readLetters E .noParenZenkakuRomanLower .noParenZenkakuLower)]

/-- The `if let .. else if let ..` chain; `unreachable!()` at the end is a panic. -/
def firstBranch (caps : Caps) :
    List (String × (List Char → Res (ItemPattern × Usize))) → Res (ItemPattern × Usize)
  | [] => .panic
  | (n, f) :: r =>
    match caps.name n with
    | some s => f s
    | none => firstBranch caps r

/-- `parse_item_number_base`, src/article_number.rs 436-518. -/
def parseItemNumberBase (E : Ext) (s : List Char) : Res (Option (ItemPattern × Usize)) :=
  match reItemBase.captures s with
  | some caps => (firstBranch caps (itemBranches E)).bind fun r => .ok (some r)
  | none => .ok none

/-- One number of an item in `re_item`, src/article_number.rs 564. -/
def Re.itemNumber : Re := .alt
  (.seqs [.ch '（', .alts [.katakana, .hiragana, .kansuji, .zenkaku, .upper, .lower], .ch '）'])
  (.alts [.katakana, .hiragana, .kansuji, .zenkaku, .upper, .lower])

/-- `re_item`, src/article_number.rs 564. -/
def reItem : Re := .seqs [
  .cap "base_number" .itemNumber,
  .opt (.cap "eda_numbers" (.plus (.seq (.ch 'の') .itemNumber))),
  .opt (.seqs [
    .lit ['か', 'ら'],
    .cap "base_number2" .itemNumber,
    .opt (.cap "eda_numbers2" (.plus (.seq (.ch 'の') .itemNumber))),
    .lit ['ま', 'で']]),
  .eos]

/-- The branch numbers of an item, src/article_number.rs 569-575 and 586-593: those that cannot be
read are left out. -/
def itemEda (E : Ext) (s : List Char) : Res (List Usize) :=
  collectRes (fun w => (parseItemNumberBase E w).bind fun o => .ok (o.toList.map Prod.snd))
    (noPieces s)

/-- `parse_item_number`, src/article_number.rs 563-612. The groups `base_number_2` and
`eda_number_2` do not exist in the pattern. -/
def parseItemNumber (E : Ext) (s : List Char) : Res (Option ItemNumber) :=
  match reItem.captures (trim s) with
  | none => .ok none
  | some caps =>
    (Res.unwrap (caps.name "base_number")).bind fun b =>
    (parseItemNumberBase E b).bind fun o => orNone o fun (pat, base) =>
    (match caps.name "eda_numbers" with
      | some m => itemEda E m
      | none => .ok []).bind fun eda =>
    (match caps.name "base_number_2" with
      | some m => (parseItemNumberBase E m).bind fun o => .ok (o.toList.map Prod.snd)
      | none => .ok []).bind fun range =>
    (match caps.name "eda_number_2" with
      | some m => itemEda E m
      | none => .ok []).bind fun range2 =>
    .ok (some ⟨s, base, eda, range ++ range2, pat⟩)

/-- The pattern of `split_number`, src/article_number.rs 521. -/
def reSplit : Re := .seqs [
  .cap "s" (.plus (.cls fun c => !isSpace c)),
  .star (.cls isSpace),
  .cap "text" (.plus (.cls fun c => c != '\n')),
  .eos]

/-- `split_number`, src/article_number.rs 520-527. -/
def splitNumber (s : List Char) : Option (List Char × List Char) :=
  (reSplit.captures s).bind fun caps =>
    (caps.name "s").bind fun a => (caps.name "text").bind fun b => some (a, b)

end JLaw
