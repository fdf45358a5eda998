import Verif.Lemmas.Kansuji
import Verif.Model.FromText
import Verif.Model.Utils

/-!
# The unit tests of the crate, run on the model

These are tests of the model, not theorems about it: each repeats a `#[test]` of /repo with the same
input and the same expected value. The two tests that need files (src/tests) are in `conformance/run.sh`. XML given
as a string in a test is given as a tree here. -/

namespace JLaw.Conformance

/-- `check_parse_article_number`, src/article_number.rs 529-563. -/
example : parseArticleNumber kanjiExt "第一条".toList = .ok (some ⟨1, [], []⟩) ∧
    parseArticleNumber kanjiExt "第一条の二".toList = .ok (some ⟨1, [2], []⟩) ∧
    parseArticleNumber kanjiExt "第一項の二の三".toList = .ok (some ⟨1, [2, 3], []⟩) := by
  decide +kernel

/-- `check_parse_zenkaku_alphabet_lower` and `check_parse_zenkaku_alphabet_upper`,
src/article_number.rs 931-938. -/
example : parseZenkakuAlphabet "ｂ".toList = some 2 ∧ parseZenkakuAlphabet "Ｂ".toList = some 2 := by
  decide +kernel

/-- The text of `check_parse_line_contents_1`, src/parse_from_text.rs 984-997. -/
def linesText : List Char :=
  ("第一編　総則\n" ++
    "  第一章　通則\n" ++
    "  （基本原則）\n" ++
    "  第一条　私権は、公共の福祉に適合しなければならない。\n" ++
    "  ２　権利の行使及び義務の履行は、信義に従い誠実に行わなければならない。\n" ++
    "  ３　権利の濫用は、これを許さない。\n" ++
    "  （解釈の基準）\n" ++
    "  第二条の二　この法律は、個人の尊厳と両性の本質的平等を旨として、解釈しなければならない。\n" ++
    "  第十三条　被保佐人が次に掲げる行為をするには、その保佐人の同意を得なければならない。ただし、第九条ただし書に規定する行為については、この限りでない。\n" ++
    "  一　元本を領収し、又は利用すること。\n" ++
    "  二　主たる債務者が法人である場合の次に掲げる者\n" ++
    "    イ　主たる債務者の総株主の議決権（株主総会において決議をすることができる事項の全部につき議決権を行使することができない株式についての議決権を除く。以下この号において同じ。）の過半数を有する者\n" ++
    "  三　不動産その他重要な財産に関する権利の得喪を目的とする行為をすること。\n" ++
    "  ２　家庭裁判所は、第十一条本文に規定する者又は保佐人若しくは保佐監督人の請求により、被保佐人が前項各号に掲げる行為以外の行為をする場合であってもその保佐人の同意を得なければならない旨の審判をすることができる。ただし、第九条ただし書に規定する行為については、この限りでない。").toList

/-- What `check_parse_line_contents_1` expects, src/parse_from_text.rs 998-1034. -/
def linesExpected : List TextLine := [
      .part ⟨1, [], []⟩
        "総則".toList,
      .chapter ⟨1, [], []⟩
        "通則".toList,
      .caption "基本原則".toList,
      .article ⟨1, [], []⟩
        "私権は、公共の福祉に適合しなければならない。".toList,
      .paragraph ⟨2, [], []⟩
        "権利の行使及び義務の履行は、信義に従い誠実に行わなければならない。".toList,
      .paragraph ⟨3, [], []⟩
        "権利の濫用は、これを許さない。".toList,
      .caption "解釈の基準".toList,
      .article ⟨2, [2], []⟩
        "この法律は、個人の尊厳と両性の本質的平等を旨として、解釈しなければならない。".toList,
      .article ⟨13, [], []⟩
        "被保佐人が次に掲げる行為をするには、その保佐人の同意を得なければならない。ただし、第九条ただし書に規定する行為については、この限りでない。".toList,
      .item ⟨"一".toList, 1, [], [], .noParenKansuji⟩
        "元本を領収し、又は利用すること。".toList,
      .item ⟨"二".toList, 2, [], [], .noParenKansuji⟩
        "主たる債務者が法人である場合の次に掲げる者".toList,
      .item ⟨"イ".toList, 1, [], [], .noParenIrohaKatakana⟩
        "主たる債務者の総株主の議決権（株主総会において決議をすることができる事項の全部につき議決権を行使することができない株式についての議決権を除く。以下この号において同じ。）の過半数を有する者".toList,
      .item ⟨"三".toList, 3, [], [], .noParenKansuji⟩
        "不動産その他重要な財産に関する権利の得喪を目的とする行為をすること。".toList,
      .paragraph ⟨2, [], []⟩
        "家庭裁判所は、第十一条本文に規定する者又は保佐人若しくは保佐監督人の請求により、被保佐人が前項各号に掲げる行為以外の行為をする場合であってもその保佐人の同意を得なければならない旨の審判をすることができる。ただし、第九条ただし書に規定する行為については、この限りでない。".toList]

-- `check_parse_line_contents_1`, src/parse_from_text.rs 980-1035.
#guard readLines kanjiExt linesText = .ok linesExpected

/-- The text of `check_parse_body_1`, src/parse_from_text.rs 1039-1052. -/
def bodyText : List Char :=
  ("第一編　総則\n" ++
    "  第一章　通則\n" ++
    "  （基本原則）\n" ++
    "  第一条　私権は、公共の福祉に適合しなければならない。\n" ++
    "  ２　権利の行使及び義務の履行は、信義に従い誠実に行わなければならない。\n" ++
    "  ３　権利の濫用は、これを許さない。\n" ++
    "  （解釈の基準）\n" ++
    "  第二条　この法律は、個人の尊厳と両性の本質的平等を旨として、解釈しなければならない。\n" ++
    "  第十三条　被保佐人が次に掲げる行為をするには、その保佐人の同意を得なければならない。ただし、第九条ただし書に規定する行為については、この限りでない。\n" ++
    "  一　元本を領収し、又は利用すること。\n" ++
    "  二　主たる債務者が法人である場合の次に掲げる者\n" ++
    "    イ　主たる債務者の総株主の議決権（株主総会において決議をすることができる事項の全部につき議決権を行使することができない株式についての議決権を除く。以下この号において同じ。）の過半数を有する者\n" ++
    "  三　不動産その他重要な財産に関する権利の得喪を目的とする行為をすること。\n" ++
    "  ２　家庭裁判所は、第十一条本文に規定する者又は保佐人若しくは保佐監督人の請求により、被保佐人が前項各号に掲げる行為以外の行為をする場合であってもその保佐人の同意を得なければならない旨の審判をすることができる。ただし、第九条ただし書に規定する行為については、この限りでない。").toList

/-- What `check_parse_body_1` expects, src/parse_from_text.rs 1054-1264. -/
def bodyExpected : List (MainProvisionContents (lvl 0)) :=
  [.part ⟨Text.fromValue "総則", [.chapter ⟨Text.fromValue "通則", [
    .article ⟨some ⟨Text.fromValue "基本原則", none⟩, Text.fromValue "", [⟨none, Text.new, [], [], [textToSentence 1 "私権は、公共の福祉に適合しなければならない。".toList], [], [],
        ⟨1, [], []⟩, false, false, false⟩,
      ⟨none, Text.new, [], [], [textToSentence 1 "権利の行使及び義務の履行は、信義に従い誠実に行わなければならない。".toList], [], [],
        ⟨2, [], []⟩, false, false, false⟩,
      ⟨none, Text.new, [], [], [textToSentence 1 "権利の濫用は、これを許さない。".toList], [], [],
        ⟨3, [], []⟩, false, false, false⟩],
      none, ⟨1, [], []⟩, false, false⟩,
    .article ⟨some ⟨Text.fromValue "解釈の基準", none⟩, Text.fromValue "", [⟨none, Text.new, [], [], [textToSentence 1 "この法律は、個人の尊厳と両性の本質的平等を旨として、解釈しなければならない。".toList], [], [],
        ⟨1, [], []⟩, false, false, false⟩],
      none, ⟨2, [], []⟩, false, false⟩,
    .article ⟨none, Text.fromValue "", [⟨none, Text.new, [], [], [textToSentence 1 "被保佐人が次に掲げる行為をするには、その保佐人の同意を得なければならない。ただし、第九条ただし書に規定する行為については、この限りでない。".toList], [], [⟨none, .sentence [textToSentence 1 "元本を領収し、又は利用すること。".toList],
          [], [], some ⟨1, [], []⟩, false, false⟩,
        ⟨none, .sentence [textToSentence 1 "主たる債務者が法人である場合の次に掲げる者".toList],
          [⟨none, .sentence [textToSentence 1 "主たる債務者の総株主の議決権（株主総会において決議をすることができる事項の全部につき議決権を行使することができない株式についての議決権を除く。以下この号において同じ。）の過半数を有する者".toList],
          [], [], some ⟨1, [], []⟩, false, false⟩], [], some ⟨2, [], []⟩, false, false⟩,
        ⟨none, .sentence [textToSentence 1 "不動産その他重要な財産に関する権利の得喪を目的とする行為をすること。".toList],
          [], [], some ⟨3, [], []⟩, false, false⟩],
        ⟨1, [], []⟩, false, false, false⟩,
      ⟨none, Text.new, [], [], [textToSentence 1 "家庭裁判所は、第十一条本文に規定する者又は保佐人若しくは保佐監督人の請求により、被保佐人が前項各号に掲げる行為以外の行為をする場合であってもその保佐人の同意を得なければならない旨の審判をすることができる。ただし、第九条ただし書に規定する行為については、この限りでない。".toList], [], [],
        ⟨2, [], []⟩, false, false, false⟩],
      none, ⟨13, [], []⟩, false, false⟩],
    ⟨1, [], []⟩, false, false⟩], ⟨1, [], []⟩, false, false⟩]

-- `check_parse_body_1`, src/parse_from_text.rs 1037-1265.
#guard match parseBody (L := lvl 0) kanjiExt 100 "title".toList bodyText with
  | .ok (some b) => toString (repr b.main_provision.toXml) =
      toString (repr (MainProvision.toXml ⟨bodyExpected, none⟩))
  | _ => false

/-- The element of `check_ruby`, src/text.rs 408. -/
def rubyElement : Element := ⟨"Ruby", [], [.text "甚", .element "Rt" [] [.text "じん"]]⟩

/-- `check_ruby`, src/text.rs 406-413. -/
example : Ruby.parser (L := lvl 1) rubyElement =
    .ok ⟨(Text.fromValue "甚" : Text (lvl 0)), "じん"⟩ := rfl

/-- `check_text`, src/text.rs 399-404, with the text after the ruby cut short. -/
example : (Text.fromChildren (L := lvl 1) [.text "激", rubyElement.node, .text "災害に"]).bind
    (fun t => .ok (t.toStr (render 1))) = Res.ok "激甚災害に" := by decide +kernel

/-- The paragraphs of `check_para_to_text`, src/utils.rs 1141-1209, with shorter texts. -/
def paraList : List (Paragraph (lvl 0)) :=
  [⟨none, Text.new, [], [], [textToSentence 1 "被保佐人が".toList], [],
      [⟨none, .sentence [textToSentence 1 "元本を".toList], [], [], some ⟨1, [], []⟩, false, false⟩,
        ⟨none, .sentence [textToSentence 1 "主たる".toList],
          [⟨none, .sentence [textToSentence 1 "議決権".toList], [], [], some ⟨1, [], []⟩, false,
            false⟩], [], some ⟨2, [], []⟩, false, false⟩,
        ⟨none, .sentence [textToSentence 1 "不動産".toList], [], [], some ⟨3, [], []⟩, false, false⟩],
      ⟨1, [], []⟩, false, false, false⟩,
    ⟨none, Text.new, [], [], [textToSentence 1 "家庭裁判所は".toList], [], [], ⟨2, [], []⟩, false,
      false, false⟩]

/-- `check_para_to_text`, src/utils.rs 1129-1297. -/
example : textInfoListFromParagraph (render 0) paraList =
    [(⟨⟨1, [], []⟩, []⟩, "被保佐人が"), (⟨⟨1, [], []⟩, [some ⟨1, [], []⟩]⟩, "元本を"),
      (⟨⟨1, [], []⟩, [some ⟨2, [], []⟩]⟩, "主たる"),
      (⟨⟨1, [], []⟩, [some ⟨2, [], []⟩, some ⟨1, [], []⟩]⟩, "議決権"),
      (⟨⟨1, [], []⟩, [some ⟨3, [], []⟩]⟩, "不動産"), (⟨⟨2, [], []⟩, []⟩, "家庭裁判所は")] := by
  decide +kernel

end JLaw.Conformance
