{"id": "C01", "title": "Num attribute string round trip", "statement": "Writing a number with num_str and reading it back with from_num_str gives the same number exactly when the number has no range end, or has exactly one branch number. In every other case (a range on a number with zero or several branch numbers) the value read back differs from the one written.", "quantifier": "every ArticleNumber whose components fit in usize", "why_tests_cant": "the set of numbers is infinite and the failure depends on the shape of two lists at once", "anchors": ["src/article_number.rs: ArticleNumber::num_str", "src/article_number.rs: ArticleNumber::from_num_str"]}
{"id": "C02", "title": "Num attribute strings identify range-free numbers", "statement": "Two numbers without a range end have the same num_str only if they are equal; with range ends two different numbers can share a string.", "quantifier": "every pair of ArticleNumbers", "why_tests_cant": "injectivity ranges over pairs of unbounded values", "anchors": ["src/article_number.rs: ArticleNumber::num_str"]}
{"id": "C03", "title": "Language accepted by from_num_str", "statement": "from_num_str never panics. It succeeds exactly when the text before the first ':' and, if present, the text between the first and second ':' are '_'-separated lists of usize literals; the result holds exactly those numbers in order. Anything after a second ':' is ignored, even garbage.", "quantifier": "every input string", "why_tests_cant": "the accept/reject boundary is over all strings", "anchors": ["src/article_number.rs: ArticleNumber::from_num_str", "src/article_number.rs: impl FromStr for ArticleNumber"]}
{"id": "C04", "title": "Full-width digit round trip", "statement": "Reading the full-width rendering of a usize gives back that usize, the rendering contains only full-width digits, and it is injective.", "quantifier": "every usize", "why_tests_cant": "2^64 values; needs induction over the decimal digits", "anchors": ["src/article_number.rs: to_zenkaku_num", "src/article_number.rs: parse_zenkaku_num"]}
{"id": "C05", "title": "Iroha ordinals", "statement": "For both kana scripts, numbers 1..47 are rendered as 47 distinct single kana and read back as the same number; every other number has no rendering, and every other string has no number.", "quantifier": "every usize and every string", "why_tests_cant": "the negative half ranges over all strings and all usize values", "anchors": ["src/article_number.rs: parse_iroha_katakana", "src/article_number.rs: parse_iroha_hiragana", "src/article_number.rs: to_iroha_katakana", "src/article_number.rs: to_iroha_hiragana"]}
{"id": "C06", "title": "When rendering an item heading panics", "statement": "item_text returns normally exactly when every component number is renderable in the pattern: always for kanji and full-width digits, 1..47 for iroha, the range supported by roman numerals for roman, and never for the alphabet patterns (they panic for every number).", "quantifier": "every ArticleNumber and every ItemPattern", "why_tests_cant": "panic freedom over unbounded lists of numbers", "anchors": ["src/article_number.rs: ArticleNumber::item_text", "src/article_number.rs: ItemPattern::num_to_str", "src/article_number.rs: ItemPattern::num_to_str_no_paren", "src/article_number.rs: to_zenkaku_alphabet_upper"]}
{"id": "C07", "title": "Parenthesised patterns only add parentheses", "statement": "For a parenthesised pattern the heading of a plain number is the un-parenthesised rendering between full-width parentheses. This holds for all patterns except the two roman ones, where upper case and lower case are exchanged.", "quantifier": "every usize and every ItemPattern", "why_tests_cant": "needs all numbers for each pattern; the swapped pair is visible only for numbers whose roman form has a letter that changes case", "anchors": ["src/article_number.rs: ItemPattern::num_to_str", "src/article_number.rs: ItemPattern::num_to_str_no_paren"]}
{"id": "C08", "title": "Heading text of parts to articles reads back", "statement": "For every level (編 章 節 款 目 条), parsing the heading text produced for a number gives that number back, branch numbers and range ends included, as long as every component is between 1 and 9999.", "quantifier": "every ArticleNumber with components in 1..9999 and every level", "why_tests_cant": "unbounded lists of branch numbers; the pattern match must consume every repetition", "anchors": ["src/article_number.rs: ArticleNumber::gen_articles_text", "src/article_number.rs: ArticleNumber::part_text", "src/article_number.rs: ArticleNumber::article_text", "src/article_number.rs: parse_article_number"]}
{"id": "C09", "title": "Paragraph number text reads back", "statement": "Parsing the text produced by paragraph_text gives the number back exactly when the range end is absent or is a single number; branch numbers of a range end are dropped.", "quantifier": "every ArticleNumber with usize components", "why_tests_cant": "unbounded lists of branch numbers", "anchors": ["src/article_number.rs: ArticleNumber::paragraph_text", "src/article_number.rs: parse_article_number"]}
{"id": "C10", "title": "Where parse_article_number panics", "statement": "parse_article_number panics only in three situations: an ASCII number with a unit suffix that exceeds usize (base or range end), a bare paragraph number that exceeds usize, or a bare paragraph number whose branch numbers use the katakana separator ノ or exceed usize. On every other string it returns.", "quantifier": "every input string", "why_tests_cant": "panic freedom is over all strings", "anchors": ["src/article_number.rs: parse_article_number"]}
{"id": "C11", "title": "Item headings read back", "statement": "For the kanji, katakana-iroha and full-width digit patterns (with and without parentheses), parsing the heading text of a range-free number with parse_item_number gives that number and that pattern back.", "quantifier": "every range-free ArticleNumber renderable in the pattern", "why_tests_cant": "unbounded lists of branch numbers and backtracking in the pattern", "anchors": ["src/article_number.rs: ArticleNumber::item_text", "src/article_number.rs: parse_item_number", "src/article_number.rs: parse_item_number_base"]}
{"id": "C12", "title": "Item headings never yield a range", "statement": "parse_item_number never returns a number with a range end, whatever the input. The heading of a range of items is the heading of its start, から, the heading of its end and まで; in kanji, katakana or full-width digits it is read as the number at its start, whatever the end.", "quantifier": "every input string; every range of items in six patterns", "why_tests_cant": "universally quantified negative statement", "anchors": ["src/article_number.rs: parse_item_number", "src/article_number.rs: ArticleNumber::item_text"]}
{"id": "C13", "title": "Splitting a line into heading and text", "statement": "On a line without leading or trailing blanks and without line feeds, split_number returns None exactly for lines shorter than two characters; otherwise heading followed by blanks followed by text is the whole line, both parts are non-empty, the heading has no blank, and when the line has an interior blank the heading is everything before it.", "quantifier": "every trimmed line", "why_tests_cant": "greedy matching over all strings", "anchors": ["src/article_number.rs: split_number"]}
{"id": "C14", "title": "Text, Ruby, Sup and Sub survive writing and reading", "statement": "A Text value written as an XML element and read back is equal to the original exactly when every ruby in it (also inside lines) has a base text made only of plain strings and every line in it survives; a Ruby survives exactly under that condition; Sup and Sub always survive.", "quantifier": "every Text, Ruby, Sup and Sub value of any nesting depth", "why_tests_cant": "recursive data of unbounded depth and width", "anchors": ["src/text.rs: impl Parser for Text", "src/text.rs: Text::to_children", "src/text.rs: Ruby", "src/text.rs: Sup", "src/text.rs: Sub"]}
{"id": "C15", "title": "Sentence and Line survive writing and reading", "statement": "A Sentence read back from its element equals the original exactly when each of its parts survives; a Line survives exactly when its parts do and its style is not Double (which is read back as Dotted).", "quantifier": "every Sentence and Line value", "why_tests_cant": "recursive data; all combinations of attributes", "anchors": ["src/sentence.rs: Sentence", "src/line.rs: Line", "src/line.rs: LineStyle"]}
{"id": "C16", "title": "Lists survive writing and reading", "statement": "A List with its nested Sublist1, Sublist2 and Sublist3 is read back unchanged from its element exactly when every sentence or column in it survives; empty sentence and column lists are read back too.", "quantifier": "every List value", "why_tests_cant": "unbounded nested lists", "anchors": ["src/list.rs: List", "src/list.rs: Sublist1", "src/list.rs: Sublist2", "src/list.rs: Sublist3", "src/class.rs: Column"]}
{"id": "C17", "title": "Tables survive writing and reading", "statement": "A Table is read back unchanged exactly when its cells are; a cell is read back unchanged only if it has neither align nor valign set, since setting them overwrites the rowspan attribute, and no double border, since a double border comes back dotted.", "quantifier": "every Table value", "why_tests_cant": "all attribute combinations in unbounded tables", "anchors": ["src/table.rs: Table", "src/table.rs: TableColumn"]}
{"id": "C18", "title": "Remarks never survive writing", "statement": "No Remarks value can be read back from the element written for it: the required label is not written, so reading always fails with a missing-tag error. The label on its own does survive being written and read, exactly when its text does.", "quantifier": "every Remarks value", "why_tests_cant": "a statement about every value of the type", "anchors": ["src/remarks.rs: Remarks", "src/remarks.rs: RemarksLabel"]}
{"id": "C19", "title": "Figure, note, style, format and table structs survive writing and reading", "statement": "Each of these structs is read back unchanged exactly when it has no remarks and its title and body survive; when it has remarks they are dropped silently and the rest is unchanged, unless reading the remarks panics.", "quantifier": "every FigStruct, NoteStruct, StyleStruct, FormatStruct and TableStruct value", "why_tests_cant": "recursive data", "anchors": ["src/structs.rs: FigStruct", "src/structs.rs: NoteStruct", "src/structs.rs: StyleStruct", "src/structs.rs: FormatStruct", "src/structs.rs: TableStruct"]}
{"id": "C20", "title": "Items and subitems survive writing and reading", "statement": "An Item (and each of the ten subitem levels) is read back unchanged exactly when it has a number that survives, its sentence part is not an empty list and survives, and its title, children and structures survive.", "quantifier": "every Item and Subitem1..Subitem10 value", "why_tests_cant": "eleven nested levels of unbounded lists", "anchors": ["src/paragraph.rs: Item", "src/paragraph.rs: Subitem1", "src/paragraph.rs: Subitem10", "src/class.rs: SentenceOrColumnOrTable"]}
{"id": "C21", "title": "Paragraphs survive writing and reading", "statement": "A Paragraph is read back unchanged exactly when its number, caption, paragraph number text, sentences, amendment provisions, classes, structures and items survive.", "quantifier": "every Paragraph value", "why_tests_cant": "recursive data", "anchors": ["src/paragraph.rs: Paragraph", "src/class.rs: Class"]}
{"id": "C22", "title": "Articles, divisions, subsections, sections, chapters and parts survive writing and reading", "statement": "Each is read back unchanged exactly when its number and its components survive and, for an article, it has at least one paragraph or a supplementary note; an article with neither makes the reader panic.", "quantifier": "every Article, Division, Subsection, Section, Chapter and Part value", "why_tests_cant": "recursive data", "anchors": ["src/article.rs: Article", "src/article.rs: Division", "src/article.rs: Subsection", "src/article.rs: Section", "src/article.rs: Chapter", "src/article.rs: Part"]}
{"id": "C23", "title": "Tables of contents survive writing and reading", "statement": "A TOC is read back unchanged exactly when its entries survive and its preamble label is absent; a TOC with a preamble label is read back with the preamble label in place of the label.", "quantifier": "every TOC value", "why_tests_cant": "recursive data", "anchors": ["src/table_of_contents.rs: TOC", "src/table_of_contents.rs: TOCPart", "src/table_of_contents.rs: TOCArticle", "src/table_of_contents.rs: TOCSupplProvision"]}
{"id": "C24", "title": "Appendices survive writing and reading", "statement": "Each appendix kind is read back unchanged exactly when it has no remarks and its components survive; Appdx additionally must have no related article numbers, because they are written under the formula number's tag.", "quantifier": "every AppdxTable, AppdxNote, AppdxStyle, AppdxFormat, AppdxFig and Appdx value", "why_tests_cant": "recursive data", "anchors": ["src/appdx.rs: AppdxTable", "src/appdx.rs: AppdxNote", "src/appdx.rs: AppdxStyle", "src/appdx.rs: AppdxFormat", "src/appdx.rs: AppdxFig", "src/appdx.rs: Appdx"]}
{"id": "C25", "title": "Supplementary provisions survive writing and reading", "statement": "A SupplProvision is read back unchanged exactly when its label and children survive; an AppdxTable child never survives (its title tag is misspelt) and an Appdx child never survives (it is written under another tag).", "quantifier": "every SupplProvision value", "why_tests_cant": "recursive data", "anchors": ["src/suppl_provision.rs: SupplProvision", "src/suppl_provision.rs: SupplProvisionAppdxTable", "src/suppl_provision.rs: SupplProvisionAppdxStyle", "src/suppl_provision.rs: SupplProvisionAppdx"]}
{"id": "C26", "title": "Amendment provisions survive only without new provisions", "statement": "An AmendProvision is read back unchanged exactly when it has no new provisions and its sentence part survives.", "quantifier": "every AmendProvision value", "why_tests_cant": "recursive data, 48 kinds of new provision", "anchors": ["src/law.rs: AmendProvision", "src/law.rs: NewProvision"]}
{"id": "C27", "title": "Quoted structures and formulas survive writing and reading", "statement": "A QuoteStruct is read back unchanged exactly when every node in it is; an ArithFormula additionally must have no number, because the number is not written.", "quantifier": "every QuoteStruct and ArithFormula value of any nesting depth", "why_tests_cant": "recursive data of unbounded depth", "anchors": ["src/contents.rs: Contents", "src/contents.rs: ArithFormula", "src/structs.rs: QuoteStruct"]}
{"id": "C28", "title": "Whole laws survive writing and reading", "statement": "Reading the element written for a Law gives the same Law exactly when it has a number that survives and all parts of its body survive in the sense of the preceding properties; a Law without a number makes the reader panic.", "quantifier": "every Law value of any size and nesting depth", "why_tests_cant": "recursive data of unbounded depth and width", "anchors": ["src/law.rs: Law", "src/law.rs: LawBody", "src/law.rs: MainProvision", "src/law.rs: Preamble", "src/law.rs: LawTitle"]}
{"id": "C29", "title": "Where reading a law element panics", "statement": "Reading an XML element as a Law panics only if the root lacks the Num attribute or some Article element in the tree has no child element besides ArticleCaption and ArticleTitle. On every other element reading returns a value or an error.", "quantifier": "every XML element tree", "why_tests_cant": "all trees of any shape", "anchors": ["src/law.rs: impl Parser for Law", "src/article.rs: impl Parser for Article"]}
{"id": "C30", "title": "Reading recursion is bounded by document depth", "statement": "Reading descends at least one XML level at every recursive re-entry, so a document of depth d never needs more than d nested re-entries and reading always terminates.", "quantifier": "every XML element tree", "why_tests_cant": "termination over all trees", "anchors": ["src/contents.rs: impl Parser for Contents", "src/table.rs: impl Parser for TableColumn", "src/law.rs: impl Parser for AmendProvision"]}
{"id": "C31", "title": "Wrong root tags are rejected", "statement": "Reading an element whose tag is not the expected one fails with an error naming both tags, for every kind of element except the few that deliberately do not look at their tag (Caption, Fig, the raw-content elements).", "quantifier": "every XML element", "why_tests_cant": "all tag names", "anchors": ["src/result.rs: Error::WrongTagName", "src/law.rs: impl Parser for Law", "src/paragraph.rs: impl Parser for Paragraph"]}
{"id": "C32", "title": "Unknown child tags are rejected", "statement": "For the element kinds with a closed list of child tags, a child element with any other tag makes reading fail, wherever it stands among the children, unless an earlier child already made it fail.", "quantifier": "every XML element and every position of the foreign child", "why_tests_cant": "all tags and all positions", "anchors": ["src/sentence.rs: impl Parser for Sentence", "src/paragraph.rs: impl Parser for Paragraph", "src/law.rs: impl Parser for LawBody", "src/article.rs: impl Parser for Article"]}
{"id": "C33", "title": "Boolean attributes", "statement": "A Delete, Hide, OldStyle, OldNum or LineBreak attribute is read as false when absent, as its value when it is exactly true or false, and makes reading fail otherwise.", "quantifier": "every XML element and every attribute value", "why_tests_cant": "all strings as attribute values", "anchors": ["src/lib.rs: get_attribute_opt_with_parse", "src/paragraph.rs: impl Parser for Paragraph", "src/article.rs: impl Parser for Article"]}
{"id": "C34", "title": "Comments, processing instructions and CDATA do not matter", "statement": "Inserting or removing comments, processing instructions and CDATA sections anywhere in a tree whose first children are not required by position does not change the result of reading; where a title must come first, a comment before it makes reading fail.", "quantifier": "every XML tree and every set of inserted nodes", "why_tests_cant": "all trees and insert positions", "anchors": ["src/sentence.rs: impl Parser for Sentence", "src/paragraph.rs: impl Parser for Paragraph", "src/article.rs: impl Parser for Part"]}
{"id": "C35", "title": "Attribute order and foreign attributes do not matter", "statement": "The result of reading depends only on the values of the attributes by name: reordering attributes or adding attributes with other names never changes it.", "quantifier": "every XML tree", "why_tests_cant": "all permutations and all additional attributes", "anchors": ["src/lib.rs: get_attribute", "src/law.rs: impl Parser for Law"]}
{"id": "C36", "title": "Document order is preserved", "statement": "In a successfully read Paragraph, Article, Chapter, MainProvision and so on, repeated children appear in the order in which their elements appear in the document, one value per element.", "quantifier": "every XML tree", "why_tests_cant": "unbounded sequences", "anchors": ["src/paragraph.rs: impl Parser for Paragraph", "src/article.rs: impl Parser for Chapter", "src/law.rs: impl Parser for MainProvision"]}
{"id": "C37", "title": "Law header fields", "statement": "Era, year, number, promulgation month and day, type and language of a read Law are exactly the values of the corresponding attributes; each era, type and language name is recognised in exactly one way and any other name is rejected.", "quantifier": "every XML element", "why_tests_cant": "all attribute strings", "anchors": ["src/law.rs: impl Parser for Law", "src/law.rs: Era", "src/law.rs: LawType", "src/law.rs: Lang"]}
{"id": "C38", "title": "to_xml and write_file agree", "statement": "Whenever to_xml gives a string, write_file to something that takes everything succeeds and writes exactly this string; with an XML writer that uses write_all the two agree for every honest Write, whenever both succeed. to_xml gives a string exactly when the XML writer succeeds and hands over nothing but chunks that are valid UTF-8; otherwise it gives the input/output error.", "quantifier": "every Law and every XML writer behaviour: any finite sequence of calls that depends on the answers; every Write", "why_tests_cant": "the chunking of the writer is arbitrary", "anchors": ["src/lib.rs: to_xml", "src/lib.rs: write_file", "src/lib.rs: WritableString"]}
{"id": "C39", "title": "Article lists are complete and ordered", "statement": "The article list of a main or supplementary provision contains exactly the articles found in it at any level (directly, in parts, chapters, sections, subsections, divisions), each once per occurrence, in document order.", "quantifier": "every MainProvision and SupplProvision", "why_tests_cant": "unbounded nested structure", "anchors": ["src/utils.rs: article_list_from_main_provision", "src/utils.rs: article_list_from_suppl_provision", "src/utils.rs: with_number_article_list_from_main_provision"]}
{"id": "C40", "title": "Numbered and plain article lists agree", "statement": "The numbered article list, stripped of numbers, is the plain article list, and both come with the same paragraph groups, for main and supplementary provisions.", "quantifier": "every MainProvision and SupplProvision", "why_tests_cant": "unbounded nested structure", "anchors": ["src/utils.rs: with_number_article_list_from_suppl_provision", "src/utils.rs: article_list_from_suppl_provision"]}
{"id": "C41", "title": "Paragraph groups", "statement": "The groups of loose paragraphs concatenate to all direct paragraphs in order; there is exactly one group more than there are article-bearing children, and the i-th group holds the paragraphs between the (i-1)-th and i-th such child.", "quantifier": "every MainProvision and SupplProvision", "why_tests_cant": "unbounded sequences", "anchors": ["src/utils.rs: with_number_article_list_from_main_provision"]}
{"id": "C42", "title": "Enclosing numbers of a listed article", "statement": "An article listed inside a division carries that division's number. At every other level the number reported is not the enclosing unit's: it is the number of the unit one level further down (or of the article itself when it is a direct child), so it equals the enclosing unit's number only by coincidence; levels not enclosing the article stay empty.", "quantifier": "every Part, Chapter, Section, Subsection and Division", "why_tests_cant": "all nested structures and all numbers", "anchors": ["src/utils.rs: article_list_from_part", "src/utils.rs: article_list_from_chapter", "src/utils.rs: article_list_from_section", "src/utils.rs: article_list_from_subsection", "src/utils.rs: article_list_from_division"]}
{"id": "C43", "title": "Text index paths", "statement": "text_info_list_from_paragraph yields one entry per paragraph, item and subitem in document order; the index of an entry is the paragraph number followed by the numbers of the enclosing items from the outside in.", "quantifier": "every list of paragraphs", "why_tests_cant": "eleven nested levels of unbounded lists", "anchors": ["src/utils.rs: text_info_list_from_paragraph", "src/utils.rs: text_list_from_subitem1", "src/utils.rs: text_list_from_subitem10"]}
{"id": "C44", "title": "Text of an entry", "statement": "The text of an entry is the rendering of that item's own sentences, columns or table at every level except subitem level 6, where the text of a table is lost (empty string).", "quantifier": "every list of paragraphs", "why_tests_cant": "eleven nested levels of unbounded lists", "anchors": ["src/utils.rs: text_list_from_subitem6", "src/utils.rs: table_to_str"]}
{"id": "C45", "title": "Text extraction is compositional", "statement": "The entries of a concatenation of paragraph lists are the concatenation of the entries; text_from_article and text_from_paragraph_list join the entry texts with line feeds in that order.", "quantifier": "every pair of paragraph lists", "why_tests_cant": "unbounded lists", "anchors": ["src/utils.rs: text_info_list_from_paragraph", "src/utils.rs: text_from_article", "src/utils.rs: text_from_paragraph_list"]}
{"id": "C46", "title": "Sentence rendering", "statement": "Rendering a sentence is the concatenation of the renderings of its parts: strings verbatim, ruby by base text only, sub- and superscripts as _{..} and ^{..}, quoted structures and formulas by their direct strings, ruby and scripts, lines dropped. Titles with or without a writing mode render alike, with scripts without braces.", "quantifier": "every sentence content list", "why_tests_cant": "unbounded lists, all part kinds", "anchors": ["src/utils.rs: sentence_element_to_str", "src/text.rs: Text::to_string", "src/text.rs: TextWithWritingMode::to_string"]}
{"id": "C47", "title": "Table rendering", "statement": "table_to_str yields one line for all header rows followed by one line per row, provided no cell text contains a line feed; cells of a row are joined by one space. A table without rows still yields a second, empty line.", "quantifier": "every Table", "why_tests_cant": "unbounded tables", "anchors": ["src/utils.rs: table_to_str"]}
{"id": "C48", "title": "Generated table of contents is complete and ordered", "statement": "toc_list_from_main_provision and toc_list_from_suppl_provision yield exactly one entry per part, chapter, section, subsection, division and article, in document order, titled with that unit's title text.", "quantifier": "every MainProvision and SupplProvision", "why_tests_cant": "unbounded nested structure", "anchors": ["src/utils.rs: toc_list_from_main_provision", "src/utils.rs: toc_list_from_suppl_provision"]}
{"id": "C49", "title": "Numbers in the generated table of contents", "statement": "No entry of a generated table of contents ever has an article number: an article's number is stored as the division number instead. The chapter number set by a chapter inside a part stays on the articles that follow it directly in the part. The numbers of the enclosing part, section and subsection are right, and so is the chapter number inside chapters and outside parts. All numbers of every entry are known: the chapter number is that of the chapter around the unit (or the unit itself), else that of the last chapter before it in its part; the division number of a unit that is neither article nor division is the number of the last article before it that stands directly in a unit around it, or directly in a chapter before it in the same part.", "quantifier": "every MainProvision and SupplProvision", "why_tests_cant": "all nested structures", "anchors": ["src/utils.rs: Toc::set_article", "src/utils.rs: Toc::get_article", "src/utils.rs: toc_list_from_part"]}
{"id": "C50", "title": "Supplementary provisions are never recognised in text", "statement": "No line of text is ever classified as a supplementary provision heading, so a Law built from text never has any supplementary provision.", "quantifier": "every input text", "why_tests_cant": "universally quantified negative statement over strings", "anchors": ["src/parse_from_text.rs: parse_line_contents", "src/parse_from_text.rs: parse_body"]}
{"id": "C51", "title": "When building a law from text does not terminate", "statement": "parse_body loops forever exactly when the first line that is out of place is classified as plain text (after a heading or a caption, where no article is open); otherwise it terminates.", "quantifier": "every input text", "why_tests_cant": "non-termination cannot be observed by a test; the condition ranges over all line sequences", "anchors": ["src/parse_from_text.rs: parse_body"]}
{"id": "C52", "title": "Lines of text are conserved", "statement": "When parse_body terminates normally, the lines are consumed in order: each consumed line appears exactly once in the result as title, caption, sentence or preamble paragraph, in document order, except captions that no article follows; the lines after the first out-of-place paragraph, item, subsection or division heading at the top level are dropped.", "quantifier": "every input text", "why_tests_cant": "all line sequences", "anchors": ["src/parse_from_text.rs: parse_body", "src/parse_from_text.rs: parse_article", "src/parse_from_text.rs: parse_paragraph"]}
{"id": "C53", "title": "When item nesting panics", "statement": "Building items from text panics exactly when an item would lie deeper than the eleven levels of the schema. A heading with the current level's pattern stays on the level, the pattern of the level above closes one level, and every other pattern opens a level, also that of a level further up; so closing two levels at once misplaces the item, three patterns suffice to panic, and a text with at most two item patterns never panics for this reason.", "quantifier": "every sequence of item lines", "why_tests_cant": "all sequences of patterns of any length", "anchors": ["src/parse_from_text.rs: parse_subitem1", "src/parse_from_text.rs: parse_subitem10"]}
{"id": "C54", "title": "Captions attach to the next article", "statement": "An article gets the text of the caption line directly before it as its caption; of several captions in a row the last wins; articles not directly preceded by a caption have none.", "quantifier": "every input text", "why_tests_cant": "all line sequences", "anchors": ["src/parse_from_text.rs: parse_chapter", "src/parse_from_text.rs: parse_article", "src/parse_from_text.rs: parse_body"]}
{"id": "C55", "title": "Deleted units", "statement": "A unit built from text is marked deleted exactly when its heading text, trimmed, is 削除 or （削除）, at all levels.", "quantifier": "every input text", "why_tests_cant": "all strings", "anchors": ["src/parse_from_text.rs: parse_part", "src/parse_from_text.rs: parse_article", "src/parse_from_text.rs: parse_subitem1"]}
{"id": "C56", "title": "Numbering of built sentences and paragraphs", "statement": "Sentences of a paragraph or item built from text are numbered 1, 2, 3, ... in order; the first paragraph of every article has number 1; preamble paragraphs are numbered 0, 1, 2, ... with sentence number 0.", "quantifier": "every input text", "why_tests_cant": "all line sequences", "anchors": ["src/parse_from_text.rs: parse_paragraph", "src/parse_from_text.rs: parse_article", "src/parse_from_text.rs: parse_body"]}
{"id": "C57", "title": "Header data given to parse_text", "statement": "parse_text stores the given year, month, day, type, language, number and law number text unchanged, takes the era from the date (with the given year as a year of the common era), and panics exactly when the date is invalid, has no era among the five, or building the body panics.", "quantifier": "every header and every text", "why_tests_cant": "all dates and strings", "anchors": ["src/lib.rs: parse_text"]}
{"id": "C58", "title": "Which laws built from text survive writing and reading", "statement": "A Law built from text is read back unchanged from the element written for it exactly when it was given a law number, and this number and the numbers of all headings, articles and paragraphs that were used have no range or exactly one branch number. In particular it survives when no number has a range; a text with a range of deleted articles such as 第一条から第三条まで does not survive.", "quantifier": "every input text on which building succeeds", "why_tests_cant": "all texts", "anchors": ["src/parse_from_text.rs: parse_body", "src/law.rs: Law"]}
{"id": "C59", "title": "Reading is stable after one round trip", "statement": "If a law is read from an XML tree in which, at any depth, none of the constructs occur that the writer cannot express (new provisions, the preamble label of a table of contents, labelled remarks, appendices and titled appendix tables of supplementary provisions, related articles of an Appdx, numbered formulas, aligned table cells, numbers with a range but not exactly one branch number), then writing the law and reading again gives the same law. For each of the excluded constructs there is a document that is read and whose law is not read back.", "quantifier": "every XML tree without those constructs, every nesting depth", "why_tests_cant": "all trees", "anchors": ["src/law.rs: impl Parser for Law", "src/law.rs: impl ToXmlElement for Law"]}
{"id": "C60", "title": "Parts held once: the last one counts", "statement": "For every field that holds a single part (titles, captions, labels, bodies, table of contents, preamble, main provision, ...) reading takes the last element with its tag; if there is none the field is empty, holds an empty text, or reading fails, depending on the field.", "quantifier": "every XML element and every such field of every data type", "why_tests_cant": "any number of repetitions at any position among other parts", "anchors": ["src/law.rs: LawBody::parser", "src/paragraph.rs: Paragraph::parser", "src/article.rs: Article::parser", "src/structs.rs", "src/table_of_contents.rs", "src/appdx.rs", "src/suppl_provision.rs"]}
{"id": "C61", "title": "Hiragana item headings", "statement": "A hiragana heading without parentheses is read back if the number has no branch numbers, and reading it panics if it has any. A hiragana heading in parentheses is read back except that branch numbers 26 are dropped, because the kana for 26 is the separator.", "quantifier": "every range-free ArticleNumber that has a hiragana heading", "why_tests_cant": "any number of branch numbers; greedy matching swallows the separators", "anchors": ["src/article_number.rs: parse_item_number", "src/article_number.rs: parse_item_number_base", "src/article_number.rs: ArticleNumber::item_text"]}
{"id": "C62", "title": "Roman item headings", "statement": "A roman heading in which some number has a V, D or M is not recognised by parse_item_number. A range-free roman heading whose numbers have only I, X, L and C is read back with its numbers; the pattern is kept without parentheses, and upper and lower case are exchanged with parentheses.", "quantifier": "every ArticleNumber that has a roman heading", "why_tests_cant": "any number of branch numbers", "anchors": ["src/article_number.rs: to_zenkaku_roman_upper", "src/article_number.rs: parse_roman", "src/article_number.rs: parse_item_number"]}
{"id": "C63", "title": "Nodes that readers skip without an error", "statement": "In a preamble, a table row, a header row, a text and a ruby every foreign element is skipped with the text it contains. A Line that cannot be read, in particular every Line without a Style, vanishes from a text. Only the first node of a superscript, a subscript and an innermost list, only the first two nodes of a Law and no node of a figure are read: whatever the others are, the result is the same.", "quantifier": "every element of these kinds, every skipped node and every position", "why_tests_cant": "any node at any position among any others", "anchors": ["src/text.rs: Text::from_children", "src/text.rs: Ruby", "src/law.rs: Preamble", "src/table.rs: TableRow", "src/law.rs: Law"]}
{"id": "C64", "title": "Which kind a well-formed line of a text has", "statement": "parse_line_contents reads a line as a caption exactly when it is something in parentheses without a closing parenthesis in it. A line made of the heading of a part, chapter, section, subsection, division or article as written by ArticleNumber, blanks and a text is read as this unit with this number and text, and likewise for paragraphs in full-width digits (of a range end only the first number is kept). Any other heading that parse_item_number reads is read as an item, unless it starts with a full-width digit: item headings in plain full-width digits are read as paragraphs.", "quantifier": "every line of this shape, with any blanks around and between, every number whose components are 1 to 9999, every text", "why_tests_cant": "any numbers, blanks and texts", "anchors": ["src/parse_from_text.rs: parse_line_contents", "src/article_number.rs: split_number", "src/article_number.rs: parse_article_number"]}
{"id": "C65", "title": "Lines without a blank after the heading lose their text", "statement": "A line without blanks in it is read as a caption, as a text without heading, or as a unit whose text is only the last character of the line. In particular an article heading followed at once by its text keeps one character of it, and becomes a division if the text mentions the unit of divisions (as in 目的) and no larger unit.", "quantifier": "every line without inner blanks", "why_tests_cant": "any text after the heading", "anchors": ["src/article_number.rs: split_number", "src/parse_from_text.rs: parse_line_contents"]}
{"id": "C66", "title": "Words in kana at the start of a line make reading panic", "statement": "A line that starts with a word in katakana (or hiragana) followed by a blank, or that consists of such a word and one more character, makes parse_line_contents panic exactly when the word is not a single character of the iroha order. One line that panics makes parse_text panic.", "quantifier": "every kana word, every rest of the line, every text with such a line", "why_tests_cant": "any word and any position", "anchors": ["src/article_number.rs: parse_item_number_base", "src/parse_from_text.rs: parse_line_contents", "src/parse_from_text.rs: parse_body"]}
{"id": "C67", "title": "Letters as headings of items", "statement": "A full-width letter other than I, X, V, L and C is read as its place in the alphabet, with the pattern for letters. I, X, L and C are read as roman numerals with another pattern, so in a list （ａ）, （ｂ）, （ｃ） of an article the third item is nested in the second and numbered 100. A word of letters with one of I, X, V, L and C and a letter other than I, X, L and C makes the reader panic. Different words of letters are read as the same number.", "quantifier": "every letter or word of letters of one case, with or without parentheses; every article and texts of the items", "why_tests_cant": "any words of letters; any texts of the items", "anchors": ["src/article_number.rs: parse_item_number_base", "src/article_number.rs: is_roman", "src/article_number.rs: parse_roman", "src/article_number.rs: parse_zenkaku_alphabet"]}
{"id": "C68", "title": "A second round trip changes nothing", "statement": "What is written for a law, whatever the law contains, has none of the constructs excluded in C59. Hence for every law: if what is written for it can be read, the law that is read is read back unchanged from what is written for it.", "quantifier": "every law of every nesting depth, including laws that do not survive the first round trip", "why_tests_cant": "all values of about 60 mutually recursive types", "anchors": ["src/law.rs: impl ToXmlElement for Law", "src/law.rs: impl Parser for Law", "src/article_number.rs: ArticleNumber::num_str"]}
{"id": "C69", "title": "Setters and getters as a state machine", "statement": "After any sequence of calls of setters, every getter of an entry of the list of articles gives the last value set, and the other fields are unchanged. For an entry of the table of contents the same holds with two exceptions: the article number never changes, and the division number is the last value given to set_division or set_article. A new entry of the list of articles has no number but the ones set.", "quantifier": "every initial value, every finite sequence of calls with any arguments", "why_tests_cant": "sequences of any length and order", "anchors": ["src/utils.rs: impl Toc", "src/utils.rs: impl WithNumberArticle"]}
{"id": "C70", "title": "Building texts piece by piece", "statement": "Adding a text to a text appends both its plain text and the nodes written for it. Adding a string, a ruby, a superscript or a subscript appends its plain text, adding a line appends nothing. Reading an element as a text gives what the text of an element with this single child would be. A text with a writing mode is read back from XML exactly when the text without it is.", "quantifier": "every text of every nesting depth, every element, every tag", "why_tests_cant": "texts nest to any depth", "anchors": ["src/text.rs: impl Text", "src/text.rs: impl Parser for Text"]}
{"id": "C71", "title": "The number zero", "statement": "is_zero holds exactly for the numbers whose string is 0 or starts with 0_. The string is 0 exactly for zero and the ranges from zero without branch numbers.", "quantifier": "every article number", "why_tests_cant": "all base numbers, branch lists and ranges", "anchors": ["src/article_number.rs: ArticleNumber::is_zero", "src/article_number.rs: ArticleNumber::zero", "src/article_number.rs: ArticleNumber::num_str"]}
{"id": "C72", "title": "Which laws can be built from text", "statement": "A body built from a text has the shape described in Spec/Built.lean: sentences numbered from 1, paragraphs of which the first has the number 1, items nested so that at most one level closes at a time, articles before the other units in each unit, units following each other as allowed, plain titles, a preamble that is not empty, and no supplementary provisions or appendices. Conversely every body of this shape is built from some list of lines.", "quantifier": "every text, every list of lines, every body, every nesting level of the model", "why_tests_cant": "both directions range over all laws and all texts", "anchors": ["src/parse_from_text.rs: parse_body", "src/parse_from_text.rs: parse_part", "src/parse_from_text.rs: parse_article", "src/parse_from_text.rs: parse_paragraph", "src/parse_from_text.rs: parse_subitem1"]}
{"id": "C73", "title": "Text of a law is read back", "statement": "A body of this shape, written as text with headings in the notation of the crate, items of three successive levels in different patterns, and lines of prose that do not look like headings, is read back from this text unchanged. A line is prose if it is not in parentheses and its first word does not start with a digit or a number and a unit and has a character not used in headings of items.", "quantifier": "every such body, every choice of patterns, every line", "why_tests_cant": "laws of any size, all numbers from 1 to 9999 and all texts", "anchors": ["src/parse_from_text.rs: parse_body", "src/parse_from_text.rs: parse_line_contents", "src/article_number.rs: parse_article_number", "src/article_number.rs: parse_item_number"]}
{"id": "C74", "title": "Which documents are read", "statement": "A document is read exactly if its root is Law and it obeys a table of rules: for every tag, what its attributes may be, which child elements have to come first, which may occur, which are skipped and which are required, and so on for all child elements that are read. A document that does not obey the rules is an error, not a panic, if it has a number and no article without contents.", "quantifier": "every XML tree, every nesting depth; articles without contents are excluded in the direction from rules to reading", "why_tests_cant": "all documents, accepted or not", "anchors": ["src/law.rs: Law::parser", "src/law.rs: LawBody::parser", "src/article.rs: Article::parser", "src/paragraph.rs: Paragraph::parser", "src/parser.rs: get_attribute", "src/contents.rs: Contents::parser", "src/table.rs: Table::parser"]}
{"id": "C75", "title": "What is written follows a schema", "statement": "Every element written for a law has one of the forms listed for its tag in a schema: no attribute twice, only the listed attributes with the listed kinds of values, the required ones present, and the child nodes in the listed order and number, down to any depth.", "quantifier": "every law, whatever it contains, and every element below it", "why_tests_cant": "all laws and all nesting depths", "anchors": ["src/law.rs: Law::to_xml_element", "src/law.rs: LawBody::to_xml_element", "src/article.rs: Article::to_xml_element", "src/paragraph.rs: Paragraph::to_xml_element", "src/appdx.rs: AppdxTable::to_xml_element", "src/table.rs: TableColumn::to_xml_element"]}
{"id": "C76", "title": "A checker for documents", "statement": "A program that goes through a document once and checks the table of rules says yes exactly for the documents that obey the rules. A document it refuses is never read. A document with root Law it takes is read, except that reading may panic if there is an article without contents; it is never an error.", "quantifier": "every XML tree, every nesting depth", "why_tests_cant": "all documents, accepted or not", "anchors": ["src/law.rs: Law::parser", "src/law.rs: LawBody::parser", "src/article_number.rs: from_num_str", "src/parser.rs: get_attribute"]}
{"id": "C77", "title": "What becomes of a document", "statement": "What is written for a document that has been read is what one table makes of it: for every tag, which attributes are written and how their values change, which children are written, in which order and under which tags, down to any depth. So a document comes out unchanged exactly if the table leaves it unchanged, it can be read again exactly if the checker takes what the table makes of it, and applying the table changes nothing the third time, or the second time if the document has none of the lossy parts.", "quantifier": "every XML tree that is read, every nesting depth", "why_tests_cant": "all documents that are read", "anchors": ["src/law.rs: Law::parser", "src/law.rs: Law::to_xml_element", "src/law.rs: AmendProvision::to_xml_element", "src/table.rs: TableColumn::parser", "src/table.rs: TableColumn::to_xml_element", "src/suppl_provision.rs: SupplProvision::to_xml_element", "src/text.rs: Text::from_children"]}
{"id": "C78", "title": "What reading a document leads to", "statement": "Whether reading a document gives a law, which error it gives, or whether it panics is computed from the document by a table of rules and of reports: attributes are looked at in a fixed order, then the first nodes, then the others in order, then what is missing, down to any depth, and the first thing that is wrong decides; errors in lines within plain texts and in remarks of structures are passed over, panics are not. The error is exactly the one of the table, with the tags and names in it. A file that cannot be read gives the input/output error and one that is no XML the XML error, and in no other case.", "quantifier": "every XML tree, every nesting depth", "why_tests_cant": "all documents, including those with several things wrong at once", "anchors": ["src/law.rs: Law::parser", "src/parser.rs: get_attribute_with_parse", "src/result.rs: Error", "src/article.rs: Article::parser", "src/list.rs: List::parser", "src/suppl_provision.rs: SupplProvision::parser", "src/text.rs: Text::from_children", "src/lib.rs: parse_xml_file"]}
{"id": "C79", "title": "Whether errors are true", "statement": "An error that is reported is about an element that is read. Taken literally it is true of that element (the tag has no such attribute, the value is not allowed, the child may not stand there, the child is missing, the part of the number is no number), except for seven kinds of misreports, in which something is wrong with the element and the report names something else. What is misreported is not true of the element, and several of these reports are true of no element of any document.", "quantifier": "every XML tree that gives an error, every nesting depth", "why_tests_cant": "all documents and all errors", "anchors": ["src/result.rs: Error", "src/suppl_provision.rs: SupplProvisionAppdxTable::parser", "src/list.rs: List::parser", "src/law.rs: AmendProvision::parser", "src/article.rs: Part::parser", "src/table_of_contents.rs: TOCArticle::parser"]}
{"id": "C80", "title": "Messages of errors", "statement": "Two errors whose first fields have no blank have the same message only if they are the same error. The errors for files with XML names are such errors, so for two files that are not read the same message means the same error. With blanks in names there are two documents with different errors and the same message. The message for a file that cannot be opened is the one about writing.", "quantifier": "all pairs of errors; all pairs of files, every nesting depth", "why_tests_cant": "all pairs of errors and of documents", "anchors": ["src/result.rs: Error", "src/lib.rs: parse_xml_file"]}
{"id": "C81", "title": "Articles of a document", "statement": "For every law document that is read, the numbered and the plain lists from its main provision and from each of its supplementary provisions have exactly the articles of the document in document order, each written as the table of C77 says, with the numbers reported for the units on the way; the groups of paragraphs are those of the document between units.", "quantifier": "all documents, every nesting depth", "why_tests_cant": "all documents, with any number of units, articles and provisions", "anchors": ["src/utils.rs: article_list_from_main_provision, with_number_article_list_from_main_provision, article_list_from_suppl_provision, with_number_article_list_from_suppl_provision", "src/law.rs: Law::parser"]}
{"id": "C82", "title": "Plain text of a document", "statement": "For every law document that is read, the texts of the articles and of the groups of paragraphs of its provisions are those that Spec.Doc computes from the document: ruby without readings, superscripts and subscripts marked, columns before sentences before tables, one line for each paragraph and item. The same holds for articles and paragraphs read on their own, with the numbers of the paragraph and items of each line.", "quantifier": "all documents, every nesting depth", "why_tests_cant": "all documents, with any text, tables and items", "anchors": ["src/utils.rs: text_from_article, text_from_paragraph_list, text_info_list_from_paragraph, text_list_from_subitem1, table_to_str", "src/text.rs: Text"]}
{"id": "C83", "title": "Table of contents of a document", "statement": "For every law document that is read, the tables of contents generated from its main provision and from each supplementary provision have one entry for each part, chapter, section, subsection, division and article of the document in document order, with the text of the title in the document and the numbers of the part, section and subsection around it; the number of the chapter is right inside chapters and outside parts, and the division number of an article or division is its own.", "quantifier": "all documents, every nesting depth", "why_tests_cant": "all documents, with any nesting of units", "anchors": ["src/utils.rs: toc_list_from_main_provision, toc_list_from_suppl_provision"]}
{"id": "C84", "title": "What a text says about an article number", "statement": "On every text parse_article_number gives what one pass over the text from left to right gives: an optional 第, the longest run of digits of one script, a unit, the branch numbers, and the end of a range if it is complete up to まで; without a unit the same with digits only; what follows does not matter. Which numbers are too big, refused or panic is part of the pass.", "quantifier": "all texts, all behaviours of the crate for kanji numerals", "why_tests_cant": "all texts of any length", "anchors": ["src/article_number.rs: parse_article_number"]}
{"id": "C85", "title": "The law built from a text is determined by its pieces", "statement": "Two laws of the shape of C72 with the same headings, captions, articles, paragraphs, items and sentences in document order are the same. So for a text whose lines can be read, none of them too deep and no plain text out of place, parse_body gives the only law of this shape whose pieces are the meaning of the lines, and no other.", "quantifier": "all texts, all laws, every nesting depth", "why_tests_cant": "all laws that have the same pieces", "anchors": ["src/parse_from_text.rs: parse_body", "src/parse_from_text.rs: parse_part to parse_subitem10"]}
{"id": "C86", "title": "What a text says about the number of an item", "statement": "On every text, blanks at its ends aside, parse_item_number finds a number exactly if the text can be cut into a word of one script, with or without parentheses, branch numbers after の, and optionally the end of a range up to まで. Of the ways to cut it, the one with the longest first word and then the longest branch numbers counts, and there is exactly one. The result is the number that this way means, with the values of the words, or a panic if one of them has no value.", "quantifier": "all texts, all behaviours of the crates for kanji and roman numerals", "why_tests_cant": "all texts of any length and all ways to cut them", "anchors": ["src/article_number.rs: parse_item_number", "src/article_number.rs: parse_item_number_base"]}
{"id": "C87", "title": "What any line of a text says", "statement": "On every line without line feeds parse_line_contents gives what the line says and nothing else: a caption if it is something in parentheses; plain text if it has fewer than two characters; otherwise its heading is what is before the first blank, or all but the last character, and a number in the heading decides what it is. The lines of any text are read as what each of them says, the reading fails exactly if one of them says a panic, and the law parse_body builds is determined by what the lines say.", "quantifier": "all lines, all texts, all behaviours of the crates for numerals", "why_tests_cant": "all texts of any length", "anchors": ["src/parse_from_text.rs: parse_line_contents", "src/parse_from_text.rs: parse_body"]}
{"id": "C88", "title": "Laws written to XML files and read from them", "statement": "An XML file keeps a document up to the borders between neighbouring texts and up to blank texts. If a document has neither, apart from empty strings in LawNum, Rt, Sup and Sub, reading it and reading what the file keeps of it give the same outcome: the same error, a panic, or laws that are written in the same way, and the same law if nothing in the document is lossy. A law comes back from the file written for it exactly if it comes back from the element written for it and this element has no such texts. A law that was read from a file without lossy parts, comments and texts cut in two comes back from the file written for it; each of these conditions on texts is needed.", "quantifier": "all documents, all laws", "why_tests_cant": "all documents and all laws", "anchors": ["src/lib.rs: parse_xml", "src/lib.rs: to_xml", "src/law.rs: Law"]}
{"id": "C89", "title": "A law from text never comes back from its XML file", "statement": "The title of every article of a law built by parse_text is one empty text, and no article of a law read from an XML file has a title with a blank text; so no law with an article that parse_text builds is equal to the law read from the file that is written for it.", "quantifier": "all texts and arguments of parse_text, all documents", "why_tests_cant": "all texts; a test sees one of them", "anchors": ["src/parse_from_text.rs: parse_body", "src/lib.rs: parse_text", "src/law.rs: Law::to_xml_element"]}
{"id": "C90", "title": "Files settle", "statement": "Whatever is in a law, the XML file written for it is read exactly if the element written for it is read, with the same error or panic otherwise. A law read from a document in which nothing is lossy is read from the file written for it, and what is read from that file no longer changes, however often it is written to a file and read. For any law whatever, what is read from the second file is what is read from all later ones; what is read from the first file can still be different.", "quantifier": "all laws, all documents, any number of files", "why_tests_cant": "all laws and all documents, and any number of repetitions", "anchors": ["src/lib.rs: parse_xml", "src/lib.rs: to_xml", "src/law.rs: Law", "src/text.rs: Ruby", "src/text.rs: Text"]}
{"id": "C91", "title": "Reading, writing and files never add text", "statement": "No character occurs more often in the texts of what is written for a law than in the texts of the document the law was read from. The same holds for articles, paragraphs and items read on their own, and after any number of files. A document without a character in its texts gives a law without one.", "quantifier": "all documents that are read, all characters, any number of files", "why_tests_cant": "all documents, including those in which the same child occurs many times or in unexpected places", "anchors": ["src/law.rs: Law", "src/article.rs: Article", "src/paragraph.rs: Paragraph", "src/text.rs: Text", "src/lib.rs: to_xml"]}
{"id": "C92", "title": "Which blanks of a text matter", "statement": "Blanks at the ends of a line do not matter, nor do the kind and number of blanks between a heading and its text: two texts whose lines differ in these only, or in how the lines end, lead to the same law, the same panic, or both to none. A line of blanks is not skipped: it is read as an empty plain text, so a law with an empty line between two articles is another law than the one without, and if the line of blanks is under a heading or a caption the law is never built.", "quantifier": "all texts, all behaviours of the crates for numerals", "why_tests_cant": "all texts of any length with any blanks", "anchors": ["src/parse_from_text.rs: parse_line_contents", "src/parse_from_text.rs: parse_body", "src/lib.rs: parse_text"]}
{"id": "C93", "title": "Laws from text come back from files without blank texts", "statement": "A law that parse_text builds comes back from the XML file written for it as the same law without its texts of white space (empty article titles, empty sentences, a blank title, caption or heading), exactly if it comes back unchanged from the element written for it, that is if it was given a number, and this number and those of all headings, articles and paragraphs used have no range or exactly one branch number. From then on it comes back unchanged. Laws built from text have at most 23 levels of elements.", "quantifier": "all texts from which a law is built, all behaviours of the crates for numerals and of the calendar", "why_tests_cant": "all texts of any length", "anchors": ["src/lib.rs: parse_text", "src/lib.rs: parse_xml", "src/lib.rs: to_xml", "src/parse_from_text.rs: parse_body", "src/law.rs: Law"]}
{"id": "C94", "title": "Texts extracted from a law built from text", "statement": "The articles that article_list_from_main_provision finds in a law built from text, and the texts that text_info_list_from_paragraph and text_from_article find in them, can be read off the lines of the text: one article per line with the heading of an article, one text per line with the heading of an article, a paragraph or an item, indexed by the paragraph and the items it lies in, and continued without a separator by the plain lines after it. From the first article on nothing that is said in a line that is used is lost, added or moved; line breaks before plain lines are lost.", "quantifier": "all texts from which a body is built, all behaviours of the crates for numerals", "why_tests_cant": "all texts of any length, any nesting of items", "anchors": ["src/utils.rs: article_list_from_main_provision", "src/utils.rs: text_info_list_from_paragraph", "src/utils.rs: text_from_article", "src/parse_from_text.rs: parse_body"]}
{"id": "C95", "title": "Units and table of contents of a law built from text", "statement": "The units of a law built from text, with their kinds, numbers, titles and the units around them, are those announced by the lines used. Its generated table of contents has one entry per heading, titled with the text of the heading, and one per article, whose title is always empty. The numbers reported by with_number_article_list_from_main_provision can be read off the lines too.", "quantifier": "all texts from which a body is built, all behaviours of the crates for numerals", "why_tests_cant": "all texts of any length", "anchors": ["src/utils.rs: toc_list_from_main_provision", "src/utils.rs: with_number_article_list_from_main_provision", "src/parse_from_text.rs: parse_body"]}
{"id": "C96", "title": "Edits of a text stay where they are made", "statement": "Two texts whose lines differ only in what is said in one article, with the same number in both, give laws with the same preamble and units and the same articles but for that one, which keeps its caption. Articles put in or taken out, and lines added at the end, leave all other articles, the preamble and the other units as they are, unless they come between a caption and its article or go on with an article.", "quantifier": "all pairs of texts from which bodies are built, all behaviours of the crates for numerals", "why_tests_cant": "all pairs of texts of any length", "anchors": ["src/parse_from_text.rs: parse_body", "src/parse_from_text.rs: parse_article", "src/utils.rs: article_list_from_main_provision"]}
{"id": "C97", "title": "Attributes are read and written as what they say", "statement": "For every kind of element with attributes other than flags, each field filled from an attribute holds what the attribute of that name says according to a spelt-out table of names, the grammar of numbers or the string itself: required attributes must be given, optional ones may be absent, unknown alignments and positions are read as absent, unknown borders as solid and unknown directions of writing as vertical. What is written under each of these attributes says what is in the field, for every value; the alignments of a table cell are never written under their names.", "quantifier": "all elements, all attribute lists, all values of all types", "why_tests_cant": "all attribute strings and all combinations; an exchange of two names in the reader and in the writer is not seen by any round trip", "anchors": ["src/sentence.rs: Sentence::parser", "src/class.rs: Align::from_attribute", "src/table.rs: TableColumn::parser", "src/line.rs: LineStyle::from_attribute", "src/suppl_provision.rs: SupplProvision::parser", "src/law.rs: LawTitle::parser"]}
{"id": "C98", "title": "Laws come back from XML text", "statement": "For an XML writer that indents as gen_config asks for and an XML reader that leaves out blank texts, reading what has been written gives the document with neighbouring texts joined and without blank texts, for every document without comments whose tags and attributes have names of letters and digits. The document of every law is such a document, so with this writer and reader a law comes back from to_xml and from write_file exactly if it keeps its XML and is written as a quiet document; a law with an article built from text does not come back; a law read from a file without anything lossy comes back from the file written for it.", "quantifier": "all documents, all laws, all strings in texts and attributes, all sinks that take what they are given", "why_tests_cant": "all strings with all characters that must be escaped, all nestings of texts and elements", "anchors": ["src/lib.rs: to_xml", "src/lib.rs: write_file", "src/lib.rs: gen_config", "src/lib.rs: parse_xml", "src/lib.rs: parse_xml_file"]}
{"id": "C99", "title": "Laws come back from what serde writes", "statement": "Every value of the 110 types that derive Serialize and Deserialize comes back from what is written for it in a self-describing format such as JSON, so different laws are written differently. A document is read as a value exactly if it says the value: a struct as an object with every field by its name once (an Option that is None may be missing or null) or as an array of its fields in order, an enum by the name of its variant. The order of entries, at any depth, and entries with foreign keys do not matter; a law with a field twice or without a field that is not an Option is not read. A law without a number comes back from JSON although reading its XML panics.", "quantifier": "all laws and all values of all types at every level of nesting, all JSON documents", "why_tests_cant": "all values of 110 mutually recursive types and all documents, including those with entries in another order, missing, foreign or repeated", "anchors": ["src/law.rs: Law", "src/law.rs: LawBody", "src/article.rs: Article", "src/paragraph.rs: Paragraph", "src/article_number.rs: ArticleNumber", "src/text.rs: TextElement", "src/utils.rs: TextIndex"]}
