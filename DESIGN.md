# Formal model of japanese_law_xml_schema in Lean 4

The crate converts between 法令標準XML (as an `xmltree::Element`) and Rust
structs, builds the structs from plain text, and offers helpers over them.
`properties.jsonl` lists the properties; `MANIFEST.json` says which theorem
settles which property; this file says how the code is modelled, what is
trusted and what was found. `AXIOMS.txt` lists the axioms each theorem of the
manifest depends on. `seeded/LOG.jsonl` records the wrong programs the theorems
were tried against.

## Layout

* `lean/Verif/Model/*.lean`  the model: one Lean definition per Rust function,
  each with a comment giving file and lines in `/repo`.
* `lean/Verif/Spec/*.lean`   specifications; they do not call the model's
  readers and writers.
* `lean/Verif/Lemmas/*.lean`, `Reading/*.lean`, `RoundTrip/*.lean`,
  `Stable/*.lean`  auxiliary lemmas (text layer, XML readers, writers followed
  by readers, readers followed by writers).
* `lean/Verif/Props/*.lean`  the property theorems (`Cxx_...`) with an example
  next to each.
* `lean/Verif/Conformance.lean`  the unit tests of the crate that need no files,
  run on the model; a check that the model is faithful, not a proof.
* `conformance/run.sh`  runs the model on the document of `/repo/src/tests` (the
  Civil Code) with the assertions of the two tests there; also only a test.

| model file | Rust |
|---|---|
| `Base` | the parts of the Rust standard library used: `str::parse`, `split`, `trim`, `lines`, `char` classes |
| `Xml` | `parser.rs`, `to_xml.rs` helpers, the `Element` type, `result.rs` |
| `Num` | `ArticleNumber`, `num_str`, `from_num_str` |
| `Regex`, `NumText` | headings as text: rendering, the regular expressions, `parse_article_number`, `parse_item_number`, `split_number` |
| `Text`, `Struct` | `text.rs`, `sentence.rs`, `line.rs`, `contents.rs`, `list.rs`, `table.rs`, `remarks.rs`, `structs.rs` |
| `Article`, `Toc`, `Appdx`, `Law` | `paragraph.rs`, `class.rs`, `article.rs`, `table_of_contents.rs`, `appdx.rs`, `suppl_provision.rs`, `law.rs` |
| `Utils` | `utils.rs`: lists of articles, text indices, rendering of text, generated table of contents |
| `FromText` | `parse_from_text.rs` |
| `Access` | building texts, setters and getters of `Toc` and `WithNumberArticle`, `is_zero` |
| `Io` | `write_file`, `to_xml`, `parse_xml`, `parse_xml_file` |
| `Serde` | `#[derive(Serialize, Deserialize)]` on 110 structs and enums of all files |

## How the code is modelled

* **Outcomes.** `Res α = ok a | err e | panic | deep`. `err` carries the exact
  `Error` value, `panic` is every `unwrap`/`unreachable!`/`todo!` path, `deep`
  is a model artefact (nesting bound exhausted, see below) that is proved not
  to occur for any document whose depth is within the bound (C30).
* **Numbers.** `usize` is `Usize`, an abbreviation of `Fin (2^64)`; casts wrap as in Rust.
  Overflow of `+` in counters of list lengths is not modelled.
* **XML.** `Element` = name, attributes, children. Attributes (a `HashMap`)
  are an association list with replacing insert; only lookup by name is
  observable in the crate, and C35 shows that order is irrelevant. Namespaces
  and prefixes are not modelled (the crate never reads or writes them).
  Comment, CDATA and PI nodes are kept.
* **Recursive types.** About 60 Rust structs are mutually recursive. They are
  modelled as ordinary structures over a record `Lvl` ("level") that supplies
  the five types through which every cycle passes (the text inside a ruby,
  the content of quoted structures, the item inside remarks, the table cell,
  the amendment provision) together with their reader and writer. `lvl 0` has
  empty types, `lvl (n+1)` is built from `lvl n`. So `Law (lvl n)` is the type
  of laws with at most `n` nested re-entries and every Rust value lives in some
  level. All theorems quantify over every `n`.
* **Repeated code.** Families of Rust structs whose readers and writers are
  textual copies up to names (`Item`, `Subitem1`..`Subitem10`; `Part`..`Division`;
  `TOCPart`..; `List`, `Sublist1`..; the five `...Struct`s; the appendices)
  share one generic definition taking the names and the reader of the children
  as arguments. Where a copy deviates from its siblings (for instance the
  missing arm for tables in `Subitem6`, `Subitem10` without children) the
  deviation is an argument of the generic definition.
* **Loops** over child nodes are folds in the same order with the same state.
* **Text parser.** `Peekable<Iter>` is the remaining list of lines; functions
  return the rest. `parse_body` can loop for ever; its loop takes a number of
  allowed iterations and gives `none` when that is used up. C51 says exactly
  when no number of iterations is enough.
* **Regular expressions** are a syntax tree `Re` with the leftmost-first
  (Perl-like) priority used by the `regex` crate: the matcher lists the matches
  in priority order and the first is taken.
* **Writers** to sinks are interaction trees (`Emit`): what the XML writer asks
  its sink to do, depending on the answers so far.
* **Derived code.** For `Serialize` and `Deserialize` there are no lines to follow;
  each type has a `Codec` put together from its fields or variants by the rules
  that `serde` documents for its derive macros (no attribute of the crate changes
  them). `ser` gives the calls made to a serialiser, `de` reads a JSON value as a
  self-describing format hands it over. Error values, the depth limit of
  `serde_json` and formats that are not self-describing are not modelled.
* **External crates** are parameters (next section).

### Parameters and what is assumed of them

| parameter | crate | assumption, only where a theorem names it | instance |
|---|---|---|---|
| `Ext` (kanji numerals) | `kansuji` | `ReadsKansuji`: 1..9999 are read back from what is written | `kanjiExt`, `kanjiExt_reads` |
| `Ext` (roman numerals) | `roman` | `ReadsRoman`: reads what it writes; single facts about `C` and foreign letters in C67 | `romanExt`, `romanExt_reads` |
| `Calendar` | `koyomi` | none; C57 is about what is passed to it | in the examples |
| `Emit` of an element | `xmltree` writer, `xml-rs` | gives up when told of invalid data (C38) | `Emit.chunks` |
| XML reader | `xmltree` | gives back the element written (only `C38_documents_round_trip`) | in the examples |
| XML reader | `xmltree`, `xml-rs` | gives back `Spec.settle` of the element written: neighbouring texts are one text, blank texts are gone (only `C88_files` and `C93_files`; C88-C91 are about `settle`). This is what the two crates document; their sources are not in the sandbox | in the examples |
| XML writer and reader | none | nothing: `Spec.writeXml` and `Spec.readXml` are defined in Spec/XmlText.lean and proved to be an instance of the line above for every law (C98); they are not code of the repository, and that `xmltree` agrees with them is not proved | `emitXml`, `parseBytes` |

### Not modelled

* the derived traits `Debug`, `Clone`, `PartialEq`, `Eq` and `Hash`,
  and the constructors `new` that only fill in a struct;
* the `println!` calls in `parse_item_number` (article_number.rs 566, 609) and
  `parse_line_contents` (parse_from_text.rs);
* the XML text layer (`xmltree`, `xml-rs`), files other than through a sink;

## Trusted base

* Lean 4.33.0 kernel and the axioms `propext`, `Classical.choice`,
  `Quot.sound`. No theorem uses more (`AXIOMS.txt`); there is no `sorry`, no
  axiom of our own, no `native_decide`, no `implemented_by`.
* That the model definitions say what the cited Rust lines say. Nothing was
  executed: the sandbox has neither the dependencies nor network.
* Rust library facts: `str::parse::<usize>` (optional `+`, decimal digits, at
  most 2^64-1), `parse::<bool>` (`true`/`false`), `usize::to_string`,
  `str::split`, `trim`, `lines`, `HashMap` insert/get, integer casts.
* Regex semantics as above.
* The documented rules of the derive macros of `serde` (Model/Serde.lean).
* The assumptions on parameters in the table above, where a theorem names them.

## What was found

Behaviour the theorems establish that a user of the crate would not expect.

Numbers and headings
* Two item patterns with parentheses around roman numerals are swapped (C07);
  rendering a heading with a latin alphabet pattern is always a panic (C06).
* `parse_item_number` never yields a range: it asks for groups
  `base_number_2`/`eda_number_2` that the pattern does not have (C12). The
  heading written for a range of items is read as the start of the range.
* The pattern for paragraph numbers accepts `ノ` before branch numbers, but the
  code splits at `の` only: a panic (C10). Branch numbers of the end of a paragraph range are dropped (C09).
* Hiragana headings with branch numbers are a panic, and ordinals from 26 on
  are not read (C61). Roman headings containing V, D or M are not read; a
  number of 2^32 or more wraps when written (C62).
* `（ｃ）` is read as the roman numeral 100 and nested too deep; `Ｖ` and words
  like `ＩＴ` at the start of a line are a panic; `ＡＡ` is read as `Ｋ` (C67).
* Ordinary kana words at the start of a line are a panic (C66).
* What any text says about the number of a part, ..., article or paragraph is
  computed by one pass over it in `Spec/Scan.lean` (C84). What it says about
  the number of an item is the longest way to cut it into words in
  `Spec/ScanItem.lean` (C86), and what any line says is in
  `Spec/ScanLine.lean` (C87).
* The law that is built from a text is the only one of its shape with the
  pieces that the lines mean (C85).

Reading and writing XML
* Ranges in `Num` are lost or repeated when written (C01): the deleted articles
  38 to 84 of the Civil Code in `/repo/src/tests` come back as article 38.
* Remarks never survive writing; a `...Struct` with remarks loses them (C18, C19).
* Double borders come back dotted (C17); new provisions of amendments do not
  survive (C26); the number of an `ArithFormula` is not written (C27).
* A document without the constructs above (`Spec/Clean.lean`) gives a law that is
  read back unchanged (C59). What is written is always such a document, so a second
  round trip never changes anything (C68).
* Which documents are read is a table of rules (`Spec/Accept.lean`, C74): the
  reader is lax in some places (preambles, rows, texts, children of `Law` after
  the second) and strict in others (a comment before the title of a chapter is an error).
  `Spec/Decide.lean` is a checker for these rules (C76).
* Whether a document is read, which error is reported or whether the program
  panics is computed by `judgeLaw` (`Spec/Verdict.lean`, C78): in which order
  things are looked at and what the error says. C79 sorts the errors: most are
  true of an element that is read, and the others are listed in `Misreport`
  (`Spec/Blame.lean`), for instance `SupplProbision` as the tag of a wrong `Type`, "Tag name is
  Remarks but expected Remarks" (`SupplProvisionAppdxTable`), `LiseSentence` as the
  expected tag, a missing `ItemSentence` as "Sentence or Column or Table", an
  `AmendProvisionSentence` without a sentence as a missing `AmendProvision`,
  a wrong element before the title of a chapter as unexpected in the
  title, and strangers in a new provision as unexpected in the amendment.
* The message of an error determines it if names have no blanks (C80). A file that
  cannot be opened gives the message "write error"; "Attribure" is misspelt.
* What is written for a document that was read is a function of the document
  given by one table (`Spec/Rewrite.lean`, C77): attributes kept, changed or lost,
  children in their new order, under their new tags. An item whose number is not
  understood loses it, and what is written can then not be read.
* What is written follows a schema (`Spec/Written.lean`, C75): tags, attributes and
  their values, order and number of children. It shows the misspelt tag
  `SupplProvisionAppdxTableitle` and the tags used twice (`TOCLabel`,
  `ArithFormulaNum`, `Appdx`).
* An article without paragraphs and supplementary note, and a law without `Num`,
  are a panic, not an error (C22, C29).
* A `Line` without a `Style` attribute, and several other nodes, are dropped
  without an error (C63). Where a part may occur once, the last one counts (C60).

Lists and text
* In the functions listing articles a shadowed variable makes an article carry
  the number of the unit one level below the enclosing one, except inside a
  division (C42).
* `Toc::set_article` stores the number as the division number (C69), and in
  `toc_list_from_part` the number of a chapter stays on the articles that follow
  it directly in the part (C49). Articles also leave their number behind as the
  division number of the units that follow; which one is said for every entry by
  `tocEntry` in Props/TocLeft.lean, with `MainProvision.places` in
  Spec/TocLeft.lean.
* The table of a `Subitem6` is missing from the text (C43, C44).
* What the lists, texts and tables of contents are for a document that was read is
  computed from the document alone in `Spec/Extract.lean` (C81, C82, C83).

Laws from text
* Supplementary provisions are never recognised (C50).
* `parse_body` does not terminate if a plain line, even a blank one, follows a
  heading or a caption (C51).
* Everything after a line that is out of place is dropped silently (C52).
* Items closing two levels at once are misplaced; more than eleven levels are a
  panic (C53).
* The year given is used as a year of the common era to find the era, but stored
  as the year of the era (C57).
* Ranges of deleted articles do not survive writing (C58).
* Items headed by plain full-width digits become paragraphs (C64). A line
  without a blank after its heading loses its text, and `目的` turns the
  line into a division (C65).
* The laws that can be built from text are exactly those described in
  `Spec/Built.lean` (C72): for instance no article after a chapter, no section
  after a chapter, no division directly in a section, and no item that is
  followed by another one after two more levels were opened below it. Such a law
  is read back from its text, if headings and prose can be told apart (C73).
* Blanks around lines and between a heading and its text do not matter. A line of
  blanks does: it becomes an empty sentence, and under a heading or a caption the
  law is never built (C92).
* In the texts extracted from a law built from text, a plain line is glued to the
  line before it without a separator; nothing else is lost from the first article
  on (C94). In the generated table of contents of such a law the title of every
  article is empty: captions are not shown, and titles are never built (C95).
* Edits of a text stay local: changing what one article says, putting articles in
  and adding lines at the end leave all other articles as they are, unless an
  article is put between a caption and its article; then it takes the caption (C96).

Attributes
* Every field filled from an attribute holds what the attribute says, and what is
  written says what is in the field (C97), except that a double line or border is
  read as dotted, the number of a formula is not written and the alignments of a
  table cell are written under `rowspan`. Unknown alignments and positions are
  dropped and unknown borders taken as solid, without an error.

Files
* A chunk boundary inside a character makes `to_xml` fail where `write_file`
  succeeds (C38).
* A file keeps neither borders between neighbouring texts nor blank texts. A law
  comes back from the file written for it exactly if it comes back from the
  element written for it and that has no such texts (C88). A law read from a file
  comes back unless the file has lossy parts, comments, or a text cut in
  two by an element that is not read; each of the three can lose the law.
* Every article of a law built from text has one empty text as its title
  (parse_from_text.rs 225), which a file does not keep: no law with an article
  built by `parse_text` is equal to the one read from its own file (C89). What comes
  back is the same law without blank texts, and that does not change any more (C93).
* Whatever is in a law, writing it to a file, reading, writing and reading again
  changes nothing from the second file on; the first file is not always enough
  (C90). Text can be lost on the way (C37, C59) but is never added (C91).

JSON
* Unlike XML, what `serde` writes loses nothing: every law comes back, also the
  laws that XML does not keep (C99). The order of entries and foreign keys do not
  matter; a field given twice, or a missing field that is not an `Option`, makes
  the document unreadable. Enums are given by the names of the Rust variants,
  which are not the values used in XML (`Ja` instead of `ja`).
