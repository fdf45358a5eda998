{
 "claims": [
  {
   "property": "C01",
   "status": "proved",
   "theorems": [
    "JLaw.C01_num_str_round_trip"
   ],
   "note": "exact characterisation, for all numbers"
  },
  {
   "property": "C02",
   "status": "proved",
   "theorems": [
    "JLaw.C02_num_str_injective",
    "JLaw.C02_num_str_collision"
   ],
   "note": ""
  },
  {
   "property": "C03",
   "status": "proved",
   "theorems": [
    "JLaw.C03_from_num_str_language"
   ],
   "note": ""
  },
  {
   "property": "C04",
   "status": "proved",
   "theorems": [
    "JLaw.C04_wide_digits"
   ],
   "note": ""
  },
  {
   "property": "C05",
   "status": "proved",
   "theorems": [
    "JLaw.C05_iroha_katakana",
    "JLaw.C05_iroha_hiragana"
   ],
   "note": "the tables in the code are the 47 kana in iroha order"
  },
  {
   "property": "C06",
   "status": "proved",
   "theorems": [
    "JLaw.C06_item_text_panics"
   ],
   "note": ""
  },
  {
   "property": "C07",
   "status": "proved",
   "theorems": [
    "JLaw.C07_parens_only_add",
    "JLaw.C07_roman_swapped",
    "JLaw.C07_roman_differs"
   ],
   "note": "false for the two roman patterns as the statement says; the swap and a case where the texts differ are proved"
  },
  {
   "property": "C08",
   "status": "proved",
   "theorems": [
    "JLaw.C08_heading_reads_back"
   ],
   "note": "assumes that the kanji numeral crate writes and reads back 1..9999 (parameter Ext, satisfied by the instance kanjiExt)"
  },
  {
   "property": "C09",
   "status": "proved",
   "theorems": [
    "JLaw.C09_paragraph_text_read",
    "JLaw.C09_paragraph_text_survives"
   ],
   "note": "exact result of reading, and when it is the number itself"
  },
  {
   "property": "C10",
   "status": "proved",
   "theorems": [
    "JLaw.C10_parse_article_number_panics"
   ],
   "note": "exact characterisation of the panicking texts; the kanji numeral crate is a parameter"
  },
  {
   "property": "C11",
   "status": "proved",
   "theorems": [
    "JLaw.C11_item_heading_reads_back"
   ],
   "note": "kanji patterns assume that the kanji numeral crate writes and reads back 1..9999"
  },
  {
   "property": "C12",
   "status": "proved",
   "theorems": [
    "JLaw.C12_range_text",
    "JLaw.C12_range_forgotten",
    "JLaw.C12_no_item_range",
    "JLaw.C12_range_lost"
   ],
   "note": "with a concrete heading whose end is lost"
  },
  {
   "property": "C13",
   "status": "proved",
   "theorems": [
    "JLaw.C13_split_number"
   ],
   "note": "also determines where the blanks and the text start"
  },
  {
   "property": "C14",
   "status": "proved",
   "theorems": [
    "JLaw.C14_text_survives",
    "JLaw.C14_ruby_survives",
    "JLaw.C14_sup_sub_survive"
   ],
   "note": "for data of every nesting depth n"
  },
  {
   "property": "C15",
   "status": "proved",
   "theorems": [
    "JLaw.C15_sentence_survives",
    "JLaw.C15_line_survives",
    "JLaw.C15_double_line_becomes_dotted"
   ],
   "note": ""
  },
  {
   "property": "C16",
   "status": "proved",
   "theorems": [
    "JLaw.C16_list_survives",
    "JLaw.C16_sublists_survive"
   ],
   "note": ""
  },
  {
   "property": "C17",
   "status": "proved",
   "theorems": [
    "JLaw.C17_table_survives",
    "JLaw.C17_cell_survives",
    "JLaw.C17_alignment_overwrites_rowspan"
   ],
   "note": "cells with double borders do not survive either (borders come back dotted)"
  },
  {
   "property": "C18",
   "status": "proved",
   "theorems": [
    "JLaw.C18_remarks_never_survive",
    "JLaw.C18_remarks_error",
    "JLaw.C18_label_survives"
   ],
   "note": ""
  },
  {
   "property": "C19",
   "status": "proved",
   "theorems": [
    "JLaw.C19_structs_survive",
    "JLaw.C19_remarks_dropped"
   ],
   "note": "remarks are dropped silently provided reading them does not panic"
  },
  {
   "property": "C20",
   "status": "proved",
   "theorems": [
    "JLaw.C20_items_survive",
    "JLaw.C20_item_without_number"
   ],
   "note": ""
  },
  {
   "property": "C21",
   "status": "proved",
   "theorems": [
    "JLaw.C21_paragraph_survives"
   ],
   "note": ""
  },
  {
   "property": "C22",
   "status": "proved",
   "theorems": [
    "JLaw.C22_hierarchy_survives",
    "JLaw.C22_empty_article_panics"
   ],
   "note": "the panic is proved for an article whose caption and title survive"
  },
  {
   "property": "C23",
   "status": "proved",
   "theorems": [
    "JLaw.C23_toc_survives",
    "JLaw.C23_preamble_label_replaces_label"
   ],
   "note": ""
  },
  {
   "property": "C24",
   "status": "proved",
   "theorems": [
    "JLaw.C24_appendices_survive"
   ],
   "note": ""
  },
  {
   "property": "C25",
   "status": "proved",
   "theorems": [
    "JLaw.C25_suppl_provision_survives",
    "JLaw.C25_appendices_rejected"
   ],
   "note": ""
  },
  {
   "property": "C26",
   "status": "proved",
   "theorems": [
    "JLaw.C26_amend_provision_survives"
   ],
   "note": ""
  },
  {
   "property": "C27",
   "status": "proved",
   "theorems": [
    "JLaw.C27_quote_survives",
    "JLaw.C27_formula_survives"
   ],
   "note": ""
  },
  {
   "property": "C28",
   "status": "proved",
   "theorems": [
    "JLaw.C28_law_survives",
    "JLaw.C28_law_without_number_panics"
   ],
   "note": ""
  },
  {
   "property": "C29",
   "status": "proved",
   "theorems": [
    "JLaw.C29_law_panics_only_if",
    "JLaw.C29_law_value_or_error",
    "JLaw.C29_bare_article_panics",
    "JLaw.C29_missing_number_panics"
   ],
   "note": ""
  },
  {
   "property": "C30",
   "status": "proved",
   "theorems": [
    "JLaw.C30_law_not_deep",
    "JLaw.C30_reentry",
    "JLaw.C30_item_cell_amendment"
   ],
   "note": ""
  },
  {
   "property": "C31",
   "status": "proved",
   "theorems": [
    "JLaw.C31_text_and_articles",
    "JLaw.C31_rest",
    "JLaw.C31_sup_sub",
    "JLaw.C31_tag_not_looked_at"
   ],
   "note": ""
  },
  {
   "property": "C32",
   "status": "proved",
   "theorems": [
    "JLaw.C32_line",
    "JLaw.C32_sentence",
    "JLaw.C32_column",
    "JLaw.C32_remarks",
    "JLaw.C32_table",
    "JLaw.C32_sentence_or_column_or_table",
    "JLaw.C32_note_struct",
    "JLaw.C32_style_struct",
    "JLaw.C32_format_struct",
    "JLaw.C32_fig_struct",
    "JLaw.C32_table_struct",
    "JLaw.C32_list",
    "JLaw.C32_sublist1",
    "JLaw.C32_sublist2",
    "JLaw.C32_item",
    "JLaw.C32_subitem1",
    "JLaw.C32_subitem2",
    "JLaw.C32_subitem3",
    "JLaw.C32_subitem4",
    "JLaw.C32_subitem5",
    "JLaw.C32_subitem6",
    "JLaw.C32_subitem7",
    "JLaw.C32_subitem8",
    "JLaw.C32_subitem9",
    "JLaw.C32_subitem10",
    "JLaw.C32_class",
    "JLaw.C32_paragraph",
    "JLaw.C32_article",
    "JLaw.C32_part",
    "JLaw.C32_chapter",
    "JLaw.C32_section",
    "JLaw.C32_subsection",
    "JLaw.C32_division",
    "JLaw.C32_tocpart",
    "JLaw.C32_tocchapter",
    "JLaw.C32_tocsection",
    "JLaw.C32_tocsubsection",
    "JLaw.C32_tocdivision",
    "JLaw.C32_tocarticle",
    "JLaw.C32_tocsupplprovision",
    "JLaw.C32_toc",
    "JLaw.C32_appdxtable",
    "JLaw.C32_appdxnote",
    "JLaw.C32_appdxstyle",
    "JLaw.C32_appdxformat",
    "JLaw.C32_appdx",
    "JLaw.C32_appdxfig",
    "JLaw.C32_supplprovisionappdxtable",
    "JLaw.C32_supplprovisionappdxstyle",
    "JLaw.C32_supplprovisionappdx",
    "JLaw.C32_supplprovision",
    "JLaw.C32_mainprovision",
    "JLaw.C32_lawbody",
    "JLaw.C32_tablecolumn",
    "JLaw.C32_contents",
    "JLaw.C32_amendprovision"
   ],
   "note": ""
  },
  {
   "property": "C33",
   "status": "proved",
   "theorems": [
    "JLaw.C33_items",
    "JLaw.C33_items_only",
    "JLaw.C33_articles",
    "JLaw.C33_articles_only",
    "JLaw.C33_toc",
    "JLaw.C33_toc_only",
    "JLaw.C33_others",
    "JLaw.C33_others_only"
   ],
   "note": ""
  },
  {
   "property": "C34",
   "status": "proved",
   "theorems": [
    "JLaw.C34_C35_same",
    "JLaw.C34_insert",
    "JLaw.C34_C35_context",
    "JLaw.C34_C35_trans",
    "JLaw.C34_comment_before_title"
   ],
   "note": ""
  },
  {
   "property": "C35",
   "status": "proved",
   "theorems": [
    "JLaw.C34_C35_same",
    "JLaw.C34_C35_context",
    "JLaw.C34_C35_trans",
    "JLaw.C35_attributes_by_name",
    "JLaw.C35_attribute_order",
    "JLaw.C35_foreign_attribute"
   ],
   "note": ""
  },
  {
   "property": "C36",
   "status": "proved",
   "theorems": [
    "JLaw.C36_item",
    "JLaw.C36_subitem1",
    "JLaw.C36_subitem2",
    "JLaw.C36_subitem3",
    "JLaw.C36_subitem4",
    "JLaw.C36_subitem5",
    "JLaw.C36_subitem6",
    "JLaw.C36_subitem7",
    "JLaw.C36_subitem8",
    "JLaw.C36_subitem9",
    "JLaw.C36_subitem10",
    "JLaw.C36_class",
    "JLaw.C36_paragraph",
    "JLaw.C36_paragraph_sentences",
    "JLaw.C36_article",
    "JLaw.C36_part",
    "JLaw.C36_chapter",
    "JLaw.C36_section",
    "JLaw.C36_subsection",
    "JLaw.C36_division",
    "JLaw.C36_remarks",
    "JLaw.C36_column",
    "JLaw.C36_table",
    "JLaw.C36_table_row",
    "JLaw.C36_table_header_row",
    "JLaw.C36_sentence_or_column_or_table",
    "JLaw.C36_lawlist",
    "JLaw.C36_sublist1",
    "JLaw.C36_sublist2",
    "JLaw.C36_sublist3",
    "JLaw.C36_noteStruct",
    "JLaw.C36_styleStruct",
    "JLaw.C36_formatStruct",
    "JLaw.C36_figStruct",
    "JLaw.C36_tableStruct",
    "JLaw.C36_tocpart",
    "JLaw.C36_tocchapter",
    "JLaw.C36_tocsection",
    "JLaw.C36_tocsubsection",
    "JLaw.C36_tocsupplprovision",
    "JLaw.C36_toc",
    "JLaw.C36_appdxtable",
    "JLaw.C36_appdxnote",
    "JLaw.C36_appdxstyle",
    "JLaw.C36_appdxformat",
    "JLaw.C36_appdx",
    "JLaw.C36_appdxfig",
    "JLaw.C36_supplprovisionappdxtable",
    "JLaw.C36_supplprovisionappdxstyle",
    "JLaw.C36_supplprovisionappdx",
    "JLaw.C36_supplprovision",
    "JLaw.C36_preamble",
    "JLaw.C36_mainprovision",
    "JLaw.C36_lawbody",
    "JLaw.C36_amendprovision",
    "JLaw.C36_sentence",
    "JLaw.C36_line",
    "JLaw.C36_tablecolumn",
    "JLaw.C36_contents"
   ],
   "note": ""
  },
  {
   "property": "C37",
   "status": "proved",
   "theorems": [
    "JLaw.C37_law_header",
    "JLaw.C37_unknown_names"
   ],
   "note": ""
  },
  {
   "property": "C38",
   "status": "proved",
   "theorems": [
    "JLaw.C38_to_xml",
    "JLaw.C38_write_file",
    "JLaw.C38_agree",
    "JLaw.C38_agree_any_write",
    "JLaw.C38_to_xml_succeeds",
    "JLaw.C38_documents_round_trip",
    "JLaw.C38_chunk_inside_character"
   ],
   "note": "The XML writer and reader of the crate xmltree are parameters; the writer is assumed to give up when told of invalid data. C38_documents_round_trip joins this with C28 under the assumption that the XML reader gives the written element back."
  },
  {
   "property": "C39",
   "status": "proved",
   "theorems": [
    "JLaw.C39_main_provision",
    "JLaw.C39_suppl_provision"
   ],
   "note": ""
  },
  {
   "property": "C40",
   "status": "proved",
   "theorems": [
    "JLaw.C40_main_provision",
    "JLaw.C40_suppl_provision"
   ],
   "note": ""
  },
  {
   "property": "C41",
   "status": "proved",
   "theorems": [
    "JLaw.C41_main_provision",
    "JLaw.C41_suppl_provision"
   ],
   "note": ""
  },
  {
   "property": "C42",
   "status": "proved",
   "theorems": [
    "JLaw.C42_main_provision",
    "JLaw.C42_suppl_provision",
    "JLaw.C42_right_by_coincidence",
    "JLaw.C42_wrong_numbers"
   ],
   "note": ""
  },
  {
   "property": "C43",
   "status": "proved",
   "theorems": [
    "JLaw.C43_indices"
   ],
   "note": ""
  },
  {
   "property": "C44",
   "status": "proved",
   "theorems": [
    "JLaw.C44_texts"
   ],
   "note": ""
  },
  {
   "property": "C45",
   "status": "proved",
   "theorems": [
    "JLaw.C45_append",
    "JLaw.C45_join"
   ],
   "note": ""
  },
  {
   "property": "C46",
   "status": "proved",
   "theorems": [
    "JLaw.C46_sentence",
    "JLaw.C46_text",
    "JLaw.C46_text_with_writing_mode",
    "JLaw.C46_append"
   ],
   "note": ""
  },
  {
   "property": "C47",
   "status": "proved",
   "theorems": [
    "JLaw.C47_table_lines"
   ],
   "note": ""
  },
  {
   "property": "C48",
   "status": "proved",
   "theorems": [
    "JLaw.C48_main_provision",
    "JLaw.C48_suppl_provision"
   ],
   "note": ""
  },
  {
   "property": "C49",
   "status": "proved",
   "theorems": [
    "JLaw.C49_every_number_main",
    "JLaw.C49_every_number_suppl",
    "JLaw.C49_places_are_units",
    "JLaw.C49_places_are_units_suppl",
    "JLaw.C49_main_provision",
    "JLaw.C49_suppl_provision",
    "JLaw.C49_chapter_stays",
    "JLaw.C49_article_number_stays"
   ],
   "note": "C49_every_number_main and C49_every_number_suppl give every field of every entry; Spec/TocLeft.lean says what stands before a unit. They were added after wrong programs changed the division number of subsections unnoticed."
  },
  {
   "property": "C50",
   "status": "proved",
   "theorems": [
    "JLaw.C50_no_supplementary_line",
    "JLaw.C50_no_supplementary_provision"
   ],
   "note": "Finding: the pattern for supplementary provisions is only tried on lines with fewer than two characters, which it cannot match."
  },
  {
   "property": "C51",
   "status": "proved",
   "theorems": [
    "JLaw.C51_termination",
    "JLaw.C51_blank_line_after_heading"
   ],
   "note": "Finding: parse_body does not terminate when a plain text line, even an empty one, follows a heading or a caption. Iterations of the loop are counted by fuel."
  },
  {
   "property": "C52",
   "status": "proved",
   "theorems": [
    "JLaw.C52_document",
    "JLaw.C52_lines_conserved"
   ],
   "note": "The description of what lines mean is Verif/Spec/FromText.lean."
  },
  {
   "property": "C53",
   "status": "proved",
   "theorems": [
    "JLaw.C53_panics_when_too_deep",
    "JLaw.C53_two_patterns",
    "JLaw.C53_three_patterns_panic",
    "JLaw.C53_closing_two_levels"
   ],
   "note": "The original statement was wrong: closing two levels at once does not panic but misplaces the item."
  },
  {
   "property": "C54",
   "status": "proved",
   "theorems": [
    "JLaw.C54_captions"
   ],
   "note": ""
  },
  {
   "property": "C55",
   "status": "proved",
   "theorems": [
    "JLaw.C55_deleted"
   ],
   "note": ""
  },
  {
   "property": "C56",
   "status": "proved",
   "theorems": [
    "JLaw.C56_numbering",
    "JLaw.C56_preamble"
   ],
   "note": ""
  },
  {
   "property": "C57",
   "status": "proved",
   "theorems": [
    "JLaw.C57_header",
    "JLaw.C57_panics"
   ],
   "note": "Finding: the year is used as a year of the common era to find the era but stored as the year of the era. The calendar crate is a parameter."
  },
  {
   "property": "C58",
   "status": "proved",
   "theorems": [
    "JLaw.C58_law_from_text_survives",
    "JLaw.C58_without_ranges",
    "JLaw.C58_range_of_articles"
   ],
   "note": "Exact: an equivalence. The original statement was too strong; ranges of deleted articles break it."
  },
  {
   "property": "C59",
   "status": "proved",
   "theorems": [
    "JLaw.C59_clean_law_stable",
    "JLaw.C59_exclusions_needed"
   ],
   "note": "Clean is a condition on tags and attributes only; the exclusions are shown to be needed by a document each."
  },
  {
   "property": "C60",
   "status": "proved",
   "theorems": [
    "JLaw.C60_item",
    "JLaw.C60_subitem1",
    "JLaw.C60_subitem2",
    "JLaw.C60_subitem3",
    "JLaw.C60_subitem4",
    "JLaw.C60_subitem5",
    "JLaw.C60_subitem6",
    "JLaw.C60_subitem7",
    "JLaw.C60_subitem8",
    "JLaw.C60_subitem9",
    "JLaw.C60_subitem10",
    "JLaw.C60_class",
    "JLaw.C60_paragraph",
    "JLaw.C60_remarks",
    "JLaw.C60_noteStruct",
    "JLaw.C60_styleStruct",
    "JLaw.C60_formatStruct",
    "JLaw.C60_figStruct",
    "JLaw.C60_tableStruct",
    "JLaw.C60_tocpart",
    "JLaw.C60_tocchapter",
    "JLaw.C60_tocsection",
    "JLaw.C60_tocsubsection",
    "JLaw.C60_tocdivision",
    "JLaw.C60_tocarticle",
    "JLaw.C60_tocsupplprovision",
    "JLaw.C60_toc",
    "JLaw.C60_appdxtable",
    "JLaw.C60_appdxnote",
    "JLaw.C60_appdxstyle",
    "JLaw.C60_appdxformat",
    "JLaw.C60_appdx",
    "JLaw.C60_appdxfig",
    "JLaw.C60_supplprovisionappdxtable",
    "JLaw.C60_supplprovisionappdxstyle",
    "JLaw.C60_supplprovisionappdx",
    "JLaw.C60_supplprovision",
    "JLaw.C60_lawbody",
    "JLaw.C60_article"
   ],
   "note": ""
  },
  {
   "property": "C61",
   "status": "proved",
   "theorems": [
    "JLaw.C61_hiragana_heading",
    "JLaw.C61_paren_hiragana_heading"
   ],
   "note": ""
  },
  {
   "property": "C62",
   "status": "proved",
   "theorems": [
    "JLaw.C62_roman_not_read",
    "JLaw.C62_roman_read"
   ],
   "note": "the roman numeral crate is a parameter; reading back assumes that it reads what it writes (ReadsRoman, with an instance)"
  },
  {
   "property": "C63",
   "status": "proved",
   "theorems": [
    "JLaw.C63_ignored_children_preamble",
    "JLaw.C63_ignored_children_table_row",
    "JLaw.C63_ignored_children_header_row",
    "JLaw.C63_ignored_children_text",
    "JLaw.C63_ignored_line",
    "JLaw.C63_line_without_style",
    "JLaw.C63_ignored_children_ruby",
    "JLaw.C63_after_first_sup_sub",
    "JLaw.C63_after_first_sublist3",
    "JLaw.C63_after_second_law",
    "JLaw.C63_figure"
   ],
   "note": "Finding: a Line without a Style attribute is lost with its text."
  },
  {
   "property": "C64",
   "status": "proved",
   "theorems": [
    "JLaw.C64_caption",
    "JLaw.C64_headings",
    "JLaw.C64_paragraph",
    "JLaw.C64_item",
    "JLaw.C64_digit_items_are_paragraphs"
   ],
   "note": "Finding: items headed by plain full-width digits become paragraphs."
  },
  {
   "property": "C65",
   "status": "proved",
   "theorems": [
    "JLaw.C65_unbroken_line",
    "JLaw.C65_article_without_blank",
    "JLaw.C65_article_becomes_division"
   ],
   "note": "Finding: text is lost and articles become divisions."
  },
  {
   "property": "C66",
   "status": "proved",
   "theorems": [
    "JLaw.C66_katakana_word_panics",
    "JLaw.C66_hiragana_word_panics",
    "JLaw.C66_text_panics"
   ],
   "note": "Finding: ordinary words at the start of a line are a panic."
  },
  {
   "property": "C67",
   "status": "proved",
   "theorems": [
    "JLaw.C67_single_letter",
    "JLaw.C67_roman_letter",
    "JLaw.C67_mixed_letters_panic",
    "JLaw.C67_letters_collide",
    "JLaw.C67_third_letter_nested"
   ],
   "note": "Findings: （ｃ） is read as 100 and nested, Ｖ and words such as ＩＴ panic, ＡＡ = Ｋ. Assumes that the roman numeral crate reads C as 100 and refuses texts with characters other than its seven letters; each theorem names the assumption it needs."
  },
  {
   "property": "C68",
   "status": "proved",
   "theorems": [
    "JLaw.C68_written_clean",
    "JLaw.C68_second_round_trip"
   ],
   "note": ""
  },
  {
   "property": "C69",
   "status": "proved",
   "theorems": [
    "JLaw.C69_toc_getters",
    "JLaw.C69_article_getters",
    "JLaw.C69_new_article"
   ],
   "note": "set_article of Toc writes the wrong field; the theorem states exactly what each getter gives."
  },
  {
   "property": "C70",
   "status": "proved",
   "theorems": [
    "JLaw.C70_add_text",
    "JLaw.C70_add_piece",
    "JLaw.C70_text_parser",
    "JLaw.C70_with_writing_mode",
    "JLaw.C70_writing_mode_written"
   ],
   "note": ""
  },
  {
   "property": "C71",
   "status": "proved",
   "theorems": [
    "JLaw.C71_is_zero"
   ],
   "note": ""
  },
  {
   "property": "C72",
   "status": "proved",
   "theorems": [
    "JLaw.C72_shape",
    "JLaw.C72_exact"
   ],
   "note": "an equivalence; the shape is stated without the readers"
  },
  {
   "property": "C73",
   "status": "proved",
   "theorems": [
    "JLaw.C73_prose",
    "JLaw.C73_prose_head",
    "JLaw.C73_text_round_trip"
   ],
   "note": "for kanji numerals the crate kansuji is assumed to read 1 to 9999 as it writes them"
  },
  {
   "property": "C74",
   "status": "proved",
   "theorems": [
    "JLaw.C74_read_accepted",
    "JLaw.C74_accepted_read",
    "JLaw.C74_read_iff",
    "JLaw.C74_rejected",
    "JLaw.C74_bound_irrelevant",
    "JLaw.C74_article_paragraph_item"
   ],
   "note": "Soundness holds for every document; completeness is for documents without an article that has no contents, which would be a panic (C29), and the exclusion is shown to be needed by quotingDoc."
  },
  {
   "property": "C75",
   "status": "proved",
   "theorems": [
    "JLaw.C75_written_conforms",
    "JLaw.C75_every_element",
    "JLaw.C75_body_order"
   ],
   "note": "the schema is a table of tags, attributes and sequences (Spec/Written.lean)"
  },
  {
   "property": "C76",
   "status": "proved",
   "theorems": [
    "JLaw.C76_accepts_iff",
    "JLaw.C76_read_iff_accepts",
    "JLaw.C76_taken_never_error",
    "JLaw.C76_refused_never_read"
   ],
   "note": "Spec.accepts checks the rules of C74; C76_taken_never_error covers the documents with bare articles too."
  },
  {
   "property": "C77",
   "status": "proved",
   "theorems": [
    "JLaw.C77_law_rewritten",
    "JLaw.C77_accepted_rewritten",
    "JLaw.C77_parts_rewritten",
    "JLaw.C77_unchanged_iff",
    "JLaw.C77_same_iff",
    "JLaw.C77_conforms",
    "JLaw.C77_read_again_iff",
    "JLaw.C77_clean_once",
    "JLaw.C77_twice"
   ],
   "note": "Spec.rewrite applies the table Spec.layouts and mentions no reader or writer; which lines and remarks are dropped is decided by the checker of C76."
  },
  {
   "property": "C78",
   "status": "proved",
   "theorems": [
    "JLaw.C78_outcome",
    "JLaw.C78_read_iff",
    "JLaw.C78_error_iff",
    "JLaw.C78_panic_iff",
    "JLaw.C78_fine_iff",
    "JLaw.C78_crash",
    "JLaw.C78_article_paragraph_item",
    "JLaw.C78_file"
   ],
   "note": "C78_outcome is for whole documents; C78_fine_iff and C78_crash relate it to C74 and C29. Spec/Verdict.lean mentions no reader."
  },
  {
   "property": "C79",
   "status": "proved",
   "theorems": [
    "JLaw.C79_truthful",
    "JLaw.C79_misreport_untrue",
    "JLaw.C79_never_true",
    "JLaw.C79_misreported"
   ],
   "note": "The code violates the property that errors are true; the exceptions are listed in Misreport, shown to be untrue and shown to occur."
  },
  {
   "property": "C80",
   "status": "proved",
   "theorems": [
    "JLaw.C80_message_determines",
    "JLaw.C80_reported",
    "JLaw.C80_blanks_ambiguous",
    "JLaw.C80_unreadable_file"
   ],
   "note": "Display as thiserror derives it: the format string with the fields put in."
  },
  {
   "property": "C81",
   "status": "proved",
   "theorems": [
    "JLaw.C81_main_provision",
    "JLaw.C81_suppl_provisions"
   ],
   "note": "Spec.Doc (Spec/Extract.lean) takes articles, groups and numbers from the document alone; Numbered.rewritten and WithNumberArticle.numbered only turn an entry into tags, numbers and the element."
  },
  {
   "property": "C82",
   "status": "proved",
   "theorems": [
    "JLaw.C82_article",
    "JLaw.C82_paragraph",
    "JLaw.C82_main_provision",
    "JLaw.C82_suppl_provisions"
   ],
   "note": "TextIndex.entry only turns the index into strings."
  },
  {
   "property": "C83",
   "status": "proved",
   "theorems": [
    "JLaw.C83_main_provision",
    "JLaw.C83_suppl_provisions"
   ],
   "note": "What the other numbers are is C49."
  },
  {
   "property": "C84",
   "status": "proved",
   "theorems": [
    "JLaw.C84_article_number"
   ],
   "note": "Scan.articleNumber (Spec/Scan.lean) has no patterns and no alternatives to go back to."
  },
  {
   "property": "C85",
   "status": "proved",
   "theorems": [
    "JLaw.C85_pieces_determine_law",
    "JLaw.C85_law_of_text",
    "JLaw.C85_exists_unique"
   ],
   "note": "with C51 and C53 this gives the result of parse_body on all texts whose lines can be read"
  },
  {
   "property": "C86",
   "status": "proved",
   "theorems": [
    "JLaw.C86_best_cut",
    "JLaw.C86_item_number",
    "JLaw.C86_no_number"
   ],
   "note": "Spec/ScanItem.lean has words and ways to cut, no patterns. The end of a range is recognised and dropped, as in the code."
  },
  {
   "property": "C87",
   "status": "proved",
   "theorems": [
    "JLaw.C87_line",
    "JLaw.C87_says",
    "JLaw.C87_lines",
    "JLaw.C87_text",
    "JLaw.C87_law"
   ],
   "note": "Together with C84, C85 and C86 this describes what is built from any text whose lines can be read, without the patterns of the code."
  },
  {
   "property": "C88",
   "status": "proved",
   "theorems": [
    "JLaw.C88_settle",
    "JLaw.C88_same_outcome",
    "JLaw.C88_same_writing",
    "JLaw.C88_law_same",
    "JLaw.C88_written",
    "JLaw.C88_survives_iff",
    "JLaw.C88_survives_keeps",
    "JLaw.C88_read_written",
    "JLaw.C88_files",
    "JLaw.C88_conditions_needed"
   ],
   "note": "The XML reader is a parameter; that a file keeps exactly Spec.settle of an element is the documented behaviour of xmltree and xml-rs and is assumed only in C88_files."
  },
  {
   "property": "C89",
   "status": "proved",
   "theorems": [
    "JLaw.C89_titles_read",
    "JLaw.C89_titles_built",
    "JLaw.C89_from_text"
   ],
   "note": "Finding. The main provision is meant: laws from text have no supplementary provisions (C50)."
  },
  {
   "property": "C90",
   "status": "proved",
   "theorems": [
    "JLaw.C90_same_outcome",
    "JLaw.C90_read_twice",
    "JLaw.C90_files_settle",
    "JLaw.C90_first_file",
    "JLaw.C90_through_files",
    "JLaw.C90_second_needed"
   ],
   "note": "About `Spec.settle`, what a file keeps of a document, as in C88. The height condition only says that the bound on re-entries is large enough."
  },
  {
   "property": "C91",
   "status": "proved",
   "theorems": [
    "JLaw.C91_no_text_added",
    "JLaw.C91_parts",
    "JLaw.C91_through_files",
    "JLaw.C91_nothing_from_nothing"
   ],
   "note": "From the rewrite table of C77: no child of an element is used by two portions of its layout."
  },
  {
   "property": "C92",
   "status": "proved",
   "theorems": [
    "JLaw.C92_ends",
    "JLaw.C92_between",
    "JLaw.C92_layout",
    "JLaw.C92_blank_line",
    "JLaw.C92_blank_line_between",
    "JLaw.C92_blank_line_matters",
    "JLaw.C92_blank_line_under_heading"
   ],
   "note": "C92_ends and C92_between are about one line, C92_layout about a text. C92_blank_line, C92_blank_line_between, C92_blank_line_matters and C92_blank_line_under_heading say what an empty line does."
  },
  {
   "property": "C93",
   "status": "proved",
   "theorems": [
    "JLaw.C93_levels",
    "JLaw.C93_from_text",
    "JLaw.C93_then_unchanged",
    "JLaw.C93_files"
   ],
   "note": "Complements C89, which says that the law never comes back unchanged if it has an article. unblankLaw in Spec/Unblank.lean says what is removed. C93_files makes the same assumption about the XML reader as C88_files."
  },
  {
   "property": "C94",
   "status": "proved",
   "theorems": [
    "JLaw.C94_articles",
    "JLaw.C94_texts",
    "JLaw.C94_nothing_lost"
   ],
   "note": "About the lines that readLines finds (C64-C67 and C84-C87 say which lines these are); the statement about lines is in Spec/Gather.lean."
  },
  {
   "property": "C95",
   "status": "proved",
   "theorems": [
    "JLaw.C95_units",
    "JLaw.C95_titles",
    "JLaw.C95_numbers"
   ],
   "note": "The statement about lines is in Spec/UnitsOfLines.lean. The reported numbers are those of C42, which are not the numbers of the units around the article."
  },
  {
   "property": "C96",
   "status": "proved",
   "theorems": [
    "JLaw.C96_edit",
    "JLaw.C96_append",
    "JLaw.C96_insert"
   ],
   "note": "C96_edit, C96_insert and C96_append; the lines before the edit must all be in place (leftOver is empty), since nothing after a line out of place is read. Examples show the hypotheses are met and that an article put between a caption and its article takes the caption."
  },
  {
   "property": "C97",
   "status": "proved",
   "theorems": [
    "JLaw.C97_sentence_read",
    "JLaw.C97_text_read",
    "JLaw.C97_table_read",
    "JLaw.C97_items_read",
    "JLaw.C97_articles_read",
    "JLaw.C97_toc_read",
    "JLaw.C97_appendices_read",
    "JLaw.C97_body_read",
    "JLaw.C97_text_written",
    "JLaw.C97_table_written",
    "JLaw.C97_body_written"
   ],
   "note": "Found by testing against wrong programs: two names exchanged in the reader and in the writer alike had escaped every theorem. Flags are C33, the attributes of Law C37, numbers as they are written C01. Finding: a line style double is read as dotted but written as double."
  },
  {
   "property": "C98",
   "status": "proved",
   "theorems": [
    "JLaw.C98_document",
    "JLaw.C98_exact",
    "JLaw.C98_same_text",
    "JLaw.C98_simple_names",
    "JLaw.C98_law",
    "JLaw.C98_to_xml",
    "JLaw.C98_files",
    "JLaw.C98_write_file",
    "JLaw.C98_again",
    "JLaw.C98_settled",
    "JLaw.C98_from_text"
   ],
   "note": "the writer and reader are written here as an instance of the assumption about xmltree (C88, C93); they are not code of the repository"
  },
  {
   "property": "C99",
   "status": "proved",
   "theorems": [
    "JLaw.C99_law_comes_back",
    "JLaw.C99_different_laws",
    "JLaw.C99_exact",
    "JLaw.C99_every_type",
    "JLaw.C99_law_fields",
    "JLaw.C99_order",
    "JLaw.C99_foreign_key",
    "JLaw.C99_twice",
    "JLaw.C99_missing",
    "JLaw.C99_null",
    "JLaw.C99_unlike_xml",
    "JLaw.C99_names_appdx",
    "JLaw.C99_names_article",
    "JLaw.C99_names_article_number",
    "JLaw.C99_names_class",
    "JLaw.C99_names_contents",
    "JLaw.C99_names_fig",
    "JLaw.C99_names_law",
    "JLaw.C99_names_line",
    "JLaw.C99_names_list",
    "JLaw.C99_names_paragraph",
    "JLaw.C99_names_remarks",
    "JLaw.C99_names_sentence",
    "JLaw.C99_names_structs",
    "JLaw.C99_names_suppl_provision",
    "JLaw.C99_names_table",
    "JLaw.C99_names_table_of_contents",
    "JLaw.C99_names_text",
    "JLaw.C99_names_utils"
   ],
   "note": "the derived code is modelled by the documented rules of serde's derive macros; error values and the depth limit of serde_json are not modelled"
  }
 ]
}