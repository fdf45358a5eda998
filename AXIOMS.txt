JLaw.C01_num_str_round_trip: propext, Classical.choice, Quot.sound
JLaw.C02_num_str_injective: propext, Classical.choice, Quot.sound
JLaw.C02_num_str_collision: propext, Quot.sound
JLaw.C03_from_num_str_language: propext, Classical.choice, Quot.sound
JLaw.C04_wide_digits: propext, Classical.choice, Quot.sound
JLaw.C05_iroha_katakana: propext, Classical.choice, Quot.sound
JLaw.C05_iroha_hiragana: propext, Classical.choice, Quot.sound
JLaw.C06_item_text_panics: propext, Classical.choice, Quot.sound
JLaw.C07_parens_only_add: propext, Quot.sound
JLaw.C07_roman_swapped: propext, Quot.sound
JLaw.C07_roman_differs: propext, Quot.sound
JLaw.C08_heading_reads_back: propext, Classical.choice, Quot.sound
JLaw.C09_paragraph_text_read: propext, Classical.choice, Quot.sound
JLaw.C09_paragraph_text_survives: propext, Classical.choice, Quot.sound
JLaw.C10_parse_article_number_panics: propext, Classical.choice, Quot.sound
JLaw.C11_item_heading_reads_back: propext, Classical.choice, Quot.sound
JLaw.C12_range_text: propext, Classical.choice, Quot.sound
JLaw.C12_range_forgotten: propext, Classical.choice, Quot.sound
JLaw.C12_no_item_range: propext, Classical.choice, Quot.sound
JLaw.C12_range_lost: propext, Classical.choice, Quot.sound
JLaw.C13_split_number: propext, Classical.choice, Quot.sound
JLaw.C14_text_survives: propext, Classical.choice, Quot.sound
JLaw.C14_ruby_survives: propext, Classical.choice, Quot.sound
JLaw.C14_sup_sub_survive: propext
JLaw.C15_sentence_survives: propext, Classical.choice, Quot.sound
JLaw.C15_line_survives: propext, Classical.choice, Quot.sound
JLaw.C15_double_line_becomes_dotted: propext, Classical.choice, Quot.sound
JLaw.C16_list_survives: propext, Classical.choice, Quot.sound
JLaw.C16_sublists_survive: propext, Classical.choice, Quot.sound
JLaw.C17_table_survives: propext, Classical.choice, Quot.sound
JLaw.C17_cell_survives: propext, Classical.choice, Quot.sound
JLaw.C17_alignment_overwrites_rowspan: propext, Classical.choice, Quot.sound
JLaw.C18_remarks_never_survive: propext, Classical.choice, Quot.sound
JLaw.C18_remarks_error: propext, Classical.choice, Quot.sound
JLaw.C18_label_survives: propext, Classical.choice, Quot.sound
JLaw.C19_structs_survive: propext, Classical.choice, Quot.sound
JLaw.C19_remarks_dropped: propext, Classical.choice, Quot.sound
JLaw.C20_items_survive: propext, Classical.choice, Quot.sound
JLaw.C20_item_without_number: propext, Classical.choice, Quot.sound
JLaw.C21_paragraph_survives: propext, Classical.choice, Quot.sound
JLaw.C22_hierarchy_survives: propext, Classical.choice, Quot.sound
JLaw.C22_empty_article_panics: propext, Classical.choice, Quot.sound
JLaw.C23_toc_survives: propext, Classical.choice, Quot.sound
JLaw.C23_preamble_label_replaces_label: propext, Classical.choice, Quot.sound
JLaw.C24_appendices_survive: propext, Classical.choice, Quot.sound
JLaw.C25_suppl_provision_survives: propext, Classical.choice, Quot.sound
JLaw.C25_appendices_rejected: propext, Classical.choice, Quot.sound
JLaw.C26_amend_provision_survives: propext, Classical.choice, Quot.sound
JLaw.C27_quote_survives: propext, Classical.choice, Quot.sound
JLaw.C27_formula_survives: propext, Classical.choice, Quot.sound
JLaw.C28_law_survives: propext, Classical.choice, Quot.sound
JLaw.C28_law_without_number_panics: propext, Classical.choice, Quot.sound
JLaw.C29_law_panics_only_if: propext, Classical.choice, Quot.sound
JLaw.C29_law_value_or_error: propext, Classical.choice, Quot.sound
JLaw.C29_bare_article_panics: propext, Classical.choice, Quot.sound
JLaw.C29_missing_number_panics: propext, Classical.choice, Quot.sound
JLaw.C30_law_not_deep: propext, Classical.choice, Quot.sound
JLaw.C30_reentry: propext, Classical.choice, Quot.sound
JLaw.C30_item_cell_amendment: propext, Classical.choice, Quot.sound
JLaw.C31_text_and_articles: propext, Classical.choice, Quot.sound
JLaw.C31_rest: propext, Classical.choice, Quot.sound
JLaw.C31_sup_sub: propext
JLaw.C31_tag_not_looked_at: propext, Classical.choice, Quot.sound
JLaw.C32_line: propext, Classical.choice, Quot.sound
JLaw.C32_sentence: propext, Classical.choice, Quot.sound
JLaw.C32_column: propext, Classical.choice, Quot.sound
JLaw.C32_remarks: propext, Classical.choice, Quot.sound
JLaw.C32_table: propext, Classical.choice, Quot.sound
JLaw.C32_sentence_or_column_or_table: propext, Classical.choice, Quot.sound
JLaw.C32_note_struct: propext, Classical.choice, Quot.sound
JLaw.C32_style_struct: propext, Classical.choice, Quot.sound
JLaw.C32_format_struct: propext, Classical.choice, Quot.sound
JLaw.C32_fig_struct: propext, Classical.choice, Quot.sound
JLaw.C32_table_struct: propext, Classical.choice, Quot.sound
JLaw.C32_list: propext, Classical.choice, Quot.sound
JLaw.C32_sublist1: propext, Classical.choice, Quot.sound
JLaw.C32_sublist2: propext, Classical.choice, Quot.sound
JLaw.C32_item: propext, Classical.choice, Quot.sound
JLaw.C32_subitem1: propext, Classical.choice, Quot.sound
JLaw.C32_subitem2: propext, Classical.choice, Quot.sound
JLaw.C32_subitem3: propext, Classical.choice, Quot.sound
JLaw.C32_subitem4: propext, Classical.choice, Quot.sound
JLaw.C32_subitem5: propext, Classical.choice, Quot.sound
JLaw.C32_subitem6: propext, Classical.choice, Quot.sound
JLaw.C32_subitem7: propext, Classical.choice, Quot.sound
JLaw.C32_subitem8: propext, Classical.choice, Quot.sound
JLaw.C32_subitem9: propext, Classical.choice, Quot.sound
JLaw.C32_subitem10: propext, Classical.choice, Quot.sound
JLaw.C32_class: propext, Classical.choice, Quot.sound
JLaw.C32_paragraph: propext, Classical.choice, Quot.sound
JLaw.C32_article: propext, Classical.choice, Quot.sound
JLaw.C32_part: propext, Classical.choice, Quot.sound
JLaw.C32_chapter: propext, Classical.choice, Quot.sound
JLaw.C32_section: propext, Classical.choice, Quot.sound
JLaw.C32_subsection: propext, Classical.choice, Quot.sound
JLaw.C32_division: propext, Classical.choice, Quot.sound
JLaw.C32_tocpart: propext, Classical.choice, Quot.sound
JLaw.C32_tocchapter: propext, Classical.choice, Quot.sound
JLaw.C32_tocsection: propext, Classical.choice, Quot.sound
JLaw.C32_tocsubsection: propext, Classical.choice, Quot.sound
JLaw.C32_tocdivision: propext, Classical.choice, Quot.sound
JLaw.C32_tocarticle: propext, Classical.choice, Quot.sound
JLaw.C32_tocsupplprovision: propext, Classical.choice, Quot.sound
JLaw.C32_toc: propext, Classical.choice, Quot.sound
JLaw.C32_appdxtable: propext, Classical.choice, Quot.sound
JLaw.C32_appdxnote: propext, Classical.choice, Quot.sound
JLaw.C32_appdxstyle: propext, Classical.choice, Quot.sound
JLaw.C32_appdxformat: propext, Classical.choice, Quot.sound
JLaw.C32_appdx: propext, Classical.choice, Quot.sound
JLaw.C32_appdxfig: propext, Classical.choice, Quot.sound
JLaw.C32_supplprovisionappdxtable: propext, Classical.choice, Quot.sound
JLaw.C32_supplprovisionappdxstyle: propext, Classical.choice, Quot.sound
JLaw.C32_supplprovisionappdx: propext, Classical.choice, Quot.sound
JLaw.C32_supplprovision: propext, Classical.choice, Quot.sound
JLaw.C32_mainprovision: propext, Classical.choice, Quot.sound
JLaw.C32_lawbody: propext, Classical.choice, Quot.sound
JLaw.C32_tablecolumn: propext, Classical.choice, Quot.sound
JLaw.C32_contents: propext, Classical.choice, Quot.sound
JLaw.C32_amendprovision: propext, Classical.choice, Quot.sound
JLaw.C33_items: propext, Classical.choice, Quot.sound
JLaw.C33_items_only: propext, Classical.choice, Quot.sound
JLaw.C33_articles: propext, Classical.choice, Quot.sound
JLaw.C33_articles_only: propext, Classical.choice, Quot.sound
JLaw.C33_toc: propext, Classical.choice, Quot.sound
JLaw.C33_toc_only: propext, Classical.choice, Quot.sound
JLaw.C33_others: propext, Classical.choice, Quot.sound
JLaw.C33_others_only: propext, Classical.choice, Quot.sound
JLaw.C34_C35_same: propext, Classical.choice, Quot.sound
JLaw.C34_insert: propext, Quot.sound
JLaw.C34_C35_context: propext, Quot.sound
JLaw.C34_C35_trans: propext
JLaw.C34_comment_before_title: propext, Classical.choice, Quot.sound
JLaw.C35_attributes_by_name: propext, Quot.sound
JLaw.C35_attribute_order: propext, Quot.sound
JLaw.C35_foreign_attribute: propext, Quot.sound
JLaw.C36_item: propext, Classical.choice, Quot.sound
JLaw.C36_subitem1: propext, Classical.choice, Quot.sound
JLaw.C36_subitem2: propext, Classical.choice, Quot.sound
JLaw.C36_subitem3: propext, Classical.choice, Quot.sound
JLaw.C36_subitem4: propext, Classical.choice, Quot.sound
JLaw.C36_subitem5: propext, Classical.choice, Quot.sound
JLaw.C36_subitem6: propext, Classical.choice, Quot.sound
JLaw.C36_subitem7: propext, Classical.choice, Quot.sound
JLaw.C36_subitem8: propext, Classical.choice, Quot.sound
JLaw.C36_subitem9: propext, Classical.choice, Quot.sound
JLaw.C36_subitem10: propext, Classical.choice, Quot.sound
JLaw.C36_class: propext, Classical.choice, Quot.sound
JLaw.C36_paragraph: propext, Classical.choice, Quot.sound
JLaw.C36_paragraph_sentences: propext, Classical.choice, Quot.sound
JLaw.C36_article: propext, Classical.choice, Quot.sound
JLaw.C36_part: propext, Classical.choice, Quot.sound
JLaw.C36_chapter: propext, Classical.choice, Quot.sound
JLaw.C36_section: propext, Classical.choice, Quot.sound
JLaw.C36_subsection: propext, Classical.choice, Quot.sound
JLaw.C36_division: propext, Classical.choice, Quot.sound
JLaw.C36_remarks: propext, Classical.choice, Quot.sound
JLaw.C36_column: propext, Classical.choice, Quot.sound
JLaw.C36_table: propext, Classical.choice, Quot.sound
JLaw.C36_table_row: propext, Classical.choice, Quot.sound
JLaw.C36_table_header_row: propext, Classical.choice, Quot.sound
JLaw.C36_sentence_or_column_or_table: propext, Classical.choice, Quot.sound
JLaw.C36_lawlist: propext, Classical.choice, Quot.sound
JLaw.C36_sublist1: propext, Classical.choice, Quot.sound
JLaw.C36_sublist2: propext, Classical.choice, Quot.sound
JLaw.C36_sublist3: propext, Classical.choice, Quot.sound
JLaw.C36_noteStruct: propext, Classical.choice, Quot.sound
JLaw.C36_styleStruct: propext, Classical.choice, Quot.sound
JLaw.C36_formatStruct: propext, Classical.choice, Quot.sound
JLaw.C36_figStruct: propext, Classical.choice, Quot.sound
JLaw.C36_tableStruct: propext, Classical.choice, Quot.sound
JLaw.C36_tocpart: propext, Classical.choice, Quot.sound
JLaw.C36_tocchapter: propext, Classical.choice, Quot.sound
JLaw.C36_tocsection: propext, Classical.choice, Quot.sound
JLaw.C36_tocsubsection: propext, Classical.choice, Quot.sound
JLaw.C36_tocsupplprovision: propext, Classical.choice, Quot.sound
JLaw.C36_toc: propext, Classical.choice, Quot.sound
JLaw.C36_appdxtable: propext, Classical.choice, Quot.sound
JLaw.C36_appdxnote: propext, Classical.choice, Quot.sound
JLaw.C36_appdxstyle: propext, Classical.choice, Quot.sound
JLaw.C36_appdxformat: propext, Classical.choice, Quot.sound
JLaw.C36_appdx: propext, Classical.choice, Quot.sound
JLaw.C36_appdxfig: propext, Classical.choice, Quot.sound
JLaw.C36_supplprovisionappdxtable: propext, Classical.choice, Quot.sound
JLaw.C36_supplprovisionappdxstyle: propext, Classical.choice, Quot.sound
JLaw.C36_supplprovisionappdx: propext, Classical.choice, Quot.sound
JLaw.C36_supplprovision: propext, Classical.choice, Quot.sound
JLaw.C36_preamble: propext, Classical.choice, Quot.sound
JLaw.C36_mainprovision: propext, Classical.choice, Quot.sound
JLaw.C36_lawbody: propext, Classical.choice, Quot.sound
JLaw.C36_amendprovision: propext, Classical.choice, Quot.sound
JLaw.C36_sentence: propext, Classical.choice, Quot.sound
JLaw.C36_line: propext, Classical.choice, Quot.sound
JLaw.C36_tablecolumn: propext, Classical.choice, Quot.sound
JLaw.C36_contents: propext, Classical.choice, Quot.sound
JLaw.C37_law_header: propext, Classical.choice, Quot.sound
JLaw.C37_unknown_names: propext, Classical.choice, Quot.sound
JLaw.C38_to_xml: propext, Classical.choice, Quot.sound
JLaw.C38_write_file: propext, Quot.sound
JLaw.C38_agree: propext, Classical.choice, Quot.sound
JLaw.C38_agree_any_write: propext, Classical.choice, Quot.sound
JLaw.C38_to_xml_succeeds: propext, Classical.choice, Quot.sound
JLaw.C38_documents_round_trip: propext, Classical.choice, Quot.sound
JLaw.C38_chunk_inside_character: propext, Classical.choice, Quot.sound
JLaw.C39_main_provision: propext, Quot.sound
JLaw.C39_suppl_provision: propext, Quot.sound
JLaw.C40_main_provision: none
JLaw.C40_suppl_provision: propext, Quot.sound
JLaw.C41_main_provision: propext, Quot.sound
JLaw.C41_suppl_provision: propext, Quot.sound
JLaw.C42_main_provision: propext, Quot.sound
JLaw.C42_suppl_provision: propext, Quot.sound
JLaw.C42_right_by_coincidence: propext, Quot.sound
JLaw.C42_wrong_numbers: propext, Classical.choice, Quot.sound
JLaw.C43_indices: propext, Quot.sound
JLaw.C44_texts: propext, Classical.choice, Quot.sound
JLaw.C45_append: propext, Quot.sound
JLaw.C45_join: propext, Quot.sound
JLaw.C46_sentence: propext, Classical.choice, Quot.sound
JLaw.C46_text: propext, Classical.choice, Quot.sound
JLaw.C46_text_with_writing_mode: propext, Classical.choice, Quot.sound
JLaw.C46_append: propext, Classical.choice, Quot.sound
JLaw.C47_table_lines: propext, Classical.choice, Quot.sound
JLaw.C48_main_provision: propext, Classical.choice, Quot.sound
JLaw.C48_suppl_provision: propext, Classical.choice, Quot.sound
JLaw.C49_every_number_main: propext, Classical.choice, Quot.sound
JLaw.C49_every_number_suppl: propext, Classical.choice, Quot.sound
JLaw.C49_places_are_units: propext, Quot.sound
JLaw.C49_places_are_units_suppl: propext, Quot.sound
JLaw.C49_main_provision: propext, Quot.sound
JLaw.C49_suppl_provision: propext, Quot.sound
JLaw.C49_chapter_stays: propext, Quot.sound
JLaw.C49_article_number_stays: propext, Quot.sound
JLaw.C50_no_supplementary_line: propext, Classical.choice, Quot.sound
JLaw.C50_no_supplementary_provision: propext, Classical.choice, Quot.sound
JLaw.C51_termination: propext, Classical.choice, Quot.sound
JLaw.C51_blank_line_after_heading: propext, Classical.choice, Quot.sound
JLaw.C52_document: propext, Classical.choice, Quot.sound
JLaw.C52_lines_conserved: propext, Classical.choice, Quot.sound
JLaw.C53_panics_when_too_deep: propext, Classical.choice, Quot.sound
JLaw.C53_two_patterns: propext, Classical.choice, Quot.sound
JLaw.C53_three_patterns_panic: propext, Classical.choice, Quot.sound
JLaw.C53_closing_two_levels: propext, Classical.choice, Quot.sound
JLaw.C54_captions: propext, Classical.choice, Quot.sound
JLaw.C55_deleted: propext, Classical.choice, Quot.sound
JLaw.C56_numbering: propext, Classical.choice, Quot.sound
JLaw.C56_preamble: propext, Classical.choice, Quot.sound
JLaw.C57_header: propext, Classical.choice, Quot.sound
JLaw.C57_panics: propext, Classical.choice, Quot.sound
JLaw.C58_law_from_text_survives: propext, Classical.choice, Quot.sound
JLaw.C58_without_ranges: propext, Classical.choice, Quot.sound
JLaw.C58_range_of_articles: propext, Classical.choice, Quot.sound
JLaw.C59_clean_law_stable: propext, Classical.choice, Quot.sound
JLaw.C59_exclusions_needed: propext, Classical.choice, Quot.sound
JLaw.C60_item: propext, Classical.choice, Quot.sound
JLaw.C60_subitem1: propext, Classical.choice, Quot.sound
JLaw.C60_subitem2: propext, Classical.choice, Quot.sound
JLaw.C60_subitem3: propext, Classical.choice, Quot.sound
JLaw.C60_subitem4: propext, Classical.choice, Quot.sound
JLaw.C60_subitem5: propext, Classical.choice, Quot.sound
JLaw.C60_subitem6: propext, Classical.choice, Quot.sound
JLaw.C60_subitem7: propext, Classical.choice, Quot.sound
JLaw.C60_subitem8: propext, Classical.choice, Quot.sound
JLaw.C60_subitem9: propext, Classical.choice, Quot.sound
JLaw.C60_subitem10: propext, Classical.choice, Quot.sound
JLaw.C60_class: propext, Classical.choice, Quot.sound
JLaw.C60_paragraph: propext, Classical.choice, Quot.sound
JLaw.C60_remarks: propext, Classical.choice, Quot.sound
JLaw.C60_noteStruct: propext, Classical.choice, Quot.sound
JLaw.C60_styleStruct: propext, Classical.choice, Quot.sound
JLaw.C60_formatStruct: propext, Classical.choice, Quot.sound
JLaw.C60_figStruct: propext, Classical.choice, Quot.sound
JLaw.C60_tableStruct: propext, Classical.choice, Quot.sound
JLaw.C60_tocpart: propext, Classical.choice, Quot.sound
JLaw.C60_tocchapter: propext, Classical.choice, Quot.sound
JLaw.C60_tocsection: propext, Classical.choice, Quot.sound
JLaw.C60_tocsubsection: propext, Classical.choice, Quot.sound
JLaw.C60_tocdivision: propext, Classical.choice, Quot.sound
JLaw.C60_tocarticle: propext, Classical.choice, Quot.sound
JLaw.C60_tocsupplprovision: propext, Classical.choice, Quot.sound
JLaw.C60_toc: propext, Classical.choice, Quot.sound
JLaw.C60_appdxtable: propext, Classical.choice, Quot.sound
JLaw.C60_appdxnote: propext, Classical.choice, Quot.sound
JLaw.C60_appdxstyle: propext, Classical.choice, Quot.sound
JLaw.C60_appdxformat: propext, Classical.choice, Quot.sound
JLaw.C60_appdx: propext, Classical.choice, Quot.sound
JLaw.C60_appdxfig: propext, Classical.choice, Quot.sound
JLaw.C60_supplprovisionappdxtable: propext, Classical.choice, Quot.sound
JLaw.C60_supplprovisionappdxstyle: propext, Classical.choice, Quot.sound
JLaw.C60_supplprovisionappdx: propext, Classical.choice, Quot.sound
JLaw.C60_supplprovision: propext, Classical.choice, Quot.sound
JLaw.C60_lawbody: propext, Classical.choice, Quot.sound
JLaw.C60_article: propext, Classical.choice, Quot.sound
JLaw.C61_hiragana_heading: propext, Classical.choice, Quot.sound
JLaw.C61_paren_hiragana_heading: propext, Classical.choice, Quot.sound
JLaw.C62_roman_not_read: propext, Classical.choice, Quot.sound
JLaw.C62_roman_read: propext, Classical.choice, Quot.sound
JLaw.C63_ignored_children_preamble: propext, Classical.choice, Quot.sound
JLaw.C63_ignored_children_table_row: propext, Quot.sound
JLaw.C63_ignored_children_header_row: propext, Classical.choice, Quot.sound
JLaw.C63_ignored_children_text: propext, Classical.choice, Quot.sound
JLaw.C63_ignored_line: propext, Classical.choice, Quot.sound
JLaw.C63_line_without_style: propext, Classical.choice, Quot.sound
JLaw.C63_ignored_children_ruby: propext, Quot.sound
JLaw.C63_after_first_sup_sub: propext
JLaw.C63_after_first_sublist3: propext, Classical.choice, Quot.sound
JLaw.C63_after_second_law: propext, Classical.choice, Quot.sound
JLaw.C63_figure: none
JLaw.C64_caption: propext, Classical.choice, Quot.sound
JLaw.C64_headings: propext, Classical.choice, Quot.sound
JLaw.C64_paragraph: propext, Classical.choice, Quot.sound
JLaw.C64_item: propext, Classical.choice, Quot.sound
JLaw.C64_digit_items_are_paragraphs: propext, Classical.choice, Quot.sound
JLaw.C65_unbroken_line: propext, Classical.choice, Quot.sound
JLaw.C65_article_without_blank: propext, Classical.choice, Quot.sound
JLaw.C65_article_becomes_division: propext, Classical.choice, Quot.sound
JLaw.C66_katakana_word_panics: propext, Classical.choice, Quot.sound
JLaw.C66_hiragana_word_panics: propext, Classical.choice, Quot.sound
JLaw.C66_text_panics: propext, Classical.choice, Quot.sound
JLaw.C67_single_letter: propext, Classical.choice, Quot.sound
JLaw.C67_roman_letter: propext, Classical.choice, Quot.sound
JLaw.C67_mixed_letters_panic: propext, Classical.choice, Quot.sound
JLaw.C67_letters_collide: propext, Classical.choice, Quot.sound
JLaw.C67_third_letter_nested: propext, Classical.choice, Quot.sound
JLaw.C68_written_clean: propext, Classical.choice, Quot.sound
JLaw.C68_second_round_trip: propext, Classical.choice, Quot.sound
JLaw.C69_toc_getters: propext, Quot.sound
JLaw.C69_article_getters: propext, Quot.sound
JLaw.C69_new_article: propext, Quot.sound
JLaw.C70_add_text: propext, Classical.choice, Quot.sound
JLaw.C70_add_piece: propext, Quot.sound
JLaw.C70_text_parser: propext, Classical.choice, Quot.sound
JLaw.C70_with_writing_mode: propext, Classical.choice, Quot.sound
JLaw.C70_writing_mode_written: propext, Classical.choice, Quot.sound
JLaw.C71_is_zero: propext, Classical.choice, Quot.sound
JLaw.C72_shape: propext, Classical.choice, Quot.sound
JLaw.C72_exact: propext, Classical.choice, Quot.sound
JLaw.C73_prose: propext, Classical.choice, Quot.sound
JLaw.C73_prose_head: propext, Classical.choice, Quot.sound
JLaw.C73_text_round_trip: propext, Classical.choice, Quot.sound
JLaw.C74_read_accepted: propext, Classical.choice, Quot.sound
JLaw.C74_accepted_read: propext, Classical.choice, Quot.sound
JLaw.C74_read_iff: propext, Classical.choice, Quot.sound
JLaw.C74_rejected: propext, Classical.choice, Quot.sound
JLaw.C74_bound_irrelevant: propext, Classical.choice, Quot.sound
JLaw.C74_article_paragraph_item: propext, Classical.choice, Quot.sound
JLaw.C75_written_conforms: propext, Classical.choice, Quot.sound
JLaw.C75_every_element: propext, Classical.choice, Quot.sound
JLaw.C75_body_order: propext, Classical.choice, Quot.sound
JLaw.C76_accepts_iff: propext, Classical.choice, Quot.sound
JLaw.C76_read_iff_accepts: propext, Classical.choice, Quot.sound
JLaw.C76_taken_never_error: propext, Classical.choice, Quot.sound
JLaw.C76_refused_never_read: propext, Classical.choice, Quot.sound
JLaw.C77_law_rewritten: propext, Classical.choice, Quot.sound
JLaw.C77_accepted_rewritten: propext, Classical.choice, Quot.sound
JLaw.C77_parts_rewritten: propext, Classical.choice, Quot.sound
JLaw.C77_unchanged_iff: propext, Classical.choice, Quot.sound
JLaw.C77_same_iff: propext, Classical.choice, Quot.sound
JLaw.C77_conforms: propext, Classical.choice, Quot.sound
JLaw.C77_read_again_iff: propext, Classical.choice, Quot.sound
JLaw.C77_clean_once: propext, Classical.choice, Quot.sound
JLaw.C77_twice: propext, Classical.choice, Quot.sound
JLaw.C78_outcome: propext, Classical.choice, Quot.sound
JLaw.C78_read_iff: propext, Classical.choice, Quot.sound
JLaw.C78_error_iff: propext, Classical.choice, Quot.sound
JLaw.C78_panic_iff: propext, Classical.choice, Quot.sound
JLaw.C78_fine_iff: propext, Classical.choice, Quot.sound
JLaw.C78_crash: propext, Classical.choice, Quot.sound
JLaw.C78_article_paragraph_item: propext, Classical.choice, Quot.sound
JLaw.C78_file: propext, Classical.choice, Quot.sound
JLaw.C79_truthful: propext, Classical.choice, Quot.sound
JLaw.C79_misreport_untrue: propext, Classical.choice, Quot.sound
JLaw.C79_never_true: propext, Classical.choice, Quot.sound
JLaw.C79_misreported: propext, Classical.choice, Quot.sound
JLaw.C80_message_determines: propext, Classical.choice, Quot.sound
JLaw.C80_reported: propext, Classical.choice, Quot.sound
JLaw.C80_blanks_ambiguous: propext, Classical.choice, Quot.sound
JLaw.C80_unreadable_file: propext, Classical.choice, Quot.sound
JLaw.C81_main_provision: propext, Classical.choice, Quot.sound
JLaw.C81_suppl_provisions: propext, Classical.choice, Quot.sound
JLaw.C82_article: propext, Classical.choice, Quot.sound
JLaw.C82_paragraph: propext, Classical.choice, Quot.sound
JLaw.C82_main_provision: propext, Classical.choice, Quot.sound
JLaw.C82_suppl_provisions: propext, Classical.choice, Quot.sound
JLaw.C83_main_provision: propext, Classical.choice, Quot.sound
JLaw.C83_suppl_provisions: propext, Classical.choice, Quot.sound
JLaw.C84_article_number: propext, Classical.choice, Quot.sound
JLaw.C85_pieces_determine_law: propext, Classical.choice, Quot.sound
JLaw.C85_law_of_text: propext, Classical.choice, Quot.sound
JLaw.C85_exists_unique: propext, Classical.choice, Quot.sound
JLaw.C86_best_cut: propext, Classical.choice, Quot.sound
JLaw.C86_item_number: propext, Classical.choice, Quot.sound
JLaw.C86_no_number: propext, Classical.choice, Quot.sound
JLaw.C87_line: propext, Classical.choice, Quot.sound
JLaw.C87_says: propext, Classical.choice, Quot.sound
JLaw.C87_lines: propext, Quot.sound
JLaw.C87_text: propext, Classical.choice, Quot.sound
JLaw.C87_law: propext, Classical.choice, Quot.sound
JLaw.C88_settle: propext, Classical.choice, Quot.sound
JLaw.C88_same_outcome: propext, Classical.choice, Quot.sound
JLaw.C88_same_writing: propext, Classical.choice, Quot.sound
JLaw.C88_law_same: propext, Classical.choice, Quot.sound
JLaw.C88_written: propext, Classical.choice, Quot.sound
JLaw.C88_survives_iff: propext, Classical.choice, Quot.sound
JLaw.C88_survives_keeps: propext, Classical.choice, Quot.sound
JLaw.C88_read_written: propext, Classical.choice, Quot.sound
JLaw.C88_files: propext, Classical.choice, Quot.sound
JLaw.C88_conditions_needed: propext, Classical.choice, Quot.sound
JLaw.C89_titles_read: propext, Classical.choice, Quot.sound
JLaw.C89_titles_built: propext, Classical.choice, Quot.sound
JLaw.C89_from_text: propext, Classical.choice, Quot.sound
JLaw.C90_same_outcome: propext, Classical.choice, Quot.sound
JLaw.C90_read_twice: propext, Classical.choice, Quot.sound
JLaw.C90_files_settle: propext, Classical.choice, Quot.sound
JLaw.C90_first_file: propext, Classical.choice, Quot.sound
JLaw.C90_through_files: propext, Classical.choice, Quot.sound
JLaw.C90_second_needed: propext, Classical.choice, Quot.sound
JLaw.C91_no_text_added: propext, Classical.choice, Quot.sound
JLaw.C91_parts: propext, Classical.choice, Quot.sound
JLaw.C91_through_files: propext, Classical.choice, Quot.sound
JLaw.C91_nothing_from_nothing: propext, Classical.choice, Quot.sound
JLaw.C92_ends: propext, Classical.choice, Quot.sound
JLaw.C92_between: propext, Classical.choice, Quot.sound
JLaw.C92_layout: propext, Classical.choice, Quot.sound
JLaw.C92_blank_line: propext, Classical.choice, Quot.sound
JLaw.C92_blank_line_between: propext, Classical.choice, Quot.sound
JLaw.C92_blank_line_matters: propext, Classical.choice, Quot.sound
JLaw.C92_blank_line_under_heading: propext, Classical.choice, Quot.sound
JLaw.C93_levels: propext, Classical.choice, Quot.sound
JLaw.C93_from_text: propext, Classical.choice, Quot.sound
JLaw.C93_then_unchanged: propext, Classical.choice, Quot.sound
JLaw.C93_files: propext, Classical.choice, Quot.sound
JLaw.C94_articles: propext, Classical.choice, Quot.sound
JLaw.C94_texts: propext, Classical.choice, Quot.sound
JLaw.C94_nothing_lost: propext, Classical.choice, Quot.sound
JLaw.C95_units: propext, Classical.choice, Quot.sound
JLaw.C95_titles: propext, Classical.choice, Quot.sound
JLaw.C95_numbers: propext, Classical.choice, Quot.sound
JLaw.C96_edit: propext, Classical.choice, Quot.sound
JLaw.C96_append: propext, Classical.choice, Quot.sound
JLaw.C96_insert: propext, Classical.choice, Quot.sound
JLaw.C97_sentence_read: propext, Classical.choice, Quot.sound
JLaw.C97_text_read: propext, Classical.choice, Quot.sound
JLaw.C97_table_read: propext, Classical.choice, Quot.sound
JLaw.C97_items_read: propext, Classical.choice, Quot.sound
JLaw.C97_articles_read: propext, Classical.choice, Quot.sound
JLaw.C97_toc_read: propext, Classical.choice, Quot.sound
JLaw.C97_appendices_read: propext, Classical.choice, Quot.sound
JLaw.C97_body_read: propext, Classical.choice, Quot.sound
JLaw.C97_text_written: propext, Classical.choice, Quot.sound
JLaw.C97_table_written: propext, Classical.choice, Quot.sound
JLaw.C97_body_written: propext, Classical.choice, Quot.sound
JLaw.C98_document: propext, Classical.choice, Quot.sound
JLaw.C98_exact: propext, Classical.choice, Quot.sound
JLaw.C98_same_text: propext, Classical.choice, Quot.sound
JLaw.C98_simple_names: propext, Classical.choice, Quot.sound
JLaw.C98_law: propext, Classical.choice, Quot.sound
JLaw.C98_to_xml: propext, Classical.choice, Quot.sound
JLaw.C98_files: propext, Classical.choice, Quot.sound
JLaw.C98_write_file: propext, Classical.choice, Quot.sound
JLaw.C98_again: propext, Classical.choice, Quot.sound
JLaw.C98_settled: propext, Classical.choice, Quot.sound
JLaw.C98_from_text: propext, Classical.choice, Quot.sound
JLaw.C99_law_comes_back: propext, Classical.choice, Quot.sound
JLaw.C99_different_laws: propext, Classical.choice, Quot.sound
JLaw.C99_exact: propext, Classical.choice, Quot.sound
JLaw.C99_every_type: propext, Classical.choice, Quot.sound
JLaw.C99_law_fields: propext, Classical.choice, Quot.sound
JLaw.C99_order: propext, Classical.choice, Quot.sound
JLaw.C99_foreign_key: propext, Classical.choice, Quot.sound
JLaw.C99_twice: propext, Classical.choice, Quot.sound
JLaw.C99_missing: propext, Classical.choice, Quot.sound
JLaw.C99_null: propext, Classical.choice, Quot.sound
JLaw.C99_unlike_xml: propext, Classical.choice, Quot.sound
JLaw.C99_names_appdx: propext, Classical.choice, Quot.sound
JLaw.C99_names_article: propext, Classical.choice, Quot.sound
JLaw.C99_names_article_number: propext, Classical.choice, Quot.sound
JLaw.C99_names_class: propext, Classical.choice, Quot.sound
JLaw.C99_names_contents: propext, Classical.choice, Quot.sound
JLaw.C99_names_fig: propext, Quot.sound
JLaw.C99_names_law: propext, Classical.choice, Quot.sound
JLaw.C99_names_line: propext, Classical.choice, Quot.sound
JLaw.C99_names_list: propext, Classical.choice, Quot.sound
JLaw.C99_names_paragraph: propext, Classical.choice, Quot.sound
JLaw.C99_names_remarks: propext, Classical.choice, Quot.sound
JLaw.C99_names_sentence: propext, Classical.choice, Quot.sound
JLaw.C99_names_structs: propext, Classical.choice, Quot.sound
JLaw.C99_names_suppl_provision: propext, Classical.choice, Quot.sound
JLaw.C99_names_table: propext, Classical.choice, Quot.sound
JLaw.C99_names_table_of_contents: propext, Classical.choice, Quot.sound
JLaw.C99_names_text: propext, Classical.choice, Quot.sound
JLaw.C99_names_utils: propext, Quot.sound
