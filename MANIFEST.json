{
 "claims": [
  {
   "property": "C01",
   "status": "proved",
   "theorems": [
    "Verif.C01_fused",
    "Verif.C01_fused_witness",
    "Verif.C01_next_is_the_loop",
    "Verif.C01_progress",
    "Verif.C01_terminates",
    "Verif.C01_deterministic",
    "Verif.C01_none_at_end"
   ],
   "note": ""
  },
  {
   "property": "C02",
   "status": "proved",
   "theorems": [
    "Verif.C02_no_panic_general",
    "Verif.C02_ascii_no_panic"
   ],
   "note": ""
  },
  {
   "property": "C03",
   "status": "proved",
   "theorems": [
    "Verif.C03_step_panics_iff",
    "Verif.C03_document",
    "Verif.C03_witness"
   ],
   "note": ""
  },
  {
   "property": "C04",
   "status": "proved",
   "theorems": [
    "Verif.C04_spans"
   ],
   "note": ""
  },
  {
   "property": "C05",
   "status": "proved",
   "theorems": [
    "Verif.C05_text_is_slice"
   ],
   "note": ""
  },
  {
   "property": "C06",
   "status": "proved",
   "theorems": [
    "Verif.C06_tokens_cover",
    "Verif.C06_non_ascii_swallows",
    "Verif.C06_cover_any"
   ],
   "note": ""
  },
  {
   "property": "C07",
   "status": "proved",
   "theorems": [
    "Verif.C07_keywords_reserved",
    "Verif.C07_keyword_recognised",
    "Verif.C07_non_ascii_witness"
   ],
   "note": ""
  },
  {
   "property": "C08",
   "status": "proved",
   "theorems": [
    "Verif.C08_maximal",
    "Verif.C08_splits"
   ],
   "note": ""
  },
  {
   "property": "C09",
   "status": "proved",
   "theorems": [
    "Verif.C09_well_formed",
    "Verif.C09_plus_is_never_a_sign"
   ],
   "note": ""
  },
  {
   "property": "C10",
   "status": "proved",
   "theorems": [
    "Verif.C10_lex_rendering",
    "Verif.C10_layout_separates",
    "Verif.C10_with_layout"
   ],
   "note": ""
  },
  {
   "property": "C11",
   "status": "proved",
   "theorems": [
    "Verif.C11_closed_comment",
    "Verif.C11_comment_is_layout",
    "Verif.C11_unterminated"
   ],
   "note": ""
  },
  {
   "property": "C12",
   "status": "proved",
   "theorems": [
    "Verif.C12_C13_reported_positions",
    "Verif.C12_lines"
   ],
   "note": ""
  },
  {
   "property": "C13",
   "status": "proved",
   "theorems": [
    "Verif.C12_C13_reported_positions",
    "Verif.C13_after_space",
    "Verif.C13_column_lags"
   ],
   "note": ""
  },
  {
   "property": "C14",
   "status": "proved",
   "theorems": [
    "Verif.C14_tokens",
    "Verif.C14_unknown_rejected"
   ],
   "note": ""
  },
  {
   "property": "C15",
   "status": "proved",
   "theorems": [
    "Verif.C15_sound",
    "Verif.C15_C16_exact"
   ],
   "note": ""
  },
  {
   "property": "C16",
   "status": "proved",
   "theorems": [
    "Verif.C16_complete",
    "Verif.C15_C16_exact",
    "Verif.C16_rejected_iff"
   ],
   "note": ""
  },
  {
   "property": "C17",
   "status": "proved",
   "theorems": [
    "Verif.C17_unambiguous",
    "Verif.C17_unambiguous_category"
   ],
   "note": ""
  },
  {
   "property": "C18",
   "status": "proved",
   "theorems": [
    "Verif.C18_insert_layout",
    "Verif.C18_replace_layout",
    "Verif.C18_parse",
    "Verif.C18_documents",
    "Verif.C18_same_contract",
    "Verif.C18_renderings"
   ],
   "note": ""
  },
  {
   "property": "C19",
   "status": "proved",
   "theorems": [
    "Verif.C19_spans_fit",
    "Verif.C19_node_span",
    "Verif.C19_byte_order",
    "Verif.C19_import_span",
    "Verif.C19_address_tag"
   ],
   "note": ""
  },
  {
   "property": "C20",
   "status": "proved",
   "theorems": [
    "Verif.C20_version",
    "Verif.C20_brackets",
    "Verif.C20_one_contract",
    "Verif.C20_rejects"
   ],
   "note": ""
  },
  {
   "property": "C21",
   "status": "proved",
   "theorems": [
    "Verif.C21_components",
    "Verif.C21_fields",
    "Verif.C21_counts",
    "Verif.C21_C23_C29_source"
   ],
   "note": ""
  },
  {
   "property": "C22",
   "status": "proved",
   "theorems": [
    "Verif.C22_leading_comma",
    "Verif.C22_no_trailing_comma",
    "Verif.C22_forall",
    "Verif.C22_imports",
    "Verif.C22_imports_witness",
    "Verif.C22_leading_comma_witness",
    "Verif.C22_readme_witness"
   ],
   "note": ""
  },
  {
   "property": "C23",
   "status": "proved",
   "theorems": [
    "Verif.C21_C23_C29_source"
   ],
   "note": ""
  },
  {
   "property": "C24",
   "status": "proved",
   "theorems": [
    "Verif.C24_tree",
    "Verif.C24_verdict",
    "Verif.C24_fragment",
    "Verif.C24_document",
    "Verif.C24_exact",
    "Verif.C24_fuel_irrelevant"
   ],
   "note": ""
  },
  {
   "property": "C25",
   "status": "proved",
   "theorems": [
    "Verif.C25_only_interface",
    "Verif.C25_replace"
   ],
   "note": ""
  },
  {
   "property": "C26",
   "status": "proved",
   "theorems": [
    "Verif.C26_positions"
   ],
   "note": ""
  },
  {
   "property": "C27",
   "status": "proved",
   "theorems": [
    "Verif.C27_tree",
    "Verif.C27_document",
    "Verif.C27_any"
   ],
   "note": ""
  },
  {
   "property": "C28",
   "status": "proved",
   "theorems": [
    "Verif.C28_namespace_dropped",
    "Verif.C28_namespaced_parameter_panics",
    "Verif.C28_error",
    "Verif.C28_error_key",
    "Verif.C28_error_value",
    "Verif.C28_event_field",
    "Verif.C28_event_field_error",
    "Verif.C28_event_contract_parameter",
    "Verif.C28_event_parameter",
    "Verif.C28_panic_witness",
    "Verif.C28_namespaced_field_witness",
    "Verif.C28_event_field_witness",
    "Verif.C28_event_field_witness2",
    "Verif.C28_event_parameter_witness",
    "Verif.C28_address_key_witness",
    "Verif.C28_swallowed_error_witness"
   ],
   "note": ""
  },
  {
   "property": "C29",
   "status": "proved",
   "theorems": [
    "Verif.C29_names",
    "Verif.C29_counts",
    "Verif.C21_C23_C29_source"
   ],
   "note": ""
  },
  {
   "property": "C30",
   "status": "proved",
   "theorems": [
    "Verif.C30_panics_iff"
   ],
   "note": ""
  },
  {
   "property": "C31",
   "status": "proved",
   "theorems": [
    "Verif.C31_image",
    "Verif.C31_structural",
    "Verif.C31_names",
    "Verif.C31_C33_leading_zero"
   ],
   "note": ""
  },
  {
   "property": "C32",
   "status": "proved",
   "theorems": [
    "Verif.C32_display_type",
    "Verif.C32_display_in_contract",
    "Verif.C32_exact"
   ],
   "note": ""
  },
  {
   "property": "C33",
   "status": "proved",
   "theorems": [
    "Verif.C33_exact",
    "Verif.C33_injective",
    "Verif.C33_fields_exact",
    "Verif.C33_prefix_free",
    "Verif.C33_collisions",
    "Verif.C31_C33_leading_zero"
   ],
   "note": ""
  },
  {
   "property": "C34",
   "status": "proved",
   "theorems": [
    "Verif.C34_walk",
    "Verif.C34_recorded",
    "Verif.C34_nested",
    "Verif.C34_order",
    "Verif.C34_same_nodes",
    "Verif.C34_witness"
   ],
   "note": ""
  },
  {
   "property": "C35",
   "status": "proved",
   "theorems": [
    "Verif.C35_skip",
    "Verif.C35_skip_address",
    "Verif.C35_walk",
    "Verif.C35_no_descendant",
    "Verif.C35_witness"
   ],
   "note": ""
  },
  {
   "property": "C36",
   "status": "proved",
   "theorems": [
    "Verif.C36_logged",
    "Verif.C36_calls_in_tree",
    "Verif.C36_error_is_last",
    "Verif.C36_abort",
    "Verif.C36_address",
    "Verif.C36_enter",
    "Verif.C36_builtin_args",
    "Verif.C36_type_args",
    "Verif.C36_witness",
    "Verif.C36_swallowed_witness"
   ],
   "note": ""
  },
  {
   "property": "C37",
   "status": "proved",
   "theorems": [
    "Verif.C37_stack",
    "Verif.C37_restored",
    "Verif.C37_no_underflow",
    "Verif.C37_own_position",
    "Verif.C37_visit",
    "Verif.C37_any_visitor",
    "Verif.C37_any_restored",
    "Verif.C37_any_witness",
    "Verif.C37_witness",
    "Verif.C37_witness_type"
   ],
   "note": ""
  },
  {
   "property": "C38",
   "status": "proved",
   "theorems": [
    "Verif.C38_panics",
    "Verif.C38_iff",
    "Verif.C38_witness"
   ],
   "note": ""
  },
  {
   "property": "C39",
   "status": "proved",
   "theorems": [
    "Verif.C39_errors",
    "Verif.C39_parse_io",
    "Verif.C39_parse_contents",
    "Verif.C39_display"
   ],
   "note": ""
  },
  {
   "property": "C40",
   "status": "proved",
   "theorems": [
    "Verif.C40_round_trip",
    "Verif.C40_print",
    "Verif.C40_print_injective"
   ],
   "note": ""
  },
  {
   "property": "C41",
   "status": "proved",
   "theorems": [
    "Verif.C41_total",
    "Verif.C41_error"
   ],
   "note": ""
  },
  {
   "property": "C42",
   "status": "proved",
   "theorems": [
    "Verif.C42_comment_body",
    "Verif.C42_quote_needed"
   ],
   "note": ""
  },
  {
   "property": "C43",
   "status": "proved",
   "theorems": [
    "Verif.C43_error_is_local",
    "Verif.C43_lexer_panic",
    "Verif.C43_witness"
   ],
   "note": ""
  },
  {
   "property": "C44",
   "status": "proved",
   "theorems": [
    "Verif.C44_exact",
    "Verif.C44_program",
    "Verif.C44_rejected_iff",
    "Verif.C44_positions"
   ],
   "note": ""
  },
  {
   "property": "C45",
   "status": "proved",
   "theorems": [
    "Verif.C45_display",
    "Verif.C45_read_again"
   ],
   "note": ""
  },
  {
   "property": "C46",
   "status": "proved",
   "theorems": [
    "Verif.C46_reprint",
    "Verif.C46_reprint_contract",
    "Verif.C46_witness"
   ],
   "note": ""
  },
  {
   "property": "C47",
   "status": "proved",
   "theorems": [
    "Verif.C47_append",
    "Verif.C47_append_ok",
    "Verif.C47_append_procedure",
    "Verif.C47_insert",
    "Verif.C47_exchange"
   ],
   "note": ""
  },
  {
   "property": "C48",
   "status": "proved",
   "theorems": [
    "Verif.C48_cover",
    "Verif.C48_no_foreign",
    "Verif.C48_foreign_error",
    "Verif.C48_byte_order_mark",
    "Verif.C48_foreign_accepted"
   ],
   "note": ""
  },
  {
   "property": "C49",
   "status": "proved",
   "theorems": [
    "Verif.C49_kinds",
    "Verif.C49_rename",
    "Verif.C49_rename_ok",
    "Verif.C49_reserved_matter"
   ],
   "note": ""
  },
  {
   "property": "C50",
   "status": "proved",
   "theorems": [
    "Verif.C50_tokens",
    "Verif.C50_written",
    "Verif.C50_every_name",
    "Verif.C50_in_document",
    "Verif.C50_witness"
   ],
   "note": ""
  },
  {
   "property": "C51",
   "status": "proved",
   "theorems": [
    "Verif.C51_env",
    "Verif.C51_panic"
   ],
   "note": ""
  },
  {
   "property": "C52",
   "status": "proved",
   "theorems": [
    "Verif.C52_legal",
    "Verif.C52_reprint",
    "Verif.C52_exact",
    "Verif.C52_names",
    "Verif.C52_foreign"
   ],
   "note": ""
  },
  {
   "property": "C53",
   "status": "proved",
   "theorems": [
    "Verif.C53_token",
    "Verif.C53_eof",
    "Verif.C53_emitter",
    "Verif.C53_cases",
    "Verif.C53_locate",
    "Verif.C53_offset",
    "Verif.C53_witness_token",
    "Verif.C53_witness_eof",
    "Verif.C53_witness_emitter"
   ],
   "note": ""
  },
  {
   "property": "C54",
   "status": "proved",
   "theorems": [
    "Verif.C54_type",
    "Verif.C54_contract",
    "Verif.C54_result",
    "Verif.C54_error",
    "Verif.C54_witness"
   ],
   "note": ""
  },
  {
   "property": "C55",
   "status": "proved",
   "theorems": [
    "Verif.C55_tokens",
    "Verif.C55_from_str",
    "Verif.C55_ascii_needed"
   ],
   "note": ""
  },
  {
   "property": "C56",
   "status": "proved",
   "theorems": [
    "Verif.C56_tables",
    "Verif.C56_ascii",
    "Verif.C56_needed"
   ],
   "note": ""
  },
  {
   "property": "C57",
   "status": "proved",
   "theorems": [
    "Verif.C57_after",
    "Verif.C57_local",
    "Verif.C57_separator_needed"
   ],
   "note": ""
  },
  {
   "property": "C58",
   "status": "proved",
   "theorems": [
    "Verif.C58_same_result",
    "Verif.C58_emitter_calls",
    "Verif.C58_visit_calls",
    "Verif.C58_size",
    "Verif.C58_document",
    "Verif.C58_document_visit",
    "Verif.C58_witness"
   ],
   "note": ""
  },
  {
   "property": "C59",
   "status": "proved",
   "theorems": [
    "Verif.C59_parsers",
    "Verif.C59_program",
    "Verif.C59_specification",
    "Verif.C59_texts",
    "Verif.C59_witness"
   ],
   "note": ""
  },
  {
   "property": "C60",
   "status": "proved",
   "theorems": [
    "Verif.C60_tables",
    "Verif.C60_from_str",
    "Verif.C60_ends",
    "Verif.C60_deterministic",
    "Verif.C60_accepts",
    "Verif.C60_rejects",
    "Verif.C60_rejects_end",
    "Verif.C60_witness"
   ],
   "note": ""
  },
  {
   "property": "C61",
   "status": "proved",
   "theorems": [
    "Verif.C61_exact",
    "Verif.C61_complete",
    "Verif.C61_complete_end",
    "Verif.C61_unknown",
    "Verif.C61_unknown_char",
    "Verif.C61_unknown_witness",
    "Verif.C61_incomplete_witness",
    "Verif.C61_token",
    "Verif.C61_end",
    "Verif.C61_not_itself",
    "Verif.C61_message"
   ],
   "note": ""
  },
  {
   "property": "C62",
   "status": "proved",
   "theorems": [
    "Verif.C62_parsers",
    "Verif.C62_program",
    "Verif.C62_faithful",
    "Verif.C62_unique",
    "Verif.C62_total",
    "Verif.C62_witness"
   ],
   "note": ""
  },
  {
   "property": "C63",
   "status": "proved",
   "theorems": [
    "Verif.C63_value",
    "Verif.C63_tree",
    "Verif.C63_ends",
    "Verif.C63_from_str",
    "Verif.C63_witness"
   ],
   "note": ""
  },
  {
   "property": "C64",
   "status": "proved",
   "theorems": [
    "Verif.C64_tree",
    "Verif.C64_document",
    "Verif.C64_meaning",
    "Verif.C64_witness",
    "Verif.C64_witness_address"
   ],
   "note": ""
  },
  {
   "property": "C65",
   "status": "proved",
   "theorems": [
    "Verif.C65_depth",
    "Verif.C65_deep"
   ],
   "note": ""
  },
  {
   "property": "C66",
   "status": "proved",
   "theorems": [
    "Verif.C66_types",
    "Verif.C66_one",
    "Verif.C66_witness"
   ],
   "note": ""
  },
  {
   "property": "C67",
   "status": "proved",
   "theorems": [
    "Verif.C67_injective",
    "Verif.C67_prefix",
    "Verif.C67_documents",
    "Verif.C67_witness"
   ],
   "note": ""
  },
  {
   "property": "C68",
   "status": "proved",
   "theorems": [
    "Verif.C68_order",
    "Verif.C68_positions",
    "Verif.C68_witness"
   ],
   "note": ""
  },
  {
   "property": "C69",
   "status": "proved",
   "theorems": [
    "Verif.C69_tries",
    "Verif.C69_find",
    "Verif.C69_byStrWithSize",
    "Verif.C69_integer",
    "Verif.C69_hexNumber",
    "Verif.C69_stringLiteral",
    "Verif.C69_regularId",
    "Verif.C69_templateId",
    "Verif.C69_customId",
    "Verif.C69_specialId",
    "Verif.C69_scan",
    "Verif.C69_witness"
   ],
   "note": ""
  },
  {
   "property": "C70",
   "status": "proved",
   "theorems": [
    "Verif.C70_length",
    "Verif.C70_wellFormed",
    "Verif.C70_encoded",
    "Verif.C70_parse",
    "Verif.C70_slice",
    "Verif.C70_token",
    "Verif.C70_order",
    "Verif.C70_witness",
    "Verif.C70_ill_formed"
   ],
   "note": ""
  },
  {
   "property": "C71",
   "status": "proved",
   "theorems": [
    "Verif.C71_essential",
    "Verif.C71_reread",
    "Verif.C71_same_tree",
    "Verif.C71_same_result",
    "Verif.C71_left_out",
    "Verif.C71_text",
    "Verif.C71_category",
    "Verif.C71_witness"
   ],
   "note": ""
  },
  {
   "property": "C72",
   "status": "proved",
   "theorems": [
    "Verif.C72_fresh",
    "Verif.C72_enough",
    "Verif.C72_any_state",
    "Verif.C72_past_is_added",
    "Verif.C72_understood",
    "Verif.C72_several",
    "Verif.C72_never_forgets",
    "Verif.C72_witness",
    "Verif.C72_witness_two"
   ],
   "note": ""
  },
  {
   "property": "C73",
   "status": "proved",
   "theorems": [
    "Verif.C73_debug",
    "Verif.C73_release",
    "Verif.C73_bounded",
    "Verif.C73_valid",
    "Verif.C73_sentinels",
    "Verif.C73_sharp",
    "Verif.C73_witness",
    "Verif.C73_witness_wrap"
   ],
   "note": ""
  },
  {
   "property": "C74",
   "status": "proved",
   "theorems": [
    "Verif.C74_text",
    "Verif.C74_spelling",
    "Verif.C74_documents",
    "Verif.C74_texts_exist",
    "Verif.C74_witness",
    "Verif.C74_non_ascii_witness"
   ],
   "note": ""
  },
  {
   "property": "C75",
   "status": "proved",
   "theorems": [
    "Verif.C75_rebuild",
    "Verif.C75_push",
    "Verif.C75_parser_error",
    "Verif.C75_witness"
   ],
   "note": ""
  },
  {
   "property": "C76",
   "status": "proved",
   "theorems": [
    "Verif.C76_tokens",
    "Verif.C76_documents",
    "Verif.C76_variants",
    "Verif.C76_witness"
   ],
   "note": ""
  },
  {
   "property": "C77",
   "status": "proved",
   "theorems": [
    "Verif.C77_types",
    "Verif.C77_types_unique",
    "Verif.C77_program",
    "Verif.C77_unique",
    "Verif.C77_document",
    "Verif.C77_exact"
   ],
   "note": ""
  },
  {
   "property": "C78",
   "status": "proved",
   "theorems": [
    "Verif.C78_transition",
    "Verif.C78_contract",
    "Verif.C78_field",
    "Verif.C78_insert_fields",
    "Verif.C78_remove_fields",
    "Verif.C78_append_fields"
   ],
   "note": ""
  },
  {
   "property": "C79",
   "status": "proved",
   "theorems": [
    "Verif.C79_tree",
    "Verif.C79_type",
    "Verif.C79_contract",
    "Verif.C79_tree_injective",
    "Verif.C79_injective",
    "Verif.C79_witness"
   ],
   "note": ""
  },
  {
   "property": "C80",
   "status": "proved",
   "theorems": [
    "Verif.C80_tree",
    "Verif.C80_strings",
    "Verif.C80_positions",
    "Verif.C80_spans",
    "Verif.C80_document",
    "Verif.C80_witness"
   ],
   "note": ""
  },
  {
   "property": "C81",
   "status": "proved",
   "theorems": [
    "Verif.C81_parts",
    "Verif.C81_unique",
    "Verif.C81_accepts",
    "Verif.C81_emission",
    "Verif.C81_documents",
    "Verif.C81_stub",
    "Verif.C81_stub_document",
    "Verif.C81_stub_text",
    "Verif.C81_witness"
   ],
   "note": ""
  },
  {
   "property": "C82",
   "status": "proved",
   "theorems": [
    "Verif.C82_accepts",
    "Verif.C82_value",
    "Verif.C82_tree",
    "Verif.C82_ends",
    "Verif.C82_deterministic",
    "Verif.C82_rejects",
    "Verif.C82_rejects_end",
    "Verif.C82_panics",
    "Verif.C82_expected",
    "Verif.C82_tables",
    "Verif.C82_witness"
   ],
   "note": ""
  },
  {
   "property": "C83",
   "status": "proved",
   "theorems": [
    "Verif.C83_tokens",
    "Verif.C83_prefix",
    "Verif.C83_emission",
    "Verif.C83_document",
    "Verif.C83_nothing_new",
    "Verif.C83_escape",
    "Verif.C83_witness"
   ],
   "note": ""
  },
  {
   "property": "C84",
   "status": "proved",
   "theorems": [
    "Verif.C84_nested",
    "Verif.C84_rest",
    "Verif.C84_replace",
    "Verif.C84_one_more",
    "Verif.C84_mistaken",
    "Verif.C84_document",
    "Verif.C84_witness"
   ],
   "note": ""
  },
  {
   "property": "C85",
   "status": "proved",
   "theorems": [
    "Verif.C85_once",
    "Verif.C85_glued",
    "Verif.C85_document",
    "Verif.C85_two",
    "Verif.C85_witness",
    "Verif.C85_open_comment"
   ],
   "note": ""
  },
  {
   "property": "C86",
   "status": "proved",
   "theorems": [
    "Verif.C86_tokens",
    "Verif.C86_document",
    "Verif.C86_parts",
    "Verif.C86_names",
    "Verif.C86_parts_document",
    "Verif.C86_witness",
    "Verif.C86_factor"
   ],
   "note": ""
  },
  {
   "property": "C87",
   "status": "proved",
   "theorems": [
    "Verif.C87_exact",
    "Verif.C87_accepted",
    "Verif.C87_last",
    "Verif.C87_error",
    "Verif.C87_occurs",
    "Verif.C87_witness"
   ],
   "note": ""
  },
  {
   "property": "C88",
   "status": "proved",
   "theorems": [
    "Verif.C88_tokens",
    "Verif.C88_document",
    "Verif.C88_loose",
    "Verif.C88_witness"
   ],
   "note": ""
  },
  {
   "property": "C89",
   "status": "proved",
   "theorems": [
    "Verif.C89_tokens",
    "Verif.C89_repeated",
    "Verif.C89_document",
    "Verif.C89_idle",
    "Verif.C89_witness"
   ],
   "note": ""
  },
  {
   "property": "C90",
   "status": "proved",
   "theorems": [
    "Verif.C90_tokens",
    "Verif.C90_document",
    "Verif.C90_interchangeable",
    "Verif.C90_witness"
   ],
   "note": ""
  },
  {
   "property": "C91",
   "status": "proved",
   "theorems": [
    "Verif.C91_tokens",
    "Verif.C91_document",
    "Verif.C91_dispensable",
    "Verif.C91_exact",
    "Verif.C91_witness"
   ],
   "note": ""
  },
  {
   "property": "C92",
   "status": "proved",
   "theorems": [
    "Verif.C92_tokens",
    "Verif.C92_document",
    "Verif.C92_repeatable",
    "Verif.C92_exact",
    "Verif.C92_witness"
   ],
   "note": ""
  },
  {
   "property": "C93",
   "status": "proved",
   "theorems": [
    "Verif.C93_tokens",
    "Verif.C93_document",
    "Verif.C93_mistakable",
    "Verif.C93_witness"
   ],
   "note": ""
  }
 ]
}