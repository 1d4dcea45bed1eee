# Axioms of the theorems named in MANIFEST.json

From `#print axioms`, grouped by the set of axioms.

## Classical.choice, Quot.sound, propext

C01_none_at_end, C01_progress, C02_ascii_no_panic, C02_no_panic_general, C03_step_panics_iff, C03_witness, C04_spans, C05_text_is_slice, C06_cover_any, C06_tokens_cover, C07_keywords_reserved, C07_non_ascii_witness, C08_maximal, C09_well_formed, C10_lex_rendering, C10_with_layout, C11_closed_comment, C11_comment_is_layout, C11_unterminated, C12_C13_reported_positions, C12_C13_reported_positions, C12_lines, C14_unknown_rejected, C15_C16_exact, C15_C16_exact, C16_complete, C16_rejected_iff, C17_unambiguous, C17_unambiguous_category, C18_documents, C18_insert_layout, C18_parse, C18_renderings, C18_replace_layout, C18_same_contract, C19_byte_order, C21_C23_C29_source, C21_C23_C29_source, C21_C23_C29_source, C21_counts, C22_forall, C22_imports, C22_leading_comma_witness, C22_readme_witness, C24_document, C24_exact, C24_tree, C24_verdict, C27_any, C27_document, C27_tree, C28_address_key_witness, C28_error, C28_event_contract_parameter, C28_event_field, C28_event_field_error, C28_event_field_witness, C28_event_field_witness2, C28_event_parameter, C28_event_parameter_witness, C28_namespace_dropped, C28_namespaced_field_witness, C28_namespaced_parameter_panics, C28_panic_witness, C28_swallowed_error_witness, C31_image, C31_names, C32_display_in_contract, C32_display_type, C32_exact, C33_exact, C33_fields_exact, C33_injective, C33_prefix_free, C36_abort, C36_error_is_last, C37_any_restored, C37_any_visitor, C37_restored, C37_stack, C38_iff, C38_panics, C38_witness, C39_display, C39_errors, C39_parse_contents, C39_parse_io, C40_print, C40_print_injective, C40_round_trip, C41_error, C41_total, C42_comment_body, C43_error_is_local, C43_lexer_panic, C43_witness, C44_exact, C44_positions, C44_rejected_iff, C45_read_again, C46_reprint, C46_reprint_contract, C47_append, C47_append_ok, C47_append_procedure, C47_exchange, C47_insert, C48_byte_order_mark, C48_cover, C48_foreign_accepted, C48_foreign_error, C48_no_foreign, C49_kinds, C49_rename, C49_rename_ok, C49_reserved_matter, C50_every_name, C50_in_document, C50_tokens, C50_witness, C50_written, C51_env, C51_panic, C52_exact, C52_foreign, C52_legal, C52_names, C52_reprint, C53_cases, C53_emitter, C53_eof, C53_locate, C53_offset, C53_token, C53_witness_emitter, C53_witness_eof, C53_witness_token, C54_contract, C54_error, C54_result, C54_type, C55_ascii_needed, C55_from_str, C55_tokens, C56_ascii, C56_needed, C56_tables, C57_local, C58_document, C58_document_visit, C58_emitter_calls, C58_same_result, C58_visit_calls, C59_parsers, C59_program, C59_texts, C59_witness, C60_accepts, C60_ends, C60_from_str, C60_rejects, C60_rejects_end, C60_tables, C60_witness, C61_complete, C61_complete_end, C61_end, C61_exact, C61_message, C61_not_itself, C61_token, C61_unknown, C62_parsers, C62_program, C62_total, C62_unique, C62_witness, C63_ends, C63_from_str, C63_tree, C63_value, C63_witness, C64_document, C64_meaning, C64_tree, C64_witness, C65_deep, C67_documents, C67_injective, C67_prefix, C68_order, C68_positions, C69_byStrWithSize, C69_customId, C69_hexNumber, C69_integer, C69_regularId, C69_scan, C69_specialId, C69_stringLiteral, C69_templateId, C70_encoded, C70_parse, C70_slice, C70_token, C70_wellFormed, C71_category, C71_essential, C71_left_out, C71_reread, C71_same_result, C71_same_tree, C71_text, C72_any_state, C72_past_is_added, C72_several, C72_understood, C73_debug, C73_release, C73_sharp, C73_valid, C74_documents, C74_non_ascii_witness, C74_spelling, C74_text, C74_texts_exist, C75_parser_error, C76_documents, C76_tokens, C76_variants, C77_document, C77_exact, C77_program, C77_types, C77_types_unique, C77_unique, C78_append_fields, C78_contract, C78_field, C78_insert_fields, C78_remove_fields, C78_transition, C79_contract, C79_injective, C79_tree, C79_tree_injective, C79_type, C80_document, C80_positions, C80_spans, C80_strings, C80_tree, C81_accepts, C81_documents, C81_emission, C81_stub_document, C81_stub_text, C81_unique, C81_witness, C82_accepts, C82_deterministic, C82_ends, C82_expected, C82_panics, C82_rejects, C82_rejects_end, C82_tables, C82_tree, C82_value, C82_witness, C83_document, C83_emission, C83_escape, C83_nothing_new, C83_prefix, C83_tokens, C83_witness, C84_document, C84_mistaken, C84_one_more, C84_replace, C84_rest, C84_witness, C85_document, C85_open_comment, C85_two, C85_witness, C86_document, C86_factor, C86_names, C86_parts, C86_parts_document, C86_tokens, C86_witness, C87_accepted, C87_error, C87_exact, C87_last, C87_occurs, C87_witness, C88_document, C88_loose, C88_tokens, C88_witness, C89_document, C89_idle, C89_repeated, C89_tokens, C89_witness, C90_document, C90_interchangeable, C90_tokens, C90_witness, C91_dispensable, C91_document, C91_exact, C91_tokens, C91_witness, C92_document, C92_exact, C92_repeatable, C92_tokens, C92_witness, C93_document, C93_mistakable, C93_tokens, C93_witness

## Quot.sound, propext

C01_fused, C01_fused_witness, C01_next_is_the_loop, C01_terminates, C03_document, C07_keyword_recognised, C09_plus_is_never_a_sign, C10_layout_separates, C13_after_space, C14_tokens, C15_sound, C19_import_span, C19_node_span, C19_spans_fit, C20_brackets, C20_one_contract, C20_rejects, C20_version, C21_components, C21_fields, C22_no_trailing_comma, C24_fragment, C24_fuel_irrelevant, C25_only_interface, C25_replace, C26_positions, C29_counts, C29_names, C30_panics_iff, C31_structural, C34_nested, C34_order, C34_recorded, C34_same_nodes, C34_walk, C34_witness, C35_no_descendant, C35_skip, C35_skip_address, C35_walk, C35_witness, C36_address, C36_builtin_args, C36_calls_in_tree, C36_enter, C36_logged, C36_type_args, C36_witness, C37_no_underflow, C37_own_position, C37_visit, C37_witness, C37_witness_type, C42_quote_needed, C57_after, C58_size, C58_witness, C59_specification, C62_faithful, C64_witness_address, C65_depth, C66_one, C69_find, C69_tries, C70_ill_formed, C70_length, C70_order, C72_enough, C72_never_forgets, C72_witness, C72_witness_two, C73_bounded, C73_sentinels, C75_push, C76_witness, C80_witness, C81_parts, C81_stub, C84_nested, C85_glued, C85_once

## none

C33_collisions, C54_witness

## propext

C01_deterministic, C06_non_ascii_swallows, C08_splits, C13_column_lags, C19_address_tag, C22_imports_witness, C22_leading_comma, C28_error_key, C28_error_value, C31_C33_leading_zero, C31_C33_leading_zero, C36_swallowed_witness, C37_any_witness, C44_program, C45_display, C46_witness, C57_separator_needed, C60_deterministic, C61_incomplete_witness, C61_unknown_char, C61_unknown_witness, C66_types, C66_witness, C67_witness, C68_witness, C69_witness, C70_witness, C71_witness, C72_fresh, C73_witness, C73_witness_wrap, C74_witness, C75_rebuild, C75_witness, C79_witness
