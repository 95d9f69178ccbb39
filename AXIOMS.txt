'Verif.Props.C01_round_trip' depends on axioms: [propext, Classical.choice, Quot.sound]
'Verif.Props.C02_speed_independent' depends on axioms: [propext, Classical.choice, Quot.sound]
'Verif.Props.C02_known_speeds' depends on axioms: [propext, Classical.choice, Quot.sound]
'Verif.Props.C03_encode_bits' depends on axioms: [propext, Classical.choice, Quot.sound]
'Verif.Props.C03_encoding_unique' depends on axioms: [propext, Classical.choice, Quot.sound]
'Verif.Props.C04_encode_length' depends on axioms: [propext, Classical.choice, Quot.sound]
'Verif.Props.C05_injective' depends on axioms: [propext, Classical.choice, Quot.sound]
'Verif.Props.C06_accept_iff' depends on axioms: [propext, Classical.choice, Quot.sound]
'Verif.Props.C06_accept_iff_listed' depends on axioms: [propext, Classical.choice, Quot.sound]
'Verif.Props.C07_padding_exact' depends on axioms: [propext, Classical.choice, Quot.sound]
'Verif.Props.C07_padding' depends on axioms: [propext, Classical.choice, Quot.sound]
'Verif.Props.C07_padding_strict_false' depends on axioms: [propext]
'Verif.Props.C08_eos_rejected' depends on axioms: [propext, Classical.choice, Quot.sound]
'Verif.Props.C09_prefix_free' depends on axioms: [propext, Quot.sound]
'Verif.Props.C09_complete' depends on axioms: [propext, Quot.sound]
'Verif.Props.C10_tables_are_flatten' depends on axioms: [propext]
'Verif.Props.C11_table_is_parse' depends on axioms: [propext]
'Verif.Props.C11_columns_agree' depends on axioms: [propext, Classical.choice, Quot.sound]
'Verif.Props.C11_binary_column' depends on axioms: [propext]
'Verif.Props.C12_flatten_total' depends on axioms: [propext, Classical.choice, Quot.sound]
'Verif.Props.C12_finds_symbol' depends on axioms: [propext, Classical.choice, Quot.sound]
'Verif.Props.C12_continues' depends on axioms: [propext, Classical.choice, Quot.sound]
'Verif.Props.C12_never_both' depends on axioms: [propext, Classical.choice, Quot.sound]
'Verif.Props.C12_row_count' depends on axioms: [propext, Classical.choice, Quot.sound]
'Verif.Props.C12_rows_computed' depends on axioms: [propext, Classical.choice, Quot.sound]
'Verif.Props.C12_too_many_rows' depends on axioms: [propext, Classical.choice, Quot.sound]
'Verif.Props.C12_thirty_bits' depends on axioms: [propext, Classical.choice, Quot.sound]
'Verif.Props.C12_fits_exactly' depends on axioms: [propext, Classical.choice, Quot.sound]
'Verif.Props.C12_lost_bits' depends on axioms: [propext, Classical.choice, Quot.sound]
'Verif.Props.C12_lost_bit_mixes_up' depends on axioms: [propext, Quot.sound]
'Verif.Props.C13_appends_decoded' depends on axioms: [propext, Classical.choice, Quot.sound]
'Verif.Props.C13_decode_outcome' depends on axioms: [propext, Classical.choice, Quot.sound]
'Verif.Props.C14_canonical' depends on axioms: [propext, Classical.choice, Quot.sound]
'Verif.Props.C15_total' depends on axioms: [propext, Classical.choice, Quot.sound]
'Verif.Props.C15_buffers_bounded' depends on axioms: [propext, Classical.choice, Quot.sound]
'Verif.Props.C16_expansion' depends on axioms: [propext, Classical.choice, Quot.sound]
'Verif.Props.C17_integer_round_trip' depends on axioms: [propext, Classical.choice, Quot.sound]
'Verif.Props.C17_invalid_prefix' depends on axioms: [propext, Quot.sound]
'Verif.Props.C18_integer_too_large' depends on axioms: [propext, Classical.choice, Quot.sound]
'Verif.Props.C18_size_update_rejected' depends on axioms: [propext, Classical.choice, Quot.sound]
'Verif.Props.C18_string_rejected' depends on axioms: [propext, Classical.choice, Quot.sound]
'Verif.Props.C19_integer_sound' depends on axioms: [propext, Classical.choice, Quot.sound]
'Verif.Props.C19_integer_complete' depends on axioms: [propext, Classical.choice, Quot.sound]
'Verif.Props.C20_panics_exactly' depends on axioms: [propext, Classical.choice, Quot.sound]
'Verif.Props.C20_exact_panics' depends on axioms: [propext, Classical.choice, Quot.sound]
'Verif.Props.C20_ok_or_err' depends on axioms: [propext, Classical.choice, Quot.sound]
'Verif.Props.C20_never_panics_false' depends on axioms: [propext, Quot.sound]
'Verif.Props.C21_string_round_trip' depends on axioms: [propext, Classical.choice, Quot.sound]
'Verif.Props.C21_string_wire' depends on axioms: [propext, Classical.choice, Quot.sound]
'Verif.Props.C22_size_accounting' depends on axioms: [propext, Quot.sound]
'Verif.Props.C22_max_is_last' depends on axioms: [propext, Quot.sound]
'Verif.Props.encoder_reachable' depends on axioms: [propext, Classical.choice, Quot.sound]
'Verif.Props.decoder_reachable' depends on axioms: [propext, Classical.choice, Quot.sound]
'Verif.Props.C23_insert' depends on axioms: [propext, Quot.sound]
'Verif.Props.C24_resize' depends on axioms: [propext, Quot.sound]
'Verif.Props.C24_raise' depends on axioms: [propext, Quot.sound]
'Verif.Props.C25_get' depends on axioms: [propext, Quot.sound]
'Verif.Props.C25_static_length' does not depend on any axioms
'Verif.Props.C25_iter' depends on axioms: [propext, Quot.sound]
'Verif.Props.C25_iter_calls' depends on axioms: [propext, Quot.sound]
'Verif.Props.C25_iter_panics' depends on axioms: [propext, Quot.sound]
'Verif.Props.C25_iter_wraps' depends on axioms: [propext, Quot.sound]
'Verif.Props.C26_find' depends on axioms: [propext, Quot.sound]
'Verif.Props.C27_encoder_refines' depends on axioms: [propext, Classical.choice, Quot.sound]
'Verif.Props.C27_choice_unique' depends on axioms: [propext]
'Verif.Props.C27_encoder_succeeds' depends on axioms: [propext, Classical.choice, Quot.sound]
'Verif.Props.C27_size_update' depends on axioms: [propext, Classical.choice, Quot.sound]
'Verif.Props.C28_session' depends on axioms: [propext, Classical.choice, Quot.sound]
'Verif.Props.C28_session_fresh' depends on axioms: [propext, Classical.choice, Quot.sound]
'Verif.Props.C28_call_by_call' depends on axioms: [propext, Classical.choice, Quot.sound]
'Verif.Props.C28_meaning_unique' depends on axioms: [propext]
'Verif.Props.C29_name_value' depends on axioms: [propext, Classical.choice, Quot.sound]
'Verif.Props.C29_indexed' depends on axioms: [propext, Classical.choice, Quot.sound]
'Verif.Props.C29_indexed_name' depends on axioms: [propext, Classical.choice, Quot.sound]
'Verif.Props.C30_sensitive_iff' depends on axioms: [propext, Classical.choice, Quot.sound]
'Verif.Props.C30_sensitive_kept' depends on axioms: [propext, Classical.choice, Quot.sound]
'Verif.Props.C30_not_stored' depends on axioms: [propext, Classical.choice, Quot.sound]
'Verif.Props.C30_sensitive_kept_false' depends on axioms: [propext, Quot.sound]
'Verif.Props.C31_accepts' depends on axioms: [propext, Classical.choice, Quot.sound]
'Verif.Props.C31_rfc_forms' depends on axioms: [propext, Quot.sound]
'Verif.Props.C31_accepts_block' depends on axioms: [propext, Classical.choice, Quot.sound]
'Verif.Props.C32_sound' depends on axioms: [propext, Classical.choice, Quot.sound]
'Verif.Props.C32_sound_block' depends on axioms: [propext, Classical.choice, Quot.sound]
'Verif.Props.C33_failure' depends on axioms: [propext, Classical.choice, Quot.sound]
'Verif.Props.C33_untouched_false' depends on axioms: [propext, Quot.sound]
'Verif.Props.C33_step_atomic' depends on axioms: [propext, Classical.choice, Quot.sound]
'Verif.Props.C34_pieces' depends on axioms: [propext, Classical.choice, Quot.sound]
'Verif.Props.C35_update_rejected' depends on axioms: [propext, Classical.choice, Quot.sound]
'Verif.Props.C35_history_bound' depends on axioms: [propext, Classical.choice, Quot.sound]
'Verif.Props.C36_capacity' depends on axioms: [propext, Classical.choice, Quot.sound]
'Verif.Props.C36_room_for_all' depends on axioms: [propext, Classical.choice, Quot.sound]
'Verif.Props.C36_resume' depends on axioms: [propext, Classical.choice, Quot.sound]
'Verif.Props.C36_full_vector_grows' depends on axioms: [propext, Quot.sound]
'Verif.Props.C36_updates_use_capacity' depends on axioms: [propext, Quot.sound]
'Verif.Props.C37_count' depends on axioms: [propext, Classical.choice, Quot.sound]
'Verif.Props.C37_count_not_consumed' depends on axioms: [propext, Quot.sound]
'Verif.Props.C38_flags' depends on axioms: [propext, Classical.choice, Quot.sound]
'Verif.Props.C39_encoder_invalid_index' depends on axioms: [propext, Classical.choice, Quot.sound]
'Verif.Props.C39_decoder_invalid_index' depends on axioms: [propext, Classical.choice, Quot.sound]
'Verif.Props.C39_invalid_indices' depends on axioms: [propext, Classical.choice, Quot.sound]
'Verif.Props.C40_encode_failures' depends on axioms: [propext, Classical.choice, Quot.sound]
'Verif.Props.C40_exactly' depends on axioms: [propext, Classical.choice, Quot.sound]
'Verif.Props.C41_progress' depends on axioms: [propext, Classical.choice, Quot.sound]
'Verif.Props.C41_terminates' depends on axioms: [propext, Classical.choice, Quot.sound]
'Verif.Props.C42_varint_roundtrip' depends on axioms: [propext, Classical.choice, Quot.sound]
'Verif.Props.C43_varint_size' depends on axioms: [propext, Classical.choice, Quot.sound]
'Verif.Props.C44_varint_sound' depends on axioms: [propext, Classical.choice, Quot.sound]
'Verif.Props.C44_varint_complete' depends on axioms: [propext, Classical.choice, Quot.sound]
'Verif.Props.C44_varint_underflow' depends on axioms: [propext, Classical.choice, Quot.sound]
'Verif.Props.C45_overlong' depends on axioms: [propext, Classical.choice, Quot.sound]
'Verif.Props.C45_overlong_not_rejected' depends on axioms: [propext, Classical.choice, Quot.sound]
'Verif.Props.C45_overlong_garbage' depends on axioms: [propext, Quot.sound]
'Verif.Props.C46_zigzag_written' depends on axioms: [propext, Classical.choice, Quot.sound]
'Verif.Props.C46_zigzag_roundtrip' depends on axioms: [propext, Classical.choice, Quot.sound]
'Verif.Props.C47_scalar_roundtrip' depends on axioms: [propext, Classical.choice, Quot.sound]
'Verif.Props.C48_field_roundtrip' depends on axioms: [propext, Classical.choice, Quot.sound]
'Verif.Props.C48_field_roundtrip' depends on axioms: [propext, Classical.choice, Quot.sound]
'Verif.Props.C48_packed_roundtrip' depends on axioms: [propext, Classical.choice, Quot.sound]
'Verif.Props.C49_key_roundtrip' depends on axioms: [propext, Classical.choice, Quot.sound]
'Verif.Props.C49_invalid_tag' depends on axioms: [propext, Classical.choice, Quot.sound]
'Verif.Props.C50_key_accepted' depends on axioms: [propext, Classical.choice, Quot.sound]
'Verif.Props.C50_key_sound' depends on axioms: [propext, Classical.choice, Quot.sound]
'Verif.Props.C51_message_roundtrip' depends on axioms: [propext, Classical.choice, Quot.sound]
'Verif.Props.C52_one_call_iff' depends on axioms: [propext, Classical.choice, Quot.sound]
'Verif.Props.C52_until_zero' depends on axioms: [propext, Classical.choice, Quot.sound]
'Verif.Props.C52_stops_at_empty_field' depends on axioms: [propext, Classical.choice, Quot.sound]
'Verif.Props.C52_one_call_not_enough' depends on axioms: [propext, Quot.sound]
'Verif.Props.C53_chunks' depends on axioms: [propext, Classical.choice, Quot.sound]
'Verif.Props.C53_any_two_chunkings' depends on axioms: [propext, Classical.choice, Quot.sound]
'Verif.Props.C53_any_schedule' depends on axioms: [propext, Classical.choice, Quot.sound]
'Verif.Props.C54_nothing_lost' depends on axioms: [propext, Classical.choice, Quot.sound]
'Verif.Props.C54_accounting' depends on axioms: [propext, Classical.choice, Quot.sound]
'Verif.Props.C54_states' depends on axioms: [propext, Classical.choice, Quot.sound]
'Verif.Props.C54_any_schedule' depends on axioms: [propext, Classical.choice, Quot.sound]
'Verif.Props.C55_failed_decode' depends on axioms: [propext, Classical.choice, Quot.sound]
'Verif.Props.C55_consumes_on_error' depends on axioms: [propext, Quot.sound]
'Verif.Props.C56_append' depends on axioms: [propext, Classical.choice, Quot.sound]
'Verif.Props.C56_append_all' depends on axioms: [propext, Classical.choice, Quot.sound]
'Verif.Props.C57_failing_writer' depends on axioms: [propext, Classical.choice, Quot.sound]
'Verif.Props.C57_prefix' depends on axioms: [propext, Classical.choice, Quot.sound]
'Verif.Props.C58_total' depends on axioms: [propext, Classical.choice, Quot.sound]
'Verif.Props.C58_release' depends on axioms: [propext, Classical.choice, Quot.sound]
'Verif.Props.C58_drain_ends' depends on axioms: [propext, Classical.choice, Quot.sound]
'Verif.Props.C58_panics_exactly' depends on axioms: [propext, Classical.choice, Quot.sound]
'Verif.Props.C59_wire_type' depends on axioms: [propext, Classical.choice, Quot.sound]
'Verif.Props.C59_table' depends on axioms: [propext]
'Verif.Props.C60_all_or_nothing' depends on axioms: [propext, Classical.choice, Quot.sound]
'Verif.Props.C60_fixed_truncation' depends on axioms: [propext, Quot.sound]
'Verif.Props.C60_varint_truncation' depends on axioms: [propext, Classical.choice, Quot.sound]
'Verif.Props.C60_conversions' depends on axioms: [propext, Classical.choice, Quot.sound]
'Verif.Props.C61_negative_int32' depends on axioms: [propext, Classical.choice, Quot.sound]
'Verif.Props.C62_integer_shortest' depends on axioms: [propext, Classical.choice, Quot.sound]
'Verif.Props.C63_encode_appends' depends on axioms: [propext, Quot.sound]
'Verif.Props.C63_update_appends' depends on axioms: [propext, Quot.sound]
'Verif.Props.C64_exactly_the_format' depends on axioms: [propext, Classical.choice, Quot.sound]
'Verif.Props.C64_unambiguous' depends on axioms: [propext, Classical.choice, Quot.sound]
'Verif.Props.C65_zero_means_wait' depends on axioms: [propext, Classical.choice, Quot.sound]
'Verif.Props.C65_zero_exactly' depends on axioms: [propext, Classical.choice, Quot.sound]
'Verif.Props.C66_scalar_conversions' depends on axioms: [propext, Classical.choice, Quot.sound]
'Verif.Props.C67_other_variant' depends on axioms: [propext, Classical.choice, Quot.sound]
'Verif.Props.C69_natural_format' depends on axioms: [propext, Classical.choice, Quot.sound]
'Verif.Props.C69_natural_roundtrip' depends on axioms: [propext, Classical.choice, Quot.sound]
'Verif.Props.C70_text_roundtrip' depends on axioms: [propext, Classical.choice, Quot.sound]
'Verif.Props.C70_not_text' depends on axioms: [propext, Classical.choice, Quot.sound]
'Verif.Props.C70_sound' depends on axioms: [propext, Classical.choice, Quot.sound]
'Verif.Props.C72_nested_roundtrip' depends on axioms: [propext, Classical.choice, Quot.sound]
'Verif.Props.C73_delivered' depends on axioms: [propext, Classical.choice, Quot.sound]
'Verif.Props.C73_varint_formats' depends on axioms: [propext, Classical.choice, Quot.sound]
'Verif.Props.C73_sint' depends on axioms: [propext, Classical.choice, Quot.sound]
'Verif.Props.C73_fixed' depends on axioms: [propext, Quot.sound]
'Verif.Props.C78_concat' depends on axioms: [propext, Classical.choice, Quot.sound]
'Verif.Props.C68_defaults' depends on axioms: [propext, Classical.choice, Quot.sound]
'Verif.Props.C68_default_limit' depends on axioms: [propext, Classical.choice, Quot.sound]
'Verif.Props.C75_output_bound' depends on axioms: [propext, Classical.choice, Quot.sound]
'Verif.Props.C75_history' depends on axioms: [propext, Classical.choice, Quot.sound]
'Verif.Props.C76_parse_format' depends on axioms: [propext, Quot.sound]
'Verif.Props.C79_best_not_longer' depends on axioms: [propext, Classical.choice, Quot.sound]
'Verif.Props.C79_longer_iff' depends on axioms: [propext, Classical.choice, Quot.sound]
'Verif.Props.C79_empty_name' depends on axioms: [propext, Quot.sound]
'Verif.Props.C79_many_entries' depends on axioms: [propext, Classical.choice, Quot.sound]
'Verif.Props.C80_reported_size' depends on axioms: [propext, Classical.choice, Quot.sound]
'Verif.Props.C80_not_the_limit' does not depend on any axioms
'Verif.Props.C81_exact_loop' depends on axioms: [propext, Classical.choice, Quot.sound]
'Verif.Props.C82_methods' depends on axioms: [propext, Quot.sound]
'Verif.Props.C85_repeat_one_octet' depends on axioms: [propext, Classical.choice, Quot.sound]
'Verif.Props.C86_output_size' depends on axioms: [propext, Classical.choice, Quot.sound]
'Verif.Props.C86_shortest' depends on axioms: [propext, Classical.choice, Quot.sound]
'Verif.Props.C86_reached' depends on axioms: [propext, Classical.choice, Quot.sound]
'Verif.Props.C86_update_size' depends on axioms: [propext, Classical.choice, Quot.sound]
'Verif.Props.C87_resume' depends on axioms: [propext, Classical.choice, Quot.sound]
'Verif.Props.C87_chunks' depends on axioms: [propext, Classical.choice, Quot.sound]
'Verif.Props.C87_prefix' depends on axioms: [propext, Classical.choice, Quot.sound]
'Verif.Props.C88_update_anywhere' depends on axioms: [propext, Classical.choice, Quot.sound]
'Verif.Props.C89_limit_is_lazy' depends on axioms: [propext, Classical.choice, Quot.sound]
'Verif.Props.C89_higher_limit' depends on axioms: [propext, Classical.choice, Quot.sound]
'Verif.Props.C89_lower_limit' depends on axioms: [propext, Classical.choice, Quot.sound]
'Verif.Props.C90_text_to_matrix' depends on axioms: [propext, Classical.choice, Quot.sound]
'Verif.Props.C91_width64' depends on axioms: [propext, Quot.sound]
'Verif.Props.C91_same_on_narrow' depends on axioms: [propext, Classical.choice, Quot.sound]
'Verif.Props.C91_length_truncated' depends on axioms: [propext, Classical.choice, Quot.sound]
'Verif.Props.C92_accepts_exactly' depends on axioms: [propext, Classical.choice, Quot.sound]
'Verif.Props.C92_else_panics' depends on axioms: [propext, Classical.choice, Quot.sound]
'Verif.Props.C92_bits_only_counted' depends on axioms: [propext, Classical.choice, Quot.sound]
'Verif.Props.C83_any_capacity' depends on axioms: [propext, Classical.choice, Quot.sound]
'Verif.Props.C83_capacity_one' depends on axioms: [propext, Quot.sound]
'Verif.Props.C84_ceil' depends on axioms: [propext, Classical.choice, Quot.sound]
'Verif.Props.C84_decode' depends on axioms: [propext, Classical.choice, Quot.sound]
'Verif.Props.C84_flatten' depends on axioms: [propext, Classical.choice, Quot.sound]
'Verif.Props.C71_prefix' depends on axioms: [propext, Classical.choice, Quot.sound]
'Verif.Props.C71_truncated' depends on axioms: [propext, Classical.choice, Quot.sound]
'Verif.Props.C71_truncated_loses' depends on axioms: [propext, Classical.choice, Quot.sound]
'Verif.Props.C71_concat' depends on axioms: [propext, Classical.choice, Quot.sound]
'Verif.Props.C71_concat_only' depends on axioms: [propext, Classical.choice, Quot.sound]
'Verif.Props.C71_join_decode' depends on axioms: [propext, Classical.choice, Quot.sound]
'Verif.Props.C93_stream' depends on axioms: [propext, Classical.choice, Quot.sound]
'Verif.Props.C93_cut_off' depends on axioms: [propext, Classical.choice, Quot.sound]
'Verif.Props.C94_refused_calls' depends on axioms: [propext, Classical.choice, Quot.sound]
'Verif.Props.C94_meaning_unique' depends on axioms: [propext]
'Verif.Props.C77_connection' depends on axioms: [propext, Classical.choice, Quot.sound]
'Verif.Props.C95_literal' depends on axioms: [propext, Quot.sound]
'Verif.Props.C95_indexed_name' depends on axioms: [propext, Quot.sound]
'Verif.Props.C95_best_found' depends on axioms: [propext, Quot.sound]
'Verif.Props.C95_all_matter' depends on axioms: [propext, Quot.sound]
'Verif.Props.C95_named' depends on axioms: [propext, Quot.sound]
'Verif.Props.C95_received' depends on axioms: [propext, Classical.choice, Quot.sound]
'Verif.Props.C97_stream' depends on axioms: [propext, Classical.choice, Quot.sound]
'Verif.Props.C97_cut_off' depends on axioms: [propext, Classical.choice, Quot.sound]
'Verif.Props.C97_crash' depends on axioms: [propext, Classical.choice, Quot.sound]
'Verif.Props.C97_fixed_buffer' depends on axioms: [propext, Classical.choice, Quot.sound]
'Verif.Props.C96_decode' depends on axioms: [propext, Classical.choice, Quot.sound]
'Verif.Props.C96_decode_exact' depends on axioms: [propext, Classical.choice, Quot.sound]
'Verif.Props.C98_decode' depends on axioms: [propext, Quot.sound]
'Verif.Props.C98_decode_exact' depends on axioms: [propext, Quot.sound]
'Verif.Props.C99_signed32' depends on axioms: [propext, Classical.choice, Quot.sound]
'Verif.Props.C99_signed64' depends on axioms: [propext, Classical.choice, Quot.sound]
'Verif.Props.C99_fixed' depends on axioms: [propext, Classical.choice, Quot.sound]
'Verif.Props.C100_no_trace' depends on axioms: [propext, Quot.sound]
'Verif.Props.C100_non_interference' depends on axioms: [propext, Quot.sound]
'Verif.Props.C100_literal_blind' depends on axioms: [propext, Quot.sound]
'Verif.Props.C100_best_format_leaks' depends on axioms: [propext, Quot.sound]
'Verif.Props.C101_errors_exactly' depends on axioms: [propext, Classical.choice, Quot.sound]
'Verif.Props.C101_exact_errors' depends on axioms: [propext, Classical.choice, Quot.sound]
'Verif.Props.C101_never_prefix' depends on axioms: [propext, Classical.choice, Quot.sound]
'Verif.Props.C102_huffman_encoder' depends on axioms: [propext, Classical.choice, Quot.sound]
'Verif.Props.C102_hpack_encoder' depends on axioms: [propext, Classical.choice, Quot.sound]
'Verif.Props.C102_protos_encoder' depends on axioms: [propext, Classical.choice, Quot.sound]
'Verif.Props.C102_protos_decoder' depends on axioms: [propext, Classical.choice, Quot.sound]
'Verif.Props.C102_protos_primitives' depends on axioms: [propext, Classical.choice, Quot.sound]
'Verif.Props.C103_pieces' depends on axioms: [propext, Classical.choice, Quot.sound]
'Verif.Props.C103_received' depends on axioms: [propext, Classical.choice, Quot.sound]
'Verif.Props.C103_retry_corrupts' depends on axioms: [propext, Quot.sound]
'Verif.Props.C104_relay' depends on axioms: [propext, Classical.choice, Quot.sound]
'Verif.Props.C104_chain' depends on axioms: [propext, Classical.choice, Quot.sound]
'Verif.Props.C74_rewrite' depends on axioms: [propext, Classical.choice, Quot.sound]
'Verif.Props.C74_own_messages' depends on axioms: [propext, Classical.choice, Quot.sound]
'Verif.Props.C105_huffman_decode' depends on axioms: [propext, Classical.choice, Quot.sound]
'Verif.Props.C105_huffman_encode' depends on axioms: [propext, Classical.choice, Quot.sound]
'Verif.Props.C105_decode_integer' depends on axioms: [propext, Quot.sound]
'Verif.Props.C105_decode_string' depends on axioms: [propext, Classical.choice, Quot.sound]
'Verif.Props.C105_encode_string' depends on axioms: [propext, Classical.choice, Quot.sound]
'Verif.Props.C105_table_resize' depends on axioms: [propext, Quot.sound]
'Verif.Props.C105_table_insert' depends on axioms: [propext, Quot.sound]
'Verif.Props.C105_hpack_decode' depends on axioms: [propext, Classical.choice, Quot.sound]
'Verif.Props.C105_hpack_decode_exact' depends on axioms: [propext, Classical.choice, Quot.sound]
'Verif.Props.C105_hpack_encode' depends on axioms: [propext, Classical.choice, Quot.sound]
'Verif.Props.C105_hpack_encode_resize' depends on axioms: [propext, Quot.sound]
'Verif.Props.C105_release_ops_64' depends on axioms: [propext, Quot.sound]
'Verif.Props.C105_release_ops_32' depends on axioms: [propext, Quot.sound]
'Verif.Props.C105_debug_ops' does not depend on any axioms
'Verif.Props.C105_hpack_total_ops' depends on axioms: [propext, Quot.sound]
'Verif.Props.C106_lifetime' depends on axioms: [propext, Quot.sound]
'Verif.Props.C106_insertions_only' depends on axioms: [propext, Quot.sound]
'Verif.Props.C107_panics_exactly' depends on axioms: [propext, Classical.choice, Quot.sound]
'Verif.Props.C107_safe_matrix' depends on axioms: [propext, Classical.choice, Quot.sound]
'Verif.Props.C107_debug' depends on axioms: [propext, Quot.sound]
'Verif.Props.C107_release_agrees' depends on axioms: [propext, Classical.choice, Quot.sound]
'Verif.Props.C107_release_panics_exactly' depends on axioms: [propext, Classical.choice, Quot.sound]
'Verif.Props.C107_release_safe_matrix' depends on axioms: [propext, Classical.choice, Quot.sound]
'Verif.Props.C107_release_differs' depends on axioms: [propext, Classical.choice, Quot.sound]
'Verif.Props.C107_release_place' depends on axioms: [propext, Classical.choice, Quot.sound]
'Verif.Props.C107_release_found_iff' depends on axioms: [propext, Classical.choice, Quot.sound]
'Verif.Props.C107_release_one_bit' depends on axioms: [propext, Classical.choice, Quot.sound]
'Verif.Props.C108_same_result' depends on axioms: [propext, Quot.sound]
'Verif.Props.C108_rounds' depends on axioms: [propext, Classical.choice, Quot.sound]
'Verif.Props.C108_linear' depends on axioms: [propext, Classical.choice, Quot.sound]
'Verif.Props.C108_speedup' depends on axioms: [propext, Classical.choice, Quot.sound]
'Verif.Props.C108_faster' depends on axioms: [propext, Classical.choice, Quot.sound]
'Verif.Props.C108_one_bit' depends on axioms: [propext, Classical.choice, Quot.sound]
'Verif.Props.C109_hpack_same_result' depends on axioms: [propext, Quot.sound]
'Verif.Props.C109_hpack_moved' depends on axioms: [propext, Classical.choice, Quot.sound]
'Verif.Props.C109_hpack_bound' depends on axioms: [propext, Classical.choice, Quot.sound]
'Verif.Props.C109_hpack_reached' depends on axioms: [propext, Quot.sound]
'Verif.Props.C109_protos_same_result' depends on axioms: [propext, Quot.sound]
'Verif.Props.C109_protos_bound' depends on axioms: [propext, Classical.choice, Quot.sound]
'Verif.Props.C109_protos_reached' depends on axioms: [propext, Quot.sound]
'Verif.Props.C110_find_calls' depends on axioms: [propext, Classical.choice, Quot.sound]
'Verif.Props.C110_entries' depends on axioms: [propext, Quot.sound]
'Verif.Props.C110_entries_reached' depends on axioms: [propext, Quot.sound]
'Verif.Props.C110_find_bound' depends on axioms: [propext, Classical.choice, Quot.sound]
'Verif.Props.C110_evictions' depends on axioms: [propext, Quot.sound]
'Verif.Props.C111_same_result' depends on axioms: [propext, Quot.sound]
'Verif.Props.C111_linear' depends on axioms: [propext, Classical.choice, Quot.sound]
'Verif.Props.C111_string' depends on axioms: [propext, Classical.choice, Quot.sound]
'Verif.Props.C111_no_strings' depends on axioms: [propext, Quot.sound]
'Verif.Props.C111_literal' depends on axioms: [propext, Classical.choice, Quot.sound]
'Verif.Props.C111_incomplete_value' depends on axioms: [propext, Classical.choice, Quot.sound]
'Verif.Props.C111_retries' depends on axioms: [propext, Classical.choice, Quot.sound]
'Verif.Props.C112_decode_source' depends on axioms: [propext, Classical.choice, Quot.sound]
'Verif.Props.C112_flatten_example' depends on axioms: [propext, Classical.choice, Quot.sound]
'Verif.Props.C112_names_speed' depends on axioms: [propext, Classical.choice, Quot.sound]
'Verif.Props.C112_parse_source' depends on axioms: [propext, Classical.choice, Quot.sound]
'Verif.Props.C112_parse_panics' depends on axioms: [propext, Classical.choice, Quot.sound]
'Verif.Props.C112_parse_example' depends on axioms: [propext, Classical.choice, Quot.sound]
'Verif.Props.C113_texts_distinct' does not depend on any axioms
'Verif.Props.C113_hpack_decoder' depends on axioms: [propext, Classical.choice, Quot.sound]
'Verif.Props.C113_hpack_encoder' depends on axioms: [propext, Classical.choice, Quot.sound]
'Verif.Props.C113_huffman' depends on axioms: [propext, Classical.choice, Quot.sound]
'Verif.Props.C113_protos' depends on axioms: [propext, Classical.choice, Quot.sound]
'Verif.Props.C114_literal_room' depends on axioms: [propext, Classical.choice, Quot.sound]
'Verif.Props.C114_indexed_room' depends on axioms: [propext, Classical.choice, Quot.sound]
'Verif.Props.C114_huffman_value_pays' depends on axioms: [propext, Classical.choice, Quot.sound]
'Verif.Props.C114_huffman_name_pays' depends on axioms: [propext, Classical.choice, Quot.sound]
'Verif.Props.C114_text_pays' depends on axioms: [propext, Classical.choice, Quot.sound]
'Verif.Props.C114_room_reached' depends on axioms: [propext, Classical.choice, Quot.sound]
'Verif.Props.C115_verdict' depends on axioms: [propext, Classical.choice, Quot.sound]
'Verif.Props.C115_every_input' depends on axioms: [propext, Classical.choice, Quot.sound]
'Verif.Props.C115_one_description' depends on axioms: [propext, Classical.choice, Quot.sound]
'Verif.Props.C115_refuses_exactly' depends on axioms: [propext, Classical.choice, Quot.sound]
'Verif.Props.C116_state_after' depends on axioms: [propext, Classical.choice, Quot.sound]
'Verif.Props.C116_empties_table' depends on axioms: [propext, Classical.choice, Quot.sound]
'Verif.Props.C116_next_header_lost' depends on axioms: [propext, Classical.choice, Quot.sound]
'Verif.Props.C117_loss' depends on axioms: [propext, Classical.choice, Quot.sound]
'Verif.Props.C117_lost_store' depends on axioms: [propext, Quot.sound]
'Verif.Props.C118_literal_once' depends on axioms: [propext, Classical.choice, Quot.sound]
'Verif.Props.C118_few_literals' depends on axioms: [propext, Classical.choice, Quot.sound]
'Verif.Props.C118_thrashing' depends on axioms: [propext, Quot.sound]
'Verif.Props.C119_unambiguous' depends on axioms: [propext, Classical.choice, Quot.sound]
'Verif.Props.C119_prefix' depends on axioms: [propext, Classical.choice, Quot.sound]
'Verif.Props.C120_verdict' depends on axioms: [propext, Classical.choice, Quot.sound]
'Verif.Props.C120_exact_verdict' depends on axioms: [propext, Classical.choice, Quot.sound]
'Verif.Props.C120_unique_reading' depends on axioms: [propext, Classical.choice, Quot.sound]
'Verif.Props.C120_every_input' depends on axioms: [propext, Classical.choice, Quot.sound]
'Verif.Props.C120_one_description' depends on axioms: [propext, Classical.choice, Quot.sound]
'Verif.Props.C121_unambiguous' depends on axioms: [propext, Classical.choice, Quot.sound]
'Verif.Props.C121_with_schema' depends on axioms: [propext, Classical.choice, Quot.sound]
'Verif.Props.C121_prefix' depends on axioms: [propext, Classical.choice, Quot.sound]
'Verif.Props.C122_fields' depends on axioms: [propext, Classical.choice, Quot.sound]
'Verif.Props.C122_elements' depends on axioms: [propext, Classical.choice, Quot.sound]
'Verif.Props.C123_two_decoders' depends on axioms: [propext, Classical.choice, Quot.sound]
'Verif.Props.C123_larger_decoder' depends on axioms: [propext, Classical.choice, Quot.sound]
'Verif.Props.C123_fresh_larger' depends on axioms: [propext, Classical.choice, Quot.sound]
'Verif.Props.C123_smaller_decoder' depends on axioms: [propext, Classical.choice, Quot.sound]
'Verif.Props.C124_cost_of_pieces' depends on axioms: [propext, Classical.choice, Quot.sound]
'Verif.Props.C124_two_pieces' depends on axioms: [propext, Classical.choice, Quot.sound]
'Verif.Props.C124_order' depends on axioms: [propext, Classical.choice, Quot.sound]
'Verif.Props.C125_updates_in_a_row' depends on axioms: [propext, Classical.choice, Quot.sound]
'Verif.Props.C125_smallest_and_last' depends on axioms: [propext, Classical.choice, Quot.sound]
'Verif.Props.C125_leaving_out' depends on axioms: [propext, Classical.choice, Quot.sound]
'Verif.Props.C125_decoder' depends on axioms: [propext, Classical.choice, Quot.sound]
'Verif.Props.C126_table_free' depends on axioms: [propext, Classical.choice, Quot.sound]
'Verif.Props.C126_reset' depends on axioms: [propext, Classical.choice, Quot.sound]
'Verif.Props.C126_heals' depends on axioms: [propext, Classical.choice, Quot.sound]
'Verif.Props.C127_chunks' depends on axioms: [propext, Classical.choice, Quot.sound]
'Verif.Props.C127_payloads' depends on axioms: [propext, Classical.choice, Quot.sound]
'Verif.Props.C127_malformed_join' depends on axioms: [propext, Quot.sound]
'Verif.Props.C128_canonical' depends on axioms: [propext, Classical.choice, Quot.sound]
'Verif.Props.C128_order' depends on axioms: [propext, Classical.choice, Quot.sound]
'Verif.Props.C129_final' depends on axioms: [propext, Classical.choice, Quot.sound]
'Verif.Props.C129_stays' depends on axioms: [propext, Classical.choice, Quot.sound]
'Verif.Props.C129_missing' depends on axioms: [propext, Classical.choice, Quot.sound]
'Verif.Props.C129_final_iff' depends on axioms: [propext, Classical.choice, Quot.sound]
'Verif.Props.C130_finish' depends on axioms: [propext, Classical.choice, Quot.sound]
'Verif.Props.C130_settled' depends on axioms: [propext, Classical.choice, Quot.sound]
'Verif.Props.C131_receive' depends on axioms: [propext, Classical.choice, Quot.sound]
'Verif.Props.C131_send' depends on axioms: [propext, Classical.choice, Quot.sound]
'Verif.Props.C132_receive' depends on axioms: [propext, Classical.choice, Quot.sound]
'Verif.Props.C132_send' depends on axioms: [propext, Classical.choice, Quot.sound]
'Verif.Props.C133_methods' depends on axioms: [propext, Classical.choice, Quot.sound]
'Verif.Props.C133_as_encode' depends on axioms: [propext, Quot.sound]
'Verif.Props.C133_invalid_tag' depends on axioms: [propext, Classical.choice, Quot.sound]
'Verif.Props.C134_shortest' depends on axioms: [propext, Classical.choice, Quot.sound]
'Verif.Props.C134_small_table' depends on axioms: [propext, Classical.choice, Quot.sound]
'Verif.Props.C134_empty_value' depends on axioms: [propext, Quot.sound]
'Verif.Props.C134_other_kind' depends on axioms: [propext, Quot.sound]
'Verif.Props.C135_order' depends on axioms: [propext, Classical.choice, Quot.sound]
'Verif.Props.C135_merge' depends on axioms: [propext, Classical.choice, Quot.sound]
'Verif.Props.C135_unknown_fields' depends on axioms: [propext, Classical.choice, Quot.sound]
'Verif.Props.C135_override' depends on axioms: [propext, Classical.choice, Quot.sound]
'Verif.Props.C136_stateless' depends on axioms: [propext, Classical.choice, Quot.sound]
'Verif.Props.C136_arrival' depends on axioms: [propext, Classical.choice, Quot.sound]
'Verif.Props.C136_pairs' depends on axioms: [propext]
'Verif.Props.C136_end_to_end' depends on axioms: [propext, Classical.choice, Quot.sound]
'Verif.Props.C137_room_enough' depends on axioms: [propext, Classical.choice, Quot.sound]
'Verif.Props.C137_larger_can_be_worse' depends on axioms: [propext, Quot.sound]
'Verif.Props.C138_renaming' depends on axioms: [propext, Classical.choice, Quot.sound]
'Verif.Props.C138_guess_completely' depends on axioms: [propext, Classical.choice, Quot.sound]
'Verif.Props.C138_sizes' depends on axioms: [propext, Classical.choice, Quot.sound]
'Verif.Props.C138_complete_guess_seen' depends on axioms: [propext, Quot.sound]
'Verif.Props.C138_length_seen' depends on axioms: [propext, Quot.sound]
'Verif.Props.C139_size' depends on axioms: [propext, Classical.choice, Quot.sound]
'Verif.Props.C139_key_size' depends on axioms: [propext, Classical.choice, Quot.sound]
'Verif.Props.C139_shortest' depends on axioms: [propext, Classical.choice, Quot.sound]
'Verif.Props.C139_negative_int32' depends on axioms: [propext, Quot.sound]
'Verif.Props.C139_room' depends on axioms: [propext, Classical.choice, Quot.sound]
'Verif.Props.C140_continues' depends on axioms: [propext, Classical.choice, Quot.sound]
'Verif.Props.C140_after' depends on axioms: [propext, Classical.choice, Quot.sound]
'Verif.Props.C140_like_new' depends on axioms: [propext, Classical.choice, Quot.sound]
'Verif.Props.C140_swallows' depends on axioms: [propext, Classical.choice, Quot.sound]
'Verif.Props.C140_cut_off' depends on axioms: [propext, Quot.sound]
'Verif.Props.C140_example' depends on axioms: [propext, Quot.sound]
'Verif.Props.C141_huffman_before' depends on axioms: [propext, Classical.choice, Quot.sound]
'Verif.Props.C141_huffman_unnoticed' depends on axioms: [propext, Classical.choice, Quot.sound]
'Verif.Props.C141_huffman_noticed' depends on axioms: [propext, Classical.choice, Quot.sound]
'Verif.Props.C141_hpack_before' depends on axioms: [propext, Classical.choice, Quot.sound]
'Verif.Props.C141_hpack_value' depends on axioms: [propext, Classical.choice, Quot.sound]
'Verif.Props.C141_hpack_lasts' depends on axioms: [propext, Quot.sound]
'Verif.Props.C141_protos_before' depends on axioms: [propext, Classical.choice, Quot.sound]
'Verif.Props.C141_protos_value' depends on axioms: [propext, Classical.choice, Quot.sound]
'Verif.Props.C142_zero_iff' depends on axioms: [propext, Classical.choice, Quot.sound]
'Verif.Props.C142_no_capacity' depends on axioms: [propext, Quot.sound]
'Verif.Props.C142_stops_early' depends on axioms: [propext, Classical.choice, Quot.sound]
'Verif.Props.C142_few_updates' depends on axioms: [propext, Classical.choice, Quot.sound]
'Verif.Props.C143_within' depends on axioms: [propext, Classical.choice, Quot.sound]
'Verif.Props.C143_exceeded' depends on axioms: [propext, Classical.choice, Quot.sound]
'Verif.Props.C143_drop_rest' depends on axioms: [propext, Classical.choice, Quot.sound]
'Verif.Props.C144_same_or_refused' depends on axioms: [propext, Quot.sound]
'Verif.Props.C144_memory' depends on axioms: [propext, Quot.sound]
'Verif.Props.C144_why' depends on axioms: [propext, Classical.choice, Quot.sound]
'Verif.Props.C144_accepted' depends on axioms: [propext, Classical.choice, Quot.sound]
'Verif.Props.C144_own_peer' depends on axioms: [propext, Classical.choice, Quot.sound]
'Verif.Props.C144_not_a_size_limit' depends on axioms: [propext, Classical.choice, Quot.sound] 
