{
 "claims": [
  {
   "property": "C01",
   "status": "proved",
   "theorems": [
    "Verif.Props.C01_round_trip"
   ],
   "note": ""
  },
  {
   "property": "C02",
   "status": "proved",
   "theorems": [
    "Verif.Props.C02_speed_independent",
    "Verif.Props.C02_known_speeds"
   ],
   "note": ""
  },
  {
   "property": "C03",
   "status": "proved",
   "theorems": [
    "Verif.Props.C03_encode_bits",
    "Verif.Props.C03_encoding_unique"
   ],
   "note": ""
  },
  {
   "property": "C04",
   "status": "proved",
   "theorems": [
    "Verif.Props.C04_encode_length"
   ],
   "note": ""
  },
  {
   "property": "C05",
   "status": "proved",
   "theorems": [
    "Verif.Props.C05_injective"
   ],
   "note": ""
  },
  {
   "property": "C06",
   "status": "proved",
   "theorems": [
    "Verif.Props.C06_accept_iff",
    "Verif.Props.C06_accept_iff_listed"
   ],
   "note": ""
  },
  {
   "property": "C07",
   "status": "proved",
   "theorems": [
    "Verif.Props.C07_padding_exact",
    "Verif.Props.C07_padding",
    "Verif.Props.C07_padding_strict_false"
   ],
   "note": "Exactly nineteen paddings are accepted; the stricter RFC rule is refuted by a witness."
  },
  {
   "property": "C08",
   "status": "proved",
   "theorems": [
    "Verif.Props.C08_eos_rejected"
   ],
   "note": ""
  },
  {
   "property": "C09",
   "status": "proved",
   "theorems": [
    "Verif.Props.C09_prefix_free",
    "Verif.Props.C09_complete"
   ],
   "note": ""
  },
  {
   "property": "C10",
   "status": "proved",
   "theorems": [
    "Verif.Props.C10_tables_are_flatten"
   ],
   "note": ""
  },
  {
   "property": "C11",
   "status": "proved",
   "theorems": [
    "Verif.Props.C11_table_is_parse",
    "Verif.Props.C11_columns_agree",
    "Verif.Props.C11_binary_column"
   ],
   "note": ""
  },
  {
   "property": "C12",
   "status": "proved",
   "theorems": [
    "Verif.Props.C12_flatten_total",
    "Verif.Props.C12_finds_symbol",
    "Verif.Props.C12_continues",
    "Verif.Props.C12_never_both",
    "Verif.Props.C12_row_count",
    "Verif.Props.C12_rows_computed",
    "Verif.Props.C12_too_many_rows",
    "Verif.Props.C12_thirty_bits",
    "Verif.Props.C12_fits_exactly",
    "Verif.Props.C12_lost_bits",
    "Verif.Props.C12_lost_bit_mixes_up"
   ],
   "note": "For every prefix-free list of codes that fit in 32 bits when filled up to whole chunks (all codes of 1..30 bits) and all five speeds; at most 256 rows. C12_too_many_rows shows that the row limit is real (row ids are truncated to u8), C12_lost_bits that the limit of 32 bits is."
  },
  {
   "property": "C13",
   "status": "proved",
   "theorems": [
    "Verif.Props.C13_appends_decoded",
    "Verif.Props.C13_decode_outcome"
   ],
   "note": ""
  },
  {
   "property": "C14",
   "status": "proved",
   "theorems": [
    "Verif.Props.C14_canonical"
   ],
   "note": ""
  },
  {
   "property": "C15",
   "status": "proved",
   "theorems": [
    "Verif.Props.C15_total",
    "Verif.Props.C15_buffers_bounded"
   ],
   "note": ""
  },
  {
   "property": "C16",
   "status": "proved",
   "theorems": [
    "Verif.Props.C16_expansion"
   ],
   "note": ""
  },
  {
   "property": "C17",
   "status": "proved",
   "theorems": [
    "Verif.Props.C17_integer_round_trip",
    "Verif.Props.C17_invalid_prefix"
   ],
   "note": ""
  },
  {
   "property": "C18",
   "status": "proved",
   "theorems": [
    "Verif.Props.C18_integer_too_large",
    "Verif.Props.C18_size_update_rejected",
    "Verif.Props.C18_string_rejected"
   ],
   "note": ""
  },
  {
   "property": "C19",
   "status": "proved",
   "theorems": [
    "Verif.Props.C19_integer_sound",
    "Verif.Props.C19_integer_complete"
   ],
   "note": ""
  },
  {
   "property": "C20",
   "status": "proved",
   "theorems": [
    "Verif.Props.C20_panics_exactly",
    "Verif.Props.C20_exact_panics",
    "Verif.Props.C20_ok_or_err",
    "Verif.Props.C20_never_panics_false"
   ],
   "note": "The exact set of panicking inputs; on all others the result is Ok or Err. That decoding never panics is refuted by witnesses."
  },
  {
   "property": "C21",
   "status": "proved",
   "theorems": [
    "Verif.Props.C21_string_round_trip",
    "Verif.Props.C21_string_wire"
   ],
   "note": ""
  },
  {
   "property": "C22",
   "status": "proved",
   "theorems": [
    "Verif.Props.C22_size_accounting",
    "Verif.Props.C22_max_is_last",
    "Verif.Props.encoder_reachable",
    "Verif.Props.decoder_reachable"
   ],
   "note": ""
  },
  {
   "property": "C23",
   "status": "proved",
   "theorems": [
    "Verif.Props.C23_insert"
   ],
   "note": ""
  },
  {
   "property": "C24",
   "status": "proved",
   "theorems": [
    "Verif.Props.C24_resize",
    "Verif.Props.C24_raise"
   ],
   "note": ""
  },
  {
   "property": "C25",
   "status": "proved",
   "theorems": [
    "Verif.Props.C25_get",
    "Verif.Props.C25_static_length",
    "Verif.Props.C25_iter",
    "Verif.Props.C25_iter_calls",
    "Verif.Props.C25_iter_panics",
    "Verif.Props.C25_iter_wraps"
   ],
   "note": ""
  },
  {
   "property": "C26",
   "status": "proved",
   "theorems": [
    "Verif.Props.C26_find"
   ],
   "note": ""
  },
  {
   "property": "C27",
   "status": "proved",
   "theorems": [
    "Verif.Props.C27_encoder_refines",
    "Verif.Props.C27_choice_unique",
    "Verif.Props.C27_encoder_succeeds",
    "Verif.Props.C27_size_update"
   ],
   "note": ""
  },
  {
   "property": "C28",
   "status": "proved",
   "theorems": [
    "Verif.Props.C28_session",
    "Verif.Props.C28_session_fresh",
    "Verif.Props.C28_call_by_call",
    "Verif.Props.C28_meaning_unique"
   ],
   "note": ""
  },
  {
   "property": "C29",
   "status": "proved",
   "theorems": [
    "Verif.Props.C29_name_value",
    "Verif.Props.C29_indexed",
    "Verif.Props.C29_indexed_name"
   ],
   "note": ""
  },
  {
   "property": "C30",
   "status": "proved",
   "theorems": [
    "Verif.Props.C30_sensitive_iff",
    "Verif.Props.C30_sensitive_kept",
    "Verif.Props.C30_not_stored",
    "Verif.Props.C30_sensitive_kept_false"
   ],
   "note": "Exactly when the mark survives, for every state; that it always survives is refuted by a witness."
  },
  {
   "property": "C31",
   "status": "proved",
   "theorems": [
    "Verif.Props.C31_accepts",
    "Verif.Props.C31_rfc_forms",
    "Verif.Props.C31_accepts_block"
   ],
   "note": ""
  },
  {
   "property": "C32",
   "status": "proved",
   "theorems": [
    "Verif.Props.C32_sound",
    "Verif.Props.C32_sound_block"
   ],
   "note": ""
  },
  {
   "property": "C33",
   "status": "proved",
   "theorems": [
    "Verif.Props.C33_failure",
    "Verif.Props.C33_untouched_false",
    "Verif.Props.C33_step_atomic"
   ],
   "note": "The documented claim that nothing is consumed or written on error is proved false; the stated property is proved."
  },
  {
   "property": "C34",
   "status": "proved",
   "theorems": [
    "Verif.Props.C34_pieces"
   ],
   "note": ""
  },
  {
   "property": "C35",
   "status": "proved",
   "theorems": [
    "Verif.Props.C35_update_rejected",
    "Verif.Props.C35_history_bound"
   ],
   "note": ""
  },
  {
   "property": "C36",
   "status": "proved",
   "theorems": [
    "Verif.Props.C36_capacity",
    "Verif.Props.C36_room_for_all",
    "Verif.Props.C36_resume",
    "Verif.Props.C36_full_vector_grows",
    "Verif.Props.C36_updates_use_capacity"
   ],
   "note": ""
  },
  {
   "property": "C37",
   "status": "proved",
   "theorems": [
    "Verif.Props.C37_count",
    "Verif.Props.C37_count_not_consumed"
   ],
   "note": ""
  },
  {
   "property": "C38",
   "status": "proved",
   "theorems": [
    "Verif.Props.C38_flags"
   ],
   "note": ""
  },
  {
   "property": "C39",
   "status": "proved",
   "theorems": [
    "Verif.Props.C39_encoder_invalid_index",
    "Verif.Props.C39_decoder_invalid_index",
    "Verif.Props.C39_invalid_indices"
   ],
   "note": ""
  },
  {
   "property": "C40",
   "status": "proved",
   "theorems": [
    "Verif.Props.C40_encode_failures",
    "Verif.Props.C40_exactly"
   ],
   "note": ""
  },
  {
   "property": "C41",
   "status": "proved",
   "theorems": [
    "Verif.Props.C41_progress",
    "Verif.Props.C41_terminates"
   ],
   "note": ""
  },
  {
   "property": "C42",
   "status": "proved",
   "theorems": [
    "Verif.Props.C42_varint_roundtrip"
   ],
   "note": ""
  },
  {
   "property": "C43",
   "status": "proved",
   "theorems": [
    "Verif.Props.C43_varint_size"
   ],
   "note": ""
  },
  {
   "property": "C44",
   "status": "proved",
   "theorems": [
    "Verif.Props.C44_varint_sound",
    "Verif.Props.C44_varint_complete",
    "Verif.Props.C44_varint_underflow"
   ],
   "note": ""
  },
  {
   "property": "C45",
   "status": "proved",
   "theorems": [
    "Verif.Props.C45_overlong",
    "Verif.Props.C45_overlong_not_rejected",
    "Verif.Props.C45_overlong_garbage"
   ],
   "note": "Exactly what happens in both build profiles; that such varints are rejected is refuted."
  },
  {
   "property": "C46",
   "status": "proved",
   "theorems": [
    "Verif.Props.C46_zigzag_written",
    "Verif.Props.C46_zigzag_roundtrip"
   ],
   "note": ""
  },
  {
   "property": "C47",
   "status": "proved",
   "theorems": [
    "Verif.Props.C47_scalar_roundtrip",
    "Verif.Props.C48_field_roundtrip"
   ],
   "note": ""
  },
  {
   "property": "C48",
   "status": "proved",
   "theorems": [
    "Verif.Props.C48_field_roundtrip",
    "Verif.Props.C48_packed_roundtrip"
   ],
   "note": ""
  },
  {
   "property": "C49",
   "status": "proved",
   "theorems": [
    "Verif.Props.C49_key_roundtrip",
    "Verif.Props.C49_invalid_tag"
   ],
   "note": ""
  },
  {
   "property": "C50",
   "status": "proved",
   "theorems": [
    "Verif.Props.C50_key_accepted",
    "Verif.Props.C50_key_sound"
   ],
   "note": ""
  },
  {
   "property": "C51",
   "status": "proved",
   "theorems": [
    "Verif.Props.C51_message_roundtrip"
   ],
   "note": ""
  },
  {
   "property": "C52",
   "status": "proved",
   "theorems": [
    "Verif.Props.C52_one_call_iff",
    "Verif.Props.C52_until_zero",
    "Verif.Props.C52_stops_at_empty_field",
    "Verif.Props.C52_one_call_not_enough"
   ],
   "note": "Exactly when one call is enough and where it stops otherwise; calling until 0 reads everything."
  },
  {
   "property": "C53",
   "status": "proved",
   "theorems": [
    "Verif.Props.C53_chunks",
    "Verif.Props.C53_any_two_chunkings",
    "Verif.Props.C53_any_schedule"
   ],
   "note": ""
  },
  {
   "property": "C54",
   "status": "proved",
   "theorems": [
    "Verif.Props.C54_nothing_lost",
    "Verif.Props.C54_accounting",
    "Verif.Props.C54_states",
    "Verif.Props.C54_any_schedule"
   ],
   "note": ""
  },
  {
   "property": "C55",
   "status": "proved",
   "theorems": [
    "Verif.Props.C55_failed_decode",
    "Verif.Props.C55_consumes_on_error"
   ],
   "note": "The documented claim that nothing is consumed on error is proved false; the stated property is proved."
  },
  {
   "property": "C56",
   "status": "proved",
   "theorems": [
    "Verif.Props.C56_append",
    "Verif.Props.C56_append_all"
   ],
   "note": ""
  },
  {
   "property": "C57",
   "status": "proved",
   "theorems": [
    "Verif.Props.C57_failing_writer",
    "Verif.Props.C57_prefix"
   ],
   "note": ""
  },
  {
   "property": "C58",
   "status": "proved",
   "theorems": [
    "Verif.Props.C58_total",
    "Verif.Props.C58_release",
    "Verif.Props.C58_drain_ends",
    "Verif.Props.C58_panics_exactly"
   ],
   "note": ""
  },
  {
   "property": "C59",
   "status": "proved",
   "theorems": [
    "Verif.Props.C59_wire_type",
    "Verif.Props.C59_table"
   ],
   "note": ""
  },
  {
   "property": "C60",
   "status": "proved",
   "theorems": [
    "Verif.Props.C60_all_or_nothing",
    "Verif.Props.C60_fixed_truncation",
    "Verif.Props.C60_varint_truncation",
    "Verif.Props.C60_conversions"
   ],
   "note": ""
  },
  {
   "property": "C61",
   "status": "proved",
   "theorems": [
    "Verif.Props.C61_negative_int32"
   ],
   "note": ""
  },
  {
   "property": "C62",
   "status": "proved",
   "theorems": [
    "Verif.Props.C62_integer_shortest"
   ],
   "note": ""
  },
  {
   "property": "C63",
   "status": "proved",
   "theorems": [
    "Verif.Props.C63_encode_appends",
    "Verif.Props.C63_update_appends"
   ],
   "note": ""
  },
  {
   "property": "C64",
   "status": "proved",
   "theorems": [
    "Verif.Props.C64_exactly_the_format",
    "Verif.Props.C64_unambiguous"
   ],
   "note": ""
  },
  {
   "property": "C65",
   "status": "proved",
   "theorems": [
    "Verif.Props.C65_zero_means_wait",
    "Verif.Props.C65_zero_exactly"
   ],
   "note": ""
  },
  {
   "property": "C66",
   "status": "proved",
   "theorems": [
    "Verif.Props.C66_scalar_conversions"
   ],
   "note": ""
  },
  {
   "property": "C67",
   "status": "proved",
   "theorems": [
    "Verif.Props.C67_other_variant"
   ],
   "note": ""
  },
  {
   "property": "C69",
   "status": "proved",
   "theorems": [
    "Verif.Props.C69_natural_format",
    "Verif.Props.C69_natural_roundtrip"
   ],
   "note": ""
  },
  {
   "property": "C70",
   "status": "proved",
   "theorems": [
    "Verif.Props.C70_text_roundtrip",
    "Verif.Props.C70_not_text",
    "Verif.Props.C70_sound"
   ],
   "note": ""
  },
  {
   "property": "C72",
   "status": "proved",
   "theorems": [
    "Verif.Props.C72_nested_roundtrip"
   ],
   "note": ""
  },
  {
   "property": "C73",
   "status": "proved",
   "theorems": [
    "Verif.Props.C73_delivered",
    "Verif.Props.C73_varint_formats",
    "Verif.Props.C73_sint",
    "Verif.Props.C73_fixed"
   ],
   "note": ""
  },
  {
   "property": "C78",
   "status": "proved",
   "theorems": [
    "Verif.Props.C78_concat"
   ],
   "note": ""
  },
  {
   "property": "C68",
   "status": "proved",
   "theorems": [
    "Verif.Props.C68_defaults",
    "Verif.Props.C68_default_limit"
   ],
   "note": ""
  },
  {
   "property": "C75",
   "status": "proved",
   "theorems": [
    "Verif.Props.C75_output_bound",
    "Verif.Props.C75_history"
   ],
   "note": ""
  },
  {
   "property": "C76",
   "status": "proved",
   "theorems": [
    "Verif.Props.C76_parse_format"
   ],
   "note": ""
  },
  {
   "property": "C79",
   "status": "proved",
   "theorems": [
    "Verif.Props.C79_best_not_longer",
    "Verif.Props.C79_longer_iff",
    "Verif.Props.C79_empty_name",
    "Verif.Props.C79_many_entries"
   ],
   "note": "C79_longer_iff is the exact condition; the last two theorems show that the conditions on the name and on the number of entries are needed."
  },
  {
   "property": "C80",
   "status": "proved",
   "theorems": [
    "Verif.Props.C80_reported_size",
    "Verif.Props.C80_not_the_limit"
   ],
   "note": "The documentation of the method is wrong; the property says what it does."
  },
  {
   "property": "C81",
   "status": "proved",
   "theorems": [
    "Verif.Props.C81_exact_loop"
   ],
   "note": ""
  },
  {
   "property": "C82",
   "status": "proved",
   "theorems": [
    "Verif.Props.C82_methods"
   ],
   "note": ""
  },
  {
   "property": "C85",
   "status": "proved",
   "theorems": [
    "Verif.Props.C85_repeat_one_octet"
   ],
   "note": ""
  },
  {
   "property": "C86",
   "status": "proved",
   "theorems": [
    "Verif.Props.C86_output_size",
    "Verif.Props.C86_shortest",
    "Verif.Props.C86_reached",
    "Verif.Props.C86_update_size"
   ],
   "note": ""
  },
  {
   "property": "C87",
   "status": "proved",
   "theorems": [
    "Verif.Props.C87_resume",
    "Verif.Props.C87_chunks",
    "Verif.Props.C87_prefix"
   ],
   "note": ""
  },
  {
   "property": "C88",
   "status": "proved",
   "theorems": [
    "Verif.Props.C88_update_anywhere"
   ],
   "note": ""
  },
  {
   "property": "C89",
   "status": "proved",
   "theorems": [
    "Verif.Props.C89_limit_is_lazy",
    "Verif.Props.C89_higher_limit",
    "Verif.Props.C89_lower_limit"
   ],
   "note": ""
  },
  {
   "property": "C90",
   "status": "proved",
   "theorems": [
    "Verif.Props.C90_text_to_matrix"
   ],
   "note": ""
  },
  {
   "property": "C91",
   "status": "proved",
   "theorems": [
    "Verif.Props.C91_width64",
    "Verif.Props.C91_same_on_narrow",
    "Verif.Props.C91_length_truncated"
   ],
   "note": ""
  },
  {
   "property": "C92",
   "status": "proved",
   "theorems": [
    "Verif.Props.C92_accepts_exactly",
    "Verif.Props.C92_else_panics",
    "Verif.Props.C92_bits_only_counted"
   ],
   "note": ""
  },
  {
   "property": "C83",
   "status": "proved",
   "theorems": [
    "Verif.Props.C83_any_capacity",
    "Verif.Props.C83_capacity_one"
   ],
   "note": "decodeGranted: the same loop with an arbitrary capacity in each round"
  },
  {
   "property": "C84",
   "status": "proved",
   "theorems": [
    "Verif.Props.C84_ceil",
    "Verif.Props.C84_decode",
    "Verif.Props.C84_flatten"
   ],
   "note": "for every rounding that is monotone and exact on representable numbers"
  },
  {
   "property": "C71",
   "status": "proved",
   "theorems": [
    "Verif.Props.C71_prefix",
    "Verif.Props.C71_truncated",
    "Verif.Props.C71_truncated_loses",
    "Verif.Props.C71_concat",
    "Verif.Props.C71_concat_only",
    "Verif.Props.C71_join_decode"
   ],
   "note": ""
  },
  {
   "property": "C93",
   "status": "proved",
   "theorems": [
    "Verif.Props.C93_stream",
    "Verif.Props.C93_cut_off"
   ],
   "note": ""
  },
  {
   "property": "C94",
   "status": "proved",
   "theorems": [
    "Verif.Props.C94_refused_calls",
    "Verif.Props.C94_meaning_unique"
   ],
   "note": ""
  },
  {
   "property": "C77",
   "status": "proved",
   "theorems": [
    "Verif.Props.C77_connection"
   ],
   "note": ""
  },
  {
   "property": "C95",
   "status": "proved",
   "theorems": [
    "Verif.Props.C95_literal",
    "Verif.Props.C95_indexed_name",
    "Verif.Props.C95_best_found",
    "Verif.Props.C95_all_matter",
    "Verif.Props.C95_named",
    "Verif.Props.C95_received"
   ],
   "note": ""
  },
  {
   "property": "C97",
   "status": "proved",
   "theorems": [
    "Verif.Props.C97_stream",
    "Verif.Props.C97_cut_off",
    "Verif.Props.C97_crash",
    "Verif.Props.C97_fixed_buffer"
   ],
   "note": ""
  },
  {
   "property": "C96",
   "status": "proved",
   "theorems": [
    "Verif.Props.C96_decode",
    "Verif.Props.C96_decode_exact"
   ],
   "note": ""
  },
  {
   "property": "C98",
   "status": "proved",
   "theorems": [
    "Verif.Props.C98_decode",
    "Verif.Props.C98_decode_exact"
   ],
   "note": ""
  },
  {
   "property": "C99",
   "status": "proved",
   "theorems": [
    "Verif.Props.C99_signed32",
    "Verif.Props.C99_signed64",
    "Verif.Props.C99_fixed"
   ],
   "note": ""
  },
  {
   "property": "C100",
   "status": "proved",
   "theorems": [
    "Verif.Props.C100_no_trace",
    "Verif.Props.C100_non_interference",
    "Verif.Props.C100_literal_blind",
    "Verif.Props.C100_best_format_leaks"
   ],
   "note": "last theorem: the condition on BEST_FORMAT is needed"
  },
  {
   "property": "C101",
   "status": "proved",
   "theorems": [
    "Verif.Props.C101_errors_exactly",
    "Verif.Props.C101_exact_errors",
    "Verif.Props.C101_never_prefix"
   ],
   "note": "defects defined in Spec/HpackDefect.lean"
  },
  {
   "property": "C102",
   "status": "proved",
   "theorems": [
    "Verif.Props.C102_huffman_encoder",
    "Verif.Props.C102_hpack_encoder",
    "Verif.Props.C102_protos_encoder",
    "Verif.Props.C102_protos_decoder",
    "Verif.Props.C102_protos_primitives"
   ],
   "note": ""
  },
  {
   "property": "C103",
   "status": "proved",
   "theorems": [
    "Verif.Props.C103_pieces",
    "Verif.Props.C103_received",
    "Verif.Props.C103_retry_corrupts"
   ],
   "note": "last theorem: the documented retry is not safe"
  },
  {
   "property": "C104",
   "status": "proved",
   "theorems": [
    "Verif.Props.C104_relay",
    "Verif.Props.C104_chain"
   ],
   "note": ""
  },
  {
   "property": "C74",
   "status": "proved",
   "theorems": [
    "Verif.Props.C74_rewrite",
    "Verif.Props.C74_own_messages"
   ],
   "note": ""
  },
  {
   "property": "C105",
   "status": "proved",
   "theorems": [
    "Verif.Props.C105_huffman_decode",
    "Verif.Props.C105_huffman_encode",
    "Verif.Props.C105_decode_integer",
    "Verif.Props.C105_decode_string",
    "Verif.Props.C105_encode_string",
    "Verif.Props.C105_table_resize",
    "Verif.Props.C105_table_insert",
    "Verif.Props.C105_hpack_decode",
    "Verif.Props.C105_hpack_decode_exact",
    "Verif.Props.C105_hpack_encode",
    "Verif.Props.C105_hpack_encode_resize",
    "Verif.Props.C105_release_ops_64",
    "Verif.Props.C105_release_ops_32",
    "Verif.Props.C105_debug_ops",
    "Verif.Props.C105_hpack_total_ops"
   ],
   "note": ""
  },
  {
   "property": "C106",
   "status": "proved",
   "theorems": [
    "Verif.Props.C106_lifetime",
    "Verif.Props.C106_insertions_only"
   ],
   "note": ""
  },
  {
   "property": "C107",
   "status": "proved",
   "theorems": [
    "Verif.Props.C107_panics_exactly",
    "Verif.Props.C107_safe_matrix",
    "Verif.Props.C107_debug",
    "Verif.Props.C107_release_agrees",
    "Verif.Props.C107_release_panics_exactly",
    "Verif.Props.C107_release_safe_matrix",
    "Verif.Props.C107_release_differs",
    "Verif.Props.C107_release_place",
    "Verif.Props.C107_release_found_iff",
    "Verif.Props.C107_release_one_bit"
   ],
   "note": "Codes are (Nat, Nat); in Rust the lengths are u8 and the values u32. Build with overflow checks."
  },
  {
   "property": "C108",
   "status": "proved",
   "theorems": [
    "Verif.Props.C108_same_result",
    "Verif.Props.C108_rounds",
    "Verif.Props.C108_linear",
    "Verif.Props.C108_speedup",
    "Verif.Props.C108_faster",
    "Verif.Props.C108_one_bit"
   ],
   "note": "counting copy of the reader (Huffman/Cost.lean); the counters are instrumentation, C108_same_result shows the rest is decode"
  },
  {
   "property": "C109",
   "status": "proved",
   "theorems": [
    "Verif.Props.C109_hpack_same_result",
    "Verif.Props.C109_hpack_moved",
    "Verif.Props.C109_hpack_bound",
    "Verif.Props.C109_hpack_reached",
    "Verif.Props.C109_protos_same_result",
    "Verif.Props.C109_protos_bound",
    "Verif.Props.C109_protos_reached"
   ],
   "note": "counting copies of the two decoders (Hpack/Cost.lean, Protos/Cost.lean); the cost of Vec::drain(0..k) is taken to be the number of elements behind the drained ones"
  },
  {
   "property": "C110",
   "status": "proved",
   "theorems": [
    "Verif.Props.C110_find_calls",
    "Verif.Props.C110_entries",
    "Verif.Props.C110_entries_reached",
    "Verif.Props.C110_find_bound",
    "Verif.Props.C110_evictions"
   ],
   "note": "Counted search (lazy iterator) and counted eviction; exact counts, bounds for every history, bound reached."
  },
  {
   "property": "C111",
   "status": "proved",
   "theorems": [
    "Verif.Props.C111_same_result",
    "Verif.Props.C111_linear",
    "Verif.Props.C111_string",
    "Verif.Props.C111_no_strings",
    "Verif.Props.C111_literal",
    "Verif.Props.C111_incomplete_value",
    "Verif.Props.C111_retries"
   ],
   "note": "Decoder with a lookup counter, equal to the decoder; linear bound for one call, exact work per representation, quadratic work of octet-wise retries."
  },
  {
   "property": "C112",
   "status": "proved",
   "theorems": [
    "Verif.Props.C112_decode_source",
    "Verif.Props.C112_flatten_example",
    "Verif.Props.C112_names_speed",
    "Verif.Props.C112_parse_source",
    "Verif.Props.C112_parse_panics",
    "Verif.Props.C112_parse_example"
   ],
   "note": "The example programs as functions to the text they print; read back by an independent lexer and reader of Rust array literals."
  },
  {
   "property": "C113",
   "status": "proved",
   "theorems": [
    "Verif.Props.C113_texts_distinct",
    "Verif.Props.C113_hpack_decoder",
    "Verif.Props.C113_hpack_encoder",
    "Verif.Props.C113_huffman",
    "Verif.Props.C113_protos"
   ],
   "note": "the texts in ErrorTexts.lean"
  },
  {
   "property": "C114",
   "status": "proved",
   "theorems": [
    "Verif.Props.C114_literal_room",
    "Verif.Props.C114_indexed_room",
    "Verif.Props.C114_huffman_value_pays",
    "Verif.Props.C114_huffman_name_pays",
    "Verif.Props.C114_text_pays",
    "Verif.Props.C114_room_reached"
   ],
   "note": ""
  },
  {
   "property": "C115",
   "status": "proved",
   "theorems": [
    "Verif.Props.C115_verdict",
    "Verif.Props.C115_every_input",
    "Verif.Props.C115_one_description",
    "Verif.Props.C115_refuses_exactly"
   ],
   "note": "the panics: C58_panics_exactly"
  },
  {
   "property": "C116",
   "status": "proved",
   "theorems": [
    "Verif.Props.C116_state_after",
    "Verif.Props.C116_empties_table",
    "Verif.Props.C116_next_header_lost"
   ],
   "note": ""
  },
  {
   "property": "C117",
   "status": "proved",
   "theorems": [
    "Verif.Props.C117_loss",
    "Verif.Props.C117_lost_store"
   ],
   "note": ""
  },
  {
   "property": "C118",
   "status": "proved",
   "theorems": [
    "Verif.Props.C118_literal_once",
    "Verif.Props.C118_few_literals",
    "Verif.Props.C118_thrashing"
   ],
   "note": ""
  },
  {
   "property": "C119",
   "status": "proved",
   "theorems": [
    "Verif.Props.C119_unambiguous",
    "Verif.Props.C119_prefix"
   ],
   "note": ""
  },
  {
   "property": "C120",
   "status": "proved",
   "theorems": [
    "Verif.Props.C120_verdict",
    "Verif.Props.C120_exact_verdict",
    "Verif.Props.C120_unique_reading",
    "Verif.Props.C120_every_input",
    "Verif.Props.C120_one_description"
   ],
   "note": ""
  },
  {
   "property": "C121",
   "status": "proved",
   "theorems": [
    "Verif.Props.C121_unambiguous",
    "Verif.Props.C121_with_schema",
    "Verif.Props.C121_prefix"
   ],
   "note": ""
  },
  {
   "property": "C122",
   "status": "proved",
   "theorems": [
    "Verif.Props.C122_fields",
    "Verif.Props.C122_elements"
   ],
   "note": ""
  },
  {
   "property": "C123",
   "status": "proved",
   "theorems": [
    "Verif.Props.C123_two_decoders",
    "Verif.Props.C123_larger_decoder",
    "Verif.Props.C123_fresh_larger",
    "Verif.Props.C123_smaller_decoder"
   ],
   "note": ""
  },
  {
   "property": "C124",
   "status": "proved",
   "theorems": [
    "Verif.Props.C124_cost_of_pieces",
    "Verif.Props.C124_two_pieces",
    "Verif.Props.C124_order"
   ],
   "note": ""
  },
  {
   "property": "C125",
   "status": "proved",
   "theorems": [
    "Verif.Props.C125_updates_in_a_row",
    "Verif.Props.C125_smallest_and_last",
    "Verif.Props.C125_leaving_out",
    "Verif.Props.C125_decoder"
   ],
   "note": ""
  },
  {
   "property": "C126",
   "status": "proved",
   "theorems": [
    "Verif.Props.C126_table_free",
    "Verif.Props.C126_reset",
    "Verif.Props.C126_heals"
   ],
   "note": ""
  },
  {
   "property": "C127",
   "status": "proved",
   "theorems": [
    "Verif.Props.C127_chunks",
    "Verif.Props.C127_payloads",
    "Verif.Props.C127_malformed_join"
   ],
   "note": ""
  },
  {
   "property": "C128",
   "status": "proved",
   "theorems": [
    "Verif.Props.C128_canonical",
    "Verif.Props.C128_order"
   ],
   "note": "The first is a check of the whole table (257 symbols) by the kernel, the second holds for all texts."
  },
  {
   "property": "C129",
   "status": "proved",
   "theorems": [
    "Verif.Props.C129_final",
    "Verif.Props.C129_stays",
    "Verif.Props.C129_missing",
    "Verif.Props.C129_final_iff"
   ],
   "note": ""
  },
  {
   "property": "C130",
   "status": "proved",
   "theorems": [
    "Verif.Props.C130_finish",
    "Verif.Props.C130_settled"
   ],
   "note": ""
  },
  {
   "property": "C131",
   "status": "proved",
   "theorems": [
    "Verif.Props.C131_receive",
    "Verif.Props.C131_send"
   ],
   "note": "The peer is the specification Spec/HpackPeer (RFC 7541 sections 4 to 6 with the integer bound as parameter): five octets for what the decoder reads, six for what the encoder writes (C37: the decoder refuses six). Beside the theorems a connection in forms the encoder never uses."
  },
  {
   "property": "C132",
   "status": "proved",
   "theorems": [
    "Verif.Props.C132_receive",
    "Verif.Props.C132_send"
   ],
   "note": "The peer is the specification Spec/ProtosPeer. Beside the theorems a message in forms the encoder never uses (long keys, long lengths, -1 in five bytes)."
  },
  {
   "property": "C133",
   "status": "proved",
   "theorems": [
    "Verif.Props.C133_methods",
    "Verif.Props.C133_as_encode",
    "Verif.Props.C133_invalid_tag"
   ],
   "note": "The formats are written out in the statement with varint, zigzag, two's complement and little-endian of Spec/Protos. C133_as_encode holds by definition of the dispatch; its content is that the dispatch of encode picks the right method."
  },
  {
   "property": "C134",
   "status": "proved",
   "theorems": [
    "Verif.Props.C134_shortest",
    "Verif.Props.C134_small_table",
    "Verif.Props.C134_empty_value",
    "Verif.Props.C134_other_kind"
   ],
   "note": "The rival is any representation of the RFC 7541 specification with any of its wire forms, including over-long integers. C134_empty_value and C134_other_kind show that the conditions on the table length and on the kind of literal cannot be dropped."
  },
  {
   "property": "C135",
   "status": "proved",
   "theorems": [
    "Verif.Props.C135_order",
    "Verif.Props.C135_merge",
    "Verif.Props.C135_unknown_fields",
    "Verif.Props.C135_override"
   ],
   "note": "drain calls decode until it returns Ok(0) or an error. ofTag and lastOf (Spec/ProtosMerge) say what a reader finds under a tag."
  },
  {
   "property": "C136",
   "status": "proved",
   "theorems": [
    "Verif.Props.C136_stateless",
    "Verif.Props.C136_arrival",
    "Verif.Props.C136_pairs",
    "Verif.Props.C136_end_to_end"
   ],
   "note": "OpFits 0 says that strings have lengths a decoder can read and that size updates are to 0. An example shows that size 0 is needed."
  },
  {
   "property": "C137",
   "status": "proved",
   "theorems": [
    "Verif.Props.C137_room_enough",
    "Verif.Props.C137_larger_can_be_worse"
   ],
   "note": "needAll is the room a history asks for, from the calls alone. The second theorem is a finding (first-in-first-out eviction anomaly)."
  },
  {
   "property": "C138",
   "status": "proved",
   "theorems": [
    "Verif.Props.C138_renaming",
    "Verif.Props.C138_guess_completely",
    "Verif.Props.C138_sizes",
    "Verif.Props.C138_complete_guess_seen",
    "Verif.Props.C138_length_seen"
   ],
   "note": "The last two theorems show that the conditions on guesses and lengths are needed."
  },
  {
   "property": "C139",
   "status": "proved",
   "theorems": [
    "Verif.Props.C139_size",
    "Verif.Props.C139_key_size",
    "Verif.Props.C139_shortest",
    "Verif.Props.C139_negative_int32",
    "Verif.Props.C139_room"
   ],
   "note": "C139_negative_int32 is the exception in the bound of C139_shortest."
  },
  {
   "property": "C140",
   "status": "proved",
   "theorems": [
    "Verif.Props.C140_continues",
    "Verif.Props.C140_after",
    "Verif.Props.C140_like_new",
    "Verif.Props.C140_swallows",
    "Verif.Props.C140_cut_off",
    "Verif.Props.C140_example"
   ],
   "note": "C140_cut_off shows that the state of C140_swallows and C140_example is reachable."
  },
  {
   "property": "C141",
   "status": "proved",
   "theorems": [
    "Verif.Props.C141_huffman_before",
    "Verif.Props.C141_huffman_unnoticed",
    "Verif.Props.C141_huffman_noticed",
    "Verif.Props.C141_hpack_before",
    "Verif.Props.C141_hpack_value",
    "Verif.Props.C141_hpack_lasts",
    "Verif.Props.C141_protos_before",
    "Verif.Props.C141_protos_value"
   ],
   "note": "C141_hpack_lasts is the counterexample for headers that are stored."
  },
  {
   "property": "C142",
   "status": "proved",
   "theorems": [
    "Verif.Props.C142_zero_iff",
    "Verif.Props.C142_no_capacity",
    "Verif.Props.C142_stops_early",
    "Verif.Props.C142_few_updates"
   ],
   "note": "C142_stops_early and C142_no_capacity are findings; C142_few_updates says which loops are right."
  },
  {
   "property": "C143",
   "status": "proved",
   "theorems": [
    "Verif.Props.C143_within",
    "Verif.Props.C143_exceeded",
    "Verif.Props.C143_drop_rest"
   ],
   "note": "readLimited is user code around decode_exact; every result of decode is covered, also failures and panics."
  },
  {
   "property": "C144",
   "status": "proved",
   "theorems": [
    "Verif.Props.C144_same_or_refused",
    "Verif.Props.C144_memory",
    "Verif.Props.C144_why",
    "Verif.Props.C144_accepted",
    "Verif.Props.C144_own_peer",
    "Verif.Props.C144_not_a_size_limit"
   ],
   "note": "feedLimited is user code around decode; failures and panics of decode are covered by C144_same_or_refused."
  }
 ]
}