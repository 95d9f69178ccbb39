#!/usr/bin/env python3
"""Writes MANIFEST.json."""
import json, os
ROOT=os.path.join(os.path.dirname(os.path.abspath(__file__)),'..')
P='Verif.Props.'
C={}
def c(i,status,thms,note=''): C[i]=(status,[P+t for t in thms],note)
c('C01','proved',['C01_round_trip'])
c('C02','proved',['C02_speed_independent','C02_known_speeds'])
c('C03','proved',['C03_encode_bits','C03_encoding_unique'])
c('C04','proved',['C04_encode_length'])
c('C05','proved',['C05_injective'])
c('C06','proved',['C06_accept_iff','C06_accept_iff_listed'])
c('C07','proved',['C07_padding_exact','C07_padding','C07_padding_strict_false'],'Exactly nineteen paddings are accepted; the stricter RFC rule is refuted by a witness.')
c('C08','proved',['C08_eos_rejected'])
c('C09','proved',['C09_prefix_free','C09_complete'])
c('C10','proved',['C10_tables_are_flatten'])
c('C11','proved',['C11_table_is_parse','C11_columns_agree','C11_binary_column'])
c('C13','proved',['C13_appends_decoded','C13_decode_outcome'])
c('C14','proved',['C14_canonical'])
c('C15','proved',['C15_total','C15_buffers_bounded'])
c('C16','proved',['C16_expansion'])
c('C17','proved',['C17_integer_round_trip','C17_invalid_prefix'])
c('C18','proved',['C18_integer_too_large','C18_size_update_rejected','C18_string_rejected'])
c('C19','proved',['C19_integer_sound','C19_integer_complete'])
c('C20','proved',['C20_panics_exactly','C20_exact_panics','C20_ok_or_err','C20_never_panics_false'],'The exact set of panicking inputs; on all others the result is Ok or Err. That decoding never panics is refuted by witnesses.')
c('C21','proved',['C21_string_round_trip','C21_string_wire'])
c('C22','proved',['C22_size_accounting','C22_max_is_last','encoder_reachable','decoder_reachable'])
c('C23','proved',['C23_insert'])
c('C24','proved',['C24_resize','C24_raise'])
c('C25','proved',['C25_get','C25_static_length','C25_iter','C25_iter_calls','C25_iter_panics','C25_iter_wraps'])
c('C26','proved',['C26_find'])
c('C27','proved',['C27_encoder_refines','C27_choice_unique','C27_encoder_succeeds','C27_size_update'])
c('C28','proved',['C28_session','C28_session_fresh','C28_call_by_call','C28_meaning_unique'])
c('C29','proved',['C29_name_value','C29_indexed','C29_indexed_name'])
c('C30','proved',['C30_sensitive_iff','C30_sensitive_kept','C30_not_stored','C30_sensitive_kept_false'],'Exactly when the mark survives, for every state; that it always survives is refuted by a witness.')
c('C31','proved',['C31_accepts','C31_rfc_forms','C31_accepts_block'])
c('C32','proved',['C32_sound','C32_sound_block'])
c('C33','proved',['C33_failure','C33_untouched_false','C33_step_atomic'],'The documented claim that nothing is consumed or written on error is proved false; the stated property is proved.')
c('C34','proved',['C34_pieces'])
c('C35','proved',['C35_update_rejected','C35_history_bound'])
c('C36','proved',['C36_capacity','C36_room_for_all','C36_resume','C36_full_vector_grows','C36_updates_use_capacity'])
c('C37','proved',['C37_count','C37_count_not_consumed'])
c('C38','proved',['C38_flags'])
c('C39','proved',['C39_encoder_invalid_index','C39_decoder_invalid_index','C39_invalid_indices'])
c('C40','proved',['C40_encode_failures','C40_exactly'])
c('C41','proved',['C41_progress','C41_terminates'])
c('C62','proved',['C62_integer_shortest'])
c('C63','proved',['C63_encode_appends','C63_update_appends'])
c('C42','proved',['C42_varint_roundtrip'])
c('C43','proved',['C43_varint_size'])
c('C44','proved',['C44_varint_sound','C44_varint_complete','C44_varint_underflow'])
c('C45','proved',['C45_overlong','C45_overlong_not_rejected','C45_overlong_garbage'],'Exactly what happens in both build profiles; that such varints are rejected is refuted.')
c('C46','proved',['C46_zigzag_written','C46_zigzag_roundtrip'])
c('C47','proved',['C47_scalar_roundtrip','C48_field_roundtrip'])
c('C48','proved',['C48_field_roundtrip','C48_packed_roundtrip'])
c('C49','proved',['C49_key_roundtrip','C49_invalid_tag'])
c('C50','proved',['C50_key_accepted','C50_key_sound'])
c('C51','proved',['C51_message_roundtrip'])
c('C52','proved',['C52_one_call_iff','C52_until_zero','C52_stops_at_empty_field','C52_one_call_not_enough'],'Exactly when one call is enough and where it stops otherwise; calling until 0 reads everything.')
c('C53','proved',['C53_chunks','C53_any_two_chunkings','C53_any_schedule'])
c('C54','proved',['C54_nothing_lost','C54_accounting','C54_states','C54_any_schedule'])
c('C55','proved',['C55_failed_decode','C55_consumes_on_error'],'The documented claim that nothing is consumed on error is proved false; the stated property is proved.')
c('C56','proved',['C56_append','C56_append_all'])
c('C57','proved',['C57_failing_writer','C57_prefix'])
c('C58','proved',['C58_total','C58_release','C58_drain_ends','C58_panics_exactly'])
c('C59','proved',['C59_wire_type','C59_table'])
c('C60','proved',['C60_all_or_nothing','C60_fixed_truncation','C60_varint_truncation','C60_conversions'])
c('C61','proved',['C61_negative_int32'])
c('C64','proved',['C64_exactly_the_format','C64_unambiguous'])
c('C65','proved',['C65_zero_means_wait','C65_zero_exactly'])
c('C66','proved',['C66_scalar_conversions'])
c("C12","proved",["C12_flatten_total","C12_finds_symbol","C12_continues","C12_never_both","C12_row_count","C12_rows_computed","C12_too_many_rows","C12_thirty_bits","C12_fits_exactly","C12_lost_bits","C12_lost_bit_mixes_up"],"For every prefix-free list of codes that fit in 32 bits when filled up to whole chunks (all codes of 1..30 bits) and all five speeds; at most 256 rows. C12_too_many_rows shows that the row limit is real (row ids are truncated to u8), C12_lost_bits that the limit of 32 bits is.")
c('C67','proved',['C67_other_variant'])
c('C69','proved',['C69_natural_format','C69_natural_roundtrip'])
c('C70','proved',['C70_text_roundtrip','C70_not_text','C70_sound'])
c('C72','proved',['C72_nested_roundtrip'])
c('C73','proved',['C73_delivered','C73_varint_formats','C73_sint','C73_fixed'])
c('C78','proved',['C78_concat'])
c('C68','proved',['C68_defaults','C68_default_limit'])
c('C75','proved',['C75_output_bound','C75_history'])
c('C76','proved',['C76_parse_format'])
c('C79','proved',['C79_best_not_longer','C79_longer_iff','C79_empty_name','C79_many_entries'],'C79_longer_iff is the exact condition; the last two theorems show that the conditions on the name and on the number of entries are needed.')
c('C80','proved',['C80_reported_size','C80_not_the_limit'],'The documentation of the method is wrong; the property says what it does.')
c('C81','proved',['C81_exact_loop'])
c('C82','proved',['C82_methods'])
c('C85','proved',['C85_repeat_one_octet'])
c('C86','proved',['C86_output_size','C86_shortest','C86_reached','C86_update_size'])
c('C87','proved',['C87_resume','C87_chunks','C87_prefix'])
c('C88','proved',['C88_update_anywhere'])
c('C89','proved',['C89_limit_is_lazy','C89_higher_limit','C89_lower_limit'])
c('C90','proved',['C90_text_to_matrix'])
c('C91','proved',['C91_width64','C91_same_on_narrow','C91_length_truncated'])
c('C92','proved',['C92_accepts_exactly','C92_else_panics','C92_bits_only_counted'])
c('C83','proved',['C83_any_capacity','C83_capacity_one'],'decodeGranted: the same loop with an arbitrary capacity in each round')
c('C84','proved',['C84_ceil','C84_decode','C84_flatten'],'for every rounding that is monotone and exact on representable numbers')
c("C71","proved",["C71_prefix","C71_truncated","C71_truncated_loses","C71_concat","C71_concat_only","C71_join_decode"],"")
c("C93","proved",["C93_stream","C93_cut_off"],"")
c("C94","proved",["C94_refused_calls","C94_meaning_unique"],"")
c("C77","proved",["C77_connection"],"")
c("C95","proved",["C95_literal","C95_indexed_name","C95_best_found","C95_all_matter","C95_named","C95_received"],"")
c("C97","proved",["C97_stream","C97_cut_off","C97_crash","C97_fixed_buffer"],"")
c("C96","proved",["C96_decode","C96_decode_exact"],"")
c("C98","proved",["C98_decode","C98_decode_exact"],"")
c("C99","proved",["C99_signed32","C99_signed64","C99_fixed"],"")
c("C100","proved",["C100_no_trace","C100_non_interference","C100_literal_blind","C100_best_format_leaks"],"last theorem: the condition on BEST_FORMAT is needed")
c("C101","proved",["C101_errors_exactly","C101_exact_errors","C101_never_prefix"],"defects defined in Spec/HpackDefect.lean")
c("C102","proved",["C102_huffman_encoder","C102_hpack_encoder","C102_protos_encoder","C102_protos_decoder","C102_protos_primitives"],"")
c("C103","proved",["C103_pieces","C103_received","C103_retry_corrupts"],"last theorem: the documented retry is not safe")
c("C104","proved",["C104_relay","C104_chain"],"")
c("C74","proved",["C74_rewrite","C74_own_messages"],"")
c("C106","proved",["C106_lifetime","C106_insertions_only"],"")
c("C107","proved",["C107_panics_exactly","C107_safe_matrix","C107_debug","C107_release_agrees","C107_release_panics_exactly","C107_release_safe_matrix","C107_release_differs","C107_release_place","C107_release_found_iff","C107_release_one_bit"],"Codes are (Nat, Nat); in Rust the lengths are u8 and the values u32. Build with overflow checks.")
c("C105","proved",["C105_huffman_decode","C105_huffman_encode","C105_decode_integer","C105_decode_string","C105_encode_string","C105_table_resize","C105_table_insert","C105_hpack_decode","C105_hpack_decode_exact","C105_hpack_encode","C105_hpack_encode_resize","C105_release_ops_64","C105_release_ops_32","C105_debug_ops","C105_hpack_total_ops"],"")
c("C108","proved",["C108_same_result","C108_rounds","C108_linear","C108_speedup","C108_faster","C108_one_bit"],"counting copy of the reader (Huffman/Cost.lean); the counters are instrumentation, C108_same_result shows the rest is decode")
c("C109","proved",["C109_hpack_same_result","C109_hpack_moved","C109_hpack_bound","C109_hpack_reached","C109_protos_same_result","C109_protos_bound","C109_protos_reached"],"counting copies of the two decoders (Hpack/Cost.lean, Protos/Cost.lean); the cost of Vec::drain(0..k) is taken to be the number of elements behind the drained ones")
c("C110","proved",["C110_find_calls","C110_entries","C110_entries_reached","C110_find_bound","C110_evictions"],"Counted search (lazy iterator) and counted eviction; exact counts, bounds for every history, bound reached.")
c("C111","proved",["C111_same_result","C111_linear","C111_string","C111_no_strings","C111_literal","C111_incomplete_value","C111_retries"],"Decoder with a lookup counter, equal to the decoder; linear bound for one call, exact work per representation, quadratic work of octet-wise retries.")
c("C112","proved",["C112_decode_source","C112_flatten_example","C112_names_speed","C112_parse_source","C112_parse_panics","C112_parse_example"],"The example programs as functions to the text they print; read back by an independent lexer and reader of Rust array literals.")
c("C113","proved",["C113_texts_distinct","C113_hpack_decoder","C113_hpack_encoder","C113_huffman","C113_protos"],"the texts in ErrorTexts.lean")
c("C114","proved",["C114_literal_room","C114_indexed_room","C114_huffman_value_pays","C114_huffman_name_pays","C114_text_pays","C114_room_reached"],"")
c("C115","proved",["C115_verdict","C115_every_input","C115_one_description","C115_refuses_exactly"],"the panics: C58_panics_exactly")
c("C116","proved",["C116_state_after","C116_empties_table","C116_next_header_lost"],"")
c("C117","proved",["C117_loss","C117_lost_store"],"")
c("C118","proved",["C118_literal_once","C118_few_literals","C118_thrashing"],"")
c("C119","proved",["C119_unambiguous","C119_prefix"],"")
c("C120","proved",["C120_verdict","C120_exact_verdict","C120_unique_reading","C120_every_input","C120_one_description"],"")
c("C121","proved",["C121_unambiguous","C121_with_schema","C121_prefix"],"")
c("C122","proved",["C122_fields","C122_elements"],"")
c("C123","proved",["C123_two_decoders","C123_larger_decoder","C123_fresh_larger","C123_smaller_decoder"],"")
c("C124","proved",["C124_cost_of_pieces","C124_two_pieces","C124_order"],"")
c("C125","proved",["C125_updates_in_a_row","C125_smallest_and_last","C125_leaving_out","C125_decoder"],"")
c("C126","proved",["C126_table_free","C126_reset","C126_heals"],"")
c("C127","proved",["C127_chunks","C127_payloads","C127_malformed_join"],"")
c("C128","proved",["C128_canonical","C128_order"],"The first is a check of the whole table (257 symbols) by the kernel, the second holds for all texts.")
c("C129","proved",["C129_final","C129_stays","C129_missing","C129_final_iff"],"")
c("C130","proved",["C130_finish","C130_settled"],"")
c("C131","proved",["C131_receive","C131_send"],"The peer is the specification Spec/HpackPeer (RFC 7541 sections 4 to 6 with the integer bound as parameter): five octets for what the decoder reads, six for what the encoder writes (C37: the decoder refuses six). Beside the theorems a connection in forms the encoder never uses.")
c("C132","proved",["C132_receive","C132_send"],"The peer is the specification Spec/ProtosPeer. Beside the theorems a message in forms the encoder never uses (long keys, long lengths, -1 in five bytes).")
c("C133","proved",["C133_methods","C133_as_encode","C133_invalid_tag"],"The formats are written out in the statement with varint, zigzag, two's complement and little-endian of Spec/Protos. C133_as_encode holds by definition of the dispatch; its content is that the dispatch of encode picks the right method.")
c("C134","proved",["C134_shortest","C134_small_table","C134_empty_value","C134_other_kind"],"The rival is any representation of the RFC 7541 specification with any of its wire forms, including over-long integers. C134_empty_value and C134_other_kind show that the conditions on the table length and on the kind of literal cannot be dropped.")
c("C135","proved",["C135_order","C135_merge","C135_unknown_fields","C135_override"],"drain calls decode until it returns Ok(0) or an error. ofTag and lastOf (Spec/ProtosMerge) say what a reader finds under a tag.")
c("C136","proved",["C136_stateless","C136_arrival","C136_pairs","C136_end_to_end"],"OpFits 0 says that strings have lengths a decoder can read and that size updates are to 0. An example shows that size 0 is needed.")
c("C137","proved",["C137_room_enough","C137_larger_can_be_worse"],"needAll is the room a history asks for, from the calls alone. The second theorem is a finding (first-in-first-out eviction anomaly).")
c("C138","proved",["C138_renaming","C138_guess_completely","C138_sizes","C138_complete_guess_seen","C138_length_seen"],"The last two theorems show that the conditions on guesses and lengths are needed.")
c("C139","proved",["C139_size","C139_key_size","C139_shortest","C139_negative_int32","C139_room"],"C139_negative_int32 is the exception in the bound of C139_shortest.")
c("C140","proved",["C140_continues","C140_after","C140_like_new","C140_swallows","C140_cut_off","C140_example"],"C140_cut_off shows that the state of C140_swallows and C140_example is reachable.")
c("C141","proved",["C141_huffman_before","C141_huffman_unnoticed","C141_huffman_noticed","C141_hpack_before","C141_hpack_value","C141_hpack_lasts","C141_protos_before","C141_protos_value"],"C141_hpack_lasts is the counterexample for headers that are stored.")
c("C142","proved",["C142_zero_iff","C142_no_capacity","C142_stops_early","C142_few_updates"],"C142_stops_early and C142_no_capacity are findings; C142_few_updates says which loops are right.")
c("C143","proved",["C143_within","C143_exceeded","C143_drop_rest"],"readLimited is user code around decode_exact; every result of decode is covered, also failures and panics.")
c("C144","proved",["C144_same_or_refused","C144_memory","C144_why","C144_accepted","C144_own_peer","C144_not_a_size_limit"],"feedLimited is user code around decode; failures and panics of decode are covered by C144_same_or_refused.")
ids=[json.loads(l)['id'] for l in open(os.path.join(ROOT,'properties.jsonl'))]
claims=[]
for i in ids:
    if i in C:
        s,t,n=C[i]
        claims.append({'property':i,'status':s,'theorems':t,'note':n})
json.dump({'claims':claims},open(os.path.join(ROOT,'MANIFEST.json'),'w'),indent=1)
print(len(claims),'of',len(ids),'missing',[i for i in ids if i not in C])
