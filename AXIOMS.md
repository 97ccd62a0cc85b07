# Axioms each theorem depends on

Output of `#print axioms` for every theorem of MANIFEST.json, grouped by the set of axioms.

## none (10)

C32_rows, C35_comma_after_inner, C35_repeated_inner, C35_hash_sign, C36_capital_T, C67_parameters, C70_zero,
C70_negative, C71_first_bit_zero, C99_bn_ambiguous

## propext (37)

C02_violated, C05_overflow, C05_float_absolute, C33_claim_false, C35_claim_false, C45_claim_false, C55_old_fields,
C55_claim_false, C56_pathless, C66_constants, C70_claim_false, C73_range, C73_claim_false, C73_empty, C73_must,
C74_precision, C89_claim_false, C92_means, C94_values, C99_empty, C99_claim_false, C103_short, C107_shipped,
C109_nested_wrong, C111_wrapper_wrong, C111_struct_wrong, C111_claim_false, C112_claim_false, C112_names_wrong,
C116_claim_false, C118_account, C118_plain, C118_two_texts, C130_values, C131_claim_false, C136_fresh,
C136_meanwhile

## propext, Quot.sound (217)

C01_print, C01_parse_print, C01_print_parse, C01_injective, C03_read, C03_past_end, C03_remaining, C03_negative,
C04_decode, C04_chain, C05_deep_to_shallow, C05_position_partial, C05_panic, C05_any_registry, C06_raw,
C06_raw_only, C08_val, C08_add, C08_add64, C08_sub, C08_sub64, C08_mul, C08_mul64, C08_and, C08_or, C08_xor,
C08_bitwise64, C08_equals, C08_equals64, C08_isZero, C08_div_zero, C08_big, C08_big_range, C10_encode_uint_refuses,
C11_encode_text, C12_i8_wrong, C12_claim_false, C13_narrow_wrong, C13_claim_false, C14_length, C16_uint64_wrong,
C18_compactU32, C18_compact, C21_encode_none, C21_decode_some, C21_decode_none, C21_encode_some_partial, C21_bool,
C21_roundtrip_partial, C21_some_empty_lost, C21_decode_confused, C22_decode, C22_encode, C22_missing,
C22_refuses_other, C22_roundtrip_partial, C22_claim_false, C23_decode_data, C23_refuse_data, C23_decode_names,
C23_encode_name, C23_encode_names, C24_result_partial, C24_result_commas, C24_result_encode, C24_box,
C24_range_partial, C24_range_two, C24_claim_false, C25_encode, C25_refuse, C25_decode_partial, C25_zero_wrong,
C25_text_unchecked, C25_claim_false, C28_claim_false, C29_claim_false, C31_open_end, C33_overlap_order, C34_partial,
C34_distinct_names_partial, C34_lost_update, C34_claim_false, C37_key, C37_injective, C37_v12_calls, C37_v12_events,
C37_v14_calls, C37_v14_events, C40_returns_partial, C40_removed_wrong, C40_unknown_wrong, C40_claim_false,
C41_array_of_itself, C41_list_of_itself, C42_truncated, C43_signed85_written, C43_old_signer, C43_old_signer_ff,
C44_claim_false, C44_partial, C44_iteration_order, C44_same_length, C46_starts_with_index, C47_unknown_accepted,
C47_claim_false, C47_extrinsic_partial, C47_encode_partial, C47_encode_call_partial, C48_decode_immortal,
C48_decode_mortal, C48_encode, C49_decode_none, C49_decode_raw, C49_decode_hash, C49_decode_other, C50_decode_hash,
C50_decode_account, C50_encode_account, C50_injective, C51_maximum_refused, C52_u256_empty, C53_compact_silent_zero,
C53_u128_refuses_partial, C53_u256_refuses_partial, C53_signed_refuses_partial, C54_claim_false, C55_kept,
C55_stale, C57_decode, C57_case_only, C58_decode_stable, C58_decode_unique, C58_encode_unique, C58_lookup,
C61_other_byte, C61_partial, C61_claim_false, C62_partial, C62_generic_index, C62_lookup_32, C62_claim_false,
C63_no_metadata, C63_decode, C67_chunks, C67_reset, C68_claim_false, C68_absorbing, C69_any_case, C71_sub,
C71_max_min, C72_s256, C72_signed_round_trip, C73_decimal_signed, C76_asks, C59_covered, C59_claim_false,
C59_flags_wrong, C78_faithful, C85_lookup, C85_decode, C85_encode, C85_register, C85_unrelated_decode,
C85_unrelated_encode, C86_entries, C86_decode_partial, C86_encode_partial, C86_again, C86_claim_false, C87_covered,
C87_claim_false, C88_unsigned, C88_prefixed, C88_large, C88_claim_false, C90_xor, C90_copy, C90_other, C98_before12,
C99_text, C99_refused, C99_bytes, C102_name_of_name, C103_encode_refused, C107_partial, C107_sets,
C107_numbers_panic, C107_sets_empty, C107_rest_partial, C107_claim_false, C109_partial, C109_inner_wrong,
C113_claim_false, C115_signed_wrong, C115_signed_zero, C120_absent, C120_never, C120_list, C120_claim_false,
C121_limit, C122_list, C122_claim_false, C122_count, C122_tables, C123_overflow, C123_claim_false, C127_partial,
C127_two_variants, C127_data_first, C127_claim_false, C128_text_returned, C128_exact, C128_claim_false, C129_decode,
C130_exact, C130_claim_false

## propext, Classical.choice, Quot.sound (469)

C02_reverse_partial, C02_exact, C02_loses_middle, C02_reverse_slice, C03_schedule, C07_decode, C07_encode,
C07_roundtrip, C08_lsh, C08_rsh, C08_cmp, C08_cmp64, C08_quoRem, C08_quoRem64, C08_div, C08_div64, C08_bytes,
C09_print, C09_parse, C09_injective, C10_encode, C10_encode_refuses, C10_decode, C10_short, C10_roundtrip,
C11_decode, C11_encode, C11_roundtrip, C12_decode_partial, C12_minimum_wrong, C13_encode_partial,
C13_wide_big_endian, C13_wide_refuses, C13_roundtrip_partial, C13_wide_false, C14_encode, C14_decode,
C14_prefix_free, C14_unique, C14_roundtrip, C15_partial, C15_encodes_nothing, C15_claim_false, C16_decode,
C16_encode_partial, C16_roundtrip_partial, C16_wrong, C16_claim_false, C17_decode_exact, C17_roundtrip_partial,
C17_wrong, C17_claim_false, C19_decode, C19_roundtrip_partial, C19_text_0x_wrong, C19_string_wrong, C19_claim_false,
C20_encode, C20_encode_empty, C20_decode, C20_decode_empty, C20_refuse_partial, C20_huge_wrong, C20_claim_false,
C21_claim_false, C23_decode_struct, C23_decode_clike, C23_clike_last, C23_clike_unknown, C23_encode_data,
C23_encode_struct, C23_encode_clike, C23_roundtrip_partial, C23_claim_false, C24_wrapper, C24_map_partial,
C24_map_refuse_partial, C25_decode_u8, C25_encode_u8_partial, C26_decode_partial, C26_high_bit_wrong, C26_u8_wrong,
C26_u128_wrong, C26_claim_false, C27_decode, C27_encode_exact, C27_encode_groups, C27_empty_wrong,
C27_roundtrip_partial, C27_wrong, C27_claim_false, C28_partial, C29_prefix_free_partial, C29_encode_partial,
C29_sequence_partial, C30_partial, C30_one_partial, C30_claim_false, C31_partial, C31_covers,
C31_override_ignores_ranges, C31_claim_false, C32_partial, C32_unreachable, C32_claim_false, C33_partial,
C35_partial, C35_lookup_partial, C36_wrapper_partial, C36_namespace_partial, C36_namespace_generic_partial,
C36_namespace_in_argument, C36_claim_false, C37_v11_calls, C37_v11_events, C38_positions, C38_selects_partial,
C38_gap_accepted, C38_plain_values, C38_plain_unknown, C38_selects_fields, C38_claim_false, C39_position,
C39_decode, C39_refuse, C40_partial, C40_mentioned_partial, C40_self, C41_expand_partial, C41_partial,
C41_ranked_partial, C41_claim_false, C42_partial, C42_claim_false, C43_bare, C43_signed_partial,
C43_signed_old_partial, C43_signed84_false, C43_signed85_false, C43_claim_false, C45_decodes, C45_partial,
C45_unknown_refused, C46_reports, C46_own_last, C47_bare_refused, C49_encode_text, C49_encode_minus, C49_encode_hex,
C49_encode_hash, C49_encode_none, C49_roundtrip_partial, C49_raw_wrong, C49_claim_false, C50_encode_hash,
C50_roundtrip, C51_encode, C51_decode_partial, C51_maximum_wrong, C51_claim_false, C52_partial, C52_balance,
C52_u256_one_byte, C52_claim_false, C53_silent_zero, C53_claim_false, C54_partial, C54_printable, C55_partial,
C56_names, C56_partial, C56_injective, C56_claim_false, C57_encode, C60_moment, C60_compact, C60_partial,
C60_claim_false, C62_lookup_index, C63_extra, C63_encode_partial, C63_missing_partial, C63_claim_false,
C64_resolves, C64_partial, C64_claim_false, C65_unique, C65_determined, C65_nodup, C66_permutation, C66_four_rounds,
C67_digest, C67_reads, C67_keccak256, C67_write_after_read, C68_squeezing, C68_partial, C69_decode, C69_partial,
C69_claim_false, C70_partial, C70_base_after, C71_add, C71_mul, C71_first_bit, C72_padded, C72_read_bits, C72_byte,
C72_u256_bytes, C73_decimal64, C73_hex64, C73_decimal256, C73_hex256, C73_hex_signed, C73_round_trip64,
C73_round_trip_decimal, C73_negative, C73_partial, C74_signed, C74_unsigned_partial, C74_minimum,
C74_signed_partial, C74_signed_minimum, C74_claim_false, C75_any_order, C75_deterministic, C75_others, C76_exact,
C76_unknown, C76_claim_false, C76_partial, C76_unknown_panics, C59_partial, C77_reads, C77_lookup, C77_last,
C77_claim_false, C77_partial, C77_written, C78_reads, C78_reads15, C78_written, C79_partial, C79_claim_false,
C80_exact, C80_partial, C80_written, C80_claim_false, C81_v14_partial, C81_v15_partial, C81_claim_false, C82_exact,
C82_partial, C82_written, C82_claim_false, C83_error, C83_unsupported, C83_version, C83_old, C83_v14, C83_v15,
C83_claim_false, C84_error, C84_unsupported, C84_panic, C84_types, C84_same, C84_claim_false, C87_partial,
C87_after_contract, C87_after_v14, C87_after_v15, C88_bare, C88_partial, C89_partial, C89_same_hash, C90_same,
C90_digest, C90_keccak256, C91_permutation, C91_same, C92_registry_partial, C92_partial, C92_nested_tuple,
C92_named_tuple, C92_forcing, C92_claim_false, C93_words_partial, C93_partial, C93_values_partial, C93_config,
C93_claim_false, C94_partial, C94_destination, C94_transfer, C94_claim_false, C95_v14_partial, C95_v15_partial,
C95_claim_false, C96_v14_partial, C96_v15_partial, C96_claim_false, C97_partial, C97_claim_false, C98_exact,
C98_partial, C98_account, C98_claim_false, C99_partial, C99_odd, C99_bn, C100_partial, C100_boxed, C100_proposal,
C100_claim_false, C101_v14_partial, C101_v15_partial, C101_claim_false, C102_partial, C102_chain_partial,
C102_array_of_arrays, C102_claim_false, C103_exact, C103_fields_equal, C103_partial, C103_claim_false, C104_partial,
C104_list_partial, C104_root, C104_unknown_refused, C104_not_written, C104_claim_false, C105_item, C105_decode,
C105_partial, C105_claim_false, C106_aura, C106_partial, C106_secondary, C106_primary, C106_secondary_at_end,
C106_claim_false, C107_members, C107_number_texts, C108_classes, C108_versions, C108_partial, C108_without_partial,
C108_crab, C108_darwinia, C108_pangolin, C108_sora, C108_claim_false, C108_sora_values, C109_claim_false,
C110_partial, C110_name_partial, C110_argument_partial, C110_argument_wrong, C110_dropped_wrong, C110_tuple_partial,
C110_array_partial, C110_claim_false, C111_partial, C111_either, C111_lost, C112_exact, C112_partial, C113_reads,
C113_partial, C114_version8, C114_refused, C114_empty, C114_module7, C114_entry6, C114_module6,
C114_module6_refused, C114_partial, C114_claim_false, C115_partial, C115_handed_out, C115_u256_wrong,
C115_large_wrong, C115_extrinsic, C115_claim_false, C116_accepted, C116_canonical, C116_partial, C117_stable,
C117_partial, C117_injective, C117_signed_refused, C117_claim_false, C118_signed, C119_decoded, C119_exact,
C120_partial, C120_builtin, C121_amplified, C121_claim_false, C121_partial, C121_builtin, C122_partial, C122_events,
C123_partial, C123_portable, C123_cycle, C124_partial, C124_partial15, C124_after, C124_overflow, C124_claim_false,
C125_old, C125_tables, C125_newer, C125_overflow, C125_registry, C125, C126_partial, C126_exact, C126_endless,
C126_builtin, C126_extrinsic, C126_chain, C126_metadata, C126_claim_false, C127_decoded, C127_decoded_bytes,
C128_partial, C128_int, C129_partial, C129_total, C129_back, C129_hash_short, C129_claim_false, C130_fields,
C130_partial, C130_nonce, C131_same_order_partial, C131_partial, C131_shipped_partial, C131_without_partial,
C131_growth, C131_sora, C131_crab, C131_darwinia, C131_pangolin, C132_options, C132_ends, C133_registers,
C133_exact, C133_shipped, C133_sequences, C134_texts, C134_reads, C134_old, C134_types, C134_early, C134_error,
C135_exact, C135_decode, C135_encode, C135_earlier, C136_ends, C136_same, C136_register, C136_network, C136_decode,
C136_encode
