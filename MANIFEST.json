{
 "claims": [
  {
   "property": "C01",
   "status": "proved",
   "theorems": [
    "ScaleGo.C01_print",
    "ScaleGo.C01_parse_print",
    "ScaleGo.C01_print_parse",
    "ScaleGo.C01_injective"
   ],
   "note": ""
  },
  {
   "property": "C02",
   "status": "partial",
   "theorems": [
    "ScaleGo.C02_violated",
    "ScaleGo.C02_reverse_partial",
    "ScaleGo.C02_exact",
    "ScaleGo.C02_loses_middle",
    "ScaleGo.C02_reverse_slice"
   ],
   "note": "ReverseBytes loses the middle byte of odd-length input (C02_violated); proved for even lengths, exact behaviour for all lengths in C02_exact; types.Reverse is right for all lengths."
  },
  {
   "property": "C03",
   "status": "proved",
   "theorems": [
    "ScaleGo.C03_read",
    "ScaleGo.C03_schedule",
    "ScaleGo.C03_past_end",
    "ScaleGo.C03_remaining",
    "ScaleGo.C03_negative"
   ],
   "note": ""
  },
  {
   "property": "C04",
   "status": "proved",
   "theorems": [
    "ScaleGo.C04_decode",
    "ScaleGo.C04_chain"
   ],
   "note": ""
  },
  {
   "property": "C05",
   "status": "partial",
   "theorems": [
    "ScaleGo.C05_deep_to_shallow",
    "ScaleGo.C05_position_partial",
    "ScaleGo.C05_panic",
    "ScaleGo.C05_any_registry",
    "ScaleGo.C05_overflow",
    "ScaleGo.C05_float_absolute"
   ],
   "note": "Same value and consumption behind any prefix, except that the deep decode may panic when offset+length overflows int64; C05_overflow proves that this exception is real. C05_any_registry: in any registry, for values that are decoded even when floats and lookup sources refuse."
  },
  {
   "property": "C06",
   "status": "proved",
   "theorems": [
    "ScaleGo.C06_raw",
    "ScaleGo.C06_raw_only"
   ],
   "note": ""
  },
  {
   "property": "C07",
   "status": "proved",
   "theorems": [
    "ScaleGo.C07_decode",
    "ScaleGo.C07_encode",
    "ScaleGo.C07_roundtrip"
   ],
   "note": ""
  },
  {
   "property": "C08",
   "status": "proved",
   "theorems": [
    "ScaleGo.C08_val",
    "ScaleGo.C08_add",
    "ScaleGo.C08_add64",
    "ScaleGo.C08_sub",
    "ScaleGo.C08_sub64",
    "ScaleGo.C08_mul",
    "ScaleGo.C08_mul64",
    "ScaleGo.C08_lsh",
    "ScaleGo.C08_rsh",
    "ScaleGo.C08_and",
    "ScaleGo.C08_or",
    "ScaleGo.C08_xor",
    "ScaleGo.C08_bitwise64",
    "ScaleGo.C08_cmp",
    "ScaleGo.C08_cmp64",
    "ScaleGo.C08_equals",
    "ScaleGo.C08_equals64",
    "ScaleGo.C08_isZero",
    "ScaleGo.C08_quoRem",
    "ScaleGo.C08_quoRem64",
    "ScaleGo.C08_div",
    "ScaleGo.C08_div64",
    "ScaleGo.C08_div_zero",
    "ScaleGo.C08_bytes",
    "ScaleGo.C08_big",
    "ScaleGo.C08_big_range"
   ],
   "note": ""
  },
  {
   "property": "C09",
   "status": "proved",
   "theorems": [
    "ScaleGo.C09_print",
    "ScaleGo.C09_parse",
    "ScaleGo.C09_injective"
   ],
   "note": ""
  },
  {
   "property": "C10",
   "status": "proved",
   "theorems": [
    "ScaleGo.C10_encode",
    "ScaleGo.C10_encode_refuses",
    "ScaleGo.C10_encode_uint_refuses",
    "ScaleGo.C10_decode",
    "ScaleGo.C10_short",
    "ScaleGo.C10_roundtrip"
   ],
   "note": ""
  },
  {
   "property": "C11",
   "status": "proved",
   "theorems": [
    "ScaleGo.C11_decode",
    "ScaleGo.C11_encode",
    "ScaleGo.C11_roundtrip",
    "ScaleGo.C11_encode_text"
   ],
   "note": ""
  },
  {
   "property": "C12",
   "status": "partial",
   "theorems": [
    "ScaleGo.C12_decode_partial",
    "ScaleGo.C12_minimum_wrong",
    "ScaleGo.C12_i8_wrong",
    "ScaleGo.C12_claim_false"
   ],
   "note": "False of the code (C12_claim_false): I8 is decoded unsigned and the minimum of each signed type is wrong. C12_decode_partial covers all other widths/values; C12_minimum_wrong and C12_i8_wrong give the exact wrong results."
  },
  {
   "property": "C13",
   "status": "partial",
   "theorems": [
    "ScaleGo.C13_encode_partial",
    "ScaleGo.C13_narrow_wrong",
    "ScaleGo.C13_wide_big_endian",
    "ScaleGo.C13_wide_refuses",
    "ScaleGo.C13_roundtrip_partial",
    "ScaleGo.C13_claim_false",
    "ScaleGo.C13_wide_false"
   ],
   "note": "False of the code (C13_claim_false, C13_wide_false): 128/256-bit signed values are written big-endian and narrow values are zero-extended. Exact behaviour in C13_narrow_wrong, C13_wide_big_endian, C13_wide_refuses."
  },
  {
   "property": "C14",
   "status": "proved",
   "theorems": [
    "ScaleGo.C14_encode",
    "ScaleGo.C14_decode",
    "ScaleGo.C14_length",
    "ScaleGo.C14_prefix_free",
    "ScaleGo.C14_unique",
    "ScaleGo.C14_roundtrip"
   ],
   "note": ""
  },
  {
   "property": "C15",
   "status": "partial",
   "theorems": [
    "ScaleGo.C15_partial",
    "ScaleGo.C15_encodes_nothing",
    "ScaleGo.C15_claim_false"
   ],
   "note": "False of the code (C15_claim_false): CompactU32 encodes n >= 2^30 to nothing (C15_encodes_nothing); proved below 2^30."
  },
  {
   "property": "C16",
   "status": "partial",
   "theorems": [
    "ScaleGo.C16_decode",
    "ScaleGo.C16_encode_partial",
    "ScaleGo.C16_roundtrip_partial",
    "ScaleGo.C16_wrong",
    "ScaleGo.C16_uint64_wrong",
    "ScaleGo.C16_claim_false"
   ],
   "note": "False of the code (C16_claim_false): the compact form is chosen by the low 64 bits of the number, so n >= 2^63 may get one to four bytes. C16_encode_partial and C16_wrong together decide every input; decoding is proved for all values except the greatest balance."
  },
  {
   "property": "C17",
   "status": "partial",
   "theorems": [
    "ScaleGo.C17_decode_exact",
    "ScaleGo.C17_roundtrip_partial",
    "ScaleGo.C17_wrong",
    "ScaleGo.C17_claim_false"
   ],
   "note": "False of the code (C17_claim_false): Compact<u8>/Compact<u16> of a value that needs more than its own width of compact bytes is decoded from a truncated prefix. C17_decode_exact gives the result for every value, C17_roundtrip_partial the values that round-trip, C17_wrong the others."
  },
  {
   "property": "C18",
   "status": "proved",
   "theorems": [
    "ScaleGo.C18_compactU32",
    "ScaleGo.C18_compact"
   ],
   "note": ""
  },
  {
   "property": "C19",
   "status": "partial",
   "theorems": [
    "ScaleGo.C19_decode",
    "ScaleGo.C19_roundtrip_partial",
    "ScaleGo.C19_text_0x_wrong",
    "ScaleGo.C19_string_wrong",
    "ScaleGo.C19_claim_false"
   ],
   "note": "False of the code (C19_claim_false): text that itself starts with 0x is re-encoded as hex (C19_text_0x_wrong) and String does not re-encode non-text (C19_string_wrong). Decoding proved for all byte strings, round trip for the rest."
  },
  {
   "property": "C20",
   "status": "partial",
   "theorems": [
    "ScaleGo.C20_encode",
    "ScaleGo.C20_encode_empty",
    "ScaleGo.C20_decode",
    "ScaleGo.C20_decode_empty",
    "ScaleGo.C20_refuse_partial",
    "ScaleGo.C20_huge_wrong",
    "ScaleGo.C20_claim_false"
   ],
   "note": "False of the code (C20_claim_false): a count of 2^63 or more wraps negative and decodes to an empty vector (C20_huge_wrong). Encode/decode proved for all element types and lists, refusal for counts below 2^63."
  },
  {
   "property": "C21",
   "status": "partial",
   "theorems": [
    "ScaleGo.C21_encode_none",
    "ScaleGo.C21_decode_some",
    "ScaleGo.C21_decode_none",
    "ScaleGo.C21_encode_some_partial",
    "ScaleGo.C21_bool",
    "ScaleGo.C21_roundtrip_partial",
    "ScaleGo.C21_some_empty_lost",
    "ScaleGo.C21_decode_confused",
    "ScaleGo.C21_claim_false"
   ],
   "note": "False of the code (C21_claim_false): Some of an empty string/nil encodes as None (C21_some_empty_lost). Decode proved for all values; C21_encode_some_partial for values the encoder does not take for None."
  },
  {
   "property": "C22",
   "status": "partial",
   "theorems": [
    "ScaleGo.C22_decode",
    "ScaleGo.C22_encode",
    "ScaleGo.C22_missing",
    "ScaleGo.C22_refuses_other",
    "ScaleGo.C22_roundtrip_partial",
    "ScaleGo.C22_claim_false"
   ],
   "note": "False of the code (C22_claim_false): a missing field is not refused but encoded as nil (C22_missing). Encode/decode in declared order and irrelevance of other entries proved."
  },
  {
   "property": "C23",
   "status": "partial",
   "theorems": [
    "ScaleGo.C23_decode_data",
    "ScaleGo.C23_decode_struct",
    "ScaleGo.C23_refuse_data",
    "ScaleGo.C23_decode_clike",
    "ScaleGo.C23_clike_last",
    "ScaleGo.C23_clike_unknown",
    "ScaleGo.C23_decode_names",
    "ScaleGo.C23_encode_data",
    "ScaleGo.C23_encode_struct",
    "ScaleGo.C23_encode_name",
    "ScaleGo.C23_encode_clike",
    "ScaleGo.C23_encode_names",
    "ScaleGo.C23_roundtrip_partial",
    "ScaleGo.C23_claim_false"
   ],
   "note": "False of the code (C23_claim_false): an unknown number of a C-like enum decodes to the empty name instead of being refused (C23_clike_unknown). All else proved, including struct variants and name lists."
  },
  {
   "property": "C24",
   "status": "partial",
   "theorems": [
    "ScaleGo.C24_result_partial",
    "ScaleGo.C24_result_commas",
    "ScaleGo.C24_result_encode",
    "ScaleGo.C24_box",
    "ScaleGo.C24_wrapper",
    "ScaleGo.C24_range_partial",
    "ScaleGo.C24_range_two",
    "ScaleGo.C24_map_partial",
    "ScaleGo.C24_map_refuse_partial",
    "ScaleGo.C24_claim_false"
   ],
   "note": "The full claim is false of the code (C24_claim_false: Result<(u8,u8),u8> refuses everything because the argument text is split at every comma). Proved: Result whose argument text has exactly two comma pieces, Box, wrappers, ranges, BTreeMap with exactly two pieces; C24_result_commas gives the exact behaviour in every other case."
  },
  {
   "property": "C25",
   "status": "partial",
   "theorems": [
    "ScaleGo.C25_encode",
    "ScaleGo.C25_refuse",
    "ScaleGo.C25_decode_partial",
    "ScaleGo.C25_decode_u8",
    "ScaleGo.C25_encode_u8_partial",
    "ScaleGo.C25_zero_wrong",
    "ScaleGo.C25_text_unchecked",
    "ScaleGo.C25_claim_false"
   ],
   "note": "The full claim is false of the code (C25_claim_false). Proved: encode and refusal for all lengths; decode for n > 0 and for u8 elements; C25_zero_wrong shows that [T;0] consumes an element; C25_text_unchecked shows the text form of [u8;n] is not length checked."
  },
  {
   "property": "C26",
   "status": "partial",
   "theorems": [
    "ScaleGo.C26_decode_partial",
    "ScaleGo.C26_high_bit_wrong",
    "ScaleGo.C26_u8_wrong",
    "ScaleGo.C26_u128_wrong",
    "ScaleGo.C26_claim_false"
   ],
   "note": "The full claim is false of the code (C26_claim_false). Proved for 16, 32 and 64 bit sets with the value below 2^63; C26_high_bit_wrong, C26_u8_wrong and C26_u128_wrong give the exact wrong results for the rest."
  },
  {
   "property": "C27",
   "status": "partial",
   "theorems": [
    "ScaleGo.C27_decode",
    "ScaleGo.C27_encode_exact",
    "ScaleGo.C27_encode_groups",
    "ScaleGo.C27_empty_wrong",
    "ScaleGo.C27_roundtrip_partial",
    "ScaleGo.C27_wrong",
    "ScaleGo.C27_claim_false"
   ],
   "note": "The full claim is false of the code (C27_claim_false). Decoding is right for every bit count (C27_decode); encoding writes the byte count instead of the bit count, so only a one-bit vector round-trips (C27_encode_exact, C27_wrong, C27_roundtrip_partial)."
  },
  {
   "property": "C28",
   "status": "partial",
   "theorems": [
    "ScaleGo.C28_partial",
    "ScaleGo.C28_claim_false"
   ],
   "note": "The full claim is false of the code (Some of an empty byte string is encoded as None, C28_claim_false). Proved for every registry, nesting depth and value built from the layers listed in Supported."
  },
  {
   "property": "C29",
   "status": "partial",
   "theorems": [
    "ScaleGo.C29_prefix_free_partial",
    "ScaleGo.C29_encode_partial",
    "ScaleGo.C29_sequence_partial",
    "ScaleGo.C29_claim_false"
   ],
   "note": "The full claim is false of the code (same witness as C28, C29_claim_false). Proved for every type built from the layers listed in C28 Supported, including sequences of values back to back."
  },
  {
   "property": "C30",
   "status": "partial",
   "theorems": [
    "ScaleGo.C30_partial",
    "ScaleGo.C30_one_partial",
    "ScaleGo.C30_claim_false"
   ],
   "note": "Proved for every plain name that is not overridden and does not begin with the spelling BoundedBTreeSet; such names are renamed by ConvertType before the lookup, so the full claim is refuted (C30_claim_false)."
  },
  {
   "property": "C31",
   "status": "partial",
   "theorems": [
    "ScaleGo.C31_partial",
    "ScaleGo.C31_covers",
    "ScaleGo.C31_open_end",
    "ScaleGo.C31_override_ignores_ranges",
    "ScaleGo.C31_claim_false"
   ],
   "note": "Proved for ranges whose end is written out and for open ranges up to spec version 99999999; the code reads an open end as 99999999, so the full claim is refuted (C31_claim_false). Names in the override table ignore ranges (C31_override_ignores_ranges)."
  },
  {
   "property": "C32",
   "status": "partial",
   "theorems": [
    "ScaleGo.C32_partial",
    "ScaleGo.C32_rows",
    "ScaleGo.C32_unreachable",
    "ScaleGo.C32_claim_false"
   ],
   "note": "Proved for the override rows whose names are lower case; rows stored under mixed-case keys can never be reached (C32_unreachable, C32_claim_false)."
  },
  {
   "property": "C33",
   "status": "partial",
   "theorems": [
    "ScaleGo.C33_partial",
    "ScaleGo.C33_claim_false",
    "ScaleGo.C33_overlap_order"
   ],
   "note": "Proved when no registered alias refers to another name of the same batch (aliases of composed texts that mention such names are covered) and special ranges do not overlap; aliases of types defined in the same batch depend on the order of iteration (C33_claim_false)."
  },
  {
   "property": "C34",
   "status": "partial",
   "theorems": [
    "ScaleGo.C34_partial",
    "ScaleGo.C34_distinct_names_partial",
    "ScaleGo.C34_lost_update",
    "ScaleGo.C34_claim_false"
   ],
   "note": "Proved for interleavings in which every special-range update runs uninterrupted and for updates of distinct names; a concrete interleaving loses an update (C34_lost_update, C34_claim_false)."
  },
  {
   "property": "C35",
   "status": "partial",
   "theorems": [
    "ScaleGo.C35_partial",
    "ScaleGo.C35_lookup_partial",
    "ScaleGo.C35_comma_after_inner",
    "ScaleGo.C35_repeated_inner",
    "ScaleGo.C35_hash_sign",
    "ScaleGo.C35_claim_false"
   ],
   "note": "Proved for any number of members of any nesting in which a bracket pair with commas directly inside contains no further brackets; a comma after an inner pair, a repeated inner pair and a # sign are split or rewritten wrongly (C35_claim_false, C35_repeated_inner, C35_hash_sign)."
  },
  {
   "property": "C36",
   "status": "partial",
   "theorems": [
    "ScaleGo.C36_wrapper_partial",
    "ScaleGo.C36_namespace_partial",
    "ScaleGo.C36_namespace_generic_partial",
    "ScaleGo.C36_namespace_in_argument",
    "ScaleGo.C36_capital_T",
    "ScaleGo.C36_claim_false"
   ],
   "note": "The wrapper part is proved for every argument text free of the rewritten abbreviations; namespaces are proved for paths without T:: and arguments without colons. T:: is dropped inside longer segments (C36_claim_false) and a namespaced argument of a namespaced generic text is cut (C36_namespace_in_argument)."
  },
  {
   "property": "C37",
   "status": "proved",
   "theorems": [
    "ScaleGo.C37_key",
    "ScaleGo.C37_injective",
    "ScaleGo.C37_v12_calls",
    "ScaleGo.C37_v12_events",
    "ScaleGo.C37_v14_calls",
    "ScaleGo.C37_v14_events",
    "ScaleGo.C37_v11_calls",
    "ScaleGo.C37_v11_events"
   ],
   "note": "For the tables the code builds for metadata versions 9-11, 12-13 and 14-15: keys are the hex text of the two index bytes, distinct pairs have distinct keys, and a two-byte lookup finds exactly the call/event the metadata puts there (module indices, and for 14-15 variant indices, distinct). Versions 6-8 are not registered as decoders, so no table is ever built from them."
  },
  {
   "property": "C38",
   "status": "partial",
   "theorems": [
    "ScaleGo.C38_positions",
    "ScaleGo.C38_selects_partial",
    "ScaleGo.C38_gap_accepted",
    "ScaleGo.C38_plain_values",
    "ScaleGo.C38_plain_unknown",
    "ScaleGo.C38_selects_fields",
    "ScaleGo.C38_claim_false"
   ],
   "note": "Variants are positioned by index whatever their order (C38_positions); byte i followed by the payload decodes as the variant with index i (C38_selects_partial for one field or none, C38_selects_fields for several, C38_plain_values without fields). Missing: placeholders are reachable, a byte that no variant has decodes as {empty: nil} or as the empty name (C38_claim_false, C38_gap_accepted, C38_plain_unknown). The enum's name must be new and not clash with other names (NewEnum)."
  },
  {
   "property": "C39",
   "status": "proved",
   "theorems": [
    "ScaleGo.C39_position",
    "ScaleGo.C39_decode",
    "ScaleGo.C39_refuse"
   ],
   "note": "Position of every module's variant, fillers in gaps, nothing beyond the largest index; decoding an index byte selects the module, larger bytes are refused."
  },
  {
   "property": "C40",
   "status": "partial",
   "theorems": [
    "ScaleGo.C40_partial",
    "ScaleGo.C40_mentioned_partial",
    "ScaleGo.C40_self",
    "ScaleGo.C40_returns_partial",
    "ScaleGo.C40_removed_wrong",
    "ScaleGo.C40_unknown_wrong",
    "ScaleGo.C40_claim_false"
   ],
   "note": "Claim refuted: modules, calls and events only in the old metadata are never reported, storage is not compared, and two unknown types compare as equal. Proved: exact contents of the result (new modules, new and changed calls and events), nothing for metadata against itself, and when the comparison returns."
  },
  {
   "property": "C41",
   "status": "partial",
   "theorems": [
    "ScaleGo.C41_expand_partial",
    "ScaleGo.C41_partial",
    "ScaleGo.C41_ranked_partial",
    "ScaleGo.C41_array_of_itself",
    "ScaleGo.C41_list_of_itself",
    "ScaleGo.C41_claim_false"
   ],
   "note": "Proved for types in which every cycle passes through a layer that resets or is counted by the recursion limit; types that contain themselves through an array, map or Result do not terminate (C41_claim_false)."
  },
  {
   "property": "C42",
   "status": "partial",
   "theorems": [
    "ScaleGo.C42_partial",
    "ScaleGo.C42_truncated",
    "ScaleGo.C42_claim_false"
   ],
   "note": "C42_partial: buffers starting with a complete compact number below 2^64. C42_truncated: a buffer ending inside the number is never decoded. C42_claim_false: a number of 2^64 or more is compared by its low 64 bits only, so it can be accepted although it does not match."
  },
  {
   "property": "C43",
   "status": "partial",
   "theorems": [
    "ScaleGo.C43_bare",
    "ScaleGo.C43_signed_partial",
    "ScaleGo.C43_signed_old_partial",
    "ScaleGo.C43_signed84_false",
    "ScaleGo.C43_signed85_false",
    "ScaleGo.C43_claim_false",
    "ScaleGo.C43_signed85_written",
    "ScaleGo.C43_old_signer",
    "ScaleGo.C43_old_signer_ff"
   ],
   "note": "False in full: a signed version 4 extrinsic does not round-trip when the metadata lists another data-carrying extension before the payment one (C43_signed84_false: tip 1 comes back as 2), and version 5 omits the signed part (C43_signed85_false, C43_signed85_written). C43_bare proves the claim for all unsigned extrinsics of versions 4 and 5. C43_signed_partial proves version 84 with metadata 14 or later when the payment extension comes first (or is absent with tip 0) and the extension map is iterated in metadata order. C43_signed_old_partial covers metadata before 14 when no supplied extension has a type in the metadata; there the signer is written as AccountId and read as Address, which works unless the account begins with ff (C43_old_signer, C43_old_signer_ff)."
  },
  {
   "property": "C44",
   "status": "partial",
   "theorems": [
    "ScaleGo.C44_claim_false",
    "ScaleGo.C44_partial",
    "ScaleGo.C44_iteration_order",
    "ScaleGo.C44_same_length"
   ],
   "note": "The full claim is false (C44_claim_false): the extension map is iterated in any order, and two listed extensions give different bytes. C44_partial proves order independence when at most one supplied extension is listed in the metadata or the version is not 84. C44_iteration_order gives the exact bytes for any order, C44_same_length shows the length does not depend on it."
  },
  {
   "property": "C45",
   "status": "partial",
   "theorems": [
    "ScaleGo.C45_decodes",
    "ScaleGo.C45_partial",
    "ScaleGo.C45_claim_false",
    "ScaleGo.C45_unknown_refused"
   ],
   "note": "C45_decodes: count and well-formed records decode to exactly these events. C45_partial: for any accepted buffer announcing n < 2^63 events there are n records numbered 0.., each starting where the previous one stopped, with known indices. C45_unknown_refused: unknown index panics. C45_claim_false: counts of 2^63 or more wrap around (2^64 announced events give none)."
  },
  {
   "property": "C46",
   "status": "proved",
   "theorems": [
    "ScaleGo.C46_reports",
    "ScaleGo.C46_own_last",
    "ScaleGo.C46_starts_with_index"
   ],
   "note": "Under the hypothesis that field names within a struct or variant are distinct (otherwise a later field overwrites an earlier one in the map and its calls are reported but not part of the value); calls inside map keys are reported too."
  },
  {
   "property": "C47",
   "status": "partial",
   "theorems": [
    "ScaleGo.C47_unknown_accepted",
    "ScaleGo.C47_claim_false",
    "ScaleGo.C47_extrinsic_partial",
    "ScaleGo.C47_bare_refused",
    "ScaleGo.C47_encode_partial",
    "ScaleGo.C47_encode_call_partial"
   ],
   "note": "The claim is false for Call.Process: an unknown index is decoded as an empty call consuming two bytes (C47_unknown_accepted, C47_claim_false). Refusal is proved for the extrinsic decoder, the extrinsic encoder and the call encoder."
  },
  {
   "property": "C48",
   "status": "proved",
   "theorems": [
    "ScaleGo.C48_decode_immortal",
    "ScaleGo.C48_decode_mortal",
    "ScaleGo.C48_encode"
   ],
   "note": ""
  },
  {
   "property": "C49",
   "status": "partial",
   "theorems": [
    "ScaleGo.C49_decode_none",
    "ScaleGo.C49_decode_raw",
    "ScaleGo.C49_decode_hash",
    "ScaleGo.C49_decode_other",
    "ScaleGo.C49_encode_text",
    "ScaleGo.C49_encode_minus",
    "ScaleGo.C49_encode_hex",
    "ScaleGo.C49_encode_hash",
    "ScaleGo.C49_encode_none",
    "ScaleGo.C49_roundtrip_partial",
    "ScaleGo.C49_raw_wrong",
    "ScaleGo.C49_claim_false"
   ],
   "note": "False as stated: raw data of two or more bytes that is not UTF-8 decodes to hex text, which is written back as that text (C49_claim_false, C49_raw_wrong). Proved for None, the hash variants, UTF-8 raw data and single raw bytes; tags from 38 on decode to nil and consume only the tag."
  },
  {
   "property": "C50",
   "status": "proved",
   "theorems": [
    "ScaleGo.C50_decode_hash",
    "ScaleGo.C50_decode_account",
    "ScaleGo.C50_encode_hash",
    "ScaleGo.C50_encode_account",
    "ScaleGo.C50_roundtrip",
    "ScaleGo.C50_injective"
   ],
   "note": ""
  },
  {
   "property": "C51",
   "status": "partial",
   "theorems": [
    "ScaleGo.C51_encode",
    "ScaleGo.C51_decode_partial",
    "ScaleGo.C51_maximum_wrong",
    "ScaleGo.C51_maximum_refused",
    "ScaleGo.C51_claim_false"
   ],
   "note": "False of the code (C51_claim_false): a balance of 2^128-1 is decoded wrongly (C51_maximum_wrong) and refused (C51_maximum_refused); all others proved."
  },
  {
   "property": "C52",
   "status": "partial",
   "theorems": [
    "ScaleGo.C52_partial",
    "ScaleGo.C52_balance",
    "ScaleGo.C52_u256_one_byte",
    "ScaleGo.C52_u256_empty",
    "ScaleGo.C52_claim_false"
   ],
   "note": "False of the code (C52_claim_false): truncated U256 input of one or zero bytes misreads (C52_u256_one_byte, C52_u256_empty); all other widths and lengths proved."
  },
  {
   "property": "C53",
   "status": "partial",
   "theorems": [
    "ScaleGo.C53_silent_zero",
    "ScaleGo.C53_compact_silent_zero",
    "ScaleGo.C53_claim_false",
    "ScaleGo.C53_u128_refuses_partial",
    "ScaleGo.C53_u256_refuses_partial",
    "ScaleGo.C53_signed_refuses_partial"
   ],
   "note": "False of the code (C53_claim_false): wrong Go types silently encode as zero (C53_silent_zero, C53_compact_silent_zero). Refusals that do hold are proved."
  },
  {
   "property": "C54",
   "status": "partial",
   "theorems": [
    "ScaleGo.C54_partial",
    "ScaleGo.C54_printable",
    "ScaleGo.C54_claim_false"
   ],
   "note": "False as stated: a payload of printable characters is read as hex text instead (C54_claim_false, C54_printable). Proved for every payload containing an unprintable byte."
  },
  {
   "property": "C55",
   "status": "partial",
   "theorems": [
    "ScaleGo.C55_kept",
    "ScaleGo.C55_stale",
    "ScaleGo.C55_partial",
    "ScaleGo.C55_old_fields",
    "ScaleGo.C55_claim_false"
   ],
   "note": "The full claim (C55Claim) is refuted: a struct of newer metadata is decoded with the fields of the earlier one (C55_old_fields, C55_claim_false). Proved for every registry: a recorded name keeps its earlier definition, whatever the new metadata says (C55_kept, C55_stale); and a struct of primitive fields whose name neither the start registry nor the earlier metadata uses is looked up with the fields of the new metadata (C55_partial)."
  },
  {
   "property": "C56",
   "status": "partial",
   "theorems": [
    "ScaleGo.C56_names",
    "ScaleGo.C56_partial",
    "ScaleGo.C56_injective",
    "ScaleGo.C56_pathless",
    "ScaleGo.C56_claim_false"
   ],
   "note": "The full claim (C56Claim) is refuted: types without a path are all registered under the empty name (C56_pathless, C56_claim_false). Proved for every registry: the name of each struct or enum is its path, followed by '@' and the id exactly when the path is shared (C56_names); two types sharing a non-empty path get names that differ even up to letter case (C56_partial); with paths free of ':' and '@' and distinct up to case all such names are distinct (C56_injective)."
  },
  {
   "property": "C57",
   "status": "proved",
   "theorems": [
    "ScaleGo.C57_decode",
    "ScaleGo.C57_case_only",
    "ScaleGo.C57_encode"
   ],
   "note": ""
  },
  {
   "property": "C58",
   "status": "proved",
   "theorems": [
    "ScaleGo.C58_decode_stable",
    "ScaleGo.C58_decode_unique",
    "ScaleGo.C58_encode_unique",
    "ScaleGo.C58_lookup"
   ],
   "note": ""
  },
  {
   "property": "C60",
   "status": "partial",
   "theorems": [
    "ScaleGo.C60_moment",
    "ScaleGo.C60_compact",
    "ScaleGo.C60_partial",
    "ScaleGo.C60_claim_false"
   ],
   "note": "Exact result for every 64-bit and compact timestamp; n from 1 to 10^10 is returned unchanged and compact values from 2^63 on come out negative, so the full claim is refuted (C60_claim_false)."
  },
  {
   "property": "C61",
   "status": "partial",
   "theorems": [
    "ScaleGo.C61_other_byte",
    "ScaleGo.C61_partial",
    "ScaleGo.C61_claim_false"
   ],
   "note": "00 and 01 are read and written correctly; every other byte is read as false (C61_other_byte), so the refusal part is refuted."
  },
  {
   "property": "C62",
   "status": "partial",
   "theorems": [
    "ScaleGo.C62_partial",
    "ScaleGo.C62_generic_index",
    "ScaleGo.C62_lookup_index",
    "ScaleGo.C62_lookup_32",
    "ScaleGo.C62_claim_false"
   ],
   "note": "The ff form holds for all three address classes; index forms are refuted: GenericAddress returns nil, GenericLookupSource reads at absolute positions."
  },
  {
   "property": "C63",
   "status": "partial",
   "theorems": [
    "ScaleGo.C63_extra",
    "ScaleGo.C63_encode_partial",
    "ScaleGo.C63_missing_partial",
    "ScaleGo.C63_no_metadata",
    "ScaleGo.C63_decode",
    "ScaleGo.C63_claim_false"
   ],
   "note": "Encoding, decoding and refusal of too few values proved; surplus values are ignored (C63_extra), so the full claim is refuted."
  },
  {
   "property": "C64",
   "status": "partial",
   "theorems": [
    "ScaleGo.C64_resolves",
    "ScaleGo.C64_partial",
    "ScaleGo.C64_claim_false"
   ],
   "note": "Texts split at the last semicolon and the element text is lower-cased (C64_resolves); refuted in full for Option<Bool>, proved when the lower-cased text means the same."
  },
  {
   "property": "C65",
   "status": "proved",
   "theorems": [
    "ScaleGo.C65_unique",
    "ScaleGo.C65_determined",
    "ScaleGo.C65_nodup"
   ],
   "note": "Result characterised and unique."
  },
  {
   "property": "C66",
   "status": "proved",
   "theorems": [
    "ScaleGo.C66_permutation",
    "ScaleGo.C66_four_rounds",
    "ScaleGo.C66_constants"
   ],
   "note": "C66 is about the portable Go version; C91 shows that the amd64 assembly is the same function."
  },
  {
   "property": "C67",
   "status": "proved",
   "theorems": [
    "ScaleGo.C67_digest",
    "ScaleGo.C67_chunks",
    "ScaleGo.C67_reads",
    "ScaleGo.C67_keccak256",
    "ScaleGo.C67_write_after_read",
    "ScaleGo.C67_parameters",
    "ScaleGo.C67_reset"
   ],
   "note": "All eight constructors of the package, with the portable absorbing and output code; C90 covers the unaligned versions."
  },
  {
   "property": "C68",
   "status": "partial",
   "theorems": [
    "ScaleGo.C68_claim_false",
    "ScaleGo.C68_absorbing",
    "ScaleGo.C68_squeezing",
    "ScaleGo.C68_partial"
   ],
   "note": "false for SHAKE-256 (and other rates below 168) once output has been read: clone slices the storage at the wrong place and panics; proved before any read, and for SHAKE-128"
  },
  {
   "property": "C69",
   "status": "partial",
   "theorems": [
    "ScaleGo.C69_decode",
    "ScaleGo.C69_any_case",
    "ScaleGo.C69_partial",
    "ScaleGo.C69_claim_false"
   ],
   "note": "false for text with upper-case letters: the digest and the kept letters come from the text as given; proved for lower-case text and for decoding"
  },
  {
   "property": "C70",
   "status": "partial",
   "theorems": [
    "ScaleGo.C70_claim_false",
    "ScaleGo.C70_partial",
    "ScaleGo.C70_base_after",
    "ScaleGo.C70_zero",
    "ScaleGo.C70_negative"
   ],
   "note": "the result is right for all arguments; the loop squares base in place, so base is changed (negation proved, value afterwards characterised)"
  },
  {
   "property": "C71",
   "status": "proved",
   "theorems": [
    "ScaleGo.C71_add",
    "ScaleGo.C71_sub",
    "ScaleGo.C71_mul",
    "ScaleGo.C71_first_bit",
    "ScaleGo.C71_first_bit_zero",
    "ScaleGo.C71_max_min"
   ],
   "note": ""
  },
  {
   "property": "C72",
   "status": "proved",
   "theorems": [
    "ScaleGo.C72_padded",
    "ScaleGo.C72_read_bits",
    "ScaleGo.C72_byte",
    "ScaleGo.C72_u256_bytes",
    "ScaleGo.C72_s256",
    "ScaleGo.C72_signed_round_trip"
   ],
   "note": ""
  },
  {
   "property": "C73",
   "status": "partial",
   "theorems": [
    "ScaleGo.C73_decimal64",
    "ScaleGo.C73_hex64",
    "ScaleGo.C73_decimal256",
    "ScaleGo.C73_hex256",
    "ScaleGo.C73_hex_signed",
    "ScaleGo.C73_decimal_signed",
    "ScaleGo.C73_range",
    "ScaleGo.C73_round_trip64",
    "ScaleGo.C73_round_trip_decimal",
    "ScaleGo.C73_claim_false",
    "ScaleGo.C73_negative",
    "ScaleGo.C73_partial",
    "ScaleGo.C73_empty",
    "ScaleGo.C73_must"
   ],
   "note": "HexOrDecimal256 writes -0x1 for -1, which is refused when read; proved for all non-negative values, for Decimal256 and HexOrDecimal64"
  },
  {
   "property": "C74",
   "status": "partial",
   "theorems": [
    "ScaleGo.C74_signed",
    "ScaleGo.C74_unsigned_partial",
    "ScaleGo.C74_minimum",
    "ScaleGo.C74_signed_partial",
    "ScaleGo.C74_signed_minimum",
    "ScaleGo.C74_claim_false",
    "ScaleGo.C74_precision"
   ],
   "note": "the unsigned type is read as signed (wrong from 2^63 on, 2^63 itself is not divided at all) and the lowest signed 128-bit number comes out positive; proved for all other patterns. Exact sums of binary fractions stand for the 53-bit floats (exact at precision 9)"
  },
  {
   "property": "C75",
   "status": "proved",
   "theorems": [
    "ScaleGo.C75_any_order",
    "ScaleGo.C75_deterministic",
    "ScaleGo.C75_others"
   ],
   "note": "The 782 definitions are a table in the model; the per-entry condition is checked by kernel evaluation, the step from it to all orders is proved by induction."
  },
  {
   "property": "C76",
   "status": "partial",
   "theorems": [
    "ScaleGo.C76_asks",
    "ScaleGo.C76_exact",
    "ScaleGo.C76_unknown",
    "ScaleGo.C76_claim_false",
    "ScaleGo.C76_partial",
    "ScaleGo.C76_unknown_panics"
   ],
   "note": "False: HashMap<Text, Text>, H64, Raw, ContractContractSpec, ResponseV2Result and a misspelt Option<(U32, XcmTraitsErrorV3)>> are unknown and 29 definitions (VersionedXcm, EthBlock, ...) lead to them; C76_exact and C76_unknown list them exactly, C76_partial covers the other 753. Arguments of runtime calls are not followed."
  },
  {
   "property": "C59",
   "status": "partial",
   "theorems": [
    "ScaleGo.C59_partial",
    "ScaleGo.C59_covered",
    "ScaleGo.C59_claim_false",
    "ScaleGo.C59_flags_wrong"
   ],
   "note": "Violated: a field whose type is a newtype over the unit type has a text that cannot be encoded (C59_claim_false). C59_partial proves the claim, for every registry, at every depth, for registries whose names do not collide (Tidy) and for covered layers: primitives, the primitive_types crate, AccountId32, newtypes, structs, enums, name enums, Vec, byte arrays and arrays of any types whose texts may be written in lower case (Low: no option of a truth value below them), compacts of u32/u64/u128 and of declared types over u64/u128, tuples with one text, bit sequences, Option, Result whose arguments have texts without a comma; primitives in both spellings (chain metadata and ink! ABIs). Values are read in a module that overrides none of the metadata names (hypothesis Untouched). Missing: newtypes directly over Result, WrapperOpaque, calls, compacts of declared types over u32 (see C113) and of u8/u16, newtypes over arrays of arrays, arrays with options of truth values (C59_flags_wrong: these are misread), lists of u8 newtypes; leaf values as in C28. C59_covered shows that covered layers are what the metadata describes; loaded_ready that the library with its built-in types meets the assumptions."
  },
  {
   "property": "C77",
   "status": "partial",
   "theorems": [
    "ScaleGo.C77_reads",
    "ScaleGo.C77_lookup",
    "ScaleGo.C77_last",
    "ScaleGo.C77_claim_false",
    "ScaleGo.C77_partial",
    "ScaleGo.C77_written"
   ],
   "note": "Violated: a type parameter without type is read like one whose type is type 0 (C77_claim_false). C77_reads gives exactly what is read of every encoded registry within the length limits of the library, C77_lookup and C77_last the map made of it; C77_partial shows that nothing is lost except documentation, store and order of bit sequences, absent names (become empty), absent parameter types (become 0), and names that are not printable ASCII (become hex digits). C77_written: every registry that fits has an encoding."
  },
  {
   "property": "C78",
   "status": "proved",
   "theorems": [
    "ScaleGo.C78_reads",
    "ScaleGo.C78_reads15",
    "ScaleGo.C78_faithful",
    "ScaleGo.C78_written"
   ],
   "note": "C78_reads (V14) and C78_reads15 (V15): every encoded list of pallets within the length limits of the library is read as its kept form, wherever it stands in the buffer. C78_faithful: pallets with printable texts that are read alike are alike, except that no storage and storage without prefix and entries are the same. Other texts are kept as hexadecimal digits. C78_written: every list that fits has an encoding."
  },
  {
   "property": "C79",
   "status": "partial",
   "theorems": [
    "ScaleGo.C79_partial",
    "ScaleGo.C79_claim_false"
   ],
   "note": "C79_partial is the statement for V14 metadata whose types are entered under names of their own (Understood: names are told apart from each other and from those of the library, spec version 0). Without that it is false (C79_claim_false): metadata with a struct of the path String replaces the library's String while the metadata is still being read, and reading its pallets panics. The errors of a module are only said to be the described ones in some order: the code sorts the variants by index in some cases and drops the index."
  },
  {
   "property": "C80",
   "status": "partial",
   "theorems": [
    "ScaleGo.C80_exact",
    "ScaleGo.C80_partial",
    "ScaleGo.C80_written",
    "ScaleGo.C80_claim_false"
   ],
   "note": "C80_exact is what comes of V15 metadata whose types are entered under names of their own; C80_partial is the full statement when no storage map has a tuple with more members than hashers as its key. Without that it is false (C80_claim_false): for a map with one hasher and a pair as key, V15 lists two keys, where V14 lists one. C80_written: whatever fits has an encoding."
  },
  {
   "property": "C81",
   "status": "partial",
   "theorems": [
    "ScaleGo.C81_v14_partial",
    "ScaleGo.C81_v15_partial",
    "ScaleGo.C81_claim_false"
   ],
   "note": "C81_v14_partial and C81_v15_partial go from the bytes of metadata to encoded and decoded values, calls, unsigned extrinsics and events, for the types covered by C59 and for pallets whose name overrides none of the names of the metadata (types/override). Without the latter the statement is false (C81_claim_false): in a pallet called Assets the argument of a call with the type Approval of the metadata is decoded as AssetApproval of the library."
  },
  {
   "property": "C82",
   "status": "partial",
   "theorems": [
    "ScaleGo.C82_exact",
    "ScaleGo.C82_partial",
    "ScaleGo.C82_written",
    "ScaleGo.C82_claim_false"
   ],
   "note": "C82_claim_false: version 9 numbers its hashers differently (no Blake2_128Concat), the library reads them with the names of version 11, so Twox128 becomes Blake2_128Concat; and the extensions of version 11 are never read. C82_exact says what comes out for every version (hasher names of version 11, no extensions before version 12, origin callers registered in version 13); C82_partial is the claim when version 9 metadata uses only the first two hashers, with no extensions in version 11; C82_written shows that whatever fits has an encoding."
  },
  {
   "property": "C83",
   "status": "partial",
   "theorems": [
    "ScaleGo.C83_error",
    "ScaleGo.C83_unsupported",
    "ScaleGo.C83_version",
    "ScaleGo.C83_old",
    "ScaleGo.C83_v14",
    "ScaleGo.C83_v15",
    "ScaleGo.C83_claim_false"
   ],
   "note": "C83_claim_false: metadata of version 8 panics. Everything else of the claim is proved: C83_error (the error comes exactly without magic bytes), C83_unsupported (panic for a missing or unknown version), C83_version (what the decoder of the version reads is the result), and C83_old, C83_v14, C83_v15 from the descriptions of C82, C79, C80 in both forms."
  },
  {
   "property": "C84",
   "status": "partial",
   "theorems": [
    "ScaleGo.C84_error",
    "ScaleGo.C84_unsupported",
    "ScaleGo.C84_panic",
    "ScaleGo.C84_types",
    "ScaleGo.C84_same",
    "ScaleGo.C84_claim_false"
   ],
   "note": "C84_claim_false: metadata of version 16 panics. Everything else is proved: C84_types, C84_unsupported and C84_error (both exact), C84_panic, C84_same. Documentation is not part of the model's types, so RemoveDocs is not modelled."
  },
  {
   "property": "C85",
   "status": "proved",
   "theorems": [
    "ScaleGo.C85_lookup",
    "ScaleGo.C85_decode",
    "ScaleGo.C85_encode",
    "ScaleGo.C85_register",
    "ScaleGo.C85_unrelated_decode",
    "ScaleGo.C85_unrelated_encode"
   ],
   "note": "C85_lookup, C85_decode and C85_encode say on which entries looking up, decoding and encoding depend; C85_register which entries registering changes; C85_unrelated_decode and C85_unrelated_encode put them together. The texts that a type leads to are defined by Spec.Uses with Spec.Reads and Spec.Writes, the names by Spec.namesOf."
  },
  {
   "property": "C86",
   "status": "partial",
   "theorems": [
    "ScaleGo.C86_entries",
    "ScaleGo.C86_decode_partial",
    "ScaleGo.C86_encode_partial",
    "ScaleGo.C86_again",
    "ScaleGo.C86_claim_false"
   ],
   "note": "C86_claim_false: the type (u8,(u8,u16)) of a chain is replaced by (u8,(u8,),u16) of a contract, both called Tuple:u8Tuple:u8u16. C86_entries says which entries may change at all; C86_decode_partial and C86_encode_partial that types leading to none of them are decoded and encoded as before; C86_again that a decoder registers one contract only."
  },
  {
   "property": "C87",
   "status": "partial",
   "theorems": [
    "ScaleGo.C87_partial",
    "ScaleGo.C87_covered",
    "ScaleGo.C87_after_contract",
    "ScaleGo.C87_after_v14",
    "ScaleGo.C87_after_v15",
    "ScaleGo.C87_claim_false"
   ],
   "note": "Violated: an ABI spells truth values bool, and option<bool> is decoded as the one-byte OptionBool (C87_claim_false). C87_partial proves the claim for every ABI whose names do not collide (Tidy) and for covered layers (as in C59: lower-case primitives, newtypes, structs, enums, lists, arrays, tuples with fresh keys, Option, Result with comma-free arguments); no condition on the module is needed, as names with the prefix are never overridden. C87_covered: covered layers are what the ABI describes. C87_after_v14, C87_after_v15, C87_after_contract: a registry with the types of metadata or of another contract meets the assumptions again. Missing: contract tuples whose key already has an entry, newtypes over Result, WrapperOpaque, ABIs with gaps in the ids."
  },
  {
   "property": "C88",
   "status": "partial",
   "theorems": [
    "ScaleGo.C88_unsigned",
    "ScaleGo.C88_prefixed",
    "ScaleGo.C88_bare",
    "ScaleGo.C88_large",
    "ScaleGo.C88_partial",
    "ScaleGo.C88_claim_false"
   ],
   "note": "C88_partial: extrinsics shorter than 2^30 bytes, given bare or behind their SCALE length; C88_unsigned, C88_prefixed (hash of the bytes as given) and C88_bare exactly. C88_large: a bare extrinsic of 2^30 bytes or more is hashed without any length. C88_claim_false: a length not written in the shortest form is accepted and changes the hash."
  },
  {
   "property": "C89",
   "status": "partial",
   "theorems": [
    "ScaleGo.C89_partial",
    "ScaleGo.C89_same_hash",
    "ScaleGo.C89_claim_false"
   ],
   "note": "C89_partial: extrinsics that are decoded even when floats and lookup sources refuse (strict registry); C89_same_hash: the hash is the same too. C89_claim_false: a lookup source argument is read from the start of the buffer, so its value changes with the length."
  },
  {
   "property": "C90",
   "status": "proved",
   "theorems": [
    "ScaleGo.C90_xor",
    "ScaleGo.C90_copy",
    "ScaleGo.C90_other",
    "ScaleGo.C90_same",
    "ScaleGo.C90_digest",
    "ScaleGo.C90_keccak256"
   ],
   "note": "C90_digest and C90_keccak256 against the FIPS 202 sponge, C90_same for every reachable state (panics included), C90_other shows the five block sizes are needed. The permutation is the portable one."
  },
  {
   "property": "C91",
   "status": "proved",
   "theorems": [
    "ScaleGo.C91_permutation",
    "ScaleGo.C91_same"
   ],
   "note": "C91_permutation against the FIPS 202 permutation on bits, C91_same with the Go version. The model has one constructor per instruction kind and the instruction list of the file; flags, addressing and the assembler's frame code are not modelled."
  },
  {
   "property": "C92",
   "status": "partial",
   "theorems": [
    "ScaleGo.C92_registry_partial",
    "ScaleGo.C92_partial",
    "ScaleGo.C92_means",
    "ScaleGo.C92_nested_tuple",
    "ScaleGo.C92_named_tuple",
    "ScaleGo.C92_forcing",
    "ScaleGo.C92_claim_false"
   ],
   "note": "C92_registry_partial, C92_partial: in every registry that keeps the built-in entries of these texts (types of other names may be registered); tuples in which a bracket pair with a comma contains no further brackets and that are no built-in names, arrays of positive length, supported layers of C28. C92_means: what is read is what the texts mean. C92_nested_tuple: a tuple beginning with a tuple, as second member of a tuple, is split within its parentheses. C92_named_tuple: one pair of the grammar is a built-in struct with other field names. C92_claim_false: the nested tuple cannot be decoded at all. C92_forcing: Substrate's Forcing has four values, the built-in type three, so the fourth is refused. over_partial and C102 state the same over any vocabulary of registered names."
  },
  {
   "property": "C93",
   "status": "partial",
   "theorems": [
    "ScaleGo.C93_words_partial",
    "ScaleGo.C93_partial",
    "ScaleGo.C93_values_partial",
    "ScaleGo.C93_config",
    "ScaleGo.C93_claim_false"
   ],
   "note": "C93_partial: all marks except <T as Config>::, in every registry, for decoding and encoding. C93_values_partial: with the built-in types the values of such texts have the encodings of their meaning (with C92). C93_config, C93_claim_false: <T as Config>:: is not stripped before tuples are split, so (u32, (<T as Config>::u16, u8)) becomes three columns with unbalanced parentheses and cannot be decoded; the same type with <T as Trait>:: can. C93_words_partial: for any vocabulary of words."
  },
  {
   "property": "C94",
   "status": "partial",
   "theorems": [
    "ScaleGo.C94_partial",
    "ScaleGo.C94_values",
    "ScaleGo.C94_destination",
    "ScaleGo.C94_transfer",
    "ScaleGo.C94_claim_false"
   ],
   "note": "C94_partial: values, calls, unsigned extrinsics and events as claimed, for what C93_partial serves, in modules without basic types of their own (override table); calls with accounts as destinations are read. C94_values: this is part of the full claim. C94_destination, C94_transfer, C94_claim_false: Address cannot be encoded, so no call that begins with a destination (a transfer) can be written; missing besides: <T as Config>::, tuples and array lengths excluded in C92. worksOver_of (used in C102): the same over any vocabulary of registered names."
  },
  {
   "property": "C95",
   "status": "partial",
   "theorems": [
    "ScaleGo.C95_v14_partial",
    "ScaleGo.C95_v15_partial",
    "ScaleGo.C95_claim_false"
   ],
   "note": "False as stated: the lists of signers and signatures of version 15 are not used, and neither is the extrinsic type of version 14; only a type UncheckedExtrinsic of sp_runtime among the types tells the library how signers and signatures are coded (C95_claim_false: a 16-bit signer panics). Proved with such a type whose parameters are the signers and signatures, when the tip is the first extension with data and C16 covers the tip, for pallets whose name overrides no type."
  },
  {
   "property": "C96",
   "status": "partial",
   "theorems": [
    "ScaleGo.C96_v14_partial",
    "ScaleGo.C96_v15_partial",
    "ScaleGo.C96_claim_false"
   ],
   "note": "Full statement C96Claim, refuted by C96_claim_false: an extension with data that is not on the reader's list is taken for the call. Proved for chains whose extensions put the era first, then the nonce, with no data before or between, and then only data of extensions that the reader knows or is told to read; the tip may stand anywhere among them. Versions 4 and 5 of extrinsics."
  },
  {
   "property": "C97",
   "status": "partial",
   "theorems": [
    "ScaleGo.C97_partial",
    "ScaleGo.C97_claim_false"
   ],
   "note": "Full claim stated (C97Claim) and refuted (C97_claim_false: an account index as signer is taken for the start of an account). C97_partial: accounts as signers, and extensions that carry data in the order era, nonce, tip, then the listed fields in the order of the options (tip present in version 11, no listed fields before version 12); extensions without data anywhere. readsOver_of (used in C102): the same over any vocabulary."
  },
  {
   "property": "C98",
   "status": "partial",
   "theorems": [
    "ScaleGo.C98_exact",
    "ScaleGo.C98_partial",
    "ScaleGo.C98_before12",
    "ScaleGo.C98_account",
    "ScaleGo.C98_claim_false"
   ],
   "note": "Full claim stated (C98Claim) and refuted (C98_claim_false: metadata before version 12 cannot write signed extrinsics at all, C98_before12). C98_account: with versions 12 and 13 an account given as it is read is written without the byte ff. C98_partial: versions 12 and 13, signer given as hex text of its bytes, extensions era, nonce, tip and nothing else, tips that C16 writes, below 2^30 bytes. C98_exact: the bytes written for any signer. writtenOver_of (used in C102): the same over any vocabulary."
  },
  {
   "property": "C99",
   "status": "partial",
   "theorems": [
    "ScaleGo.C99_text",
    "ScaleGo.C99_refused",
    "ScaleGo.C99_bytes",
    "ScaleGo.C99_partial",
    "ScaleGo.C99_odd",
    "ScaleGo.C99_empty",
    "ScaleGo.C99_claim_false",
    "ScaleGo.C99_bn",
    "ScaleGo.C99_bn_ambiguous"
   ],
   "note": "The claim for the hex text of little-endian bytes is false for an odd number of bytes, whose middle byte is read as zero (C99_claim_false, C99_odd); proved for every even number. U256 itself is proved for every text (C99_text, C99_refused)."
  },
  {
   "property": "C100",
   "status": "partial",
   "theorems": [
    "ScaleGo.C100_partial",
    "ScaleGo.C100_boxed",
    "ScaleGo.C100_proposal",
    "ScaleGo.C100_claim_false"
   ],
   "note": "Proved for any depth: calls and lists of calls (24 spellings) over the values of C94 are written and read, extrinsics with them round-trip. Missing: three spellings of boxed calls that are looked up as Box (read only; C100_boxed, C100_proposal), destinations (read only, as in C94), lists of more than 524288 calls, modules with types of their own."
  },
  {
   "property": "C101",
   "status": "partial",
   "theorems": [
    "ScaleGo.C101_v14_partial",
    "ScaleGo.C101_v15_partial",
    "ScaleGo.C101_claim_false"
   ],
   "note": "The full claim is false (C101_claim_false): a pallet's name may select another type for an argument. Proved otherwise: for pallets whose names override nothing (decoding), for all pallets (encoding), lists of calls of up to 524288 entries, any depth. Options, tuples, structures and newtypes over calls are not covered."
  },
  {
   "property": "C102",
   "status": "partial",
   "theorems": [
    "ScaleGo.C102_partial",
    "ScaleGo.C102_chain_partial",
    "ScaleGo.C102_name_of_name",
    "ScaleGo.C102_array_of_arrays",
    "ScaleGo.C102_claim_false"
   ],
   "note": "C102_partial: names that are words and none of eleven core names (Vec, Option, Compact, u8, ...), definitions of one name in force in different versions, another name for a type defined earlier and without versions or for a composed type other than an array of arrays, enums whose payload texts are neither numbers nor nested arrays; texts as in C92 and C93. C102_chain_partial: with names of the system (Call, Address, Hash, signatures, types of metadata) left alone, metadata of versions 9 to 13, values, calls, events, signed extrinsics. C102_name_of_name: another name ignores versions. C102_array_of_arrays, C102_claim_false: a name for an array of arrays is not registered and cannot be decoded. Missing: sets, names that are not words, aliases within one list (order of iteration, C33)."
  },
  {
   "property": "C103",
   "status": "partial",
   "theorems": [
    "ScaleGo.C103_exact",
    "ScaleGo.C103_short",
    "ScaleGo.C103_fields_equal",
    "ScaleGo.C103_partial",
    "ScaleGo.C103_encode_refused",
    "ScaleGo.C103_claim_false"
   ],
   "note": "The claim is false (C103_claim_false): numbers are read from the start of the buffer and the decoder does not move; C103_exact gives the result for every buffer and position, C103_fields_equal the consequence for structs, C103_short and C103_encode_refused the refusals. C103_partial: at the start of the buffer the value is right."
  },
  {
   "property": "C104",
   "status": "partial",
   "theorems": [
    "ScaleGo.C104_partial",
    "ScaleGo.C104_list_partial",
    "ScaleGo.C104_root",
    "ScaleGo.C104_unknown_refused",
    "ScaleGo.C104_not_written",
    "ScaleGo.C104_claim_false"
   ],
   "note": "C104_partial and C104_list_partial cover eight kinds with all contents and lists of them, C104_unknown_refused the kinds that do not exist. The claim is false for roots of changes tries (C104_claim_false), which are read as length-prefixed bytes (C104_root); C104_not_written: values as read cannot be written."
  },
  {
   "property": "C105",
   "status": "partial",
   "theorems": [
    "ScaleGo.C105_item",
    "ScaleGo.C105_decode",
    "ScaleGo.C105_partial",
    "ScaleGo.C105_claim_false"
   ],
   "note": "C105_decode covers reading of all headers, C105_item every item by itself, C105_partial writing of headers whose items hold no text beginning with 0x. The claim is false (C105_claim_false) because such texts are written as hexadecimal digits."
  },
  {
   "property": "C106",
   "status": "partial",
   "theorems": [
    "ScaleGo.C106_aura",
    "ScaleGo.C106_partial",
    "ScaleGo.C106_secondary",
    "ScaleGo.C106_primary",
    "ScaleGo.C106_secondary_at_end",
    "ScaleGo.C106_claim_false"
   ],
   "note": "C106_aura and C106_partial (secondary slots with random function) hold in full. The claim is false (C106_claim_false): secondary slots are read with four more bytes for a weight (C106_secondary; 0 at the end of the data, C106_secondary_at_end), primary slots with a weight and half of the proof (C106_primary)."
  },
  {
   "property": "C107",
   "status": "partial",
   "theorems": [
    "ScaleGo.C107_partial",
    "ScaleGo.C107_members",
    "ScaleGo.C107_sets",
    "ScaleGo.C107_number_texts",
    "ScaleGo.C107_numbers_panic",
    "ScaleGo.C107_sets_empty",
    "ScaleGo.C107_shipped",
    "ScaleGo.C107_rest_partial",
    "ScaleGo.C107_claim_false"
   ],
   "note": "Violated: errors of the JSON decoder are dropped, so the enums CurrencyId and XcmError of kilt and spiritnet, numbered by JSON numbers, panic on every byte, and the sets of karura, litentry-test and laminar-test lose their names (C107_claim_false, C107_numbers_panic, C107_sets_empty). C107_shipped lists all seven such definitions in network/; every other definition of the 54 files is read as written (C107_rest_partial), in any order of members (C107_members)."
  },
  {
   "property": "C108",
   "status": "partial",
   "theorems": [
    "ScaleGo.C108_classes",
    "ScaleGo.C108_versions",
    "ScaleGo.C108_partial",
    "ScaleGo.C108_without_partial",
    "ScaleGo.C108_crab",
    "ScaleGo.C108_darwinia",
    "ScaleGo.C108_pangolin",
    "ScaleGo.C108_sora",
    "ScaleGo.C108_claim_false",
    "ScaleGo.C108_sora_values"
   ],
   "note": "Violated by crab, darwinia, pangolin (RelayAuthoritySigner) and sora (MultiCurrencyBalanceOf): two orders give two classes, and for sora the same bytes two values. The other 50 files give one result in all orders and never panic (C108_partial, C108_classes with the classes of every name, C108_versions with those of version ranges); the four do so without the one name (C108_without_partial)."
  },
  {
   "property": "C109",
   "status": "partial",
   "theorems": [
    "ScaleGo.C109_partial",
    "ScaleGo.C109_inner_wrong",
    "ScaleGo.C109_nested_wrong",
    "ScaleGo.C109_claim_false"
   ],
   "note": "False as stated: the comma and the bound are removed where they occur first in the text, so BoundedVec<BoundedVec<u8, StringLimit>, StringLimit> reads its elements with the text BoundedVec<u8>, StringLimit and panics (C109_claim_false, C109_nested_wrong; C109_inner_wrong says for all such texts what the elements are read as). C109_partial: with all bounds that do not occur behind a comma in T, bytes, values and refusals are those of Vec<T>, in both directions."
  },
  {
   "property": "C110",
   "status": "partial",
   "theorems": [
    "ScaleGo.C110_partial",
    "ScaleGo.C110_name_partial",
    "ScaleGo.C110_argument_partial",
    "ScaleGo.C110_argument_wrong",
    "ScaleGo.C110_dropped_wrong",
    "ScaleGo.C110_tuple_partial",
    "ScaleGo.C110_array_partial",
    "ScaleGo.C110_claim_false"
   ],
   "note": "False as stated: an alias of a text with any wrapper but Vec, Option, Compact, BTreeMap and BTreeSet (for example BoundedVec, Box, Result) is dropped without an error unless the whole text is registered (C110_dropped_wrong, C110_claim_false), and an argument behind an alias of an option, a compact number or a map replaces the argument in the alias (C110_argument_wrong). Proved for all inputs: aliases of the five wrappers (C110_partial), of names (C110_name_partial), of tuples (C110_tuple_partial), of arrays with elements in lower case (C110_array_partial), and arguments behind aliases of lists and sets (C110_argument_partial)."
  },
  {
   "property": "C111",
   "status": "partial",
   "theorems": [
    "ScaleGo.C111_partial",
    "ScaleGo.C111_either",
    "ScaleGo.C111_wrapper_wrong",
    "ScaleGo.C111_lost",
    "ScaleGo.C111_struct_wrong",
    "ScaleGo.C111_claim_false"
   ],
   "note": "False as claimed: a primitive type that is the first parameter of an opaque wrapper always ends with the text NULL (C111_lost, for every registry), and types expanded later read nothing for it (C111_claim_false, C111_struct_wrong; C111_wrapper_wrong is the step). The Signature and Address parameters of the extrinsic type are expanded again in the same way. C111_partial: every other primitive keeps its name. C111_either: the text is always the name or NULL."
  },
  {
   "property": "C112",
   "status": "partial",
   "theorems": [
    "ScaleGo.C112_exact",
    "ScaleGo.C112_partial",
    "ScaleGo.C112_claim_false",
    "ScaleGo.C112_names_wrong"
   ],
   "note": "Violated: Option<bool> and Option<Bool> compare as equal, but the first reads one byte (C112_claim_false); so do an enum of the names U8 and Bool and an enum with members of these types (C112_names_wrong). For types whose structure is written out to the end (Layout) C112_exact shows that they compare as equal exactly when their structures are equal (the texts can be read back in one way only, Lemmas/Tree.lean), and C112_partial that they then read the same bytes. Missing: recursive types and types below more than five structs and enums (written as ...), enums with numbers, with fields or with names that are words of types, options of bool, arrays of bytes by another name, and classes with no text of their own."
  },
  {
   "property": "C113",
   "status": "partial",
   "theorems": [
    "ScaleGo.C113_claim_false",
    "ScaleGo.C113_reads",
    "ScaleGo.C113_partial"
   ],
   "note": "Violated: struct Perbill(u32) declared before Compact<Perbill> gives the text compact<U32> and an int, declared later compact<a:Perbill> and a uint64 (C113_claim_false). C113_reads: for all metadata under the conditions of C59 the number itself is right in every order, with the exact Go type given by the text. C113_partial: for numbers over u64 and u128 the Go type depends on nothing else. Missing: numbers from 2^63 on (C16), u8 and u16 (C17), encoding of 2^30 and more where the text counts as Compact<u32> (C15)."
  },
  {
   "property": "C114",
   "status": "partial",
   "theorems": [
    "ScaleGo.C114_version8",
    "ScaleGo.C114_refused",
    "ScaleGo.C114_empty",
    "ScaleGo.C114_module7",
    "ScaleGo.C114_entry6",
    "ScaleGo.C114_module6",
    "ScaleGo.C114_module6_refused",
    "ScaleGo.C114_partial",
    "ScaleGo.C114_claim_false"
   ],
   "note": "C114Claim is the full statement, C114_claim_false refutes it: the decoders of versions 6 and 7 panic on any metadata with a module, because MetadataV6Module and MetadataV7Module are not in the registry (C114_refused). C114_version8: version 8 is read in full, with the hashers named as in version 11. C114_module7, C114_module6, C114_module6_refused, C114_entry6: what the parts do on their own; a storage entry of version 6 keeps only the last line of its documentation. C114_partial is the claim for version 8 with the first two hashers and for metadata without modules."
  },
  {
   "property": "C115",
   "status": "partial",
   "theorems": [
    "ScaleGo.C115_partial",
    "ScaleGo.C115_handed_out",
    "ScaleGo.C115_u256_wrong",
    "ScaleGo.C115_signed_wrong",
    "ScaleGo.C115_signed_zero",
    "ScaleGo.C115_large_wrong",
    "ScaleGo.C115_extrinsic",
    "ScaleGo.C115_claim_false"
   ],
   "note": "C115Claim is the full statement, C115_claim_false refutes it: U256 comes back as text whose characters are written (C115_u256_wrong, for every number). C115_signed_wrong, C115_signed_zero: signed integers below 128 bits are refused as decoded and written as the bits of a double after JSON, so small ones as zero. C115_large_wrong: numbers next to a power of two from 2^53 on come back as the power. C115_partial: all values of any nesting whose parts have the Go types of the decoder with numbers below 2^53 are kept; C115_handed_out says which Go types these are. C115_extrinsic: so are extrinsics. Not covered: calls inside values, 64-bit fixed point numbers. Assumed of Go: doubles that are whole numbers below 2^53 convert exactly (ExactFloats)."
  },
  {
   "property": "C116",
   "status": "partial",
   "theorems": [
    "ScaleGo.C116_accepted",
    "ScaleGo.C116_canonical",
    "ScaleGo.C116_partial",
    "ScaleGo.C116_claim_false"
   ],
   "note": "The claim is false of the code (C116_claim_false: byte 02 is decoded as false). C116_accepted describes every byte string that is decoded, layer by layer, with its laxities; C116_canonical shows that the rest is SCALE; C116_partial proves the claim for types made of unsigned integers, hashes, accounts, eras, byte arrays, structs, enums with data, arrays and results. Missing because false of the code: booleans, compact numbers and lengths, options, signed integers, balances, enums of names, empty arrays."
  },
  {
   "property": "C117",
   "status": "partial",
   "theorems": [
    "ScaleGo.C117_stable",
    "ScaleGo.C117_partial",
    "ScaleGo.C117_injective",
    "ScaleGo.C117_signed_refused",
    "ScaleGo.C117_claim_false"
   ],
   "note": "Proved for types built from unsigned integers, hashes, accounts, eras, structs, tuples, enums with data, non-empty arrays and results (C117_partial), and for any described type when every layer of what was accepted is canonical and encodable (C117_stable). The full claim is false of the code (C117_claim_false): signed integers of up to 64 bits are returned as *big.Int, which their encoder refuses with a panic (C117_signed_refused). On the part that holds different bytes give different values (C117_injective)."
  },
  {
   "property": "C118",
   "status": "proved",
   "theorems": [
    "ScaleGo.C118_signed",
    "ScaleGo.C118_account",
    "ScaleGo.C118_plain",
    "ScaleGo.C118_two_texts"
   ],
   "note": "C118_signed gives the bytes of a decoded signed extrinsic part by part, as the language Accepts of C116 (SCALE with the laxities of the library); C118_account and C118_plain give the reported account for every order of map iteration. C118_two_texts: different bytes can give the same extrinsic, since nonce and tip may be in longer compact forms."
  },
  {
   "property": "C119",
   "status": "proved",
   "theorems": [
    "ScaleGo.C119_decoded",
    "ScaleGo.C119_exact"
   ],
   "note": "C119_exact is the equivalence; C119_decoded is its direction from language to decoder for all types, with the two places named in which the shape does not determine the outcome (largest compact decimal, unknown members of plain name enums). The other direction for all types is C116_accepted."
  },
  {
   "property": "C120",
   "status": "partial",
   "theorems": [
    "ScaleGo.C120_partial",
    "ScaleGo.C120_absent",
    "ScaleGo.C120_never",
    "ScaleGo.C120_list",
    "ScaleGo.C120_claim_false",
    "ScaleGo.C120_builtin"
   ],
   "note": "False as stated: a linked list (struct with an optional list) is decoded without end from data without a zero byte (C120_list, C120_claim_false). C120_partial: decoding ends on all data and from every position if no type it may come to asks for types without end when bytes are absent; C120_absent, C120_never: a type that returns a value from absent bytes has that property; C120_builtin: so have all 782 built-in definitions, without metadata for calls."
  },
  {
   "property": "C121",
   "status": "partial",
   "theorems": [
    "ScaleGo.C121_limit",
    "ScaleGo.C121_amplified",
    "ScaleGo.C121_claim_false",
    "ScaleGo.C121_partial",
    "ScaleGo.C121_builtin"
   ],
   "note": "False as stated: Vec<Bool> of the single byte 08 gives two elements (C121_claim_false), and in general a length of k up to 524288 without anything after it gives k elements for every element type that gives a value at the end of the data (C121_amplified). C121_limit: at most 524288 elements, or the length of an array, for every type and all data; C121_builtin: 524288 for all built-in definitions. C121_partial: no more elements than bytes when data are left over and elements have at least one byte."
  },
  {
   "property": "C122",
   "status": "partial",
   "theorems": [
    "ScaleGo.C122_partial",
    "ScaleGo.C122_events",
    "ScaleGo.C122_list",
    "ScaleGo.C122_claim_false",
    "ScaleGo.C122_count",
    "ScaleGo.C122_tables"
   ],
   "note": "The claim is false of the code: an argument type that contains itself in an option is read without end from absent bytes. Proved: decoding ends when the types asked for halt on absent bytes (C122_partial for extrinsics, C122_events for events), and three bytes per event for all inputs (C122_count), with the table keys of all metadata decoders (C122_tables)."
  },
  {
   "property": "C123",
   "status": "partial",
   "theorems": [
    "ScaleGo.C123_partial",
    "ScaleGo.C123_portable",
    "ScaleGo.C123_cycle",
    "ScaleGo.C123_overflow",
    "ScaleGo.C123_claim_false"
   ],
   "note": "The claim is false: C123_claim_false; seqOfSelf_diverges and eachOther_diverges show two registries for which it never ends, C123_overflow and C123_cycle say for which registries in general. C123_partial (and C123_portable for what InitPortableRaw builds) proves the claim when no text is made from itself. Excluded: V14 registration with a non-zero Spec, where RegCustomTypes compares types structurally."
  },
  {
   "property": "C124",
   "status": "partial",
   "theorems": [
    "ScaleGo.C124_partial",
    "ScaleGo.C124_partial15",
    "ScaleGo.C124_after",
    "ScaleGo.C124_overflow",
    "ScaleGo.C124_claim_false"
   ],
   "note": "The claim is false: C124_claim_false, by selfSeq_overflows (seven bytes) and in general C124_overflow. C124_partial (V14) and C124_partial15 (V15) prove it on all data, for the library as it starts and Spec 0, when the registry that is read has no text made from itself and entering it leaves the texts of pallets, extrinsics and runtime APIs readable. C124_after proves it for every Spec when the registry is well-formed and its types are entered under names of their own (Understood): any bytes may follow."
  },
  {
   "property": "C125",
   "status": "proved",
   "theorems": [
    "ScaleGo.C125_old",
    "ScaleGo.C125_tables",
    "ScaleGo.C125_newer",
    "ScaleGo.C125_overflow",
    "ScaleGo.C125_registry",
    "ScaleGo.C125"
   ],
   "note": "C125 for the library as it starts; C125_old, C125_tables and C125_registry for any tables in which the texts have their usual meaning; C125_newer reduces versions 14 and 15 to C124, C125_overflow is the witness that Process as a whole does not return there."
  },
  {
   "property": "C126",
   "status": "partial",
   "theorems": [
    "ScaleGo.C126_partial",
    "ScaleGo.C126_exact",
    "ScaleGo.C126_endless",
    "ScaleGo.C126_builtin",
    "ScaleGo.C126_extrinsic",
    "ScaleGo.C126_chain",
    "ScaleGo.C126_metadata",
    "ScaleGo.C126_claim_false"
   ],
   "note": "The claim is false (C126_claim_false; C126_metadata for types of a chain). Proved instead: encoding ends on all values exactly if options do not contain themselves (C126_exact, C126_partial), options that do are encoded without end (C126_endless), and with the built-in types encoding any value by any text ends (C126_builtin). Hypothesis on the library left open: the arguments that the JSON round trip of Call.Encode makes of a map are parts of it, so that no value is a part of itself."
  },
  {
   "property": "C127",
   "status": "partial",
   "theorems": [
    "ScaleGo.C127_partial",
    "ScaleGo.C127_two_variants",
    "ScaleGo.C127_data_first",
    "ScaleGo.C127_decoded",
    "ScaleGo.C127_decoded_bytes",
    "ScaleGo.C127_claim_false"
   ],
   "note": "The claim is false: a map that names two variants of an enum is encoded as the one Go happens to meet first (C127_two_variants, C127_claim_false), and identity data likewise (C127_data_first). Proved for all values at any depth: if no map encoded as an enum names two variants and no map encoded as identity data has two members, the outcome is the same in all orders (C127_partial). Values that were decoded are like that (C127_decoded), and are encoded to the bytes they came from in all orders (C127_decoded_bytes). Assumed: json.Marshal sorts the keys of maps."
  },
  {
   "property": "C128",
   "status": "partial",
   "theorems": [
    "ScaleGo.C128_partial",
    "ScaleGo.C128_int",
    "ScaleGo.C128_text_returned",
    "ScaleGo.C128_exact",
    "ScaleGo.C128_claim_false"
   ],
   "note": "The claim is false: an account id or an era given as text that is no hex is returned as it is (C128_text_returned, C128_claim_false). Proved for every registry, type text and value of any nesting: if the texts that are handed on unchanged are hex, what is returned is the hex text of whole bytes (C128_partial); for integers without any condition (C128_int). For the classes that hand on the text alone the condition is exact (C128_exact)."
  },
  {
   "property": "C129",
   "status": "partial",
   "theorems": [
    "ScaleGo.C129_partial",
    "ScaleGo.C129_decode",
    "ScaleGo.C129_total",
    "ScaleGo.C129_back",
    "ScaleGo.C129_hash_short",
    "ScaleGo.C129_claim_false"
   ],
   "note": "Reading is proved in full (C129_decode: the width; C129_total: it never fails when enough bytes are left, for every digest function of at least 20 bytes, which Ethereum addresses need). Writing is false of the code (C129_claim_false; C129_hash_short: a hash is written with as many bytes as it is given with). C129_partial proves it, for every registry and type of fixed width at any nesting, when the texts and big integers given have the size of their type; C129_back: what is written so can be read again to its end."
  },
  {
   "property": "C130",
   "status": "partial",
   "theorems": [
    "ScaleGo.C130_exact",
    "ScaleGo.C130_fields",
    "ScaleGo.C130_partial",
    "ScaleGo.C130_values",
    "ScaleGo.C130_claim_false",
    "ScaleGo.C130_nonce"
   ],
   "note": "The claim is false of the code (C130_claim_false: a parameter that is not a number makes the map nil). C130_exact says exactly which decoded extrinsics have a map; C130_fields says what it contains, for all extrinsics; C130_partial is the claim with the missing condition. C130_nonce: nonces 2^k and 2^k+1 with k at least 53 have the same map. C130_values: agrees with the conversion of C115. Members of maps keep their order in the model (Go sorts the keys of a map when writing and reads them into a map again); the conversion of float32 is a parameter."
  },
  {
   "property": "C131",
   "status": "partial",
   "theorems": [
    "ScaleGo.C131_same_order_partial",
    "ScaleGo.C131_partial",
    "ScaleGo.C131_claim_false",
    "ScaleGo.C131_shipped_partial",
    "ScaleGo.C131_without_partial",
    "ScaleGo.C131_growth",
    "ScaleGo.C131_sora",
    "ScaleGo.C131_crab",
    "ScaleGo.C131_darwinia",
    "ScaleGo.C131_pangolin"
   ],
   "note": "The claim is false of the code (C131_claim_false: a chain of aliases; C131_sora, C131_crab, C131_darwinia, C131_pangolin: shipped files). C131_partial and C131_same_order_partial: batches whose items do not depend on each other. C131_shipped_partial: fifty shipped files, any number of reloads in any orders, no panic; C131_without_partial: the other four without one name each. C131_growth: exact growth of the version tables."
  },
  {
   "property": "C132",
   "status": "proved",
   "theorems": [
    "ScaleGo.C132_options",
    "ScaleGo.C132_ends"
   ],
   "note": "C132_options: no chain of options without end after any sequence of loadings of shipped files over the built-in definitions; C132_ends: encoding by any text ends. Invariant: all registered options are in a list of eleven pairs of name and text, which every file keeps (shipped_fileOk, evaluated by the kernel for the 54 files). Hypothesis as in C126: the JSON round trip of Call.Encode, left open, makes only parts of a map."
  },
  {
   "property": "C133",
   "status": "proved",
   "theorems": [
    "ScaleGo.C133_registers",
    "ScaleGo.C133_exact",
    "ScaleGo.C133_shipped",
    "ScaleGo.C133_sequences"
   ],
   "note": "C133_registers: well-formed batches never panic, over any tables. C133_exact: exactly those; otherwise a panic in every order. C133_shipped: all 54 shipped files, any state, any orders. C133_sequences: any sequence of files. Definitions from metadata (V14 set) are the subject of C123."
  },
  {
   "property": "C134",
   "status": "proved",
   "theorems": [
    "ScaleGo.C134_texts",
    "ScaleGo.C134_reads",
    "ScaleGo.C134_old",
    "ScaleGo.C134_types",
    "ScaleGo.C134_early",
    "ScaleGo.C134_error"
   ],
   "note": "C134_texts: all 75 texts, module empty, every spec version. C134_reads: the four conditions that C82, C83, C84 and C114 ask of the tables hold of the tables after any sequence of shipped files. C134_old, C134_types, C134_early, C134_error: what follows for whole metadata. The complete reading of V14 and V15 metadata (C79, C83_v14) is asked of fresh tables only and not claimed here, since it registers types under names that shipped files also define."
  },
  {
   "property": "C135",
   "status": "proved",
   "theorems": [
    "ScaleGo.C135_exact",
    "ScaleGo.C135_decode",
    "ScaleGo.C135_encode",
    "ScaleGo.C135_earlier"
   ],
   "note": "C135_exact: a built-in name keeps its entries through all sequences exactly if it is not in Spec.changedNames (86 names, each with files that change it evaluated in the kernel). C135_decode, C135_encode: types that use stable names only behave alike on all inputs. C135_earlier: the concrete interference of equilibrium with acala."
  },
  {
   "property": "C136",
   "status": "proved",
   "theorems": [
    "ScaleGo.C136_ends",
    "ScaleGo.C136_fresh",
    "ScaleGo.C136_same",
    "ScaleGo.C136_register",
    "ScaleGo.C136_network",
    "ScaleGo.C136_decode",
    "ScaleGo.C136_encode",
    "ScaleGo.C136_meanwhile"
   ],
   "note": "C136_ends, C136_fresh, C136_same: the state after Clean is the state at the start. C136_register: any later batch. C136_network, C136_decode, C136_encode: shipped files other than crab, darwinia, pangolin and sora. Clean is modelled as one step for the goroutine that calls it; C136_meanwhile shows that others find no types at all for a while (TypeRegistry is nil, without a lock)."
  }
 ]
}