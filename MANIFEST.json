{
 "claims": [
  {
   "property": "C01",
   "status": "proved",
   "theorems": [
    "Verif.Props.C01_utf8_decoder_accepts_encoding",
    "Verif.Props.C01_utf8_decoder_accepts_text"
   ],
   "note": ""
  },
  {
   "property": "C02",
   "status": "proved",
   "theorems": [
    "Verif.Props.C02_utf8_decoder_accepts_only_wellformed",
    "Verif.Props.C02_utf8_decoder_error_iff",
    "Verif.Props.C02_utf8_decoder_error_sticks",
    "Verif.Props.C02_utf8_decoder_status"
   ],
   "note": ""
  },
  {
   "property": "C03",
   "status": "partial",
   "theorems": [
    "Verif.Props.C03_utf16_decoder_supplementary_violated",
    "Verif.Props.C03_utf16_decoder_bmp_partial",
    "Verif.Props.C03_utf_decode16_units_violated"
   ],
   "note": "Violated by the code for every supplementary code point (proved, C03_utf16_decoder_supplementary_violated); proved for the BMP and for lone trailing surrogates."
  },
  {
   "property": "C04",
   "status": "proved",
   "theorems": [
    "Verif.Props.C04_utf_decode_wellformed",
    "Verif.Props.C04_utf_decode_wellformed_bom"
   ],
   "note": ""
  },
  {
   "property": "C05",
   "status": "proved",
   "theorems": [
    "Verif.Props.C05_utf_decode_arbitrary",
    "Verif.Props.C05_utf_decode_arbitrary_reverse"
   ],
   "note": ""
  },
  {
   "property": "C06",
   "status": "proved",
   "theorems": [
    "Verif.Props.C06_utf_decode_reverse",
    "Verif.Props.C06_utf_decode_reverse_bom"
   ],
   "note": ""
  },
  {
   "property": "C07",
   "status": "proved",
   "theorems": [
    "Verif.Props.C07_utf_decode_stops8",
    "Verif.Props.C07_utf_decode_stops16",
    "Verif.Props.C07_utf_decode_stops32"
   ],
   "note": ""
  },
  {
   "property": "C08",
   "status": "partial",
   "theorems": [
    "Verif.Props.C08_native_endian16_reverse_partial",
    "Verif.Props.C08_native_endian16_violated",
    "Verif.Props.C08_native_endian32_violated",
    "Verif.Props.C08_native_endian32_violated_general",
    "Verif.Props.C08_native_endian16_partial",
    "Verif.Props.C08_native_endian32_partial",
    "Verif.Props.C08_bom32",
    "Verif.Props.C08_bom16"
   ],
   "note": "Violated by the code (witnesses and a general family proved); proved for the strings the byte-order heuristic gets right."
  },
  {
   "property": "C09",
   "status": "partial",
   "theorems": [
    "Verif.Props.C09_utf8_encoder_nul_violated",
    "Verif.Props.C09_utf8_encoder_partial",
    "Verif.Props.C09_utf8_encoder_prefix_free_partial"
   ],
   "note": "Violated by the code for U+0000, whose encoding is empty (proved); proved for every other scalar value."
  },
  {
   "property": "C10",
   "status": "partial",
   "theorems": [
    "Verif.Props.C10_utf16_encoder_nul_violated",
    "Verif.Props.C10_utf16_encoder_partial",
    "Verif.Props.C10_utf16_encoder_inverse_partial"
   ],
   "note": "Violated by the code for U+0000, whose encoding is empty (proved); proved for every other scalar value."
  },
  {
   "property": "C11",
   "status": "partial",
   "theorems": [
    "Verif.Props.C11_transcode_8_to_32",
    "Verif.Props.C11_round_trip_nul_violated",
    "Verif.Props.C11_round_trip_swap_violated",
    "Verif.Props.C11_round_trip_partial",
    "Verif.Props.C11_transcode_8_to_16_partial",
    "Verif.Props.C11_transcode_32_to_8_partial",
    "Verif.Props.C11_transcode_32_to_16_partial",
    "Verif.Props.C11_transcode_16_to_32_partial",
    "Verif.Props.C11_transcode_16_to_8_partial",
    "Verif.Props.C11_transcode_16_to_32_violated"
   ],
   "note": "Violated by the code for strings with NUL, for strings whose byte order is guessed wrongly, and for supplementary characters in UTF-16 (witnesses proved). Proved for every other text: 8 to 32, 8 to 16, 32 to 8, 32 to 16, 16 to 8, 16 to 32 and the 8-32-8 round trip."
  },
  {
   "property": "C12",
   "status": "partial",
   "theorems": [
    "Verif.Props.C12_trim_left_partial",
    "Verif.Props.C12_trim_right_partial",
    "Verif.Props.C12_trim_partial",
    "Verif.Props.C12_trim_idempotent_partial",
    "Verif.Props.C12_trim_idempotent_violated",
    "Verif.Props.C12_trim_undefined_violated",
    "Verif.Props.C12_trim16_partial",
    "Verif.Props.C12_trim32_partial",
    "Verif.Props.C12_trim16_violated",
    "Verif.Props.C12_trim32_violated"
   ],
   "note": "Violated by the code: not idempotent in front of U+FEFF, undefined behaviour on the code points of C13, wrong text trimmed when the byte order of UTF-16/32 is guessed wrongly (witnesses proved). Proved for all other well-formed UTF-8, UTF-16 (basic multilingual plane) and UTF-32 strings."
  },
  {
   "property": "C13",
   "status": "partial",
   "theorems": [
    "Verif.Props.C13_is_whitespace_undefined32_violated",
    "Verif.Props.C13_is_whitespace32_partial",
    "Verif.Props.C13_is_whitespace_undefined16_violated",
    "Verif.Props.C13_is_whitespace16_partial"
   ],
   "note": "Violated by the code: is_whitespace reaches MUU_UNREACHABLE on three code point ranges (proved). Outside those ranges the result is proved to equal White_Space for all 32- and 16-bit values."
  },
  {
   "property": "C14",
   "status": "partial",
   "theorems": [
    "Verif.Props.C14_is_hyphen_undefined32_violated",
    "Verif.Props.C14_is_hyphen32_partial",
    "Verif.Props.C14_is_hyphen_undefined16_violated",
    "Verif.Props.C14_is_hyphen16_partial"
   ],
   "note": "Violated by the code: is_hyphen reaches MUU_UNREACHABLE on seven code point ranges (proved). Outside those ranges the result is proved for all values."
  },
  {
   "property": "C15",
   "status": "proved",
   "theorems": [
    "Verif.Props.C15_digit_predicates32",
    "Verif.Props.C15_digit_predicates16",
    "Verif.Props.C15_digit_predicates8",
    "Verif.Props.C15_hex_to_dec",
    "Verif.Props.C15_dec_to_hex",
    "Verif.Props.C15_byte_to_hex"
   ],
   "note": ""
  },
  {
   "property": "C16",
   "status": "proved",
   "theorems": [
    "Verif.Props.C16_countl",
    "Verif.Props.C16_countl128",
    "Verif.Props.C16_countr",
    "Verif.Props.C16_countr128",
    "Verif.Props.C16_run_unique"
   ],
   "note": ""
  },
  {
   "property": "C17",
   "status": "proved",
   "theorems": [
    "Verif.Props.C17_popcount"
   ],
   "note": ""
  },
  {
   "property": "C18",
   "status": "proved",
   "theorems": [
    "Verif.Props.C18_bit_floor",
    "Verif.Props.C18_bit_floor128",
    "Verif.Props.C18_bit_floor_zero",
    "Verif.Props.C18_bit_ceil",
    "Verif.Props.C18_bit_ceil128",
    "Verif.Props.C18_bit_width",
    "Verif.Props.C18_has_single_bit"
   ],
   "note": "bit_ceil is stated where the result is representable, as for std::bit_ceil."
  },
  {
   "property": "C19",
   "status": "proved",
   "theorems": [
    "Verif.Props.C19_byte_reverse16",
    "Verif.Props.C19_byte_reverse32",
    "Verif.Props.C19_byte_reverse64",
    "Verif.Props.C19_byte_reverse128",
    "Verif.Props.C19_byte_reverse_involutive"
   ],
   "note": ""
  },
  {
   "property": "C20",
   "status": "proved",
   "theorems": [
    "Verif.Props.C20_bit_pack",
    "Verif.Props.C20_byte_select",
    "Verif.Props.C20_swizzle"
   ],
   "note": ""
  },
  {
   "property": "C21",
   "status": "partial",
   "theorems": [
    "Verif.Props.C21_byte_select_index_violated",
    "Verif.Props.C21_byte_select_byte_violated",
    "Verif.Props.C21_byte_select_partial"
   ],
   "note": "Violated by the code for index == sizeof(T) (proved: undefined shift for 4, 8 and 16 byte types, the value itself for one byte types); every other index is proved."
  },
  {
   "property": "C22",
   "status": "proved",
   "theorems": [
    "Verif.Props.C22_bit_fill"
   ],
   "note": ""
  },
  {
   "property": "C23",
   "status": "proved",
   "theorems": [
    "Verif.Props.C23_apply_alignment",
    "Verif.Props.C23_apply_alignment_monotone"
   ],
   "note": ""
  },
  {
   "property": "C24",
   "status": "proved",
   "theorems": [
    "Verif.Props.C24_sha1_fips"
   ],
   "note": ""
  },
  {
   "property": "C25",
   "status": "proved",
   "theorems": [
    "Verif.Props.C25_sha1_chunking"
   ],
   "note": ""
  },
  {
   "property": "C26",
   "status": "proved",
   "theorems": [
    "Verif.Props.C26_sha1_finished"
   ],
   "note": ""
  },
  {
   "property": "C27",
   "status": "proved",
   "theorems": [
    "Verif.Props.C27_fnv1a",
    "Verif.Props.C27_fnv1a_chunking"
   ],
   "note": ""
  },
  {
   "property": "C28",
   "status": "proved",
   "theorems": [
    "Verif.Props.C28_fnv1a_one_byte"
   ],
   "note": ""
  },
  {
   "property": "C29",
   "status": "proved",
   "theorems": [
    "Verif.Props.C29_hash_combiner",
    "Verif.Props.C29_hash_combiner_zero"
   ],
   "note": ""
  },
  {
   "property": "C30",
   "status": "proved",
   "theorems": [
    "Verif.Props.C30_uuid_print",
    "Verif.Props.C30_uuid_round_trip",
    "Verif.Props.C30_uuid_parse_print"
   ],
   "note": ""
  },
  {
   "property": "C31",
   "status": "partial",
   "theorems": [
    "Verif.Props.C31_uuid_parse_wellformed_partial",
    "Verif.Props.C31_uuid_parse_utf8",
    "Verif.Props.C31_uuid_parse_utf32",
    "Verif.Props.C31_uuid_parse_utf16",
    "Verif.Props.C31_uuid_parse_swapped_violated",
    "Verif.Props.C31_uuid_parse_truncated_violated",
    "Verif.Props.C31_uuid_parse_utf32_partial"
   ],
   "note": "Exact characterisation of the accepted strings for UTF-8, UTF-16 and UTF-32. The full English claim is false (a truncated UTF-8 sequence behind the text is ignored; byte-swapped UTF-16/32 text is accepted); proved outright for well-formed UTF-8 and for UTF-32 code points."
  },
  {
   "property": "C32",
   "status": "proved",
   "theorems": [
    "Verif.Props.C32_uuid_fields",
    "Verif.Props.C32_uuid_fields5",
    "Verif.Props.C32_uuid_of_fields",
    "Verif.Props.C32_uuid_layout"
   ],
   "note": ""
  },
  {
   "property": "C33",
   "status": "proved",
   "theorems": [
    "Verif.Props.C33_uuid_to_int_paths",
    "Verif.Props.C33_uuid_to_int",
    "Verif.Props.C33_uuid_int_inverse",
    "Verif.Props.C33_uuid_eq",
    "Verif.Props.C33_uuid_compare_paths",
    "Verif.Props.C33_uuid_order",
    "Verif.Props.C33_uuid_total_order",
    "Verif.Props.C33_uuid_bool"
   ],
   "note": ""
  },
  {
   "property": "C34",
   "status": "proved",
   "theorems": [
    "Verif.Props.C34_uuid_version_variant",
    "Verif.Props.C34_uuid_generate",
    "Verif.Props.C34_uuid_named",
    "Verif.Props.C34_uuid_named_sha1"
   ],
   "note": ""
  },
  {
   "property": "C35",
   "status": "proved",
   "theorems": [
    "Verif.Props.C35_task_life",
    "Verif.Props.C35_all_destroyed",
    "Verif.Props.C35_no_undefined_behaviour",
    "Verif.Props.C35_never_lost"
   ],
   "note": "All schedules, any number of workers, callers and tasks below 2^64. Sequentially consistent model; no liveness here (C70, C71)."
  },
  {
   "property": "C36",
   "status": "proved",
   "theorems": [
    "Verif.Props.C36_wait"
   ],
   "note": ""
  },
  {
   "property": "C37",
   "status": "partial",
   "theorems": [
    "Verif.Props.C37_queue_fifo_partial",
    "Verif.Props.C37_queue_fifo_pow2",
    "Verif.Props.C37_unbounded_violated",
    "Verif.Props.C37_bounded"
   ],
   "note": "Violated after 2^64 puts unless the capacity is a power of two (proved: undefined behaviour with capacity 3); proved for every history with fewer than 2^64 puts, and for every history when the capacity is a power of two."
  },
  {
   "property": "C38",
   "status": "partial",
   "theorems": [
    "Verif.Props.C38_for_each_index_partial",
    "Verif.Props.C38_for_each_to_partial",
    "Verif.Props.C38_descending_from_max_violated",
    "Verif.Props.C38_signed_overflow_violated"
   ],
   "note": "Violated for descending ranges from the largest value of the type (unsigned: the last batch is dropped; signed: overflow) and for signed ranges longer than the type (overflow); proved for all other ranges of 32 and 64 bit types and every worker count. Narrower types do not compile and are not modelled."
  },
  {
   "property": "C39",
   "status": "proved",
   "theorems": [
    "Verif.Props.C39_for_each_container"
   ],
   "note": ""
  },
  {
   "property": "C40",
   "status": "partial",
   "theorems": [
    "Verif.Props.C40_workers",
    "Verif.Props.C40_queue_size_partial",
    "Verif.Props.C40_queue_size_violated",
    "Verif.Props.C40_create_partial"
   ],
   "note": "Violated (undefined conversion) exactly for one worker and a requested queue size of at least 2^64 - 1024; proved for all other arguments, including the IEEE double arithmetic and the memory layout."
  },
  {
   "property": "C41",
   "status": "proved",
   "theorems": [
    "Verif.Props.C41_no_start_after_workers_stop",
    "Verif.Props.C41_destroyed"
   ],
   "note": ""
  },
  {
   "property": "C42",
   "status": "proved",
   "theorems": [
    "Verif.Props.C42_mutual_exclusion",
    "Verif.Props.C42_no_data_race",
    "Verif.Props.C42_acquires_iff_free",
    "Verif.Props.C42_acquired_by_exchange",
    "Verif.Props.C42_free_can_be_acquired"
   ],
   "note": "All interleavings of any number of threads under a view-based model of the C++ memory orders used; progress as reachability (no fairness)."
  },
  {
   "property": "C43",
   "status": "partial",
   "theorems": [
    "Verif.Props.C43_blob_partial",
    "Verif.Props.C43_self_assign_violated"
   ],
   "note": "Every history of operations on any number of blobs over an explicit heap, except that a self copy-assignment of a blob of 2048 bytes or more with alignment below 64 is excluded: there the claim is false (C43_self_assign_violated, use of freed memory)."
  },
  {
   "property": "C44",
   "status": "proved",
   "theorems": [
    "Verif.Props.C44_emplacement_array"
   ],
   "note": ""
  },
  {
   "property": "C45",
   "status": "partial",
   "theorems": [
    "Verif.Props.C45_min_max",
    "Verif.Props.C45_samples",
    "Verif.Props.C45_merge_violated",
    "Verif.Props.C45_merge_empty_violated",
    "Verif.Props.C45_merge_partial"
   ],
   "note": "Count, minimum, maximum (any value type with a strict weak order) and sum (integer types, while representable) proved for every sequence of samples. Merging is violated: add(other) on a non-empty accumulator replaces its contents, and on an empty one mixes in zeros; C45_merge_partial gives the cases that are right. Floating-point summation is C149; the merge of floating-point accumulators does not compile."
  },
  {
   "property": "C46",
   "status": "partial",
   "theorems": [
    "Verif.Props.C46_elements",
    "Verif.Props.C46_size_partial",
    "Verif.Props.C46_size_violated",
    "Verif.Props.C46_pairs_partial",
    "Verif.Props.C46_empty_violated",
    "Verif.Props.C46_union",
    "Verif.Props.C46_union_violated"
   ],
   "note": "Proved for non-empty ranges over every integer type; size is violated (signed overflow) for signed 64-bit ranges of 2^63 elements or more; intersects/contains(range) are violated for empty ranges, union_with for ranges that do not touch (it is the hull)."
  },
  {
   "property": "C47",
   "status": "partial",
   "theorems": [
    "Verif.Props.C47_subviews_partial",
    "Verif.Props.C47_checked",
    "Verif.Props.C47_convert_violated"
   ],
   "note": "Proved for every chain of first/last/subspan/as_bytes/conversion calls, dynamic and static; violated for conversions to a larger static extent, which are accepted unchecked. Array/iterator/range constructors are the (pointer, size) one."
  },
  {
   "property": "C48",
   "status": "partial",
   "theorems": [
    "Verif.Props.C48_equal_partial",
    "Verif.Props.C48_empty_violated",
    "Verif.Props.C48_less_violated"
   ],
   "note": "Equality proved; empty() is violated for every static_array, operator< never compiles for distinct arrays (pointer past the wrong array)."
  },
  {
   "property": "C49",
   "status": "partial",
   "theorems": [
    "Verif.Props.C49_construct",
    "Verif.Props.C49_substrings_partial",
    "Verif.Props.C49_seam",
    "Verif.Props.C49_lowest_violated"
   ],
   "note": "Construction, truncation, concatenation and the seam (null termination) proved; substr/slice proved except for the lowest value of narrow signed index types, which is violated."
  },
  {
   "property": "C50",
   "status": "partial",
   "theorems": [
    "Verif.Props.C50_compare_partial",
    "Verif.Props.C50_self_violated",
    "Verif.Props.C50_cpp20_violated",
    "Verif.Props.C50_cpp20_cycle_violated"
   ],
   "note": "Proved for distinct objects in C++17; violated for compare(self) (returns 1) and for the C++20 defaulted <=> on signed char (disagrees with compare; < is not transitive)."
  },
  {
   "property": "C51",
   "status": "partial",
   "theorems": [
    "Verif.Props.C51_history_partial",
    "Verif.Props.C51_read_back_partial",
    "Verif.Props.C51_negative_violated",
    "Verif.Props.C51_misaligned_violated"
   ],
   "note": "Proved for histories of stores and reads of nonnegative tags and aligned pointers, for every alignment and number of free high bits; violated: a negative tag of a narrow signed type sign-extends into the pointer, and the alignment assertion uses bit_floor so it accepts misaligned pointers, whose low bits then appear in the tag."
  },
  {
   "property": "C52",
   "status": "partial",
   "theorems": [
    "Verif.Props.C52_exact",
    "Verif.Props.C52_round_trip_partial",
    "Verif.Props.C52_subnormal_violated",
    "Verif.Props.C52_truncates_partial",
    "Verif.Props.C52_special_partial",
    "Verif.Props.C52_nearest_violated",
    "Verif.Props.C52_large_violated",
    "Verif.Props.C52_small_violated"
   ],
   "note": "half to float proved exact for all 2^16 patterns, round trip proved except subnormals; float to half proved to truncate within the normal range and for special values. Violated: all subnormal halves fail the round trip, the nearest half is not chosen when it is above, floats from 2^17 wrap to finite halves, floats below 2^-14 give wrong values. The naive conversions are modelled, not the F16C instructions."
  },
  {
   "property": "C53",
   "status": "proved",
   "theorems": [
    "Verif.Props.C53_neg",
    "Verif.Props.C53_abs",
    "Verif.Props.C53_classify"
   ],
   "note": "Proved for all 2^16 bit patterns."
  },
  {
   "property": "C54",
   "status": "proved",
   "theorems": [
    "Verif.Props.C54_reference",
    "Verif.Props.C54_once",
    "Verif.Props.C54_dismissed",
    "Verif.Props.C54_dismissal"
   ],
   "note": "Proved for every program of nested scopes, exceptions, handlers, destructors and dismissals, by equivalence with a reference that has no counter, as long as fewer than 2^31 exceptions are in flight. Guards created with new are not modelled."
  },
  {
   "property": "C55",
   "status": "partial",
   "theorems": [
    "Verif.Props.C55_min",
    "Verif.Props.C55_max",
    "Verif.Props.C55_clamp",
    "Verif.Props.C55_between_partial",
    "Verif.Props.C55_between_violated"
   ],
   "note": "min, max, clamp for any number of arguments and any total order. between is violated for some mixed signed/unsigned bounds (C55_between_violated); C55_between_partial covers the rest."
  },
  {
   "property": "C56",
   "status": "proved",
   "theorems": [
    "Verif.Props.C56_evenly_distribute"
   ],
   "note": ""
  },
  {
   "property": "C57",
   "status": "partial",
   "theorems": [
    "Verif.Props.C57_gcd",
    "Verif.Props.C57_lcm_partial",
    "Verif.Props.C57_lcm_zero_violated",
    "Verif.Props.C57_lcm_mixed_violated"
   ],
   "note": "gcd for any number of arguments of mixed types. lcm is violated when an argument 0 meets an unrepresentable intermediate result, and for mixed types; C57_lcm_partial covers the rest."
  },
  {
   "property": "C58",
   "status": "partial",
   "theorems": [
    "Verif.Props.C58_history_partial",
    "Verif.Props.C58_move_empty_violated",
    "Verif.Props.C58_trim_empty_violated",
    "Verif.Props.C58_view_nul_violated",
    "Verif.Props.C58_view_swap_violated",
    "Verif.Props.C58_view_supplementary_violated"
   ],
   "note": "Violated by the code: moving from or trimming an empty parameter is undefined, a text of NULs viewed in another character type dereferences null, wrongly guessed byte order and supplementary characters in UTF-16 change the text (witnesses proved). For all other texts every history is proved defined and faithful. Storage lifetimes are in C178."
  },
  {
   "property": "C59",
   "status": "partial",
   "theorems": [
    "Verif.Props.C59_pair_round_trip_partial",
    "Verif.Props.C59_pair_violated",
    "Verif.Props.C59_pack3_signs_partial",
    "Verif.Props.C59_unpack3_partial",
    "Verif.Props.C59_unpack3_violated",
    "Verif.Props.C59_pair_example_violated",
    "Verif.Props.C59_pack2_partial",
    "Verif.Props.C59_pack2_violated"
   ],
   "note": "Floating-point operations of packing are modelled with their rounding (round to nearest even, unbounded exponent); unpacking here in exact arithmetic and up to the final normalisation, which C157 has with rounding. Proved for every integer/scalar pair in Supported3/Supported2. Violated: vectors with z about 0 and |y|>|x| can come back with x and y exchanged; a 2D float vector in 32 bits (the default) on the x axis comes back as the negative y axis."
  },
  {
   "property": "C60",
   "status": "proved",
   "theorems": [
    "Verif.Props.C60_is_letter32",
    "Verif.Props.C60_is_letter16"
   ],
   "note": ""
  },
  {
   "property": "C61",
   "status": "proved",
   "theorems": [
    "Verif.Props.C61_is_number32",
    "Verif.Props.C61_is_number16"
   ],
   "note": ""
  },
  {
   "property": "C62",
   "status": "proved",
   "theorems": [
    "Verif.Props.C62_is_combining_mark32",
    "Verif.Props.C62_is_combining_mark16"
   ],
   "note": ""
  },
  {
   "property": "C63",
   "status": "partial",
   "theorems": [
    "Verif.Props.C63_is_lowercase_supplementary_violated",
    "Verif.Props.C63_is_lowercase32_partial",
    "Verif.Props.C63_is_lowercase16"
   ],
   "note": "Violated by the code: no supplementary-plane lowercase letter is recognised (proved). Proved for every 16-bit value and for all 32-bit values below U+10000."
  },
  {
   "property": "C64",
   "status": "partial",
   "theorems": [
    "Verif.Props.C64_is_uppercase_undefined32_violated",
    "Verif.Props.C64_is_uppercase_supplementary_violated",
    "Verif.Props.C64_is_uppercase32_partial",
    "Verif.Props.C64_is_uppercase_undefined16_violated",
    "Verif.Props.C64_is_uppercase16_partial"
   ],
   "note": "Violated by the code: U+2182 reaches MUU_UNREACHABLE and no supplementary-plane uppercase letter is recognised (proved). Proved for everything else."
  },
  {
   "property": "C65",
   "status": "proved",
   "theorems": [
    "Verif.Props.C65_is_whitespace8",
    "Verif.Props.C65_is_hyphen8",
    "Verif.Props.C65_is_letter8",
    "Verif.Props.C65_is_number8",
    "Verif.Props.C65_is_lowercase8",
    "Verif.Props.C65_is_uppercase8"
   ],
   "note": ""
  },
  {
   "property": "C66",
   "status": "partial",
   "theorems": [
    "Verif.Props.C66_aligned_alloc_wraps_violated",
    "Verif.Props.C66_aligned_alloc_partial"
   ],
   "note": "Violated by the code: a size close to 2^64 wraps to a request for 0 bytes (proved); proved for every size whose rounding up is representable."
  },
  {
   "property": "C67",
   "status": "partial",
   "theorems": [
    "Verif.Props.C67_sha1_long_violated"
   ],
   "note": "Violated by the code: the block counter has 32 bits, so for 2^38 bytes and more the length field of the padding is wrong (proved for all such messages up to 2^61 bytes). C24 proves the rest."
  },
  {
   "property": "C68",
   "status": "partial",
   "theorems": [
    "Verif.Props.C68_fnv1a_utf16_partial",
    "Verif.Props.C68_fnv1a_utf16_violated",
    "Verif.Props.C68_sha1_text_partial",
    "Verif.Props.C68_fnv1a_utf32_partial",
    "Verif.Props.C68_fnv1a_utf32_native_partial",
    "Verif.Props.C68_sha1_utf32_partial",
    "Verif.Props.C68_fnv1a_utf32_violated",
    "Verif.Props.C68_fnv1a_text_partial"
   ],
   "note": "Violated by the code as a consequence of the byte-order heuristic and of C03 (witnesses proved for UTF-16 and UTF-32); proved for UTF-32 strings with a byte order mark and for those the heuristic gets right, for UTF-16 text of the basic multilingual plane likewise, for fnv1a and sha1."
  },
  {
   "property": "C69",
   "status": "proved",
   "theorems": [
    "Verif.Props.C69_no_lost_wakeup"
   ],
   "note": ""
  },
  {
   "property": "C70",
   "status": "proved",
   "theorems": [
    "Verif.Props.C70_can_finish_work"
   ],
   "note": ""
  },
  {
   "property": "C71",
   "status": "proved",
   "theorems": [
    "Verif.Props.C71_destructor_can_complete",
    "Verif.Props.C71_destructor_can_start"
   ],
   "note": ""
  },
  {
   "property": "C72",
   "status": "partial",
   "theorems": [
    "Verif.Props.C72_iterate",
    "Verif.Props.C72_advance",
    "Verif.Props.C72_retreat",
    "Verif.Props.C72_signed_offset_partial",
    "Verif.Props.C72_signed_offset_violated",
    "Verif.Props.C72_distance_partial",
    "Verif.Props.C72_distance_violated"
   ],
   "note": "Loop, unsigned offsets: all integer types up to 64 bits. Signed offsets and differences are violated for the unsigned 64-bit type across 2^63 (signed overflow); proved otherwise. Pointers: C158. Enums are rejected by a static assertion although documented."
  },
  {
   "property": "C73",
   "status": "partial",
   "theorems": [
    "Verif.Props.C73_qualifiers_partial",
    "Verif.Props.C73_const_violated"
   ],
   "note": "Proved for the qualifier table as the most specialised matching specialisation; violated: spans of non-const elements from const/volatile sources are accepted."
  },
  {
   "property": "C74",
   "status": "proved",
   "theorems": [
    "Verif.Props.C74_compare"
   ],
   "note": "Proved for all pairs, with the float comparison taken to be IEEE 754."
  },
  {
   "property": "C75",
   "status": "proved",
   "theorems": [
    "Verif.Props.Matrix.C75_product",
    "Verif.Props.Matrix.C75_vectors",
    "Verif.Props.Matrix.C75_assoc",
    "Verif.Props.Matrix.C75_compose",
    "Verif.Props.Matrix.C75_identity"
   ],
   "note": "Proved for every size over every commutative ring; rounding is not modelled."
  },
  {
   "property": "C76",
   "status": "proved",
   "theorems": [
    "Verif.Props.Matrix.C76_row_major",
    "Verif.Props.Matrix.C76_row_major_common",
    "Verif.Props.Matrix.C76_transpose"
   ],
   "note": "Proved for every size and for every hand-written constructor."
  },
  {
   "property": "C77",
   "status": "proved",
   "theorems": [
    "Verif.Props.Matrix.C77_determinant",
    "Verif.Props.Matrix.C77_determinant_mul"
   ],
   "note": "Proved over every commutative ring."
  },
  {
   "property": "C78",
   "status": "proved",
   "theorems": [
    "Verif.Props.Matrix.C78_invert",
    "Verif.Props.Matrix.C78_solve"
   ],
   "note": "Proved over every field."
  },
  {
   "property": "C79",
   "status": "partial",
   "theorems": [
    "Verif.Props.Vector.C79_dot",
    "Verif.Props.Vector.C79_distance",
    "Verif.Props.Vector.C79_length_partial",
    "Verif.Props.Vector.C79_length_violated"
   ],
   "note": "Violated in dimension one: length({x}) is x, negative for negative x (C79_length_violated). Proved for dot and distance in every dimension and for length in all others."
  },
  {
   "property": "C80",
   "status": "partial",
   "theorems": [
    "Verif.Props.Vector.C80_normalize_partial",
    "Verif.Props.Vector.C80_normalize_violated",
    "Verif.Props.Vector.C80_normalized_float",
    "Verif.Props.Vector.C80_normalized_int_partial",
    "Verif.Props.Vector.C80_normalized_int_violated"
   ],
   "note": "Violated in dimension one (every vector normalizes to {1}: C80_normalize_violated) and for integral vectors (normalized is always false from two dimensions on: C80_normalized_int_violated). Proved otherwise."
  },
  {
   "property": "C81",
   "status": "proved",
   "theorems": [
    "Verif.Props.Vector.C81_cross",
    "Verif.Props.Vector.C81_cross_axis",
    "Verif.Props.Vector.C81_orthogonal"
   ],
   "note": "Proved."
  },
  {
   "property": "C82",
   "status": "proved",
   "theorems": [
    "Verif.Props.Vector.C82_min_max",
    "Verif.Props.Vector.C82_min_max_empty",
    "Verif.Props.Vector.C82_clamp",
    "Verif.Props.Vector.C82_lerp",
    "Verif.Props.Vector.C82_angle"
   ],
   "note": "Proved; the angle for dimensions other than one."
  },
  {
   "property": "C83",
   "status": "proved",
   "theorems": [
    "Verif.Props.Transform.C83_affine",
    "Verif.Props.Transform.C83_without_translating",
    "Verif.Props.Transform.C83_homogeneous",
    "Verif.Props.Transform.C83_compose",
    "Verif.Props.Transform.C83_scale_translation",
    "Verif.Props.Transform.C83_2d",
    "Verif.Props.Transform.C83_direction",
    "Verif.Props.Transform.C83_extract_scale",
    "Verif.Props.Transform.C83_extract_scale_2d"
   ],
   "note": "Proved."
  },
  {
   "property": "C84",
   "status": "proved",
   "theorems": [
    "Verif.Props.Transform.C84_from_rotation",
    "Verif.Props.Transform.C84_from_rotation_2d",
    "Verif.Props.Transform.C84_orthonormalize",
    "Verif.Props.Transform.C84_orthonormalize_sign",
    "Verif.Props.Transform.C84_orthonormalize_fixed",
    "Verif.Props.Transform.C84_orthonormalized",
    "Verif.Props.Transform.C84_orthonormalized_iff"
   ],
   "note": "Proved."
  },
  {
   "property": "C85",
   "status": "proved",
   "theorems": [
    "Verif.Props.Transform.C85_from_direction",
    "Verif.Props.Transform.C85_from_direction_rest",
    "Verif.Props.Transform.C85_constants"
   ],
   "note": "Proved for every tolerance between 0 and 1."
  },
  {
   "property": "C86",
   "status": "partial",
   "theorems": [
    "Verif.Props.Transform.C86_perspective_partial",
    "Verif.Props.Transform.C86_left_handed_violated",
    "Verif.Props.Transform.C86_screen_size_partial",
    "Verif.Props.Transform.C86_screen_size_violated"
   ],
   "note": "Violated in left-handed modes (C86_left_handed_violated) and by the screen-size overload, which ignores the mode (C86_screen_size_violated). Proved for right-handed modes and for the default mode."
  },
  {
   "property": "C87",
   "status": "proved",
   "theorems": [
    "Verif.Props.Quat.C87_algebra",
    "Verif.Props.Quat.C87_normalize",
    "Verif.Props.Quat.C87_rotate",
    "Verif.Props.Quat.C87_compose",
    "Verif.Props.Quat.C87_matrix",
    "Verif.Props.Quat.C87_matrix_rest"
   ],
   "note": "Proved."
  },
  {
   "property": "C88",
   "status": "proved",
   "theorems": [
    "Verif.Props.Quat.C88_from_axis_angle",
    "Verif.Props.Quat.C88_matrix",
    "Verif.Props.Quat.C88_to_axis_angle"
   ],
   "note": "Proved."
  },
  {
   "property": "C89",
   "status": "partial",
   "theorems": [
    "Verif.Props.Quat.C89_from_euler_partial",
    "Verif.Props.Quat.C89_single_axis_partial",
    "Verif.Props.Quat.C89_signs",
    "Verif.Props.Quat.C89_local_axes_violated",
    "Verif.Props.Quat.C89_matrix"
   ],
   "note": "Violated when two or more angles are non-zero: the later rotations are about the fixed axes, so yaw 90° and pitch 90° leave the nose pointing right instead of up (C89_local_axes_violated). Proved: unit result, the exact composition it computes, the documented meaning and signs for each single angle."
  },
  {
   "property": "C90",
   "status": "partial",
   "theorems": [
    "Verif.Props.Quat.C90_to_euler_partial",
    "Verif.Props.Quat.C90_poles",
    "Verif.Props.Quat.C90_band_violated",
    "Verif.Props.Quat.C90_band_error"
   ],
   "note": "Violated within about 0.8° of the poles (C90_band_violated), where pitch is rounded to 90°; the error there is at most 1.15° (C90_band_error). Proved everywhere else and exactly at the poles."
  },
  {
   "property": "C91",
   "status": "proved",
   "theorems": [
    "Verif.Props.QuatInterp.C91_from_matrix",
    "Verif.Props.QuatInterp.C91_round_trip"
   ],
   "note": "Proved for all four branches."
  },
  {
   "property": "C92",
   "status": "partial",
   "theorems": [
    "Verif.Props.QuatInterp.C92_from_rotation_partial",
    "Verif.Props.QuatInterp.C92_lengths_violated"
   ],
   "note": "Violated for all non-parallel vectors of different lengths (C92_lengths_violated): the scale uses the first length twice. Proved for vectors of equal length except those within the tolerance of being opposite."
  },
  {
   "property": "C93",
   "status": "partial",
   "theorems": [
    "Verif.Props.QuatInterp.C93_scale",
    "Verif.Props.QuatInterp.C93_power",
    "Verif.Props.QuatInterp.C93_slerp_partial",
    "Verif.Props.QuatInterp.C93_slerp_ends",
    "Verif.Props.QuatInterp.C93_slerp_close",
    "Verif.Props.QuatInterp.C93_slerp_close_speed",
    "Verif.Props.QuatInterp.C93_slerp_speed_violated",
    "Verif.Props.QuatInterp.C93_slerp_reverse"
   ],
   "note": "Partial: the speed is exactly constant where the inner product is below 0.9995; closer rotations are interpolated linearly, which keeps unit length and the shorter arc, and deviates from constant speed by at most θ³/14 (C93_slerp_close_speed), where θ < 0.032 is the angle between the quaternions. That the speed there is not exactly constant is C93_slerp_speed_violated."
  },
  {
   "property": "C94",
   "status": "partial",
   "theorems": [
    "Verif.Props.Geometry.C94_construct",
    "Verif.Props.Geometry.C94_from_triangle",
    "Verif.Props.Geometry.C94_project",
    "Verif.Props.Geometry.C94_project_segment",
    "Verif.Props.Geometry.C94_origin",
    "Verif.Props.Geometry.C94_contains",
    "Verif.Props.Geometry.C94_normalize",
    "Verif.Props.Geometry.C94_same_side",
    "Verif.Props.Geometry.C94_transform_partial",
    "Verif.Props.Geometry.C94_transform_violated"
   ],
   "note": "Proved, except for transform: it is right for similarity transforms and wrong for a non-uniform scale (C94_transform_violated), because the normal is transformed like a direction."
  },
  {
   "property": "C95",
   "status": "partial",
   "theorems": [
    "Verif.Props.Geometry.C95_meets",
    "Verif.Props.Geometry.C95_inverted",
    "Verif.Props.Geometry.C95_violated"
   ],
   "note": "False of the code: the comparison is inverted, so for segments with both ends off the plane the answer is always the opposite (C95_inverted, C95_violated)."
  },
  {
   "property": "C96",
   "status": "partial",
   "theorems": [
    "Verif.Props.Geometry.C96_closest",
    "Verif.Props.Geometry.C96_zero_length_violated",
    "Verif.Props.Geometry.C96_contains",
    "Verif.Props.Geometry.C96_contains_all",
    "Verif.Props.Geometry.C96_contains_segment",
    "Verif.Props.Geometry.C96_colinear",
    "Verif.Props.Geometry.C96_coplanar_partial",
    "Verif.Props.Geometry.C96_coplanar_violated",
    "Verif.Props.Geometry.C96_extend",
    "Verif.Props.Geometry.C96_midpoint"
   ],
   "note": "Proved for segments with distinct ends. False for zero-length segments (NaN, C96_zero_length_violated) and for coplanar when the second segment starts on the line of the first, as when segments share an end (C96_coplanar_violated)."
  },
  {
   "property": "C97",
   "status": "partial",
   "theorems": [
    "Verif.Props.Geometry.C97_normal",
    "Verif.Props.Geometry.C97_area",
    "Verif.Props.Geometry.C97_barycentric",
    "Verif.Props.Geometry.C97_barycentric_inside",
    "Verif.Props.Geometry.C97_degenerate",
    "Verif.Props.Geometry.C97_degenerate_violated",
    "Verif.Props.Geometry.C97_contains_inside",
    "Verif.Props.Geometry.C97_contains_partial",
    "Verif.Props.Geometry.C97_contains_near",
    "Verif.Props.Geometry.C97_contains_violated",
    "Verif.Props.Geometry.C97_contains_many",
    "Verif.Props.Geometry.C97_centroid"
   ],
   "note": "Proved, except: contains is also true for every point of the infinite line through the second and third corner (C97_contains_violated; C97_contains_partial is exact up to that line), and degenerate only notices coinciding corners (C97_degenerate_violated)."
  },
  {
   "property": "C98",
   "status": "proved",
   "theorems": [
    "Verif.Props.Boxes.C98_from_min_max",
    "Verif.Props.Boxes.C98_from_points",
    "Verif.Props.Boxes.C98_from_range",
    "Verif.Props.Boxes.C98_from_sphere",
    "Verif.Props.Boxes.C98_corner",
    "Verif.Props.Boxes.C98_measures",
    "Verif.Props.Boxes.C98_volume",
    "Verif.Props.Boxes.C98_translate",
    "Verif.Props.Boxes.C98_scale",
    "Verif.Props.Boxes.C98_transform",
    "Verif.Props.Boxes.C98_append",
    "Verif.Props.Boxes.C98_append_many",
    "Verif.Props.Boxes.C98_append_box",
    "Verif.Props.Boxes.C98_closest",
    "Verif.Props.Boxes.C98_contains",
    "Verif.Props.Boxes.C98_contains_all",
    "Verif.Props.Boxes.C98_contains_segment",
    "Verif.Props.Boxes.C98_contains_triangle"
   ],
   "note": "Proved. The run-time overload of the internal corner_min_max lacks return statements and is not modelled."
  },
  {
   "property": "C99",
   "status": "proved",
   "theorems": [
    "Verif.Props.Boxes.C99_box",
    "Verif.Props.Boxes.C99_contains_box",
    "Verif.Props.Boxes.C99_plane",
    "Verif.Props.Boxes.C99_sphere",
    "Verif.Props.Boxes.C99_contains_sphere",
    "Verif.Props.Boxes.C99_sphere_contains"
   ],
   "note": "Proved."
  },
  {
   "property": "C100",
   "status": "proved",
   "theorems": [
    "Verif.Props.Boxes.C100_segment"
   ],
   "note": "Proved."
  },
  {
   "property": "C101",
   "status": "partial",
   "theorems": [
    "Verif.Props.Boxes.C101_triangle_partial",
    "Verif.Props.Boxes.C101_degenerate",
    "Verif.Props.Boxes.C101_violated"
   ],
   "note": "Proved for triangles whose corners are not collinear. For collinear corners the answer is always false, even inside the box (C101_degenerate, C101_violated), because the normal is NaN."
  },
  {
   "property": "C102",
   "status": "partial",
   "theorems": [
    "Verif.Props.Sphere.C102_measures",
    "Verif.Props.Sphere.C102_translate",
    "Verif.Props.Sphere.C102_scale",
    "Verif.Props.Sphere.C102_contains",
    "Verif.Props.Sphere.C102_closest_partial",
    "Verif.Props.Sphere.C102_closest_violated",
    "Verif.Props.Sphere.C102_contains_sphere_partial",
    "Verif.Props.Sphere.C102_contains_concentric_partial",
    "Verif.Props.Sphere.C102_contains_grown_partial",
    "Verif.Props.Sphere.C102_contains_sphere_violated",
    "Verif.Props.Sphere.C102_intersects_partial",
    "Verif.Props.Sphere.C102_intersects_violated"
   ],
   "note": "Violated in three places. closest_point outside the sphere forgets to add the centre (C102_closest_violated; with the centre added it is right). contains(sphere, sphere) compares squares and reports containment where there is none (C102_contains_sphere_violated; it never misses one, and is exact for concentric spheres). intersects(sphere, sphere) compares with r1^2 + r2^2 and misses overlapping spheres (C102_intersects_violated; what it reports is right)."
  },
  {
   "property": "C103",
   "status": "partial",
   "theorems": [
    "Verif.Props.Sphere.C103_no_misses",
    "Verif.Props.Sphere.C103_triangle_partial",
    "Verif.Props.Sphere.C103_violated"
   ],
   "note": "Proved for triangles whose corners are not collinear; for all triangles a shared point is never missed. For collinear corners a far away triangle can be reported (C103_violated)."
  },
  {
   "property": "C104",
   "status": "partial",
   "theorems": [
    "Verif.Props.Obb.C104_corner",
    "Verif.Props.Obb.C104_volume",
    "Verif.Props.Obb.C104_translate",
    "Verif.Props.Obb.C104_scale",
    "Verif.Props.Obb.C104_transform_partial",
    "Verif.Props.Obb.C104_transform_violated",
    "Verif.Props.Obb.C104_transform_flat_violated"
   ],
   "note": "transform is proved to give the image as a set when the half-sides are positive and no axis vanishes, and to keep orthonormal axes under a similarity. Under a shear the axes are no longer orthogonal and contains gives wrong answers (C104_transform_violated); a box with a zero half-side gets a NaN axis even under the identity (C104_transform_flat_violated)."
  },
  {
   "property": "C105",
   "status": "partial",
   "theorems": [
    "Verif.Props.Obb.C105_contains",
    "Verif.Props.Obb.C105_closest",
    "Verif.Props.Obb.C105_sphere",
    "Verif.Props.Obb.C105_triangle_partial",
    "Verif.Props.Obb.C105_triangle_violated",
    "Verif.Props.Obb.C105_aligned"
   ],
   "note": "The triangle test is exact for triangles whose corners are not collinear. For collinear corners it always answers false, even with all corners inside the box (C105_triangle_violated)."
  },
  {
   "property": "C106",
   "status": "partial",
   "theorems": [
    "Verif.Props.Obb.C106_directions_partial",
    "Verif.Props.Obb.C106_no_misses",
    "Verif.Props.Obb.C106_parallel_partial",
    "Verif.Props.Obb.C106_violated",
    "Verif.Props.Obb.C106_aligned_partial",
    "Verif.Props.Obb.C106_aligned_violated"
   ],
   "note": "The code tests only the six axis directions, not the nine cross products. Boxes that share a point are never missed, and boxes with the same axes are handled exactly, but disjoint boxes can be reported as intersecting (C106_violated, C106_aligned_violated)."
  },
  {
   "property": "C107",
   "status": "partial",
   "theorems": [
    "Verif.Props.Ray.C107_at",
    "Verif.Props.Ray.C107_plane_partial",
    "Verif.Props.Ray.C107_plane_violated",
    "Verif.Props.Ray.C107_triangle_partial",
    "Verif.Props.Ray.C107_triangle_behind_violated",
    "Verif.Props.Ray.C107_triangle_small_violated",
    "Verif.Props.Ray.C107_infinity_partial",
    "Verif.Props.Ray.C107_infinity_violated"
   ],
   "note": "Planes: right unless the ray lies in the plane, which is not reported (C107_plane_violated). Triangles: what is reported lies in the triangle, and a triangle whose determinant is at least epsilon is found, but a triangle behind the origin is reported at a negative distance (C107_triangle_behind_violated) and small triangles are missed (C107_triangle_small_violated). infinity_or_nan combines origin and direction with 'and' instead of 'or' (C107_infinity_violated)."
  },
  {
   "property": "C108",
   "status": "partial",
   "theorems": [
    "Verif.Props.Ray.C108_sphere_partial",
    "Verif.Props.Ray.C108_sphere_inside_violated",
    "Verif.Props.Ray.C108_sphere_touch_violated",
    "Verif.Props.Ray.C108_box_partial",
    "Verif.Props.Ray.C108_box_violated"
   ],
   "note": "Spheres: a reported hit is right; a ray that starts inside and points away from the centre is not reported (C108_sphere_inside_violated), nor one that touches the sphere (C108_sphere_touch_violated). Boxes: right unless the ray runs in the plane of a face, where 0/0 makes it miss the box or report an infinite distance (C108_box_violated)."
  },
  {
   "property": "C109",
   "status": "proved",
   "theorems": [
    "Verif.Props.TypeList.C109_slice",
    "Verif.Props.TypeList.C109_slice_rest",
    "Verif.Props.TypeList.C109_select",
    "Verif.Props.TypeList.C109_page_size"
   ],
   "note": "The compiler must allow nested instantiations twice as deep as the list is long."
  },
  {
   "property": "C110",
   "status": "proved",
   "theorems": [
    "Verif.Props.TypeList.C110_flatten",
    "Verif.Props.TypeList.C110_remove",
    "Verif.Props.TypeList.C110_index_of",
    "Verif.Props.TypeList.C110_index_of_empty",
    "Verif.Props.TypeList.C110_contains",
    "Verif.Props.TypeList.C110_append_prepend"
   ],
   "note": "index_of of the empty list is the largest size_t instead of an error (C110_index_of_empty)."
  },
  {
   "property": "C111",
   "status": "proved",
   "theorems": [
    "Verif.Props.TypeList.C111_size",
    "Verif.Props.TypeList.C111_alignment",
    "Verif.Props.TypeList.C111_exists",
    "Verif.Props.TypeList.C111_other"
   ],
   "note": ""
  },
  {
   "property": "C112",
   "status": "partial",
   "theorems": [
    "Verif.Props.FunctionView.C112_object",
    "Verif.Props.FunctionView.C112_stateless",
    "Verif.Props.FunctionView.C112_bool",
    "Verif.Props.FunctionView.C112_null_function_violated"
   ],
   "note": "A view of a null function pointer is true, but calling it is undefined (C112_null_function_violated)."
  },
  {
   "property": "C113",
   "status": "partial",
   "theorems": [
    "Verif.Props.FunctionView.C113_partial",
    "Verif.Props.FunctionView.C113_rebind_violated",
    "Verif.Props.FunctionView.C113_destroy_violated",
    "Verif.Props.FunctionView.C113_null_violated",
    "Verif.Props.FunctionView.C113_violated",
    "Verif.Props.FunctionView.C113_cycle_violated"
   ],
   "note": "Proved for copies of constant views and for assignment. Copies and moves of other views choose the forwarding constructor and make a view of the view: they change when the original is rebound, dangle when it is destroyed, are not null when it is, and can make cycles that never end (C113_rebind_violated, C113_destroy_violated, C113_null_violated, C113_cycle_violated)."
  },
  {
   "property": "C114",
   "status": "proved",
   "theorems": [
    "Verif.Props.Sequences.C114_sequence",
    "Verif.Props.Sequences.C114_product"
   ],
   "note": ""
  },
  {
   "property": "C115",
   "status": "partial",
   "theorems": [
    "Verif.Props.Sequences.C115_layout",
    "Verif.Props.Sequences.C115_compiles_partial",
    "Verif.Props.Sequences.C115_accessors_partial",
    "Verif.Props.Sequences.C115_violated",
    "Verif.Props.Sequences.C115_derived_violated"
   ],
   "note": "The layout is as stated for all pairs; compressed_pair<E, E> of the same empty class does not compile, because a class may not be a direct base twice (C115_violated); of an empty class and an empty class derived from it, the pair compiles but the accessor of the base class does not (C115_derived_violated). All other pairs and their accessors do (C115_compiles_partial, C115_accessors_partial)."
  },
  {
   "property": "C116",
   "status": "partial",
   "theorems": [
    "Verif.Props.ConstMath.C116_floor_partial",
    "Verif.Props.ConstMath.C116_ceil_partial",
    "Verif.Props.ConstMath.C116_violated"
   ],
   "note": "Holds exactly for arguments that fit the widest integer type (C116_floor_partial, C116_ceil_partial); all other calls do not compile or are wrong (C116_violated)."
  },
  {
   "property": "C117",
   "status": "partial",
   "theorems": [
    "Verif.Props.ConstMath.C117_sqrt_partial",
    "Verif.Props.ConstMath.C117_special",
    "Verif.Props.ConstMath.C117_large_violated",
    "Verif.Props.ConstMath.C117_small_violated"
   ],
   "note": "Proved with relative error 2^-127 between 2^-186 and 2^186 (every positive float). Beyond 2^300 the result is at least 2^50 times too large, and similarly for tiny doubles (C117_large_violated, C117_small_violated). Exact arithmetic; rounding is not modelled."
  },
  {
   "property": "C118",
   "status": "proved",
   "theorems": [
    "Verif.Props.ConstMath.C118_cos",
    "Verif.Props.ConstMath.C118_sin",
    "Verif.Props.ConstMath.C118_exact"
   ],
   "note": "Exact arithmetic: the error of the algorithm, to which that of rounding comes."
  },
  {
   "property": "C119",
   "status": "proved",
   "theorems": [
    "Verif.Props.ConstMath.C119_tan",
    "Verif.Props.ConstMath.C119_undefined"
   ],
   "note": "Exact arithmetic."
  },
  {
   "property": "C120",
   "status": "partial",
   "theorems": [
    "Verif.Props.ConstMath.C120_asin_partial",
    "Verif.Props.ConstMath.C120_acos_partial",
    "Verif.Props.ConstMath.C120_domain",
    "Verif.Props.ConstMath.C120_double"
   ],
   "note": "For real arguments outside a sliver (C120_asin_partial, C120_acos_partial), which contains no double (C120_double). Exact arithmetic."
  },
  {
   "property": "C121",
   "status": "partial",
   "theorems": [
    "Verif.Props.ConstMath.C121_atan",
    "Verif.Props.ConstMath.C121_atan2_partial",
    "Verif.Props.ConstMath.C121_atan2_violated"
   ],
   "note": "atan2(0, 0), which std::atan2 defines as zero, does not compile (C121_atan2_violated). Exact arithmetic."
  },
  {
   "property": "C122",
   "status": "partial",
   "theorems": [
    "Verif.Props.Angles.C122_rounding_partial",
    "Verif.Props.Angles.C122_signed_rounding_partial",
    "Verif.Props.ConstMath.C122_normalize",
    "Verif.Props.ConstMath.C122_normalize_signed",
    "Verif.Props.ConstMath.C122_unique",
    "Verif.Props.Scalar.C122_small_violated",
    "Verif.Props.Scalar.C122_negative_violated",
    "Verif.Props.Scalar.C122_signed_violated"
   ],
   "note": "Proved in exact arithmetic. With rounding it is violated for float and double, with and without fused operations: small negative angles give 2 pi, some positive angles a negative result, and the signed version leaves its range on both sides (C122_small_violated, C122_negative_violated, C122_signed_violated). What holds with rounding is C122_rounding_partial and C122_signed_rounding_partial: the result is the angle less a number of full turns, and in its range, up to at most twelve units of round-off of the angle and 90 more; the range of exponents is not bounded there."
  },
  {
   "property": "C123",
   "status": "proved",
   "theorems": [
    "Verif.Props.Scalar.C123_interchange",
    "Verif.Props.Scalar.C123_extended"
   ],
   "note": "Invalid encodings of long double (no integer bit) count as neither."
  },
  {
   "property": "C124",
   "status": "partial",
   "theorems": [
    "Verif.Props.Scalar.C124_abs_partial",
    "Verif.Props.Scalar.C124_abs_violated"
   ],
   "note": "Proved for all values but the smallest of a signed type, which is returned unchanged or undefined (C124_abs_violated)."
  },
  {
   "property": "C125",
   "status": "partial",
   "theorems": [
    "Verif.Props.Scalar.C125_sound",
    "Verif.Props.Scalar.C125_complete",
    "Verif.Props.Scalar.C125_equivalence",
    "Verif.Props.Scalar.C125_zero_violated"
   ],
   "note": "For an epsilon of zero nothing equals itself (C125_zero_violated)."
  },
  {
   "property": "C126",
   "status": "partial",
   "theorems": [
    "Verif.Props.Scalar.C126_ends",
    "Verif.Props.Scalar.C126_error",
    "Verif.Props.Scalar.C126_constant_violated"
   ],
   "note": "Between two equal values it can give another value (C126_constant_violated). The exponent range is not modelled."
  },
  {
   "property": "C127",
   "status": "partial",
   "theorems": [
    "Verif.Props.Constants.C127_numbers_partial",
    "Verif.Props.Constants.C127_conversions_partial",
    "Verif.Props.Constants.C127_exponentials_partial",
    "Verif.Props.Constants.C127_exponentials_violated",
    "Verif.Props.Constants.C127_e_violated",
    "Verif.Props.Constants.C127_long_violated"
   ],
   "note": "Proved for all constants that do not involve e, except quadruple long double. Those that involve e are the nearest for float and less than two units off for double; e itself is not the nearest double, and none is right for long double (C127_e_violated, C127_exponentials_violated). The 22 digits are too few for a quadruple long double (C127_long_violated). Exponent ranges are not modelled."
  },
  {
   "property": "C128",
   "status": "partial",
   "theorems": [
    "Verif.Props.Constants.C128_numbers_partial",
    "Verif.Props.Constants.C128_conversions_partial",
    "Verif.Props.Constants.C128_exponentials_violated",
    "Verif.Props.Constants.C128_degrees_violated"
   ],
   "note": "Proved for all that do not involve e, but degrees_to_radians (less than one unit off; C128_degrees_violated); violated by all 18 that involve e (C128_exponentials_violated)."
  },
  {
   "property": "C129",
   "status": "partial",
   "theorems": [
    "Verif.Props.Constants.C129_numbers_partial",
    "Verif.Props.Constants.C129_exponentials_partial",
    "Verif.Props.Constants.C129_conversions_partial",
    "Verif.Props.Constants.C129_half_violated"
   ],
   "note": "Proved: less than one unit in the last place off. 39 constants of the emulated type are rounded up and not the nearest, pi among them (C129_half_violated)."
  },
  {
   "property": "C130",
   "status": "partial",
   "theorems": [
    "Verif.Props.HalfArith.C130_add",
    "Verif.Props.HalfArith.C130_sub",
    "Verif.Props.HalfArith.C130_mul",
    "Verif.Props.HalfArith.C130_div",
    "Verif.Props.HalfArith.C130_exact",
    "Verif.Props.HalfArith.C130_ieee",
    "Verif.Props.HalfArith.C130_compare",
    "Verif.Props.HalfArith.C130_integer_violated"
   ],
   "note": "All values of both operands. Products with integers are rounded twice and can be off (C130_integer_violated)."
  },
  {
   "property": "C131",
   "status": "partial",
   "theorems": [
    "Verif.Props.HalfArith.C131_lerp_ends",
    "Verif.Props.HalfArith.C131_atan2_partial",
    "Verif.Props.HalfArith.C131_atan2_violated"
   ],
   "note": "atan2 swaps its arguments and gives the angle of (y, x) (C131_atan2_partial, C131_atan2_violated)."
  },
  {
   "property": "C132",
   "status": "partial",
   "theorems": [
    "Verif.Props.TriTri.C132_intersects_partial",
    "Verif.Props.TriTri.C132_far_violated",
    "Verif.Props.TriTri.C132_missed_violated"
   ],
   "note": "Proved for triangles whose corners are in the plane of the other or at least epsilon from it, measured by six times the signed volume. The tolerance does not scale with the triangles: triangles arbitrarily far apart are reported to intersect (C132_far_violated) and crossing ones are missed (C132_missed_violated)."
  },
  {
   "property": "C133",
   "status": "partial",
   "theorems": [
    "Verif.Props.TriTri.C133_segment_partial",
    "Verif.Props.TriTri.C133_undefined_violated"
   ],
   "note": "Proved under the same condition as C132. Otherwise the function can read variables it has not initialised (C133_undefined_violated): the second result of compute_intervals_isectline is ignored."
  },
  {
   "property": "C134",
   "status": "partial",
   "theorems": [
    "Verif.Props.Testers.C134_box",
    "Verif.Props.Testers.C134_sphere_box",
    "Verif.Props.Testers.C134_sphere_partial",
    "Verif.Props.Testers.C134_sphere_violated"
   ],
   "note": "Two spheres: only one direction holds; overlapping spheres can be reported as disjoint, because the squares of the radii are added (C134_sphere_violated), as in C102."
  },
  {
   "property": "C135",
   "status": "proved",
   "theorems": [
    "Verif.Props.PointerCast.C135_compiles",
    "Verif.Props.PointerCast.C135_rejects",
    "Verif.Props.PointerCast.C135_address",
    "Verif.Props.PointerCast.C135_upcast",
    "Verif.Props.PointerCast.C135_downcast",
    "Verif.Props.PointerCast.C135_round",
    "Verif.Props.PointerCast.C135_integers",
    "Verif.Props.PointerCast.C135_null"
   ],
   "note": "C++'s rules for the individual casts are part of the model (legal, step). Windows' IUnknown branch and virtual inheritance are not modelled."
  },
  {
   "property": "C136",
   "status": "partial",
   "theorems": [
    "Verif.Props.Printing.C136_vector",
    "Verif.Props.Printing.C136_matrix",
    "Verif.Props.Printing.C136_shapes",
    "Verif.Props.Printing.C136_integers_partial",
    "Verif.Props.Printing.C136_wide_violated"
   ],
   "note": "128-bit integers are cut to 64 bits (C136_wide_violated). The text of a single floating-point number is the standard library's: the theorems hold for any. axis_angle's operator<< (axis_angle.h 167) calls a function with arguments no declaration accepts and does not compile."
  },
  {
   "property": "C137",
   "status": "partial",
   "theorems": [
    "Verif.Props.VectorStore.C137_scalars",
    "Verif.Props.VectorStore.C137_broadcast",
    "Verif.Props.VectorStore.C137_array",
    "Verif.Props.VectorStore.C137_convert",
    "Verif.Props.VectorStore.C137_concat",
    "Verif.Props.VectorStore.C137_append",
    "Verif.Props.VectorStore.C137_pointer",
    "Verif.Props.VectorStore.C137_pointer_alone",
    "Verif.Props.VectorStore.C137_span_partial",
    "Verif.Props.VectorStore.C137_empty_span_violated",
    "Verif.Props.VectorStore.C137_access",
    "Verif.Props.VectorStore.C137_assign",
    "Verif.Props.VectorStore.C137_components"
   ],
   "note": "A vector from an empty span that has no data breaks the constructor's assumption that the pointer is not null (C137_empty_span_violated); spans with elements are right (C137_span_partial)."
  },
  {
   "property": "C138",
   "status": "partial",
   "theorems": [
    "Verif.Props.VectorEq.C138_same",
    "Verif.Props.VectorEq.C138_equal_numbers",
    "Verif.Props.VectorEq.C138_floats",
    "Verif.Props.VectorEq.C138_integers_partial",
    "Verif.Props.VectorEq.C138_signs_violated",
    "Verif.Props.VectorEq.C138_int_float_partial",
    "Verif.Props.VectorEq.C138_large_violated",
    "Verif.Props.VectorEq.C138_symmetric",
    "Verif.Props.VectorEq.C138_not_equal",
    "Verif.Props.VectorEq.C138_zero",
    "Verif.Props.VectorEq.C138_quaternions"
   ],
   "note": "Wrong where the common type does not represent both operands: signed and unsigned of the same width (C138_signs_violated) and integers beyond the precision of the floating-point type (C138_large_violated)."
  },
  {
   "property": "C139",
   "status": "partial",
   "theorems": [
    "Verif.Props.IntVector.C139_exact",
    "Verif.Props.IntVector.C139_scalar",
    "Verif.Props.IntVector.C139_assign",
    "Verif.Props.IntVector.C139_wraps_partial",
    "Verif.Props.IntVector.C139_short_product_violated",
    "Verif.Props.IntVector.C139_negate",
    "Verif.Props.IntVector.C139_sum",
    "Verif.Props.IntVector.C139_product",
    "Verif.Props.IntVector.C139_dot_partial",
    "Verif.Props.IntVector.C139_dot_violated",
    "Verif.Props.IntVector.C139_cross_partial",
    "Verif.Props.IntVector.C139_shift_left_partial",
    "Verif.Props.IntVector.C139_shift_right_partial",
    "Verif.Props.IntVector.C139_shift_violated"
   ],
   "note": "Unsigned 16-bit products that exceed int are undefined (C139_short_product_violated). dot, cross and shifts of unsigned 32- and 64-bit vectors go through the signed type of the same width: wrong (C139_dot_violated, C139_shift_violated)."
  },
  {
   "property": "C140",
   "status": "partial",
   "theorems": [
    "Verif.Props.TypeName.C140_names_partial",
    "Verif.Props.TypeName.C140_source",
    "Verif.Props.TypeName.C140_integers_partial",
    "Verif.Props.TypeName.C140_zero_violated",
    "Verif.Props.TypeName.C140_nested_violated",
    "Verif.Props.TypeName.C140_arrays_violated",
    "Verif.Props.TypeName.C140_variadic_violated"
   ],
   "note": "Wrong for: the integer 0 and least values (C140_zero_violated); instances as arguments of templates, where a piece of the argument is repeated (C140_nested_violated); arrays of arrays (reversed, so another type's name), pointers to arrays, arrays of function pointers (C140_arrays_violated); pointers to functions with parameters and an ellipsis (C140_variadic_violated). C140_names_partial covers the types without these."
  },
  {
   "property": "C141",
   "status": "partial",
   "theorems": [
    "Verif.Props.HalfEmulated.C141_add_partial",
    "Verif.Props.HalfEmulated.C141_sub_partial",
    "Verif.Props.HalfEmulated.C141_mul_partial",
    "Verif.Props.HalfEmulated.C141_div_partial",
    "Verif.Props.HalfEmulated.C141_increment",
    "Verif.Props.HalfEmulated.C141_nearest_violated",
    "Verif.Props.HalfEmulated.C141_subnormal_violated",
    "Verif.Props.HalfEmulated.C141_large_violated"
   ],
   "note": "Proved faithful from 2^-14 to 131071 and for zeros, infinities, NaN. Violated: the nearest half is not chosen if it is above (C141_nearest_violated), every sum that is subnormal and not zero is wrong (C141_subnormal_violated), every product of 2^17 or more is finite and negative instead of infinite (C141_large_violated)."
  },
  {
   "property": "C142",
   "status": "partial",
   "theorems": [
    "Verif.Props.Flags.C142_combine",
    "Verif.Props.Flags.C142_assign",
    "Verif.Props.Flags.C142_flags",
    "Verif.Props.Flags.C142_complement_partial",
    "Verif.Props.Flags.C142_idioms_partial",
    "Verif.Props.Flags.C142_bool_violated",
    "Verif.Props.Flags.C142_unfixed_partial",
    "Verif.Props.Flags.C142_unfixed_violated"
   ],
   "note": "~ is proved for enumerations with a fixed integer type, and for others if they have negative values or all values of the promoted type. Violated: with underlying type bool ~true is true (C142_bool_violated); for the other enumerations without a fixed type ~ is undefined for every value (C142_unfixed_violated)."
  },
  {
   "property": "C143",
   "status": "proved",
   "theorems": [
    "Verif.Props.MatrixStore.C143_access",
    "Verif.Props.MatrixStore.C143_assign",
    "Verif.Props.MatrixStore.C143_broadcast",
    "Verif.Props.MatrixStore.C143_columns",
    "Verif.Props.MatrixStore.C143_convert",
    "Verif.Props.MatrixStore.C143_equal",
    "Verif.Props.MatrixStore.C143_zero",
    "Verif.Props.MatrixStore.C143_arithmetic",
    "Verif.Props.MatrixStore.C143_wraps"
   ],
   "note": "Equality of different integer types, and of integers with floats, has the exceptions of C138; products of 16-bit unsigned entries with a scalar that of C139."
  },
  {
   "property": "C144",
   "status": "partial",
   "theorems": [
    "Verif.Props.IntMatrix.C144_product_partial",
    "Verif.Props.IntMatrix.C144_assign",
    "Verif.Props.IntMatrix.C144_column_partial",
    "Verif.Props.IntMatrix.C144_row_partial",
    "Verif.Props.IntMatrix.C144_bytes",
    "Verif.Props.IntMatrix.C144_unsigned_violated",
    "Verif.Props.IntMatrix.C144_determinant_partial",
    "Verif.Props.IntMatrix.C144_byte_determinant",
    "Verif.Props.IntMatrix.C144_determinant_violated",
    "Verif.Props.IntMatrix.C144_determinant_sign_violated"
   ],
   "note": "Proved when the sums of products stay below 2^31 (2^(bits-1) for wider types), so always for bytes (determinants up to 3x3). Violated: the product of unsigned matrices is computed in a signed type and undefined although it and all intermediate results are values of the scalar type (C144_unsigned_violated); the determinant of a 4x4 matrix of bytes can overflow int (C144_determinant_violated), and that of unsigned entries from 2^31 on has the wrong sign (C144_determinant_sign_violated)."
  },
  {
   "property": "C145",
   "status": "partial",
   "theorems": [
    "Verif.Props.Shear.C145_shear",
    "Verif.Props.Shear.C145_scaled_rotation",
    "Verif.Props.Shear.C145_zero_scale_violated"
   ],
   "note": "Exact real arithmetic. Violated: an axis of length zero, as after a scaling by zero, counts as sheared (C145_zero_scale_violated)."
  },
  {
   "property": "C146",
   "status": "partial",
   "theorems": [
    "Verif.Props.PoolLifetime.C146_construction",
    "Verif.Props.PoolLifetime.C146_completes",
    "Verif.Props.PoolLifetime.C146_throws_partial",
    "Verif.Props.PoolLifetime.C146_throws_violated",
    "Verif.Props.PoolLifetime.C146_memory_violated",
    "Verif.Props.PoolLifetime.C146_ownership",
    "Verif.Props.PoolLifetime.C146_destroyed_partial",
    "Verif.Props.PoolLifetime.C146_destroyed_violated",
    "Verif.Props.PoolLifetime.C146_moved",
    "Verif.Props.PoolLifetime.C146_self"
   ],
   "note": "Violated three times: if a thread other than the first cannot be started, the constructor joins threads that were not told to stop and never ends (C146_throws_violated); without memory it constructs at a null pointer (C146_memory_violated); move assignment drops the pool of its target, whose threads run for ever (C146_destroyed_violated)."
  },
  {
   "property": "C147",
   "status": "partial",
   "theorems": [
    "Verif.Props.FloatVector.C147_componentwise",
    "Verif.Props.FloatVector.C147_scale",
    "Verif.Props.FloatVector.C147_divide_partial",
    "Verif.Props.FloatVector.C147_divide_power",
    "Verif.Props.FloatVector.C147_divide_violated"
   ],
   "note": "Violated for division by a number, which multiplies by the rounded reciprocal (C147_divide_violated): 5/3 is not the nearest float, x/x may not be one, and with subnormal divisors x/x is infinite and 0/x is NaN. The error bound is C147_divide_partial; powers of two are exact (C147_divide_power)."
  },
  {
   "property": "C148",
   "status": "proved",
   "theorems": [
    "Verif.Props.FloatVector.C148_sum",
    "Verif.Props.FloatVector.C148_dot",
    "Verif.Props.FloatVector.C148_length_squared"
   ],
   "note": "For formats that are not promoted (float, double); halves are summed as floats."
  },
  {
   "property": "C149",
   "status": "proved",
   "theorems": [
    "Verif.Props.Kahan.C149_sum",
    "Verif.Props.Kahan.C149_half"
   ],
   "note": "With the arithmetic as written (precise mode: no reassociation or contraction). Merging of floating-point accumulators does not compile (see C45)."
  },
  {
   "property": "C150",
   "status": "partial",
   "theorems": [
    "Verif.Props.FloatLength.C150_length_partial",
    "Verif.Props.FloatLength.C150_length_violated",
    "Verif.Props.FloatLength.C150_distance_partial",
    "Verif.Props.FloatLength.C150_normalize_partial",
    "Verif.Props.FloatLength.C150_normalize_violated",
    "Verif.Props.FloatLength.C150_normalized",
    "Verif.Props.FloatLength.C150_normalized_sound",
    "Verif.Props.FloatLength.C150_normalized_complete"
   ],
   "note": "Violated where squares overflow or underflow though lengths do not: length({2^64,0}) is infinite and length({2^-76,0}) zero for floats, such vectors normalize to infinities, NaN or zeros (C150_length_violated, C150_normalize_violated), and in one dimension. The partial theorems have the range in which the bounds hold."
  },
  {
   "property": "C151",
   "status": "partial",
   "theorems": [
    "Verif.Props.Approx.C151_vectors",
    "Verif.Props.Approx.C151_symmetric",
    "Verif.Props.Approx.C151_reflexive_partial",
    "Verif.Props.Approx.C151_reflexive_violated",
    "Verif.Props.Approx.C151_zero",
    "Verif.Props.Approx.C151_matrices",
    "Verif.Props.Approx.C151_quaternions",
    "Verif.Props.Approx.C151_shapes",
    "Verif.Props.Approx.C151_plane_sphere_partial",
    "Verif.Props.Approx.C151_plane_sphere_violated",
    "Verif.Props.Approx.C151_zero_shapes",
    "Verif.Props.Approx.C151_sphere_zero_violated",
    "Verif.Props.Approx.C151_integers_partial",
    "Verif.Props.Approx.C151_integers_violated",
    "Verif.Props.Approx.C151_integers_exact"
   ],
   "note": "Violated: a vector with an infinite component is equal but not approximately equal to itself (C151_reflexive_violated); planes and bounding spheres of different scalar types cannot be compared, the call of muu::approx_equal(float, double, double) is ambiguous (C151_plane_sphere_violated); bounding_sphere::approx_zero passes the radius for a vector and does not compile (C151_sphere_zero_violated); integers above the precision are rounded first (C151_integers_violated). Against integers the default epsilon of vectors of float is that of double, so that approximate is exact (C151_integers_exact)."
  },
  {
   "property": "C152",
   "status": "proved",
   "theorems": [
    "Verif.Props.Swizzle.C152_swizzle",
    "Verif.Props.Swizzle.C152_compose",
    "Verif.Props.Swizzle.C152_identity",
    "Verif.Props.Swizzle.C152_named"
   ],
   "note": ""
  },
  {
   "property": "C153",
   "status": "partial",
   "theorems": [
    "Verif.Props.FloatCross.C153_cross",
    "Verif.Props.FloatCross.C153_antisymmetric",
    "Verif.Props.FloatCross.C153_self_partial",
    "Verif.Props.FloatCross.C153_self_violated",
    "Verif.Props.FloatCross.C153_axis",
    "Verif.Props.FloatCross.C153_axis_vector",
    "Verif.Props.FloatCross.C153_orthogonal",
    "Verif.Props.FloatCross.C153_lerp_ends",
    "Verif.Props.FloatCross.C153_lerp"
   ],
   "note": "Violated: with the contractions that MUU_FMA_BLOCK asks for, cross(v, v) is not zero but the rounding error of a product (C153_self_violated). half is promoted and not covered."
  },
  {
   "property": "C154",
   "status": "proved",
   "theorems": [
    "Verif.Props.FloatMatrix.C154_product",
    "Verif.Props.FloatMatrix.C154_assign",
    "Verif.Props.FloatMatrix.C154_column",
    "Verif.Props.FloatMatrix.C154_row",
    "Verif.Props.FloatMatrix.C154_exact",
    "Verif.Props.FloatMatrix.C154_integers",
    "Verif.Props.FloatMatrix.C154_identity",
    "Verif.Props.FloatMatrix.C154_without_translating",
    "Verif.Props.FloatMatrix.C154_position",
    "Verif.Props.FloatMatrix.C154_position3"
   ],
   "note": "transform_position with a last row other than 0 0 0 1 (a division by w) is not covered, nor half (promoted)."
  },
  {
   "property": "C155",
   "status": "partial",
   "theorems": [
    "Verif.Props.FloatQuat.C155_dot",
    "Verif.Props.FloatQuat.C155_product",
    "Verif.Props.FloatQuat.C155_conjugate",
    "Verif.Props.FloatQuat.C155_rotate",
    "Verif.Props.FloatQuat.C155_turned",
    "Verif.Props.FloatQuat.C155_normalize_partial",
    "Verif.Props.FloatQuat.C155_normalize_violated",
    "Verif.Props.FloatQuat.C155_normalized",
    "Verif.Props.FloatQuat.C155_normalized_sound",
    "Verif.Props.FloatQuat.C155_identity",
    "Verif.Props.FloatQuat.C155_identity_rotate"
   ],
   "note": "Violated where squares overflow or underflow though lengths do not: such quaternions normalize to infinities, NaN or zeros (C155_normalize_violated). half is promoted and not covered."
  },
  {
   "property": "C156",
   "status": "proved",
   "theorems": [
    "Verif.Props.FloatDet.C156_determinant",
    "Verif.Props.FloatDet.C156_inverse",
    "Verif.Props.FloatDet.C156_exact",
    "Verif.Props.FloatDet.C156_unimodular",
    "Verif.Props.FloatDet.C156_singular"
   ],
   "note": "half, which is promoted, is not covered."
  },
  {
   "property": "C157",
   "status": "partial",
   "theorems": [
    "Verif.Props.PackedFloat.C157_unpack3",
    "Verif.Props.PackedFloat.C157_unpack2",
    "Verif.Props.PackedFloat.C157_round_trip3_partial",
    "Verif.Props.PackedFloat.C157_round_trip2_partial"
   ],
   "note": "Partial because of the violations of C59, which are excluded by hypotheses. Packing is modelled with an unbounded exponent; long double and promoted types (half) are not covered."
  },
  {
   "property": "C158",
   "status": "partial",
   "theorems": [
    "Verif.Props.PointerRange.C158_loop",
    "Verif.Props.PointerRange.C158_elements",
    "Verif.Props.PointerRange.C158_pairs",
    "Verif.Props.PointerRange.C158_moves",
    "Verif.Props.PointerRange.C158_from_end_violated"
   ],
   "note": "Partial because the last sentence is violated: the constructor with one argument takes the null pointer as the start, so every use of the range has an unspecified or undefined result. The difference of two iterators over pointers does not compile and is not modelled."
  },
  {
   "property": "C159",
   "status": "partial",
   "theorems": [
    "Verif.Props.PoolOrder.C159_no_data_race",
    "Verif.Props.PoolOrder.C159_history",
    "Verif.Props.PoolOrder.C159_enqueue_visible",
    "Verif.Props.PoolOrder.C159_wait_visible",
    "Verif.Props.PoolOrder.C159_destroyed_after_wait_violated",
    "Verif.Props.PoolOrder.C159_destructor_visible"
   ],
   "note": "Partial because the last sentence is violated: a worker counts a task as done before destroying its callable, so wait() can return first (C159_destroyed_after_wait_violated). The actions are the steps of the model of C35-C41; reads and writes are not told apart."
  },
  {
   "property": "C160",
   "status": "partial",
   "theorems": [
    "Verif.Props.TaskStorage.C160_temporary",
    "Verif.Props.TaskStorage.C160_copied",
    "Verif.Props.TaskStorage.C160_referred_partial",
    "Verif.Props.TaskStorage.C160_lvalue_violated",
    "Verif.Props.TaskStorage.C160_accepted",
    "Verif.Props.TaskStorage.C160_discarded",
    "Verif.Props.TaskStorage.C160_batches",
    "Verif.Props.TaskStorage.C160_batch_lvalue_violated",
    "Verif.Props.TaskStorage.C160_batch_index_violated"
   ],
   "note": "Partial because of three violations. An lvalue which cannot be copied without throwing, or is larger than 56 bytes, is kept by pointer and must outlive the task (C160_lvalue_violated, C160_referred_partial). In for_each the limit is 32 bytes, so an lvalue that enqueue copies is referred to by for_each (C160_batch_lvalue_violated). A constant callable with a non-constant overload taking an index is called through that one, always with batch index 0 (C160_batch_index_violated)."
  },
  {
   "property": "C161",
   "status": "partial",
   "theorems": [
    "Verif.Props.HalfConvert.C161_from_number_partial",
    "Verif.Props.HalfConvert.C161_integer",
    "Verif.Props.HalfConvert.C161_integer_faithful_partial",
    "Verif.Props.HalfConvert.C161_nearest_violated",
    "Verif.Props.HalfConvert.C161_large_violated",
    "Verif.Props.HalfConvert.C161_to_integer",
    "Verif.Props.HalfConvert.C161_to_integer_defined",
    "Verif.Props.HalfConvert.C161_to_wide",
    "Verif.Props.HalfConvert.C161_bool",
    "Verif.Props.HalfConvert.C161_native_integer"
   ],
   "note": "Partial because of the emulated conversion: it truncates (C161_nearest_violated), and integers from 2^17 to 2^32 become finite negative numbers (C161_large_violated); below the least normal half see C52. Proved for emulated halves: integers up to 2048 exact and back, all else up to 131071 faithful; conversions to integers and wider types for all halves."
  },
  {
   "property": "C162",
   "status": "partial",
   "theorems": [
    "Verif.Props.Literals.C162_values",
    "Verif.Props.Literals.C162_sizes",
    "Verif.Props.Literals.C162_range_violated",
    "Verif.Props.Literals.C162_minus_partial",
    "Verif.Props.Literals.C162_least_violated"
   ],
   "note": "Partial: literals too large for the type compile, with another value (C162_range_violated); -128_i8 and -32768_i16 are positive, and the least values of the other signed types cannot be written with a minus (C162_least_violated)."
  },
  {
   "property": "C163",
   "status": "partial",
   "theorems": [
    "Verif.Props.StrongTypedef.C163_compare",
    "Verif.Props.StrongTypedef.C163_not",
    "Verif.Props.StrongTypedef.C163_arithmetic_partial",
    "Verif.Props.StrongTypedef.C163_unsigned",
    "Verif.Props.StrongTypedef.C163_narrow_violated",
    "Verif.Props.StrongTypedef.C163_dangling_violated",
    "Verif.Props.StrongTypedef.C163_violated",
    "Verif.Props.StrongTypedef.C163_prefix",
    "Verif.Props.StrongTypedef.C163_postfix_partial",
    "Verif.Props.StrongTypedef.C163_postfix_violated",
    "Verif.Props.StrongTypedef.C163_copy",
    "Verif.Props.StrongTypedef.C163_assign",
    "Verif.Props.StrongTypedef.C163_pointer"
   ],
   "note": "Partial: for types of less than 32 bits a + b, a - b, +a and -a do not compile, because the promoted result is narrowed in a list-initialisation (C163_narrow_violated); for references to constants they compile and the result refers to a temporary that is gone (C163_dangling_violated); x++ and x-- do not compile for references (C163_postfix_violated). Value types that are classes and the trait callable are not modelled, except for != and !."
  },
  {
   "property": "C164",
   "status": "proved",
   "theorems": [
    "Verif.Props.CompressedPair.C164_construct",
    "Verif.Props.CompressedPair.C164_order",
    "Verif.Props.CompressedPair.C164_write",
    "Verif.Props.CompressedPair.C164_swap",
    "Verif.Props.CompressedPair.C164_indices"
   ],
   "note": "For pairs whose accessors compile, see C115."
  },
  {
   "property": "C165",
   "status": "proved",
   "theorems": [
    "Verif.Props.Iterators.C165_arrays",
    "Verif.Props.Iterators.C165_source",
    "Verif.Props.Iterators.C165_distance"
   ],
   "note": "Of iterators with subtraction it is assumed that the difference is the number of increments."
  },
  {
   "property": "C166",
   "status": "partial",
   "theorems": [
    "Verif.Props.FloatBox.C166_contains",
    "Verif.Props.FloatBox.C166_intersects",
    "Verif.Props.FloatBox.C166_inclusion",
    "Verif.Props.FloatBox.C166_closest",
    "Verif.Props.FloatBox.C166_fit_partial",
    "Verif.Props.FloatBox.C166_points_partial",
    "Verif.Props.FloatBox.C166_append_partial",
    "Verif.Props.FloatBox.C166_violated"
   ],
   "note": "Partial: a box made of points does not always contain them: center and extents are rounded to nearest, not outwards (C166_violated gives float points where from_points and append fail, a box that does not contain its max_corner and a box of far points that contains nothing). What holds instead is C166_fit_partial, C166_points_partial: the points are outside by at most the unit round-off times the largest coordinate and the least subnormal number."
  },
  {
   "property": "C167",
   "status": "partial",
   "theorems": [
    "Verif.Props.Meta.C167_types",
    "Verif.Props.Meta.C167_qualifiers",
    "Verif.Props.Meta.C167_copy",
    "Verif.Props.Meta.C167_traits",
    "Verif.Props.Meta.C167_any_partial",
    "Verif.Props.Meta.C167_violated"
   ],
   "note": "Partial: any_cv says that it counts references to qualified types, and does not (C167_violated). It is right for types that are not references (C167_any_partial)."
  },
  {
   "property": "C168",
   "status": "proved",
   "theorems": [
    "Verif.Props.Meta.C168_numbers",
    "Verif.Props.Meta.C168_others",
    "Verif.Props.Meta.C168_exclusive"
   ],
   "note": ""
  },
  {
   "property": "C169",
   "status": "partial",
   "theorems": [
    "Verif.Props.MetaNumbers.C169_equivalent",
    "Verif.Props.MetaNumbers.C169_inverse",
    "Verif.Props.MetaNumbers.C169_copy",
    "Verif.Props.MetaNumbers.C169_elements",
    "Verif.Props.MetaNumbers.C169_sized",
    "Verif.Props.MetaNumbers.C169_violated"
   ],
   "note": "Partial: char8_t, char16_t and char32_t are integral but make_signed of these is void (C169_violated), although make_unsigned works. All other statements hold in full."
  },
  {
   "property": "C170",
   "status": "partial",
   "theorems": [
    "Verif.Props.MetaPointers.C170_rank",
    "Verif.Props.MetaPointers.C170_stars",
    "Verif.Props.MetaPointers.C170_rebase_partial",
    "Verif.Props.MetaPointers.C170_violated",
    "Verif.Props.MetaPointers.C170_traits",
    "Verif.Props.MetaPointers.C170_noexcept_partial",
    "Verif.Props.MetaPointers.C170_noexcept_violated"
   ],
   "note": "Partial: rebase_pointer of a pointer that is itself const or volatile loses the qualifiers of the pointed type: rebase_pointer<const int* const, float> is float* (C170_violated). noexcept is neither added to nor removed from functions with an ellipsis (C170_noexcept_violated)."
  },
  {
   "property": "C171",
   "status": "partial",
   "theorems": [
    "Verif.Props.MetaNumbers.C171_sum",
    "Verif.Props.MetaNumbers.C171_size",
    "Verif.Props.MetaNumbers.C171_order_partial",
    "Verif.Props.MetaNumbers.C171_violated",
    "Verif.Props.MetaNumbers.C171_floats"
   ],
   "note": "Partial: if all types are smaller than int, the order matters: a matrix from signed char, short, unsigned char has elements of type short, one from short, signed char, unsigned char of type int (C171_violated). It does not matter if one type is not smaller (C171_order_partial)."
  },
  {
   "property": "C172",
   "status": "partial",
   "theorems": [
    "Verif.Props.ThreadName.C172_name_partial",
    "Verif.Props.ThreadName.C172_violated"
   ],
   "note": "Partial: on Windows the copy of the name has no zero byte after it unless the name has exactly 255 bytes, so debuggers are given bytes that were never initialised; a name of 256 bytes loses its last byte and a longer one is read beyond the buffer (C172_violated). The description is right up to 255 bytes (C172_name_partial). On other systems nothing is done."
  },
  {
   "property": "C173",
   "status": "proved",
   "theorems": [
    "Verif.Props.SourceLocation.C173_tail"
   ],
   "note": ""
  },
  {
   "property": "C174",
   "status": "proved",
   "theorems": [
    "Verif.Props.BitCast.C174_bits"
   ],
   "note": ""
  },
  {
   "property": "C175",
   "status": "partial",
   "theorems": [
    "Verif.Props.FloatSphere.C175_sound_partial",
    "Verif.Props.FloatSphere.C175_complete",
    "Verif.Props.FloatSphere.C175_violated",
    "Verif.Props.FloatSphere.C175_segment_partial",
    "Verif.Props.FloatSphere.C175_triangle_partial",
    "Verif.Props.FloatSphere.C175_range",
    "Verif.Props.FloatSphere.C175_symmetric",
    "Verif.Props.FloatSphere.C175_monotone",
    "Verif.Props.FloatSphere.C175_center",
    "Verif.Props.FloatSphere.C175_integers",
    "Verif.Props.FloatSphere.C175_box_partial",
    "Verif.Props.FloatSphere.C175_box_complete"
   ],
   "note": "C175_violated: the square of a radius of 2^64 or more overflows in float, and contains is then true of every point; squares of small numbers underflow, and a sphere of radius 2^-77 contains a point at twice the distance. The partial theorems exclude the first."
  },
  {
   "property": "C176",
   "status": "partial",
   "theorems": [
    "Verif.Props.Macros.C176_for_each",
    "Verif.Props.Macros.C176_for_each_empty",
    "Verif.Props.Macros.C176_for_each_many",
    "Verif.Props.Macros.C176_count_partial",
    "Verif.Props.Macros.C176_count_violated",
    "Verif.Props.Macros.C176_attributes",
    "Verif.Props.Macros.C176_free",
    "Verif.Props.Macros.C176_member",
    "Verif.Props.Macros.C176_version"
   ],
   "note": "C176_count_violated: MUU_COUNT_VA_ARGS of no arguments is 1, and of 125 or more it is the text of the 125th argument, not a number, although MUU_FOR_EACH accepts 125."
  },
  {
   "property": "C177",
   "status": "proved",
   "theorems": [
    "Verif.Props.PoolFair.C177_every_task_runs",
    "Verif.Props.PoolFair.C177_every_call_returns",
    "Verif.Props.PoolFair.C177_destruction_completes"
   ],
   "note": "Fairness is an assumption on the operating system and the mutexes, stated in Model/PoolFair.lean; calls returning uses that fewer than 2^64 tasks are ever enqueued (with endless enqueues by others, muu gives one caller no promise of room)."
  },
  {
   "property": "C178",
   "status": "partial",
   "theorems": [
    "Verif.Props.StringLifetime.C178_memory_partial",
    "Verif.Props.StringLifetime.C178_no_leak_partial",
    "Verif.Props.StringLifetime.C178_view_partial",
    "Verif.Props.StringLifetime.C178_source_view_partial",
    "Verif.Props.StringLifetime.C178_view_violated",
    "Verif.Props.StringLifetime.C178_destroyed_violated"
   ],
   "note": "Violated by the code in two ways: a constant request for another character type destroys the string that earlier views of an owning parameter refer to (C178_view_violated); and the std::string in a parameter moved into a new one, or into one of another kind, is never destroyed as an object (C178_destroyed_violated; its characters are moved, so they do not leak). Partial also as C58 (texts on which the operations are undefined). Allocation failure is not modelled."
  },
  {
   "property": "C179",
   "status": "partial",
   "theorems": [
    "Verif.Props.BlobFail.C179_history_partial",
    "Verif.Props.BlobFail.C179_no_leak_partial",
    "Verif.Props.BlobFail.C179_exact_partial",
    "Verif.Props.BlobFail.C179_resize_violated",
    "Verif.Props.BlobFail.C179_claimed_size_violated"
   ],
   "note": "Violated by the code: a failing resize of a non-empty blob copies to a null pointer (C179_resize_violated); a blob whose construction failed claims its size although data() is null, and resizing it copies from null even if there is memory again (C179_claimed_size_violated). Proved: these operations (and the self-assignment of C43) are exactly the undefined ones (C179_exact_partial); in all other histories everything is defined, the claimed sizes, alignments and the bytes are as predicted, and nothing leaks. The model is of a release build: in a debug build the assertions abort the program instead."
  },
  {
   "property": "C180",
   "status": "partial",
   "theorems": [
    "Verif.Props.EmplaceFail.C180_history_partial",
    "Verif.Props.EmplaceFail.C180_no_memory_violated",
    "Verif.Props.EmplaceFail.C180_overflow_violated"
   ],
   "note": "Violated by the code: an array which found no memory claims its capacity and constructs the first element at a null pointer (C180_no_memory_violated); sizeof(T) * capacity wraps around, so that filling an array of such a capacity writes beyond its memory (C180_overflow_violated). Proved for all histories which add elements only to arrays that found memory, with numbers of bytes in range (C180_history_partial). The model is of a release build with exceptions enabled: an assertion or std::terminate() ends the program otherwise."
  },
  {
   "property": "C181",
   "status": "proved",
   "theorems": [
    "Verif.Props.BuildDate.C181_build_moment",
    "Verif.Props.BuildDate.C181_build_never_wrong",
    "Verif.Props.BuildDate.C181_build_injective",
    "Verif.Props.BuildDate.C181_build_unknown"
   ],
   "note": "In the years before 2021 (a build with SOURCE_DATE_EPOCH in the past) the header is rejected by a static_assert: proved as part of C181_build_never_wrong."
  },
  {
   "property": "C182",
   "status": "partial",
   "theorems": [
    "Verif.Props.FloatPlane.C182_distance",
    "Verif.Props.FloatPlane.C182_same_side_partial",
    "Verif.Props.FloatPlane.C182_position_partial",
    "Verif.Props.FloatPlane.C182_contains",
    "Verif.Props.FloatPlane.C182_project",
    "Verif.Props.FloatPlane.C182_integers",
    "Verif.Props.FloatPlane.C182_origin",
    "Verif.Props.FloatPlane.C182_box",
    "Verif.Props.FloatPlane.C182_same_side_violated",
    "Verif.Props.FloatPlane.C182_position_violated"
   ],
   "note": "Violated close to the plane: C182_same_side_violated exhibits floats strictly on either side that are said to be on the same side; C182_position_violated shows that a plane made in a context with another contraction does not contain its position exactly. The partial theorems assume that points are further off than the error, and one contraction for both."
  },
  {
   "property": "C183",
   "status": "partial",
   "theorems": [
    "Verif.Props.FloatRay.C183_at",
    "Verif.Props.FloatRay.C183_plane_forward",
    "Verif.Props.FloatRay.C183_plane_found_partial",
    "Verif.Props.FloatRay.C183_plane_point",
    "Verif.Props.FloatRay.C183_box_partial",
    "Verif.Props.FloatRay.C183_sphere_nan_violated",
    "Verif.Props.FloatRay.C183_sphere_behind_violated",
    "Verif.Props.FloatRay.C183_box_violated",
    "Verif.Props.FloatRay.C183_plane_violated"
   ],
   "note": "Violated by spheres: C183_sphere_nan_violated (a ray aimed at the centre of a sphere hits at NaN, since e2 - a2 is rounded below zero) and C183_sphere_behind_violated (a negative distance). Violated by boxes: C183_box_violated (NaN along an edge, no hit along a face). Violated by planes under different contractions: C183_plane_violated (infinite distance)."
  },
  {
   "property": "C184",
   "status": "partial",
   "theorems": [
    "Verif.Props.FloatTriangle.C184_centroid",
    "Verif.Props.FloatTriangle.C184_centroid_violated",
    "Verif.Props.FloatTriangle.C184_perimeter",
    "Verif.Props.FloatTriangle.C184_hit_partial",
    "Verif.Props.FloatTriangle.C184_found",
    "Verif.Props.FloatTriangle.C184_hit_nan_violated",
    "Verif.Props.FloatTriangle.C184_hit_behind_violated",
    "Verif.Props.FloatTriangle.C184_area_violated"
   ],
   "note": "Partial: violated by the centroid of equal corners, which can be another point (C184_centroid_violated); by the area, which Heron's formula makes NaN for thin triangles that are not degenerate (C184_area_violated); by hits of triangles whose determinants overflow, at the distance NaN (C184_hit_nan_violated); and by triangles behind the ray, which are hit at negative distances (C184_hit_behind_violated). C184_hit_partial therefore says nothing about the sign of the distance."
  },
  {
   "property": "C185",
   "status": "partial",
   "theorems": [
    "Verif.Props.FloatSegment.C185_midpoint_partial",
    "Verif.Props.FloatSegment.C185_midpoint_violated",
    "Verif.Props.FloatSegment.C185_closest_partial",
    "Verif.Props.FloatSegment.C185_contains_sound_partial",
    "Verif.Props.FloatSegment.C185_contains_complete_partial",
    "Verif.Props.FloatSegment.C185_extend_partial",
    "Verif.Props.FloatSegment.C185_reverse",
    "Verif.Props.FloatSegment.C185_end_violated",
    "Verif.Props.FloatSegment.C185_contains_violated",
    "Verif.Props.FloatSegment.C185_short_violated"
   ],
   "note": "Partial: violated by midpoints, whose sum can overflow though they are between the ends (C185_midpoint_violated); by the closest point of an end, and the end extended by zero, which are other points (C185_end_violated); by long segments, which do not contain their ends with the default epsilon (C185_contains_violated); and by short segments with different ends, whose closest points are NaN (C185_short_violated). The other theorems exclude overflow and underflow of the squares (Moderate) and have the errors of rounding in their statements."
  },
  {
   "property": "C186",
   "status": "proved",
   "theorems": [
    "Verif.Props.FloatRotation.C186_turned",
    "Verif.Props.FloatRotation.C186_matrix",
    "Verif.Props.FloatRotation.C186_orthogonal",
    "Verif.Props.FloatRotation.C186_quaternion",
    "Verif.Props.FloatRotation.C186_round_trip",
    "Verif.Props.FloatRotation.C186_normalized"
   ],
   "note": "Formats that are promoted (half) are not modelled. The bounds are for formats of at least 14 bits (8 for the way back alone) and quaternions whose squared length differs from one by at most 1/512."
  },
  {
   "property": "C187",
   "status": "partial",
   "theorems": [
    "Verif.Props.FloatWeights.C187_generator",
    "Verif.Props.FloatWeights.C187_sum",
    "Verif.Props.FloatWeights.C187_first",
    "Verif.Props.FloatWeights.C187_second_partial",
    "Verif.Props.FloatWeights.C187_third_partial",
    "Verif.Props.FloatWeights.C187_weights",
    "Verif.Props.FloatWeights.C187_contained_partial",
    "Verif.Props.FloatWeights.C187_found",
    "Verif.Props.FloatWeights.C187_corners",
    "Verif.Props.FloatWeights.C187_corner_violated",
    "Verif.Props.FloatWeights.C187_thin_violated",
    "Verif.Props.FloatWeights.C187_edge_violated",
    "Verif.Props.FloatWeights.C187_contained_violated"
   ],
   "note": "Partial: violated with contraction by the other corners' coordinates (a triangle of small integers whose second corner gets -11, 1 and 11) and by middles of edges (reported as not contained), without contraction by thin triangles (all coordinates NaN) and by points of the line of the second and third corners outside of the triangle (contained, as C97). Formats that are promoted (half) are not modelled with rounding here. Containment of points that are not known to be in the plane: see C188."
  },
  {
   "property": "C188",
   "status": "partial",
   "theorems": [
    "Verif.Props.FloatNormal.C188_normal",
    "Verif.Props.FloatNormal.C188_coplanar",
    "Verif.Props.FloatNormal.C188_contains",
    "Verif.Props.FloatNormal.C188_found",
    "Verif.Props.FloatNormal.C188_contained_partial",
    "Verif.Props.FloatNormal.C188_corners",
    "Verif.Props.FloatNormal.C188_small_violated",
    "Verif.Props.FloatNormal.C188_large_violated"
   ],
   "note": "Partial: proved if the triangle is not so thin that rounding can change a 32nd of the cross product, nor so small or large that the square of the cross product's length underflows or overflows. Violated without that: a triangle with edges of 2^-40 does not contain its own first corner whatever epsilon is (the normal is NaN), and one with edges of 2^40 contains points however far from its plane (the normal is zero), in floats without contraction. Points outside of the triangle beyond the edge opposite to the first corner: see C97 and C187. Formats that are promoted (half) are not modelled with rounding here."
  },
  {
   "property": "C189",
   "status": "partial",
   "theorems": [
    "Verif.Props.FloatSpheres.C189_sound",
    "Verif.Props.FloatSpheres.C189_found_partial",
    "Verif.Props.FloatSpheres.C189_common",
    "Verif.Props.FloatSpheres.C189_symmetric",
    "Verif.Props.FloatSpheres.C189_self",
    "Verif.Props.FloatSpheres.C189_inside",
    "Verif.Props.FloatSpheres.C189_contained_partial",
    "Verif.Props.FloatSpheres.C189_integers",
    "Verif.Props.FloatSpheres.C189_apart_violated",
    "Verif.Props.FloatSpheres.C189_out_violated",
    "Verif.Props.FloatSpheres.C189_small_violated"
   ],
   "note": "Partial: the code compares with the sum of the squared radii. So spheres that it says intersect have a point in common (C189_common) and a sphere that is inside by the test's measure is found (C189_inside), but it misses spheres that overlap (C189_apart_violated) and says that a sphere which sticks out is contained (C189_out_violated); small spheres that are far apart intersect because the squares underflow (C189_small_violated). Formats that are promoted (half) are not modelled with rounding here."
  },
  {
   "property": "C190",
   "status": "proved",
   "theorems": [
    "Verif.Props.FloatObb.C190_contains",
    "Verif.Props.FloatObb.C190_box",
    "Verif.Props.FloatObb.C190_sound",
    "Verif.Props.FloatObb.C190_found",
    "Verif.Props.FloatObb.C190_segment",
    "Verif.Props.FloatObb.C190_triangle",
    "Verif.Props.FloatObb.C190_range",
    "Verif.Props.FloatObb.C190_center",
    "Verif.Props.FloatObb.C190_closest",
    "Verif.Props.FloatObb.C190_nearest",
    "Verif.Props.FloatObb.C190_corner",
    "Verif.Props.FloatObb.C190_margin_needed",
    "Verif.Props.FloatObb.C190_range_needed"
   ],
   "note": "C190_margin_needed: a box does not contain its own corner, nor the point that closest_point gives; C190_range_needed: closest_point gives NaN if the difference overflows. Formats that are promoted (half) are not modelled with rounding here; volume, transform and the approximate comparisons are not either."
  },
  {
   "property": "C191",
   "status": "proved",
   "theorems": [
    "Verif.Props.FloatObbs.C191_sphere_sound",
    "Verif.Props.FloatObbs.C191_sphere_found",
    "Verif.Props.FloatObbs.C191_sphere_near",
    "Verif.Props.FloatObbs.C191_inside_sound",
    "Verif.Props.FloatObbs.C191_inside_found",
    "Verif.Props.FloatObbs.C191_range",
    "Verif.Props.FloatObbs.C191_from_obb",
    "Verif.Props.FloatObbs.C191_margin_needed"
   ],
   "note": "C191_margin_needed: a box is said to contain a turned one, a corner of which is outside by less than a unit of round-off. The separating-axis tests are not modelled with rounding here."
  },
  {
   "property": "C192",
   "status": "proved",
   "theorems": [
    "Verif.Props.Limits.C192_signed",
    "Verif.Props.Limits.C192_unsigned",
    "Verif.Props.Limits.C192_float128",
    "Verif.Props.Limits.C192_half",
    "Verif.Props.Limits.C192_digits",
    "Verif.Props.Limits.C192_epsilon",
    "Verif.Props.Limits.C192_epsilon_nearest",
    "Verif.Props.Limits.C192_characters",
    "Verif.Props.Limits.C192_integers",
    "Verif.Props.Limits.C192_half_constants"
   ],
   "note": "What std::numeric_limits says about the standard types is trusted. Exponents are unbounded in the claim about digits: numbers that are subnormal or too large are not covered. C192_epsilon_nearest: default_epsilon of double is not the nearest number."
  }
 ]
}