{
 "claims": [
  {
   "property": "C01",
   "status": "proved",
   "theorems": [
    "Ystring.C01_decode_encode_forwards"
   ],
   "note": ""
  },
  {
   "property": "C02",
   "status": "proved",
   "theorems": [
    "Ystring.C02_decode_encode_backwards"
   ],
   "note": ""
  },
  {
   "property": "C03",
   "status": "proved",
   "theorems": [
    "Ystring.C03_spec_agrees_with_lean",
    "Ystring.C03_encode_rfc3629"
   ],
   "note": ""
  },
  {
   "property": "C04",
   "status": "proved",
   "theorems": [
    "Ystring.C04_bounded_encode"
   ],
   "note": ""
  },
  {
   "property": "C05",
   "status": "proved",
   "theorems": [
    "Ystring.C05_decode_next_total",
    "Ystring.C05_invalid_is_no_value"
   ],
   "note": ""
  },
  {
   "property": "C06",
   "status": "partial",
   "theorems": [
    "Ystring.C06_decode_prev_ub_iff",
    "Ystring.C06_false",
    "Ystring.C06_decode_prev_partial"
   ],
   "note": "The no-undefined-behaviour part is false: the exact set of strings with an over-wide shift is characterised (C06_decode_prev_ub_iff); everything else is proved for all other strings."
  },
  {
   "property": "C07",
   "status": "proved",
   "theorems": [
    "Ystring.C07_iteration_agrees"
   ],
   "note": ""
  },
  {
   "property": "C08",
   "status": "partial",
   "theorems": [
    "Ystring.C08_is_valid_partial",
    "Ystring.C08_false",
    "Ystring.C08_wellFormed_check"
   ],
   "note": "One direction is false: overlong forms, surrogates and values up to 0x1FFFFF are accepted (C08_false). Proved: the exact accepted language, and that every RFC 3629 string is accepted."
  },
  {
   "property": "C09",
   "status": "proved",
   "theorems": [
    "Ystring.C09_to_utf32"
   ],
   "note": ""
  },
  {
   "property": "C10",
   "status": "proved",
   "theorems": [
    "Ystring.C10_to_from_utf32",
    "Ystring.C10_to_from_utf32_exact",
    "Ystring.C10_from_to_utf32",
    "Ystring.C10_overlong_not_preserved",
    "Ystring.C10_from_utf32_char"
   ],
   "note": ""
  },
  {
   "property": "C11",
   "status": "partial",
   "theorems": [
    "Ystring.C11_same_boundaries_partial",
    "Ystring.C11_forward_progress",
    "Ystring.C11_backward_progress",
    "Ystring.C11_false_beyond_4GiB"
   ],
   "note": "Proved for strings below 2^32 bytes; beyond 4 GiB the 32-bit counters make it false (C11_false_beyond_4GiB)."
  },
  {
   "property": "C12",
   "status": "partial",
   "theorems": [
    "Ystring.C12_count_valid",
    "Ystring.C12_count_total",
    "Ystring.C12_false"
   ],
   "note": "The count is proved; count_codepoints never throws, so the documented exception is refuted (C12_false)."
  },
  {
   "property": "C13",
   "status": "partial",
   "theorems": [
    "Ystring.C13_pop_front",
    "Ystring.C13_pop_back_partial",
    "Ystring.C13_false",
    "Ystring.C13_remove_front",
    "Ystring.C13_remove_back"
   ],
   "note": "pop_last is subject to the decode_prev shift (C13_false); rest proved."
  },
  {
   "property": "C14",
   "status": "proved",
   "theorems": [
    "Ystring.C14_repairs",
    "Ystring.C14_replace_invalid",
    "Ystring.C14_default"
   ],
   "note": ""
  },
  {
   "property": "C15",
   "status": "proved",
   "theorems": [
    "Ystring.C15_append",
    "Ystring.C15_append_valid"
   ],
   "note": ""
  },
  {
   "property": "C16",
   "status": "proved",
   "theorems": [
    "Ystring.C16_contains_valid",
    "Ystring.C16_contains_malformed",
    "Ystring.C16_cases"
   ],
   "note": ""
  },
  {
   "property": "C17",
   "status": "proved",
   "theorems": [
    "Ystring.C17_find_first",
    "Ystring.C17_find_first_corner"
   ],
   "note": ""
  },
  {
   "property": "C18",
   "status": "proved",
   "theorems": [
    "Ystring.C18_find_last",
    "Ystring.C18_find_last_empty"
   ],
   "note": ""
  },
  {
   "property": "C19",
   "status": "proved",
   "theorems": [
    "Ystring.C19_matches_aligned"
   ],
   "note": ""
  },
  {
   "property": "C20",
   "status": "proved",
   "theorems": [
    "Ystring.C20_find_first_where",
    "Ystring.C20_cases",
    "Ystring.C20_offset_ub",
    "Ystring.C20_find_first_of"
   ],
   "note": ""
  },
  {
   "property": "C21",
   "status": "proved",
   "theorems": [
    "Ystring.C21_find_last_where",
    "Ystring.C21_cases",
    "Ystring.C21_find_last_of"
   ],
   "note": ""
  },
  {
   "property": "C22",
   "status": "partial",
   "theorems": [
    "Ystring.C22_find_first_newline_partial",
    "Ystring.C22_find_last_newline_partial",
    "Ystring.C22_cases",
    "Ystring.C22_false",
    "Ystring.C22_memory_behind_array",
    "Ystring.C22_memory_needed"
   ],
   "note": "The array NEWLINES is not terminated: the code reads behind it. Proved when none of the values found there occurs in the string (C22_memory_behind_array reduces this to the intended program, whose results are given by the _partial theorems); the condition is necessary (C22_memory_needed, C22_false)."
  },
  {
   "property": "C23",
   "status": "proved",
   "theorems": [
    "Ystring.C23_starts_with",
    "Ystring.C23_ends_with",
    "Ystring.C23_codepoints",
    "Ystring.C23_wellFormed"
   ],
   "note": ""
  },
  {
   "property": "C24",
   "status": "proved",
   "theorems": [
    "Ystring.C24_segmentation",
    "Ystring.C24_both_directions"
   ],
   "note": ""
  },
  {
   "property": "C25",
   "status": "proved",
   "theorems": [
    "Ystring.C25_count_chars",
    "Ystring.C25_count_chars_malformed",
    "Ystring.C25_get_char_pos"
   ],
   "note": ""
  },
  {
   "property": "C26",
   "status": "proved",
   "theorems": [
    "Ystring.C26_get_char_range",
    "Ystring.C26_empty_iff"
   ],
   "note": ""
  },
  {
   "property": "C27",
   "status": "partial",
   "theorems": [
    "Ystring.C27_get_codepoint_pos_partial",
    "Ystring.C27_codePoints",
    "Ystring.C27_any_string_partial",
    "Ystring.C27_false"
   ],
   "note": "PTRDIFF_MIN is undefined behaviour (C27_false); proved for every other index."
  },
  {
   "property": "C28",
   "status": "proved",
   "theorems": [
    "Ystring.C28_get_codepoint"
   ],
   "note": ""
  },
  {
   "property": "C29",
   "status": "partial",
   "theorems": [
    "Ystring.C29_get_codepoint_substring_partial",
    "Ystring.C29_false"
   ],
   "note": "Proved for the index pairs of GoodCodepointSlice and refuted for all others (C29_false)."
  },
  {
   "property": "C30",
   "status": "partial",
   "theorems": [
    "Ystring.C30_get_char_substring_partial",
    "Ystring.C30_false"
   ],
   "note": "Proved for the index pairs of GoodCharSlice and refuted for all others (C30_false)."
  },
  {
   "property": "C31",
   "status": "partial",
   "theorems": [
    "Ystring.C31_replace_codepoints_partial",
    "Ystring.C31_false_codepoints",
    "Ystring.C31_replace_chars_partial",
    "Ystring.C31_false_chars"
   ],
   "note": "Proved for the index pairs of GoodCodepointReplace/GoodCharReplace and refuted for all others."
  },
  {
   "property": "C32",
   "status": "partial",
   "theorems": [
    "Ystring.C32_insert_chars_partial",
    "Ystring.C32_insert_codepoints_partial",
    "Ystring.C32_false"
   ],
   "note": "Exact behaviour proved; inserting an empty string never throws, refuting the 'iff' (C32_false)."
  },
  {
   "property": "C33",
   "status": "partial",
   "theorems": [
    "Ystring.C33_reverse",
    "Ystring.C33_reverse_reverse_partial",
    "Ystring.C33_false"
   ],
   "note": "Character order and size proved; reverse(reverse(s)) = s iff s does not begin with a combining mark (or has one character)."
  },
  {
   "property": "C34",
   "status": "proved",
   "theorems": [
    "Ystring.C34_replace_left",
    "Ystring.C34_replace_all"
   ],
   "note": ""
  },
  {
   "property": "C35",
   "status": "proved",
   "theorems": [
    "Ystring.C35_replace_right",
    "Ystring.C35_replace_all"
   ],
   "note": ""
  },
  {
   "property": "C36",
   "status": "proved",
   "theorems": [
    "Ystring.C36_replace_valid",
    "Ystring.C36_replace_codepoint"
   ],
   "note": ""
  },
  {
   "property": "C37",
   "status": "partial",
   "theorems": [
    "Ystring.C37_false_zero",
    "Ystring.C37_false_empty_left",
    "Ystring.C37_empty_pattern_partial",
    "Ystring.C37_min_ub"
   ],
   "note": "Both documented conventions are false of the code: max_replacements = 0 replaces nothing (C37_false_zero), and an empty pattern prepends the replacement n times to a non-empty string when n > 0 (C37_false_empty_left); for n <= 0 or an empty string it is the identity (C37_empty_pattern_partial). PTRDIFF_MIN is undefined (C37_min_ub)."
  },
  {
   "property": "C38",
   "status": "proved",
   "theorems": [
    "Ystring.C38_split_where",
    "Ystring.C38_zero",
    "Ystring.C38_split_join",
    "Ystring.C38_join_split"
   ],
   "note": ""
  },
  {
   "property": "C39",
   "status": "proved",
   "theorems": [
    "Ystring.C39_split_pieces",
    "Ystring.C39_split_ignore_empty_limit",
    "Ystring.C39_split_ignore_empty",
    "Ystring.C39_IGNORE_EMPTY",
    "Ystring.C39_split_chars"
   ],
   "note": ""
  },
  {
   "property": "C40",
   "status": "partial",
   "theorems": [
    "Ystring.C40_memory_behind_array",
    "Ystring.C40_split_lines_partial"
   ],
   "note": "As C22: proved when none of the values in the memory behind the non-terminated array NEWLINES occurs in the string (C40_memory_behind_array, C40_split_lines_partial)."
  },
  {
   "property": "C41",
   "status": "partial",
   "theorems": [
    "Ystring.C41_token_iterator_partial",
    "Ystring.C41_false"
   ],
   "note": "part() and remainder() are proved for every step; token() returns a wrong substring when its offset is not 0 (C41_false), and the partial theorem says what it returns."
  },
  {
   "property": "C42",
   "status": "proved",
   "theorems": [
    "Ystring.C42_trim_array",
    "Ystring.C42_ascii_whitespace",
    "Ystring.C42_trim_default",
    "Ystring.C42_trim_start_where",
    "Ystring.C42_trim_end_where",
    "Ystring.C42_trim_where",
    "Ystring.C42_idempotent",
    "Ystring.C42_trim_chars",
    "Ystring.C42_default_reads_past_array"
   ],
   "note": ""
  },
  {
   "property": "C43",
   "status": "partial",
   "theorems": [
    "Ystring.CI.C43_equal",
    "Ystring.CI.C43_equal_iff",
    "Ystring.CI.C43_equivalence",
    "Ystring.CI.C43_total",
    "Ystring.CI.C43_false",
    "Ystring.CI.C43_upper_partial"
   ],
   "note": "equal is proved to be an equivalence, decided by code point upper-casing; the comparison with to_upper of the strings fails exactly for sharp s (C43_false) and is proved for strings without it."
  },
  {
   "property": "C44",
   "status": "proved",
   "theorems": [
    "Ystring.CI.C44_compare",
    "Ystring.CI.C44_order"
   ],
   "note": ""
  },
  {
   "property": "C45",
   "status": "proved",
   "theorems": [
    "Ystring.CI.C45_find_first",
    "Ystring.CI.C45_find_first_corner",
    "Ystring.CI.C45_find_last",
    "Ystring.CI.C45_find_of"
   ],
   "note": ""
  },
  {
   "property": "C46",
   "status": "proved",
   "theorems": [
    "Ystring.CI.C46_starts_with",
    "Ystring.CI.C46_ends_with"
   ],
   "note": ""
  },
  {
   "property": "C47",
   "status": "proved",
   "theorems": [
    "Ystring.CI.C47_cuts_unique",
    "Ystring.CI.C47_split",
    "Ystring.CI.C47_split_empty",
    "Ystring.CI.C47_split_chars",
    "Ystring.CI.C47_replace_left",
    "Ystring.CI.C47_replace_right",
    "Ystring.CI.C47_right_unique",
    "Ystring.CI.C47_replace_empty"
   ],
   "note": ""
  },
  {
   "property": "C48",
   "status": "partial",
   "theorems": [
    "Ystring.C48_history_partial",
    "Ystring.C48_false"
   ],
   "note": "Proved for all histories of proper operations (ranges first <= last below 0xFFFFFFFF); false for inverted ranges and for ranges ending at 0xFFFFFFFF (C48_false)."
  },
  {
   "property": "C49",
   "status": "partial",
   "theorems": [
    "Ystring.CI.C49_span",
    "Ystring.C49_exact",
    "Ystring.C49_contains_partial",
    "Ystring.C49_singles",
    "Ystring.C49_false"
   ],
   "note": "C49_exact decides membership for every set: the upper-cased value lies between the upper-cased ends of a range. The claim follows for sets of single code points (C49_singles) and for ranges on which upper-casing respects the ends (C49_contains_partial); it is false for ranges such as Z-a (C49_false)."
  },
  {
   "property": "C50",
   "status": "partial",
   "theorems": [
    "Ystring.C50_one_class",
    "Ystring.C50_general_category_partial",
    "Ystring.C50_false_ideographs",
    "Ystring.C50_false",
    "Ystring.C50_false_large",
    "Ystring.C50_exact",
    "Ystring.C50_large"
   ],
   "note": "Refuted strictly inside 11 ideograph blocks and from 2^21 on; the exact set of wrong answers below 2^21 is proved (C50_exact), and what is returned from 2^21 on (C50_large)."
  },
  {
   "property": "C51",
   "status": "proved",
   "theorems": [
    "Ystring.C51_alpha_numeric",
    "Ystring.C51_graphical",
    "Ystring.C51_visible",
    "Ystring.C51_cased",
    "Ystring.C51_partition",
    "Ystring.C51_control_format_surrogate",
    "Ystring.C51_surrogate",
    "Ystring.C51_whitespace",
    "Ystring.C51_newline",
    "Ystring.C51_hex_digit"
   ],
   "note": ""
  },
  {
   "property": "C52",
   "status": "proved",
   "theorems": [
    "Ystring.C52_to_lower",
    "Ystring.C52_to_upper",
    "Ystring.C52_to_title",
    "Ystring.C52_idempotent",
    "Ystring.C52_range"
   ],
   "note": ""
  },
  {
   "property": "C53",
   "status": "proved",
   "theorems": [
    "Ystring.C53_to_lower",
    "Ystring.C53_to_upper",
    "Ystring.C53_to_title",
    "Ystring.C53_idempotent",
    "Ystring.C53_valid"
   ],
   "note": ""
  },
  {
   "property": "C54",
   "status": "partial",
   "theorems": [
    "Ystring.C54_spec",
    "Ystring.C54_decompose_partial",
    "Ystring.C54_decompose_exact",
    "Ystring.C54_unsupported",
    "Ystring.C54_four",
    "Ystring.C54_total",
    "Ystring.C54_false",
    "Ystring.C54_to_decomposed_partial",
    "Ystring.C54_to_decomposed_canon_partial",
    "Ystring.C54_false_diverges",
    "Ystring.C54_cases",
    "Ystring.C54_outcomes"
   ],
   "note": "The exact set of code points on which decompose agrees with Unicode 16 is proved, with the outcome for all others; to_decomposed is characterised on every string, including those on which it does not terminate (C54_false_diverges)."
  },
  {
   "property": "C55",
   "status": "partial",
   "theorems": [
    "Ystring.C55_exact_all",
    "Ystring.C55_equivalent_iff_all",
    "Ystring.C55_equivalent_iff",
    "Ystring.C55_exact",
    "Ystring.C55_equivalent_partial",
    "Ystring.C55_composes_partial",
    "Ystring.C55_identity_partial",
    "Ystring.C55_false_lost",
    "Ystring.C55_false_ub",
    "Ystring.C55_false_kana",
    "Ystring.C55_false_plane16",
    "Ystring.C55_false",
    "Ystring.C55_outcomes"
   ],
   "note": "to_composed is characterised exactly on the UTF-8 text of every list of code points up to U+10FFFF (C55_exact_all; C55_exact for the simpler case without plane 16), and where it returns, the result is canonically equivalent to the argument if and only if no code point is lost and none of plane 16 is taken for a mark (C55_equivalent_iff_all). The property as stated is refuted by lost characters, out-of-bounds reads and plane-16 aliasing (C55_false...)."
  },
  {
   "property": "C56",
   "status": "proved",
   "theorems": [
    "Ystring.C56_exact",
    "Ystring.C56_json",
    "Ystring.C56_kept",
    "Ystring.C56_valid",
    "Ystring.C56_wellformed",
    "Ystring.C56_has",
    "Ystring.C56_unchanged",
    "Ystring.C56_find"
   ],
   "note": ""
  },
  {
   "property": "C57",
   "status": "proved",
   "theorems": [
    "Ystring.C57_roundtrip",
    "Ystring.C57_injective"
   ],
   "note": ""
  },
  {
   "property": "C58",
   "status": "partial",
   "theorems": [
    "Ystring.C58_exact",
    "Ystring.C58_throws",
    "Ystring.C58_undefined",
    "Ystring.C58_partial",
    "Ystring.C58_safe_partial",
    "Ystring.C58_buffer",
    "Ystring.C58_no_backslash",
    "Ystring.C58_false"
   ],
   "note": "The strings with undefined behaviour are characterised exactly (C58_exact, C58_undefined); safety and size bound are proved for all others."
  },
  {
   "property": "C59",
   "status": "partial",
   "theorems": [
    "Ystring.C59_partial",
    "Ystring.C59_exact",
    "Ystring.C59_false"
   ],
   "note": "Proved for all well-formed input with values up to U+10FFFF; larger values are silently dropped (C59_false)."
  },
  {
   "property": "C60",
   "status": "partial",
   "theorems": [
    "Ystring.C60_end",
    "Ystring.C60_plain",
    "Ystring.C60_escape",
    "Ystring.C60_bad_plain",
    "Ystring.C60_bad_escape",
    "Ystring.C60_cases",
    "Ystring.C60_none",
    "Ystring.C60_progress",
    "Ystring.C60_suffix",
    "Ystring.C60_rollback_partial",
    "Ystring.C60_false"
   ],
   "note": "All outcomes are characterised (C60_cases); the view is not restored when escaped newlines precede the malformed part (C60_false)."
  },
  {
   "property": "C61",
   "status": "proved",
   "theorems": [
    "Ystring.C61_readback"
   ],
   "note": ""
  },
  {
   "property": "C62",
   "status": "partial",
   "theorems": [
    "Ystring.C62_none",
    "Ystring.C62_throws",
    "Ystring.C62_found_partial",
    "Ystring.C62_exact",
    "Ystring.C62_cases",
    "Ystring.C62_has",
    "Ystring.C62_false"
   ],
   "note": "All outcomes are characterised (C62_cases, C62_none, C62_throws, C62_exact): the range is exactly the first escape sequence, except for truncated sequences at the end, where it exceeds the string (C62_false)."
  },
  {
   "property": "C63",
   "status": "proved",
   "theorems": [
    "Ystring.C63_to_utf32",
    "Ystring.C63_contains",
    "Ystring.C63_count_chars",
    "Ystring.C63_to_lower",
    "Ystring.C63_to_upper",
    "Ystring.C63_to_title",
    "Ystring.C63_find_first_where",
    "Ystring.C63_find_first_of",
    "Ystring.C63_find_first_of_set",
    "Ystring.C63_find_first_newline",
    "Ystring.C63_get_char_pos",
    "Ystring.C63_get_char_range",
    "Ystring.C63_get_next_char_range",
    "Ystring.C63_get_codepoint",
    "Ystring.C63_get_codepoint_pos",
    "Ystring.C63_get_codepoint_substring",
    "Ystring.C63_replace_codepoints",
    "Ystring.C63_insert_char",
    "Ystring.C63_insert_chars",
    "Ystring.C63_insert_codepoint",
    "Ystring.C63_insert_codepoints",
    "Ystring.C63_split",
    "Ystring.C63_split_chars",
    "Ystring.C63_split_lines",
    "Ystring.C63_trim_start",
    "Ystring.C63_trim_start_where",
    "Ystring.C63_ci_compare",
    "Ystring.C63_ci_equal",
    "Ystring.C63_ci_less",
    "Ystring.C63_ci_starts_with",
    "Ystring.C63_ci_find_first",
    "Ystring.C63_ci_find_first_of",
    "Ystring.C63_ci_find_first_of_set",
    "Ystring.C63_ci_replace",
    "Ystring.C63_ci_split",
    "Ystring.C63_ci_split_chars"
   ],
   "note": ""
  },
  {
   "property": "C64",
   "status": "proved",
   "theorems": [
    "Ystring.C64_find_last_where",
    "Ystring.C64_find_last_of",
    "Ystring.C64_find_last_of_set",
    "Ystring.C64_find_last_newline",
    "Ystring.C64_get_char_pos",
    "Ystring.C64_get_char_range",
    "Ystring.C64_get_prev_char_range",
    "Ystring.C64_get_codepoint",
    "Ystring.C64_get_char_substring",
    "Ystring.C64_replace_chars",
    "Ystring.C64_insert_char",
    "Ystring.C64_insert_chars",
    "Ystring.C64_reverse",
    "Ystring.C64_trim_end",
    "Ystring.C64_trim_end_where",
    "Ystring.C64_trim",
    "Ystring.C64_trim_where",
    "Ystring.C64_ci_ends_with",
    "Ystring.C64_ci_find_last",
    "Ystring.C64_ci_find_last_of",
    "Ystring.C64_ci_find_last_of_set",
    "Ystring.C64_ci_replace",
    "Ystring.C64_false_for_long_runs"
   ],
   "note": ""
  },
  {
   "property": "C65",
   "status": "proved",
   "theorems": [
    "Ystring.C65_from_utf32_order",
    "Ystring.C65_byte_order",
    "Ystring.C65_overlong"
   ],
   "note": ""
  },
  {
   "property": "C66",
   "status": "partial",
   "theorems": [
    "Ystring.C66_enumerators_partial",
    "Ystring.C66_groups",
    "Ystring.C66_predicates_partial",
    "Ystring.C66_false",
    "Ystring.C66_letter_exact",
    "Ystring.C66_predicates_exact"
   ],
   "note": "is_letter, is_alpha_numeric, is_graphical and is_visible are wrong exactly inside the 11 ideograph/Hangul blocks in which get_char_class is wrong (C50); all other predicates are proved for every code point below 2^21 (C66_predicates_exact). C66_false is a counterexample."
  },
  {
   "property": "C67",
   "status": "proved",
   "theorems": [
    "Ystring.CI.C67_find_first_of",
    "Ystring.CI.C67_find_last_of"
   ],
   "note": ""
  },
  {
   "property": "C68",
   "status": "proved",
   "theorems": [
    "Ystring.C68_subrange",
    "Ystring.C68_subrange_injective",
    "Ystring.C68_codepoint_set",
    "Ystring.C68_set_ambiguous"
   ],
   "note": ""
  },
  {
   "property": "C69",
   "status": "proved",
   "theorems": [
    "Ystring.C69_to_utf32",
    "Ystring.C69_from_utf32",
    "Ystring.C69_codepoints",
    "Ystring.C69_escape_json",
    "Ystring.C69_equal",
    "Ystring.C69_false",
    "Ystring.C69_characters"
   ],
   "note": ""
  },
  {
   "property": "C70",
   "status": "proved",
   "theorems": [
    "Ystring.C70_insert",
    "Ystring.C70_slice",
    "Ystring.C70_append"
   ],
   "note": ""
  },
  {
   "property": "C71",
   "status": "proved",
   "theorems": [
    "Ystring.C71_parts",
    "Ystring.C71_single"
   ],
   "note": ""
  },
  {
   "property": "C72",
   "status": "proved",
   "theorems": [
    "Ystring.C72_negative_index",
    "Ystring.C72_range_start"
   ],
   "note": ""
  },
  {
   "property": "C73",
   "status": "proved",
   "theorems": [
    "Ystring.C73_find",
    "Ystring.C73_contains",
    "Ystring.C73_overlong"
   ],
   "note": ""
  },
  {
   "property": "C74",
   "status": "proved",
   "theorems": [
    "Ystring.C74_replace_split",
    "Ystring.C74_ci",
    "Ystring.C74_length"
   ],
   "note": ""
  },
  {
   "property": "C75",
   "status": "proved",
   "theorems": [
    "Ystring.C75_upper",
    "Ystring.C75_lower",
    "Ystring.C75_title",
    "Ystring.C75_same",
    "Ystring.C75_upper_lower"
   ],
   "note": ""
  },
  {
   "property": "C76",
   "status": "proved",
   "theorems": [
    "Ystring.C76_utf32",
    "Ystring.C76_case",
    "Ystring.C76_escape"
   ],
   "note": ""
  },
  {
   "property": "C77",
   "status": "proved",
   "theorems": [
    "Ystring.C77_equal_less",
    "Ystring.C77_compare",
    "Ystring.C77_order",
    "Ystring.C77_large"
   ],
   "note": ""
  },
  {
   "property": "C78",
   "status": "proved",
   "theorems": [
    "Ystring.C78_skip_next",
    "Ystring.C78_skip_prev"
   ],
   "note": ""
  },
  {
   "property": "C79",
   "status": "proved",
   "theorems": [
    "Ystring.C79_concat",
    "Ystring.C79_concat_mark",
    "Ystring.C79_permutes",
    "Ystring.C79_characters",
    "Ystring.C79_malformed"
   ],
   "note": ""
  },
  {
   "property": "C80",
   "status": "partial",
   "theorems": [
    "Ystring.C80_valid_partial",
    "Ystring.C80_wellformed_partial",
    "Ystring.C80_false"
   ],
   "note": "Proved by induction over arbitrary call histories. Missing: substring and replacement calls whose start and end are counted from different ends of the string; C80_false shows that these return invalid UTF-8 for valid input in the actual code."
  },
  {
   "property": "C81",
   "status": "proved",
   "theorems": [
    "Ystring.C81_case_tables",
    "Ystring.C81_generated"
   ],
   "note": ""
  },
  {
   "property": "C82",
   "status": "proved",
   "theorems": [
    "Ystring.C82_class_tables",
    "Ystring.C82_generated",
    "Ystring.C82_complete_set",
    "Ystring.C82_false_known"
   ],
   "note": ""
  },
  {
   "property": "C83",
   "status": "partial",
   "theorems": [
    "Ystring.C83_decomposition",
    "Ystring.C83_composition_partial",
    "Ystring.C83_false_composition",
    "Ystring.C83_generated"
   ],
   "note": "Decomposition and the equality of the tables are proved in full. Composition: pairs whose first code point is U+1000 or above are never found, code points after the last pair cause an out-of-bounds read, and truncated keys can match wrongly (C83_false_composition): find_composed is wrong there."
  },
  {
   "property": "C84",
   "status": "proved",
   "theorems": [
    "Ystring.C84_walk",
    "Ystring.C84_split_where"
   ],
   "note": ""
  },
  {
   "property": "C85",
   "status": "proved",
   "theorems": [
    "Ystring.C85_find_first_where",
    "Ystring.C85_cases",
    "Ystring.C85_find_last_where",
    "Ystring.C85_cases_last",
    "Ystring.C85_no_effects",
    "Ystring.C85_trim_start_where",
    "Ystring.C85_trim_end_where",
    "Ystring.C85_trim_where",
    "Ystring.C85_split_where",
    "Ystring.C85_split_cases",
    "Ystring.C85_split_no_effects"
   ],
   "note": ""
  },
  {
   "property": "C86",
   "status": "partial",
   "theorems": [
    "Ystring.C86_safe",
    "Ystring.C86_first_call",
    "Ystring.C86_later_call_partial",
    "Ystring.C86_false"
   ],
   "note": "The safety part is proved for all histories, also the retry after an exception in the first call. The retry after an exception in a later call is false: next() moves forward before it calls the finder, so the text that the finder failed on is skipped (C86_false); C86_later_call_partial says exactly what happens."
  },
  {
   "property": "C87",
   "status": "partial",
   "theorems": [
    "Ystring.C87_contents",
    "Ystring.C87_split_contents",
    "Ystring.C87_substring",
    "Ystring.C87_trim_partial",
    "Ystring.C87_trim_chars_partial",
    "Ystring.C87_false_trim",
    "Ystring.C87_split",
    "Ystring.C87_split_order",
    "Ystring.C87_library_splits",
    "Ystring.C87_library_contents"
   ],
   "note": "Proved for the substring and split functions. False for the trim functions when everything is trimmed (also for an empty argument): they return a default-constructed view whose data() is null (C87_false_trim); in all other cases the view is a part of the argument (C87_trim_partial)."
  },
  {
   "property": "C88",
   "status": "proved",
   "theorems": [
    "Ystring.C88_safe_decode_next",
    "Ystring.C88_safe_decode_prev",
    "Ystring.C88_unchanged",
    "Ystring.C88_same"
   ],
   "note": ""
  },
  {
   "property": "C89",
   "status": "proved",
   "theorems": [
    "Ystring.C89_trim",
    "Ystring.C89_trim_order",
    "Ystring.C89_split_chars",
    "Ystring.C89_split_chars_case",
    "Ystring.C89_split_lines",
    "Ystring.C89_split",
    "Ystring.C89_split_case",
    "Ystring.C89_replace",
    "Ystring.C89_replace_case"
   ],
   "note": ""
  },
  {
   "property": "C90",
   "status": "partial",
   "theorems": [
    "Ystring.C90_append_partial",
    "Ystring.C90_false_append",
    "Ystring.C90_replace_invalid",
    "Ystring.C90_pop",
    "Ystring.CodepointSet.C90_set",
    "Ystring.C90_unescape_next_partial",
    "Ystring.C90_false_unescape_next",
    "Ystring.C90_unlimited"
   ],
   "note": "Proved for replace_invalid_utf8, pop_utf8_codepoint, pop_last_utf8_codepoint and the functions of CodepointSet. False for append, which leaves the beginning of a UTF-8 sequence in the string (C90_false_append), and for unescape_next, which restores the view only after a YstringException (C90_false_unescape_next); C90_append_partial and C90_unescape_next_partial say what these do in every case."
  },
  {
   "property": "C91",
   "status": "partial",
   "theorems": [
    "Ystring.C91_make_lines_partial",
    "Ystring.C91_aligned",
    "Ystring.C91_tidy_partial",
    "Ystring.C91_false_column",
    "Ystring.C91_unmatched",
    "Ystring.C91_unclosed"
   ],
   "note": "Proved in full (C91_tidy_partial) for templates whose directives are not indented and that have no line of white space and a key without lines. For all others the alignment is false, because the column is not reset (C91_false_column); C91_make_lines_partial says what is printed for every template, with the displacement of lists as part of the specification."
  },
  {
   "property": "C92",
   "status": "partial",
   "theorems": [
    "Ystring.C92_join_partial",
    "Ystring.C92_false_empty_sep"
   ],
   "note": "Proved for non-empty separators. For an empty one it is false: a string is lost (C92_false_empty_sep)."
  },
  {
   "property": "C93",
   "status": "proved",
   "theorems": [
    "Ystring.C93_case_header",
    "Ystring.C93_class_header",
    "Ystring.C93_normalization_header",
    "Ystring.C93_unambiguous",
    "Ystring.C93_case_use",
    "Ystring.C93_class_use",
    "Ystring.C93_normalization_use"
   ],
   "note": "Reading (lines, fields, hexadecimal numbers), computing and printing the headers; the result is read back as C++ tokens by Spec/Cpp.lean. Case: C93_case_use; categories: C93_class_use (gaps as in C82); canonical pairs: C93_normalization_use (composition as in C83). C93_unambiguous: a text declares one list of arrays only."
  },
  {
   "property": "C94",
   "status": "proved",
   "theorems": [
    "Ystring.Gen.C94_words",
    "Ystring.Gen.C94_variable_name",
    "Ystring.Gen.C94_idempotent",
    "Ystring.Gen.C94_identifier",
    "Ystring.Gen.C94_macro_name",
    "Ystring.Gen.C94_macro_variable"
   ],
   "note": ""
  },
  {
   "property": "C95",
   "status": "proved",
   "theorems": [
    "Ystring.C95_decode_next",
    "Ystring.C95_decode_prev",
    "Ystring.C95_decode_prev_in_range",
    "Ystring.C95_skip_next",
    "Ystring.C95_skip_prev",
    "Ystring.C95_only_the_range",
    "Ystring.C95_encode"
   ],
   "note": "Addresses instead of lists; every *it, ++it, --it is checked (Fault.access). decode_prev can fault only by the shift of C06, which is no access to memory (C95_decode_prev says exactly when)."
  },
  {
   "property": "C96",
   "status": "partial",
   "theorems": [
    "Ystring.C96_same",
    "Ystring.C96_find",
    "Ystring.C96_has",
    "Ystring.C96_unescape_partial",
    "Ystring.C96_unescape_exact",
    "Ystring.C96_false",
    "Ystring.C96_next",
    "Ystring.C96_next_exact",
    "Ystring.C96_append",
    "Ystring.C96_replace_codepoint"
   ],
   "note": "partial because it is false of unescape: after the escape sequence of a high surrogate the reported offset is counted from the end of that sequence and the look-ahead of six bytes, and a \\u or \\U at the end of the string is reported without offset (C96_false). C96_unescape_exact gives the text in every case; all other functions are proved."
  },
  {
   "property": "C97",
   "status": "partial",
   "theorems": [
    "Ystring.C97_pieces",
    "Ystring.C97_nested",
    "Ystring.C97_accepts",
    "Ystring.C97_set",
    "Ystring.C97_line",
    "Ystring.C97_marks_partial",
    "Ystring.C97_false_column"
   ],
   "note": "C97_pieces, C97_nested and C97_accepts characterise make_lines on every template; C97_set, C97_line and C97_marks_partial are special cases. Partial because the column is not always counted (after a list with one line, after a tab, after a value with a line break), so marks and lists are then misaligned: C97_false_column; the specification says what the column is."
  },
  {
   "property": "C98",
   "status": "proved",
   "theorems": [
    "Ystring.C98_agree",
    "Ystring.C98_agree_bytes",
    "Ystring.C98_differ"
   ],
   "note": "NextAll: a loop with unescape_next until nullopt. C98_differ shows that the two conditions are needed."
  },
  {
   "property": "C99",
   "status": "proved",
   "theorems": [
    "Ystring.C99_concat",
    "Ystring.C99_escaped_first",
    "Ystring.C99_escaped_next",
    "Ystring.C99_needed"
   ],
   "note": "C99_needed shows that the conditions are needed. The first part holds also for the strings on which unescape(t) is undefined."
  },
  {
   "property": "C100",
   "status": "proved",
   "theorems": [
    "Ystring.CI.C100_equal_true",
    "Ystring.CI.C100_affixes",
    "Ystring.CI.C100_order",
    "Ystring.CI.C100_find_first",
    "Ystring.CI.C100_find_last",
    "Ystring.CI.C100_split",
    "Ystring.CI.C100_replace",
    "Ystring.CI.C100_find_first_of",
    "Ystring.CI.C100_find_last_of"
   ],
   "note": "C100_equal_true: the hypothesis is what C43's specification SameFold says. compare returns the same number, not only the same sign."
  },
  {
   "property": "C101",
   "status": "proved",
   "theorems": [
    "Ystring.C101_concat",
    "Ystring.C101_characters",
    "Ystring.C101_count",
    "Ystring.C101_substring",
    "Ystring.C101_replace_chars",
    "Ystring.C101_reverse",
    "Ystring.C101_count_exact",
    "Ystring.C101_kirat_rai"
   ],
   "note": "C101_kirat_rai is the concrete counterexample without the proviso; C101_count_exact is the exact count with it."
  },
  {
   "property": "C102",
   "status": "proved",
   "theorems": [
    "Ystring.C102_there_and_back_all",
    "Ystring.C102_twice_any",
    "Ystring.C102_twice",
    "Ystring.C102_twice_ub",
    "Ystring.C102_count",
    "Ystring.C102_there_and_back"
   ],
   "note": "C102_twice_ub shows that the second call can read past the table. C102_there_and_back_all is an equivalence, for all code points."
  },
  {
   "property": "C103",
   "status": "proved",
   "theorems": [
    "Ystring.C103_title_title",
    "Ystring.C103_lower_upper",
    "Ystring.C103_lower_title",
    "Ystring.C103_upper_title",
    "Ystring.C103_title_lower",
    "Ystring.C103_title_upper",
    "Ystring.C103_ascii"
   ],
   "note": "Every law is an equivalence; the lists of exceptions are in Spec/Words.lean."
  },
  {
   "property": "C104",
   "status": "partial",
   "theorems": [
    "Ystring.C104_readable",
    "Ystring.CI.C104_compare_partial",
    "Ystring.CI.C104_starts_with_partial",
    "Ystring.CI.C104_ends_with_partial",
    "Ystring.C104_get_char_pos_partial",
    "Ystring.C104_insert_char_partial",
    "Ystring.C104_get_char_substring_partial",
    "Ystring.C104_get_char_pos_neg_partial",
    "Ystring.C104_insert_char_neg_partial",
    "Ystring.C104_get_char_substring_neg_partial",
    "Ystring.C104_insert_codepoint_partial",
    "Ystring.C104_false",
    "Ystring.C104_get_char_substring_right_left_partial",
    "Ystring.C104_get_char_substring_left_right_partial",
    "Ystring.C104_get_char_substring_neg_empty_partial"
   ],
   "note": "False as documented (C104_false: a malformed string for which every function but count_chars returns a value). Proved instead: exactly when each function throws and what it returns otherwise, for all strings (contains: C16, count_codepoints: C12, starts_with: C23). For indices from the right the malformed bytes must not end in seven continuation bytes (undefined behaviour, C06); get_char_substring is covered for all pairs of indices."
  },
  {
   "property": "C105",
   "status": "proved",
   "theorems": [
    "Ystring.C105_trim_start",
    "Ystring.C105_trim_end",
    "Ystring.C105_trim",
    "Ystring.C105_split_where",
    "Ystring.C105_split_chars",
    "Ystring.CI.C105_find_first",
    "Ystring.CI.C105_find_last",
    "Ystring.CI.C105_split_chars"
   ],
   "note": "The cases of the trim theorems (C105_trim_start, C105_trim_end, C105_trim) cover every string. find_last and trim_end: malformed bytes that end in seven continuation bytes are excluded or give undefined behaviour (C06). 'Compare meets malformed bytes' is Spec.Stuck; the substring of find_first at the position where the search ends is given by its code points."
  },
  {
   "property": "C106",
   "status": "proved",
   "theorems": [
    "Ystring.C106_decode",
    "Ystring.C106_encode",
    "Ystring.C106_escape",
    "Ystring.C106_unescape",
    "Ystring.C106_unescape_next"
   ],
   "note": "Every function that computes with chars is modelled a second time (Model/Signed.lean) with the integral promotions and conversions of C++ and the sign as a parameter; the theorems say that for both signs it is the function of the other models. The remaining functions only pass chars on or compare them for equality."
  },
  {
   "property": "C107",
   "status": "partial",
   "theorems": [
    "Ystring.C107_spec",
    "Ystring.C107_exact",
    "Ystring.C107_one",
    "Ystring.C107_neighbours",
    "Ystring.C107_keeps",
    "Ystring.C107_sound",
    "Ystring.C107_equivalence_partial",
    "Ystring.C107_plain",
    "Ystring.C107_false"
   ],
   "note": "C107_keeps (the result is canonically equivalent to the argument) and C107_sound (equal results imply canonical equivalence) are proved in full. The rest is false, because to_decomposed never reorders marks, keeps singletons and Hangul syllables and does not return for decompositions into four code points (C107_false). C107_exact says for which texts the result is the normalization form D; C107_neighbours and C107_one reduce the order to neighbouring code points, C107_plain covers ordinary text."
  },
  {
   "property": "C108",
   "status": "proved",
   "theorems": [
    "Ystring.C108_same",
    "Ystring.C108_once",
    "Ystring.C108_linear",
    "Ystring.C108_two",
    "Ystring.C108_prefix",
    "Ystring.C108_all",
    "Ystring.C108_every"
   ],
   "note": "The counting models (Model/Cost.lean) have the same outcomes as the other models (C108_same). C108_once, C108_linear, C108_two and C108_prefix are the upper bounds; C108_all and C108_every show that the counters do count: functions that have to look at the whole string read every byte. Counted are bytes of the arguments read by the decoding functions; work per byte (table searches, appending) is not."
  },
  {
   "property": "C109",
   "status": "proved",
   "theorems": [
    "Ystring.C109_preconditions",
    "Ystring.C109_same"
   ],
   "note": "C109_preconditions: the ranges passed to lower_bound are partitioned for every code point. C109_same: every conforming implementation gives the same results (exampleAlgorithms is one that differs from the model's). from_chars, copy, reverse and the containers are not parameters."
  },
  {
   "property": "C110",
   "status": "proved",
   "theorems": [
    "Ystring.C110_find_where",
    "Ystring.C110_find_of",
    "Ystring.C110_find_last",
    "Ystring.C110_find_newline",
    "Ystring.C110_find_ignoring_case",
    "Ystring.C110_count",
    "Ystring.C110_char_range",
    "Ystring.C110_pos",
    "Ystring.C110_substring",
    "Ystring.C110_insert",
    "Ystring.C110_replace_range",
    "Ystring.C110_replace",
    "Ystring.C110_replace_codepoint",
    "Ystring.C110_replace_ignoring_case",
    "Ystring.C110_reverse",
    "Ystring.C110_split",
    "Ystring.C110_split_where",
    "Ystring.C110_trim",
    "Ystring.C110_escape",
    "Ystring.C110_same",
    "Ystring.C110_least"
   ],
   "note": "Wd.f W is f with size_t of W values. The theorems translate npos, SIZE_MAX and PTRDIFF_MAX (posW, rangeW, diffW) and say that nothing else changes; C110_same: for 64 bits nothing is translated. C110_least: the least ptrdiff_t of the narrower platform is excluded because std::abs of it is undefined there."
  },
  {
   "property": "C111",
   "status": "proved",
   "theorems": [
    "Ystring.C111_any_schedule",
    "Ystring.C111_ends",
    "Ystring.C111_same_end",
    "Ystring.C111_needs_independence"
   ],
   "note": "The calls are programs of single loads and stores on a shared memory (Model/Threads.lean, Model/ThreadsMore.lean, Model/ThreadsText.lean, Model/ThreadsViews.lean); a schedule interleaves them. C111_any_schedule: no race, results as for the functions on strings (Call.outcome), contents of the buffers, nothing else changes. C111_ends: every call ends after a number of accesses of its own, whatever the others do. C111_same_end: the order does not matter. C111_needs_independence: the condition is needed. That a C++ program without data races has only such interleavings is the memory model of C++, which is trusted."
  },
  {
   "property": "C112",
   "status": "proved",
   "theorems": [
    "Ystring.C112_unescape",
    "Ystring.C112_end",
    "Ystring.C112_encode"
   ],
   "note": "C112_unescape: the invariant, at every point of every schedule; C112_end: at the end of the call; C112_encode for encode_utf8. Inputs on which unescape is undefined (C58_undefined) are excluded by the hypothesis on t; C58_exact says that every buffer has such a reading o, t."
  },
  {
   "property": "C113",
   "status": "proved",
   "theorems": [
    "Ystring.C113_wait_free",
    "Ystring.C113_defined",
    "Ystring.C113_inside",
    "Ystring.C113_linear",
    "Ystring.C113_torn",
    "Ystring.C113_torn_escape"
   ],
   "note": "C113_wait_free: the bounds, for any history of accesses and changes of memory; C113_defined: no undefined operation for the functions that go forwards (and skip_prev, get_codepoint_pos, get_codepoint_substring); C113_inside: all accesses are to the arguments; C113_linear: the linear bound of unescape without interference. C113_torn, C113_torn_escape: the result may belong to none of the contents the string has had. In C++ such changes are data races; the statement is about the accesses that the functions make in the order of the source."
  },
  {
   "property": "C114",
   "status": "proved",
   "theorems": [
    "Ystring.C114_same",
    "Ystring.C114_linear",
    "Ystring.C114_once",
    "Ystring.C114_escape",
    "Ystring.C114_from_right",
    "Ystring.C114_ignoring_case"
   ],
   "note": "C114_same: the counting models (Model/CostMore.lean) have the same outcomes as the other models. C114_linear, C114_once, C114_escape, C114_from_right and C114_ignoring_case are the bounds; C114_once and C114_escape also say that every byte is read. Functions that use std::search (find_first, replace from the left, split) are not counted: the standard bounds the comparisons of one call only."
  },
  {
   "property": "C115",
   "status": "proved",
   "theorems": [
    "Ystring.C115_lower",
    "Ystring.C115_upper",
    "Ystring.C115_lower_parts",
    "Ystring.C115_upper_parts",
    "Ystring.C115_upper_count",
    "Ystring.C115_title_count",
    "Ystring.C115_lower_count",
    "Ystring.C115_false"
   ],
   "note": "C115_lower, C115_upper: the characters; C115_lower_parts, C115_upper_parts: substrings and reverse; C115_lower_count, C115_upper_count, C115_title_count: the exact counts. C115_false: the conditions of C115_upper are needed."
  },
  {
   "property": "C116",
   "status": "proved",
   "theorems": [
    "Ystring.C116_get_put",
    "Ystring.C116_put_codepoints",
    "Ystring.C116_put_chars",
    "Ystring.C116_insert",
    "Ystring.C116_commute_codepoints",
    "Ystring.C116_commute_chars",
    "Ystring.C116_marks"
   ],
   "note": "C116_get_put, C116_put_codepoints, C116_put_chars, C116_insert, C116_commute_codepoints, C116_commute_chars. CharEdit is the condition on combining marks; C116_marks shows that it is needed. Indexes are not negative; C72 gives the rest."
  },
  {
   "property": "C117",
   "status": "proved",
   "theorems": [
    "Ystring.C117_find_first",
    "Ystring.C117_find_last",
    "Ystring.C117_find_first_where",
    "Ystring.C117_find_last_where",
    "Ystring.C117_find_first_ignoring_case",
    "Ystring.C117_find_last_ignoring_case",
    "Ystring.C117_laws"
   ],
   "note": "`walk` is the loop of the caller. C117_find_first, C117_find_last, C117_find_first_where, C117_find_last_where, C117_find_first_ignoring_case, C117_find_last_ignoring_case; C117_laws for the rest. find_first_of and find_last_of are the functions with a predicate (C20, C21, C67)."
  },
  {
   "property": "C118",
   "status": "proved",
   "theorems": [
    "Ystring.C118_split_join",
    "Ystring.C118_split_lines",
    "Ystring.C118_split_chars",
    "Ystring.C118_records",
    "Ystring.C118_lines"
   ],
   "note": "C118_split_join is an equivalence; C118_split_chars, C118_split_lines, C118_records, C118_lines. The example beside C118_lines shows that U+2028 must be excluded (escape_json leaves it as it is)."
  },
  {
   "property": "C119",
   "status": "proved",
   "theorems": [
    "Ystring.C119_order",
    "Ystring.C119_affixes",
    "Ystring.C119_find_first",
    "Ystring.C119_find_last",
    "Ystring.C119_find_first_of",
    "Ystring.C119_find_last_of",
    "Ystring.C119_split",
    "Ystring.C119_replace",
    "Ystring.C119_sharp_s"
   ],
   "note": "C119_order, C119_affixes, C119_find_first, C119_find_last, C119_find_first_of, C119_find_last_of, C119_split, C119_replace. C119_sharp_s: the counterexample with sharp s. The replacement may contain sharp s."
  },
  {
   "property": "C120",
   "status": "proved",
   "theorems": [
    "Ystring.C120_trim",
    "Ystring.C120_trim_chars",
    "Ystring.C120_split_chars",
    "Ystring.C120_caseless",
    "Ystring.C120_lines",
    "Ystring.C120_decomposed_trim",
    "Ystring.C120_decomposed_split_chars",
    "Ystring.C120_decomposed_lines",
    "Ystring.C120_false"
   ],
   "note": "Proved for every predicate of caseless code points (C120_trim, C120_trim_chars), every set of them (C120_split_chars) and lines (C120_lines), for the three conversions at once; for to_decomposed with code points that no canonical pair contains. C120_caseless: white space and newlines meet both conditions, and an ASCII character is caseless iff it is no letter (via the tables of UnicodeData). split_lines as in C40: with harmless memory behind the array. C120_false shows that letters and marks as separators break it."
  },
  {
   "property": "C121",
   "status": "proved",
   "theorems": [
    "Ystring.C121_split_where",
    "Ystring.C121_library",
    "Ystring.C121_split_prefix",
    "Ystring.C121_replace",
    "Ystring.C121_replace_right",
    "Ystring.C121_ci_replace",
    "Ystring.C121_ci_replace_right"
   ],
   "note": "C121_split_where (any finder), C121_library (the five splits), C121_split_prefix (relation to the unlimited split), C121_replace, C121_replace_right, C121_ci_replace, C121_ci_replace_right. Negative limits down to -(2^63 - 1), as in C35. The limit 0 returns nothing (C38_zero)."
  },
  {
   "property": "C122",
   "status": "proved",
   "theorems": [
    "Ystring.C122_any_schedule",
    "Ystring.C122_ends",
    "Ystring.C122_same_end",
    "Ystring.C122_same_result"
   ],
   "note": "C122_any_schedule (no race, Runs, memory), C122_ends, C122_same_end, C122_same_result. Programs are Spec.Client; what they come to is the relation Spec.Runs, which uses the functions on strings for the calls. As C111, this trusts that a C++ program without data races has only interleavings as executions; a call with undefined behaviour ends the program (Runs.stuck)."
  },
  {
   "property": "C123",
   "status": "proved",
   "theorems": [
    "Ystring.C123_text",
    "Ystring.C123_positions",
    "Ystring.C123_edit",
    "Ystring.C123_find_where",
    "Ystring.C123_trim",
    "Ystring.C123_case",
    "Ystring.C123_compare",
    "Ystring.C123_search",
    "Ystring.C123_ends",
    "Ystring.C123_ascii_iff",
    "Ystring.C123_normal"
   ],
   "note": "C123_text, C123_positions, C123_edit, C123_find_where, C123_trim, C123_case, C123_compare, C123_search, C123_ends, C123_normal, C123_ascii_iff. The specification (Spec/Ascii.lean) knows bytes only. Indices from the end in substrings and replacements are covered by C29-C31 (which are false in part), index PTRDIFF_MIN by C27_false."
  },
  {
   "property": "C124",
   "status": "partial",
   "theorems": [
    "Ystring.C124_reading",
    "Ystring.C124_writing",
    "Ystring.C124_case_insensitive",
    "Ystring.C124_case_partial",
    "Ystring.C124_false"
   ],
   "note": "C124_reading, C124_writing, C124_case_insensitive. False for to_lower, to_upper and to_title: replace_invalid_utf8 leaves code points above U+10FFFF in the string, and these functions throw exactly if there is one (C124_case_partial, C124_false). Index PTRDIFF_MIN is excluded where it has undefined behaviour (C27_false); for indices from the end see C29-C31."
  },
  {
   "property": "C125",
   "status": "proved",
   "theorems": [
    "Ystring.C125_search",
    "Ystring.C125_search_unique",
    "Ystring.C125_adjacent",
    "Ystring.C125_sort_unique",
    "Ystring.C125_set",
    "Ystring.C125_set_exists"
   ],
   "note": "C125_search, C125_search_unique, C125_adjacent, C125_sort_unique, C125_set, C125_set_exists. What the standard library does with a comparison function is Spec/Sorting.lean (sorted lists, insertion into an ordered set). With malformed strings less throws (C104)."
  },
  {
   "property": "C126",
   "status": "proved",
   "theorems": [
    "Ystring.C126_lower",
    "Ystring.C126_upper"
   ],
   "note": "C126_lower, C126_upper. to_decomposed does not return for the code points with four components (C54); strings with them are outside the claim because to_decomposed does not accept them."
  },
  {
   "property": "C127",
   "status": "proved",
   "theorems": [
    "Ystring.CI.C127_equal",
    "Ystring.CI.C127_starts_with",
    "Ystring.CI.C127_ends_with",
    "Ystring.CI.C127_find_first",
    "Ystring.CI.C127_find_last",
    "Ystring.CI.C127_false_converse",
    "Ystring.CI.C127_false_composed"
   ],
   "note": "CI.C127_equal, CI.C127_starts_with, CI.C127_ends_with, CI.C127_find_first, CI.C127_find_last; CI.C127_false_converse shows that the converse does not hold (it is not part of the claim); CI.C127_false_composed shows that to_composed does not keep the equality (not part of the claim either)."
  },
  {
   "property": "C128",
   "status": "proved",
   "theorems": [
    "Ystring.C128_title",
    "Ystring.C128_accent"
   ],
   "note": "C128_title (the equivalence, with Spec.TitleOrder), C128_accent (accented letter followed by a letter with case: the two orders differ)."
  },
  {
   "property": "C129",
   "status": "proved",
   "theorems": [
    "Ystring.C129_codepoint_pages",
    "Ystring.C129_char_pages",
    "Ystring.C129_codepoint_truncate",
    "Ystring.C129_char_truncate"
   ],
   "note": "C129_codepoint_pages and C129_char_pages: the pages; C129_codepoint_truncate and C129_char_truncate: the results are the longest beginnings (for characters: a beginning may end inside of a character, and is then a beginning of the result, which ends behind it)."
  }
 ]
}