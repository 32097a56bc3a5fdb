{
 "C06": {
  "note": "The no-undefined-behaviour part is false: the exact set of strings with an over-wide shift is characterised (C06_decode_prev_ub_iff); everything else is proved for all other strings."
 },
 "C08": {
  "note": "One direction is false: overlong forms, surrogates and values up to 0x1FFFFF are accepted (C08_false). Proved: the exact accepted language, and that every RFC 3629 string is accepted."
 },
 "C11": {
  "note": "Proved for strings below 2^32 bytes; beyond 4 GiB the 32-bit counters make it false (C11_false_beyond_4GiB)."
 },
 "C12": {
  "status": "partial",
  "note": "The count is proved; count_codepoints never throws, so the documented exception is refuted (C12_false)."
 },
 "C13": {
  "note": "pop_last is subject to the decode_prev shift (C13_false); rest proved."
 },
 "C22": {
  "note": "The array NEWLINES is not terminated: the code reads behind it. Proved when none of the values found there occurs in the string (C22_memory_behind_array reduces this to the intended program, whose results are given by the _partial theorems); the condition is necessary (C22_memory_needed, C22_false)."
 },
 "C27": {
  "note": "PTRDIFF_MIN is undefined behaviour (C27_false); proved for every other index."
 },
 "C29": {
  "note": "Proved for the index pairs of GoodCodepointSlice and refuted for all others (C29_false)."
 },
 "C30": {
  "note": "Proved for the index pairs of GoodCharSlice and refuted for all others (C30_false)."
 },
 "C31": {
  "note": "Proved for the index pairs of GoodCodepointReplace/GoodCharReplace and refuted for all others."
 },
 "C32": {
  "note": "Exact behaviour proved; inserting an empty string never throws, refuting the 'iff' (C32_false)."
 },
 "C33": {
  "note": "Character order and size proved; reverse(reverse(s)) = s iff s does not begin with a combining mark (or has one character)."
 },
 "C50": {
  "note": "Refuted strictly inside 11 ideograph blocks and from 2^21 on; the exact set of wrong answers below 2^21 is proved (C50_exact), and what is returned from 2^21 on (C50_large)."
 },
 "C37": {
  "note": "Both documented conventions are false of the code: max_replacements = 0 replaces nothing (C37_false_zero), and an empty pattern prepends the replacement n times to a non-empty string when n > 0 (C37_false_empty_left); for n <= 0 or an empty string it is the identity (C37_empty_pattern_partial). PTRDIFF_MIN is undefined (C37_min_ub)."
 },
 "C40": {
  "note": "As C22: proved when none of the values in the memory behind the non-terminated array NEWLINES occurs in the string (C40_memory_behind_array, C40_split_lines_partial)."
 },
 "C41": {
  "note": "part() and remainder() are proved for every step; token() returns a wrong substring when its offset is not 0 (C41_false), and the partial theorem says what it returns."
 },
 "C43": {
  "note": "equal is proved to be an equivalence, decided by code point upper-casing; the comparison with to_upper of the strings fails exactly for sharp s (C43_false) and is proved for strings without it."
 },
 "C48": {
  "note": "Proved for all histories of proper operations (ranges first <= last below 0xFFFFFFFF); false for inverted ranges and for ranges ending at 0xFFFFFFFF (C48_false)."
 },
 "C49": {
  "note": "C49_exact decides membership for every set: the upper-cased value lies between the upper-cased ends of a range. The claim follows for sets of single code points (C49_singles) and for ranges on which upper-casing respects the ends (C49_contains_partial); it is false for ranges such as Z-a (C49_false)."
 },
 "C54": {
  "note": "The exact set of code points on which decompose agrees with Unicode 16 is proved, with the outcome for all others; to_decomposed is characterised on every string, including those on which it does not terminate (C54_false_diverges)."
 },
 "C55": {
  "note": "to_composed is characterised exactly on the UTF-8 text of every list of code points up to U+10FFFF (C55_exact_all; C55_exact for the simpler case without plane 16), and where it returns, the result is canonically equivalent to the argument if and only if no code point is lost and none of plane 16 is taken for a mark (C55_equivalent_iff_all). The property as stated is refuted by lost characters, out-of-bounds reads and plane-16 aliasing (C55_false...)."
 },
 "C58": {
  "note": "The strings with undefined behaviour are characterised exactly (C58_exact, C58_undefined); safety and size bound are proved for all others."
 },
 "C59": {
  "note": "Proved for all well-formed input with values up to U+10FFFF; larger values are silently dropped (C59_false)."
 },
 "C60": {
  "note": "All outcomes are characterised (C60_cases); the view is not restored when escaped newlines precede the malformed part (C60_false)."
 },
 "C62": {
  "note": "All outcomes are characterised (C62_cases, C62_none, C62_throws, C62_exact): the range is exactly the first escape sequence, except for truncated sequences at the end, where it exceeds the string (C62_false)."
 },
 "C66": {
  "note": "is_letter, is_alpha_numeric, is_graphical and is_visible are wrong exactly inside the 11 ideograph/Hangul blocks in which get_char_class is wrong (C50); all other predicates are proved for every code point below 2^21 (C66_predicates_exact). C66_false is a counterexample."
 },
 "C80": {
  "note": "Proved by induction over arbitrary call histories. Missing: substring and replacement calls whose start and end are counted from different ends of the string; C80_false shows that these return invalid UTF-8 for valid input in the actual code."
 },
 "C83": {
  "note": "Decomposition and the equality of the tables are proved in full. Composition: pairs whose first code point is U+1000 or above are never found, code points after the last pair cause an out-of-bounds read, and truncated keys can match wrongly (C83_false_composition): find_composed is wrong there."
 },
 "C86": {
  "note": "The safety part is proved for all histories, also the retry after an exception in the first call. The retry after an exception in a later call is false: next() moves forward before it calls the finder, so the text that the finder failed on is skipped (C86_false); C86_later_call_partial says exactly what happens."
 },
 "C87": {
  "note": "Proved for the substring and split functions. False for the trim functions when everything is trimmed (also for an empty argument): they return a default-constructed view whose data() is null (C87_false_trim); in all other cases the view is a part of the argument (C87_trim_partial)."
 },
 "C90": {
  "note": "Proved for replace_invalid_utf8, pop_utf8_codepoint, pop_last_utf8_codepoint and the functions of CodepointSet. False for append, which leaves the beginning of a UTF-8 sequence in the string (C90_false_append), and for unescape_next, which restores the view only after a YstringException (C90_false_unescape_next); C90_append_partial and C90_unescape_next_partial say what these do in every case."
 },
 "C91": {
  "note": "Proved in full (C91_tidy_partial) for templates whose directives are not indented and that have no line of white space and a key without lines. For all others the alignment is false, because the column is not reset (C91_false_column); C91_make_lines_partial says what is printed for every template, with the displacement of lists as part of the specification."
 },
 "C92": {
  "note": "Proved for non-empty separators. For an empty one it is false: a string is lost (C92_false_empty_sep)."
 },
 "C93": {
  "note": "Reading (lines, fields, hexadecimal numbers), computing and printing the headers; the result is read back as C++ tokens by Spec/Cpp.lean. Case: C93_case_use; categories: C93_class_use (gaps as in C82); canonical pairs: C93_normalization_use (composition as in C83). C93_unambiguous: a text declares one list of arrays only."
 },
 "C95": {
  "note": "Addresses instead of lists; every *it, ++it, --it is checked (Fault.access). decode_prev can fault only by the shift of C06, which is no access to memory (C95_decode_prev says exactly when)."
 },
 "C96": {
  "note": "partial because it is false of unescape: after the escape sequence of a high surrogate the reported offset is counted from the end of that sequence and the look-ahead of six bytes, and a \\u or \\U at the end of the string is reported without offset (C96_false). C96_unescape_exact gives the text in every case; all other functions are proved."
 },
 "C97": {
  "note": "C97_pieces, C97_nested and C97_accepts characterise make_lines on every template; C97_set, C97_line and C97_marks_partial are special cases. Partial because the column is not always counted (after a list with one line, after a tab, after a value with a line break), so marks and lists are then misaligned: C97_false_column; the specification says what the column is."
 },
 "C98": {
  "note": "NextAll: a loop with unescape_next until nullopt. C98_differ shows that the two conditions are needed."
 },
 "C99": {
  "note": "C99_needed shows that the conditions are needed. The first part holds also for the strings on which unescape(t) is undefined."
 },
 "C100": {
  "note": "C100_equal_true: the hypothesis is what C43's specification SameFold says. compare returns the same number, not only the same sign."
 },
 "C101": {
  "note": "C101_kirat_rai is the concrete counterexample without the proviso; C101_count_exact is the exact count with it."
 },
 "C102": {
  "note": "C102_twice_ub shows that the second call can read past the table. C102_there_and_back_all is an equivalence, for all code points."
 },
 "C103": {
  "note": "Every law is an equivalence; the lists of exceptions are in Spec/Words.lean."
 },
 "C104": {
  "note": "False as documented (C104_false: a malformed string for which every function but count_chars returns a value). Proved instead: exactly when each function throws and what it returns otherwise, for all strings (contains: C16, count_codepoints: C12, starts_with: C23). For indices from the right the malformed bytes must not end in seven continuation bytes (undefined behaviour, C06); get_char_substring is covered for all pairs of indices."
 },
 "C105": {
  "note": "The cases of the trim theorems (C105_trim_start, C105_trim_end, C105_trim) cover every string. find_last and trim_end: malformed bytes that end in seven continuation bytes are excluded or give undefined behaviour (C06). 'Compare meets malformed bytes' is Spec.Stuck; the substring of find_first at the position where the search ends is given by its code points."
 },
 "C106": {
  "note": "Every function that computes with chars is modelled a second time (Model/Signed.lean) with the integral promotions and conversions of C++ and the sign as a parameter; the theorems say that for both signs it is the function of the other models. The remaining functions only pass chars on or compare them for equality."
 },
 "C107": {
  "note": "C107_keeps (the result is canonically equivalent to the argument) and C107_sound (equal results imply canonical equivalence) are proved in full. The rest is false, because to_decomposed never reorders marks, keeps singletons and Hangul syllables and does not return for decompositions into four code points (C107_false). C107_exact says for which texts the result is the normalization form D; C107_neighbours and C107_one reduce the order to neighbouring code points, C107_plain covers ordinary text."
 },
 "C108": {
  "note": "The counting models (Model/Cost.lean) have the same outcomes as the other models (C108_same). C108_once, C108_linear, C108_two and C108_prefix are the upper bounds; C108_all and C108_every show that the counters do count: functions that have to look at the whole string read every byte. Counted are bytes of the arguments read by the decoding functions; work per byte (table searches, appending) is not."
 },
 "C109": {
  "note": "C109_preconditions: the ranges passed to lower_bound are partitioned for every code point. C109_same: every conforming implementation gives the same results (exampleAlgorithms is one that differs from the model's). from_chars, copy, reverse and the containers are not parameters."
 },
 "C110": {
  "note": "Wd.f W is f with size_t of W values. The theorems translate npos, SIZE_MAX and PTRDIFF_MAX (posW, rangeW, diffW) and say that nothing else changes; C110_same: for 64 bits nothing is translated. C110_least: the least ptrdiff_t of the narrower platform is excluded because std::abs of it is undefined there."
 },
 "C111": {
  "note": "The calls are programs of single loads and stores on a shared memory (Model/Threads.lean, Model/ThreadsMore.lean, Model/ThreadsText.lean, Model/ThreadsViews.lean); a schedule interleaves them. C111_any_schedule: no race, results as for the functions on strings (Call.outcome), contents of the buffers, nothing else changes. C111_ends: every call ends after a number of accesses of its own, whatever the others do. C111_same_end: the order does not matter. C111_needs_independence: the condition is needed. That a C++ program without data races has only such interleavings is the memory model of C++, which is trusted."
 },
 "C112": {
  "note": "C112_unescape: the invariant, at every point of every schedule; C112_end: at the end of the call; C112_encode for encode_utf8. Inputs on which unescape is undefined (C58_undefined) are excluded by the hypothesis on t; C58_exact says that every buffer has such a reading o, t."
 },
 "C113": {
  "note": "C113_wait_free: the bounds, for any history of accesses and changes of memory; C113_defined: no undefined operation for the functions that go forwards (and skip_prev, get_codepoint_pos, get_codepoint_substring); C113_inside: all accesses are to the arguments; C113_linear: the linear bound of unescape without interference. C113_torn, C113_torn_escape: the result may belong to none of the contents the string has had. In C++ such changes are data races; the statement is about the accesses that the functions make in the order of the source."
 },
 "C114": {
  "note": "C114_same: the counting models (Model/CostMore.lean) have the same outcomes as the other models. C114_linear, C114_once, C114_escape, C114_from_right and C114_ignoring_case are the bounds; C114_once and C114_escape also say that every byte is read. Functions that use std::search (find_first, replace from the left, split) are not counted: the standard bounds the comparisons of one call only."
 },
 "C115": {
  "note": "C115_lower, C115_upper: the characters; C115_lower_parts, C115_upper_parts: substrings and reverse; C115_lower_count, C115_upper_count, C115_title_count: the exact counts. C115_false: the conditions of C115_upper are needed."
 },
 "C116": {
  "note": "C116_get_put, C116_put_codepoints, C116_put_chars, C116_insert, C116_commute_codepoints, C116_commute_chars. CharEdit is the condition on combining marks; C116_marks shows that it is needed. Indexes are not negative; C72 gives the rest."
 },
 "C117": {
  "note": "`walk` is the loop of the caller. C117_find_first, C117_find_last, C117_find_first_where, C117_find_last_where, C117_find_first_ignoring_case, C117_find_last_ignoring_case; C117_laws for the rest. find_first_of and find_last_of are the functions with a predicate (C20, C21, C67)."
 },
 "C118": {
  "note": "C118_split_join is an equivalence; C118_split_chars, C118_split_lines, C118_records, C118_lines. The example beside C118_lines shows that U+2028 must be excluded (escape_json leaves it as it is)."
 },
 "C119": {
  "note": "C119_order, C119_affixes, C119_find_first, C119_find_last, C119_find_first_of, C119_find_last_of, C119_split, C119_replace. C119_sharp_s: the counterexample with sharp s. The replacement may contain sharp s."
 },
 "C120": {
  "note": "Proved for every predicate of caseless code points (C120_trim, C120_trim_chars), every set of them (C120_split_chars) and lines (C120_lines), for the three conversions at once; for to_decomposed with code points that no canonical pair contains. C120_caseless: white space and newlines meet both conditions, and an ASCII character is caseless iff it is no letter (via the tables of UnicodeData). split_lines as in C40: with harmless memory behind the array. C120_false shows that letters and marks as separators break it."
 },
 "C121": {
  "note": "C121_split_where (any finder), C121_library (the five splits), C121_split_prefix (relation to the unlimited split), C121_replace, C121_replace_right, C121_ci_replace, C121_ci_replace_right. Negative limits down to -(2^63 - 1), as in C35. The limit 0 returns nothing (C38_zero)."
 },
 "C122": {
  "note": "C122_any_schedule (no race, Runs, memory), C122_ends, C122_same_end, C122_same_result. Programs are Spec.Client; what they come to is the relation Spec.Runs, which uses the functions on strings for the calls. As C111, this trusts that a C++ program without data races has only interleavings as executions; a call with undefined behaviour ends the program (Runs.stuck)."
 },
 "C123": {
  "note": "C123_text, C123_positions, C123_edit, C123_find_where, C123_trim, C123_case, C123_compare, C123_search, C123_ends, C123_normal, C123_ascii_iff. The specification (Spec/Ascii.lean) knows bytes only. Indices from the end in substrings and replacements are covered by C29-C31 (which are false in part), index PTRDIFF_MIN by C27_false."
 },
 "C124": {
  "note": "C124_reading, C124_writing, C124_case_insensitive. False for to_lower, to_upper and to_title: replace_invalid_utf8 leaves code points above U+10FFFF in the string, and these functions throw exactly if there is one (C124_case_partial, C124_false). Index PTRDIFF_MIN is excluded where it has undefined behaviour (C27_false); for indices from the end see C29-C31."
 },
 "C125": {
  "note": "C125_search, C125_search_unique, C125_adjacent, C125_sort_unique, C125_set, C125_set_exists. What the standard library does with a comparison function is Spec/Sorting.lean (sorted lists, insertion into an ordered set). With malformed strings less throws (C104)."
 },
 "C126": {
  "note": "C126_lower, C126_upper. to_decomposed does not return for the code points with four components (C54); strings with them are outside the claim because to_decomposed does not accept them."
 },
 "C127": {
  "note": "CI.C127_equal, CI.C127_starts_with, CI.C127_ends_with, CI.C127_find_first, CI.C127_find_last; CI.C127_false_converse shows that the converse does not hold (it is not part of the claim); CI.C127_false_composed shows that to_composed does not keep the equality (not part of the claim either)."
 },
 "C128": {
  "note": "C128_title (the equivalence, with Spec.TitleOrder), C128_accent (accented letter followed by a letter with case: the two orders differ)."
 },
 "C129": {
  "note": "C129_codepoint_pages and C129_char_pages: the pages; C129_codepoint_truncate and C129_char_truncate: the results are the longest beginnings (for characters: a beginning may end inside of a character, and is then a beginning of the result, which ends behind it)."
 }
}