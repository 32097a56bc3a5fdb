import json
P=[]
def p(title,statement,quant,why,anchors):
    P.append(dict(id="C%02d"%(len(P)+1),title=title,statement=statement,quantifier=quant,why_tests_cant=why,anchors=anchors))
D='include/Ystring/DecodeUtf8.hpp';E='src/Ystring/EncodeUtf8.hpp';A='src/Ystring/Algorithms.cpp';AH='include/Ystring/Algorithms.hpp';AU='src/Ystring/AlgorithmUtilities.cpp';AUH='src/Ystring/AlgorithmUtilities.hpp'
U='src/Ystring/Unescape.cpp';N='src/Ystring/Normalize.cpp'
p("Encode/decode round trip, forwards","Encoding any code point up to U+10FFFF as UTF-8 and decoding from the start of the encoding yields the same code point and leaves the iterator exactly at the end of the encoding, whatever bytes follow it.","every code point 0..0x10FFFF, every byte string following it","1.1 million code points times unboundedly many continuations; tests sample a handful of boundaries",[E+":encode_utf8",D+":decode_next"])
p("Encode/decode round trip, backwards","Decoding backwards from the end of the UTF-8 encoding of any code point up to U+10FFFF yields that code point and leaves the iterator at the start of the encoding, whatever bytes precede it.","every code point 0..0x10FFFF, every byte string preceding it","unbounded set of preceding contexts",[E+":encode_utf8",D+":decode_prev"])
p("Encoder conforms to RFC 3629","The encoder emits the shortest-form UTF-8 encoding (1 to 4 bytes) of RFC 3629 for every code point up to U+10FFFF and emits nothing, reporting length 0, for every larger 32-bit value.","every 32-bit value","2^32 inputs",[E+":encode_utf8",E+":get_utf8_encoded_length"])
p("Bounded encoder never overruns","Encoding into a caller buffer of dst_size bytes writes at most dst_size bytes, writes either the complete encoding or nothing at all, and returns the number of bytes written.","every 32-bit value, every buffer size","unbounded product of values and buffer sizes",[E+":encode_utf8"])
p("Forward decoding of arbitrary bytes","On any byte string decode_next either consumes exactly one lead byte with its announced number of continuation bytes and returns their value (below 0x200000), or returns INVALID_CHAR and leaves the iterator unchanged; it never reads at or past end.","every byte string","arbitrary, including malformed and truncated, byte strings",[D+":decode_next"])
p("Backward decoding of arbitrary bytes","On any byte string decode_prev either steps back over exactly one lead byte with its announced number of continuation bytes and returns their value, or returns INVALID_CHAR and leaves the iterator unchanged; it never reads before begin and has no undefined behaviour.","every byte string","malformed runs of continuation bytes of any length; the undefined shift is invisible on common hardware",[D+":decode_prev"])
p("Forward and backward iteration agree","A string can be decoded to its start from its end without error iff it can be decoded from its start to its end without error, and both directions visit the same code points at the same byte ranges.","every byte string","unbounded strings",[D+":decode_next",D+":decode_prev",D+":safe_decode_next",D+":safe_decode_prev"])
p("is_valid_utf8 decides UTF-8 validity","is_valid_utf8 returns true exactly for the byte strings that are well-formed UTF-8 (RFC 3629: shortest form, no surrogates, at most U+10FFFF).","every byte string","infinitely many malformed strings; only finitely many can be tried",[A+":is_valid_utf8",D+":decode_next"])
p("to_utf32 decodes or throws","to_utf32 throws YstringException exactly for the strings rejected by is_valid_utf8; otherwise it returns the code points of the string in order.","every byte string","unbounded strings",["src/Ystring/Utf32.cpp:to_utf32",A+":is_valid_utf8"])
p("UTF-32 conversion round trips","to_utf32(from_utf32(x)) is x with the values above U+10FFFF removed (so x itself if there are none), and from_utf32(to_utf32(s)) = s for every RFC 3629 string s.","every UTF-32 string, every valid UTF-8 string","unbounded strings",["src/Ystring/Utf32.cpp:from_utf32","src/Ystring/Utf32.cpp:to_utf32"])
p("Skipping segments arbitrary bytes consistently in both directions","On any byte string, valid or not, repeatedly skipping forwards and repeatedly skipping backwards visit the same boundaries, each skip makes progress, and neither leaves the string.","every byte string shorter than 2^32 bytes","arbitrary malformed byte strings",[D+":skip_next",D+":skip_prev"])
p("count_codepoints","count_codepoints returns the number of code points of a valid string, never more than its size, and throws YstringException if the string contains an invalid UTF-8 code point.","every byte string","unbounded strings",[A+":count_codepoints",AH+":count_codepoints"])
p("Popping code points from a view","pop_utf8_codepoint and pop_last_utf8_codepoint return the first/last code point of a non-empty view and remove exactly its bytes; on malformed input they throw and leave the view unchanged; remove_utf8_codepoint and remove_last_utf8_codepoint always shrink a non-empty view and report false only for an empty one.","every byte string","unbounded strings including malformed ones",[D+":pop_utf8_codepoint",D+":pop_last_utf8_codepoint",D+":remove_utf8_codepoint",D+":remove_last_utf8_codepoint"])
p("replace_invalid_utf8 repairs every string","replace_invalid_utf8 always terminates with a string accepted by is_valid_utf8, returns valid strings unchanged, is idempotent, and the in-place and copying versions agree.","every byte string and every replacement character","arbitrary malformed byte strings",[A+":replace_invalid_utf8"])
p("append","append(s, c) is s followed by the UTF-8 encoding of c for c up to U+10FFFF, and throws YstringException leaving s unchanged for larger values; appending to a valid string yields a valid string with one more code point.","every string, every 32-bit value","2^32 values times unbounded strings",[A+":append"])
p("contains","On valid strings contains(s, c) is true iff c is one of the code points of s; on malformed strings it throws unless c occurs before the first malformed byte.","every byte string, every 32-bit value","unbounded strings",[A+":contains"])
p("find_first finds the leftmost occurrence","find_first(s, cmp, offset) returns the leftmost occurrence of non-empty cmp in s starting at or after offset, and an empty range at s.size() iff there is none.","all byte strings s, cmp and all offsets up to s.size()","unbounded strings",[A+":find_first"])
p("find_last finds the rightmost occurrence","find_last(s, cmp, offset) returns the rightmost occurrence of non-empty cmp in s ending at or before offset, and an empty range at 0 iff there is none.","all byte strings s, cmp and all offsets","unbounded strings",[A+":find_last",AUH+":search_last"])
p("Byte searches respect code point boundaries","If s and non-empty cmp are valid UTF-8 strings, every match reported by find_first or find_last starts and ends on code point boundaries of s (self-synchronisation).","all valid strings s, cmp","unbounded strings",[A+":find_first",A+":find_last"])
p("find_first_where / find_first_of","For a valid string the functions return the byte range and value of the first code point at or after offset that satisfies the predicate (is in the set), and an empty range with INVALID_CHAR iff there is none; malformed bytes before the first hit raise YstringException.","every byte string, every predicate or set, every code point offset","unbounded strings and predicates",[AH+":find_first_where",A+":find_first_of"])
p("find_last_where / find_last_of","For a valid string the functions return the byte range and value of the last code point before offset that satisfies the predicate (is in the set), and an empty range with INVALID_CHAR iff there is none.","every valid string, every predicate or set, every code point offset","unbounded strings and predicates",[AH+":find_last_where",A+":find_last_of"])
p("Newline search","find_first_newline/find_last_newline return the first/last newline among \\n \\v \\f \\r \\r\\n U+0085 U+2028 U+2029, treating \\r\\n as one newline, and an empty range iff the string has none.","every valid string","unbounded strings; and the result depends on memory after a constant array, which a test cannot control",[A+":find_first_newline",A+":find_last_newline",A+":NEWLINES"])
p("starts_with / ends_with","starts_with(s, p) iff s = p + t for some t; ends_with(s, p) iff s = t + p for some t; for valid s and p this coincides with p's code points being a prefix (suffix) of those of s followed by equal bytes.","all byte strings","unbounded strings",[A+":starts_with",A+":ends_with"])
p("Character segmentation agrees in both directions","For a valid string the characters (a code point with its following combining marks) enumerated forwards from 0 and backwards from the end are the same, are non-empty, and concatenate to the string.","every valid string","unbounded strings",[A+":get_next_char_range",A+":get_prev_char_range"])
p("count_chars and get_char_pos","count_chars is the number of characters; get_char_pos(s, k) is the byte offset of character k from the start (k>=0) or from the end (k<0), s.size() for k = count, and npos iff |k| exceeds count_chars(s); malformed strings make count_chars throw.","every valid string, every ptrdiff_t index","unbounded strings and 2^64 indices",[A+":count_chars",A+":get_char_pos"])
p("get_char_range","get_char_range(s, k) is exactly the byte range of character k counted from the start or (negative) end, and empty iff there is no such character.","every valid string, every ptrdiff_t index","unbounded strings and 2^64 indices",[A+":get_char_range"])
p("get_codepoint_pos","get_codepoint_pos(s, k) is the byte offset of code point k (counted from the end if negative), and npos iff |k| exceeds the number of code points; it is defined for every index.","every byte string, every ptrdiff_t index","unbounded strings and 2^64 indices, including PTRDIFF_MIN",[A+":get_codepoint_pos"])
p("get_codepoint","get_codepoint(s, k) returns the value and byte range of code point k (from the end if negative) of a valid string and an empty range with INVALID_CHAR iff there is none.","every valid string, every ptrdiff_t index","unbounded strings and 2^64 indices",[A+":get_codepoint"])
p("get_codepoint_substring is a slice","get_codepoint_substring(s, i, j) returns exactly the code points at positions i up to (not including) j, negative positions counting from the end, out-of-range positions clamped, and the empty string if the interval is empty.","every valid string, every pair of indices","four sign combinations times unbounded strings and indices; the existing tests miss the combinations that fail",[A+":get_codepoint_substring",AU+":get_codepoint_substring_range"])
p("get_char_substring is a slice","get_char_substring(s, i, j) returns exactly the characters at positions i up to (not including) j, negative positions counting from the end, out-of-range positions clamped, and the empty string if the interval is empty.","every valid string, every pair of indices","four sign combinations times unbounded strings and indices; the existing tests miss the combinations that fail",[A+":get_char_substring",AU+":get_char_substring_range"])
p("replace_codepoints / replace_chars splice","replace_codepoints and replace_chars return s with exactly the slice [i, j) replaced by the replacement and everything else kept, without throwing, for valid s and all indices.","every valid string, every pair of indices, every replacement","unbounded; size_t wrap-around and out_of_range only for particular index combinations",[A+":replace_codepoints",A+":replace_chars",AU+":replace_subrange"])
p("insert_* splice","insert_codepoint(s)/insert_char(s) return s with the argument inserted before position k, keeping all of s, and throw YstringException iff |k| exceeds the number of positions (or the inserted code point exceeds U+10FFFF).","every valid string, every index, every inserted string or code point","unbounded strings and indices",[A+":insert_char",A+":insert_chars",A+":insert_codepoint",A+":insert_codepoints",AU+":insert_at_offset"])
p("reverse","reverse(s) of a valid string lists the characters of s in reverse order with each character's bytes intact, has the same size, and reverse(reverse(s)) = s.","every valid string","unbounded strings",[A+":reverse"])
p("replace from the left","With n >= 0, replace(s, from, to, n) for non-empty from replaces exactly the first n (or all, if fewer) non-overlapping occurrences scanning left to right and keeps every other byte.","all byte strings and counts","unbounded strings",[A+":replace"])
p("replace from the right","With n < 0, replace(s, from, to, n) replaces exactly the last |n| (or all, if fewer) non-overlapping occurrences scanning right to left and keeps every other byte.","all byte strings and negative counts","unbounded strings",[A+":replace",AU+":find_last_n"])
p("replace keeps strings valid; replace_codepoint replaces code points","Replacing with valid strings in a valid string yields a valid string; replace_codepoint maps exactly the chosen occurrences of one code point to the other and throws iff either exceeds U+10FFFF.","all valid strings, all code points, all counts","unbounded strings",[A+":replace",A+":replace_codepoint"])
p("replace: zero count and empty pattern","As documented, max_replacements = 0 replaces all instances; and an empty pattern leaves the string unchanged.","all strings","the documented convention is a claim about all strings",[AH+":replace",A+":replace"])
p("split and join are inverse","join(split(s, sep), sep) = s for every s and every non-empty sep, for every max_splits >= 1; joining the pieces of any split with the removed separators restores s.","all strings, separators, max_splits","unbounded strings",[A+":split",AH+":split_where",AH+":join","include/Ystring/TokenIterator.hpp:TokenIterator"])
p("split: pieces, limits and empty parts","split produces pieces containing no separator (except a final remainder when the limit was hit), at most max_splits+1 pieces, and with ignore_empty and no limit exactly the non-empty pieces of the full split.","all strings, separators, parameters","unbounded strings",[A+":split",AH+":split_where"])
p("split_lines","split_lines splits a valid string exactly at its newlines (\\r\\n counted once): no piece contains a newline character and re-inserting the newlines restores the string.","every valid string","unbounded strings; depends on memory after a constant array",[A+":split_lines",A+":find_first_newline"])
p("TokenIterator partitions the string","At every step of a TokenIterator, part() + token() + remainder() is the not yet consumed string and token() is exactly the token found.","every string, every token finder, every step","unbounded strings and finders",["include/Ystring/TokenIterator.hpp:TokenIterator"])
p("trim","trim_start/trim_end/trim remove exactly the maximal run of code points satisfying the predicate (in the set) at the start/end/both ends of a valid string, keep everything in between, and are idempotent.","every valid string, every predicate or set","unbounded strings",[AH+":trim_where",A+":trim",A+":trim_start",A+":trim_end"])
p("case_insensitive::equal","On valid strings case_insensitive::equal is an equivalence relation and holds iff the upper case versions of the strings (to_upper) are equal.","all pairs (triples) of valid strings","unbounded strings",[A+":case_insensitive::equal","src/Ystring/ConvertCase.cpp:to_upper"])
p("case_insensitive::compare and less are a consistent total preorder","On valid strings compare is 0 iff equal, compare(a,b) and compare(b,a) have opposite signs, less(a,b) iff compare(a,b) < 0, and less is a strict weak order (usable as a map comparator).","all pairs and triples of valid strings","transitivity quantifies over triples of unbounded strings",[A+":case_insensitive::compare",A+":case_insensitive::less","include/Ystring/CaseInsensitive.hpp:case_insensitive_compare"])
p("case_insensitive::find_first / find_last","On valid strings they return the byte range of the first/last code-point-aligned substring that is case-insensitively equal to non-empty cmp, and an empty range iff there is none.","all valid strings, code point offsets","unbounded strings",[A+":case_insensitive::find_first",A+":case_insensitive::find_last"])
p("case_insensitive::starts_with / ends_with","On valid strings they hold iff some prefix/suffix of the code points of s is case-insensitively equal to cmp.","all pairs of valid strings","unbounded strings",[A+":case_insensitive::starts_with",A+":case_insensitive::ends_with"])
p("case_insensitive::replace and split","On valid strings replace substitutes exactly the case-insensitive, non-overlapping matches (first n, or last |n|) and keeps all other text; split cuts at exactly these matches.","all valid strings, counts","unbounded strings",[A+":case_insensitive::replace",A+":case_insensitive::split"])
p("CodepointSet behaves like a set","After any sequence of add_range/add_codepoint/add_codepoints, contains(c) is true iff c was added by some operation (xor negated).","every operation sequence, every 32-bit value","unbounded histories of insertions",["src/Ystring/Char32Set.cpp:CodepointSet"])
p("Case-insensitive set membership","case_insensitive_contains(c) holds whenever some element of the set is case-insensitively equal to c; in particular every member of a non-negated set is a case-insensitive member.","every set, every code point","unbounded sets",["src/Ystring/Char32Set.cpp:case_insensitive_contains"])
p("get_char_class is the Unicode general category","For every code point get_char_class returns the general category assigned by Unicode 16.0.0 (data/unicode/UnicodeData16.0.0.txt), exactly one class, without undefined behaviour, and UNASSIGNED above U+10FFFF.","every 32-bit value","1.1 million code points plus out of range values; the generated table is not covered by tests",["src/Ystring/CharClass.cpp:get_char_class","src/Ystring/CharClassTables.hpp"])
p("Code point predicates","The predicates are consistent for every 32-bit value: alphanumeric iff letter or number, visible iff graphical or separator, cased iff upper, lower or title case, whitespace iff tab, newline or separator, every newline is whitespace, and no value is in two of letter, mark, number, punctuation, symbol, separator, other.","every 32-bit value","2^32 inputs",["include/Ystring/CodepointPredicates.hpp"])
p("Case mapping conforms to Unicode","to_upper/to_lower/to_title of a code point is the simple case mapping of Unicode 16.0.0 (identity if it has none), for every 32-bit value, and each of the three is idempotent.","every 32-bit value","compressed tables with over 4000 mappings",["src/Ystring/ConvertCase.cpp","src/Ystring/UpperCaseTables.hpp","src/Ystring/LowerCaseTables.hpp","src/Ystring/TitleCaseTables.hpp"])
p("Case conversion of strings","to_lower/to_upper/to_title of a valid string (code points up to U+10FFFF) convert code point by code point (sharp s becoming SS / Ss), return valid strings, throw exactly on malformed input, and to_lower and to_upper are idempotent.","every string","unbounded strings",["src/Ystring/ConvertCase.cpp"])
p("Canonical decomposition","decompose(c) returns the full recursive canonical decomposition of c and to_decomposed(s) terminates with the concatenation of the decompositions of the code points of s; decomposing twice changes nothing.","every code point, every valid string","1.1 million code points; non-termination cannot be observed by a passing test",["src/Ystring/Normalize.cpp:decompose","src/Ystring/Normalize.cpp:to_decomposed"])
p("Composition loses nothing","to_composed(s) is defined for every valid s, composes every adjacent canonical pair from left to right, and is canonically equivalent to s: to_decomposed(to_composed(s)) = to_decomposed(s).","every valid string","unbounded strings; out-of-bounds reads and lost characters appear only for particular neighbourhoods",["src/Ystring/Normalize.cpp:to_composed","src/Ystring/Normalize.cpp:find_composed"])
p("escape_json output is a safe JSON string body","escape_json(s) contains no byte below 0x20, every quote and backslash in it belongs to an escape sequence, bytes from 0x20 up other than quote and backslash are kept, valid UTF-8 stays valid, and it changes s iff has_escapable_chars(s).","every byte string","unbounded strings over all bytes",["src/Ystring/Escape.cpp:escape_json","src/Ystring/Escape.cpp:has_escapable_chars"])
p("unescape inverts escape_json","unescape(escape_json(s)) = s for every byte string s; escape_json is therefore injective.","every byte string","unbounded strings over all bytes",["src/Ystring/Escape.cpp:escape_json",U+":unescape"])
p("unescape is memory safe and in place","For every input unescape either throws YstringException or returns a string no longer than the input; it never reads or writes outside the buffer, never overwrites unread input and reads no uninitialised value.","every byte string","malformed and truncated escapes at arbitrary positions; the errors are undefined behaviour which tests may not notice",[U+":unescape",U+":find_first_escaped_char"])
p("unescape value semantics","On well-formed input unescape replaces each escape sequence (\\a \\b \\f \\n \\r \\t \\v, octal, \\x, \\u with surrogate pairs, \\U, and \\ before any other ASCII character) by the character it denotes and copies all other bytes.","every well-formed escaped string","unbounded strings",[U+":unescape",U+":parse_utf16"])
p("unescape_next progress and rollback","unescape_next returns nullopt iff only escaped newlines remain, otherwise returns the next (unescaped) character and consumes exactly it (at least one byte), and on malformed input throws and leaves the view unchanged; it has no undefined behaviour.","every byte string","arbitrary malformed escapes",[U+":unescape_next"])
p("unescape_next reads back escape_json","Repeatedly calling unescape_next on escape_json(s) for valid s yields exactly the code points of s.","every valid string","unbounded strings",[U+":unescape_next","src/Ystring/Escape.cpp:escape_json"])
p("find_first_escaped_char stays inside the string","The range returned by find_first_escaped_char lies within the string, starts at the first backslash at or after offset, and is empty iff there is no backslash.","every byte string, every offset","escapes truncated by the end of the string",[U+":find_first_escaped_char",U+":has_escaped_chars"])
p("Forward functions are safe on arbitrary bytes","On every byte string, valid or not, the functions that read forwards (to_utf32, contains, count_chars, to_lower/upper/title, find_first_where/of/newline, get_char_pos/range, get_codepoint, get_codepoint_pos, get_codepoint_substring, insert_*, split, split_lines, trim_start and the case_insensitive counterparts, with non-negative character indices and an offset within the string) end with a value or with YstringException: no undefined behaviour, no endless loop, no other exception; and every range or position they return lies within the string. (Indices equal to PTRDIFF_MIN, and replace_codepoints with start < 0 <= end, are excluded: see C27 and C31.)","every byte string, every argument","malformed input at arbitrary places in unbounded strings; undefined behaviour need not show in a test",[A,AH,"src/Ystring/ConvertCase.cpp","include/Ystring/TokenIterator.hpp:TokenIterator"])
p("Backward functions are safe on bytes without long continuation runs","On every byte string in which no seven continuation bytes follow another byte (all valid strings, all strings of at most seven bytes), the functions that read backwards (find_last_where/of/newline, negative indices in get_char_*, get_codepoint and insert_*, get_char_substring, replace_chars, reverse, trim, trim_end, and the case_insensitive counterparts) end with a value or with YstringException and return only ranges within the string.","every such byte string, every argument","malformed input at arbitrary places in unbounded strings; undefined behaviour need not show in a test",[A,AH])
p("UTF-8 output preserves order","Comparing from_utf32 of two sequences of code points (up to U+10FFFF) byte by byte gives the same order as comparing the sequences; so well-formed strings sort bytewise in code point order.","all pairs of sequences of code points","pairs of unbounded strings",["src/Ystring/Utf32.cpp:from_utf32","src/Ystring/EncodeUtf8.hpp:encode_utf8"])
p("Predicates mean what their general categories say","Each predicate is_upper, is_lower, is_letter, is_mark, is_number, is_punctuation, is_symbol, is_separator, is_control, is_alphanumeric, is_visible, is_graphical, ... holds for a code point iff its Unicode 16.0.0 general category is one of the documented ones, and the CharClass enumerators are one bit each with the groups being their unions.","every code point","1.1 million code points times some twenty predicates",["include/Ystring/CodepointPredicates.hpp","include/Ystring/CharClass.hpp"])
p("case_insensitive::find_first_of / find_last_of","They return the first/last code point of a valid string that is case-insensitively equal to one of the given characters (member of the given set), and an empty range iff there is none.","every valid string, character list, set, offset","unbounded strings",[A+":case_insensitive::find_first_of",A+":case_insensitive::find_last_of"])
p("Stream output","operator<< prints a Subrange as {offset: A, length: B} in decimal, injectively; a CodepointSet is printed as valid UTF-8: bracket, ^ if negated, its ranges in order, bracket.","every range and every set","unbounded sets",["src/Ystring/Subrange.cpp","src/Ystring/Char32Set.cpp:operator<<"])
p("Functions respect concatenation","For valid s: to_utf32(s+t), is_valid_utf8(s+t), count_codepoints, contains, to_lower, to_upper of s+t are determined part by part; escape_json(s+t) = escape_json(s)+escape_json(t) for all bytes; from_utf32(x+y) = from_utf32(x)+from_utf32(y); case_insensitive::equal is a congruence for concatenation with cancellation; count_chars adds up, minus one iff t begins with a combining mark.","all pairs of strings","pairs of unbounded strings",[A,"src/Ystring/Utf32.cpp","src/Ystring/ConvertCase.cpp","src/Ystring/Escape.cpp"])
p("Edits act on the list of code points","On a valid string with code points cs: insert_codepoint(s) at index i yields exactly cs[:i]+ds+cs[i:] (also for the equivalent negative index), get_codepoint(i) then returns the inserted code point; replace_codepoints(i, j) yields cs[:i]+ds+cs[j:]; get_codepoint_substring(i, j) yields cs[i:j]; append adds one code point which pop_last removes again.","every valid string, index, inserted text","unbounded strings and indices",[A+":insert_codepoint",A+":insert_codepoints",A+":replace_codepoints",A+":get_codepoint_substring",A+":append"])
p("Substrings put together again give the string","For every k, substring(0, k) + substring(k, end) is the string, in code points and in characters, and substring(k, k+1) is the text of the range returned for index k.","every valid string, every index","unbounded strings",[A+":get_codepoint_substring",A+":get_char_substring",A+":get_codepoint",A+":get_char_range"])
p("Negative indices count from the end","In a string of n code points (characters) index i-n means the same as index i, for 0 <= i < n, in every function with one index; get_char_range / get_codepoint start at the position returned by get_char_pos / get_codepoint_pos and end at that of the next index.","every valid string, every index","unbounded strings",[A+":get_codepoint_pos",A+":get_codepoint",A+":get_char_pos",A+":get_char_range",A+":insert_char",A+":insert_chars",A+":insert_codepoint",A+":insert_codepoints"])
p("Search functions agree","starts_with(s,p) iff find_first(s,p) is at 0; ends_with(s,p) iff find_last(s,p) ends at the end; find_first fails iff find_last fails, and is never behind it; in well-formed strings contains(s,c) iff find_first finds from_utf32(c) iff find_first_of finds c, at the same place.","all strings","pairs of unbounded strings",[A+":find_first",A+":find_last",A+":starts_with",A+":ends_with",A+":contains",A+":find_first_of"])
p("replace is split and join","replace(s, f, t, n) = join(split(s, f, n), t) for every n >= 1 and non-empty f, also case-insensitively; so the length of the result is |s| + k(|t| - |f|) for k replacements.","all strings, patterns, replacements","unbounded strings",[A+":replace",A+":split",AH+":join",A+":case_insensitive::replace",A+":case_insensitive::split"])
p("Case conversion and case-insensitive comparison","A valid string is case_insensitive::equal to its upper case version iff it has no sharp s, to its lower case version iff it has none of U+0130, U+03F4, U+1E9E, U+2126, U+212A, U+212B, to its title case version if it has none of these; to_upper(to_lower(s)) = to_upper(s) iff it has none of the six.","every valid string","unbounded strings over all code points",["src/Ystring/ConvertCase.cpp",A+":case_insensitive::equal"])
p("Sizes of results","to_utf32 returns between |s|/4 and |s| code points; from_utf32 writes at most 4 bytes per code point; case conversion yields at most 3/2 |s| bytes; escape_json between |s| and 6|s|.","every string","unbounded strings",["src/Ystring/Utf32.cpp","src/Ystring/ConvertCase.cpp","src/Ystring/Escape.cpp"])
p("Case-insensitive comparison of code points","case_insensitive_equal is an equivalence and case_insensitive_less a strict weak order on all 32-bit values, both comparing simple upper case mappings; for values below 2^31 (all code points) the sign of case_insensitive_compare agrees with them.","all pairs and triples of code points","2^64 pairs",["include/Ystring/CaseInsensitive.hpp"])
p("Resynchronisation","From any byte position in a valid string, also in the middle of a code point, one skip_next (skip_prev) moves exactly to the next (previous) code point boundary.","every valid string, every byte position","unbounded strings",["include/Ystring/DecodeUtf8.hpp:skip_next","include/Ystring/DecodeUtf8.hpp:skip_prev"])
p("reverse is compositional and permutes code points","For valid s and t, reverse(s + t) equals reverse(t) + reverse(s) whenever t does not begin with a combining mark; the reversed string has the same code points as the original, in another order, and the same byte length; if s does not begin with a combining mark, character k of the reversed string is character -k-1 of s, byte for byte, and the number of characters is the same; a string that is not valid never yields a result, and unless it has a long run of continuation bytes reverse throws YstringException.","all pairs of valid strings, all invalid strings","laws over all splits of all strings; combining marks make them conditional on an unbounded context",[A+":reverse"])
p("strings stay valid UTF-8 through any history of calls",
  "Starting from valid (well-formed) UTF-8 strings and any code points (code points that are not surrogates), every string obtained by any finite sequence of library calls - concatenation, append, substrings, insertion, replacement, case-insensitive replacement, reverse, trimming, case conversion, splitting, joining, JSON escaping, popping and removing code points, replacing invalid UTF-8, and for validity also unescape and the normalization functions - is again valid (well-formed) UTF-8.",
  "all finite histories of calls in any order, all argument values, all initial strings",
  "the property is an invariant over unbounded call histories; a test executes one history",
  [A,AH,"src/Ystring/ConvertCase.cpp","src/Ystring/Escape.cpp","src/Ystring/Unescape.cpp","src/Ystring/Normalize.cpp"])
p("case tables generated from any Unicode database are correct",
  "For every Unicode database (code points in ascending order with their simple case mapping), to_upper/to_lower/to_title of a code point, computed from the tables that make_case_convert_file.py generates for that database, is the mapping in the database if there is one and the code point itself otherwise; and the tables in src/Ystring are the ones generated from UnicodeData16.0.0.txt.",
  "all databases, all 32-bit values",
  "the claim is about every present and future database; a test covers one",
  ["tools/unicode_character_tables/make_case_convert_file.py","src/Ystring/ConvertCase.cpp:convert","src/Ystring/UpperCaseTables.hpp","data/unicode/UnicodeData16.0.0.txt"])
p("character class tables generated from any Unicode database",
  "For every Unicode database with lines for the ASCII code points, get_char_class computed from the tables that make_char_class_file.py generates gives each code point below 2^21 the category of its line; a code point without a line is unassigned, unless it lies between two lines of one category of which the second is in the script's set of known range ends. The tables in src/Ystring are those generated from UnicodeData16.0.0.txt; they would be right for all code points if the set contained all range ends of that file (it does not).",
  "all databases, all sets of range ends, all code points",
  "the claim is about every database, and range compression errors show only at particular neighbourhoods",
  ["tools/unicode_character_tables/make_char_class_file.py","src/Ystring/CharClass.cpp:get_char_class","src/Ystring/CharClassTables.hpp","data/unicode/UnicodeData16.0.0.txt"])
p("normalization tables generated from any Unicode database",
  "For every Unicode database, decomposing a code point with the table that make_normalization_file.py generates yields the canonical pair of the database if there is one and nothing otherwise; composing two code points yields the code point whose canonical pair they are if there is one and nothing otherwise. The tables in src/Ystring are those generated from UnicodeData16.0.0.txt.",
  "all databases, all code points and pairs of code points",
  "the claim is about every database and all pairs of code points",
  ["tools/unicode_character_tables/make_normalization_file.py","src/Ystring/Normalize.cpp:find_decomposed","src/Ystring/Normalize.cpp:find_composed","src/Ystring/NormalizationTables.hpp"])
p("A complete walk with a TokenIterator",
  "For every finder that reports ranges inside the string it is given, calling next() until it returns false ends after at most |s|+1 steps; part() shows the pieces of the string between the separators found, remainder() the text after each separator, pieces and separators put together give the string, and the parts are what split_where returns without a limit.",
  "all strings, all finders",
  "strings and histories are unbounded and the finder is an arbitrary user callback",
  ["include/Ystring/TokenIterator.hpp",AH+":split_where"])
p("Calls of user-supplied predicates and finders",
  "For every predicate or finder, with any state and any exceptions: find_first_where and trim_start_where call the predicate once with each code point in order, find_last_where and trim_end_where in reverse order, and stop at the first hit; split_where calls the finder with the string and then with the text after each separator, and never again after it has found nothing or the limit is reached. An exception thrown by the callback is passed on unchanged, after exactly these calls.",
  "all strings (also malformed), all stateful and throwing callbacks, all states, all limits",
  "callbacks and their histories are arbitrary; a test can only try some",
  [AH+":find_first_where",AH+":find_last_where",AH+":trim_where",AH+":trim_start_where",AH+":trim_end_where",AH+":split_where"])
p("A TokenIterator after an exception",
  "Whatever the finder has returned or thrown in any number of calls of next() before, next(), part(), token() and remainder() have no undefined behaviour and show only substrings of the original string; and if the finder throws, next() can be called again and continues with the piece that the finder failed on.",
  "all strings, all finders, all histories of calls",
  "histories of calls and exceptions are unbounded",
  ["include/Ystring/TokenIterator.hpp"])
p("Returned views point into the argument",
  "Every string_view returned by get_char_substring, get_codepoint_substring, trim, trim_start, trim_end, trim_where and its variants, split_where, split, split_lines and case_insensitive::split points to the bytes of the argument that it shows, also if it is empty; the views returned by the split functions follow each other in memory and do not overlap.",
  "all strings (also malformed), all predicates, finders, separators, limits and indexes, all addresses",
  "the address of every returned view must be right for every input; a test compares contents of a few views",
  [AH+":trim_where",AH+":trim_start_where",AH+":trim_end_where",AH+":split_where","include/Ystring/TokenIterator.hpp",A+":get_char_substring",A+":get_codepoint_substring",A+":split_lines"])
p("Arguments after an exception",
  "If append, replace_invalid_utf8 (on a string), pop_utf8_codepoint, pop_last_utf8_codepoint, safe_decode_next or safe_decode_prev throws, the string, view or iterator passed by reference has the value it had before; if it does not throw, the argument and the result are those of the functions without regard to exceptions.",
  "all strings (also malformed), all code points, all replacement characters",
  "the claim is about the state after every possible failure; tests look at the exception only",
  [A+":append",A+":replace_invalid_utf8",A+":pop_utf8_codepoint",A+":pop_last_utf8_codepoint","include/Ystring/DecodeUtf8.hpp:safe_decode_next","include/Ystring/DecodeUtf8.hpp:safe_decode_prev"])
p("trim, split and replace act on the list of code points",
  "trim_where and its variants, split at characters, split_lines, split at a string, replace, and the functions of case_insensitive, give the strings whose code points are obtained by the same operation on the list of code points of the argument: dropping code points at the ends, and cutting the list at the first separators from the left (or from the right) up to the limit, where pieces that are ignored because they are empty do not count. The bytes of split and replace with a plain string must be well-formed UTF-8; for the others valid strings are enough.",
  "all strings of valid UTF-8, all predicates, separators, limits, ignore_empty settings and numbers of replacements",
  "strings, separators and limits are unbounded, and the combination of limits with ignored empty pieces is intricate",
  [AH+":trim_where",AH+":split_where",A+":split",A+":split_lines",A+":replace",A+":case_insensitive::split",A+":case_insensitive::replace"])
p("Arguments when memory cannot be allocated",
  "If append, replace_invalid_utf8 (on a string), pop_utf8_codepoint, pop_last_utf8_codepoint, CodepointSet::add_range, CodepointSet::add_codepoint or unescape_next is left with std::bad_alloc, whichever of its requests for memory failed, its arguments have the values they had before; after CodepointSet::add_codepoints the code points before some one have been added. If no request that is made fails, the functions behave as with unlimited memory.",
  "all strings, sets and code points, all choices of which requests for memory fail",
  "every allocation is a crash point; tests do not run out of memory",
  [A+":append",A+":replace_invalid_utf8","include/Ystring/DecodeUtf8.hpp:pop_utf8_codepoint","src/Ystring/Char32Set.cpp:CodepointSet::add_codepoint",U+":unescape_next"])
p("The template engine prints the values",
  "make_lines of codegen.py gives, for every template of plain lines, lines with one key, and nested conditional blocks with their directives on lines of their own: the plain lines, the values of the keys with their surroundings, and the lines of exactly those branches whose conditions are the first true ones; the lines of a list are aligned below the first one; a key without a value is an error exactly if it is reached, and directives that do not match are errors. Whitespace at the ends of lines is removed, and lines with nothing but a key without lines are left out.",
  "all templates of that form with any depth of nesting, all dictionaries",
  "templates are recursive and dictionaries arbitrary; the generated headers depend on the engine",
  ["tools/unicode_character_tables/codegen.py:make_lines"])
p("Breaking strings into lines",
  "codegen.join puts the strings of a list of non-empty strings, all of them and in their order, into lines, with one separator between the strings of a line and another at the end of each line but the last; lines with several strings are not longer than the given width, and no line could have taken the next string too.",
  "all lists of non-empty strings, all separators, all widths",
  "the greedy algorithm moves strings between lines depending on all lengths",
  ["tools/unicode_character_tables/codegen.py:LineBuilder","tools/unicode_character_tables/codegen.py:join"])
p("The generated headers contain the tables",
  "For every file of the Unicode database and every date, each of the three scripts ends without an error and prints a header that, as C++ tokens, declares exactly its two arrays in namespace ystring, whose numbers fit in their types; compiled with these arrays, the library converts case, gives general categories and decomposes as the lines of the file say, for every code point.",
  "all files with a line for each entry in ascending order of code points (any number of lines, names and other fields arbitrary), all dates, all code points",
  "the file has tens of thousands of lines and changes with every version of Unicode; an error in reading or printing would show only in the tables for some later version",
  ["tools/unicode_character_tables/make_case_convert_file.py","tools/unicode_character_tables/make_char_class_file.py","tools/unicode_character_tables/make_normalization_file.py","tools/unicode_character_tables/codegen.py:make_text"])
p("Names for generated code",
  "variable_name gives the words of a string (the longest runs of characters that are neither whitespace nor C++ punctuation from a fixed list) with single underscores between them; it leaves names unchanged, and gives an identifier exactly if there is a word, all words consist of ASCII letters and digits, and the first does not begin with a digit. make_macro_name gives the same in capital letters.",
  "all strings (ASCII for the capital letters)",
  "strings are unbounded; the list of characters is incomplete, so the condition matters",
  ["tools/unicode_character_tables/codegen.py:variable_name","tools/unicode_character_tables/codegen.py:make_macro_name"])
p("The codec touches only its range",
  "For every memory, range and position in it, decode_next and skip_next read only bytes from the position to the end of the range, decode_prev and skip_prev only bytes from the start of the range to the position; no iterator on the way is outside of these bounds (not even one past), every call ends, and the outcome depends on no other byte and not on the other end of the range. encode_utf8 with a buffer writes exactly as many bytes as it returns, from the start of the buffer and within its size; all other memory keeps its contents.",
  "all contents of memory, all ranges and positions, all code points",
  "an access outside of the range shows only for certain malformed bytes at its ends, and then usually without a symptom",
  ["include/Ystring/DecodeUtf8.hpp:decode_next","include/Ystring/DecodeUtf8.hpp:decode_prev","include/Ystring/DecodeUtf8.hpp:skip_next","include/Ystring/DecodeUtf8.hpp:skip_prev","src/Ystring/EncodeUtf8.hpp:encode_utf8"])
p("Exception texts say what is wrong",
  "The text of the exception thrown by find_first_escaped_char, has_escaped_chars and unescape names the offset, in the string passed by the caller, of the backslash that starts no escape sequence, and says whether the string ends there; that of unescape_next says how many hexadecimal digits were needed and found, that the sequence is incomplete, or that the bytes are not UTF-8; append and replace_codepoint name the number that is not a code point.",
  "all strings, all offsets, all 32-bit values",
  "unescape moves the bytes of the string while it works, so offsets depend on everything in front of the error; strings are unbounded",
  [U+":unescape",U+":unescape_next",U+":find_first_escaped_char",U+":has_escaped_chars",A+":append",A+":replace_codepoint"])
p("Templates with tags anywhere",
  "make_lines of codegen.py accepts exactly the templates in which every [[[ has its ]]] in the same line and the conditional directives match, wherever they stand; it then prints the texts and the values of the keys of the branches whose conditions are the first true ones, with assignments in force from where they stand, however many tags there are in a line; keys without value, malformed assignments and unset marks are errors exactly if they are reached; a line of nothing but white space that ends in a directive is left out. A mark remembers the column in which it stands, and a tab at the start of a line goes on there.",
  "all templates (arbitrary text), all dictionaries",
  "templates are arbitrary text with arbitrary nesting, over which scopes, the dictionary, the column and the marks are carried along",
  ["tools/unicode_character_tables/codegen.py:_tokenize","tools/unicode_character_tables/codegen.py:TemplateProcessor"])
p("unescape and unescape_next read the same text",
  "For well-formed UTF-8 on which unescape returns, calling unescape_next until nullopt yields code points whose UTF-8 encoding (from_utf32) is the result of unescape, provided that no newline is escaped with a backslash and no \\x sequence has more than eight digits; in these two cases the functions differ.",
  "all strings of well-formed UTF-8 accepted by unescape, without an escaped newline and without \\x sequences of more than eight digits",
  "the two functions are separate implementations of the same escape sequences; strings and the combinations of sequences are unbounded",
  [U+":unescape",U+":unescape_next",U+":find_first_escaped_char"])
p("unescape and concatenation",
  "If unescape(s) = o and s has no unpaired escape sequence of a high surrogate, then for every t that does not begin with a hexadecimal digit unescape(s + t) is o + unescape(t), and throws iff unescape(t) throws; unescape(escape_json(s) + t) = s + unescape(t) for every t, and unescape_next on escape_json(s) + t yields the code points of s and then those of t.",
  "all byte strings s, t (s valid in the last part)",
  "the end of an escape sequence depends on the text behind it, so sequences at the seam could change their meaning; strings are unbounded",
  [U+":unescape",U+":unescape_next","src/Ystring/Escape.cpp:escape_json"])
p("Case-insensitive functions cannot tell equal strings apart",
  "If case_insensitive::equal holds for s and s', p and p', t and t' (which implies that they are valid), then compare, less and equal, starts_with and ends_with of case_insensitive return the same for (s, p) and (s', p'); find_first and find_last (from corresponding offsets) find nothing in both or parts that correspond: what is before, in and behind them is pairwise equal; so do find_first_of and find_last_of with sets and with lists of characters that are the same up to case; split cuts both into the same number of pieces, pairwise equal; replace with t and t' gives equal strings.",
  "all pairs of strings that are equal up to case, all patterns, counts and flags",
  "equal strings may differ in length (U+017F has two bytes, its upper case S has one), so offsets do not carry over; strings are unbounded",
  [A+":case_insensitive::compare",A+":case_insensitive::find_first",A+":case_insensitive::find_last",A+":case_insensitive::starts_with",A+":case_insensitive::ends_with",A+":case_insensitive::split",A+":case_insensitive::replace",A+":case_insensitive::find_first_of",A+":case_insensitive::find_last_of"])
p("to_decomposed keeps the characters",
  "to_decomposed(s + t) is to_decomposed(s) + to_decomposed(t) for valid s. For s without the Kirat Rai vowel signs U+16D68, U+16D69 and U+16D6A, if to_decomposed returns, the characters (in the sense of count_chars, get_char_substring, reverse) of the result are the decompositions of the characters of s: count_chars gives the same number, and get_char_substring, replace_chars and reverse commute with to_decomposed. With these vowel signs the number of characters grows by one for each U+16D68 and U+16D69 and by two for each U+16D6A, and by nothing else.",
  "all valid strings for which to_decomposed terminates (C54 says which), all indices in the scope of C28, C31",
  "characters are sequences of any length; a single one of the thousand decompositions whose second part is not a mark breaks the property",
  [N+":to_decomposed",A+":count_chars",A+":get_char_substring",A+":replace_chars",A+":reverse"])
p("to_composed twice, and after to_decomposed",
  "For text below U+1D1BC to_composed returns and composing the result again changes nothing; for any other byte string for which it returns, the second call gives the same again or reads past the end of its table. to_composed never increases the number of characters, and keeps it if it loses no code point (C55). to_composed(to_decomposed(c)) = c holds for a code point c exactly if c has no canonical decomposition into two code points or the first of them is below U+1000.",
  "all byte strings; all texts below U+100000 for the number of characters; all code points up to U+10FFFF for the last part",
  "the loop carries the composed code point along a text of any length; the tables have a thousand entries, and entries may refer to entries",
  [N+":to_composed",N+":to_decomposed",A+":count_chars"])
CC='src/Ystring/ConvertCase.cpp'
p("Laws of the case conversions",
  "to_title(to_title(s)) = to_title(s). Converting first makes no difference to a second conversion, with exactly these exceptions (a word is a run of letters): to_lower(to_upper(s)) = to_lower(s) iff s contains neither U+00DF nor one of 23 code points whose upper case has another lower case (micro sign, dotless i, long s, final sigma, ...); to_lower(to_title(s)) = to_lower(s) iff no word begins with one of these; to_upper(to_title(s)) = to_upper(s) iff no word has, behind its first letter, one of the six code points whose lower case has another upper case; to_title(to_lower(s)) = to_title(s) iff no word begins with one of these six or a Georgian capital and no code point that is not a letter has a lower case; to_title(to_upper(s)) = to_title(s) iff no word begins with a Georgian letter that has a capital, no word has behind its first letter U+00DF or one of the 23, and no code point that is not a letter has an upper case. For ASCII strings all these equations hold.",
  "all byte strings for which the conversions succeed (C53 says which)",
  "words have any length and begin anywhere; one of the 1400 mappings with an unusual inverse breaks a law, and U+00DF and code points that change from non-letter to letter shift the words",
  [CC+":to_lower",CC+":to_upper",CC+":to_title"])
p("Documented exceptions for malformed strings",
  "contains, count_chars, count_codepoints, get_char_substring, insert_char(s), insert_codepoint(s), starts_with and case_insensitive::compare, equal, less and starts_with, whose documentation announces a YstringException if a string is not valid UTF-8, throw it for every string that is not valid. (In fact only count_chars does; the others throw exactly if they have to look at the first malformed bytes: the comparisons if what precedes these agrees with the other string, get_char_substring and insert_char(s) if a position lies behind them or is the end of the last character before them; count_codepoints, insert_codepoint(s) and starts_with never.)",
  "all pairs of byte strings, valid or not, all indices", "Which malformed byte is reached depends on both strings and on the indices; the examples in the tests are valid strings.",
  [AH + " (documentation of these functions)", A + " compare, equal, less, starts_with, ends_with, get_char_pos, insert_chars", AU + " get_char_substring_range, insert_at_offset", AUH + " next_mismatch, prev_mismatch"])

p("Trimming, splitting and case-insensitive searching of malformed strings",
  "trim_start_where returns everything from the first code point that stays, also if malformed bytes follow it, and throws a YstringException iff malformed bytes come before it; trim_end_where in the same way from the right, and trim_where in both ways, so that malformed bytes between the first and the last code point that stays do not matter. split_where, with any finder, cuts the string at what the finder finds in the rest, until the limit is reached or nothing is found, and throws iff the finder throws before that; split at characters (case-sensitive and case-insensitive) throws iff it has to search malformed bytes before the limit is reached. case_insensitive::find_first and find_last compare at every code point from the left (right) up to the first match, and throw iff one of these comparisons meets malformed bytes in either string.",
  "all byte strings, all predicates, all finders returning ranges inside the string, all limits, all offsets of find_first and find_last",
  "malformed bytes may be anywhere, and whether they are reached depends on the rest of the string, the predicate, the limit and the other string",
  [A+":trim_start_where",A+":trim_end_where",A+":split_where",A+":split",A+":case_insensitive::find_first",A+":case_insensitive::find_last",A+":case_insensitive::split"])

p("Signed and unsigned char",
  "Whether the type char is signed or unsigned makes no difference: encoding, decoding and skipping code points, escape_json, find_first_escapable_char, find_first_escaped_char, unescape and unescape_next have the same results, exceptions and undefined behaviour for the same bytes.",
  "all byte strings (at most PTRDIFF_MAX bytes for unescape), all offsets, all code points, both signs",
  "tests run on one platform, where char has one sign; the property must hold for every byte above 0x7F at every place where a char is compared, masked or converted, and for unescape depends on what an earlier scan has excluded",
  [D+":decode_next",D+":decode_prev",D+":skip_next",D+":skip_prev",E+":encode_utf8","src/Ystring/Escape.cpp:escape_json","src/Ystring/Unescape.cpp:unescape","src/Ystring/Unescape.cpp:unescape_next"])

p("to_decomposed returns the normalization form D",
  "For every valid text to_decomposed(s) is the Unicode normalization form D of s: the canonical decomposition of every code point, with the combining marks in canonical order. So to_decomposed(s) is canonically equivalent to s, and two texts are canonically equivalent if and only if to_decomposed gives equal results.",
  "all texts of code points up to U+10FFFF, with any number of combining marks in any order",
  "there are infinitely many sequences of marks, and equality of all canonically equivalent texts is a statement about pairs of texts; tests try a few letters",
  [N+":to_decomposed",N+":decompose"])

p("Running time in bytes read",
  "contains, is_valid_utf8, to_utf32, to_lower, to_title, to_upper, find_first_where, find_last_where, reverse, split at characters, trim_start_where and trim_end_where read no byte of the string twice; count_chars, get_char_pos, count_codepoints, get_codepoint_pos, replace_invalid_utf8, split_lines and trim_where read at most 2, 2, 2, 5, 4, 2 and 2 times as many bytes as the string has. The case-insensitive comparisons read no byte of either string twice, starts_with and ends_with at most five bytes per byte of the second string and a constant, and case_insensitive::find_first and find_last at most five per pair of a byte of the string and a byte of the pattern (plus the pattern and a constant). This holds for malformed strings and for calls that throw too.",
  "all byte strings (shorter than 2^64 - 1 bytes), patterns, positions, predicates, split parameters",
  "the worst case is reached by particular strings of any length (look-ahead at a mark, long runs of continuation bytes, many near matches); a test sees only how long a few inputs take",
  [A+":contains",A+":count_chars",A+":get_char_pos",A+":get_codepoint_pos",A+":replace_invalid_utf8",A+":reverse",A+":split",A+":split_lines",AH+":find_first_where",AH+":trim_where",A+":case_insensitive::find_first",A+":case_insensitive::find_last",CC+":to_lower",D+":skip_prev"])

p("Any conforming standard library",
  "The results of get_char_class, of the case conversions and comparisons of code points, of the decomposition and composition of code points, of CodepointSet and the character lists, of find_first, find_last, replace, find_first_escapable_char and find_first_escaped_char do not depend on how the algorithms of the C++ standard library are implemented, as long as they do what the standard demands; in particular every range passed to std::lower_bound is partitioned by the key, as its precondition demands.",
  "all conforming implementations of lower_bound, search, find, find_if, any_of and mismatch, all code points and strings",
  "tests run with one implementation of the standard library; the precondition of lower_bound must hold for each of 2^32 keys and a violation need not show with a particular implementation",
  ["src/Ystring/CharClass.cpp:get_char_class",CC+":find_in_compact_mapping",CC+":find_in_mapping",N+":find_decomposed",N+":find_composed","src/Ystring/Char32Set.cpp:CodepointSet::contains",A+":find_first",A+":find_last",A+":replace","src/Ystring/Escape.cpp:find_first_escapable_char","src/Ystring/Unescape.cpp:find_first_escaped_char"])

p("32-bit and 64-bit platforms",
  "The width of size_t and ptrdiff_t makes no difference: for a string that fits in memory (at most PTRDIFF_MAX bytes) searching, counting, positions and ranges of characters and code points, substrings, insertion, replacement, reverse, split, trim, escape_json and unescape return the same strings, counts and ranges, throw the same exceptions and are undefined in the same cases on a platform with 6 to 64 bits as on one with 64 bits; npos and the default arguments SIZE_MAX and PTRDIFF_MAX stay npos, SIZE_MAX and PTRDIFF_MAX. Indexes are values of ptrdiff_t on the platform other than the least one; replace with an empty pattern is called with an explicit number of replacements.",
  "all widths of size_t (W = SIZE_MAX + 1 from 64 to 2^64), all byte strings shorter than W / 2, all offsets, indexes, predicates, patterns, split parameters",
  "tests run on one platform; differences of positions wrap around modulo W, and whether a wrapped value is ever used depends on the string and the arguments",
  [AU+":get_char_substring_range",AU+":get_codepoint_substring_range",AU+":find_last_n",AH+":find_first_where",AH+":split_where",A+":get_char_pos",A+":replace",A+":reverse","include/Ystring/TokenIterator.hpp:next","include/Ystring/Subrange.hpp:Subrange","src/Ystring/Escape.cpp:escape_json","src/Ystring/Unescape.cpp:unescape"])

p("Threads do not disturb each other",
  "If several threads are in calls of decode_next, decode_prev, skip_next, is_valid_utf8, to_utf32, contains, count_codepoints, find_first_where, find_last_where, to_lower, to_upper, to_title, skip_prev, replace_invalid_utf8, escape_json, the compare, equal, less, starts_with, ends_with, find_first and find_last of case_insensitive, count_chars, get_char_pos, get_char_range, reverse, get_codepoint, get_codepoint_pos, to_composed, trim_where, trim_start_where, trim_end_where, find_first_newline, find_last_newline, get_char_substring, get_codepoint_substring, encode_utf8 (into a buffer) or unescape (in place), and no call changes a buffer that another one uses (reading the same strings is allowed), then under every schedule of their accesses to memory there is no data race, every call ends within a number of its own accesses that does not depend on the others, returns or throws what it does when it is alone, and leaves in its buffer what it leaves when alone; nothing changes outside of the buffers; the order of the accesses does not matter. Without the condition it fails: two calls of unescape with the same buffer.",
  "any number of threads (any set of them), all arguments, all contents of memory, all schedules of any length",
  "the number of schedules grows exponentially with the number of accesses; a data race need not show in any run of a test",
  [D+":decode_next",D+":decode_prev",D+":skip_next",A+":is_valid_utf8",A+":contains",A+":count_codepoints",A+":case_insensitive::compare",AH+":find_first_where",AH+":find_last_where",E+":encode_utf8",U+":to_utf32",CC+":to_lower",CC+":to_upper","src/Ystring/Unescape.cpp:unescape"])

p("Buffers at any moment of a call",
  "If the process is stopped at any moment of unescape (in place), or the call is left with a YstringException, the buffer holds a first part of the unescaped text, followed at the same positions by the bytes that were there before; everything that has not been read yet, in particular the malformed sequence for which it throws and all behind it, is still there. After a normal return the buffer holds the complete result followed by what was there before. The same holds for encode_utf8 into a buffer. Other threads that do not use the buffer make no difference.",
  "all moments (after any number of accesses to memory, under any schedule), all buffers of at most PTRDIFF_MAX bytes on which unescape has no undefined behaviour (C58)",
  "every access to memory is a possible crash point; tests look at the buffer only after the call",
  ["src/Ystring/Unescape.cpp:unescape",E+":encode_utf8"])

p("Wait-free with bounds, even if the bytes change",
  "A call of one of the functions of C111 ends after a number of accesses to memory that depends only on the lengths of its arguments, whatever the other threads do and even if the bytes of its arguments are changed by others while it is at work: 8 for decode_next, 15 for decode_prev, the length for skip_next, twice the length for count_codepoints, twice the length plus 8 for is_valid_utf8, to_utf32, contains, find_first_where, to_lower, to_upper and to_title (both lengths for case_insensitive::compare, equal, less and starts_with), three times the length plus 15 for find_last_where (both lengths for case_insensitive::ends_with), the length plus 1 for skip_prev, 11 times the length for replace_invalid_utf8, 4 times the length for escape_json, (n + 1) * (2n + 2m + 8) and (n + 1) * (3n + 3m + 15) for case_insensitive::find_first and find_last in n bytes for m bytes, 10 times the length for count_chars and, for positions from the start, get_char_pos and get_char_range (from the end three times the length plus 15), twice the length for get_codepoint_pos (from the end six times) and 8 more for get_codepoint (from the end 15 more), 4 times the length plus 15 for reverse, three times the length plus 8 for to_composed, 5 times the length plus 23 for trim_where (2 times plus 8 for trim_start_where, 3 times plus 15 for trim_end_where), twice the length plus 16 for find_first_newline, three times the length plus 30 for find_last_newline, 20 times the length plus 30 for get_char_substring, 12 times the length for get_codepoint_substring, 4 for encode_utf8, and (length + 12) * (2 * length + 21) for unescape, which needs no more than 5 * length + 17 if no one else changes its buffer. It does not loop, accesses nothing outside of its strings and buffers and writes only to buffers; the functions other than decode_prev, find_last_where, ends_with, find_last, reverse, to_composed, trim_where, trim_end_where, find_last_newline, unescape and, for positions from the end, get_char_pos, get_char_range, get_codepoint and get_char_substring return or throw (no undefined operation).",
  "all calls, all contents of memory, all histories of accesses by any number of threads and of arbitrary changes of the memory between them",
  "the bounds must hold for every history of changes; functions that read the same byte several times may see a different value each time, which tests do not produce",
  [D+":decode_next",D+":decode_prev",D+":skip_next",A+":is_valid_utf8",A+":contains",A+":count_codepoints",A+":case_insensitive::compare",AH+":find_first_where",AH+":find_last_where",E+":encode_utf8",U+":to_utf32",CC+":to_lower",CC+":to_upper","src/Ystring/Unescape.cpp:unescape"])

p("Running time of the other functions",
  "to_composed and to_decomposed read no byte twice, escape_json reads the bytes that it escapes twice and the others once, find_last_newline reads no byte twice. get_char_range, insert_char and insert_chars read at most twice (with a negative position once) as many bytes as the string has, get_codepoint, insert_codepoint and insert_codepoints at most twice (5 times), get_char_substring and replace_chars 4 times, get_codepoint_substring and replace_codepoints 10 times. find_last, and replace with a negative number of replacements, compare at most one pair of bytes per byte of the string and byte of the pattern in all, however many occurrences there are; case_insensitive::replace and case_insensitive::split read at most l * (5 * m + 1) + m + 3 bytes for a string of l and a pattern of m bytes, however many occurrences there are. This holds for malformed strings and for calls that throw too.",
  "all byte strings (shorter than 2^64 - 1 bytes), patterns, replacements, positions, numbers of replacements, split parameters",
  "the bounds are about all strings of all lengths; that a search which starts again after each occurrence does not become quadratic in their number cannot be seen from a few inputs",
  [N+":to_composed",N+":to_decomposed","src/Ystring/Escape.cpp:escape_json",A+":find_last",A+":find_last_newline",A+":get_char_range",A+":get_codepoint",A+":get_char_substring",A+":get_codepoint_substring",A+":insert_char",A+":insert_codepoint",A+":replace",A+":replace_chars",A+":replace_codepoints",A+":case_insensitive::replace",A+":case_insensitive::split",AUH+":search_last"])

p("Case conversion and the characters of a string",
  "to_lower converts a valid string character by character: the characters (a base with its combining marks) and code points of the result are those of the string, each converted, so count_chars and count_codepoints stay the same and to_lower commutes with get_char_substring, get_codepoint_substring and reverse. The same holds for to_upper if the string has neither U+00DF (sharp s) nor U+0345 (combining iota); in general to_upper adds exactly one character for every U+00DF and every U+0345 that is not the first code point, and to_title exactly one for every U+00DF at the beginning of a word.",
  "all byte strings that are valid UTF-8 (of lengths that fit in memory), all start and end indexes accepted by the substring functions",
  "whether a code point is a combining mark and what it is converted to come from two unrelated tables with thousands of entries; a single pair that disagrees makes the counts of some strings wrong",
  [A+":to_lower",A+":to_upper",A+":to_title",A+":count_chars",A+":get_char_substring",A+":get_codepoint_substring",A+":reverse","src/Ystring/CharClass.cpp:get_char_class"])

p("Substrings can be replaced and restored",
  "For a valid string and indexes i <= j up to its number of code points: replacing the code points i..j by what get_codepoint_substring returns for them gives back the string; after replace_codepoints(s, i, j, x), where x is valid and has n code points, get_codepoint_substring from i to i + n returns x, replacing i..i+n again gives what replacing i..j in s would have given, and replacing it by the former substring gives s; insert_codepoints is the replacement of an empty range; edits at different places commute, with the later place moved by the difference in length. The same holds for the functions that count characters, if the replacement attaches no combining mark to a character it did not belong to.",
  "all valid byte strings and replacements (of a total length that fits in memory), all index pairs, any second replacement (valid or not)",
  "whether positions found in the edited string agree with those of the original depends on every prefix of the string and on which code points combine with which",
  [A+":replace_codepoints",A+":replace_chars",A+":get_codepoint_substring",A+":get_char_substring",A+":insert_codepoints",A+":insert_chars"])

p("Repeated searches find everything",
  "The loop that calls a search function from behind (or before) the last match until nothing is found ends after at most one call more than the string has bytes and misses nothing: find_first (find_last) from one byte behind the beginning (before the end) of the last match finds every occurrence exactly once, from left to right (right to left); find_first_where and find_last_where from the end (beginning) of the last match visit exactly the code points for which the predicate holds, in order (reverse order), with their ranges and values; the case-insensitive functions find matches that do not overlap such that every occurrence begins (ends) in one of them. A later start never gives an earlier match; what occurs in a part occurs in the whole, no later; the first match is the last one iff there is exactly one.",
  "all byte strings (valid ones for the predicates and the case-insensitive functions), all nonempty patterns (with overlapping occurrences), all predicates, all offsets",
  "the result of every call depends on where the previous one ended; a test sees a few chains of calls only",
  [A+":find_first",A+":find_last",AH+":find_first_where",AH+":find_last_where",A+":case_insensitive::find_first",A+":case_insensitive::find_last"])

p("Storing lists of strings in one string",
  "split undoes join exactly if the separator is not found too early: it occurs in no piece followed by the separator except at its end, and not in the last piece. split by a set of code points undoes join with the encoding of any of them, and split_lines undoes join with any newline (LF, CR, CR LF, VT, FF, U+0085, U+2028, U+2029), if no piece contains one. So every non-empty list of byte strings can be stored in one string: escape_json each, join with a byte below 0x20, split at that byte and unescape each piece; and every list of well-formed texts without U+0085, U+2028 and U+2029 can be stored as the lines of a text and read with split_lines.",
  "all non-empty lists of byte strings (joined length below 2^64 - 1), all separators, all newlines",
  "round trips must hold for every list and separator; that a separator can match across the end of a piece, and that CR before LF or an empty line changes the cut, is rarely tried",
  [A+":join",A+":split",AUH+":split_where",A+":split_lines","src/Ystring/Escape.cpp:escape_json","src/Ystring/Unescape.cpp:unescape"])

p("Case-insensitive functions and upper case strings",
  "For strings without sharp s that to_upper accepts: with u, q, v the upper case of s, p, t, case_insensitive::equal, less and compare order s and t as their upper case strings are ordered byte by byte; case_insensitive::starts_with and ends_with of (s, p) return what starts_with and ends_with return for (u, q); case_insensitive::find_first and find_last (p not empty) find a part of s exactly if find_first and find_last find q in u, and what is before, in and behind the parts has as its upper case what is before, in and behind q in u; the same for find_first_of and find_last_of with lists of characters; the upper case of the pieces of case_insensitive::split(s, p) are the pieces of split(u, q), with any parameters; the upper case of case_insensitive::replace(s, p, t, n) is replace(u, q, v, n), for positive and negative n. With sharp s these laws fail.",
  "all strings without U+00DF for which to_upper returns, all non-empty patterns of this kind, all replacements, all split parameters and numbers of replacements",
  "to_upper changes the sizes of characters, so offsets do not agree; the laws must hold for all strings and all cased characters of Unicode",
  [A+":case_insensitive::equal",A+":case_insensitive::less",A+":case_insensitive::compare",A+":case_insensitive::starts_with",A+":case_insensitive::ends_with",A+":case_insensitive::find_first",A+":case_insensitive::find_last",A+":case_insensitive::find_first_of",A+":case_insensitive::find_last_of",A+":case_insensitive::split",A+":case_insensitive::replace",CC+":to_upper"])

p("Conversion before or after trimming and splitting",
  "Let conv be to_lower, to_upper or to_title. For every string that conv accepts: trimming code points that are not letters and have no case (white space, newlines, ASCII digits and punctuation) and then converting gives the same as converting first and trimming then, for trim, trim_start, trim_end and their _where forms with any such predicate; the pieces of split at a set of such code points and the lines of split_lines, each converted, are the pieces and lines of the converted string, whatever the limit and whether empty pieces are ignored or not. The same holds for to_decomposed and code points that occur in no canonical decomposition, such as all white space. All white space characters and newlines satisfy both conditions. With letters or combining marks as separators it is false.",
  "all strings that the conversion accepts (overlong forms included), all predicates and sets of caseless code points, all limits, both settings of ignoreEmpty",
  "Tests compare the two orders for some texts; that no letter becomes white space, that title case starts anew in each piece and that no decomposition yields a separator must hold for every code point and every position of the separators.",
  [A+':trim', A+':trim_where', A+':split', A+':split_lines', CC+':to_lower', CC+':to_upper', CC+':to_title', N+':to_decomposed'])

p("Limited splits and replacements can be continued",
  "A split with the limit n leaves some pieces and a rest. For every finder that reports ranges inside of the text it gets, also one that throws, and for split at a string, at code points, at newlines and the case-insensitive forms, on any bytes: the split of the same text with the limit n + m returns the same pieces followed by what splitting the rest with the limit m returns, or throws what that throws; if the limit was not reached, a larger limit changes nothing; if it throws, a larger limit throws the same. With a separator string and empty pieces kept, the limited split is the unlimited one with the pieces behind the first n joined again. Likewise replace with a limit n leaves the text behind the last replacement unchanged, and replacing at most m occurrences in it gives what the limit n + m gives, and mirrored from the right for negative limits; the same for case_insensitive::replace on valid strings.",
  "all strings, all finders whose results are in range, all separators, all limits n, m > 0 (n, m ≥ 0 for replace), both settings of ignoreEmpty",
  "Tests try a few limits on a few texts; that no limit loses, repeats or merges a piece at the cut, or finds a different separator after it, must hold for every position of the separators and every pair of limits.",
  [A+':split', A+':split_lines', A+':replace'])

p("Threads that run programs with any number of calls",
  "Let several threads run programs of their own, each of which reads and writes memory and calls the functions of C111, one call after the other, with arguments that depend on what it has read and on what earlier calls have returned or thrown (exceptions may be caught). If no program changes what another one may use, then under every schedule of their accesses to memory there is no data race; each program ends after a number of its own accesses that does not depend on the schedule, with the result that it has when it is alone, every call having returned or thrown and left in its buffer what the functions on strings say; the memory it uses is as it has left it, and nothing changes that no program may change. When all have ended, results and memory are the same for all schedules.",
  "any number of threads, all programs (trees of reads, writes and calls), all contents of memory, all schedules of any length",
  "programs, contents and schedules are unbounded; a race or a dependence on the schedule need not show in any test run",
  ['include/Ystring/DecodeUtf8.hpp:decode_next', 'include/Ystring/Algorithms.hpp', 'include/Ystring/CaseInsensitive.hpp', 'include/Ystring/Unescape.hpp:unescape', 'src/Ystring/EncodeUtf8.hpp'])

p("On ASCII strings the functions on text are functions on bytes",
  "For every string whose bytes are all below 128: it is valid; its UTF-32 form has its bytes as code points, and converting back gives the string; count_codepoints and count_chars are its length; contains looks for a byte; reverse reverses the bytes; indices of code points and of characters are byte offsets (from the end if negative); substrings, replacement and insertion by indices counted from the beginning are those of the bytes; the searches for code points find the first or last byte, and trimming removes bytes; to_lower, to_upper and to_title change the letters A-Z and a-z only; comparing and searching without regard to case compare the bytes in upper case; to_composed and to_decomposed return the string. The valid strings with as many code points as bytes are exactly these.",
  "all strings of ASCII bytes, all indices, offsets, predicates, search strings and replacements",
  "strings are unbounded, and the functions go through decoders and tables for all of Unicode, in which a wrong entry or boundary shows only for some bytes",
  ['include/Ystring/Algorithms.hpp', 'include/Ystring/CaseInsensitive.hpp', 'include/Ystring/ConvertCase.hpp', 'include/Ystring/Normalize.hpp', 'src/Ystring/Algorithms.cpp'])

p("A repaired string can be passed on",
  "Whatever the bytes of a string, when it has been repaired with replace_invalid_utf8 the other functions neither throw nor have undefined behaviour with it: is_valid_utf8 (which returns true), to_utf32, contains, count_codepoints, count_chars, the functions for positions, ranges and substrings, the searches, reverse, trim, split, escape_json, the case-insensitive functions (with two repaired strings), to_lower, to_upper and to_title.",
  "all byte strings, all replacement code points, predicates, indices, limits and search strings",
  "byte strings are unbounded, and so are the ways in which they can be malformed",
  ['include/Ystring/Algorithms.hpp:replace_invalid_utf8', 'include/Ystring/CaseInsensitive.hpp', 'src/Ystring/Algorithms.cpp', 'src/Ystring/ConvertCase.cpp'])

p("Sorting and containers that ignore case",
  "case_insensitive::less can be used as the comparison function of the standard algorithms and containers for valid strings: in a sorted list the strings less than a given one come first, and one that is equal up to case (case_insensitive::equal) is in the list exactly if it is the next one; strings that are equal up to case are next to each other; the result of sorting is determined up to case, whatever the order before and the algorithm; a std::set finds a string exactly if one that is equal up to case has been inserted, and has no two elements that are equal up to case.",
  "all lists of valid strings, all orders and sorting algorithms, all histories of insertions",
  "lists and histories are unbounded; a comparison that is not a strict weak order fails only for some lists and algorithms",
  ['include/Ystring/CaseInsensitive.hpp:less', 'include/Ystring/CaseInsensitive.hpp:equal', 'src/Ystring/Algorithms.cpp'])

p("Case conversion before and after decomposition",
  "For every string that to_decomposed and to_lower accept, to_lower(to_decomposed(s)) and to_decomposed(to_lower(s)) are both defined, and equal exactly if s contains neither U+0130 (capital I with dot above) nor U+212B (Angstrom sign). For every string that to_decomposed and to_upper accept, to_upper(to_decomposed(s)) and to_decomposed(to_upper(s)) are both defined, and equal exactly if s contains none of 48 listed letters: precomposed small letters without a precomposed capital (such as U+01F0), and Greek letters with iota subscript or circumflex that have none.",
  "all strings, of any length, that the two functions accept",
  "the claim is about every text; it depends on all rows of two case tables and the decomposition table at once, and for unequal texts on the pieces not lining up by accident",
  ['include/Ystring/Normalize.hpp:to_decomposed', 'src/Ystring/Normalize.cpp', 'include/Ystring/ConvertCase.hpp:to_lower', 'include/Ystring/ConvertCase.hpp:to_upper', 'src/Ystring/ConvertCase.cpp'])

p("Case-insensitive functions after decomposition",
  "Decomposing strings loses no case-insensitive match: if case_insensitive::equal(s, t) and to_decomposed accepts s, then it accepts t and the decomposed strings are equal up to case; if a string starts with, ends with or contains (find_first, find_last) another up to case, the decomposed strings do as well, find_first finds a match at or before the place the match had, and find_last at or after it. (Decomposing can add matches: a precomposed letter and a letter with a combining mark are equal only afterwards.)",
  "all strings, of any length, that to_decomposed accepts",
  "holds for all texts only because of a relation between all rows of the upper case table and the decomposition table, also for the letters where the order of the two conversions matters (C126)",
  ['include/Ystring/Algorithms.hpp:case_insensitive::equal', 'include/Ystring/Normalize.hpp:to_decomposed', 'src/Ystring/Algorithms.cpp', 'src/Ystring/Normalize.cpp'])

p("Title case before and after decomposition",
  "For every string that to_decomposed and to_title accept, to_title(to_decomposed(s)) and to_decomposed(to_title(s)) are both defined, and equal exactly if: no word (run of letters) of s contains U+0130 or U+212B behind its first letter; no word begins with one of 30 precomposed small letters without a precomposed capital; and behind an accented letter (one whose canonical decomposition ends in something that is no letter) there is no letter that has a title case different from its lower case, no U+00DF and none of the 30. In particular to_title capitalises the letters behind combining marks: the precomposed word with e-acute, l becomes E-acute, l, but decomposed it becomes E, acute, L.",
  "all strings, of any length, that the two functions accept",
  "the claim is about every text and every position of a word; it depends on two case tables, the letter classes and the decomposition table at once; unequal texts must not line up by accident",
  ['include/Ystring/Normalize.hpp:to_decomposed', 'src/Ystring/Normalize.cpp', 'include/Ystring/ConvertCase.hpp:to_title', 'src/Ystring/ConvertCase.cpp'])

p("Pages of a string, and truncation",
  "For every valid string and every n: the results of get_codepoint_substring(s, k * n, (k + 1) * n) for k = 0, 1, 2, ... are valid, have n code points as long as there are so many, then what is left, and are empty afterwards; the first K of them one behind the other are get_codepoint_substring(s, 0, K * n), and the whole string if K * n is not less than the number of code points. The same holds for get_char_substring and characters. get_codepoint_substring(s, 0, n) and get_char_substring(s, 0, n) truncate: they are valid beginnings of the string with at most n code points or characters, and every valid beginning of the string with at most n of them is a beginning of the result.",
  "every valid string shorter than 2^63 bytes, every page size and number of pages, every valid beginning",
  "the pages and beginnings of arbitrarily long strings are unboundedly many",
  ['src/Ystring/Algorithms.cpp:get_codepoint_substring', 'src/Ystring/Algorithms.cpp:get_char_substring', 'src/Ystring/Algorithms.cpp:count_chars'])

with open('/verif/properties.jsonl','w') as f:
    for x in P: f.write(json.dumps(x,ensure_ascii=False)+"\n")
print(len(P))
