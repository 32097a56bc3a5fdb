# Formal model of jebreimo/Ystring2 in Lean 4 — design

## 1. What is modelled, and how

The library is a set of pure functions over byte strings.  The model follows it
function by function (every definition cites file and lines in /repo).

| C++ | model |
|---|---|
| `std::string`, `std::string_view` | `Str = List UInt8` (contents only; `Model/View.lean` adds the addresses of returned views; ownership/lifetime not modelled) |
| `char32_t`, `uint32_t` | `Char32 = UInt32` (wrap-around as in C++) |
| `size_t` | `Nat`, with explicit reduction mod 2^64 wherever the code adds or subtracts sizes that may wrap (`Subrange::end`, `e - s`, ...); C110 shows that other widths give the same results |
| `ptrdiff_t` | `Int`; theorems quantify over all values or carry the range hypothesis `-2^63 <= p < 2^63`; overflow is `ub` |
| iterator pair `[it,end)` | the list of bytes it covers (for the codec also as addresses, with checked accesses: `Model/Pointers.lean`, C95) |
| iterator pair `[begin,it)` moved backwards | the reversed list of bytes it covers (nearest byte first) |
| `YstringException` | `Except.error Err.ystring` (texts that depend on the input: `Model/Messages.lean`, C96) |
| `std::out_of_range` from `string_view::substr` | `Err.outOfRange` |
| undefined behaviour (out-of-bounds read, shift >= width, signed overflow, read of an uninitialised variable) | `Err.ub` |
| a loop without a bound | structural recursion on fuel; exhausting the fuel is `Err.diverge`, theorems show it does not happen (or, where it does, for every fuel) |
| `std::search`, `find`, `find_if`, `lower_bound`, `mismatch`, `any_of`, `reverse`, `from_chars` | modelled by one implementation each (`lower_bound` as a binary search); C109 shows that any other conforming one gives the same |
| constant tables | generated Lean lists, copied literally from the headers |

## 2. Trusted base

* Lean's kernel and the axioms `propext`, `Classical.choice`, `Quot.sound` (checked with `#print axioms`; no others).
* My reading of the C++ source and of the C++ standard library contracts listed above.
* The generator script `tools/gen_tables.py`, which copies the tables and the
  Unicode data file to Lean.
* The specifications in `lean/Verif/Spec/` (they mention no function of the model except where a property is about
  histories of calls, `Spec/History.lean`).

Parts of the code that are modelled (every public function of these files, and the private helpers they use):
`include/Ystring/Algorithms.hpp`, `src/Ystring/Algorithms.cpp`, `AlgorithmUtilities.*`, `DecodeUtf8.hpp`, `EncodeUtf8.hpp`,
`Utf32.*`, `Subrange.*` (also `operator<<`), `TokenIterator.hpp`, `CodepointSet.hpp` / `Char32Set.cpp` (also
`operator<<`), `CharClass.*`, `CodepointPredicates.hpp`, `CaseInsensitive.hpp`, `ConvertCase.*`, `Escape.*`,
`Unescape.*`, `Normalize.*`, and all constant tables; and the table generators `make_case_convert_file.py`,
`make_char_class_file.py` and `make_normalization_file.py` in `tools/unicode_character_tables` as functions from the fields of a
Unicode database to tables including reading the file and printing the header (`Model/Headers.lean`), and `codegen.py`. (Simplified there: lines end in "\n"; `int(s, 16)` without prefixes,
underscores, signs and blanks; `title()` and `upper()` on ASCII; the command line is the name of the case.) Header default arguments are default arguments of the model.

Not modelled: memory allocation failure (`bad_alloc`, `length_error`) in functions that only return a new value (for those that change
an argument see C90), the file name and line number in front of exception texts and those texts that are always the same (for the others see C96), object lifetimes and dangling
views, `reserve`, `YstringVersion.hpp`, `to_string_view` / `to_u8string_view` (casts),
`misc/` (not compiled into the library).

How the model was compared with the code: besides the citations at each definition, the 402 assertions of the unit tests in
`/repo/tests` are transcribed by `tools/gen_conformance.py` into examples about the model (`Verif/Tests/Upstream*.lean`, checked by the
kernel). All hold; the only one that is transcribed with a different result is a call of `decode_prev` with undefined behaviour (C06).
The model of the table generators was also run (outside the kernel) on the file of the Unicode database in `/repo`: what it prints is, but for the date, byte for
byte the headers in `/repo/src/Ystring`. These are tests of the model, not proofs of properties.

## 3. Plan per property

See MANIFEST.json for the current status and theorem names.

* C01–C06 codec: `encode_utf8`, `decode_next`, `decode_prev` with bit operations on `UInt32`/`UInt8`; independent spec
  by Nat arithmetic (`Spec.IsUnit`) and Lean's own `String.utf8EncodeChar`. Bit facts over all 256 bytes are checked by kernel enumeration
  of the complete domain, the rest by `omega`.
* C06 is false as stated (undefined shift for >= 7 continuation bytes): exact UB condition + partial theorem.
* C07–C10: induction over the unique decomposition of a byte string into sequences and a malformed rest.
  C08 false as stated (overlong, surrogates, > U+10FFFF accepted): exact characterisation + negation.
* C11–C13: skip segmentation as a list of blocks, both directions related to the same blocks. C12's exception clause is false.
* C14: invariant of the repair loop.
* C15–C23: search functions against "first/last index such that" specs. C22 depends on a non-terminated array converted to
  `u32string_view`: strict semantics is UB; model parameterised by the memory following the array.
* C24–C33: characters as code point groups; positions are prefix sums. C29/C30/C31/C33 false in some cases: negations + partial theorems.
* C34–C37: replace against a separate greedy spec. C37 false: negations + exact characterisation.
* C38–C42: split/token/trim. C41 false (`token()`).
* C43–C47: case-insensitive functions against the list of upper-cased code points. C43's second half false (sharp s).
* C48–C49: refinement of `CodepointSet` to a predicate. Both false in corner cases.
* C50–C53: tables checked completely by kernel computation, lifted to all 2^32 values by search lemmas. C50 false (CJK, Hangul... ranges).
* C54–C55: normalisation. C54 false (infinite loop on 36 code points), C55 false (out-of-bounds read, lost characters, truncated key).
* C56–C62: escape/unescape. C58, C60, C62 false (reads past the end, uninitialised value, partial rollback).
* C63–C64: memory safety and termination on arbitrary bytes: a predicate "value in range or YstringException" closed under
  bind, applied to every function (`Proofs/Safety*.lean`).
* C65: order preservation from the lengths and lead bytes of encodings.
* C66: predicates against the general categories of UnicodeData (exact exceptions from C50).
* C67: CI find_*_of by reduction to C20. C68: stream output, decimal printing is injective.
* C69–C72, C74: algebraic laws derived from the exact theorems. C70 (edits), C71 (substring partition),
  C72 (negative indices) work on the list of code points / characters.
* C73 consistency of searches, C75 case laws, C76 sizes of results, C77 orderings, C78 resynchronisation.
* C79 laws of reverse. C80: induction over histories of calls (`Spec.Derived`); sets of strings closed under concatenation
  and cutting between code points are closed under the functions. False for mixed-sign indices (C80_false).
* C81–C83: generators. C81: what the case conversion of the library computes with generated tables, for every database (fold
  invariants; the search lemmas of C52), and equality of the committed tables with the generator's output on
  UnicodeData16.0.0.txt (kernel computation). C82: the same for character classes: ranges as a tiling of the code points whose
  classes are given by the lines of the database, preserved by both optimisation passes. C83: composition tables.
* C84: a client loop over `TokenIterator` (`Spec.traverse`); induction over the pieces found, related to `split_where` by C38.
* C85–C86: the templates again with callbacks that have a state and may throw (`Model/Callback.lean`), related to the model without
  effects (`C85_no_effects`). C86 is false for exceptions after the first call.
* C87: the functions that return views again with the address of each view (`Model/View.lean`), related to the model without addresses
  (`C87_contents`, `C87_split_contents`). False for the trim functions if everything is trimmed.
* C88: the functions that change an argument, again with the value of the argument in the case of an exception (`Model/InOut.lean`).
* C89: `Spec/Codepoints.lean` defines the operations on lists of code points; the theorems relate the cuts of C38–C42, C34–C35 and C47 to them.
* C90: the same functions (and those of `CodepointSet`, and `unescape_next`) with an oracle that says which requests for memory fail
  (`Model/Alloc.lean`). False for `append` and `unescape_next`.
* C91: `codegen.py` as tokens and a state machine (`Model/Codegen.lean`); `Spec/Template.lean` has templates as trees with an evaluation; induction on the tree.
* C92: an invariant of `LineBuilder` (the groups of strings that make up the lines).
* C93: the three scripts from the text of the file to the text of the header (`Model/Headers.lean`); `Spec/Cpp.lean` says what a file of the database is and which
  arrays a header declares (tokens of C++); C91 for the templates, C81–C83 for the tables, and lemmas on reading and printing hexadecimal numbers.
* C94: `variable_name` and `make_macro_name` (`Model/Names.lean`) against an inductive definition of the words of a string (`Spec/Names.lean`).
* C95: the codec again with iterators as addresses and every access checked (`Model/Pointers.lean`); it is proved equal to the functions on lists of
  bytes, which also justifies the representation of iterators by lists in the rest of the model.
* C97: every template: `Spec/Program.lean` has the pieces of a text (relation), the meaning of tags (relation), programs as trees and their evaluation
  without a stack of scopes; the stack machine is proved to evaluate the tree, and to accept nothing else. False for the column in some cases.
* The notions of text used by the specifications of the scripts (blank characters, joining, decimal numerals, which values count as true) are defined in
  `Spec/Text.lean` without the functions of the model; `Proofs/Text.lean` shows that the model computes them.
* C96: the functions whose exceptions have a text that depends on the input, again with the text (`Model/Messages.lean`); `C96_same` shows that they
  are otherwise the same functions; `Spec/Messages.lean` says which text belongs to which input. False for `unescape` behind a high surrogate.
* C98–C99: induction over `Spec.Reads`, the reading of a string by escape sequences, with C59 and C60.
* C100: a cut of a string between code points has a counterpart in every string that is equal up to case, and the order
  of cuts is kept; so first and last matches correspond (C43–C47, C67).
* C101: C25 describes characters as a code point with the marks behind it; a table fact (every second component but U+16D67 is a mark, first
  components and composites are both marks or both none) carries that through `to_decomposed` (`Proofs/MarkPairs.lean`).
* C102: a composite is never the second component of a pair, so the result of `to_composed` has no pairs left (`Calm`); the round trip of a code
  point by cases of its table decomposition (C54) with C55_exact.
* C103: each conversion is a function of the list of code points that works from left to right with one bit of state (was the last code
  point a letter); two such functions are compared code point by code point (`agree_iff`: they agree on good code points and differ at once on
  bad ones). The facts about single code points are checked on the mappings of UnicodeData16.0.0.txt, compressed to blocks (Proofs/CasePieces,
  Proofs/ClassPieces, both checked against the data); that letters stay letters follows from the same for `to_upper`.
* C104: induction along both strings up to the malformed bytes of either (comparisons); the character positions of C25 up to the malformed
  bytes from the left, from the right, and from both (Props/MalformedMixed.lean). False as documented.
* C105: the trimming cases follow from the find_first_where/find_last_where results (C20, C21); splitting by induction over the cuts with a
  finder that may throw; case-insensitive searching by induction over the code points before the malformed bytes.
* C106: Model/Signed.lean repeats the functions that compute with `char`s with explicit promotions and conversions; equal to the other models
  by induction over the loops, with all 256 bytes checked by the kernel where a byte is tested. `unescape` needs the invariant of C58.
* C107: `Spec/NormalForm.lean` defines the normalization form D from the canonical decompositions and combining classes of UnicodeData16.0.0.txt; it is
  unique because insertion sorting commutes with exchanges. With C54 the library's result is compared with it. False: marks are not reordered.
* C108: Model/Cost.lean repeats the functions with a counter for the bytes read; forgetting it gives the other models (induction). The bounds are
  proved with a budget calculus (Proofs/CostBound.lean): what remains of the budget pays for the rest of the string; a look-ahead at a code point is
  paid by the function that reads it next.
* C109: Model/Library.lean repeats the functions that call `lower_bound`, `search`, `find`, `find_if`, `any_of` and `mismatch` with the implementation of these as a parameter; Spec/Library.lean is what the standard promises. The promises determine the results (uniqueness of the first position, of the partition point); the tables are sorted (kernel evaluation), so every range is partitioned.
* C110: Model/Width.lean repeats the functions that calculate with `size_t` and `ptrdiff_t` with the number `W` of values of `size_t` as a parameter. A relation between outcomes (equal, or `npos` on both sides) is preserved by every step; the invariants are that positions stay within the string and that differences of positions that wrap around are used only as "to the end" or are added to the same position again.
* C111: Model/Threads.lean, Model/ThreadsMore.lean, Model/ThreadsText.lean and Model/ThreadsViews.lean repeat functions as programs of single loads and stores (a free monad); Spec/Threads.lean interleaves any number of
  them on a shared memory. Every program accesses only its arguments and buffers (induction over the program); with disjoint buffers each thread's
  rest commutes with the steps of the others, so an invariant ("what is left of each thread, run alone from now on, ends as it would have ended
  from the beginning") holds under every schedule. Alone, the programs compute what the functions on lists compute. Trusted here: that the C++ memory model gives
  a program without data races no other executions than interleavings, and that the library has no other shared state (no `static`, `mutable` or `thread_local` variable occurs in `src` and `include`; the tables are constants).
* C112: "always" version of the same: the stores of `unescape` and `encode_utf8` are at ascending addresses, so at every moment the memory is a first
  part of the final contents and the rest of the original ones; with the loop invariant of C58 the final contents are known.
* C113: a weakest-precondition calculus with a counter on the programs of C111, in which every load may yield any byte (Proofs/ThreadsWait*.lean); it is
  preserved by the steps of a thread and by arbitrary changes of the memory. For the linear bound of `unescape` the same calculus is combined with
  the loop invariant of C112 (Proofs/ThreadsLinear.lean).
* C114: as C108, with Model/CostMore.lean and Proofs/CostBound3.lean; for repeated searches what remains after a match pays for all later ones (a code
  point of the match pays for the comparison that found it and for the first code point of the pattern of the next search).
* C115: that conversion keeps combining marks marks and other code points other (except U+0345) is checked by the kernel on the pieces of the two tables
  (Proofs/CaseMarks.lean); the rest is induction on the decoded text, with the exact specifications of the functions from C20–C33 and C53.
* C116: a lemma about lists of pieces for any way to cut strings (`Editing`), used for code points and characters; C29–C32 say what the functions do to
  the pieces.
* C117: induction on what is left to search, with the exact specifications C17, C18, C20, C21, C45.
* C118: the joined list, cut where it was joined, satisfies the specification of C38 to C40, and the lists that satisfy it are unique; with C56 and C57 for the escaped pieces.
* C119: in an upper case string the matches up to case are the byte occurrences (with C19); transport from s to its upper case with C100, uniqueness of the cuts (C47, C35).
* C120: A conversion F `Keeps` a predicate p if it acts separately on the text before and after a code point that satisfies p, keeps that code point, and makes no new ones (Props/CaseTrim.lean). For such F trimming and `Splits` (the relation of C39/C40) are carried over by induction, and both are functional, so the results agree. `Keeps` follows from the code-point-level functions of C53/C101 and checks of UnicodeData's tables.
* C121: The relation `Splits` of C38/C105 composes (splits_append) and is functional (splits_functional of C120), so the cuts with the limit n + m are those with the limit n followed by those of the rest with the limit m; the outcome (pieces or what the finder throws) follows from C105's splitWhere_any for the three splits. For replace the scans of C34, C35 and C47 compose in the same way and are unique.
* C122: the invariant of C111 is about arbitrary programs of loads and stores, so it applies to the programs of clients, whose accesses are those of the client and of its calls (Prog.try continues after an exception). That a client alone does what the relation Runs says is an induction over the client with the outcome theorem of C111 for each call.
* C123: an ASCII string decodes to its bytes, and each byte is a code point and a character (no ASCII byte is a mark, by a kernel check over all bytes), so that the theorems C08-C55 about code points and characters specialise; the case and decomposition tables are compared with the arithmetic on bytes by a kernel check over all bytes.
* C124: by C14 and C08 a repaired string is a sequence of encoded code points, for which the properties of the single functions say what they return; the conversions of case are characterised exactly by C53.
* C125: less and equal compare the folded code points (C43, C44), which are totally ordered; lists sorted by them are divided by every string, and two sorted permutations have the same keys. The set is an induction over its history.
* C126: Checked for each pair of the decomposition table by the kernel: the mapped pair is a pair again; by the four possible chain lengths the decomposition of a mapped code point is the mapped decomposition. For texts: pieces of equal lengths (upper), a code point that no decomposition contains and the lengths (lower).
* C127: The folded decomposition of a code point depends only on its upper case mapping (pairs of the table, checked by the kernel, and idempotence), so the folded decomposition of a text is a function of the folded text; C101 divides the decomposed text at the matches.
* C128: As C126, with the state of the title case loop on both sides; for each code point and pair of states the two pieces are equal, or differ with equal lengths, or differ in a weight that is never smaller on one side; so equal texts have equal pieces.
* C129: Props/Pages.lean: the slices of C29 and C30 for indices from the start, put together; for characters, how the characters of two strings one behind the other are those of both, with the last of the first continued (characters_joined).

## 4. Layout of the Lean project

* `Verif/Model/*.lean` – the model (`Model/Signed.lean`: once more with signed or unsigned `char`, C106; `Model/Cost.lean`, `Model/CostMore.lean`: with the number of bytes read, C108 and C114); `Verif/Model/Tables/*` – generated from the C++ headers by `tools/gen_tables.py`.
* `Verif/Spec/*.lean` – specifications; `Verif/Spec/UnicodeData/*` – generated from the UnicodeData.txt of the repository.
* `Verif/Proofs/*.lean` – lemmas; `Verif/Props/*.lean` – the theorems `Cnn_...`. A theorem whose name ends in `_partial`
  proves part of property nn; `Cnn_false...` shows that the property as stated fails for the actual code.
* `seeded/LOG.jsonl` – results of testing the theorems against wrong programs.

## 5. Defects of the code found while proving

* `decode_prev` shifts by 32 or more (UB) iff the text ends in a run of at least seven continuation bytes after another byte (C06, C13).
* `is_valid_utf8` and `decode_next` accept overlong forms, surrogates and values up to 0x1FFFFF (C08).
* `find_first_newline`, `split_lines`, `trim` read past arrays that are not zero-terminated (C22, C42).
* `get_codepoint_pos`, `replace` etc. overflow for PTRDIFF_MIN (C27, C37).
* `TokenIterator::next` moves forward before it calls the finder: after an exception of the finder, repeating the call skips text (C86).
* `append` leaves the beginning of a UTF-8 sequence in the string if memory runs out; `unescape_next` then does not restore the view (C90).
* `trim*` of a string of which everything is trimmed returns a view with a null `data()`, not an empty view of the argument (C87).
* Substring/replacement functions with mixed-sign indices return wrong ranges, throw `std::out_of_range` or cut a code point (C29–C31, C80).
* `insert_*` with an empty string never throws; `split` with `max_splits = 0` returns nothing; `TokenIterator::token()` is wrong (C32, C38, C41).
* `reverse(reverse(s)) != s` if s begins with a combining mark (C33). `replace` with an empty pattern (C37).
* Case-insensitive comparison does not identify sharp s and SS (C43).
* `CodepointSet` wraps around at 2^32-1 and accepts inverted ranges; its printed form is ambiguous (C48, C49, C68).
* `get_char_class` is wrong inside 11 ideograph/Hangul blocks; values from 2^21 on alias smaller ones (C50, C66). The cause of the
  first is an outdated set of known range ends in the generator (C82_false_known).
* `to_decomposed` does not terminate on 36 code points; `to_composed` loses characters, reads outside its tables, never composes
  bases from U+1000 (C54, C55).
* `to_decomposed` does not put combining marks in canonical order, so canonically equivalent texts can have different results (C107).
* `to_decomposed` changes the number of characters of text with U+16D68–U+16D6A (C101). The result of `to_composed` cannot always be composed again
  (U+1F600 A U+0323); `to_composed(to_decomposed(U+1EAC))` is U+1EA0, the circumflex is lost (C102).
* `unescape` reads uninitialised variables for truncated `\u`, `\U` and octal sequences and overflows for long `\x` ones; `\uD800`
  followed by certain text throws; values above U+10FFFF are dropped (C58–C60). `find_first_escaped_char` can return a range past the end;
  `unescape_next` does not restore the iterator after skipped newlines (C60, C62).
* `\` before a newline is a newline for `unescape` and nothing for `unescape_next`; `\x` takes any number of digits or eight (C98).
* `unescape` reports a wrong offset for errors behind the escape sequence of a high surrogate (C96).
* `codegen.py` does not count the column after a list with one line and after `|`; it accepts `ELIF` and `ELSE` behind `ELSE` (C97).
* `codegen.py` does not reset the column after a line with nothing but an indented directive or an empty key, so the next list is misaligned (C91);
  `LineBuilder.append` loses a string if the separator is empty (C92).
* Documentation that the code does not follow: exceptions for strings that are not valid (C104); `max_replacements = 0` is said to replace everything and
  replaces nothing (C37); `maxSplits = 0` is said to split everywhere and returns an empty list, and negative values do not exist (C38, C39);
  `case_insensitive::find_first` and `find_last` of something that is not there are said to point to the end or the beginning and return a range at `npos` (C45).
* `case_insensitive::starts_with("a\xFF", "a")` throws although the prefix matches, `starts_with("ab\xFF", "a")` does not (C104).
* `case_insensitive_compare` is not an ordering for values from 2^31 on (C77).
* `to_upper` turns the combining mark U+0345 into the letter U+0399, so the number of characters changes (C115; Unicode demands it, but code that uses
  character indexes of a string for its upper case version is wrong).
