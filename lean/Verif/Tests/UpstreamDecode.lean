import Verif.Model.Utf8
/-
Generated by tools/gen_conformance.py: the assertions of the unit tests in /repo/tests/YstringTest (test_DecodeUtf8.cpp), transcribed for the
model. These examples are no proofs of properties: they test that the model computes what the authors of the code expect it to
compute. The number behind each example is the line of the assertion.
One example differs from its test: decode_prev of FF A0 80 80 80 80 80 80 shifts a 32-bit number by 36 bits, which is undefined
behaviour (C06); the test expects what common compilers make of it.
-/
namespace Ystring

-- decode_next, decode_prev, skip_next, skip_prev
example : decodeNext [0x00] = .ok (0x0, []) := by decide +kernel -- test_DecodeUtf8.cpp:72
example : decodeNext [0x41] = .ok (0x41, []) := by decide +kernel -- test_DecodeUtf8.cpp:73
example : decodeNext [0x7F] = .ok (0x7F, []) := by decide +kernel -- test_DecodeUtf8.cpp:74
example : decodeNext [0xC1, 0x80] = .ok (0x40, []) := by decide +kernel -- test_DecodeUtf8.cpp:75
example : decodeNext [0xDF, 0xBF] = .ok (0x7FF, []) := by decide +kernel -- test_DecodeUtf8.cpp:76
example : decodeNext [0xE0, 0xA0, 0x80] = .ok (0x800, []) := by decide +kernel -- test_DecodeUtf8.cpp:77
example : decodeNext [0xEF, 0xBF, 0xBF] = .ok (0xFFFF, []) := by decide +kernel -- test_DecodeUtf8.cpp:78
example : decodeNext [0xF0, 0x90, 0x80, 0x80] = .ok (0x10000, []) := by decide +kernel -- test_DecodeUtf8.cpp:79
example : decodeNext [0xF7, 0xBF, 0xBF, 0xBF] = .ok (0x1FFFFF, []) := by decide +kernel -- test_DecodeUtf8.cpp:80
example : decodeNext [0x40, 0x80] = .ok (0x40, [0x80]) := by decide +kernel -- test_DecodeUtf8.cpp:85
example : decodeNext [0xD0, 0x80, 0x80] = .ok (0x400, [0x80]) := by decide +kernel -- test_DecodeUtf8.cpp:86
example : decodeNext [0xE8, 0x80, 0x80, 0x80] = .ok (0x8000, [0x80]) := by decide +kernel -- test_DecodeUtf8.cpp:87
example : decodeNext [0xF4, 0x80, 0x80, 0x80, 0x80] = .ok (0x100000, [0x80]) := by decide +kernel -- test_DecodeUtf8.cpp:88
example : decodeNext [] = .ok (INVALID_CHAR, []) := by decide +kernel -- test_DecodeUtf8.cpp:93
example : decodeNext [0x80] = .ok (INVALID_CHAR, [0x80]) := by decide +kernel -- test_DecodeUtf8.cpp:98
example : decodeNext [0xBF] = .ok (INVALID_CHAR, [0xBF]) := by decide +kernel -- test_DecodeUtf8.cpp:99
example : decodeNext [0xC1] = .ok (INVALID_CHAR, [0xC1]) := by decide +kernel -- test_DecodeUtf8.cpp:104
example : decodeNext [0xE1] = .ok (INVALID_CHAR, [0xE1]) := by decide +kernel -- test_DecodeUtf8.cpp:105
example : decodeNext [0xE1, 0x80] = .ok (INVALID_CHAR, [0xE1, 0x80]) := by decide +kernel -- test_DecodeUtf8.cpp:106
example : decodeNext [0xF1] = .ok (INVALID_CHAR, [0xF1]) := by decide +kernel -- test_DecodeUtf8.cpp:107
example : decodeNext [0xF1, 0x80] = .ok (INVALID_CHAR, [0xF1, 0x80]) := by decide +kernel -- test_DecodeUtf8.cpp:108
example : decodeNext [0xF1, 0x80, 0x80] = .ok (INVALID_CHAR, [0xF1, 0x80, 0x80]) := by decide +kernel -- test_DecodeUtf8.cpp:109
example : decodeNext [0xF9, 0x80, 0x80, 0x80, 0x80] = .ok (INVALID_CHAR, [0xF9, 0x80, 0x80, 0x80, 0x80]) := by decide +kernel -- test_DecodeUtf8.cpp:114
example : decodeNext [0xFD, 0x80, 0x80, 0x80, 0x80, 0x80] = .ok (INVALID_CHAR, [0xFD, 0x80, 0x80, 0x80, 0x80, 0x80]) := by decide +kernel -- test_DecodeUtf8.cpp:115
example : decodeNext [0xFE, 0xA0, 0x80, 0x80, 0x80, 0x80, 0x80] = .ok (INVALID_CHAR, [0xFE, 0xA0, 0x80, 0x80, 0x80, 0x80, 0x80]) := by decide +kernel -- test_DecodeUtf8.cpp:116
example : decodeNext [0xFF, 0xA0, 0x80, 0x80, 0x80, 0x80, 0x80, 0x80] = .ok (INVALID_CHAR, [0xFF, 0xA0, 0x80, 0x80, 0x80, 0x80, 0x80, 0x80]) := by decide +kernel -- test_DecodeUtf8.cpp:117
example : decodePrev ([0x00].reverse) = .ok (0x0, ([].reverse)) := by decide +kernel -- test_DecodeUtf8.cpp:122
example : decodePrev ([0x41].reverse) = .ok (0x41, ([].reverse)) := by decide +kernel -- test_DecodeUtf8.cpp:123
example : decodePrev ([0x7F].reverse) = .ok (0x7F, ([].reverse)) := by decide +kernel -- test_DecodeUtf8.cpp:124
example : decodePrev ([0xC1, 0x80].reverse) = .ok (0x40, ([].reverse)) := by decide +kernel -- test_DecodeUtf8.cpp:125
example : decodePrev ([0xDF, 0xBF].reverse) = .ok (0x7FF, ([].reverse)) := by decide +kernel -- test_DecodeUtf8.cpp:126
example : decodePrev ([0xE0, 0xA0, 0x80].reverse) = .ok (0x800, ([].reverse)) := by decide +kernel -- test_DecodeUtf8.cpp:127
example : decodePrev ([0xEF, 0xBF, 0xBF].reverse) = .ok (0xFFFF, ([].reverse)) := by decide +kernel -- test_DecodeUtf8.cpp:128
example : decodePrev ([0xF0, 0x90, 0x80, 0x80].reverse) = .ok (0x10000, ([].reverse)) := by decide +kernel -- test_DecodeUtf8.cpp:129
example : decodePrev ([0xF7, 0xBF, 0xBF, 0xBF].reverse) = .ok (0x1FFFFF, ([].reverse)) := by decide +kernel -- test_DecodeUtf8.cpp:130
example : decodePrev ([0x80, 0x40].reverse) = .ok (0x40, ([0x80].reverse)) := by decide +kernel -- test_DecodeUtf8.cpp:135
example : decodePrev ([0x80, 0xD0, 0x80].reverse) = .ok (0x400, ([0x80].reverse)) := by decide +kernel -- test_DecodeUtf8.cpp:136
example : decodePrev ([0x80, 0xE8, 0x80, 0x80].reverse) = .ok (0x8000, ([0x80].reverse)) := by decide +kernel -- test_DecodeUtf8.cpp:137
example : decodePrev ([0x80, 0xF4, 0x80, 0x80, 0x80].reverse) = .ok (0x100000, ([0x80].reverse)) := by decide +kernel -- test_DecodeUtf8.cpp:138
example : decodePrev ([].reverse) = .ok (INVALID_CHAR, ([].reverse)) := by decide +kernel -- test_DecodeUtf8.cpp:143
example : decodePrev ([0x80].reverse) = .ok (INVALID_CHAR, ([0x80].reverse)) := by decide +kernel -- test_DecodeUtf8.cpp:148
example : decodePrev ([0xBF].reverse) = .ok (INVALID_CHAR, ([0xBF].reverse)) := by decide +kernel -- test_DecodeUtf8.cpp:149
example : decodePrev ([0xC1].reverse) = .ok (INVALID_CHAR, ([0xC1].reverse)) := by decide +kernel -- test_DecodeUtf8.cpp:154
example : decodePrev ([0xE1].reverse) = .ok (INVALID_CHAR, ([0xE1].reverse)) := by decide +kernel -- test_DecodeUtf8.cpp:155
example : decodePrev ([0xE1, 0x80].reverse) = .ok (INVALID_CHAR, ([0xE1, 0x80].reverse)) := by decide +kernel -- test_DecodeUtf8.cpp:156
example : decodePrev ([0xF1].reverse) = .ok (INVALID_CHAR, ([0xF1].reverse)) := by decide +kernel -- test_DecodeUtf8.cpp:157
example : decodePrev ([0xF1, 0x80].reverse) = .ok (INVALID_CHAR, ([0xF1, 0x80].reverse)) := by decide +kernel -- test_DecodeUtf8.cpp:158
example : decodePrev ([0xF1, 0x80, 0x80].reverse) = .ok (INVALID_CHAR, ([0xF1, 0x80, 0x80].reverse)) := by decide +kernel -- test_DecodeUtf8.cpp:159
example : decodePrev ([0xF9, 0x80, 0x80, 0x80, 0x80].reverse) = .ok (INVALID_CHAR, ([0xF9, 0x80, 0x80, 0x80, 0x80].reverse)) := by decide +kernel -- test_DecodeUtf8.cpp:164
example : decodePrev ([0xFD, 0x80, 0x80, 0x80, 0x80, 0x80].reverse) = .ok (INVALID_CHAR, ([0xFD, 0x80, 0x80, 0x80, 0x80, 0x80].reverse)) := by decide +kernel -- test_DecodeUtf8.cpp:165
example : decodePrev ([0xFE, 0xA0, 0x80, 0x80, 0x80, 0x80, 0x80].reverse) = .ok (INVALID_CHAR, ([0xFE, 0xA0, 0x80, 0x80, 0x80, 0x80, 0x80].reverse)) := by decide +kernel -- test_DecodeUtf8.cpp:166
example : decodePrev ([0xFF, 0xA0, 0x80, 0x80, 0x80, 0x80, 0x80, 0x80].reverse) = .error .ub := by decide +kernel -- test_DecodeUtf8.cpp:167
example : skipNext [] = (false, []) := by decide +kernel -- test_DecodeUtf8.cpp:172
example : skipNext [0x5A, 0x5A] = (true, [0x5A]) := by decide +kernel -- test_DecodeUtf8.cpp:173
example : skipNext [0xE0, 0xA0, 0x80, 0x5A] = (true, [0x5A]) := by decide +kernel -- test_DecodeUtf8.cpp:174
example : skipNext [0xE0, 0xA0, 0x80, 0x80, 0x80, 0x5A] = (true, [0x80, 0x80, 0x5A]) := by decide +kernel -- test_DecodeUtf8.cpp:175
example : skipNext [0xF0, 0xA0, 0x80, 0x5A] = (true, [0x5A]) := by decide +kernel -- test_DecodeUtf8.cpp:176
example : skipNext [0xF0, 0x5A] = (true, [0x5A]) := by decide +kernel -- test_DecodeUtf8.cpp:177
example : skipNext [0x80, 0xA0, 0x80, 0x80, 0x80, 0x80, 0x80, 0x80, 0x5A] = (true, [0x5A]) := by decide +kernel -- test_DecodeUtf8.cpp:178
example : skipNext [0xFF, 0xA0, 0x80, 0x80, 0x80, 0x80, 0x80, 0x80, 0x5A] = (true, [0x5A]) := by decide +kernel -- test_DecodeUtf8.cpp:179
example : skipNext [0x80, 0x5A] = (true, [0x5A]) := by decide +kernel -- test_DecodeUtf8.cpp:180
example : skipPrev ([].reverse) = .ok (false, ([].reverse)) := by decide +kernel -- test_DecodeUtf8.cpp:185
example : skipPrev ([0x41, 0x42].reverse) = .ok (true, ([0x41].reverse)) := by decide +kernel -- test_DecodeUtf8.cpp:186
example : skipPrev ([0x42, 0x80].reverse) = .ok (true, ([0x42].reverse)) := by decide +kernel -- test_DecodeUtf8.cpp:187
example : skipPrev ([0x42, 0x80, 0x80, 0x80, 0x80, 0x80, 0x80].reverse) = .ok (true, ([0x42].reverse)) := by decide +kernel -- test_DecodeUtf8.cpp:188
example : skipPrev ([0xE0, 0x80, 0x80, 0x80, 0x80, 0x80, 0x80].reverse) = .ok (true, ([0xE0, 0x80, 0x80].reverse)) := by decide +kernel -- test_DecodeUtf8.cpp:189
example : skipPrev ([0xE0, 0x80, 0x80, 0x80].reverse) = .ok (true, ([0xE0, 0x80, 0x80].reverse)) := by decide +kernel -- test_DecodeUtf8.cpp:190
example : skipPrev ([0x41, 0xE0, 0x80, 0x80].reverse) = .ok (true, ([0x41].reverse)) := by decide +kernel -- test_DecodeUtf8.cpp:191
example : skipPrev ([0x41, 0xF0].reverse) = .ok (true, ([0x41].reverse)) := by decide +kernel -- test_DecodeUtf8.cpp:192
example : skipPrev ([0x41, 0xF0, 0x80].reverse) = .ok (true, ([0x41].reverse)) := by decide +kernel -- test_DecodeUtf8.cpp:193
example : skipPrev ([0x41, 0xF0, 0x80, 0x80].reverse) = .ok (true, ([0x41].reverse)) := by decide +kernel -- test_DecodeUtf8.cpp:194
example : skipPrev ([0x41, 0xF0, 0x80, 0x80, 0x80].reverse) = .ok (true, ([0x41].reverse)) := by decide +kernel -- test_DecodeUtf8.cpp:195
example : skipPrev ([0x41, 0xF0, 0x80, 0x80, 0x80, 0x80].reverse) = .ok (true, ([0x41, 0xF0, 0x80, 0x80, 0x80].reverse)) := by decide +kernel -- test_DecodeUtf8.cpp:196

-- remove_utf8_codepoint
example : removeUtf8Codepoint [0xC3, 0x86, 0xE2, 0x80, 0xB9, 0xC3, 0xA7, 0xEF, 0xAC, 0x81, 0xE2, 0x88, 0x9A, 0xE2, 0x89, 0x88, 0x42] = (true, [0xE2, 0x80, 0xB9, 0xC3, 0xA7, 0xEF, 0xAC, 0x81, 0xE2, 0x88, 0x9A, 0xE2, 0x89, 0x88, 0x42]) := by decide +kernel -- test_DecodeUtf8.cpp:206
example : removeUtf8Codepoint [0xE2, 0x80, 0xB9, 0xC3, 0xA7, 0xEF, 0xAC, 0x81, 0xE2, 0x88, 0x9A, 0xE2, 0x89, 0x88, 0x42] = (true, [0xC3, 0xA7, 0xEF, 0xAC, 0x81, 0xE2, 0x88, 0x9A, 0xE2, 0x89, 0x88, 0x42]) := by decide +kernel -- test_DecodeUtf8.cpp:208
example : removeUtf8Codepoint [0xC3, 0xA7, 0xEF, 0xAC, 0x81, 0xE2, 0x88, 0x9A, 0xE2, 0x89, 0x88, 0x42] = (true, [0xEF, 0xAC, 0x81, 0xE2, 0x88, 0x9A, 0xE2, 0x89, 0x88, 0x42]) := by decide +kernel -- test_DecodeUtf8.cpp:210
example : removeUtf8Codepoint [0xEF, 0xAC, 0x81, 0xE2, 0x88, 0x9A, 0xE2, 0x89, 0x88, 0x42] = (true, [0xE2, 0x88, 0x9A, 0xE2, 0x89, 0x88, 0x42]) := by decide +kernel -- test_DecodeUtf8.cpp:212
example : removeUtf8Codepoint [0xE2, 0x88, 0x9A, 0xE2, 0x89, 0x88, 0x42] = (true, [0xE2, 0x89, 0x88, 0x42]) := by decide +kernel -- test_DecodeUtf8.cpp:214
example : removeUtf8Codepoint [0xE2, 0x89, 0x88, 0x42] = (true, [0x42]) := by decide +kernel -- test_DecodeUtf8.cpp:216
example : removeUtf8Codepoint [0x42] = (true, []) := by decide +kernel -- test_DecodeUtf8.cpp:218
example : removeUtf8Codepoint [] = (false, []) := by decide +kernel -- test_DecodeUtf8.cpp:220

-- pop_utf8_codepoint
example : popUtf8Codepoint [0xC3, 0x86, 0xE2, 0x80, 0xB9, 0xC3, 0xA7, 0xEF, 0xAC, 0x81, 0xE2, 0x88, 0x9A, 0xE2, 0x89, 0x88, 0x42] = .ok (some 0xC6, [0xE2, 0x80, 0xB9, 0xC3, 0xA7, 0xEF, 0xAC, 0x81, 0xE2, 0x88, 0x9A, 0xE2, 0x89, 0x88, 0x42]) := by decide +kernel -- test_DecodeUtf8.cpp:227
example : popUtf8Codepoint [0xE2, 0x80, 0xB9, 0xC3, 0xA7, 0xEF, 0xAC, 0x81, 0xE2, 0x88, 0x9A, 0xE2, 0x89, 0x88, 0x42] = .ok (some 0x2039, [0xC3, 0xA7, 0xEF, 0xAC, 0x81, 0xE2, 0x88, 0x9A, 0xE2, 0x89, 0x88, 0x42]) := by decide +kernel -- test_DecodeUtf8.cpp:229
example : popUtf8Codepoint [0xC3, 0xA7, 0xEF, 0xAC, 0x81, 0xE2, 0x88, 0x9A, 0xE2, 0x89, 0x88, 0x42] = .ok (some 0xE7, [0xEF, 0xAC, 0x81, 0xE2, 0x88, 0x9A, 0xE2, 0x89, 0x88, 0x42]) := by decide +kernel -- test_DecodeUtf8.cpp:231
example : popUtf8Codepoint [0xEF, 0xAC, 0x81, 0xE2, 0x88, 0x9A, 0xE2, 0x89, 0x88, 0x42] = .ok (some 0xFB01, [0xE2, 0x88, 0x9A, 0xE2, 0x89, 0x88, 0x42]) := by decide +kernel -- test_DecodeUtf8.cpp:233
example : popUtf8Codepoint [0xE2, 0x88, 0x9A, 0xE2, 0x89, 0x88, 0x42] = .ok (some 0x221A, [0xE2, 0x89, 0x88, 0x42]) := by decide +kernel -- test_DecodeUtf8.cpp:235
example : popUtf8Codepoint [0xE2, 0x89, 0x88, 0x42] = .ok (some 0x2248, [0x42]) := by decide +kernel -- test_DecodeUtf8.cpp:237
example : popUtf8Codepoint [0x42] = .ok (some 0x42, []) := by decide +kernel -- test_DecodeUtf8.cpp:239
example : popUtf8Codepoint [] = .ok (none, []) := by decide +kernel -- test_DecodeUtf8.cpp:241

-- remove_last_utf8_codepoint
example : removeLastUtf8Codepoint [0xC3, 0x86, 0xE2, 0x80, 0xB9, 0xC3, 0xA7, 0xEF, 0xAC, 0x81, 0xE2, 0x88, 0x9A, 0xE2, 0x89, 0x88, 0x42] = .ok (true, [0xC3, 0x86, 0xE2, 0x80, 0xB9, 0xC3, 0xA7, 0xEF, 0xAC, 0x81, 0xE2, 0x88, 0x9A, 0xE2, 0x89, 0x88]) := by decide +kernel -- test_DecodeUtf8.cpp:248
example : removeLastUtf8Codepoint [0xC3, 0x86, 0xE2, 0x80, 0xB9, 0xC3, 0xA7, 0xEF, 0xAC, 0x81, 0xE2, 0x88, 0x9A, 0xE2, 0x89, 0x88] = .ok (true, [0xC3, 0x86, 0xE2, 0x80, 0xB9, 0xC3, 0xA7, 0xEF, 0xAC, 0x81, 0xE2, 0x88, 0x9A]) := by decide +kernel -- test_DecodeUtf8.cpp:250
example : removeLastUtf8Codepoint [0xC3, 0x86, 0xE2, 0x80, 0xB9, 0xC3, 0xA7, 0xEF, 0xAC, 0x81, 0xE2, 0x88, 0x9A] = .ok (true, [0xC3, 0x86, 0xE2, 0x80, 0xB9, 0xC3, 0xA7, 0xEF, 0xAC, 0x81]) := by decide +kernel -- test_DecodeUtf8.cpp:252
example : removeLastUtf8Codepoint [0xC3, 0x86, 0xE2, 0x80, 0xB9, 0xC3, 0xA7, 0xEF, 0xAC, 0x81] = .ok (true, [0xC3, 0x86, 0xE2, 0x80, 0xB9, 0xC3, 0xA7]) := by decide +kernel -- test_DecodeUtf8.cpp:254
example : removeLastUtf8Codepoint [0xC3, 0x86, 0xE2, 0x80, 0xB9, 0xC3, 0xA7] = .ok (true, [0xC3, 0x86, 0xE2, 0x80, 0xB9]) := by decide +kernel -- test_DecodeUtf8.cpp:256
example : removeLastUtf8Codepoint [0xC3, 0x86, 0xE2, 0x80, 0xB9] = .ok (true, [0xC3, 0x86]) := by decide +kernel -- test_DecodeUtf8.cpp:258
example : removeLastUtf8Codepoint [0xC3, 0x86] = .ok (true, []) := by decide +kernel -- test_DecodeUtf8.cpp:260
example : removeLastUtf8Codepoint [] = .ok (false, []) := by decide +kernel -- test_DecodeUtf8.cpp:262

-- pop_last_utf8_codepoint
example : popLastUtf8Codepoint [0xC3, 0x86, 0xE2, 0x80, 0xB9, 0xC3, 0xA7, 0xEF, 0xAC, 0x81, 0xE2, 0x88, 0x9A, 0xE2, 0x89, 0x88, 0x42] = .ok (some 0x42, [0xC3, 0x86, 0xE2, 0x80, 0xB9, 0xC3, 0xA7, 0xEF, 0xAC, 0x81, 0xE2, 0x88, 0x9A, 0xE2, 0x89, 0x88]) := by decide +kernel -- test_DecodeUtf8.cpp:269
example : popLastUtf8Codepoint [0xC3, 0x86, 0xE2, 0x80, 0xB9, 0xC3, 0xA7, 0xEF, 0xAC, 0x81, 0xE2, 0x88, 0x9A, 0xE2, 0x89, 0x88] = .ok (some 0x2248, [0xC3, 0x86, 0xE2, 0x80, 0xB9, 0xC3, 0xA7, 0xEF, 0xAC, 0x81, 0xE2, 0x88, 0x9A]) := by decide +kernel -- test_DecodeUtf8.cpp:271
example : popLastUtf8Codepoint [0xC3, 0x86, 0xE2, 0x80, 0xB9, 0xC3, 0xA7, 0xEF, 0xAC, 0x81, 0xE2, 0x88, 0x9A] = .ok (some 0x221A, [0xC3, 0x86, 0xE2, 0x80, 0xB9, 0xC3, 0xA7, 0xEF, 0xAC, 0x81]) := by decide +kernel -- test_DecodeUtf8.cpp:273
example : popLastUtf8Codepoint [0xC3, 0x86, 0xE2, 0x80, 0xB9, 0xC3, 0xA7, 0xEF, 0xAC, 0x81] = .ok (some 0xFB01, [0xC3, 0x86, 0xE2, 0x80, 0xB9, 0xC3, 0xA7]) := by decide +kernel -- test_DecodeUtf8.cpp:275
example : popLastUtf8Codepoint [0xC3, 0x86, 0xE2, 0x80, 0xB9, 0xC3, 0xA7] = .ok (some 0xE7, [0xC3, 0x86, 0xE2, 0x80, 0xB9]) := by decide +kernel -- test_DecodeUtf8.cpp:277
example : popLastUtf8Codepoint [0xC3, 0x86, 0xE2, 0x80, 0xB9] = .ok (some 0x2039, [0xC3, 0x86]) := by decide +kernel -- test_DecodeUtf8.cpp:279
example : popLastUtf8Codepoint [0xC3, 0x86] = .ok (some 0xC6, []) := by decide +kernel -- test_DecodeUtf8.cpp:281
example : popLastUtf8Codepoint [] = .ok (none, []) := by decide +kernel -- test_DecodeUtf8.cpp:283

end Ystring
