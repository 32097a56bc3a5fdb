import Verif.Model.ConvertCase
import Verif.Model.CharClass
import Verif.Model.Escape
import Verif.Model.Normalize
import Verif.Model.Utf8
/-
Generated by tools/gen_conformance.py: the assertions of the unit tests in /repo/tests/YstringTest (test_CharClass.cpp, test_ConvertCase.cpp, test_EncodeUtf8.cpp, test_Escape.cpp, test_Normalize.cpp, test_Utf32.cpp), transcribed for the
model. These examples are no proofs of properties: they test that the model computes what the authors of the code expect it to
compute. The number behind each example is the line of the assertion.
-/
namespace Ystring

-- get_char_class on compressed double ranges
example : getCharClass 125251 = CharClass.LOWERCASE_LETTER := by decide +kernel -- test_CharClass.cpp:13
example : getCharClass 125252 = CharClass.NONSPACING_MARK := by decide +kernel -- test_CharClass.cpp:14
example : getCharClass 125258 = CharClass.NONSPACING_MARK := by decide +kernel -- test_CharClass.cpp:15
example : getCharClass 125259 = CharClass.MODIFIER_LETTER := by decide +kernel -- test_CharClass.cpp:16

-- get_char_class on compressed alternating ranges
example : getCharClass 7693 = CharClass.LOWERCASE_LETTER := by decide +kernel -- test_CharClass.cpp:21
example : getCharClass 7694 = CharClass.UPPERCASE_LETTER := by decide +kernel -- test_CharClass.cpp:22

-- get_char_class on compressed double range with upper case letters
example : getCharClass 192 = CharClass.UPPERCASE_LETTER := by decide +kernel -- test_CharClass.cpp:30
example : getCharClass 214 = CharClass.UPPERCASE_LETTER := by decide +kernel -- test_CharClass.cpp:31
example : getCharClass 215 = CharClass.MATH_SYMBOL := by decide +kernel -- test_CharClass.cpp:32

-- get_char_class on ASCII character
example : getCharClass 0x41 = CharClass.UPPERCASE_LETTER := by decide +kernel -- test_CharClass.cpp:37
-- Test ASCII chars upper case
example : toUpperChar 0x61 = 0x41 := by decide +kernel -- test_ConvertCase.cpp:15
example : toUpperChar 0x5A = 0x5A := by decide +kernel -- test_ConvertCase.cpp:16
example : toUpperChar 0x20 = 0x20 := by decide +kernel -- test_ConvertCase.cpp:17

-- Test ASCII chars lower case
example : toLowerChar 0x61 = 0x61 := by decide +kernel -- test_ConvertCase.cpp:22
example : toLowerChar 0x5A = 0x7A := by decide +kernel -- test_ConvertCase.cpp:23
example : toLowerChar 0x20 = 0x20 := by decide +kernel -- test_ConvertCase.cpp:24

-- Test Latin letters
example : toLowerChar 0xE3 = 0xE3 := by decide +kernel -- test_ConvertCase.cpp:29
example : toLowerChar 0xC3 = 0xE3 := by decide +kernel -- test_ConvertCase.cpp:30
example : toUpperChar 0xE3 = 0xC3 := by decide +kernel -- test_ConvertCase.cpp:31
example : toUpperChar 0xC3 = 0xC3 := by decide +kernel -- test_ConvertCase.cpp:32
example : toTitleChar 0xE3 = 0xC3 := by decide +kernel -- test_ConvertCase.cpp:33
example : toTitleChar 0xC3 = 0xC3 := by decide +kernel -- test_ConvertCase.cpp:34

-- Test to_lower
example : toLower [0x41, 0x62, 0x63, 0x44, 0x20, 0xC3, 0x86, 0xC3, 0x98, 0xC3, 0x85, 0x2E] = .ok [0x61, 0x62, 0x63, 0x64, 0x20, 0xC3, 0xA6, 0xC3, 0xB8, 0xC3, 0xA5, 0x2E] := by decide +kernel -- test_ConvertCase.cpp:39

-- Test to_title
example : toTitle [0x41, 0x42, 0x43, 0x44, 0x20, 0xC3, 0xA6, 0xC3, 0xB8, 0xC3, 0xA5, 0x2E] = .ok [0x41, 0x62, 0x63, 0x64, 0x20, 0xC3, 0x86, 0xC3, 0xB8, 0xC3, 0xA5, 0x2E] := by decide +kernel -- test_ConvertCase.cpp:44
example : toTitle [0x41, 0x42, 0x43, 0x44, 0x20, 0xC3, 0xA6, 0xC3, 0xB8, 0xC3, 0xA5, 0x20, 0xC3, 0x9F, 0xC3, 0x9F, 0x2E] = .ok [0x41, 0x62, 0x63, 0x64, 0x20, 0xC3, 0x86, 0xC3, 0xB8, 0xC3, 0xA5, 0x20, 0x53, 0x73, 0xC3, 0x9F, 0x2E] := by decide +kernel -- test_ConvertCase.cpp:45

-- Test to_upper
example : toUpper [0x41, 0x62, 0x43, 0x44, 0x20, 0xC3, 0xA6, 0xC3, 0xB8, 0xC3, 0xA5, 0x2E] = .ok [0x41, 0x42, 0x43, 0x44, 0x20, 0xC3, 0x86, 0xC3, 0x98, 0xC3, 0x85, 0x2E] := by decide +kernel -- test_ConvertCase.cpp:50
example : toUpper [0x44, 0x61, 0xC3, 0x9F, 0x2E] = .ok [0x44, 0x41, 0x53, 0x53, 0x2E] := by decide +kernel -- test_ConvertCase.cpp:51
-- Test escape_json
example : escapeJson [0x41, 0x42, 0x09, 0x20, 0x5C, 0x20, 0x0F, 0x74, 0x79] = .ok [0x41, 0x42, 0x5C, 0x74, 0x20, 0x5C, 0x5C, 0x20, 0x5C, 0x75, 0x30, 0x30, 0x30, 0x46, 0x74, 0x79] := by decide +kernel -- test_Escape.cpp:16
-- Test to_decomposed
example : toDecomposed [0x41, 0x62, 0x63, 0x64, 0x20, 0x31, 0x32, 0x33] = .ok [0x41, 0x62, 0x63, 0x64, 0x20, 0x31, 0x32, 0x33] := by decide +kernel -- test_Normalize.cpp:16
example : toDecomposed [0xC3, 0x84] = .ok [0x41, 0xCC, 0x88] := by decide +kernel -- test_Normalize.cpp:17
example : toDecomposed [0xC7, 0x95] = .ok [0x55, 0xCC, 0x88, 0xCC, 0x84] := by decide +kernel -- test_Normalize.cpp:18
example : toDecomposed [0x43, 0x44, 0xC7, 0x95, 0x71, 0x72] = .ok [0x43, 0x44, 0x55, 0xCC, 0x88, 0xCC, 0x84, 0x71, 0x72] := by decide +kernel -- test_Normalize.cpp:19

-- Test to_composed
example : toComposed [0x41, 0x62, 0x63, 0x64, 0x20, 0x31, 0x32, 0x33] = .ok [0x41, 0x62, 0x63, 0x64, 0x20, 0x31, 0x32, 0x33] := by decide +kernel -- test_Normalize.cpp:24
example : toComposed [0x41, 0xCC, 0x88] = .ok [0xC3, 0x84] := by decide +kernel -- test_Normalize.cpp:25

-- Test decompose
example : decompose 0xC4 = .ok [0x41, 0x308] := by decide +kernel -- test_Normalize.cpp:30
example : decompose 0x1D5 = .ok [0x55, 0x308, 0x304] := by decide +kernel -- test_Normalize.cpp:31

-- Denormalize, two marks, chars before and after.
example : toComposed [0x43, 0x44, 0x55, 0xCC, 0x88, 0xCC, 0x84, 0x71, 0x72] = .ok [0x43, 0x44, 0xC7, 0x95, 0x71, 0x72] := by decide +kernel -- test_Normalize.cpp:36
-- Test from_utf32 char32_t
example : fromUtf32Char 0xC5 = [0xC3, 0x85] := by decide +kernel -- test_Utf32.cpp:16

-- Test from_utf32 u32string
example : fromUtf32 [0x41, 0xC5, 0xE9, 0xE6, 0x3A9] = [0x41, 0xC3, 0x85, 0xC3, 0xA9, 0xC3, 0xA6, 0xCE, 0xA9] := by decide +kernel -- test_Utf32.cpp:21

-- Test to_utf32
example : toUtf32 [0x41, 0xC3, 0x85, 0xC3, 0xA9, 0xC3, 0xA6, 0xCE, 0xA9] = .ok [0x41, 0xC5, 0xE9, 0xE6, 0x3A9] := by decide +kernel -- test_Utf32.cpp:26
-- Test encode_utf8
example : encodeUtf8Buf 0x0 4 = ([0x00], 1) := by decide +kernel -- test_EncodeUtf8.cpp:27
example : encodeUtf8Buf 0x41 4 = ([0x41], 1) := by decide +kernel -- test_EncodeUtf8.cpp:28
example : encodeUtf8Buf 0x7F 4 = ([0x7F], 1) := by decide +kernel -- test_EncodeUtf8.cpp:29
example : encodeUtf8Buf 0x80 4 = ([0xC2, 0x80], 2) := by decide +kernel -- test_EncodeUtf8.cpp:30
example : encodeUtf8Buf 0x7FF 4 = ([0xDF, 0xBF], 2) := by decide +kernel -- test_EncodeUtf8.cpp:31
example : encodeUtf8Buf 0x800 4 = ([0xE0, 0xA0, 0x80], 3) := by decide +kernel -- test_EncodeUtf8.cpp:32
example : encodeUtf8Buf 0x800 4 = ([0xE0, 0xA0, 0x80], 3) := by decide +kernel -- test_EncodeUtf8.cpp:33
example : encodeUtf8Buf 0xFFFF 4 = ([0xEF, 0xBF, 0xBF], 3) := by decide +kernel -- test_EncodeUtf8.cpp:34
example : encodeUtf8Buf 0x10000 4 = ([0xF0, 0x90, 0x80, 0x80], 4) := by decide +kernel -- test_EncodeUtf8.cpp:35
example : encodeUtf8Buf 0x10FFFF 4 = ([0xF4, 0x8F, 0xBF, 0xBF], 4) := by decide +kernel -- test_EncodeUtf8.cpp:36
example : encodeUtf8Buf 0x110000 4 = ([], 0) := by decide +kernel -- test_EncodeUtf8.cpp:37

end Ystring
