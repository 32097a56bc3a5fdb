import Verif.Model.Unescape
/-
Generated by tools/gen_conformance.py: the assertions of the unit tests in /repo/tests/YstringTest (test_Unescape.cpp), transcribed for the
model. These examples are no proofs of properties: they test that the model computes what the authors of the code expect it to
compute. The number behind each example is the line of the assertion.
-/
namespace Ystring

-- Test has_escaped_characters
example : hasEscapedChars [0x41, 0x42, 0x20, 0x5C, 0x78, 0x34, 0x31, 0x20, 0x5C, 0x27, 0x20, 0x5C, 0x61] = .ok true := by decide +kernel -- test_Unescape.cpp:32
example : hasEscapedChars [0x41, 0x42, 0x20, 0x43, 0x44, 0x20, 0x45, 0x46] = .ok false := by decide +kernel -- test_Unescape.cpp:33

-- Test unescape
example : unescape [0x41, 0x42, 0x20, 0x5C, 0x78, 0x34, 0x31, 0x20, 0x5C, 0x27, 0x20, 0x5C, 0x61] = .ok [0x41, 0x42, 0x20, 0x41, 0x20, 0x27, 0x20, 0x07] := by decide +kernel -- test_Unescape.cpp:38
example : unescape [0x5C, 0x30, 0x34, 0x30] = .ok [0x20] := by decide +kernel -- test_Unescape.cpp:39
example : unescape [0x41, 0x20, 0x5C, 0x75, 0x44, 0x38, 0x30, 0x30, 0x5C, 0x75, 0x44, 0x43, 0x30, 0x30, 0x20, 0x42] = .ok [0x41, 0x20, 0xF0, 0x90, 0x80, 0x80, 0x20, 0x42] := by decide +kernel -- test_Unescape.cpp:40

-- Test unescape regular ASCII characters
example : unescape [0x5C, 0x5B, 0x5C, 0x5E, 0x5C, 0x7B, 0x5C, 0x2D, 0x5C, 0x7D, 0x5C, 0x5D] = .ok [0x5B, 0x5E, 0x7B, 0x2D, 0x7D, 0x5D] := by decide +kernel -- test_Unescape.cpp:45

-- Test find_first_escaped_character
example : (findFirstEscapedChar [0x46, 0x6F, 0x6F, 0x20, 0x5C, 0x61, 0x20, 0x5C, 0x78, 0x31, 0x32, 0x46, 0x47, 0x20, 0x5C, 0x75, 0x41, 0x62, 0x63, 0x44, 0x45, 0x5C, 0x5C, 0x5C, 0x31, 0x30] 0 >>= fun sub => substr [0x46, 0x6F, 0x6F, 0x20, 0x5C, 0x61, 0x20, 0x5C, 0x78, 0x31, 0x32, 0x46, 0x47, 0x20, 0x5C, 0x75, 0x41, 0x62, 0x63, 0x44, 0x45, 0x5C, 0x5C, 0x5C, 0x31, 0x30] sub.offset sub.length) = .ok [0x5C, 0x61] := by decide +kernel -- test_Unescape.cpp:19
example : (findFirstEscapedChar [0x46, 0x6F, 0x6F, 0x20, 0x5C, 0x61, 0x20, 0x5C, 0x78, 0x31, 0x32, 0x46, 0x47, 0x20, 0x5C, 0x75, 0x41, 0x62, 0x63, 0x44, 0x45, 0x5C, 0x5C, 0x5C, 0x31, 0x30] 6 >>= fun sub => substr [0x46, 0x6F, 0x6F, 0x20, 0x5C, 0x61, 0x20, 0x5C, 0x78, 0x31, 0x32, 0x46, 0x47, 0x20, 0x5C, 0x75, 0x41, 0x62, 0x63, 0x44, 0x45, 0x5C, 0x5C, 0x5C, 0x31, 0x30] sub.offset sub.length) = .ok [0x5C, 0x78, 0x31, 0x32, 0x46] := by decide +kernel -- test_Unescape.cpp:21
example : (findFirstEscapedChar [0x46, 0x6F, 0x6F, 0x20, 0x5C, 0x61, 0x20, 0x5C, 0x78, 0x31, 0x32, 0x46, 0x47, 0x20, 0x5C, 0x75, 0x41, 0x62, 0x63, 0x44, 0x45, 0x5C, 0x5C, 0x5C, 0x31, 0x30] 12 >>= fun sub => substr [0x46, 0x6F, 0x6F, 0x20, 0x5C, 0x61, 0x20, 0x5C, 0x78, 0x31, 0x32, 0x46, 0x47, 0x20, 0x5C, 0x75, 0x41, 0x62, 0x63, 0x44, 0x45, 0x5C, 0x5C, 0x5C, 0x31, 0x30] sub.offset sub.length) = .ok [0x5C, 0x75, 0x41, 0x62, 0x63, 0x44] := by decide +kernel -- test_Unescape.cpp:23
example : (findFirstEscapedChar [0x46, 0x6F, 0x6F, 0x20, 0x5C, 0x61, 0x20, 0x5C, 0x78, 0x31, 0x32, 0x46, 0x47, 0x20, 0x5C, 0x75, 0x41, 0x62, 0x63, 0x44, 0x45, 0x5C, 0x5C, 0x5C, 0x31, 0x30] 20 >>= fun sub => substr [0x46, 0x6F, 0x6F, 0x20, 0x5C, 0x61, 0x20, 0x5C, 0x78, 0x31, 0x32, 0x46, 0x47, 0x20, 0x5C, 0x75, 0x41, 0x62, 0x63, 0x44, 0x45, 0x5C, 0x5C, 0x5C, 0x31, 0x30] sub.offset sub.length) = .ok [0x5C, 0x5C] := by decide +kernel -- test_Unescape.cpp:25
example : (findFirstEscapedChar [0x46, 0x6F, 0x6F, 0x20, 0x5C, 0x61, 0x20, 0x5C, 0x78, 0x31, 0x32, 0x46, 0x47, 0x20, 0x5C, 0x75, 0x41, 0x62, 0x63, 0x44, 0x45, 0x5C, 0x5C, 0x5C, 0x31, 0x30] 23 >>= fun sub => substr [0x46, 0x6F, 0x6F, 0x20, 0x5C, 0x61, 0x20, 0x5C, 0x78, 0x31, 0x32, 0x46, 0x47, 0x20, 0x5C, 0x75, 0x41, 0x62, 0x63, 0x44, 0x45, 0x5C, 0x5C, 0x5C, 0x31, 0x30] sub.offset sub.length) = .ok [0x5C, 0x31, 0x30] := by decide +kernel -- test_Unescape.cpp:27

-- unescape_next
example : (unescapeNext [0x5C, 0x61, 0x5C, 0x62, 0x5C, 0x66, 0x5C, 0x6E, 0x5C, 0x72, 0x5C, 0x74, 0x5C, 0x76, 0x5C, 0x30]).result = .ok (some 0x7) ∧ (unescapeNext [0x5C, 0x61, 0x5C, 0x62, 0x5C, 0x66, 0x5C, 0x6E, 0x5C, 0x72, 0x5C, 0x74, 0x5C, 0x76, 0x5C, 0x30]).str = [0x5C, 0x62, 0x5C, 0x66, 0x5C, 0x6E, 0x5C, 0x72, 0x5C, 0x74, 0x5C, 0x76, 0x5C, 0x30] := by decide +kernel -- test_Unescape.cpp:55
example : (unescapeNext [0x5C, 0x62, 0x5C, 0x66, 0x5C, 0x6E, 0x5C, 0x72, 0x5C, 0x74, 0x5C, 0x76, 0x5C, 0x30]).result = .ok (some 0x8) ∧ (unescapeNext [0x5C, 0x62, 0x5C, 0x66, 0x5C, 0x6E, 0x5C, 0x72, 0x5C, 0x74, 0x5C, 0x76, 0x5C, 0x30]).str = [0x5C, 0x66, 0x5C, 0x6E, 0x5C, 0x72, 0x5C, 0x74, 0x5C, 0x76, 0x5C, 0x30] := by decide +kernel -- test_Unescape.cpp:55
example : (unescapeNext [0x5C, 0x66, 0x5C, 0x6E, 0x5C, 0x72, 0x5C, 0x74, 0x5C, 0x76, 0x5C, 0x30]).result = .ok (some 0xC) ∧ (unescapeNext [0x5C, 0x66, 0x5C, 0x6E, 0x5C, 0x72, 0x5C, 0x74, 0x5C, 0x76, 0x5C, 0x30]).str = [0x5C, 0x6E, 0x5C, 0x72, 0x5C, 0x74, 0x5C, 0x76, 0x5C, 0x30] := by decide +kernel -- test_Unescape.cpp:55
example : (unescapeNext [0x5C, 0x6E, 0x5C, 0x72, 0x5C, 0x74, 0x5C, 0x76, 0x5C, 0x30]).result = .ok (some 0xA) ∧ (unescapeNext [0x5C, 0x6E, 0x5C, 0x72, 0x5C, 0x74, 0x5C, 0x76, 0x5C, 0x30]).str = [0x5C, 0x72, 0x5C, 0x74, 0x5C, 0x76, 0x5C, 0x30] := by decide +kernel -- test_Unescape.cpp:55
example : (unescapeNext [0x5C, 0x72, 0x5C, 0x74, 0x5C, 0x76, 0x5C, 0x30]).result = .ok (some 0xD) ∧ (unescapeNext [0x5C, 0x72, 0x5C, 0x74, 0x5C, 0x76, 0x5C, 0x30]).str = [0x5C, 0x74, 0x5C, 0x76, 0x5C, 0x30] := by decide +kernel -- test_Unescape.cpp:55
example : (unescapeNext [0x5C, 0x74, 0x5C, 0x76, 0x5C, 0x30]).result = .ok (some 0x9) ∧ (unescapeNext [0x5C, 0x74, 0x5C, 0x76, 0x5C, 0x30]).str = [0x5C, 0x76, 0x5C, 0x30] := by decide +kernel -- test_Unescape.cpp:55
example : (unescapeNext [0x5C, 0x76, 0x5C, 0x30]).result = .ok (some 0xB) ∧ (unescapeNext [0x5C, 0x76, 0x5C, 0x30]).str = [0x5C, 0x30] := by decide +kernel -- test_Unescape.cpp:55
example : (unescapeNext [0x5C, 0x30]).result = .ok (some 0x0) ∧ (unescapeNext [0x5C, 0x30]).str = [] := by decide +kernel -- test_Unescape.cpp:55
example : (unescapeNext []).result = .ok none ∧ (unescapeNext []).str = [] := by decide +kernel -- test_Unescape.cpp:88
example : (unescapeNext [0x5C, 0x34, 0x30, 0x5C, 0x33, 0x37, 0x37, 0x31, 0x5C, 0x30]).result = .ok (some 0x20) ∧ (unescapeNext [0x5C, 0x34, 0x30, 0x5C, 0x33, 0x37, 0x37, 0x31, 0x5C, 0x30]).str = [0x5C, 0x33, 0x37, 0x37, 0x31, 0x5C, 0x30] := by decide +kernel -- test_Unescape.cpp:93
example : (unescapeNext [0x5C, 0x33, 0x37, 0x37, 0x31, 0x5C, 0x30]).result = .ok (some 0xFF) ∧ (unescapeNext [0x5C, 0x33, 0x37, 0x37, 0x31, 0x5C, 0x30]).str = [0x31, 0x5C, 0x30] := by decide +kernel -- test_Unescape.cpp:93
example : (unescapeNext [0x31, 0x5C, 0x30]).result = .ok (some 0x31) ∧ (unescapeNext [0x31, 0x5C, 0x30]).str = [0x5C, 0x30] := by decide +kernel -- test_Unescape.cpp:93
example : (unescapeNext [0x5C, 0x30]).result = .ok (some 0x0) ∧ (unescapeNext [0x5C, 0x30]).str = [] := by decide +kernel -- test_Unescape.cpp:93
example : (unescapeNext [0x5C, 0x75, 0x44, 0x38, 0x30, 0x30, 0x5C, 0x75, 0x44, 0x43, 0x30, 0x30]).result = .ok (some 0x10000) ∧ (unescapeNext [0x5C, 0x75, 0x44, 0x38, 0x30, 0x30, 0x5C, 0x75, 0x44, 0x43, 0x30, 0x30]).str = [] := by decide +kernel -- test_Unescape.cpp:113
example : (unescapeNext [0xC3, 0x86, 0xC3, 0x98]).result = .ok (some 0xC6) ∧ (unescapeNext [0xC3, 0x86, 0xC3, 0x98]).str = [0xC3, 0x98] := by decide +kernel -- test_Unescape.cpp:122
example : (unescapeNext [0xC3, 0x98]).result = .ok (some 0xD8) ∧ (unescapeNext [0xC3, 0x98]).str = [] := by decide +kernel -- test_Unescape.cpp:122
example : (unescapeNext [0xC0, 0x40]).result = .error .ystring ∧ (unescapeNext [0xC0, 0x40]).str = [0xC0, 0x40] := by decide +kernel -- test_Unescape.cpp:135
example : (unescapeNext [0x5C, 0x78, 0x5C, 0x61]).result = .error .ystring ∧ (unescapeNext [0x5C, 0x78, 0x5C, 0x61]).str = [0x5C, 0x78, 0x5C, 0x61] := by decide +kernel -- test_Unescape.cpp:141
example : (unescapeNext [0x5C, 0x0A, 0x5C, 0x0A, 0x46, 0x5C, 0x0A]).result = .ok (some 0x46) ∧ (unescapeNext [0x5C, 0x0A, 0x5C, 0x0A, 0x46, 0x5C, 0x0A]).str = [0x5C, 0x0A] := by decide +kernel -- test_Unescape.cpp:148
example : (unescapeNext [0x5C, 0x0A]).result = .ok none ∧ (unescapeNext [0x5C, 0x0A]).str = [] := by decide +kernel -- test_Unescape.cpp:152

end Ystring
