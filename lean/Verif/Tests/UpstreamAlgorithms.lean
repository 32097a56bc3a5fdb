import Verif.Model.Algorithms
import Verif.Model.CaseInsensitive
import Verif.Model.CharClass
/-
Generated by tools/gen_conformance.py: the assertions of the unit tests in /repo/tests/YstringTest (test_Algorithms.cpp), transcribed for the
model. These examples are no proofs of properties: they test that the model computes what the authors of the code expect it to
compute. The number behind each example is the line of the assertion.
The arrays `chars` and `CHARS` of the tests are not terminated by a zero although they are used as pointers; the model gets what is
meant. The array NEWLINES in the code is not terminated either: the examples assume a zero behind it.
-/
namespace Ystring

-- Test case_insensitive::compare
example : CI.compare [0x61, 0x42, 0x63, 0xC3, 0x98, 0xC3, 0xA6] [0x41, 0x62, 0x43, 0xC3, 0xB8, 0xC3, 0x86] = .ok 0 := by decide +kernel -- test_Algorithms.cpp:33
example : (CI.compare [0x61, 0x42, 0x63, 0xC3, 0x85, 0x64] [0x41, 0x62, 0x43, 0xC3, 0xA5]).map (fun c => decide (c > 0)) = .ok true := by decide +kernel -- test_Algorithms.cpp:34
example : (CI.compare [0x61, 0x42, 0x63, 0xC3, 0xA6, 0xC3, 0x98, 0xC3, 0xA5] [0x41, 0x62, 0x43, 0xC3, 0xA6, 0xC3, 0x98, 0xC3, 0xB8]).map (fun c => decide (c < 0)) = .ok true := by decide +kernel -- test_Algorithms.cpp:35

-- Test case_insensitive::equal
example : CI.equal [0x61, 0x42, 0x63, 0xC3, 0x98, 0xC3, 0xA6] [0x41, 0x62, 0x43, 0xC3, 0xB8, 0xC3, 0x86] = .ok true := by decide +kernel -- test_Algorithms.cpp:40
example : CI.equal [0x61, 0x42, 0x63, 0xC3, 0x85, 0x64] [0x41, 0x62, 0x43, 0xC3, 0xA5] = .ok false := by decide +kernel -- test_Algorithms.cpp:41
example : CI.equal [0x61, 0x42, 0x63, 0xC3, 0xA6, 0xC3, 0x98, 0xC3, 0xA5] [0x41, 0x62, 0x43, 0xC3, 0xA6, 0xC3, 0x98, 0xC3, 0xB8] = .ok false := by decide +kernel -- test_Algorithms.cpp:42

-- Test case_insensitive::less
example : CI.less [0x61, 0x42, 0x63, 0xC3, 0x98, 0xC3, 0xA6] [0x41, 0x62, 0x43, 0xC3, 0xB8, 0xC3, 0x86] = .ok false := by decide +kernel -- test_Algorithms.cpp:47
example : CI.less [0x61, 0x42, 0x63, 0xC3, 0x85, 0x64] [0x41, 0x62, 0x43, 0xC3, 0xA5] = .ok false := by decide +kernel -- test_Algorithms.cpp:48
example : CI.less [0x61, 0x42, 0x63, 0xC3, 0xA6, 0xC3, 0x98, 0xC3, 0xA5] [0x41, 0x62, 0x43, 0xC3, 0xA6, 0xC3, 0x98, 0xC3, 0xB8] = .ok true := by decide +kernel -- test_Algorithms.cpp:49

-- Test case_insensitive::ends_with
example : CI.endsWith [0x41, 0x42, 0x43, 0x44, 0xC3, 0x86, 0xC3, 0xB8, 0xC3, 0x85, 0x51, 0x52, 0x53] [0xC3, 0x98, 0xC3, 0xA5, 0x51, 0x72, 0x53] = .ok true := by decide +kernel -- test_Algorithms.cpp:54
example : CI.endsWith [0x41, 0x42, 0x43, 0x44, 0xC3, 0x86, 0xC3, 0x98, 0xC3, 0x85, 0x51, 0x52, 0x53] [0xC3, 0xA6, 0xC3, 0x85, 0x51, 0x52, 0x73] = .ok false := by decide +kernel -- test_Algorithms.cpp:55
example : CI.endsWith [0xC3, 0x98, 0xC3, 0xA5, 0x51, 0x52, 0x53] [0xC3, 0x98, 0xC3, 0x85, 0x51, 0x72, 0x53] = .ok true := by decide +kernel -- test_Algorithms.cpp:56
example : CI.endsWith [0xC3, 0x85, 0x51, 0x52, 0x53] [0xC3, 0x98, 0xC3, 0x85, 0x51, 0x52, 0x53] = .ok false := by decide +kernel -- test_Algorithms.cpp:57
example : CI.endsWith [0x41, 0x42, 0x43, 0x44, 0xC3, 0x86, 0xC3, 0x98, 0xC3, 0xA5, 0x51, 0x52, 0x53] [] = .ok true := by decide +kernel -- test_Algorithms.cpp:58

-- Test case_insensitive::find_first
example : CI.findFirst [0x41, 0x42, 0x43, 0xC3, 0x86, 0xC3, 0x98, 0xC3, 0x85, 0xC3, 0xA4, 0xC3, 0xB6, 0xC3, 0xBC] [0x43, 0xC3, 0xA6, 0xC3, 0xB8] = .ok ⟨2, 5⟩ := by decide +kernel -- test_Algorithms.cpp:64
example : CI.findFirst [0x41, 0x42, 0x43, 0xC3, 0x86, 0xC3, 0x98, 0xC3, 0x85, 0xC3, 0xA4, 0xC3, 0xB6, 0xC3, 0xBC] [0x61, 0x62, 0x63, 0xC3, 0xA6] = .ok ⟨0, 5⟩ := by decide +kernel -- test_Algorithms.cpp:65
example : CI.findFirst [0x41, 0x42, 0x43, 0xC3, 0x86, 0xC3, 0x98, 0xC3, 0x85, 0xC3, 0xA4, 0xC3, 0xB6, 0xC3, 0xBC] [0xC3, 0xA5, 0xC3, 0x84, 0xC3, 0xB6] = .ok ⟨7, 6⟩ := by decide +kernel -- test_Algorithms.cpp:66
example : (CI.findFirst [0x41, 0x42, 0x43, 0xC3, 0x86, 0xC3, 0x98, 0xC3, 0x85, 0xC3, 0xA4, 0xC3, 0xB6, 0xC3, 0xBC] [0xC3, 0xA4, 0xC3, 0x96, 0xC3, 0x9C, 0xC3, 0x85]).map (·.nonempty) = .ok false := by decide +kernel -- test_Algorithms.cpp:67

-- Test case_insensitive::find_first_of
example : CI.findFirstOf [0x71, 0x77, 0x65, 0xC3, 0xA5, 0xC3, 0xB8, 0x72, 0x74, 0x79] [0x2260, 0xD8, 0xC5, 0xBF] = .ok (⟨3, 2⟩, 0xE5) := by decide +kernel -- test_Algorithms.cpp:73
example : (CI.findFirstOf [0x71, 0x77, 0x65, 0x72, 0x74, 0x79] [0x2260, 0xD8, 0xC5, 0xBF]).map (·.1.nonempty) = .ok false := by decide +kernel -- test_Algorithms.cpp:74

-- Test case_insensitive::find_last
example : CI.findLast [0x41, 0x42, 0x43, 0xC3, 0x86, 0xC3, 0x98, 0xC3, 0x85, 0xC3, 0xA4, 0xC3, 0xB6, 0xC3, 0xBC] [0x43, 0xC3, 0xA6, 0xC3, 0xB8] = .ok ⟨2, 5⟩ := by decide +kernel -- test_Algorithms.cpp:80
example : CI.findLast [0x41, 0x42, 0x43, 0xC3, 0x86, 0xC3, 0x98, 0xC3, 0x85, 0xC3, 0xA4, 0xC3, 0xB6, 0xC3, 0xBC] [0x61, 0x62, 0x63, 0xC3, 0xA6] = .ok ⟨0, 5⟩ := by decide +kernel -- test_Algorithms.cpp:81
example : CI.findLast [0x41, 0x42, 0x43, 0xC3, 0x86, 0xC3, 0x98, 0xC3, 0x85, 0xC3, 0xA4, 0xC3, 0xB6, 0xC3, 0xBC] [0xC3, 0x85, 0xC3, 0xA4, 0xC3, 0xB6, 0xC3, 0xBC] = .ok ⟨7, 8⟩ := by decide +kernel -- test_Algorithms.cpp:82
example : (CI.findLast [0x41, 0x42, 0x43, 0xC3, 0x86, 0xC3, 0x98, 0xC3, 0x85, 0xC3, 0xA4, 0xC3, 0xB6, 0xC3, 0xBC] [0xC3, 0xA5, 0x61, 0x42, 0x43]).map (·.nonempty) = .ok false := by decide +kernel -- test_Algorithms.cpp:83

-- Test case_insensitive::find_last_of
example : CI.findLastOf [0x71, 0x77, 0x65, 0xC3, 0xA5, 0xC3, 0xB8, 0x72, 0x74, 0x79] [0x2260, 0xD8, 0xC5, 0xBF] = .ok (⟨5, 2⟩, 0xF8) := by decide +kernel -- test_Algorithms.cpp:89
example : (CI.findLastOf [0x71, 0x77, 0x65, 0x72, 0x74, 0x79] [0x2260, 0xD8, 0xC5, 0xBF]).map (·.1.nonempty) = .ok false := by decide +kernel -- test_Algorithms.cpp:90

-- Test case_insensitive::replace
example : CI.replace [0x61, 0x62, 0x63, 0x20, 0x64, 0xC3, 0xA6, 0x20, 0x66, 0x67, 0x68, 0x20, 0x44, 0xC3, 0x86, 0x20, 0x69] [0x44, 0xC3, 0xA6] [0xC3, 0xB8, 0xC3, 0xA5] = .ok [0x61, 0x62, 0x63, 0x20, 0xC3, 0xB8, 0xC3, 0xA5, 0x20, 0x66, 0x67, 0x68, 0x20, 0xC3, 0xB8, 0xC3, 0xA5, 0x20, 0x69] := by decide +kernel -- test_Algorithms.cpp:95
example : CI.replace [0x61, 0x62, 0x63, 0x20, 0x64, 0xC3, 0xA6, 0x20, 0x66, 0x67, 0x68, 0x20, 0x44, 0xC3, 0x86, 0x20, 0x69] [0x44, 0xC3, 0xA6] [0xC3, 0xB8, 0xC3, 0xA5] 1 = .ok [0x61, 0x62, 0x63, 0x20, 0xC3, 0xB8, 0xC3, 0xA5, 0x20, 0x66, 0x67, 0x68, 0x20, 0x44, 0xC3, 0x86, 0x20, 0x69] := by decide +kernel -- test_Algorithms.cpp:96
example : CI.replace [0x61, 0x62, 0x63, 0x20, 0x64, 0xC3, 0xA6, 0x20, 0x66, 0x67, 0x68, 0x20, 0x44, 0xC3, 0x86, 0x20, 0x69] [0x44, 0xC3, 0xA6] [0xC3, 0xB8, 0xC3, 0xA5] (-2) = .ok [0x61, 0x62, 0x63, 0x20, 0xC3, 0xB8, 0xC3, 0xA5, 0x20, 0x66, 0x67, 0x68, 0x20, 0xC3, 0xB8, 0xC3, 0xA5, 0x20, 0x69] := by decide +kernel -- test_Algorithms.cpp:97

-- Test case_insensitive::starts_with
example : CI.startsWith [0x42, 0xC3, 0x98, 0x41, 0x42, 0x43, 0x20, 0x42, 0xC3, 0x98, 0x42, 0xC3, 0x98, 0x20, 0x63, 0x66, 0x67, 0xC3, 0xA5, 0x20, 0x42, 0xC3, 0x98] [0x42, 0xC3, 0xB8, 0x61] = .ok true := by decide +kernel -- test_Algorithms.cpp:102
example : CI.startsWith [0x42, 0xC3, 0x98, 0x41, 0x42, 0x43, 0x20, 0x42, 0xC3, 0x98, 0x42, 0xC3, 0x98, 0x20, 0x63, 0x66, 0x67, 0xC3, 0xA5, 0x20, 0x42, 0xC3, 0x98] [0x42, 0xC3, 0xB8, 0x41, 0x44] = .ok false := by decide +kernel -- test_Algorithms.cpp:103
example : CI.startsWith [0x42, 0xC3, 0xB8, 0x41, 0x42, 0x43] [0x42, 0xC3, 0x98, 0x41, 0x42, 0x43] = .ok true := by decide +kernel -- test_Algorithms.cpp:104
example : CI.startsWith [0x42, 0xC3, 0xB8, 0x41, 0x42, 0x43] [0x42, 0xC3, 0x98, 0x41, 0x42, 0x43, 0x45] = .ok false := by decide +kernel -- test_Algorithms.cpp:105

-- Test contains
example : contains [0x41, 0x42, 0x43, 0x44, 0x45] 0x44 = .ok true := by decide +kernel -- test_Algorithms.cpp:110
example : contains [0x41, 0x42, 0x43, 0x44, 0x45] 0x46 = .ok false := by decide +kernel -- test_Algorithms.cpp:111
example : contains [0x41, 0x42, 0x43, 0xE2, 0x88, 0x91, 0xC3, 0x9F, 0xC3, 0x96, 0xE2, 0x80, 0x99, 0xC3, 0x9C, 0xE2, 0x80, 0xB9, 0xE2, 0x80, 0xBA, 0xC6, 0x92, 0xC2, 0xB8, 0xE2, 0x88, 0x9A, 0x45, 0x46, 0x47] 0x221A = .ok true := by decide +kernel -- test_Algorithms.cpp:112

-- Test count_chars
example : countChars [0x50, 0xCC, 0x90, 0x73] = .ok 2 := by decide +kernel -- test_Algorithms.cpp:117

-- Test count_codepoints
example : countCodepoints [] = .ok 0 := by decide +kernel -- test_Algorithms.cpp:122
example : countCodepoints [0x41, 0xCC, 0x8A, 0x42, 0x43, 0x44, 0x45, 0xCC, 0x83] = .ok 7 := by decide +kernel -- test_Algorithms.cpp:123

-- Test ends_with
example : endsWith [0x41, 0x42, 0x43, 0x44, 0xC3, 0x86, 0xC3, 0x98, 0xC3, 0x85, 0x51, 0x52, 0x53] [0xC3, 0x98, 0xC3, 0x85, 0x51, 0x52, 0x53] = .ok true := by decide +kernel -- test_Algorithms.cpp:128
example : endsWith [0x41, 0x42, 0x43, 0x44, 0xC3, 0x86, 0xC3, 0x98, 0xC3, 0x85, 0x51, 0x52, 0x53] [0xC3, 0x98, 0xC3, 0x85, 0x51, 0x52] = .ok false := by decide +kernel -- test_Algorithms.cpp:129
example : endsWith [0xC3, 0x98, 0xC3, 0x85, 0x51, 0x52, 0x53] [0xC3, 0x98, 0xC3, 0x85, 0x51, 0x52, 0x53] = .ok true := by decide +kernel -- test_Algorithms.cpp:130
example : endsWith [0xC3, 0x85, 0x51, 0x52, 0x53] [0xC3, 0x98, 0xC3, 0x85, 0x51, 0x52, 0x53] = .ok false := by decide +kernel -- test_Algorithms.cpp:131
example : endsWith [0x41, 0x42, 0x43, 0x44, 0xC3, 0x86, 0xC3, 0x98, 0xC3, 0x85, 0x51, 0x52, 0x53] [] = .ok true := by decide +kernel -- test_Algorithms.cpp:132

-- Test find_first
example : findFirst [0x41, 0x42, 0x43, 0x44, 0x45, 0x46, 0x47, 0x48, 0x43, 0x44, 0x45, 0x49, 0x4A, 0x4B] [0x43, 0x44, 0x45] = .ok ⟨2, 3⟩ := by decide +kernel -- test_Algorithms.cpp:138
example : findFirst [0x41, 0x42, 0x43, 0x44, 0x45, 0x46, 0x47, 0x48, 0x43, 0x44, 0x45, 0x49, 0x4A, 0x4B] [0x43, 0x44, 0x45] 3 = .ok ⟨8, 3⟩ := by decide +kernel -- test_Algorithms.cpp:139
example : findFirst [0x41, 0x42, 0x43, 0x44, 0x45, 0x46, 0x47, 0x48, 0x43, 0x44, 0x45, 0x49, 0x4A, 0x4B] [0x41, 0x42, 0x43, 0x44] = .ok ⟨0, 4⟩ := by decide +kernel -- test_Algorithms.cpp:140
example : findFirst [0x41, 0x42, 0x43, 0x44, 0x45, 0x46, 0x47, 0x48, 0x43, 0x44, 0x45, 0x49, 0x4A, 0x4B] [0x4A, 0x4B] = .ok ⟨12, 2⟩ := by decide +kernel -- test_Algorithms.cpp:141
example : (findFirst [0x41, 0x42, 0x43, 0x44, 0x45, 0x46, 0x47, 0x48, 0x43, 0x44, 0x45, 0x49, 0x4A, 0x4B] [0x42, 0x43, 0x45]).map (·.nonempty) = .ok false := by decide +kernel -- test_Algorithms.cpp:142

-- Test find_first_newline
example : findFirstNewline [] [0x61, 0x62, 0x63, 0x0A, 0x64, 0x0A, 0x65, 0x66] = .ok ⟨3, 1⟩ := by decide +kernel -- test_Algorithms.cpp:147
example : findFirstNewline [] [0x61, 0x62, 0x63, 0x0D, 0x64, 0x0A, 0x65, 0x66] = .ok ⟨3, 1⟩ := by decide +kernel -- test_Algorithms.cpp:148
example : findFirstNewline [] [0x61, 0x62, 0x63, 0x0D, 0x0A, 0x64, 0x0A, 0x65, 0x66] = .ok ⟨3, 2⟩ := by decide +kernel -- test_Algorithms.cpp:149
example : findFirstNewline [] [0x61, 0x62, 0x63, 0x0A, 0x0D, 0x64, 0x0A, 0x65, 0x66] = .ok ⟨3, 1⟩ := by decide +kernel -- test_Algorithms.cpp:150
example : findFirstNewline [] [0x61, 0x62, 0x63, 0xE2, 0x80, 0xA9, 0x64, 0x0A, 0x65, 0x66] = .ok ⟨3, 3⟩ := by decide +kernel -- test_Algorithms.cpp:151
example : findFirstNewline [] [0x0A, 0x61, 0x62, 0x63, 0x0A, 0x64, 0x0A, 0x65, 0x66] = .ok ⟨0, 1⟩ := by decide +kernel -- test_Algorithms.cpp:152
example : findFirstNewline [] [0x61, 0x62, 0x63, 0x64, 0x65, 0x66, 0x0A] = .ok ⟨6, 1⟩ := by decide +kernel -- test_Algorithms.cpp:153
example : (findFirstNewline [] [0x61, 0x62, 0x63, 0x64, 0x65, 0x66]).map (·.nonempty) = .ok false := by decide +kernel -- test_Algorithms.cpp:154

-- Test find_first_of
example : findFirstOf [0x71, 0x77, 0x65, 0xE2, 0x89, 0xA0, 0xE2, 0x89, 0xA0, 0x72, 0x74, 0x79] [0x2260, 0x41, 0x42, 0xBF] = .ok (⟨3, 3⟩, 0x2260) := by decide +kernel -- test_Algorithms.cpp:160
example : (findFirstOf [0x71, 0x77, 0x65, 0x72, 0x74, 0x79] [0x2260, 0x41, 0x42, 0xBF]).map (·.1.nonempty) = .ok false := by decide +kernel -- test_Algorithms.cpp:161

-- Test find_first_where
example : findFirstWhere [0x71, 0x57, 0x65, 0xC3, 0x85, 0x74, 0x79] isUpper = .ok (⟨1, 1⟩, 0x57) := by decide +kernel -- test_Algorithms.cpp:166
example : findFirstWhere [0x71, 0x57, 0x65, 0xC3, 0x85, 0x74, 0x79] isUpper 2 = .ok (⟨3, 2⟩, 0xC5) := by decide +kernel -- test_Algorithms.cpp:169

-- Test find_last
example : findLast [0x41, 0x42, 0x43, 0x44, 0x45, 0x46, 0x47, 0x48, 0x43, 0x44, 0x45, 0x49, 0x4A, 0x4B] [0x43, 0x44, 0x45] = ⟨8, 3⟩ := by decide +kernel -- test_Algorithms.cpp:177
example : findLast [0x41, 0x42, 0x43, 0x44, 0x45, 0x46, 0x47, 0x48, 0x43, 0x44, 0x45, 0x49, 0x4A, 0x4B] [0x41, 0x42, 0x43, 0x44] = ⟨0, 4⟩ := by decide +kernel -- test_Algorithms.cpp:178
example : findLast [0x41, 0x42, 0x43, 0x44, 0x45, 0x46, 0x47, 0x48, 0x43, 0x44, 0x45, 0x49, 0x4A, 0x4B] [0x4A, 0x4B] = ⟨12, 2⟩ := by decide +kernel -- test_Algorithms.cpp:179
example : (findLast [0x41, 0x42, 0x43, 0x44, 0x45, 0x46, 0x47, 0x48, 0x43, 0x44, 0x45, 0x49, 0x4A, 0x4B] [0x42, 0x43, 0x45]).nonempty = false := by decide +kernel -- test_Algorithms.cpp:180

-- Test find_last_newline
example : findLastNewline [] [0x61, 0x62, 0x63, 0x0A, 0x64, 0x0A, 0x65, 0x66] = .ok ⟨5, 1⟩ := by decide +kernel -- test_Algorithms.cpp:185
example : findLastNewline [] [0x61, 0x62, 0x63, 0x0A, 0x64, 0x0D, 0x65, 0x66] = .ok ⟨5, 1⟩ := by decide +kernel -- test_Algorithms.cpp:186
example : findLastNewline [] [0x61, 0x62, 0x63, 0x0A, 0x64, 0x0D, 0x65, 0x66] 5 = .ok ⟨3, 1⟩ := by decide +kernel -- test_Algorithms.cpp:187
example : findLastNewline [] [0x61, 0x62, 0x63, 0x0A, 0x64, 0x0D, 0x0A, 0x65, 0x66] = .ok ⟨5, 2⟩ := by decide +kernel -- test_Algorithms.cpp:188
example : findLastNewline [] [0x61, 0x62, 0x63, 0x0A, 0x64, 0x0A, 0x0D, 0x65, 0x66] = .ok ⟨6, 1⟩ := by decide +kernel -- test_Algorithms.cpp:189
example : findLastNewline [] [0x61, 0x62, 0x63, 0x0A, 0x64, 0xE2, 0x80, 0xA9, 0x65, 0x66] = .ok ⟨5, 3⟩ := by decide +kernel -- test_Algorithms.cpp:190
example : findLastNewline [] [0x0A, 0x61, 0x62, 0x63, 0x0A, 0x64, 0x0A, 0x65, 0x66, 0x0A] = .ok ⟨9, 1⟩ := by decide +kernel -- test_Algorithms.cpp:191
example : findLastNewline [] [0x0A, 0x61, 0x62, 0x63, 0x64, 0x65, 0x66] = .ok ⟨0, 1⟩ := by decide +kernel -- test_Algorithms.cpp:192
example : (findLastNewline [] [0x61, 0x62, 0x63, 0x64, 0x65, 0x66]).map (·.nonempty) = .ok false := by decide +kernel -- test_Algorithms.cpp:193

-- Test find_last_of
example : findLastOf [0x71, 0x77, 0x65, 0xE2, 0x89, 0xA0, 0xE2, 0x89, 0xA0, 0x72, 0x74, 0x79] [0x2260, 0x41, 0x42, 0xBF] = .ok (⟨6, 3⟩, 0x2260) := by decide +kernel -- test_Algorithms.cpp:199
example : (findLastOf [0x71, 0x77, 0x65, 0x72, 0x74, 0x79] [0x2260, 0x41, 0x42, 0xBF]).map (·.1.nonempty) = .ok false := by decide +kernel -- test_Algorithms.cpp:200

-- Test find_last_where
example : findLastWhere [0x71, 0x57, 0x65, 0xC3, 0x85, 0x74, 0x79] isUpper = .ok (⟨3, 2⟩, 0xC5) := by decide +kernel -- test_Algorithms.cpp:205

-- Test get_char_pos
example : getCharPos [0x50, 0xCE, 0xA9, 0xCC, 0x90, 0x73, 0xC3, 0x85] 0 = .ok 0 := by decide +kernel -- test_Algorithms.cpp:212
example : getCharPos [0x50, 0xCE, 0xA9, 0xCC, 0x90, 0x73, 0xC3, 0x85] 1 = .ok 1 := by decide +kernel -- test_Algorithms.cpp:213
example : getCharPos [0x50, 0xCE, 0xA9, 0xCC, 0x90, 0x73, 0xC3, 0x85] 2 = .ok 5 := by decide +kernel -- test_Algorithms.cpp:214
example : getCharPos [0x50, 0xCE, 0xA9, 0xCC, 0x90, 0x73, 0xC3, 0x85] 3 = .ok 6 := by decide +kernel -- test_Algorithms.cpp:215
example : getCharPos [0x50, 0xCE, 0xA9, 0xCC, 0x90, 0x73, 0xC3, 0x85] 4 = .ok 8 := by decide +kernel -- test_Algorithms.cpp:216
example : getCharPos [0x50, 0xCE, 0xA9, 0xCC, 0x90, 0x73, 0xC3, 0x85] 5 = .ok npos := by decide +kernel -- test_Algorithms.cpp:217
example : getCharPos [0x50, 0xCE, 0xA9, 0xCC, 0x90, 0x73, 0xC3, 0x85] (-1) = .ok 6 := by decide +kernel -- test_Algorithms.cpp:218
example : getCharPos [0x50, 0xCE, 0xA9, 0xCC, 0x90, 0x73, 0xC3, 0x85] (-2) = .ok 5 := by decide +kernel -- test_Algorithms.cpp:219
example : getCharPos [0x50, 0xCE, 0xA9, 0xCC, 0x90, 0x73, 0xC3, 0x85] (-3) = .ok 1 := by decide +kernel -- test_Algorithms.cpp:220
example : getCharPos [0x50, 0xCE, 0xA9, 0xCC, 0x90, 0x73, 0xC3, 0x85] (-4) = .ok 0 := by decide +kernel -- test_Algorithms.cpp:221
example : getCharPos [0x50, 0xCE, 0xA9, 0xCC, 0x90, 0x73, 0xC3, 0x85] (-5) = .ok npos := by decide +kernel -- test_Algorithms.cpp:222

-- Test get_char_range
example : getCharRange [0x50, 0xCE, 0xA9, 0xCC, 0x90, 0x73, 0xC3, 0x85] 0 = .ok ⟨0, 1⟩ := by decide +kernel -- test_Algorithms.cpp:227
example : getCharRange [0x50, 0xCE, 0xA9, 0xCC, 0x90, 0x73, 0xC3, 0x85] 1 = .ok ⟨1, 4⟩ := by decide +kernel -- test_Algorithms.cpp:228
example : getCharRange [0x50, 0xCE, 0xA9, 0xCC, 0x90, 0x73, 0xC3, 0x85] 2 = .ok ⟨5, 1⟩ := by decide +kernel -- test_Algorithms.cpp:229
example : getCharRange [0x50, 0xCE, 0xA9, 0xCC, 0x90, 0x73, 0xC3, 0x85] 3 = .ok ⟨6, 2⟩ := by decide +kernel -- test_Algorithms.cpp:230
example : getCharRange [0x50, 0xCE, 0xA9, 0xCC, 0x90, 0x73, 0xC3, 0x85] 4 = .ok ⟨8, 0⟩ := by decide +kernel -- test_Algorithms.cpp:231
example : getCharRange [0x50, 0xCE, 0xA9, 0xCC, 0x90, 0x73, 0xC3, 0x85] 5 = .ok ⟨8, 0⟩ := by decide +kernel -- test_Algorithms.cpp:232
example : getCharRange [0x50, 0xCE, 0xA9, 0xCC, 0x90, 0x73, 0xC3, 0x85] (-1) = .ok ⟨6, 2⟩ := by decide +kernel -- test_Algorithms.cpp:233
example : getCharRange [0x50, 0xCE, 0xA9, 0xCC, 0x90, 0x73, 0xC3, 0x85] (-2) = .ok ⟨5, 1⟩ := by decide +kernel -- test_Algorithms.cpp:234
example : getCharRange [0x50, 0xCE, 0xA9, 0xCC, 0x90, 0x73, 0xC3, 0x85] (-3) = .ok ⟨1, 4⟩ := by decide +kernel -- test_Algorithms.cpp:235
example : getCharRange [0x50, 0xCE, 0xA9, 0xCC, 0x90, 0x73, 0xC3, 0x85] (-4) = .ok ⟨0, 1⟩ := by decide +kernel -- test_Algorithms.cpp:236
example : getCharRange [0x50, 0xCE, 0xA9, 0xCC, 0x90, 0x73, 0xC3, 0x85] (-5) = .ok ⟨0, 0⟩ := by decide +kernel -- test_Algorithms.cpp:237

-- Test get_char_substring
example : getCharSubstring [0x50, 0xCE, 0xA9, 0xCC, 0x90, 0xCC, 0x91, 0x73, 0xCC, 0x90, 0xC3, 0x85] 0 = .ok [0x50, 0xCE, 0xA9, 0xCC, 0x90, 0xCC, 0x91, 0x73, 0xCC, 0x90, 0xC3, 0x85] := by decide +kernel -- test_Algorithms.cpp:242
example : getCharSubstring [0x50, 0xCE, 0xA9, 0xCC, 0x90, 0xCC, 0x91, 0x73, 0xCC, 0x90, 0xC3, 0x85] 0 2 = .ok [0x50, 0xCE, 0xA9, 0xCC, 0x90, 0xCC, 0x91] := by decide +kernel -- test_Algorithms.cpp:243
example : getCharSubstring [0x50, 0xCE, 0xA9, 0xCC, 0x90, 0xCC, 0x91, 0x73, 0xCC, 0x90, 0xC3, 0x85] 2 6 = .ok [0x73, 0xCC, 0x90, 0xC3, 0x85] := by decide +kernel -- test_Algorithms.cpp:244

-- Test get_codepoint
example : getCodepoint [0x41, 0x42, 0xC2, 0xA3, 0xC6, 0x92, 0x43, 0x44, 0xE2, 0x80, 0xB9, 0xC3, 0x9F, 0xE2, 0x88, 0x82, 0x47, 0x48, 0x52] 0 = .ok (⟨0, 1⟩, 0x41) := by decide +kernel -- test_Algorithms.cpp:249
example : getCodepoint [0x41, 0x42, 0xC2, 0xA3, 0xC6, 0x92, 0x43, 0x44, 0xE2, 0x80, 0xB9, 0xC3, 0x9F, 0xE2, 0x88, 0x82, 0x47, 0x48, 0x52] 6 = .ok (⟨8, 3⟩, 0x2039) := by decide +kernel -- test_Algorithms.cpp:250
example : getCodepoint [0x41, 0x42, 0xC2, 0xA3, 0xC6, 0x92, 0x43, 0x44, 0xE2, 0x80, 0xB9, 0xC3, 0x9F, 0xE2, 0x88, 0x82, 0x47, 0x48, 0x52] 11 = .ok (⟨18, 1⟩, 0x52) := by decide +kernel -- test_Algorithms.cpp:251
example : (getCodepoint [0x41, 0x42, 0xC2, 0xA3, 0xC6, 0x92, 0x43, 0x44, 0xE2, 0x80, 0xB9, 0xC3, 0x9F, 0xE2, 0x88, 0x82, 0x47, 0x48, 0x52] 12).map (·.1.nonempty) = .ok false := by decide +kernel -- test_Algorithms.cpp:252
example : getCodepoint [0x41, 0x42, 0xC2, 0xA3, 0xC6, 0x92, 0x43, 0x44, 0xE2, 0x80, 0xB9, 0xC3, 0x9F, 0xE2, 0x88, 0x82, 0x47, 0x48, 0x52] (-1) = .ok (⟨18, 1⟩, 0x52) := by decide +kernel -- test_Algorithms.cpp:253
example : getCodepoint [0x41, 0x42, 0xC2, 0xA3, 0xC6, 0x92, 0x43, 0x44, 0xE2, 0x80, 0xB9, 0xC3, 0x9F, 0xE2, 0x88, 0x82, 0x47, 0x48, 0x52] (-4) = .ok (⟨13, 3⟩, 0x2202) := by decide +kernel -- test_Algorithms.cpp:254
example : getCodepoint [0x41, 0x42, 0xC2, 0xA3, 0xC6, 0x92, 0x43, 0x44, 0xE2, 0x80, 0xB9, 0xC3, 0x9F, 0xE2, 0x88, 0x82, 0x47, 0x48, 0x52] (-12) = .ok (⟨0, 1⟩, 0x41) := by decide +kernel -- test_Algorithms.cpp:255
example : (getCodepoint [0x41, 0x42, 0xC2, 0xA3, 0xC6, 0x92, 0x43, 0x44, 0xE2, 0x80, 0xB9, 0xC3, 0x9F, 0xE2, 0x88, 0x82, 0x47, 0x48, 0x52] (-13)).map (·.1.nonempty) = .ok false := by decide +kernel -- test_Algorithms.cpp:256

-- Test get_codepoint_pos
example : getCodepointPos [0x41, 0x42, 0xC2, 0xA3, 0xC6, 0x92, 0x43, 0x44, 0xE2, 0x80, 0xB9, 0xC3, 0x9F, 0xE2, 0x88, 0x82, 0x47, 0x48, 0x52] 0 = .ok 0 := by decide +kernel -- test_Algorithms.cpp:261
example : getCodepointPos [0x41, 0x42, 0xC2, 0xA3, 0xC6, 0x92, 0x43, 0x44, 0xE2, 0x80, 0xB9, 0xC3, 0x9F, 0xE2, 0x88, 0x82, 0x47, 0x48, 0x52] 6 = .ok 8 := by decide +kernel -- test_Algorithms.cpp:262
example : getCodepointPos [0x41, 0x42, 0xC2, 0xA3, 0xC6, 0x92, 0x43, 0x44, 0xE2, 0x80, 0xB9, 0xC3, 0x9F, 0xE2, 0x88, 0x82, 0x47, 0x48, 0x52] 11 = .ok 18 := by decide +kernel -- test_Algorithms.cpp:263
example : getCodepointPos [0x41, 0x42, 0xC2, 0xA3, 0xC6, 0x92, 0x43, 0x44, 0xE2, 0x80, 0xB9, 0xC3, 0x9F, 0xE2, 0x88, 0x82, 0x47, 0x48, 0x52] 12 = .ok 19 := by decide +kernel -- test_Algorithms.cpp:264
example : getCodepointPos [0x41, 0x42, 0xC2, 0xA3, 0xC6, 0x92, 0x43, 0x44, 0xE2, 0x80, 0xB9, 0xC3, 0x9F, 0xE2, 0x88, 0x82, 0x47, 0x48, 0x52] 13 = .ok npos := by decide +kernel -- test_Algorithms.cpp:265
example : getCodepointPos [0x41, 0x42, 0xC2, 0xA3, 0xC6, 0x92, 0x43, 0x44, 0xE2, 0x80, 0xB9, 0xC3, 0x9F, 0xE2, 0x88, 0x82, 0x47, 0x48, 0x52] (-1) = .ok 18 := by decide +kernel -- test_Algorithms.cpp:266
example : getCodepointPos [0x41, 0x42, 0xC2, 0xA3, 0xC6, 0x92, 0x43, 0x44, 0xE2, 0x80, 0xB9, 0xC3, 0x9F, 0xE2, 0x88, 0x82, 0x47, 0x48, 0x52] (-4) = .ok 13 := by decide +kernel -- test_Algorithms.cpp:267
example : getCodepointPos [0x41, 0x42, 0xC2, 0xA3, 0xC6, 0x92, 0x43, 0x44, 0xE2, 0x80, 0xB9, 0xC3, 0x9F, 0xE2, 0x88, 0x82, 0x47, 0x48, 0x52] (-12) = .ok 0 := by decide +kernel -- test_Algorithms.cpp:268
example : getCodepointPos [0x41, 0x42, 0xC2, 0xA3, 0xC6, 0x92, 0x43, 0x44, 0xE2, 0x80, 0xB9, 0xC3, 0x9F, 0xE2, 0x88, 0x82, 0x47, 0x48, 0x52] (-13) = .ok npos := by decide +kernel -- test_Algorithms.cpp:269

-- Test get_codepoint_substring
example : getCodepointSubstring [0x41, 0x42, 0x43, 0x44, 0xC3, 0x86, 0xC3, 0x98, 0xC3, 0x85, 0xC3, 0xA6, 0xC3, 0xB8, 0xC3, 0xA5, 0xE2, 0x82, 0xAC, 0xC2, 0xB5] 0 0 = .ok [] := by decide +kernel -- test_Algorithms.cpp:274
example : getCodepointSubstring [0x41, 0x42, 0x43, 0x44, 0xC3, 0x86, 0xC3, 0x98, 0xC3, 0x85, 0xC3, 0xA6, 0xC3, 0xB8, 0xC3, 0xA5, 0xE2, 0x82, 0xAC, 0xC2, 0xB5] 0 5 = .ok [0x41, 0x42, 0x43, 0x44, 0xC3, 0x86] := by decide +kernel -- test_Algorithms.cpp:275
example : getCodepointSubstring [0x41, 0x42, 0x43, 0x44, 0xC3, 0x86, 0xC3, 0x98, 0xC3, 0x85, 0xC3, 0xA6, 0xC3, 0xB8, 0xC3, 0xA5, 0xE2, 0x82, 0xAC, 0xC2, 0xB5] 8 = .ok [0xC3, 0xB8, 0xC3, 0xA5, 0xE2, 0x82, 0xAC, 0xC2, 0xB5] := by decide +kernel -- test_Algorithms.cpp:276
example : getCodepointSubstring [0x41, 0x42, 0x43, 0x44, 0xC3, 0x86, 0xC3, 0x98, 0xC3, 0x85, 0xC3, 0xA6, 0xC3, 0xB8, 0xC3, 0xA5, 0xE2, 0x82, 0xAC, 0xC2, 0xB5] 8 12 = .ok [0xC3, 0xB8, 0xC3, 0xA5, 0xE2, 0x82, 0xAC, 0xC2, 0xB5] := by decide +kernel -- test_Algorithms.cpp:277
example : getCodepointSubstring [0x41, 0x42, 0x43, 0x44, 0xC3, 0x86, 0xC3, 0x98, 0xC3, 0x85, 0xC3, 0xA6, 0xC3, 0xB8, 0xC3, 0xA5, 0xE2, 0x82, 0xAC, 0xC2, 0xB5] 8 13 = .ok [0xC3, 0xB8, 0xC3, 0xA5, 0xE2, 0x82, 0xAC, 0xC2, 0xB5] := by decide +kernel -- test_Algorithms.cpp:278
example : getCodepointSubstring [0x41, 0x42, 0x43, 0x44, 0xC3, 0x86, 0xC3, 0x98, 0xC3, 0x85, 0xC3, 0xA6, 0xC3, 0xB8, 0xC3, 0xA5, 0xE2, 0x82, 0xAC, 0xC2, 0xB5] 8 7 = .ok [] := by decide +kernel -- test_Algorithms.cpp:279
example : getCodepointSubstring [0x41, 0x42, 0x43, 0x44, 0xC3, 0x86, 0xC3, 0x98, 0xC3, 0x85, 0xC3, 0xA6, 0xC3, 0xB8, 0xC3, 0xA5, 0xE2, 0x82, 0xAC, 0xC2, 0xB5] 12 13 = .ok [] := by decide +kernel -- test_Algorithms.cpp:280
example : getCodepointSubstring [0x41, 0x42, 0x43, 0x44, 0xC3, 0x86, 0xC3, 0x98, 0xC3, 0x85, 0xC3, 0xA6, 0xC3, 0xB8, 0xC3, 0xA5, 0xE2, 0x82, 0xAC, 0xC2, 0xB5] 13 14 = .ok [] := by decide +kernel -- test_Algorithms.cpp:281
example : getCodepointSubstring [0x41, 0x42, 0x43, 0x44, 0xC3, 0x86, 0xC3, 0x98, 0xC3, 0x85, 0xC3, 0xA6, 0xC3, 0xB8, 0xC3, 0xA5, 0xE2, 0x82, 0xAC, 0xC2, 0xB5] (-4) = .ok [0xC3, 0xB8, 0xC3, 0xA5, 0xE2, 0x82, 0xAC, 0xC2, 0xB5] := by decide +kernel -- test_Algorithms.cpp:282
example : getCodepointSubstring [0x41, 0x42, 0x43, 0x44, 0xC3, 0x86, 0xC3, 0x98, 0xC3, 0x85, 0xC3, 0xA6, 0xC3, 0xB8, 0xC3, 0xA5, 0xE2, 0x82, 0xAC, 0xC2, 0xB5] (-100) 5 = .ok [0x41, 0x42, 0x43, 0x44, 0xC3, 0x86] := by decide +kernel -- test_Algorithms.cpp:283
example : getCodepointSubstring [0x41, 0x42, 0x43, 0x44, 0xC3, 0x86, 0xC3, 0x98, 0xC3, 0x85, 0xC3, 0xA6, 0xC3, 0xB8, 0xC3, 0xA5, 0xE2, 0x82, 0xAC, 0xC2, 0xB5] (-4) (-1) = .ok [0xC3, 0xB8, 0xC3, 0xA5, 0xE2, 0x82, 0xAC] := by decide +kernel -- test_Algorithms.cpp:284
example : getCodepointSubstring [0x41, 0x42, 0x43, 0x44, 0xC3, 0x86, 0xC3, 0x98, 0xC3, 0x85, 0xC3, 0xA6, 0xC3, 0xB8, 0xC3, 0xA5, 0xE2, 0x82, 0xAC, 0xC2, 0xB5] 2 (-2) = .ok [0x43, 0x44, 0xC3, 0x86, 0xC3, 0x98, 0xC3, 0x85, 0xC3, 0xA6, 0xC3, 0xB8, 0xC3, 0xA5] := by decide +kernel -- test_Algorithms.cpp:285

-- Test get_next_char_range
example : getNextCharRange [0x41, 0xE2, 0x80, 0xA0, 0xC2, 0xB5] 1 = .ok ⟨1, 3⟩ := by decide +kernel -- test_Algorithms.cpp:290
example : getNextCharRange [0x50, 0xCC, 0x90, 0x73] 0 = .ok ⟨0, 3⟩ := by decide +kernel -- test_Algorithms.cpp:291
example : getNextCharRange [0x50, 0xCC, 0x90, 0x73] 3 = .ok ⟨3, 1⟩ := by decide +kernel -- test_Algorithms.cpp:292

-- Test get_prev_char_range
example : getPrevCharRange [0x41, 0xE2, 0x80, 0xA0, 0xC2, 0xB5] 4 = .ok ⟨1, 3⟩ := by decide +kernel -- test_Algorithms.cpp:297
example : getPrevCharRange [0x50, 0xCC, 0x90, 0x73] 4 = .ok ⟨3, 1⟩ := by decide +kernel -- test_Algorithms.cpp:298
example : getPrevCharRange [0x50, 0xCC, 0x90, 0x73] 3 = .ok ⟨0, 3⟩ := by decide +kernel -- test_Algorithms.cpp:299
example : getPrevCharRange [0x50, 0xCC, 0x90, 0x73] 2 = .error .ystring := by decide +kernel -- test_Algorithms.cpp:300

-- Test insert_char
example : insertChar [0x50, 0xCE, 0xA9, 0xCC, 0x90, 0x73, 0xC3, 0x85] 0 0xD8 = .ok [0xC3, 0x98, 0x50, 0xCE, 0xA9, 0xCC, 0x90, 0x73, 0xC3, 0x85] := by decide +kernel -- test_Algorithms.cpp:305
example : insertChar [0x50, 0xCE, 0xA9, 0xCC, 0x90, 0x73, 0xC3, 0x85] 3 0xD8 = .ok [0x50, 0xCE, 0xA9, 0xCC, 0x90, 0x73, 0xC3, 0x98, 0xC3, 0x85] := by decide +kernel -- test_Algorithms.cpp:306
example : insertChar [0x50, 0xCE, 0xA9, 0xCC, 0x90, 0x73, 0xC3, 0x85] 4 0xD8 = .ok [0x50, 0xCE, 0xA9, 0xCC, 0x90, 0x73, 0xC3, 0x85, 0xC3, 0x98] := by decide +kernel -- test_Algorithms.cpp:307
example : insertChar [0x50, 0xCE, 0xA9, 0xCC, 0x90, 0x73, 0xC3, 0x85] 5 0xD8 = .error .ystring := by decide +kernel -- test_Algorithms.cpp:308
example : insertChar [0x50, 0xCE, 0xA9, 0xCC, 0x90, 0x73, 0xC3, 0x85] (-3) 0xD8 = .ok [0x50, 0xC3, 0x98, 0xCE, 0xA9, 0xCC, 0x90, 0x73, 0xC3, 0x85] := by decide +kernel -- test_Algorithms.cpp:309

-- Test insert_chars
example : insertChars [0x50, 0xCE, 0xA9, 0xCC, 0x90, 0x73, 0xC3, 0x85] 0 [0xC3, 0xA6, 0xC3, 0x98, 0xC3, 0xA5] = .ok [0xC3, 0xA6, 0xC3, 0x98, 0xC3, 0xA5, 0x50, 0xCE, 0xA9, 0xCC, 0x90, 0x73, 0xC3, 0x85] := by decide +kernel -- test_Algorithms.cpp:314
example : insertChars [0x50, 0xCE, 0xA9, 0xCC, 0x90, 0x73, 0xC3, 0x85] 3 [0xC3, 0xA6, 0xC3, 0x98, 0xC3, 0xA5] = .ok [0x50, 0xCE, 0xA9, 0xCC, 0x90, 0x73, 0xC3, 0xA6, 0xC3, 0x98, 0xC3, 0xA5, 0xC3, 0x85] := by decide +kernel -- test_Algorithms.cpp:315
example : insertChars [0x50, 0xCE, 0xA9, 0xCC, 0x90, 0x73, 0xC3, 0x85] 4 [0xC3, 0xA6, 0xC3, 0x98, 0xC3, 0xA5] = .ok [0x50, 0xCE, 0xA9, 0xCC, 0x90, 0x73, 0xC3, 0x85, 0xC3, 0xA6, 0xC3, 0x98, 0xC3, 0xA5] := by decide +kernel -- test_Algorithms.cpp:316
example : insertChars [0x50, 0xCE, 0xA9, 0xCC, 0x90, 0x73, 0xC3, 0x85] 5 [0xC3, 0xA6, 0xC3, 0x98, 0xC3, 0xA5] = .error .ystring := by decide +kernel -- test_Algorithms.cpp:317
example : insertChars [0x50, 0xCE, 0xA9, 0xCC, 0x90, 0x73, 0xC3, 0x85] (-3) [0xC3, 0xA6, 0xC3, 0x98, 0xC3, 0xA5] = .ok [0x50, 0xC3, 0xA6, 0xC3, 0x98, 0xC3, 0xA5, 0xCE, 0xA9, 0xCC, 0x90, 0x73, 0xC3, 0x85] := by decide +kernel -- test_Algorithms.cpp:318

-- Test insert_codepoint
example : insertCodepoint [0x41, 0x42, 0xC2, 0xA3, 0xC6, 0x92, 0x43, 0x44, 0xE2, 0x80, 0xB9, 0xC3, 0x9F] 0 0xC5 = .ok [0xC3, 0x85, 0x41, 0x42, 0xC2, 0xA3, 0xC6, 0x92, 0x43, 0x44, 0xE2, 0x80, 0xB9, 0xC3, 0x9F] := by decide +kernel -- test_Algorithms.cpp:323
example : insertCodepoint [0x41, 0x42, 0xC2, 0xA3, 0xC6, 0x92, 0x43, 0x44, 0xE2, 0x80, 0xB9, 0xC3, 0x9F] 3 0xC5 = .ok [0x41, 0x42, 0xC2, 0xA3, 0xC3, 0x85, 0xC6, 0x92, 0x43, 0x44, 0xE2, 0x80, 0xB9, 0xC3, 0x9F] := by decide +kernel -- test_Algorithms.cpp:324
example : insertCodepoint [0x41, 0x42, 0xC2, 0xA3, 0xC6, 0x92, 0x43, 0x44, 0xE2, 0x80, 0xB9, 0xC3, 0x9F] 8 0xC5 = .ok [0x41, 0x42, 0xC2, 0xA3, 0xC6, 0x92, 0x43, 0x44, 0xE2, 0x80, 0xB9, 0xC3, 0x9F, 0xC3, 0x85] := by decide +kernel -- test_Algorithms.cpp:325
example : insertCodepoint [0x41, 0x42, 0xC2, 0xA3, 0xC6, 0x92, 0x43, 0x44, 0xE2, 0x80, 0xB9, 0xC3, 0x9F] 9 0xC5 = .error .ystring := by decide +kernel -- test_Algorithms.cpp:326
example : insertCodepoint [0x41, 0x42, 0xC2, 0xA3, 0xC6, 0x92, 0x43, 0x44, 0xE2, 0x80, 0xB9, 0xC3, 0x9F] (-1) 0xC5 = .ok [0x41, 0x42, 0xC2, 0xA3, 0xC6, 0x92, 0x43, 0x44, 0xE2, 0x80, 0xB9, 0xC3, 0x85, 0xC3, 0x9F] := by decide +kernel -- test_Algorithms.cpp:327

-- Test insert_codepoints
example : insertCodepoints [0x41, 0x42, 0xC2, 0xA3, 0xC6, 0x92, 0x43, 0x44, 0xE2, 0x80, 0xB9, 0xC3, 0x9F] 0 [0xC3, 0x98, 0xC3, 0x86, 0xC3, 0x85] = .ok [0xC3, 0x98, 0xC3, 0x86, 0xC3, 0x85, 0x41, 0x42, 0xC2, 0xA3, 0xC6, 0x92, 0x43, 0x44, 0xE2, 0x80, 0xB9, 0xC3, 0x9F] := by decide +kernel -- test_Algorithms.cpp:332
example : insertCodepoints [0x41, 0x42, 0xC2, 0xA3, 0xC6, 0x92, 0x43, 0x44, 0xE2, 0x80, 0xB9, 0xC3, 0x9F] 3 [0xC3, 0x98, 0xC3, 0x86, 0xC3, 0x85] = .ok [0x41, 0x42, 0xC2, 0xA3, 0xC3, 0x98, 0xC3, 0x86, 0xC3, 0x85, 0xC6, 0x92, 0x43, 0x44, 0xE2, 0x80, 0xB9, 0xC3, 0x9F] := by decide +kernel -- test_Algorithms.cpp:333
example : insertCodepoints [0x41, 0x42, 0xC2, 0xA3, 0xC6, 0x92, 0x43, 0x44, 0xE2, 0x80, 0xB9, 0xC3, 0x9F] 8 [0xC3, 0x98, 0xC3, 0x86, 0xC3, 0x85] = .ok [0x41, 0x42, 0xC2, 0xA3, 0xC6, 0x92, 0x43, 0x44, 0xE2, 0x80, 0xB9, 0xC3, 0x9F, 0xC3, 0x98, 0xC3, 0x86, 0xC3, 0x85] := by decide +kernel -- test_Algorithms.cpp:334
example : insertCodepoints [0x41, 0x42, 0xC2, 0xA3, 0xC6, 0x92, 0x43, 0x44, 0xE2, 0x80, 0xB9, 0xC3, 0x9F] 9 [0xC3, 0x98, 0xC3, 0x86, 0xC3, 0x85] = .error .ystring := by decide +kernel -- test_Algorithms.cpp:335
example : insertCodepoints [0x41, 0x42, 0xC2, 0xA3, 0xC6, 0x92, 0x43, 0x44, 0xE2, 0x80, 0xB9, 0xC3, 0x9F] (-1) [0xC3, 0x98, 0xC3, 0x86, 0xC3, 0x85] = .ok [0x41, 0x42, 0xC2, 0xA3, 0xC6, 0x92, 0x43, 0x44, 0xE2, 0x80, 0xB9, 0xC3, 0x98, 0xC3, 0x86, 0xC3, 0x85, 0xC3, 0x9F] := by decide +kernel -- test_Algorithms.cpp:336

-- Test is_valid_utf8
example : isValidUtf8 [0x41, 0x42, 0xC2, 0xA3, 0xC6, 0x92, 0x43, 0x44, 0xE2, 0x80, 0xB9, 0xC3, 0x9F] = .ok true := by decide +kernel -- test_Algorithms.cpp:341
example : isValidUtf8 [0x51, 0xF0, 0xCA, 0xCA, 0x5A] = .ok false := by decide +kernel -- test_Algorithms.cpp:342

-- Test replace
example : replace [0x61, 0x62, 0x63, 0x20, 0x64, 0x65, 0x20, 0x66, 0x67, 0x68, 0x20, 0x64, 0x65, 0x20, 0x69] [0x64, 0x65] [0xC3, 0xB8, 0xC3, 0xA5] = .ok [0x61, 0x62, 0x63, 0x20, 0xC3, 0xB8, 0xC3, 0xA5, 0x20, 0x66, 0x67, 0x68, 0x20, 0xC3, 0xB8, 0xC3, 0xA5, 0x20, 0x69] := by decide +kernel -- test_Algorithms.cpp:355
example : replace [0x61, 0x62, 0x63, 0x20, 0x64, 0x65, 0x20, 0x66, 0x67, 0x68, 0x20, 0x64, 0x65, 0x20, 0x69] [0x64, 0x65] [0xC3, 0xB8, 0xC3, 0xA5] 1 = .ok [0x61, 0x62, 0x63, 0x20, 0xC3, 0xB8, 0xC3, 0xA5, 0x20, 0x66, 0x67, 0x68, 0x20, 0x64, 0x65, 0x20, 0x69] := by decide +kernel -- test_Algorithms.cpp:356
example : replace [0x61, 0x62, 0x63, 0x20, 0x64, 0x65, 0x20, 0x66, 0x67, 0x68, 0x20, 0x64, 0x65, 0x20, 0x69] [0x64, 0x65] [0xC3, 0xB8, 0xC3, 0xA5] (-2) = .ok [0x61, 0x62, 0x63, 0x20, 0xC3, 0xB8, 0xC3, 0xA5, 0x20, 0x66, 0x67, 0x68, 0x20, 0xC3, 0xB8, 0xC3, 0xA5, 0x20, 0x69] := by decide +kernel -- test_Algorithms.cpp:357

-- Test replace_chars
example : replaceChars [0x41, 0x42, 0xCC, 0x90, 0xC3, 0x86, 0xC3, 0x98, 0xC3, 0x85, 0xC3, 0xA4, 0xC3, 0xB6, 0xE2, 0x80, 0xA2] 3 6 [0xE2, 0x88, 0x9A, 0xC6, 0x92] = .ok [0x41, 0x42, 0xCC, 0x90, 0xC3, 0x86, 0xE2, 0x88, 0x9A, 0xC6, 0x92, 0xC3, 0xB6, 0xE2, 0x80, 0xA2] := by decide +kernel -- test_Algorithms.cpp:362
example : replaceChars [0x41, 0x42, 0xCC, 0x90, 0xC3, 0x86, 0xC3, 0x98, 0xC3, 0x85, 0xC3, 0xA4, 0xC3, 0xB6, 0xE2, 0x80, 0xA2] (-12) (-1) [0xE2, 0x88, 0x9A, 0xC6, 0x92] = .ok [0xE2, 0x88, 0x9A, 0xC6, 0x92, 0xE2, 0x80, 0xA2] := by decide +kernel -- test_Algorithms.cpp:363
example : replaceChars [0x41, 0x42, 0xCC, 0x90, 0xC3, 0x86, 0xC3, 0x98, 0xC3, 0x85, 0xC3, 0xA4, 0xC3, 0xB6, 0xE2, 0x80, 0xA2] 3 100 [0xE2, 0x88, 0x9A, 0xC6, 0x92] = .ok [0x41, 0x42, 0xCC, 0x90, 0xC3, 0x86, 0xE2, 0x88, 0x9A, 0xC6, 0x92] := by decide +kernel -- test_Algorithms.cpp:364

-- Test replace_codepoints
example : replaceCodepoints [0x41, 0x42, 0xC3, 0x86, 0xC3, 0x98, 0xC3, 0x85, 0xC3, 0xA4, 0xC3, 0xB6, 0xE2, 0x80, 0xA2] 3 6 [0xE2, 0x88, 0x9A, 0xC6, 0x92] = .ok [0x41, 0x42, 0xC3, 0x86, 0xE2, 0x88, 0x9A, 0xC6, 0x92, 0xC3, 0xB6, 0xE2, 0x80, 0xA2] := by decide +kernel -- test_Algorithms.cpp:369
example : replaceCodepoints [0x41, 0x42, 0xC3, 0x86, 0xC3, 0x98, 0xC3, 0x85, 0xC3, 0xA4, 0xC3, 0xB6, 0xE2, 0x80, 0xA2] (-12) (-1) [0xE2, 0x88, 0x9A, 0xC6, 0x92] = .ok [0xE2, 0x88, 0x9A, 0xC6, 0x92, 0xE2, 0x80, 0xA2] := by decide +kernel -- test_Algorithms.cpp:370
example : replaceCodepoints [0x41, 0x42, 0xC3, 0x86, 0xC3, 0x98, 0xC3, 0x85, 0xC3, 0xA4, 0xC3, 0xB6, 0xE2, 0x80, 0xA2] 3 100 [0xE2, 0x88, 0x9A, 0xC6, 0x92] = .ok [0x41, 0x42, 0xC3, 0x86, 0xE2, 0x88, 0x9A, 0xC6, 0x92] := by decide +kernel -- test_Algorithms.cpp:371

-- Test replace_codepoint
example : replaceCodepoint [0xC3, 0x98, 0x62, 0x6B, 0xC3, 0xB8, 0x61, 0xC3, 0xB8, 0x68, 0x6A, 0xC3, 0xB8, 0x64] 0xF8 0xDF = .ok [0xC3, 0x98, 0x62, 0x6B, 0xC3, 0x9F, 0x61, 0xC3, 0x9F, 0x68, 0x6A, 0xC3, 0x9F, 0x64] := by decide +kernel -- test_Algorithms.cpp:376
example : replaceCodepoint [0xC3, 0x98, 0x62, 0x6B, 0xC3, 0xB8, 0x61, 0xC3, 0xB8, 0x68, 0x6A, 0xC3, 0xB8, 0x64] 0xF8 0xDF 2 = .ok [0xC3, 0x98, 0x62, 0x6B, 0xC3, 0x9F, 0x61, 0xC3, 0x9F, 0x68, 0x6A, 0xC3, 0xB8, 0x64] := by decide +kernel -- test_Algorithms.cpp:377
example : replaceCodepoint [0xC3, 0x98, 0x62, 0x6B, 0xC3, 0xB8, 0x61, 0xC3, 0xB8, 0x68, 0x6A, 0xC3, 0xB8, 0x64] 0xF8 0xDF (-2) = .ok [0xC3, 0x98, 0x62, 0x6B, 0xC3, 0xB8, 0x61, 0xC3, 0x9F, 0x68, 0x6A, 0xC3, 0x9F, 0x64] := by decide +kernel -- test_Algorithms.cpp:378

-- Test replace_invalid_utf8
example : replaceInvalidUtf8 [] 0x192 = .ok [] := by decide +kernel -- test_Algorithms.cpp:383
example : replaceInvalidUtf8 [0xC3, 0x98, 0x62, 0x6B, 0xC3, 0xA6, 0xC3, 0xB8] 0x192 = .ok [0xC3, 0x98, 0x62, 0x6B, 0xC3, 0xA6, 0xC3, 0xB8] := by decide +kernel -- test_Algorithms.cpp:384
example : replaceInvalidUtf8 [0xC3, 0x98, 0x62, 0x6B, 0xE0, 0xAF, 0xC3, 0xA6, 0xC3, 0xB8] 0x192 = .ok [0xC3, 0x98, 0x62, 0x6B, 0xC6, 0x92, 0xC3, 0xA6, 0xC3, 0xB8] := by decide +kernel -- test_Algorithms.cpp:385

-- Test reverse
example : reverse [0x50, 0xCC, 0x90, 0x73] = .ok [0x73, 0x50, 0xCC, 0x90] := by decide +kernel -- test_Algorithms.cpp:398

-- Test split on characters
example : splitChars [0xC3, 0x85, 0x41, 0x42, 0xC3, 0x98, 0x51, 0x43, 0x44, 0xC3, 0x86] [0xC6, 0xD8, 0xC5, 0x51] = .ok ([[], [0x41, 0x42], [], [0x43, 0x44], []]) := by decide +kernel -- test_Algorithms.cpp:409
example : splitChars [0xC3, 0x85, 0x41, 0x42, 0xC3, 0x98, 0x51, 0x43, 0x44, 0xC3, 0x86] [0xC6, 0xD8, 0xC5, 0x51] IGNORE_EMPTY = .ok ([[0x41, 0x42], [0x43, 0x44]]) := by decide +kernel -- test_Algorithms.cpp:410
example : splitChars [0xC3, 0x85, 0x41, 0x42, 0xC3, 0x98, 0x51, 0x43, 0x44, 0xC3, 0x86] [0xC6, 0xD8, 0xC5, 0x51] ⟨2, false⟩ = .ok ([[], [0x41, 0x42], [0x51, 0x43, 0x44, 0xC3, 0x86]]) := by decide +kernel -- test_Algorithms.cpp:411
example : splitChars [0xC3, 0x85, 0x41, 0x42, 0xC3, 0x98, 0x51, 0x43, 0x44, 0xC3, 0x86] [0xC6, 0xD8, 0xC5, 0x51] ⟨1, true⟩ = .ok ([[0x41, 0x42], [0x51, 0x43, 0x44, 0xC3, 0x86]]) := by decide +kernel -- test_Algorithms.cpp:412
example : splitChars [0xC3, 0x85, 0x41, 0x42, 0xC3, 0x98, 0x51, 0x43, 0x44, 0xC3, 0x86] [0xC6, 0xD8, 0xC5, 0x51] ⟨2, true⟩ = .ok ([[0x41, 0x42], [0x43, 0x44]]) := by decide +kernel -- test_Algorithms.cpp:413

-- Test split on substring
example : split [0x42, 0xC3, 0x98, 0x41, 0x42, 0x43, 0x20, 0x42, 0xC3, 0x98, 0x42, 0xC3, 0x98, 0x20, 0x63, 0x66, 0x67, 0xC3, 0xA5, 0x20, 0x42, 0xC3, 0x98] [0x42, 0xC3, 0x98] = .ok ([[], [0x41, 0x42, 0x43, 0x20], [], [0x20, 0x63, 0x66, 0x67, 0xC3, 0xA5, 0x20], []]) := by decide +kernel -- test_Algorithms.cpp:418
example : split [0x42, 0xC3, 0x98, 0x41, 0x42, 0x43, 0x20, 0x42, 0xC3, 0x98, 0x42, 0xC3, 0x98, 0x20, 0x63, 0x66, 0x67, 0xC3, 0xA5, 0x20, 0x42, 0xC3, 0x98] [0x42, 0xC3, 0x98] IGNORE_EMPTY = .ok ([[0x41, 0x42, 0x43, 0x20], [0x20, 0x63, 0x66, 0x67, 0xC3, 0xA5, 0x20]]) := by decide +kernel -- test_Algorithms.cpp:419
example : split [0x42, 0xC3, 0x98, 0x41, 0x42, 0x43, 0x20, 0x42, 0xC3, 0x98, 0x42, 0xC3, 0x98, 0x20, 0x63, 0x66, 0x67, 0xC3, 0xA5, 0x20, 0x42, 0xC3, 0x98] [0x42, 0xC3, 0x98] ⟨3, false⟩ = .ok ([[], [0x41, 0x42, 0x43, 0x20], [], [0x20, 0x63, 0x66, 0x67, 0xC3, 0xA5, 0x20, 0x42, 0xC3, 0x98]]) := by decide +kernel -- test_Algorithms.cpp:420

-- Test case-insensitive split on substring
example : CI.split [0x42, 0xC3, 0x98, 0x41, 0x42, 0x43, 0x20, 0x42, 0xC3, 0xB8, 0x62, 0xC3, 0x98, 0x20, 0x63, 0x66, 0x67, 0xC3, 0xA5, 0x20, 0x62, 0xC3, 0x98] [0x42, 0xC3, 0xB8] = .ok ([[], [0x41, 0x42, 0x43, 0x20], [], [0x20, 0x63, 0x66, 0x67, 0xC3, 0xA5, 0x20], []]) := by decide +kernel -- test_Algorithms.cpp:425

-- Test split_lines
example : splitLines [] [0x0A, 0x41, 0x42, 0x43, 0x0D, 0x0A, 0x0D, 0x63, 0x66, 0x67, 0xC3, 0xA5, 0x0A] = .ok ([[], [0x41, 0x42, 0x43], [], [0x63, 0x66, 0x67, 0xC3, 0xA5], []]) := by decide +kernel -- test_Algorithms.cpp:430
example : splitLines [] [0x0A, 0x41, 0x42, 0x43, 0x0D, 0x0A, 0x0D, 0x63, 0x66, 0x67, 0xC3, 0xA5, 0x0A] IGNORE_EMPTY = .ok ([[0x41, 0x42, 0x43], [0x63, 0x66, 0x67, 0xC3, 0xA5]]) := by decide +kernel -- test_Algorithms.cpp:431
example : splitLines [] [0x0A, 0x41, 0x42, 0x43, 0x0D, 0x0A, 0x0D, 0x63, 0x66, 0x67, 0xC3, 0xA5, 0x0A] ⟨2, false⟩ = .ok ([[], [0x41, 0x42, 0x43], [0x0D, 0x63, 0x66, 0x67, 0xC3, 0xA5, 0x0A]]) := by decide +kernel -- test_Algorithms.cpp:432
example : splitLines [] [0x0A, 0x41, 0x42, 0x43, 0x0D, 0x0A, 0x0D, 0x63, 0x66, 0x67, 0xC3, 0xA5, 0x0A] ⟨1, true⟩ = .ok ([[0x41, 0x42, 0x43], [0x0D, 0x63, 0x66, 0x67, 0xC3, 0xA5, 0x0A]]) := by decide +kernel -- test_Algorithms.cpp:433

-- Test starts_with
example : startsWith [0x42, 0xC3, 0x98, 0x41, 0x42, 0x43, 0x20, 0x42, 0xC3, 0x98, 0x42, 0xC3, 0x98, 0x20, 0x63, 0x66, 0x67, 0xC3, 0xA5, 0x20, 0x42, 0xC3, 0x98] [0x42, 0xC3, 0x98, 0x41] = .ok true := by decide +kernel -- test_Algorithms.cpp:438
example : startsWith [0x42, 0xC3, 0x98, 0x41, 0x42, 0x43, 0x20, 0x42, 0xC3, 0x98, 0x42, 0xC3, 0x98, 0x20, 0x63, 0x66, 0x67, 0xC3, 0xA5, 0x20, 0x42, 0xC3, 0x98] [0x42, 0xC3, 0x98, 0x41, 0x44] = .ok false := by decide +kernel -- test_Algorithms.cpp:439
example : startsWith [0x42, 0xC3, 0x98, 0x41, 0x42, 0x43] [0x42, 0xC3, 0x98, 0x41, 0x42, 0x43] = .ok true := by decide +kernel -- test_Algorithms.cpp:440
example : startsWith [0x42, 0xC3, 0x98, 0x41, 0x42, 0x43] [0x42, 0xC3, 0x98, 0x41, 0x42, 0x43, 0x45] = .ok false := by decide +kernel -- test_Algorithms.cpp:441

-- Test trim
example : trim [] [0x20, 0xD8, 0xF8] = .ok [] := by decide +kernel -- test_Algorithms.cpp:448
example : trim [0x66, 0x20, 0x6F, 0xC3, 0xB8, 0x6F] [0x20, 0xD8, 0xF8] = .ok [0x66, 0x20, 0x6F, 0xC3, 0xB8, 0x6F] := by decide +kernel -- test_Algorithms.cpp:449
example : trim [0x20, 0xC3, 0xB8, 0x66, 0x20, 0x6F, 0xC3, 0xB8, 0x6F] [0x20, 0xD8, 0xF8] = .ok [0x66, 0x20, 0x6F, 0xC3, 0xB8, 0x6F] := by decide +kernel -- test_Algorithms.cpp:450
example : trim [0x66, 0x20, 0x6F, 0xC3, 0xB8, 0x6F, 0x20, 0xC3, 0x98] [0x20, 0xD8, 0xF8] = .ok [0x66, 0x20, 0x6F, 0xC3, 0xB8, 0x6F] := by decide +kernel -- test_Algorithms.cpp:451
example : trim [0x20, 0xC3, 0xB8, 0x66, 0x20, 0x6F, 0xC3, 0xB8, 0x6F, 0x20, 0xC3, 0x98] [0x20, 0xD8, 0xF8] = .ok [0x66, 0x20, 0x6F, 0xC3, 0xB8, 0x6F] := by decide +kernel -- test_Algorithms.cpp:452

-- Test trim_end
example : trimEnd [] [0x20, 0xD8, 0xF8] = .ok [] := by decide +kernel -- test_Algorithms.cpp:459
example : trimEnd [0x66, 0x20, 0x6F, 0xC3, 0xB8, 0x6F] [0x20, 0xD8, 0xF8] = .ok [0x66, 0x20, 0x6F, 0xC3, 0xB8, 0x6F] := by decide +kernel -- test_Algorithms.cpp:460
example : trimEnd [0x20, 0xC3, 0xB8, 0x66, 0x20, 0x6F, 0xC3, 0xB8, 0x6F] [0x20, 0xD8, 0xF8] = .ok [0x20, 0xC3, 0xB8, 0x66, 0x20, 0x6F, 0xC3, 0xB8, 0x6F] := by decide +kernel -- test_Algorithms.cpp:461
example : trimEnd [0x66, 0x20, 0x6F, 0xC3, 0xB8, 0x6F, 0x20, 0xC3, 0x98] [0x20, 0xD8, 0xF8] = .ok [0x66, 0x20, 0x6F, 0xC3, 0xB8, 0x6F] := by decide +kernel -- test_Algorithms.cpp:462
example : trimEnd [0x20, 0xC3, 0xB8, 0x66, 0x20, 0x6F, 0xC3, 0xB8, 0x6F, 0x20, 0xC3, 0x98] [0x20, 0xD8, 0xF8] = .ok [0x20, 0xC3, 0xB8, 0x66, 0x20, 0x6F, 0xC3, 0xB8, 0x6F] := by decide +kernel -- test_Algorithms.cpp:463

-- Test trim_start
example : trimStart [] [0x20, 0xD8, 0xF8] = .ok [] := by decide +kernel -- test_Algorithms.cpp:470
example : trimStart [0x66, 0x20, 0x6F, 0xC3, 0xB8, 0x6F] [0x20, 0xD8, 0xF8] = .ok [0x66, 0x20, 0x6F, 0xC3, 0xB8, 0x6F] := by decide +kernel -- test_Algorithms.cpp:471
example : trimStart [0x20, 0xC3, 0xB8, 0x66, 0x20, 0x6F, 0xC3, 0xB8, 0x6F] [0x20, 0xD8, 0xF8] = .ok [0x66, 0x20, 0x6F, 0xC3, 0xB8, 0x6F] := by decide +kernel -- test_Algorithms.cpp:472
example : trimStart [0x66, 0x20, 0x6F, 0xC3, 0xB8, 0x6F, 0x20, 0xC3, 0x98] [0x20, 0xD8, 0xF8] = .ok [0x66, 0x20, 0x6F, 0xC3, 0xB8, 0x6F, 0x20, 0xC3, 0x98] := by decide +kernel -- test_Algorithms.cpp:473
example : trimStart [0x20, 0xC3, 0xB8, 0x66, 0x20, 0x6F, 0xC3, 0xB8, 0x6F, 0x20, 0xC3, 0x98] [0x20, 0xD8, 0xF8] = .ok [0x66, 0x20, 0x6F, 0xC3, 0xB8, 0x6F, 0x20, 0xC3, 0x98] := by decide +kernel -- test_Algorithms.cpp:474

-- Test append
example : append [] 0x2211 = .ok [0xE2, 0x88, 0x91] := by decide +kernel -- test_Algorithms.cpp:26
example : append [0xE2, 0x88, 0x91] 0x131 = .ok [0xE2, 0x88, 0x91, 0xC4, 0xB1] := by decide +kernel -- test_Algorithms.cpp:27
example : append [0xE2, 0x88, 0x91, 0xC4, 0xB1] 0x200000 = .error .ystring := by decide +kernel -- test_Algorithms.cpp:28

-- Test join
example : join [] [0x2C, 0x20] = [] := by decide +kernel -- test_Algorithms.cpp:355
example : join [[0x4C, 0x6F, 0x72, 0x65, 0x6D], [0x69, 0x70, 0x73, 0x75, 0x6D], [0x64, 0x6F, 0x6C, 0x6F, 0x72], [0x73, 0x69, 0x74], [0x61, 0x6D, 0x65, 0x74]] [0x2C, 0x20] = [0x4C, 0x6F, 0x72, 0x65, 0x6D, 0x2C, 0x20, 0x69, 0x70, 0x73, 0x75, 0x6D, 0x2C, 0x20, 0x64, 0x6F, 0x6C, 0x6F, 0x72, 0x2C, 0x20, 0x73, 0x69, 0x74, 0x2C, 0x20, 0x61, 0x6D, 0x65, 0x74] := by decide +kernel -- test_Algorithms.cpp:356

-- Test replace_invalid_utf8, mutable string
example : replaceInvalidUtf8InPlace [0xC3, 0x98, 0x62, 0x6B, 0xE0, 0xAF, 0xC3, 0xA6, 0xC3, 0xB8] 0x2122 = .ok [0xC3, 0x98, 0x62, 0x6B, 0xE2, 0x84, 0xA2, 0xC3, 0xA6, 0xC3, 0xB8] := by decide +kernel -- test_Algorithms.cpp:396
example : replaceInvalidUtf8InPlace [0xC3, 0x98, 0x62, 0x6B, 0xE2, 0x84, 0xA2, 0xC3, 0xA6, 0xC3, 0xB8] 0x2122 = .ok [0xC3, 0x98, 0x62, 0x6B, 0xE2, 0x84, 0xA2, 0xC3, 0xA6, 0xC3, 0xB8] := by decide +kernel -- test_Algorithms.cpp:397

end Ystring
