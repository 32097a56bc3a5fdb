import Verif.Model.Generate
import Verif.Model.Codegen
/-
Model of what the table generators read and print: the text of the Unicode database, and the text of the C++ headers. Model/Generate.lean has what
they do in between.
-/
namespace Ystring.Gen

/-! ### Reading the database -/

/-- `for line in open(file)`: the lines with their ends (tools/unicode_character_tables/make_case_convert_file.py:107). Simplification: Python also reads "\r\n"
and "\r" as line ends. -/
def fileLines : Txt → List Txt
  | [] => []
  | c :: cs =>
    if c = '\n' then ['\n'] :: fileLines cs
    else match fileLines cs with
      | [] => [[c]]
      | l :: ls => (c :: l) :: ls

/-- The value of a hexadecimal digit, for `int(..., 16)`: tools/unicode_character_tables/make_case_convert_file.py:111. -/
def hexVal? (c : Char) : Option Nat :=
  let n := c.toNat
  if 48 ≤ n ∧ n ≤ 57 then some (n - 48)
  else if 65 ≤ n ∧ n ≤ 70 then some (n - 55)
  else if 97 ≤ n ∧ n ≤ 102 then some (n - 87)
  else none

/-- `int(s, 16)`: tools/unicode_character_tables/make_case_convert_file.py:111-112. Simplification: signs, the prefix "0x", underscores and digits outside ASCII,
which Python accepts, are errors. -/
def pyInt16 (s : Txt) : Except PyErr Nat :=
  let s := strip s
  if s ≠ [] ∧ s.all (fun c => (hexVal? c).isSome) then .ok (s.foldl (fun n c => 16 * n + (hexVal? c).getD 0) 0)
  else .error .value

/-- `parts[i]` for `i ≥ 0`: tools/unicode_character_tables/make_char_class_file.py:176. -/
def item (parts : List Txt) (i : Nat) : Except PyErr Txt :=
  match parts[i]? with
  | some x => .ok x
  | none => .error .index

/-- `parts[-i]` for `i > 0`: tools/unicode_character_tables/make_case_convert_file.py:109. -/
def itemBack (parts : List Txt) (i : Nat) : Except PyErr Txt :=
  if i ≤ parts.length then item parts (parts.length - i) else .error .index

/-! ### Printing numbers -/

/-- The digits of `"%X"`: tools/unicode_character_tables/make_case_convert_file.py:80. -/
def hexDigit (d : Nat) : Char := Char.ofNat (if d < 10 then 48 + d else 55 + d)

/-- The digits of `n`, the last one first, for `"%X" % n`: tools/unicode_character_tables/make_case_convert_file.py:80; `fuel` bounds their number. -/
def hexRev : (fuel : Nat) → Nat → Txt
  | 0, _ => []
  | fuel + 1, n => hexDigit (n % 16) :: (if n < 16 then [] else hexRev fuel (n / 16))

/-- `"%0<w>X" % n`: tools/unicode_character_tables/make_case_convert_file.py:80-83 -/
def hexText (w n : Nat) : Txt :=
  let ds := (hexRev (n + 1) n).reverse
  List.replicate (w - ds.length) '0' ++ ds

/-- `"%0<w>X" % n` for an `int` that may be negative: tools/unicode_character_tables/make_case_convert_file.py:80-83 -/
def hexInt (w : Nat) (n : Int) : Txt := if n < 0 then '-' :: hexText (w - 1) (-n).toNat else hexText w n.toNat

/-- `"0x%0<w>X" % n`: tools/unicode_character_tables/make_char_class_file.py:228 -/
def hexLit (w n : Nat) : Txt := '0' :: 'x' :: hexText w n

/-- `"0x%0<w>X" % n`: tools/unicode_character_tables/make_case_convert_file.py:80 -/
def hexLitInt (w : Nat) (n : Int) : Txt := '0' :: 'x' :: hexInt w n

/-- `"%02d" % n`: tools/unicode_character_tables/make_case_convert_file.py:91 -/
def twoDigits (n : Nat) : Txt := List.replicate (2 - (intText n).length) '0' ++ intText n

/-- The date of the day: tools/unicode_character_tables/make_case_convert_file.py:88. -/
structure Date where
  year : Nat
  month : Nat
  day : Nat
  deriving DecidableEq, Repr

/-- tools/unicode_character_tables/make_case_convert_file.py:91 -/
def Date.text (d : Date) : Txt := intText d.year ++ ['-'] ++ twoDigits d.month ++ ['-'] ++ twoDigits d.day

/-- `print(codegen.make_text(...))`: tools/unicode_character_tables/make_case_convert_file.py:95 -/
def printText (tmpl : Txt) (dict : List (Txt × Val)) : Except PyErr Txt := do .ok ((← makeText tmpl dict) ++ ['\n'])

/-! ### make_case_convert_file.py -/

/-- tools/unicode_character_tables/make_case_convert_file.py:49-73, the lines -/
def CASE_TEMPLATE : List Txt := [
  t!"//****************************************************************************",
  t!"// Copyright © [[[year]]] Jan Erik Breimo. All rights reserved.",
  t!"// Created by Jan Erik Breimo on [[[date]]].",
  t!"//",
  t!"// This file is distributed under the Zero-Clause BSD License.",
  t!"// License text is included with the source distribution.",
  t!"//****************************************************************************",
  t!"#pragma once",
  [],
  t!"#include \"CharMappingTypes.hpp\"",
  [],
  t!"namespace ystring",
  t!"{",
  t!"    constexpr CompactCharMapping COMPACT_[[[name]]]_CASE[] =",
  t!"    {",
  t!"        [[[compact_mappings]]]",
  t!"    };",
  [],
  t!"    constexpr CharMapping [[[name]]]_CASE[] =",
  t!"    {",
  t!"        [[[mappings]]]",
  t!"    };",
  t!"}",
  []]

/-- tools/unicode_character_tables/make_case_convert_file.py:78-84: the text for a diff set -/
def compactText (d : Nat × Int × Nat × Nat) : Txt :=
  let delta := if d.2.1 < 0 then 2 ^ 32 + d.2.1 else d.2.1
  ['{'] ++ hexLit 6 d.1 ++ t!", " ++ hexLitInt 8 delta ++ t!", " ++ hexLit 8 d.2.2.1 ++ t!", " ++ hexLit 8 d.2.2.2 ++ t!"},"

/-- tools/unicode_character_tables/make_case_convert_file.py:86-87 -/
def mappingText (m : Nat × Nat) : Txt := ['{'] ++ hexLit 6 m.1 ++ t!", " ++ hexLit 6 m.2 ++ t!"},"

/-- `str.upper()` (tools/unicode_character_tables/make_case_convert_file.py:92), for ASCII -/
def upperText (s : Txt) : Txt := s.map Char.toUpper

/-- `str.title()` (tools/unicode_character_tables/make_case_convert_file.py:104), for ASCII; `inWord` says if the character before is a letter -/
def titleText : (inWord : Bool) → Txt → Txt
  | _, [] => []
  | inWord, c :: cs => (if inWord then c.toLower else c.toUpper) :: titleText c.isAlpha cs

/-- tools/unicode_character_tables/make_case_convert_file.py:76-95; the date is a parameter -/
def writeCase (date : Date) (diffSets : List (Nat × Int × Nat × Nat)) (mappings : List (Nat × Nat)) (name : Txt) : Except PyErr Txt :=
  printText (joinTxt ['\n'] CASE_TEMPLATE) [
    (t!"year", .int date.year),
    (t!"date", .str date.text),
    (t!"name", .str (upperText name)),
    (t!"compact_mappings", .list (diffSets.map compactText)),
    (t!"mappings", .list (mappings.map mappingText))]

/-- tools/unicode_character_tables/make_case_convert_file.py:15-19, 105: the (negated) index of a field -/
def alternativeIndex (name : Txt) : Except PyErr Nat :=
  if name = t!"Upper" then .ok 3 else if name = t!"Lower" then .ok 2 else if name = t!"Title" then .ok 1 else .error .key

/-- tools/unicode_character_tables/make_case_convert_file.py:108-112: the pair that a line adds, if any -/
def caseLine (back : Nat) (line : Txt) : Except PyErr (Option (Nat × Nat)) := do
  let parts := splitChar ';' line
  let alt := strip (← itemBack parts back)
  if alt = [] then .ok none
  else do
    let ch ← pyInt16 (← item parts 0)
    let altCh ← pyInt16 alt
    .ok (some (ch, altCh))

/-- tools/unicode_character_tables/make_case_convert_file.py:113-128: (diff_sets, mappings) -/
def caseSets (lines : List (Nat × Nat)) : List (Nat × Int × Nat × Nat) × List (Nat × Nat) :=
  ((lines.foldl addChar []).mergeSort (fun a b => a.1 ≤ b.1)).foldl caseStep ([], [])

/-- tools/unicode_character_tables/make_case_convert_file.py:98-130 with two arguments, the second of which is the name of a file with the contents `file`: what is
printed. (Lines 113-118 are in the same loop as 108-112.) -/
def caseMain (date : Date) (arg file : Txt) : Except PyErr Txt := do
  let name := titleText false arg
  let back ← alternativeIndex name
  let pairs ← (fileLines file).mapM (caseLine back)
  let r := caseSets (pairs.filterMap id)
  writeCase date r.1 r.2 name

/-! ### Rows of numbers -/

/-- tools/unicode_character_tables/make_char_class_file.py:228: `", ".join(...)` -/
def rowText (w : Nat) (vs : List Nat) : Txt := joinTxt (t!", ") (vs.map (hexLit w))

/-- tools/unicode_character_tables/make_char_class_file.py:222-231 and make_normalization_file.py:66-74, 79-87: rows of `n` values; `vs.drop (n * i)` etc. are slices
(for an empty list the last slice begins at `-n` and is empty) -/
def tableRows (w n : Nat) (vs : List Nat) : List Txt :=
  let remainder := if vs.length % n = 0 then n else vs.length % n
  (List.range ((vs.length - remainder + n - 1) / n)).map (fun i => rowText w ((vs.drop (n * i)).take n) ++ [',']) ++
    [rowText w (vs.drop (vs.length - remainder))]

/-! ### make_char_class_file.py -/

/-- tools/unicode_character_tables/make_char_class_file.py:134-156, the lines -/
def CLASS_TEMPLATE : List Txt := [
  t!"//****************************************************************************",
  t!"// Copyright © [[[year]]] Jan Erik Breimo. All rights reserved.",
  t!"// Created by Jan Erik Breimo on [[[date]]]",
  t!"//",
  t!"// This file is distributed under the Zero-Clause BSD License.",
  t!"// License text is included with the source distribution.",
  t!"//****************************************************************************",
  t!"#include <cstdint>",
  [],
  t!"namespace ystring",
  t!"{",
  t!"    constexpr uint8_t ASCII_CHAR_CLASSES[] =",
  t!"    {",
  t!"        [[[asciiClasses]]]",
  t!"    };",
  [],
  t!"    constexpr uint32_t COMPLETE_CHAR_CLASSES[] =",
  t!"    {",
  t!"        [[[allClasses]]]",
  t!"    };",
  t!"}",
  []]

/-- tools/unicode_character_tables/make_char_class_file.py:54-85: the keys of `Classes`, in the order of their values 1, 2, ... -/
def CLASS_KEYS : List Txt := [
  t!"Lu", t!"Ll", t!"Lt", t!"Lm", t!"Lo", t!"Mn", t!"Mc", t!"Me", t!"Nd", t!"Nl", t!"No", t!"Pc", t!"Pd", t!"Ps", t!"Pe", t!"Pi", t!"Pf", t!"Po",
  t!"Sm", t!"Sc", t!"Sk", t!"So", t!"Zs", t!"Zl", t!"Zp", t!"Cc", t!"Cf", t!"Cs", t!"Co", t!"Cn"]

/-- `Classes[key]`: tools/unicode_character_tables/make_char_class_file.py:161 -/
def classOf (key : Txt) : Except PyErr Nat :=
  if key ∈ CLASS_KEYS then .ok (CLASS_KEYS.idxOf key + 1) else .error .key

/-- tools/unicode_character_tables/make_char_class_file.py:175-177. Simplification: the class is looked up here and not later, so that a class that is not in the
dictionary is an error at once; the script does not print anything before. (A class of three or four letters is an error here, but not in the script if
it is the name of an alternating range, or two classes.) -/
def classLine (line : Txt) : Except PyErr (Nat × Nat) := do
  let parts := splitChar ';' line
  let charClass ← item parts 2
  let charId ← pyInt16 (← item parts 0)
  .ok (charId, ← classOf charClass)

/-- tools/unicode_character_tables/make_char_class_file.py:237-247: one pass of the loop on (result, output_line), for a line with code point below 128 -/
def asciiStep (acc : List Txt × List Txt) (l : Nat × Nat) : List Txt × List Txt :=
  let acc := if acc.2.length = 8 then (acc.1 ++ [joinTxt (t!", ") acc.2 ++ [',']], []) else acc
  (acc.1, acc.2 ++ [hexLit 2 (l.2 - 1)])

/-- tools/unicode_character_tables/make_char_class_file.py:234-248 -/
def asciiRows (lines : List (Nat × Nat)) : List Txt :=
  let r := (lines.takeWhile (fun l => l.1 < 128)).foldl asciiStep ([], [])
  r.1 ++ [joinTxt (t!", ") r.2]

/-- tools/unicode_character_tables/make_char_class_file.py:251-257 -/
def writeClasses (date : Date) (asciiClasses allClasses : List Txt) : Except PyErr Txt :=
  printText (joinTxt ['\n'] CLASS_TEMPLATE) [
    (t!"year", .int date.year),
    (t!"date", .str date.text),
    (t!"asciiClasses", .list asciiClasses),
    (t!"allClasses", .list allClasses)]

/-- tools/unicode_character_tables/make_char_class_file.py:260-271 with one argument, the name of a file with the contents `file`; an empty list of ranges is an
error in line 194 (`ranges[0]`) -/
def classMain (date : Date) (file : Txt) : Except PyErr Txt := do
  let lines ← (fileLines file).mapM classLine
  if classRanges KNOWN_RANGES lines = [] then .error .index
  else writeClasses date (asciiRows lines) (tableRows 8 5 (classTable lines))

/-! ### make_normalization_file.py -/

/-- tools/unicode_character_tables/make_normalization_file.py:15-37, the lines -/
def NORMALIZATION_TEMPLATE : List Txt := [
  t!"//****************************************************************************",
  t!"// Copyright © [[[year]]] Jan Erik Breimo. All rights reserved.",
  t!"// Created by Jan Erik Breimo on [[[date]]]",
  t!"//",
  t!"// This file is distributed under the Zero-Clause BSD License.",
  t!"// License text is included with the source distribution.",
  t!"//****************************************************************************",
  t!"#include <cstdint>",
  [],
  t!"namespace ystring",
  t!"{",
  t!"    constexpr uint64_t TO_DECOMPOSED[] =",
  t!"    {",
  t!"        [[[to_normalized]]]",
  t!"    };",
  [],
  t!"    constexpr uint64_t TO_COMPOSED[] =",
  t!"    {",
  t!"        [[[to_denormalized]]]",
  t!"    };",
  t!"}",
  []]

/-- tools/unicode_character_tables/make_normalization_file.py:43-50: what is used of a line; empty lines are skipped, and the values are not read if the field begins
with '<' -/
def decompLine (line : Txt) : Except PyErr (Option DecompLine) := do
  let line := strip line
  if line = [] then .ok none
  else do
    let parts := splitChar ';' line
    let charId ← pyInt16 (← item parts 0)
    let field ← item parts 5
    if field = [] then .ok (some ⟨charId, false, []⟩)
    else if field.head? = some '<' then .ok (some ⟨charId, true, []⟩)
    else do .ok (some ⟨charId, false, ← (words field).mapM pyInt16⟩)

/-- tools/unicode_character_tables/make_normalization_file.py:90-96 -/
def writeNormalization (date : Date) (decomposed composed : List Txt) : Except PyErr Txt :=
  printText (joinTxt ['\n'] NORMALIZATION_TEMPLATE) [
    (t!"year", .int date.year),
    (t!"date", .str date.text),
    (t!"to_normalized", .list decomposed),
    (t!"to_denormalized", .list composed)]

/-- tools/unicode_character_tables/make_normalization_file.py:119-127 with one argument, the name of a file with the contents `file` -/
def normalizationMain (date : Date) (file : Txt) : Except PyErr Txt := do
  let lines ← (fileLines file).mapM decompLine
  let rules := getRules (lines.filterMap id)
  writeNormalization date (tableRows 16 3 (decomposedTable rules)) (tableRows 16 3 (composedTable rules))

end Ystring.Gen
