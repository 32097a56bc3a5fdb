import Verif.Model.Utf8
import Verif.Model.CharClass
import Verif.Model.Tables.LowerCase
import Verif.Model.Tables.UpperCase
import Verif.Model.Tables.TitleCase
/-
Model of src/Ystring/ConvertCase.cpp, src/Ystring/CharMappingTypes.hpp,
include/Ystring/CaseInsensitive.hpp, and of `append` (src/Ystring/Algorithms.cpp), which the string
conversions call.
-/
namespace Ystring

/-- src/Ystring/CharMappingTypes.hpp:17-22 (`CompactCharMapping`) as a row of the generated table -/
abbrev CompactRow := Nat × Nat × Nat × Nat

/-- src/Ystring/CharMappingTypes.hpp:24-34. The `assert` holds at the only call (the row's segment is
`codepoint & SEGMENT_MASK`, so the shift count is below 32). -/
def CompactRow.get (row : CompactRow) (codepoint : Char32) : Option Char32 :=
  let segment := UInt32.ofNat row.1
  let offset := UInt32.ofNat row.2.1
  let affected := UInt32.ofNat row.2.2.1
  let ignorable := UInt32.ofNat row.2.2.2
  let mask : UInt32 := 1 <<< (codepoint - segment)
  if mask &&& affected ≠ 0 then some (codepoint + offset)
  else if mask &&& ignorable ≠ 0 then some codepoint
  else none

/-- src/Ystring/ConvertCase.cpp:20 -/
def SEGMENT_MASK : Char32 := ~~~0x1F

/-- src/Ystring/ConvertCase.cpp:22-38 -/
def findInCompactMapping (mapping : List CompactRow) (codepoint : Char32) : Option Char32 :=
  let key := (codepoint &&& SEGMENT_MASK).toNat
  let set := lowerBound (fun i => (mapping.getD i (0, 0, 0, 0)).1 < key) mapping.length
  if set = mapping.length then none
  else if (mapping.getD set (0, 0, 0, 0)).1 ≠ key then none
  else CompactRow.get (mapping.getD set (0, 0, 0, 0)) codepoint

/-- src/Ystring/ConvertCase.cpp:40-55 -/
def findInMapping (mapping : List (Nat × Nat)) (codepoint : Char32) : Option Char32 :=
  let it := lowerBound (fun i => (mapping.getD i (0, 0)).1 < codepoint.toNat) mapping.length
  if it = mapping.length then none
  else if (mapping.getD it (0, 0)).1 ≠ codepoint.toNat then none
  else some (UInt32.ofNat (mapping.getD it (0, 0)).2)

/-- src/Ystring/ConvertCase.cpp:57-68 -/
def convert (compact : List CompactRow) (mapping : List (Nat × Nat)) (codepoint : Char32) : Char32 :=
  match findInCompactMapping compact codepoint with
  | some c => c
  | none =>
    match findInMapping mapping codepoint with
    | some c => c
    | none => codepoint

/-- src/Ystring/ConvertCase.cpp:71-84 -/
def toLowerChar (codepoint : Char32) : Char32 :=
  if codepoint < 128 then
    if 0x41 ≤ codepoint ∧ codepoint ≤ 0x5A then codepoint + 32 else codepoint
  else convert COMPACT_LOWER_CASE LOWER_CASE codepoint

/-- src/Ystring/ConvertCase.cpp:86-99 -/
def toTitleChar (codepoint : Char32) : Char32 :=
  if codepoint < 128 then
    if 0x61 ≤ codepoint ∧ codepoint ≤ 0x7A then codepoint - 32 else codepoint
  else convert COMPACT_TITLE_CASE TITLE_CASE codepoint

/-- src/Ystring/ConvertCase.cpp:101-114 -/
def toUpperChar (codepoint : Char32) : Char32 :=
  if codepoint < 128 then
    if 0x61 ≤ codepoint ∧ codepoint ≤ 0x7A then codepoint - 32 else codepoint
  else convert COMPACT_UPPER_CASE UPPER_CASE codepoint

/-- src/Ystring/Algorithms.cpp:31-36: the new value of `str`. When the exception is thrown nothing has
been written to `str`. The copying overload (lines 38-43) returns the same string. -/
def append (str : Str) (chr : Char32) : Res Str :=
  if encodeUtf8Ret chr ≠ 0 then .ok (str ++ encodeUtf8 chr) else .error .ystring

/-- src/Ystring/ConvertCase.cpp:122-123 -/
def toLowerLoop : (fuel : Nat) → (it result : Str) → Res Str
  | 0, _, _ => .error .diverge
  | fuel + 1, it, result => do
    match ← safeDecodeNext it with
    | none => .ok result
    | some (ch, it) =>
      let result ← append result (toLowerChar ch)
      toLowerLoop fuel it result

/-- src/Ystring/ConvertCase.cpp:116-125 -/
def toLower (str : Str) : Res Str := toLowerLoop (str.length + 1) str []

/-- src/Ystring/ConvertCase.cpp:134-155 -/
def toTitleLoop : (fuel : Nat) → (it result : Str) → (precededByLetter : Bool) → Res Str
  | 0, _, _, _ => .error .diverge
  | fuel + 1, it, result, precededByLetter => do
    match ← safeDecodeNext it with
    | none => .ok result
    | some (ch, it) =>
      if !isLetter ch then
        let result ← append result ch
        toTitleLoop fuel it result false
      else if precededByLetter then
        let result ← append result (toLowerChar ch)
        toTitleLoop fuel it result precededByLetter
      else if ch ≠ 0xDF then
        let result ← append result (toTitleChar ch)
        toTitleLoop fuel it result true
      else
        toTitleLoop fuel it (result ++ [0x53, 0x73]) true

/-- src/Ystring/ConvertCase.cpp:127-157 -/
def toTitle (str : Str) : Res Str := toTitleLoop (str.length + 1) str [] false

/-- src/Ystring/ConvertCase.cpp:165-171 -/
def toUpperLoop : (fuel : Nat) → (it result : Str) → Res Str
  | 0, _, _ => .error .diverge
  | fuel + 1, it, result => do
    match ← safeDecodeNext it with
    | none => .ok result
    | some (ch, it) =>
      if ch ≠ 0xDF then
        let result ← append result (toUpperChar ch)
        toUpperLoop fuel it result
      else
        toUpperLoop fuel it (result ++ [0x53, 0x53])

/-- src/Ystring/ConvertCase.cpp:159-173 -/
def toUpper (str : Str) : Res Str := toUpperLoop (str.length + 1) str []

/-! ### include/Ystring/CaseInsensitive.hpp -/

/-- include/Ystring/CaseInsensitive.hpp:17-20: the conversion to `int32_t` is modulo 2^32. -/
def caseInsensitiveCompare (lhs rhs : Char32) : Int :=
  (toUpperChar lhs - toUpperChar rhs).toInt32.toInt

/-- include/Ystring/CaseInsensitive.hpp:22-25 -/
def caseInsensitiveEqual (lhs rhs : Char32) : Bool := toUpperChar lhs == toUpperChar rhs

/-- include/Ystring/CaseInsensitive.hpp:27-30 -/
def caseInsensitiveLess (lhs rhs : Char32) : Bool := toUpperChar lhs < toUpperChar rhs

end Ystring
