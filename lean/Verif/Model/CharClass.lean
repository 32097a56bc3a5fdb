import Verif.Model.Basic
import Verif.Model.Tables.CharClass
/-
Model of src/Ystring/CharClass.cpp, include/Ystring/CharClass.hpp and
include/Ystring/CodepointPredicates.hpp.
-/
namespace Ystring

/-- include/Ystring/CharClass.hpp:22-110 (`CharClass_t`, an `enum : uint32_t`) -/
abbrev CharClassT := UInt32

namespace CharClass
/-- include/Ystring/CharClass.hpp:29 -/
def UPPERCASE_LETTER : CharClassT := 0x00000001
/-- include/Ystring/CharClass.hpp:31 -/
def LOWERCASE_LETTER : CharClassT := 0x00000002
/-- include/Ystring/CharClass.hpp:33 -/
def TITLECASE_LETTER : CharClassT := 0x00000004
/-- include/Ystring/CharClass.hpp:35 -/
def CASED_LETTER : CharClassT := 0x00000007
/-- include/Ystring/CharClass.hpp:37 -/
def MODIFIER_LETTER : CharClassT := 0x00000008
/-- include/Ystring/CharClass.hpp:39 -/
def OTHER_LETTER : CharClassT := 0x00000010
/-- include/Ystring/CharClass.hpp:41 -/
def LETTER : CharClassT := 0x0000001F
/-- include/Ystring/CharClass.hpp:43 -/
def NONSPACING_MARK : CharClassT := 0x00000020
/-- include/Ystring/CharClass.hpp:45 -/
def SPACING_MARK : CharClassT := 0x00000040
/-- include/Ystring/CharClass.hpp:47 -/
def ENCLOSING_MARK : CharClassT := 0x00000080
/-- include/Ystring/CharClass.hpp:49 -/
def MARK : CharClassT := 0x000000E0
/-- include/Ystring/CharClass.hpp:51 -/
def DECIMAL_NUMBER : CharClassT := 0x00000100
/-- include/Ystring/CharClass.hpp:53 -/
def LETTER_NUMBER : CharClassT := 0x00000200
/-- include/Ystring/CharClass.hpp:55 -/
def OTHER_NUMBER : CharClassT := 0x00000400
/-- include/Ystring/CharClass.hpp:57 -/
def NUMBER : CharClassT := 0x00000700
/-- include/Ystring/CharClass.hpp:59 -/
def CONNECTOR_PUNCTUATION : CharClassT := 0x00000800
/-- include/Ystring/CharClass.hpp:61 -/
def DASH_PUNCTUATION : CharClassT := 0x00001000
/-- include/Ystring/CharClass.hpp:63 -/
def OPEN_PUNCTUATION : CharClassT := 0x00002000
/-- include/Ystring/CharClass.hpp:65 -/
def CLOSE_PUNCTUATION : CharClassT := 0x00004000
/-- include/Ystring/CharClass.hpp:67 -/
def INITIAL_PUNCTUATION : CharClassT := 0x00008000
/-- include/Ystring/CharClass.hpp:69 -/
def FINAL_PUNCTUATION : CharClassT := 0x00010000
/-- include/Ystring/CharClass.hpp:71 -/
def OTHER_PUNCTUATION : CharClassT := 0x00020000
/-- include/Ystring/CharClass.hpp:73 -/
def PUNCTUATION : CharClassT := 0x0003F800
/-- include/Ystring/CharClass.hpp:75 -/
def MATH_SYMBOL : CharClassT := 0x00040000
/-- include/Ystring/CharClass.hpp:77 -/
def CURRENCY_SYMBOL : CharClassT := 0x00080000
/-- include/Ystring/CharClass.hpp:79 -/
def MODIFIER_SYMBOL : CharClassT := 0x00100000
/-- include/Ystring/CharClass.hpp:81 -/
def OTHER_SYMBOL : CharClassT := 0x00200000
/-- include/Ystring/CharClass.hpp:83 -/
def SYMBOL : CharClassT := 0x003C0000
/-- include/Ystring/CharClass.hpp:85 -/
def SPACE_SEPARATOR : CharClassT := 0x00400000
/-- include/Ystring/CharClass.hpp:87 -/
def LINE_SEPARATOR : CharClassT := 0x00800000
/-- include/Ystring/CharClass.hpp:89 -/
def PARAGRAPH_SEPARATOR : CharClassT := 0x01000000
/-- include/Ystring/CharClass.hpp:91 -/
def SEPARATOR : CharClassT := 0x01C00000
/-- include/Ystring/CharClass.hpp:93 -/
def CONTROL : CharClassT := 0x02000000
/-- include/Ystring/CharClass.hpp:95 -/
def FORMAT : CharClassT := 0x04000000
/-- include/Ystring/CharClass.hpp:97 -/
def SURROGATE : CharClassT := 0x08000000
/-- include/Ystring/CharClass.hpp:99 -/
def PRIVATE_USE : CharClassT := 0x10000000
/-- include/Ystring/CharClass.hpp:101 -/
def UNASSIGNED : CharClassT := 0x20000000
/-- include/Ystring/CharClass.hpp:103 -/
def OTHER : CharClassT := 0x3E000000
end CharClass

/-- src/Ystring/CharClass.cpp:42-58 (`unsigned` is 32 bits wide and wraps) -/
def decodeCharClass (codePoint : Char32) (encoded : UInt32) : UInt32 :=
  let lower := encoded &&& 0x1F
  let upper := (encoded >>> 5) &&& 0x3F
  if upper = 0 then lower - 1
  else
    let endCodePoint := encoded >>> 11
    if upper = 0x20 then
      if (codePoint ^^^ endCodePoint) &&& 1 ≠ 0 then 1 - (lower - 1)
      else lower - 1
    else if codePoint = endCodePoint then lower - 1
    else upper - 1

/-- src/Ystring/CharClass.cpp:61-73: the shift count of the result, i.e. `get_char_class` returns
`1 << charClassShift`; line 71 (`UNASSIGNED`, which is `1 << 29`) is shift count 29.
`charClassShift_lt` (Proofs/CharClass) shows that the shift count is always below 32, so that the shift is
defined; the two array accesses are within bounds (index below 128, index not the end). The tables are parameters, so
that the table generator can be modelled too (Model/Generate). -/
def charClassShiftIn (ascii complete : List Nat) (codePoint : Char32) : UInt32 :=
  if codePoint < 128 then UInt32.ofNat (ascii.getD codePoint.toNat 0)
  else
    let key : UInt32 := codePoint <<< 11
    let it := lowerBound (fun i => complete.getD i 0 < key.toNat) complete.length
    if it = complete.length then 29
    else decodeCharClass codePoint (UInt32.ofNat (complete.getD it 0))

/-- src/Ystring/CharClass.cpp:61-73 with the tables of src/Ystring/CharClassTables.hpp -/
def charClassShift (codePoint : Char32) : UInt32 :=
  charClassShiftIn ASCII_CHAR_CLASSES COMPLETE_CHAR_CLASSES codePoint

/-- src/Ystring/CharClass.cpp:61-73 -/
def getCharClass (codePoint : Char32) : CharClassT := 1 <<< charClassShift codePoint

/-! ### include/Ystring/CodepointPredicates.hpp -/

/-- include/Ystring/CodepointPredicates.hpp:22-25 -/
def isAlphaNumeric (c : Char32) : Bool := getCharClass c &&& (CharClass.LETTER ||| CharClass.NUMBER) ≠ 0
/-- include/Ystring/CodepointPredicates.hpp:31-34 -/
def isCasedLetter (c : Char32) : Bool := getCharClass c &&& CharClass.CASED_LETTER ≠ 0
/-- include/Ystring/CodepointPredicates.hpp:39-42 -/
def isControl (c : Char32) : Bool := getCharClass c &&& CharClass.CONTROL ≠ 0
/-- include/Ystring/CodepointPredicates.hpp:47-50 -/
def isFormat (c : Char32) : Bool := getCharClass c &&& CharClass.FORMAT ≠ 0
/-- include/Ystring/CodepointPredicates.hpp:56-63 -/
def isGraphical (c : Char32) : Bool :=
  getCharClass c &&& (CharClass.LETTER ||| CharClass.MARK ||| CharClass.NUMBER ||| CharClass.PUNCTUATION |||
    CharClass.SYMBOL) ≠ 0
/-- include/Ystring/CodepointPredicates.hpp:69-74 -/
def isHexDigit (c : Char32) : Bool :=
  (0x30 ≤ c ∧ c ≤ 0x39) ∨ (0x41 ≤ c ∧ c ≤ 0x46) ∨ (0x61 ≤ c ∧ c ≤ 0x66)
/-- include/Ystring/CodepointPredicates.hpp:79-82 -/
def isLetter (c : Char32) : Bool := getCharClass c &&& CharClass.LETTER ≠ 0
/-- include/Ystring/CodepointPredicates.hpp:87-90 -/
def isLower (c : Char32) : Bool := getCharClass c &&& CharClass.LOWERCASE_LETTER ≠ 0
/-- include/Ystring/CodepointPredicates.hpp:95-98 -/
def isMark (c : Char32) : Bool := getCharClass c &&& CharClass.MARK ≠ 0
/-- include/Ystring/CodepointPredicates.hpp:107-112 -/
def isNewline (c : Char32) : Bool :=
  c = 0x0A ∨ c = 0x0B ∨ c = 0x0C ∨ c = 0x0D ∨ c = NEXT_LINE ∨ c = LINE_SEPARATOR ∨ c = PARAGRAPH_SEPARATOR
/-- include/Ystring/CodepointPredicates.hpp:120-123 -/
def isNumber (c : Char32) : Bool := getCharClass c &&& CharClass.NUMBER ≠ 0
/-- include/Ystring/CodepointPredicates.hpp:128-131 -/
def isPunctuation (c : Char32) : Bool := getCharClass c &&& CharClass.PUNCTUATION ≠ 0
/-- include/Ystring/CodepointPredicates.hpp:136-139 -/
def isSeparator (c : Char32) : Bool := getCharClass c &&& CharClass.SEPARATOR ≠ 0
/-- include/Ystring/CodepointPredicates.hpp:145-148 -/
def isSurrogate (c : Char32) : Bool := getCharClass c &&& CharClass.SURROGATE ≠ 0
/-- include/Ystring/CodepointPredicates.hpp:153-156 -/
def isSymbol (c : Char32) : Bool := getCharClass c &&& CharClass.SYMBOL ≠ 0
/-- include/Ystring/CodepointPredicates.hpp:161-164 -/
def isUpper (c : Char32) : Bool := getCharClass c &&& CharClass.UPPERCASE_LETTER ≠ 0
/-- include/Ystring/CodepointPredicates.hpp:171-179 -/
def isVisible (c : Char32) : Bool :=
  getCharClass c &&& (CharClass.LETTER ||| CharClass.MARK ||| CharClass.NUMBER ||| CharClass.PUNCTUATION |||
    CharClass.SYMBOL ||| CharClass.SEPARATOR) ≠ 0
/-- include/Ystring/CodepointPredicates.hpp:187-191 -/
def isWhitespace (c : Char32) : Bool :=
  c = 0x09 ∨ c = 0x20 ∨ isNewline c ∨ (c > 128 ∧ getCharClass c &&& CharClass.SEPARATOR ≠ 0)

end Ystring
