import Verif.Model.Unescape
import Verif.Model.Print
import Verif.Model.Algorithms
/-
The texts of the exceptions: the functions of src/Ystring/Unescape.cpp again, and `append` and `replace_codepoint`, with what
the library puts into `what()` behind the name of the source file and the line (include/Ystring/YstringException.hpp:28-35 puts
"file:line: " in front of the texts below).

Simplification: the functions that throw nothing themselves are those of the other modules (`lift`).
-/
namespace Ystring
namespace Msg

/-- Abnormal outcomes with the text of the exception: include/Ystring/YstringException.hpp:20-35. -/
inductive MErr where
  /-- `YstringException`, with the text behind "file:line: " -/
  | thrown (text : Str)
  /-- every other abnormal outcome -/
  | other (e : Err)
  deriving DecidableEq

/-- Outcome of a call, with the text of the exception (include/Ystring/YstringException.hpp:20-35). -/
abbrev MRes := Except MErr

instance {α : Type} [DecidableEq α] : DecidableEq (MRes α) := fun a b =>
  match a, b with
  | .ok x, .ok y => if h : x = y then isTrue (by rw [h]) else isFalse (by simpa using h)
  | .error x, .error y => if h : x = y then isTrue (by rw [h]) else isFalse (by simpa using h)
  | .ok _, .error _ => isFalse (by simp)
  | .error _, .ok _ => isFalse (by simp)

/-- The outcome of a call that throws `text` if it throws a `YstringException` at all
(include/Ystring/YstringException.hpp:34-35). -/
def lift {α : Type} (text : Str) : Res α → MRes α
  | .ok x => .ok x
  | .error .ystring => .error (.thrown text)
  | .error e => .error (.other e)

/-- src/Ystring/Unescape.cpp:57-69 and 71-83 -/
def parseEscaped (skip base : Nat) (str : Str) : MRes Char32 :=
  lift (ascii "Cannot parse escaped char: " ++ str) (Ystring.parseEscaped skip base str)

/-- src/Ystring/Unescape.cpp:159-163 -/
def invalidAt (start : Nat) : MErr := .thrown (ascii "Invalid escape sequence at offset " ++ printSize start)

/-- src/Ystring/Unescape.cpp:159-165 -/
def checkLength (start end_ minLength : Nat) : MRes Subrange :=
  if end_ - start < minLength then .error (invalidAt start) else .ok ⟨start, end_ - start⟩

/-- src/Ystring/Unescape.cpp:114-166 -/
def findFirstEscapedChar (str : Str) (offset : Nat := 0) : MRes Subrange :=
  if offset > str.length then .error (.other .ub)
  else
    let start := offset + stdFindIf (· == 0x5C) (str.drop offset)
    if start = str.length then .ok (Subrange.atOffset str.length)
    else
      match str[start + 1]? with
      | none => .error (.thrown (ascii "Incomplete escape sequence at offset " ++ printSize start))
      | some c =>
        if c = 0x58 ∨ c = 0x78 then
          checkLength start (findEndOfHexSequence str (start + 2) str.length) 4
        else if c = 0x75 then
          checkLength start (findEndOfHexSequence str (start + 2) (start + 6)) 6
        else if c = 0x55 then
          checkLength start (findEndOfHexSequence str (start + 2) (start + 10)) 10
        else if isOctDigit c then
          checkLength start (findEndOfOctSequence str (start + 1) (start + 4)) 2
        else if c &&& 0x80 = 0 then .ok ⟨start, 2⟩
        else .error (invalidAt start)

/-- src/Ystring/Unescape.cpp:168-171 -/
def hasEscapedChars (str : Str) : MRes Bool := do
  let sub ← findFirstEscapedChar str
  .ok sub.nonempty

/-- src/Ystring/Unescape.cpp:90-111 -/
def parseUtf16 (str : Str) (sub : Subrange) : MRes (Char32 × Subrange) := do
  let ch ← parseEscaped 2 16 (← lift [] (substr str sub.offset sub.length))
  if ch < 0xD800 ∨ 0xDBFF < ch then .ok (ch, sub)
  else
    let str2 ← lift [] (substr str sub.stop 6)
    let sub2 ← findFirstEscapedChar str2
    if !sub2.nonempty ∨ sub2.offset ≠ 0 ∨ sub2.length ≠ 6 then .ok (ch, sub)
    else
      let c ← lift [] (charAt str (sub.stop + 1))
      if c ≠ 0x75 then .ok (ch, sub)
      else
        let ch2 ← parseEscaped 2 16 str2
        if ch2 < 0xDC00 ∨ 0xDFFF < ch2 then .ok (ch, sub)
        else .ok (combineSurrogatePair ch ch2, ⟨sub.offset, 12⟩)

/-- src/Ystring/Unescape.cpp:188-226 -/
def decodeEscaped (sv : Str) (sub : Subrange) : MRes (Char32 × Subrange) := do
  let c ← lift [] (charAt sv (sub.start + 1))
  if c = 0x78 ∨ c = 0x58 ∨ c = 0x55 then
    let ch ← parseEscaped 2 16 (← lift [] (substr sv sub.start sub.length))
    .ok (ch, sub)
  else if c = 0x75 then parseUtf16 sv sub
  else if c = 0x61 then .ok (0x07, sub)
  else if c = 0x62 then .ok (0x08, sub)
  else if c = 0x66 then .ok (0x0C, sub)
  else if c = 0x6E then .ok (0x0A, sub)
  else if c = 0x72 then .ok (0x0D, sub)
  else if c = 0x74 then .ok (0x09, sub)
  else if c = 0x76 then .ok (0x0B, sub)
  else if isOctDigit c then
    let ch ← parseEscaped 1 8 (← lift [] (substr sv sub.start sub.length))
    .ok (ch, sub)
  else .ok (c.toUInt32, sub)

/-- src/Ystring/Unescape.cpp:178-229 -/
def unescapeLoop : (fuel : Nat) → (buf : Str) → (frm to : Nat) → MRes (Str × Nat)
  | 0, _, _, _ => .error (.other .diverge)
  | fuel + 1, buf, frm, to => do
    let sub ← findFirstEscapedChar buf frm
    let buf ← lift [] (copyIfMoved buf frm sub.start to)
    let to := sizeAdd to (sizeSub sub.start frm)
    if !sub.nonempty then .ok (buf, to)
    else
      let (ch, sub) ← decodeEscaped buf sub
      let buf ← lift [] (writeAt buf to (encodeUtf8 ch))
      unescapeLoop fuel buf sub.stop (sizeAdd to (encodeUtf8Ret ch))

/-- src/Ystring/Unescape.cpp:173-237 -/
def unescape (str : Str) : MRes Str := do
  let (buf, n) ← unescapeLoop (str.length + 1) str 0 0
  .ok (resize buf n)

/-- src/Ystring/Unescape.cpp:252-254 -/
def tooFew (minLength length : Nat) : Str :=
  ascii "Too few hex digits in escape sequence. Expected at least " ++ printSize minLength ++ ascii ", got " ++
    printSize length

/-- src/Ystring/Unescape.cpp:239-259 -/
def extractHexChar (str : Str) (minLength maxLength : Nat) : MRes (Char32 × Str) :=
  let maxLength := if maxLength > str.length then str.length else maxLength
  match fromChars 16 (str.take maxLength) with
  | (length, value) =>
    if length < minLength then .error (.thrown (tooFew minLength length))
    else
      match value with
      | none => .error (.other .ub)
      | some v => .ok (v, str.drop length)

/-- src/Ystring/Unescape.cpp:261-279 -/
def extractUtf16Char (str : Str) : MRes (Char32 × Str) := do
  let (ch, str) ← extractHexChar str 4 4
  if ch < 0xD800 ∨ 0xDBFF < ch then .ok (ch, str)
  else
    let str2 ← lift [] (substr str 0 6)
    if str2.length < 6 then .ok (ch, str)
    else
      let c0 ← lift [] (charAt str2 0)
      let c1 ← lift [] (charAt str2 1)
      if c0 ≠ 0x5C ∨ c1 ≠ 0x75 then .ok (ch, str)
      else
        let (ch2, _) ← extractHexChar (str2.drop 2) 4 4
        if ch2 < 0xDC00 ∨ 0xDFFF < ch2 then .ok (ch, str)
        else .ok (combineSurrogatePair ch ch2, str.drop 6)

/-- src/Ystring/Unescape.cpp:281-296 -/
def extractOctChar (str : Str) : MRes (Char32 × Str) :=
  lift (ascii "Invalid octal escape sequence.") (Ystring.extractOctChar str)

/-- include/Ystring/DecodeUtf8.hpp:213-222, with the text of lines 188-189. -/
def popUtf8Codepoint (str : Str) : MRes (Option Char32 × Str) :=
  lift (ascii "Invalid UTF-8 string.") (Ystring.popUtf8Codepoint str)

/-- src/Ystring/Unescape.cpp:329-357 -/
def unescapeSwitch (type : UInt8) (rest : Str) : MRes (Option Char32 × Str) :=
  if type = 0x61 then .ok (some 0x07, rest)
  else if type = 0x62 then .ok (some 0x08, rest)
  else if type = 0x66 then .ok (some 0x0C, rest)
  else if type = 0x6E then .ok (some 0x0A, rest)
  else if type = 0x72 then .ok (some 0x0D, rest)
  else if type = 0x74 then .ok (some 0x09, rest)
  else if type = 0x76 then .ok (some 0x0B, rest)
  else if type = 0x78 ∨ type = 0x58 then do
    let (ch, str) ← extractHexChar rest 1 8
    .ok (some ch, str)
  else if type = 0x55 then do
    let (ch, str) ← extractHexChar rest 8 8
    .ok (some ch, str)
  else if type = 0x75 then do
    let (ch, str) ← extractUtf16Char rest
    .ok (some ch, str)
  else if isOctDigit type then do
    let (ch, str) ← extractOctChar (type :: rest)
    .ok (some ch, str)
  else popUtf8Codepoint (type :: rest)

/-- src/Ystring/Unescape.cpp:298-364: the result or exception of `unescape_next`. -/
def unescapeNext (str : Str) : MRes (Option Char32) :=
  match skipEscapedNewlines str with
  | [] => .ok none
  | b :: t =>
    if b ≠ 0x5C then (popUtf8Codepoint (b :: t)).map (·.1)
    else
      match t with
      | [] => .error (.thrown (ascii "Incomplete escape sequence."))
      | type :: rest => (unescapeSwitch type rest).map (·.1)

/-- src/Ystring/Algorithms.cpp:31-43: `append` of a code point to a string. -/
def append (str : Str) (chr : Char32) : MRes Str :=
  lift (ascii "Invalid code point: " ++ printSize chr.toNat) (Ystring.append str chr)

/-- src/Ystring/Algorithms.cpp:407-423. The text of exceptions thrown by `replace` is that of
include/Ystring/DecodeUtf8.hpp:189. -/
def replaceCodepoint (str : Str) («from» to : Char32) (maxReplacements : Int := PTRDIFF_MAX) : MRes Str :=
  let (f, fSize) := encodeUtf8Buf «from» 4
  let (t, tSize) := encodeUtf8Buf to 4
  if fSize = 0 then .error (.thrown (ascii "Invalid from-code point: " ++ printSize from.toNat))
  else if tSize = 0 then .error (.thrown (ascii "Invalid to-code point: " ++ printSize to.toNat))
  else lift (ascii "Invalid UTF-8 string.") (replace str f t maxReplacements)

end Msg
end Ystring
