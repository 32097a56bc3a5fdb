import Verif.Model.Utf8
/-
Model of src/Ystring/Unescape.cpp.

Simplifications: `start + k` (k ≤ 10) is computed without wrap-around; `start` is an index into an existing
object, which is at most PTRDIFF_MAX bytes long. Exception messages are not modelled.
-/
namespace Ystring

/-- src/Ystring/Unescape.cpp:21-25 -/
def isHexDigitByte (c : UInt8) : Bool :=
  (0x30 ≤ c && c ≤ 0x39) || (0x41 ≤ (c &&& 0xDF) && (c &&& 0xDF) ≤ 0x46)

/-- src/Ystring/Unescape.cpp:53 (the negated condition) and 144 -/
def isOctDigit (c : UInt8) : Bool := 0x30 ≤ c && c ≤ 0x37

/-- src/Ystring/Unescape.cpp:27-37: the first index in `[start, min(size, end))` whose byte satisfies
`pred`; `end` (not clamped to the size) if there is none. The loop is written with `std::find_if`. -/
def findFirstByteWhere (str : Str) (start end_ : Nat) (pred : UInt8 → Bool) : Nat :=
  let range := (str.drop start).take (min str.length end_ - start)
  let k := stdFindIf pred range
  if k < range.length then start + k else end_

/-- src/Ystring/Unescape.cpp:39-46 -/
def findEndOfHexSequence (str : Str) (start end_ : Nat) : Nat :=
  findFirstByteWhere str start end_ (fun c => !isHexDigitByte c)

/-- src/Ystring/Unescape.cpp:48-55 -/
def findEndOfOctSequence (str : Str) (start end_ : Nat) : Nat :=
  findFirstByteWhere str start end_ (fun c => !isOctDigit c)

/-- The value of a digit for `std::from_chars`: 0-9, then letters of either case; 36 for any other byte.
Part of the C++ library, used in src/Ystring/Unescape.cpp:60 (see `fromChars`). -/
def digitValue (c : UInt8) : Nat :=
  if 0x30 ≤ c ∧ c ≤ 0x39 then c.toNat - 0x30
  else if 0x41 ≤ c ∧ c ≤ 0x5A then c.toNat - 0x41 + 10
  else if 0x61 ≤ c ∧ c ≤ 0x7A then c.toNat - 0x61 + 10
  else 36

/-- `std::from_chars(first, last, uint32_t& value, base)`: the number of characters that match, and the
value assigned; `none` when `value` is left untouched (no digit, or a result that does not fit). Used in src/Ystring/Unescape.cpp:60, 74, 247 and 285. -/
def fromChars (base : Nat) (s : Str) : Nat × Option UInt32 :=
  let digits := s.takeWhile (fun c => digitValue c < base)
  let v := digits.foldl (fun a c => a * base + digitValue c) 0
  (digits.length, if digits.length = 0 ∨ 4294967296 ≤ v then none else some (UInt32.ofNat v))

/-- src/Ystring/Unescape.cpp:57-69 and 71-83, with `skip` 2 or 1. Reading `value` when `from_chars` has
not assigned it is undefined (line 59, 73: it is not initialised). -/
def parseEscaped (skip base : Nat) (str : Str) : Res Char32 :=
  if str.length < skip then .error .ub
  else
    match fromChars base (str.drop skip) with
    | (0, _) => .error .ystring
    | (_ + 1, none) => .error .ub
    | (_ + 1, some v) => .ok v

/-- src/Ystring/Unescape.cpp:57-69 -/
def parseEscapedHexChar (str : Str) : Res Char32 := parseEscaped 2 16 str

/-- src/Ystring/Unescape.cpp:71-83 -/
def parseEscapedOctChar (str : Str) : Res Char32 := parseEscaped 1 8 str

/-- src/Ystring/Unescape.cpp:85-88 -/
def combineSurrogatePair (ch1 ch2 : Char32) : Char32 :=
  (((ch1 &&& 0x3FF) <<< 10) ||| (ch2 &&& 0x3FF)) + 0x10000

/-- src/Ystring/Unescape.cpp:159-165 -/
def checkLength (start end_ minLength : Nat) : Res Subrange :=
  if end_ - start < minLength then .error .ystring else .ok ⟨start, end_ - start⟩

/-- src/Ystring/Unescape.cpp:114-166. `str.begin() + offset` with `offset > str.size()` is undefined. -/
def findFirstEscapedChar (str : Str) (offset : Nat := 0) : Res Subrange :=
  if offset > str.length then .error .ub
  else
    let start := offset + stdFindIf (· == 0x5C) (str.drop offset)
    if start = str.length then .ok (Subrange.atOffset str.length)
    else
      match str[start + 1]? with
      | none => .error .ystring                                         -- lines 120-124
      | some c =>
        if c = 0x58 ∨ c = 0x78 then
          checkLength start (findEndOfHexSequence str (start + 2) str.length) 4
        else if c = 0x75 then
          checkLength start (findEndOfHexSequence str (start + 2) (start + 6)) 6
        else if c = 0x55 then
          checkLength start (findEndOfHexSequence str (start + 2) (start + 10)) 10
        else if isOctDigit c then
          checkLength start (findEndOfOctSequence str (start + 1) (start + 4)) 2
        else if c &&& 0x80 = 0 then .ok ⟨start, 2⟩
        else .error .ystring

/-- src/Ystring/Unescape.cpp:168-171 -/
def hasEscapedChars (str : Str) : Res Bool := do
  let sub ← findFirstEscapedChar str
  .ok sub.nonempty

/-- `str[i]`: undefined outside the string. As in src/Ystring/Unescape.cpp:103 and 189. -/
def charAt (str : Str) (i : Nat) : Res UInt8 :=
  match str[i]? with
  | none => .error .ub
  | some c => .ok c

/-- src/Ystring/Unescape.cpp:90-111 -/
def parseUtf16 (str : Str) (sub : Subrange) : Res (Char32 × Subrange) := do
  let ch ← parseEscapedHexChar (← substr str sub.offset sub.length)
  if ch < 0xD800 ∨ 0xDBFF < ch then .ok (ch, sub)
  else
    let str2 ← substr str sub.stop 6
    let sub2 ← findFirstEscapedChar str2
    if !sub2.nonempty ∨ sub2.offset ≠ 0 ∨ sub2.length ≠ 6 then .ok (ch, sub)
    else
      let c ← charAt str (sub.stop + 1)
      if c ≠ 0x75 then .ok (ch, sub)
      else
        let ch2 ← parseEscapedHexChar str2
        if ch2 < 0xDC00 ∨ 0xDFFF < ch2 then .ok (ch, sub)
        else .ok (combineSurrogatePair ch ch2, ⟨sub.offset, 12⟩)

/-- Assign the bytes `bs` to `buf[i], buf[i+1], ...`: undefined outside the buffer. As in
src/Ystring/Unescape.cpp:182 and 227. -/
def writeAt (buf : Str) (i : Nat) (bs : Str) : Res Str :=
  if i + bs.length ≤ buf.length then .ok (buf.take i ++ bs ++ buf.drop (i + bs.length))
  else .error .ub

/-- `std::copy(str + first, str + last, str + dst)` inside one buffer: undefined if a range leaves the buffer
or `dst` lies in `[first, last)`. src/Ystring/Unescape.cpp:182. -/
def copyWithin (buf : Str) (first last dst : Nat) : Res Str :=
  if first ≤ last ∧ last ≤ buf.length ∧ ¬(first ≤ dst ∧ dst < last) then
    writeAt buf dst ((buf.drop first).take (last - first))
  else .error .ub

/-- src/Ystring/Unescape.cpp:188-226: the character denoted by the sequence `sub` of `sv`, and the new
value of `sub`. -/
def decodeEscaped (sv : Str) (sub : Subrange) : Res (Char32 × Subrange) := do
  let c ← charAt sv (sub.start + 1)
  if c = 0x78 ∨ c = 0x58 ∨ c = 0x55 then
    let ch ← parseEscapedHexChar (← substr sv sub.start sub.length)
    .ok (ch, sub)
  else if c = 0x75 then parseUtf16 sv sub
  else if c = 0x61 then .ok (0x07, sub)
  else if c = 0x62 then .ok (0x08, sub)
  else if c = 0x66 then .ok (0x0C, sub)
  else if c = 0x6E then .ok (0x0A, sub)
  else if c = 0x72 then .ok (0x0D, sub)
  else if c = 0x74 then .ok (0x09, sub)
  else if c = 0x76 then .ok (0x0B, sub)
  else if isOctDigit c then
    let ch ← parseEscapedOctChar (← substr sv sub.start sub.length)
    .ok (ch, sub)
  else .ok (c.toUInt32, sub)                                            -- `c` is ASCII here

/-- src/Ystring/Unescape.cpp:181-182 -/
def copyIfMoved (buf : Str) (frm last to : Nat) : Res Str :=
  if frm ≠ to then copyWithin buf frm last to else .ok buf

/-- src/Ystring/Unescape.cpp:178-229: the loop. `buf` is the buffer `str`, which `sv` views. -/
def unescapeLoop : (fuel : Nat) → (buf : Str) → (frm to : Nat) → Res (Str × Nat)
  | 0, _, _, _ => .error .diverge
  | fuel + 1, buf, frm, to => do
    let sub ← findFirstEscapedChar buf frm
    let buf ← copyIfMoved buf frm sub.start to
    let to := sizeAdd to (sizeSub sub.start frm)
    if !sub.nonempty then .ok (buf, to)
    else
      let (ch, sub) ← decodeEscaped buf sub
      let buf ← writeAt buf to (encodeUtf8 ch)
      unescapeLoop fuel buf sub.stop (sizeAdd to (encodeUtf8Ret ch))

/-- src/Ystring/Unescape.cpp:173-231: the buffer afterwards and the return value. -/
def unescapeBuf (str : Str) : Res (Str × Nat) := unescapeLoop (str.length + 1) str 0 0

/-- `std::string::resize`: src/Ystring/Unescape.cpp:235. -/
def resize (s : Str) (n : Nat) : Str := s.take n ++ List.replicate (n - s.length) 0

/-- src/Ystring/Unescape.cpp:233-237 -/
def unescape (str : Str) : Res Str := do
  let (buf, n) ← unescapeBuf str
  .ok (resize buf n)

/-- src/Ystring/Unescape.cpp:239-259: the value and the new value of `str`; on an exception `str` is
unchanged. -/
def extractHexChar (str : Str) (minLength maxLength : Nat) : Res (Char32 × Str) :=
  let maxLength := if maxLength > str.length then str.length else maxLength
  match fromChars 16 (str.take maxLength) with
  | (length, value) =>
    if length < minLength then .error .ystring
    else
      match value with
      | none => .error .ub                                              -- `value` not initialised
      | some v => .ok (v, str.drop length)

/-- src/Ystring/Unescape.cpp:261-279. On an exception the value of `str` is not modelled: the only
caller restores it (line 361). -/
def extractUtf16Char (str : Str) : Res (Char32 × Str) := do
  let (ch, str) ← extractHexChar str 4 4
  if ch < 0xD800 ∨ 0xDBFF < ch then .ok (ch, str)
  else
    let str2 ← substr str 0 6
    if str2.length < 6 then .ok (ch, str)
    else
      let c0 ← charAt str2 0
      let c1 ← charAt str2 1
      if c0 ≠ 0x5C ∨ c1 ≠ 0x75 then .ok (ch, str)
      else
        let (ch2, _) ← extractHexChar (str2.drop 2) 4 4
        if ch2 < 0xDC00 ∨ 0xDFFF < ch2 then .ok (ch, str)
        else .ok (combineSurrogatePair ch ch2, str.drop 6)

/-- src/Ystring/Unescape.cpp:281-296 -/
def extractOctChar (str : Str) : Res (Char32 × Str) :=
  match fromChars 8 (str.take (min str.length 3)) with
  | (length, value) =>
    if length = 0 then .error .ystring
    else
      match value with
      | none => .error .ub
      | some v => .ok (v, str.drop length)

/-- src/Ystring/Unescape.cpp:301-302 -/
def skipEscapedNewlines : Str → Str
  | 0x5C :: 0x0A :: t => skipEscapedNewlines t
  | s => s

/-- src/Ystring/Unescape.cpp:329-357: the `switch` of `unescape_next` for `str = '\\', type, rest`. -/
def unescapeSwitch (type : UInt8) (rest : Str) : Res (Option Char32 × Str) :=
  if type = 0x61 then .ok (some 0x07, rest)
  else if type = 0x62 then .ok (some 0x08, rest)
  else if type = 0x66 then .ok (some 0x0C, rest)
  else if type = 0x6E then .ok (some 0x0A, rest)
  else if type = 0x72 then .ok (some 0x0D, rest)
  else if type = 0x74 then .ok (some 0x09, rest)
  else if type = 0x76 then .ok (some 0x0B, rest)
  else if type = 0x78 ∨ type = 0x58 then do
    let (ch, str) ← extractHexChar rest 1 8
    .ok (some ch, str)
  else if type = 0x55 then do
    let (ch, str) ← extractHexChar rest 8 8
    .ok (some ch, str)
  else if type = 0x75 then do
    let (ch, str) ← extractUtf16Char rest
    .ok (some ch, str)
  else if isOctDigit type then do
    let (ch, str) ← extractOctChar (type :: rest)
    .ok (some ch, str)
  else popUtf8Codepoint (type :: rest)

/-- Everything a caller of `unescape_next` can observe: the result or exception, the value of `str`
afterwards, and the value stored through `did_unescape` (`none`: nothing was stored).
src/Ystring/Unescape.cpp:298-299. -/
structure NextResult where
  result : Res (Option Char32)
  str : Str
  didUnescape : Option Bool
  deriving DecidableEq

/-- src/Ystring/Unescape.cpp:298-364, with `did_unescape` not null (a null pointer only drops the
`didUnescape` component). -/
def unescapeNext (str : Str) : NextResult :=
  match skipEscapedNewlines str with
  | [] => ⟨.ok none, [], some false⟩
  | b :: t =>
    if b ≠ 0x5C then
      match popUtf8Codepoint (b :: t) with
      | .ok (r, rest) => ⟨.ok r, rest, some false⟩
      | .error e => ⟨.error e, b :: t, some false⟩
    else
      match t with
      | [] => ⟨.error .ystring, b :: t, none⟩
      | type :: rest =>
        match unescapeSwitch type rest with
        | .ok (r, rest') => ⟨.ok r, rest', some true⟩
        | .error e => ⟨.error e, b :: t, some true⟩                     -- the `catch` clause

end Ystring
