import Verif.Model.Unescape
import Verif.Model.Escape
/-
`char` may be a signed or an unsigned type. In the other models a `char` is an unsigned byte and expressions are computed with
8 bits. Here the functions that compute with `char`s are modelled once more, with the conversions of C++: `sg` says
whether `char` is signed, a string consists of the object representations (bytes) of its `char`s, a `char` in an
expression is promoted to `int` (`promote`), `& 0x80u` and the like convert that to a 32-bit unsigned number (`toUnsigned`), and
`uint8_t(x)` reduces modulo 256 (`toU8`). Comparing two `char`s, or two strings, needs no model: equal values
have equal bytes and vice versa. Functions without such expressions use the ones here as they use those of the other models.
-/
namespace Ystring.Sgn

/-- The value of the `char` with the object representation `b` after integral promotion. As in src/Ystring/Unescape.cpp:23. -/
def promote (sg : Bool) (b : UInt8) : Int := if sg ∧ 0x80 ≤ b then (b.toNat : Int) - 256 else b.toNat

/-- Conversion to `uint8_t`, as in include/Ystring/DecodeUtf8.hpp:33. -/
def toU8 (i : Int) : UInt8 := UInt8.ofNat (i % 256).toNat

/-- Conversion to `unsigned` or `char32_t`, as in src/Ystring/Unescape.cpp:24 and 224. -/
def toUnsigned (i : Int) : UInt32 := UInt32.ofNat (i % 4294967296).toNat

/-- `uint8_t(*it)` promoted and converted to `unsigned`, the left operand of `&` in include/Ystring/DecodeUtf8.hpp:33. -/
def rd (sg : Bool) (b : UInt8) : UInt32 := toUnsigned (toU8 (promote sg b)).toNat

/-! ### DecodeUtf8.hpp -/

/-- include/Ystring/DecodeUtf8.hpp:63-77, see `Ystring.decodeNextLoop`. -/
def decodeNextLoop (sg : Bool) : (n i : Nat) → (result : Char32) → (passed it : Str) → Res (Char32 × Str)
  | 0, _, result, _, it => .ok (result, it)
  | _ + 1, _, _, _, [] => .error .ub
  | n + 1, i, result, passed, c :: it =>
    let result := result <<< 6
    if rd sg c &&& 0xC0 = 0x80 then
      decodeNextLoop sg n (i + 1) (result ||| (rd sg c &&& 0x3F)) (c :: passed) it
    else do
      let it ← stepBack (i + 1) passed (c :: it)
      .ok (INVALID_CHAR, it)

/-- include/Ystring/DecodeUtf8.hpp:25-80 -/
def decodeNext (sg : Bool) : Str → Res (Char32 × Str)
  | [] => .ok (INVALID_CHAR, [])
  | b :: it =>
    if rd sg b &&& 0x80 = 0 then .ok (rd sg b, it)
    else
      let cont (result : Char32) (n : Nat) : Res (Char32 × Str) :=
        if n > it.length then do
          let it ← stepBack 1 [b] it
          .ok (INVALID_CHAR, it)
        else decodeNextLoop sg n 0 result [b] it
      if rd sg b &&& 0xE0 = 0xC0 then cont (rd sg b &&& 0x1F) 1
      else if rd sg b &&& 0xF0 = 0xE0 then cont (rd sg b &&& 0x0F) 2
      else if rd sg b &&& 0xF8 = 0xF0 then cont (rd sg b &&& 0x07) 3
      else .ok (INVALID_CHAR, b :: it)

/-- include/Ystring/DecodeUtf8.hpp:95-118, see `Ystring.decodePrevLoop`. -/
def decodePrevLoop (sg : Bool) : (n : Nat) → (result : Char32) → (cur : UInt8) → (passed rest : Str) → Res (Char32 × Str)
  | n, result, cur, passed, rest =>
    if rd sg cur &&& 0xC0 = 0x80 then
      match rest with
      | [] => do
        let it ← stepBack (n + 1) passed []
        .ok (INVALID_CHAR, it)
      | b :: rest' =>
        if n * 6 ≥ 32 then .error .ub
        else
          decodePrevLoop sg (n + 1) (result ||| ((rd sg cur &&& 0x3F) <<< (UInt32.ofNat (n * 6)))) b (b :: passed) rest'
    else if rd sg cur &&& 0xE0 = 0xC0 ∧ n = 1 then .ok (result ||| ((rd sg cur &&& 0x1F) <<< 6), rest)
    else if rd sg cur &&& 0xF0 = 0xE0 ∧ n = 2 then .ok (result ||| ((rd sg cur &&& 0x0F) <<< 12), rest)
    else if rd sg cur &&& 0xF8 = 0xF0 ∧ n = 3 then .ok (result ||| ((rd sg cur &&& 0x07) <<< 18), rest)
    else do
      let it ← stepBack (n + 1) passed rest
      .ok (INVALID_CHAR, it)

/-- include/Ystring/DecodeUtf8.hpp:82-119 -/
def decodePrev (sg : Bool) : Str → Res (Char32 × Str)
  | [] => .ok (INVALID_CHAR, [])
  | b :: rest =>
    if rd sg b &&& 0x80 = 0 then .ok (rd sg b, rest)
    else decodePrevLoop sg 0 0 b [b] rest

/-- include/Ystring/DecodeUtf8.hpp:142-143 -/
def skipCont (sg : Bool) : (n : Nat) → Str → Str
  | _, [] => []
  | 0, it => it
  | n + 1, b :: it => if rd sg b &&& 0xC0 = 0x80 then skipCont sg n it else b :: it

/-- include/Ystring/DecodeUtf8.hpp:121-146 -/
def skipNext (sg : Bool) : Str → Bool × Str
  | [] => (false, [])
  | c :: it =>
    if rd sg c &&& 0x80 = 0 then (true, it)
    else
      let n :=
        if rd sg c &&& 0xE0 = 0xC0 then 1
        else if rd sg c &&& 0xF0 = 0xE0 then 2
        else if rd sg c &&& 0xF8 = 0xF0 then 3
        else 4294967295
      (true, skipCont sg n it)

/-- include/Ystring/DecodeUtf8.hpp:155-179 -/
def skipPrevLoop (sg : Bool) : (n : Nat) → (cur : UInt8) → (passed rest : Str) → Res (Bool × Str)
  | n, cur, passed, rest =>
    if rd sg cur &&& 0xC0 = 0x80 then
      match rest with
      | [] => .ok (true, [])
      | b :: rest' => skipPrevLoop sg ((n + 1) % 4294967296) b (b :: passed) rest'
    else
      let m :=
        if rd sg cur &&& 0x80 = 0 then 1
        else if rd sg cur &&& 0xE0 = 0xC0 then 2
        else if rd sg cur &&& 0xF0 = 0xE0 then 3
        else if rd sg cur &&& 0xF8 = 0xF0 then 4
        else 4294967295
      if m ≥ (n + 1) % 4294967296 then .ok (true, rest)
      else do
        let it ← stepBack m passed rest
        .ok (true, it)

/-- include/Ystring/DecodeUtf8.hpp:148-180 -/
def skipPrev (sg : Bool) : Str → Res (Bool × Str)
  | [] => .ok (false, [])
  | b :: rest => skipPrevLoop sg 0 b [b] rest

/-- include/Ystring/DecodeUtf8.hpp:182-191 -/
def safeDecodeNext (sg : Bool) (it : Str) : Res (Option (Char32 × Str)) :=
  if it = [] then .ok none
  else do
    let (ch, it) ← decodeNext sg it
    if ch = INVALID_CHAR then .error .ystring
    else .ok (some (ch, it))

/-- include/Ystring/DecodeUtf8.hpp:193-202 -/
def safeDecodePrev (sg : Bool) (it : Str) : Res (Option (Char32 × Str)) :=
  if it = [] then .ok none
  else do
    let (ch, it) ← decodePrev sg it
    if ch = INVALID_CHAR then .error .ystring
    else .ok (some (ch, it))

/-! ### EncodeUtf8.hpp -/

/-- The object representation of `char(u)`, as in src/Ystring/EncodeUtf8.hpp:32: a signed `char` gets the value that is congruent
modulo 256 (C++20; every implementation before). -/
def ofUnsigned (sg : Bool) (u : UInt32) : UInt8 :=
  let v : Int := (u.toNat % 256 : Nat)
  let v := if sg ∧ 128 ≤ v then v - 256 else v
  UInt8.ofNat (v % 256).toNat

/-- src/Ystring/EncodeUtf8.hpp:33-37 -/
def encodeTail (sg : Bool) (chr : Char32) : (k : Nat) → (shift : Nat) → Str
  | 0, _ => []
  | k + 1, shift =>
    ofUnsigned sg (0x80 ||| ((chr >>> (UInt32.ofNat (shift - 6))) &&& 0x3F)) :: encodeTail sg chr k (shift - 6)

/-- src/Ystring/EncodeUtf8.hpp:22-40 -/
def encodeDetail (sg : Bool) (chr : Char32) (chrLength : Nat) : Str :=
  if chrLength = 1 then [ofUnsigned sg chr]
  else if chrLength ≠ 0 then
    let shift := (chrLength - 1) * 6
    ofUnsigned sg (((0xFF : UInt32) <<< (UInt32.ofNat (8 - chrLength))) ||| (chr >>> (UInt32.ofNat shift)))
      :: encodeTail sg chr (chrLength - 1) shift
  else []

/-- src/Ystring/EncodeUtf8.hpp:61-66 -/
def encodeUtf8 (sg : Bool) (c : Char32) : Str := encodeDetail sg c (getUtf8EncodedLength c)

/-! ### Escape.cpp -/

/-- src/Ystring/Escape.cpp:18-25; the parameter is a `uint8_t`, the result the object representation of a `char`. -/
def toDigit (sg : Bool) (c : UInt8) : UInt8 :=
  if toUnsigned c.toNat < 10 then ofUnsigned sg (0x30 + toUnsigned c.toNat)
  else if toUnsigned c.toNat < 36 then ofUnsigned sg (0x41 + (toUnsigned c.toNat - 10))
  else 0x3F

/-- src/Ystring/Escape.cpp:31-34 -/
def isEscapable (sg : Bool) (c : UInt8) : Bool :=
  toU8 (promote sg c) < 32 || promote sg c == 0x22 || promote sg c == 0x5C

/-- src/Ystring/Escape.cpp:28-36 -/
def findFirstEscapableChar (sg : Bool) (str : Str) (offset : Nat := 0) : Res Subrange :=
  if offset > str.length then .error .ub
  else
    let it := offset + stdFindIf (isEscapable sg) (str.drop offset)
    .ok ⟨it, if it = str.length then 0 else 1⟩

/-- src/Ystring/Escape.cpp:50-79. The operand of `switch` is promoted; `to_digit` takes a `uint8_t`. -/
def escapeSequence (sg : Bool) (c : UInt8) : Str :=
  0x5C ::
    (if promote sg c = 0x08 then [0x62]
     else if promote sg c = 0x0C then [0x66]
     else if promote sg c = 0x0A then [0x6E]
     else if promote sg c = 0x0D then [0x72]
     else if promote sg c = 0x09 then [0x74]
     else if promote sg c = 0x22 then [0x22]
     else if promote sg c = 0x5C then [0x5C]
     else [0x75, 0x30, 0x30, toDigit sg ((toUnsigned (promote sg c) &&& 0xF0) >>> 4).toUInt8,
       toDigit sg (toUnsigned (promote sg c) &&& 0xF).toUInt8])

/-- src/Ystring/Escape.cpp:45-83 -/
def escapeJsonLoop (sg : Bool) (str : Str) : (fuel : Nat) → (offset : Nat) → (result : Str) → Res Str
  | 0, _, _ => .error .diverge
  | fuel + 1, offset, result => do
    let sub ← findFirstEscapableChar sg str offset
    if sub.nonempty then
      let result := result ++ (str.drop offset).take (sub.offset - offset)
      match str[sub.offset]? with
      | none => .error .ub
      | some c => escapeJsonLoop sg str fuel sub.stop (result ++ escapeSequence sg c)
    else .ok (result ++ str.drop offset)

/-- src/Ystring/Escape.cpp:43-84 -/
def escapeJson (sg : Bool) (str : Str) : Res Str := escapeJsonLoop sg str (str.length + 1) 0 []

/-! ### Unescape.cpp -/

/-- src/Ystring/Unescape.cpp:21-25 -/
def isHexDigitByte (sg : Bool) (c : UInt8) : Bool :=
  (decide (0x30 ≤ promote sg c) && decide (promote sg c ≤ 0x39)) ||
    (0x41 ≤ (toUnsigned (promote sg c) &&& 0xDF) && (toUnsigned (promote sg c) &&& 0xDF) ≤ 0x46)

/-- src/Ystring/Unescape.cpp:53 and 144 -/
def isOctDigit (sg : Bool) (c : UInt8) : Bool := decide (0x30 ≤ promote sg c) && decide (promote sg c ≤ 0x37)

/-- src/Ystring/Unescape.cpp:39-46 -/
def findEndOfHexSequence (sg : Bool) (str : Str) (start end_ : Nat) : Nat :=
  findFirstByteWhere str start end_ (fun c => !isHexDigitByte sg c)

/-- src/Ystring/Unescape.cpp:48-55 -/
def findEndOfOctSequence (sg : Bool) (str : Str) (start end_ : Nat) : Nat :=
  findFirstByteWhere str start end_ (fun c => !isOctDigit sg c)

/-- src/Ystring/Unescape.cpp:114-166. The operand of `switch` and of the comparisons is promoted. -/
def findFirstEscapedChar (sg : Bool) (str : Str) (offset : Nat := 0) : Res Subrange :=
  if offset > str.length then .error .ub
  else
    let start := offset + stdFindIf (· == 0x5C) (str.drop offset)
    if start = str.length then .ok (Subrange.atOffset str.length)
    else
      match str[start + 1]? with
      | none => .error .ystring
      | some c =>
        if promote sg c = 0x58 ∨ promote sg c = 0x78 then
          checkLength start (findEndOfHexSequence sg str (start + 2) str.length) 4
        else if promote sg c = 0x75 then
          checkLength start (findEndOfHexSequence sg str (start + 2) (start + 6)) 6
        else if promote sg c = 0x55 then
          checkLength start (findEndOfHexSequence sg str (start + 2) (start + 10)) 10
        else if isOctDigit sg c then
          checkLength start (findEndOfOctSequence sg str (start + 1) (start + 4)) 2
        else if toUnsigned (promote sg c) &&& 0x80 = 0 then .ok ⟨start, 2⟩
        else .error .ystring

/-- src/Ystring/Unescape.cpp:90-111 -/
def parseUtf16 (sg : Bool) (str : Str) (sub : Subrange) : Res (Char32 × Subrange) := do
  let ch ← parseEscapedHexChar (← substr str sub.offset sub.length)
  if ch < 0xD800 ∨ 0xDBFF < ch then .ok (ch, sub)
  else
    let str2 ← substr str sub.stop 6
    let sub2 ← findFirstEscapedChar sg str2
    if !sub2.nonempty ∨ sub2.offset ≠ 0 ∨ sub2.length ≠ 6 then .ok (ch, sub)
    else
      let c ← charAt str (sub.stop + 1)
      if promote sg c ≠ 0x75 then .ok (ch, sub)
      else
        let ch2 ← parseEscapedHexChar str2
        if ch2 < 0xDC00 ∨ 0xDFFF < ch2 then .ok (ch, sub)
        else .ok (combineSurrogatePair ch ch2, ⟨sub.offset, 12⟩)

/-- src/Ystring/Unescape.cpp:188-226. `char32_t(sv[..])` (line 224) of a negative `char` would be a number above 0xFFFFFF7F. -/
def decodeEscaped (sg : Bool) (sv : Str) (sub : Subrange) : Res (Char32 × Subrange) := do
  let c ← charAt sv (sub.start + 1)
  if promote sg c = 0x78 ∨ promote sg c = 0x58 ∨ promote sg c = 0x55 then
    let ch ← parseEscapedHexChar (← substr sv sub.start sub.length)
    .ok (ch, sub)
  else if promote sg c = 0x75 then parseUtf16 sg sv sub
  else if promote sg c = 0x61 then .ok (0x07, sub)
  else if promote sg c = 0x62 then .ok (0x08, sub)
  else if promote sg c = 0x66 then .ok (0x0C, sub)
  else if promote sg c = 0x6E then .ok (0x0A, sub)
  else if promote sg c = 0x72 then .ok (0x0D, sub)
  else if promote sg c = 0x74 then .ok (0x09, sub)
  else if promote sg c = 0x76 then .ok (0x0B, sub)
  else if isOctDigit sg c then
    let ch ← parseEscapedOctChar (← substr sv sub.start sub.length)
    .ok (ch, sub)
  else .ok (toUnsigned (promote sg c), sub)

/-- src/Ystring/Unescape.cpp:178-229 -/
def unescapeLoop (sg : Bool) : (fuel : Nat) → (buf : Str) → (frm to : Nat) → Res (Str × Nat)
  | 0, _, _, _ => .error .diverge
  | fuel + 1, buf, frm, to => do
    let sub ← findFirstEscapedChar sg buf frm
    let buf ← copyIfMoved buf frm sub.start to
    let to := sizeAdd to (sizeSub sub.start frm)
    if !sub.nonempty then .ok (buf, to)
    else
      let (ch, sub) ← decodeEscaped sg buf sub
      let buf ← writeAt buf to (encodeUtf8 sg ch)
      unescapeLoop sg fuel buf sub.stop (sizeAdd to (encodeUtf8Ret ch))

/-- src/Ystring/Unescape.cpp:173-231 -/
def unescapeBuf (sg : Bool) (str : Str) : Res (Str × Nat) := unescapeLoop sg (str.length + 1) str 0 0

/-- src/Ystring/Unescape.cpp:233-237 -/
def unescape (sg : Bool) (str : Str) : Res Str := do
  let (buf, n) ← unescapeBuf sg str
  .ok (resize buf n)

/-- include/Ystring/DecodeUtf8.hpp:213-222: the result and the new value of `str`. -/
def popUtf8Codepoint (sg : Bool) (str : Str) : Res (Option Char32 × Str) := do
  match ← safeDecodeNext sg str with
  | none => .ok (none, str)
  | some (ch, it) => .ok (some ch, str.drop (str.length - it.length))

/-- src/Ystring/Unescape.cpp:329-357 -/
def unescapeSwitch (sg : Bool) (type : UInt8) (rest : Str) : Res (Option Char32 × Str) :=
  if promote sg type = 0x61 then .ok (some 0x07, rest)
  else if promote sg type = 0x62 then .ok (some 0x08, rest)
  else if promote sg type = 0x66 then .ok (some 0x0C, rest)
  else if promote sg type = 0x6E then .ok (some 0x0A, rest)
  else if promote sg type = 0x72 then .ok (some 0x0D, rest)
  else if promote sg type = 0x74 then .ok (some 0x09, rest)
  else if promote sg type = 0x76 then .ok (some 0x0B, rest)
  else if promote sg type = 0x78 ∨ promote sg type = 0x58 then do
    let (ch, str) ← extractHexChar rest 1 8
    .ok (some ch, str)
  else if promote sg type = 0x55 then do
    let (ch, str) ← extractHexChar rest 8 8
    .ok (some ch, str)
  else if promote sg type = 0x75 then do
    let (ch, str) ← extractUtf16Char rest
    .ok (some ch, str)
  else if isOctDigit sg type then do
    let (ch, str) ← extractOctChar (type :: rest)
    .ok (some ch, str)
  else popUtf8Codepoint sg (type :: rest)

/-- src/Ystring/Unescape.cpp:298-364 -/
def unescapeNext (sg : Bool) (str : Str) : NextResult :=
  match skipEscapedNewlines str with
  | [] => ⟨.ok none, [], some false⟩
  | b :: t =>
    if promote sg b ≠ 0x5C then
      match popUtf8Codepoint sg (b :: t) with
      | .ok (r, rest) => ⟨.ok r, rest, some false⟩
      | .error e => ⟨.error e, b :: t, some false⟩
    else
      match t with
      | [] => ⟨.error .ystring, b :: t, none⟩
      | type :: rest =>
        match unescapeSwitch sg type rest with
        | .ok (r, rest') => ⟨.ok r, rest', some true⟩
        | .error e => ⟨.error e, b :: t, some true⟩

end Ystring.Sgn
