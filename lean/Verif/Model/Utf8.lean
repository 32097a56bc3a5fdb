import Verif.Model.Basic
/-
Model of include/Ystring/DecodeUtf8.hpp, src/Ystring/EncodeUtf8.hpp and src/Ystring/Utf32.cpp.

Iterators. A forward iterator `it` in `[.., end)` is represented by the bytes of `[it, end)`.
A backward iterator `it` in `[begin, ..)` is represented by the bytes of `[begin, it)` in reverse
order (the byte just before `it` first).  `--it` / `++it` against the direction of travel move
bytes back from the list of bytes passed so far (`stepBack`); stepping back further than that
cannot be expressed by these lists and is reported as undefined behaviour.
-/
namespace Ystring

/-! ### Encoding -/

/-- src/Ystring/EncodeUtf8.hpp:43-55 -/
def getUtf8EncodedLength (c : Char32) : Nat :=
  if c < 0x80 then 1
  else if c < 0x800 then 2
  else if c < 0x10000 then 3
  else if c ≤ UNICODE_MAX then 4
  else 0

/-- src/Ystring/EncodeUtf8.hpp:33-37: the loop `for (i = 1; i < chr_length; i++)`;
`k` is the number of remaining iterations and `shift` the value before `shift -= 6`. -/
def encodeTail (chr : Char32) : (k : Nat) → (shift : Nat) → Str
  | 0, _ => []
  | k + 1, shift =>
    (0x80 ||| ((chr >>> (UInt32.ofNat (shift - 6))) &&& 0x3F)).toUInt8 :: encodeTail chr k (shift - 6)

/-- src/Ystring/EncodeUtf8.hpp:22-40 (`detail::encode_utf8`): the bytes written to the output iterator.
`chr_length` is 0 to 4 at every call. -/
def encodeDetail (chr : Char32) (chrLength : Nat) : Str :=
  if chrLength = 1 then [chr.toUInt8]
  else if chrLength ≠ 0 then
    let shift := (chrLength - 1) * 6
    (((0xFF : UInt32) <<< (UInt32.ofNat (8 - chrLength))) ||| (chr >>> (UInt32.ofNat shift))).toUInt8
      :: encodeTail chr (chrLength - 1) shift
  else []

/-- src/Ystring/EncodeUtf8.hpp:61-66: bytes written; the return value is the length of this list
(`encodeUtf8_length`). -/
def encodeUtf8 (c : Char32) : Str := encodeDetail c (getUtf8EncodedLength c)

/-- src/Ystring/EncodeUtf8.hpp:62-66: the return value (`chr_length`, line 39). -/
def encodeUtf8Ret (c : Char32) : Nat := getUtf8EncodedLength c

/-- src/Ystring/EncodeUtf8.hpp:80-86: bytes written to `dst` and the return value. -/
def encodeUtf8Buf (c : Char32) (dstSize : Nat) : Str × Nat :=
  let length := getUtf8EncodedLength c
  let length := if length > dstSize then 0 else length
  (encodeDetail c length, length)

/-! ### Decoding -/

/-- `k` iterator steps against the direction of travel: move `k` bytes from the passed bytes
(most recent first) back to the remaining bytes. Used in include/Ystring/DecodeUtf8.hpp:59,
72-73, 99-100, 116-117 and 177-178. -/
def stepBack : (k : Nat) → (passed rest : Str) → Res Str
  | 0, _, rest => .ok rest
  | _ + 1, [], _ => .error .ub
  | k + 1, b :: passed, rest => stepBack k passed (b :: rest)

/-- include/Ystring/DecodeUtf8.hpp:63-77: the loop over the continuation bytes. `n` iterations
remain, `i` is the loop counter, `passed` are the bytes already stepped over. -/
def decodeNextLoop : (n i : Nat) → (result : Char32) → (passed it : Str) → Res (Char32 × Str)
  | 0, _, result, _, it => .ok (result, it)
  | _ + 1, _, _, _, [] => .error .ub                            -- `*it` with `it == end`
  | n + 1, i, result, passed, c :: it =>
    let result := result <<< 6
    if c &&& 0xC0 = 0x80 then
      decodeNextLoop n (i + 1) (result ||| (c &&& 0x3F).toUInt32) (c :: passed) it
    else do
      let it ← stepBack (i + 1) passed (c :: it)                -- for (j = 0; j <= i; ++j) --it;
      .ok (INVALID_CHAR, it)

/-- include/Ystring/DecodeUtf8.hpp:25-80. Returns the value and the new position of `it`. -/
def decodeNext : Str → Res (Char32 × Str)
  | [] => .ok (INVALID_CHAR, [])
  | b :: it =>
    if b &&& 0x80 = 0 then .ok (b.toUInt32, it)
    else
      let cont (result : UInt8) (n : Nat) : Res (Char32 × Str) :=
        if n > it.length then do
          let it ← stepBack 1 [b] it                            -- --it
          .ok (INVALID_CHAR, it)
        else decodeNextLoop n 0 result.toUInt32 [b] it
      if b &&& 0xE0 = 0xC0 then cont (b &&& 0x1F) 1
      else if b &&& 0xF0 = 0xE0 then cont (b &&& 0x0F) 2
      else if b &&& 0xF8 = 0xF0 then cont (b &&& 0x07) 3
      else .ok (INVALID_CHAR, b :: it)

/-- include/Ystring/DecodeUtf8.hpp:95-118: the loop and what follows it. `cur` is `*it`, `rest` the
reversed bytes before `it`, `passed` the bytes from `it` on (nearest first). `result |= x << (n * 6u)` is
undefined once `n * 6 >= 32`. (`n` is a 32-bit counter; it cannot get past 6.) -/
def decodePrevLoop : (n : Nat) → (result : Char32) → (cur : UInt8) → (passed rest : Str) →
    Res (Char32 × Str)
  | n, result, cur, passed, rest =>
    if cur &&& 0xC0 = 0x80 then
      match rest with
      | [] => do                                                -- it == begin
        let it ← stepBack (n + 1) passed []                     -- for (i = 0; i <= n; ++i) ++it;
        .ok (INVALID_CHAR, it)
      | b :: rest' =>
        if n * 6 ≥ 32 then .error .ub
        else
          decodePrevLoop (n + 1)
            (result ||| ((cur &&& 0x3F).toUInt32 <<< (UInt32.ofNat (n * 6)))) b (b :: passed) rest'
    else if cur &&& 0xE0 = 0xC0 ∧ n = 1 then .ok (result ||| ((cur &&& 0x1F).toUInt32 <<< 6), rest)
    else if cur &&& 0xF0 = 0xE0 ∧ n = 2 then .ok (result ||| ((cur &&& 0x0F).toUInt32 <<< 12), rest)
    else if cur &&& 0xF8 = 0xF0 ∧ n = 3 then .ok (result ||| ((cur &&& 0x07).toUInt32 <<< 18), rest)
    else do
      let it ← stepBack (n + 1) passed rest
      .ok (INVALID_CHAR, it)

/-- include/Ystring/DecodeUtf8.hpp:82-119. The argument is `[begin, it)` reversed. -/
def decodePrev : Str → Res (Char32 × Str)
  | [] => .ok (INVALID_CHAR, [])
  | b :: rest =>
    if b &&& 0x80 = 0 then .ok (b.toUInt32, rest)
    else decodePrevLoop 0 0 b [b] rest

/-- include/Ystring/DecodeUtf8.hpp:142-143: skip at most `n` continuation bytes. -/
def skipCont : (n : Nat) → Str → Str
  | _, [] => []
  | 0, it => it
  | n + 1, b :: it => if b &&& 0xC0 = 0x80 then skipCont n it else b :: it

/-- include/Ystring/DecodeUtf8.hpp:121-146 -/
def skipNext : Str → Bool × Str
  | [] => (false, [])
  | c :: it =>
    if c &&& 0x80 = 0 then (true, it)
    else
      let n :=
        if c &&& 0xE0 = 0xC0 then 1
        else if c &&& 0xF0 = 0xE0 then 2
        else if c &&& 0xF8 = 0xF0 then 3
        else 4294967295
      (true, skipCont n it)

/-- include/Ystring/DecodeUtf8.hpp:155-179: the loop and what follows it. `cur` is `*it` after
`--it`; the counters `n`, `m` are `uint32_t`. -/
def skipPrevLoop : (n : Nat) → (cur : UInt8) → (passed rest : Str) → Res (Bool × Str)
  | n, cur, passed, rest =>
    if cur &&& 0xC0 = 0x80 then
      match rest with
      | [] => .ok (true, [])                                    -- it == begin
      | b :: rest' => skipPrevLoop ((n + 1) % 4294967296) b (b :: passed) rest'
    else
      let m :=
        if cur &&& 0x80 = 0 then 1
        else if cur &&& 0xE0 = 0xC0 then 2
        else if cur &&& 0xF0 = 0xE0 then 3
        else if cur &&& 0xF8 = 0xF0 then 4
        else 4294967295
      if m ≥ (n + 1) % 4294967296 then .ok (true, rest)
      else do
        let it ← stepBack m passed rest                         -- for (i = 0; i < m; ++i) ++it;
        .ok (true, it)

/-- include/Ystring/DecodeUtf8.hpp:148-180. The argument is `[begin, it)` reversed. -/
def skipPrev : Str → Res (Bool × Str)
  | [] => .ok (false, [])
  | b :: rest => skipPrevLoop 0 b [b] rest

/-- include/Ystring/DecodeUtf8.hpp:182-191. `none` is the return value `false`. -/
def safeDecodeNext (it : Str) : Res (Option (Char32 × Str)) :=
  if it = [] then .ok none
  else do
    let (ch, it) ← decodeNext it
    if ch = INVALID_CHAR then .error .ystring
    else .ok (some (ch, it))

/-- include/Ystring/DecodeUtf8.hpp:193-202. The argument is `[begin, it)` reversed. -/
def safeDecodePrev (it : Str) : Res (Option (Char32 × Str)) :=
  if it = [] then .ok none
  else do
    let (ch, it) ← decodePrev it
    if ch = INVALID_CHAR then .error .ystring
    else .ok (some (ch, it))

/-- include/Ystring/DecodeUtf8.hpp:204-211. Returns the result and the new value of `str`. -/
def removeUtf8Codepoint (str : Str) : Bool × Str :=
  match skipNext str with
  | (false, _) => (false, str)
  | (true, it) => (true, str.drop (str.length - it.length))     -- remove_prefix(distance(begin, it))

/-- include/Ystring/DecodeUtf8.hpp:213-222. Returns the optional and the new value of `str`; when an
exception is thrown `str` keeps its old value (it is assigned only after the decode succeeded). -/
def popUtf8Codepoint (str : Str) : Res (Option Char32 × Str) := do
  match ← safeDecodeNext str with
  | none => .ok (none, str)
  | some (ch, it) => .ok (some ch, str.drop (str.length - it.length))

/-- include/Ystring/DecodeUtf8.hpp:224-231 -/
def removeLastUtf8Codepoint (str : Str) : Res (Bool × Str) := do
  match ← skipPrev str.reverse with
  | (false, _) => .ok (false, str)
  | (true, it) => .ok (true, str.take (str.length - (str.length - it.length)))  -- remove_suffix(distance(it, end))

/-- include/Ystring/DecodeUtf8.hpp:233-242 -/
def popLastUtf8Codepoint (str : Str) : Res (Option Char32 × Str) := do
  match ← safeDecodePrev str.reverse with
  | none => .ok (none, str)
  | some (ch, it) => .ok (some ch, str.take (str.length - (str.length - it.length)))

/-! ### UTF-32 -/

/-- src/Ystring/Utf32.cpp:14-19 -/
def fromUtf32Char (ch : Char32) : Str := encodeUtf8 ch

/-- src/Ystring/Utf32.cpp:21-28 -/
def fromUtf32 (str : List Char32) : Str :=
  str.foldl (fun result ch => result ++ encodeUtf8 ch) []

/-- src/Ystring/Utf32.cpp:35-36 -/
def toUtf32Loop : (fuel : Nat) → (it : Str) → (result : List Char32) → Res (List Char32)
  | 0, _, _ => .error .diverge
  | fuel + 1, it, result => do
    match ← safeDecodeNext it with
    | none => .ok result
    | some (ch, it) => toUtf32Loop fuel it (result ++ [ch])

/-- src/Ystring/Utf32.cpp:30-38 -/
def toUtf32 (str : Str) : Res (List Char32) := toUtf32Loop (str.length + 1) str []

end Ystring
