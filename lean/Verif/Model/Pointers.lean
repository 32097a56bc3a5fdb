import Verif.Model.Utf8
/-
The codec once more, with iterators as addresses: include/Ystring/DecodeUtf8.hpp and src/Ystring/EncodeUtf8.hpp as they act on memory.
Every `*it`, `++it` and `--it` is checked against the range that the caller has handed over.
-/
namespace Ystring.Ptr

/-- The contents of memory; `*it` in include/Ystring/DecodeUtf8.hpp:31 is `m it`. -/
abbrev Mem := Nat → UInt8

/-- The addresses that may be used: those from `first` to before `last` may be read and written, and iterators may be between `first`
and `last`. The two iterators that are passed in include/Ystring/DecodeUtf8.hpp:26 and 84. -/
structure Range where
  first : Nat
  last : Nat

/-- What can go wrong: `*it`, `++it` or `--it` that leaves the range (include/Ystring/DecodeUtf8.hpp:31, 76, 90), the shift in
include/Ystring/DecodeUtf8.hpp:103 by 32 or more, and a loop that does not end. -/
inductive Fault
  | access
  | shift
  | diverge
  deriving DecidableEq, Repr

/-- The outcome of a call; none of the functions in include/Ystring/DecodeUtf8.hpp:24-180 throws. -/
abbrev PRes := Except Fault

/-- `*it` as a value (include/Ystring/DecodeUtf8.hpp:31) -/
def load (m : Mem) (r : Range) (it : Nat) : PRes UInt8 := if r.first ≤ it ∧ it < r.last then .ok (m it) else .error .access

/-- `*it = x` (src/Ystring/EncodeUtf8.hpp:27) -/
def store (m : Mem) (r : Range) (it : Nat) (x : UInt8) : PRes Mem :=
  if r.first ≤ it ∧ it < r.last then .ok (fun i => if i = it then x else m i) else .error .access

/-- `++it` (include/Ystring/DecodeUtf8.hpp:76) -/
def inc (r : Range) (it : Nat) : PRes Nat := if r.first ≤ it ∧ it < r.last then .ok (it + 1) else .error .access

/-- `--it` (include/Ystring/DecodeUtf8.hpp:90) -/
def dec (r : Range) (it : Nat) : PRes Nat := if r.first < it ∧ it ≤ r.last then .ok (it - 1) else .error .access

/-- `k` times `--it` (include/Ystring/DecodeUtf8.hpp:72-73) -/
def decs (r : Range) : (k : Nat) → (it : Nat) → PRes Nat
  | 0, it => .ok it
  | k + 1, it => do decs r k (← dec r it)

/-- `k` times `++it` (include/Ystring/DecodeUtf8.hpp:99-100) -/
def incs (r : Range) : (k : Nat) → (it : Nat) → PRes Nat
  | 0, it => .ok it
  | k + 1, it => do incs r k (← inc r it)

/-- include/Ystring/DecodeUtf8.hpp:63-79: `n` iterations are left, `i` is the counter -/
def decodeNextLoop (m : Mem) (r : Range) : (n i : Nat) → (result : Char32) → (it : Nat) → PRes (Char32 × Nat)
  | 0, _, result, it => .ok (result, it)
  | n + 1, i, result, it => do
    let result := result <<< 6
    let c ← load m r it
    if c &&& 0xC0 = 0x80 then do
      let it ← inc r it
      decodeNextLoop m r n (i + 1) (result ||| (c &&& 0x3F).toUInt32) it
    else do
      let it ← decs r (i + 1) it
      .ok (INVALID_CHAR, it)

/-- include/Ystring/DecodeUtf8.hpp:37-61: `result = uint8_t(*it++) & mask` and what follows -/
def decodeNextLead (m : Mem) (r : Range) (it : Nat) (mask : UInt8) (n : Nat) : PRes (Char32 × Nat) := do
  let c ← load m r it
  let it ← inc r it
  if n > r.last - it then do
    let it ← dec r it
    .ok (INVALID_CHAR, it)
  else decodeNextLoop m r n 0 (c &&& mask).toUInt32 it

/-- include/Ystring/DecodeUtf8.hpp:24-80 with `end` = `r.last` -/
def decodeNext (m : Mem) (r : Range) (it : Nat) : PRes (Char32 × Nat) :=
  if it = r.last then .ok (INVALID_CHAR, it)
  else do
    if (← load m r it) &&& 0x80 = 0 then do
      let c ← load m r it
      let it ← inc r it
      .ok (c.toUInt32, it)
    else if (← load m r it) &&& 0xE0 = 0xC0 then decodeNextLead m r it 0x1F 1
    else if (← load m r it) &&& 0xF0 = 0xE0 then decodeNextLead m r it 0x0F 2
    else if (← load m r it) &&& 0xF8 = 0xF0 then decodeNextLead m r it 0x07 3
    else .ok (INVALID_CHAR, it)

/-- include/Ystring/DecodeUtf8.hpp:94-118: the loop and what follows; `begin` = `r.first`; each pass goes back by one address, so `fuel` is
not used up if it is the number of addresses (`Ptr` theorems). -/
def decodePrevLoop (m : Mem) (r : Range) : (fuel : Nat) → (n : Nat) → (result : Char32) → (it : Nat) → PRes (Char32 × Nat)
  | 0, _, _, _ => .error .diverge
  | fuel + 1, n, result, it => do
    if (← load m r it) &&& 0xC0 = 0x80 then
      if it = r.first then do
        let it ← incs r (n + 1) it
        .ok (INVALID_CHAR, it)
      else do
        let c ← load m r it
        if n * 6 ≥ 32 then .error .shift
        else do
          let it ← dec r it
          decodePrevLoop m r fuel (n + 1) (result ||| ((c &&& 0x3F).toUInt32 <<< (UInt32.ofNat (n * 6)))) it
    else do
      let c ← load m r it
      if c &&& 0xE0 = 0xC0 ∧ n = 1 then .ok (result ||| ((c &&& 0x1F).toUInt32 <<< 6), it)
      else if c &&& 0xF0 = 0xE0 ∧ n = 2 then .ok (result ||| ((c &&& 0x0F).toUInt32 <<< 12), it)
      else if c &&& 0xF8 = 0xF0 ∧ n = 3 then .ok (result ||| ((c &&& 0x07).toUInt32 <<< 18), it)
      else do
        let it ← incs r (n + 1) it
        .ok (INVALID_CHAR, it)

/-- include/Ystring/DecodeUtf8.hpp:82-119 with `begin` = `r.first` -/
def decodePrev (m : Mem) (r : Range) (it : Nat) : PRes (Char32 × Nat) :=
  if it = r.first then .ok (INVALID_CHAR, it)
  else do
    let it ← dec r it
    if (← load m r it) &&& 0x80 = 0 then do
      let c ← load m r it
      .ok (c.toUInt32, it)
    else decodePrevLoop m r (r.last - r.first) 0 0 it

/-- include/Ystring/DecodeUtf8.hpp:142-143: `n-- > 0` is evaluated only if the other conditions hold; `n` wraps around, but then the loop has ended -/
def skipNextLoop (m : Mem) (r : Range) : (fuel : Nat) → (n : Nat) → (it : Nat) → PRes Nat
  | 0, _, _ => .error .diverge
  | fuel + 1, n, it =>
    if it ≠ r.last then do
      if (← load m r it) &&& 0xC0 = 0x80 then
        if n > 0 then do
          let it ← inc r it
          skipNextLoop m r fuel (n - 1) it
        else .ok it
      else .ok it
    else .ok it

/-- include/Ystring/DecodeUtf8.hpp:121-146 with `end` = `r.last` -/
def skipNext (m : Mem) (r : Range) (it : Nat) : PRes (Bool × Nat) :=
  if it = r.last then .ok (false, it)
  else do
    let c ← load m r it
    let it ← inc r it
    if c &&& 0x80 = 0 then .ok (true, it)
    else do
      let n :=
        if c &&& 0xE0 = 0xC0 then 1
        else if c &&& 0xF0 = 0xE0 then 2
        else if c &&& 0xF8 = 0xF0 then 3
        else 4294967295
      let it ← skipNextLoop m r (r.last - r.first + 1) n it
      .ok (true, it)

/-- include/Ystring/DecodeUtf8.hpp:155-179: from the `--it` in the condition on; `n` is a `uint32_t` -/
def skipPrevLoop (m : Mem) (r : Range) : (fuel : Nat) → (n : Nat) → (it : Nat) → PRes (Bool × Nat)
  | 0, _, _ => .error .diverge
  | fuel + 1, n, it => do
    let it ← dec r it
    if (← load m r it) &&& 0xC0 = 0x80 then
      if it = r.first then .ok (true, it)
      else skipPrevLoop m r fuel ((n + 1) % 4294967296) it
    else do
      let c ← load m r it
      let k :=
        if c &&& 0x80 = 0 then 1
        else if c &&& 0xE0 = 0xC0 then 2
        else if c &&& 0xF0 = 0xE0 then 3
        else if c &&& 0xF8 = 0xF0 then 4
        else 4294967295
      if k ≥ (n + 1) % 4294967296 then .ok (true, it)
      else do
        let it ← incs r k it
        .ok (true, it)

/-- include/Ystring/DecodeUtf8.hpp:148-180 with `begin` = `r.first` -/
def skipPrev (m : Mem) (r : Range) (it : Nat) : PRes (Bool × Nat) :=
  if it = r.first then .ok (false, it)
  else skipPrevLoop m r (r.last - r.first) 0 it

/-- src/Ystring/EncodeUtf8.hpp:33-37: `k` iterations are left -/
def encodeLoop (r : Range) (chr : Char32) : (k : Nat) → (shift : Nat) → (m : Mem) → (it : Nat) → PRes (Mem × Nat)
  | 0, _, m, it => .ok (m, it)
  | k + 1, shift, m, it => do
    let m ← store m r it (0x80 ||| ((chr >>> (UInt32.ofNat (shift - 6))) &&& 0x3F)).toUInt8
    let it ← inc r it
    encodeLoop r chr k (shift - 6) m it

/-- src/Ystring/EncodeUtf8.hpp:22-40 -/
def encodeDetail (m : Mem) (r : Range) (chr : Char32) (chrLength : Nat) (it : Nat) : PRes (Mem × Nat) :=
  if chrLength = 1 then do
    let m ← store m r it chr.toUInt8
    let it ← inc r it
    .ok (m, it)
  else if chrLength ≠ 0 then do
    let shift := (chrLength - 1) * 6
    let m ← store m r it (((0xFF : UInt32) <<< (UInt32.ofNat (8 - chrLength))) ||| (chr >>> (UInt32.ofNat shift))).toUInt8
    let it ← inc r it
    encodeLoop r chr (chrLength - 1) shift m it
  else .ok (m, it)

/-- src/Ystring/EncodeUtf8.hpp:80-86: the memory after the call and the return value; the buffer is `r` -/
def encodeUtf8 (m : Mem) (codePoint : Char32) (r : Range) : PRes (Mem × Nat) := do
  let dstSize := r.last - r.first
  let length := getUtf8EncodedLength codePoint
  let length := if length > dstSize then 0 else length
  let (m, _) ← encodeDetail m r codePoint length r.first
  .ok (m, length)

end Ystring.Ptr
