import Verif.Model.Pointers
import Verif.Model.CaseInsensitive
import Verif.Model.Unescape
/-
Functions of the library as sequences of single accesses to memory: every `*it` is one load and every `*it = x` one store, at an address.
This is what other threads can see of a call. Local variables (iterators, counters, results that are built up as new objects) belong to
the thread and are not in this memory. All pointers and iterators are checked against the range that was passed in.
-/
namespace Ystring.Thr
open Ptr (Mem Range)

/-- A call that is still running: what it does next. `done` is the outcome, as in include/Ystring/DecodeUtf8.hpp:29; `load a k` is a
read of the byte at `a` and the rest of the computation as a function of the byte (include/Ystring/DecodeUtf8.hpp:31), `store a x p` an
assignment to the byte at `a` (src/Ystring/EncodeUtf8.hpp:27). -/
inductive Prog (α : Type) : Type
  | done (r : Res α)
  | load (a : Nat) (k : UInt8 → Prog α)
  | store (a : Nat) (x : UInt8) (p : Prog α)

/-- One statement after the other, as in include/Ystring/DecodeUtf8.hpp:31-36; an exception (or undefined behaviour) ends the call. -/
protected def Prog.bind {α β : Type} : Prog α → (α → Prog β) → Prog β
  | .done (.ok a), f => f a
  | .done (.error e), _ => .done (.error e)
  | .load a k, f => .load a (fun c => (k c).bind f)
  | .store a x p, f => .store a x (p.bind f)

instance : Monad Prog where
  pure a := .done (.ok a)
  bind := Prog.bind

/-- `*it` as a value (include/Ystring/DecodeUtf8.hpp:31); undefined outside of the range -/
def load (r : Range) (it : Nat) : Prog UInt8 :=
  if r.first ≤ it ∧ it < r.last then .load it (fun c => .done (.ok c)) else .done (.error .ub)

/-- `*it = x` (src/Ystring/EncodeUtf8.hpp:27) -/
def store (r : Range) (it : Nat) (x : UInt8) : Prog Unit :=
  if r.first ≤ it ∧ it < r.last then .store it x (.done (.ok ())) else .done (.error .ub)

/-- A computation without access to the memory that is passed in, as `++it` in include/Ystring/DecodeUtf8.hpp:76 -/
def fin {α : Type} (x : Res α) : Prog α := .done x

/-- `++it`, `--it` and pointer arithmetic are defined only within the range (include/Ystring/DecodeUtf8.hpp:76, 90). -/
def ptr (r : Range) (it : Nat) : Prog Nat := if r.first ≤ it ∧ it ≤ r.last then .done (.ok it) else .done (.error .ub)

/-- `k` times `--it` (include/Ystring/DecodeUtf8.hpp:72-73); going below `r.first` is undefined, and so is going below address 0 -/
def back (r : Range) (k it : Nat) : Prog Nat := if r.first + k ≤ it ∧ it ≤ r.last then .done (.ok (it - k)) else .done (.error .ub)

/-! ### DecodeUtf8.hpp -/

/-- include/Ystring/DecodeUtf8.hpp:63-79: `n` iterations are left, `i` is the counter -/
def decodeNextLoop (r : Range) : (n i : Nat) → (result : Char32) → (it : Nat) → Prog (Char32 × Nat)
  | 0, _, result, it => fin (.ok (result, it))
  | n + 1, i, result, it => do
    let c ← load r it
    if c &&& 0xC0 = 0x80 then do
      let it ← ptr r (it + 1)
      decodeNextLoop r n (i + 1) (result <<< 6 ||| (c &&& 0x3F).toUInt32) it
    else do
      let it ← back r (i + 1) it
      fin (.ok (INVALID_CHAR, it))

/-- include/Ystring/DecodeUtf8.hpp:37-61: `result = uint8_t(*it++) & mask` and what follows -/
def decodeNextLead (r : Range) (it : Nat) (mask : UInt8) (n : Nat) : Prog (Char32 × Nat) := do
  let c ← load r it
  let it ← ptr r (it + 1)
  if n > r.last - it then do
    let it ← back r 1 it
    fin (.ok (INVALID_CHAR, it))
  else decodeNextLoop r n 0 (c &&& mask).toUInt32 it

/-- include/Ystring/DecodeUtf8.hpp:24-80 with `end` = `r.last`: every condition reads `*it` again -/
def decodeNext (r : Range) (it : Nat) : Prog (Char32 × Nat) :=
  if it = r.last then fin (.ok (INVALID_CHAR, it))
  else do
    let c ← load r it
    if c &&& 0x80 = 0 then do
      let c ← load r it
      let it ← ptr r (it + 1)
      fin (.ok (c.toUInt32, it))
    else do
      let c ← load r it
      if c &&& 0xE0 = 0xC0 then decodeNextLead r it 0x1F 1
      else do
        let c ← load r it
        if c &&& 0xF0 = 0xE0 then decodeNextLead r it 0x0F 2
        else do
          let c ← load r it
          if c &&& 0xF8 = 0xF0 then decodeNextLead r it 0x07 3
          else fin (.ok (INVALID_CHAR, it))

/-- include/Ystring/DecodeUtf8.hpp:94-118: the loop and what follows; `begin` = `r.first` -/
def decodePrevLoop (r : Range) : (fuel : Nat) → (n : Nat) → (result : Char32) → (it : Nat) → Prog (Char32 × Nat)
  | 0, _, _, _ => fin (.error .diverge)
  | fuel + 1, n, result, it => do
    let c ← load r it
    if c &&& 0xC0 = 0x80 then
      if it = r.first then do
        let it ← ptr r (it + (n + 1))
        fin (.ok (INVALID_CHAR, it))
      else do
        let c ← load r it
        if n * 6 ≥ 32 then fin (.error .ub)
        else do
          let it ← back r 1 it
          decodePrevLoop r fuel (n + 1) (result ||| ((c &&& 0x3F).toUInt32 <<< (UInt32.ofNat (n * 6)))) it
    else do
      let c ← load r it
      if c &&& 0xE0 = 0xC0 ∧ n = 1 then fin (.ok (result ||| ((c &&& 0x1F).toUInt32 <<< 6), it))
      else if c &&& 0xF0 = 0xE0 ∧ n = 2 then fin (.ok (result ||| ((c &&& 0x0F).toUInt32 <<< 12), it))
      else if c &&& 0xF8 = 0xF0 ∧ n = 3 then fin (.ok (result ||| ((c &&& 0x07).toUInt32 <<< 18), it))
      else do
        let it ← ptr r (it + (n + 1))
        fin (.ok (INVALID_CHAR, it))

/-- include/Ystring/DecodeUtf8.hpp:82-119 with `begin` = `r.first` -/
def decodePrev (r : Range) (it : Nat) : Prog (Char32 × Nat) :=
  if it = r.first then fin (.ok (INVALID_CHAR, it))
  else do
    let it ← back r 1 it
    let c ← load r it
    if c &&& 0x80 = 0 then do
      let c ← load r it
      fin (.ok (c.toUInt32, it))
    else decodePrevLoop r (r.last - r.first) 0 0 it

/-- include/Ystring/DecodeUtf8.hpp:142-143 -/
def skipNextLoop (r : Range) : (fuel : Nat) → (n : Nat) → (it : Nat) → Prog Nat
  | 0, _, _ => fin (.error .diverge)
  | fuel + 1, n, it =>
    if it ≠ r.last then do
      let c ← load r it
      if c &&& 0xC0 = 0x80 then
        if n > 0 then do
          let it ← ptr r (it + 1)
          skipNextLoop r fuel (n - 1) it
        else fin (.ok it)
      else fin (.ok it)
    else fin (.ok it)

/-- include/Ystring/DecodeUtf8.hpp:121-146 with `end` = `r.last` -/
def skipNext (r : Range) (it : Nat) : Prog (Bool × Nat) :=
  if it = r.last then fin (.ok (false, it))
  else do
    let c ← load r it
    let it ← ptr r (it + 1)
    if c &&& 0x80 = 0 then fin (.ok (true, it))
    else do
      let n :=
        if c &&& 0xE0 = 0xC0 then 1
        else if c &&& 0xF0 = 0xE0 then 2
        else if c &&& 0xF8 = 0xF0 then 3
        else 4294967295
      let it ← skipNextLoop r (r.last - r.first + 1) n it
      fin (.ok (true, it))

/-- include/Ystring/DecodeUtf8.hpp:182-191; `none` is the return value `false` -/
def safeDecodeNext (r : Range) (it : Nat) : Prog (Option (Char32 × Nat)) :=
  if it = r.last then fin (.ok none)
  else do
    let (ch, it) ← decodeNext r it
    if ch = INVALID_CHAR then fin (.error .ystring) else fin (.ok (some (ch, it)))

/-- include/Ystring/DecodeUtf8.hpp:193-202 -/
def safeDecodePrev (r : Range) (it : Nat) : Prog (Option (Char32 × Nat)) :=
  if it = r.first then fin (.ok none)
  else do
    let (ch, it) ← decodePrev r it
    if ch = INVALID_CHAR then fin (.error .ystring) else fin (.ok (some (ch, it)))

/-! ### Functions that read a string -/

/-- src/Ystring/Utf32.cpp:35-36 -/
def toUtf32Loop (r : Range) : (fuel : Nat) → (it : Nat) → (result : List Char32) → Prog (List Char32)
  | 0, _, _ => fin (.error .diverge)
  | fuel + 1, it, result => do
    match ← safeDecodeNext r it with
    | none => fin (.ok result)
    | some (ch, it) => toUtf32Loop r fuel it (result ++ [ch])

/-- src/Ystring/Utf32.cpp:30-38 -/
def toUtf32 (r : Range) : Prog (List Char32) := toUtf32Loop r (r.last - r.first + 1) r.first []

/-- src/Ystring/Algorithms.cpp:49-54 -/
def containsLoop (r : Range) (chr : Char32) : (fuel : Nat) → (it : Nat) → Prog Bool
  | 0, _ => fin (.error .diverge)
  | fuel + 1, it => do
    match ← safeDecodeNext r it with
    | none => fin (.ok false)
    | some (ch, it) => if ch = chr then fin (.ok true) else containsLoop r chr fuel it

/-- src/Ystring/Algorithms.cpp:45-55 -/
def contains (r : Range) (chr : Char32) : Prog Bool := containsLoop r chr (r.last - r.first + 1) r.first

/-- src/Ystring/Algorithms.cpp:75-76 -/
def countCodepointsLoop (r : Range) : (fuel : Nat) → (it : Nat) → (result : Nat) → Prog Nat
  | 0, _, _ => fin (.error .diverge)
  | fuel + 1, it, result => do
    match ← skipNext r it with
    | (false, _) => fin (.ok result)
    | (true, it) => countCodepointsLoop r fuel it (result + 1)

/-- src/Ystring/Algorithms.cpp:70-78 -/
def countCodepoints (r : Range) : Prog Nat := countCodepointsLoop r (r.last - r.first + 1) r.first 0

/-- src/Ystring/Algorithms.cpp:345-349 -/
def isValidUtf8Loop (r : Range) : (fuel : Nat) → (it : Nat) → Prog Bool
  | 0, _ => fin (.error .diverge)
  | fuel + 1, it =>
    if it ≠ r.last then do
      let (ch, it) ← decodeNext r it
      if ch = INVALID_CHAR then fin (.ok false) else isValidUtf8Loop r fuel it
    else fin (.ok true)

/-- src/Ystring/Algorithms.cpp:342-351 -/
def isValidUtf8 (r : Range) : Prog Bool := isValidUtf8Loop r (r.last - r.first + 1) r.first

/-- include/Ystring/Algorithms.hpp:139-144 -/
def findFirstWhereLoop (r : Range) (pred : Char32 → Bool) : (fuel : Nat) → (it prev : Nat) → Prog (Subrange × Char32)
  | 0, _, _ => fin (.error .diverge)
  | fuel + 1, it, prev => do
    match ← safeDecodeNext r it with
    | none => fin (.ok (⟨npos, 0⟩, INVALID_CHAR))
    | some (ch, it) =>
      if pred ch then fin (.ok (⟨prev - r.first, it - prev⟩, ch)) else findFirstWhereLoop r pred fuel it it

/-- include/Ystring/Algorithms.hpp:131-146 -/
def findFirstWhere (r : Range) (pred : Char32 → Bool) (offset : Nat) : Prog (Subrange × Char32) := do
  let it ← ptr r (r.first + offset)
  findFirstWhereLoop r pred (r.last - r.first + 1) it it

/-- include/Ystring/Algorithms.hpp:205-210 -/
def findLastWhereLoop (r : Range) (pred : Char32 → Bool) : (fuel : Nat) → (it stop : Nat) → Prog (Subrange × Char32)
  | 0, _, _ => fin (.error .diverge)
  | fuel + 1, it, stop => do
    match ← safeDecodePrev r it with
    | none => fin (.ok (⟨npos, 0⟩, INVALID_CHAR))
    | some (ch, it) =>
      if pred ch then fin (.ok (⟨it - r.first, stop - it⟩, ch)) else findLastWhereLoop r pred fuel it it

/-- include/Ystring/Algorithms.hpp:196-212 -/
def findLastWhere (r : Range) (pred : Char32 → Bool) (offset : Nat) : Prog (Subrange × Char32) := do
  let offset := min offset (r.last - r.first)
  let it ← ptr r (r.first + offset)
  findLastWhereLoop r pred (r.last - r.first + 1) it it

/-- src/Ystring/ConvertCase.cpp:122-123; `result` is a new string -/
def toLowerLoop (r : Range) : (fuel : Nat) → (it : Nat) → (result : Str) → Prog Str
  | 0, _, _ => fin (.error .diverge)
  | fuel + 1, it, result => do
    match ← safeDecodeNext r it with
    | none => fin (.ok result)
    | some (ch, it) => do
      let result ← fin (append result (toLowerChar ch))
      toLowerLoop r fuel it result

/-- src/Ystring/ConvertCase.cpp:116-125 -/
def toLower (r : Range) : Prog Str := toLowerLoop r (r.last - r.first + 1) r.first []

/-- src/Ystring/ConvertCase.cpp:165-171 -/
def toUpperLoop (r : Range) : (fuel : Nat) → (it : Nat) → (result : Str) → Prog Str
  | 0, _, _ => fin (.error .diverge)
  | fuel + 1, it, result => do
    match ← safeDecodeNext r it with
    | none => fin (.ok result)
    | some (ch, it) =>
      if ch ≠ 0xDF then do
        let result ← fin (append result (toUpperChar ch))
        toUpperLoop r fuel it result
      else toUpperLoop r fuel it (result ++ [0x53, 0x53])

/-- src/Ystring/ConvertCase.cpp:159-173 -/
def toUpper (r : Range) : Prog Str := toUpperLoop r (r.last - r.first + 1) r.first []

/-- src/Ystring/Algorithms.cpp:519-530: two strings -/
def compareLoop (r r' : Range) : (fuel : Nat) → (sIt cIt : Nat) → Prog Int
  | 0, _, _ => fin (.error .diverge)
  | fuel + 1, sIt, cIt => do
    let s ← safeDecodeNext r sIt
    let c ← safeDecodeNext r' cIt
    match s, c with
    | none, none => fin (.ok 0)
    | some _, none => fin (.ok 1)
    | none, some _ => fin (.ok (-1))
    | some (sCh, sIt), some (cCh, cIt) =>
      let result := caseInsensitiveCompare sCh cCh
      if result ≠ 0 then fin (.ok result) else compareLoop r r' fuel sIt cIt

/-- src/Ystring/Algorithms.cpp:515-531 -/
def compare (r r' : Range) : Prog Int := compareLoop r r' (r.last - r.first + 1) r.first r'.first

/-! ### Functions that write -/

/-- src/Ystring/EncodeUtf8.hpp:33-37: `k` iterations are left -/
def encodeLoop (r : Range) (chr : Char32) : (k : Nat) → (shift : Nat) → (it : Nat) → Prog Nat
  | 0, _, it => fin (.ok it)
  | k + 1, shift, it => do
    store r it (0x80 ||| ((chr >>> (UInt32.ofNat (shift - 6))) &&& 0x3F)).toUInt8
    let it ← ptr r (it + 1)
    encodeLoop r chr k (shift - 6) it

/-- src/Ystring/EncodeUtf8.hpp:22-40 -/
def encodeDetail (r : Range) (chr : Char32) (chrLength : Nat) (it : Nat) : Prog Nat :=
  if chrLength = 1 then do
    store r it chr.toUInt8
    ptr r (it + 1)
  else if chrLength ≠ 0 then do
    let shift := (chrLength - 1) * 6
    store r it (((0xFF : UInt32) <<< (UInt32.ofNat (8 - chrLength))) ||| (chr >>> (UInt32.ofNat shift))).toUInt8
    let it ← ptr r (it + 1)
    encodeLoop r chr (chrLength - 1) shift it
  else fin (.ok it)

/-- src/Ystring/EncodeUtf8.hpp:80-86: the return value; the buffer is `r` -/
def encodeUtf8Buf (r : Range) (codePoint : Char32) : Prog Nat := do
  let dstSize := r.last - r.first
  let length := getUtf8EncodedLength codePoint
  let length := if length > dstSize then 0 else length
  let _ ← encodeDetail r codePoint length r.first
  fin (.ok length)

/-! ### Unescape.cpp: offsets are relative to `r.first` (`str`), the length is `r.last - r.first` -/

/-- `std::find_if` (src/Ystring/Unescape.cpp:116) and the loop in src/Ystring/Unescape.cpp:31-36: the first of the `k` positions from `i` on
whose byte satisfies `pred`, or none -/
def scan (r : Range) (pred : UInt8 → Bool) : (k : Nat) → (i : Nat) → Prog (Option Nat)
  | 0, _ => fin (.ok none)
  | k + 1, i => do
    let c ← load r (r.first + i)
    if pred c then fin (.ok (some i)) else scan r pred k (i + 1)

/-- src/Ystring/Unescape.cpp:27-37 -/
def findFirstByteWhere (r : Range) (start end_ : Nat) (pred : UInt8 → Bool) : Prog Nat := do
  match ← scan r pred (min (r.last - r.first) end_ - start) start with
  | some i => fin (.ok i)
  | none => fin (.ok end_)

/-- src/Ystring/Unescape.cpp:114-166 -/
def findFirstEscapedChar (r : Range) (offset : Nat) : Prog Subrange := do
  let _ ← ptr r (r.first + offset)
  let size := r.last - r.first
  match ← scan r (· == 0x5C) (size - offset) offset with
  | none => fin (.ok (Subrange.atOffset size))
  | some start =>
    if start + 1 = size then fin (.error .ystring)
    else do
      let c ← load r (r.first + (start + 1))
      if c = 0x58 ∨ c = 0x78 then do
        let e ← findFirstByteWhere r (start + 2) size (fun c => !isHexDigitByte c)
        fin (checkLength start e 4)
      else if c = 0x75 then do
        let e ← findFirstByteWhere r (start + 2) (start + 6) (fun c => !isHexDigitByte c)
        fin (checkLength start e 6)
      else if c = 0x55 then do
        let e ← findFirstByteWhere r (start + 2) (start + 10) (fun c => !isHexDigitByte c)
        fin (checkLength start e 10)
      else if isOctDigit c then do
        let e ← findFirstByteWhere r (start + 1) (start + 4) (fun c => !isOctDigit c)
        fin (checkLength start e 2)
      else if c &&& 0x80 = 0 then fin (.ok ⟨start, 2⟩)
      else fin (.error .ystring)

/-- `std::from_chars` on `k` bytes from address `a` on (src/Ystring/Unescape.cpp:60): the number of digits and their value -/
def digits (r : Range) (base : Nat) : (k : Nat) → (a n v : Nat) → Prog (Nat × Nat)
  | 0, _, n, v => fin (.ok (n, v))
  | k + 1, a, n, v => do
    let c ← load r a
    if digitValue c < base then digits r base k (a + 1) (n + 1) (v * base + digitValue c) else fin (.ok (n, v))

/-- src/Ystring/Unescape.cpp:57-69 and 71-83 with `skip` 2 or 1, for the bytes in `r`; a value that does not fit leaves the variable
uninitialised (lines 59, 73) -/
def parseEscaped (skip base : Nat) (r : Range) : Prog Char32 := do
  let a ← ptr r (r.first + skip)
  let (n, v) ← digits r base (r.last - a) a 0 0
  if n = 0 then fin (.error .ystring)
  else if 4294967296 ≤ v then fin (.error .ub)
  else fin (.ok (UInt32.ofNat v))

/-- `str.substr(pos, n)` as a range of addresses (src/Ystring/Unescape.cpp:93) -/
def subRange (r : Range) (pos n : Nat) : Prog Range :=
  if pos > r.last - r.first then fin (.error .outOfRange)
  else fin (.ok ⟨r.first + pos, r.first + pos + min n (r.last - r.first - pos)⟩)

/-- src/Ystring/Unescape.cpp:90-111 -/
def parseUtf16 (r : Range) (sub : Subrange) : Prog (Char32 × Subrange) := do
  let r1 ← subRange r sub.offset sub.length
  let ch ← parseEscaped 2 16 r1
  if ch < 0xD800 ∨ 0xDBFF < ch then fin (.ok (ch, sub))
  else do
    let r2 ← subRange r sub.stop 6
    let sub2 ← findFirstEscapedChar r2 0
    if !sub2.nonempty ∨ sub2.offset ≠ 0 ∨ sub2.length ≠ 6 then fin (.ok (ch, sub))
    else do
      let c ← load r (r.first + (sub.stop + 1))
      if c ≠ 0x75 then fin (.ok (ch, sub))
      else do
        let ch2 ← parseEscaped 2 16 r2
        if ch2 < 0xDC00 ∨ 0xDFFF < ch2 then fin (.ok (ch, sub))
        else fin (.ok (combineSurrogatePair ch ch2, ⟨sub.offset, 12⟩))

/-- src/Ystring/Unescape.cpp:188-226: the character of the sequence `sub`, and the new value of `sub`; the default case (lines 221-224)
reads the byte again up to three times -/
def decodeEscaped (r : Range) (sub : Subrange) : Prog (Char32 × Subrange) := do
  let c ← load r (r.first + (sub.start + 1))
  if c = 0x78 ∨ c = 0x58 ∨ c = 0x55 then do
    let r1 ← subRange r sub.start sub.length
    let ch ← parseEscaped 2 16 r1
    fin (.ok (ch, sub))
  else if c = 0x75 then parseUtf16 r sub
  else if c = 0x61 then fin (.ok (0x07, sub))
  else if c = 0x62 then fin (.ok (0x08, sub))
  else if c = 0x66 then fin (.ok (0x0C, sub))
  else if c = 0x6E then fin (.ok (0x0A, sub))
  else if c = 0x72 then fin (.ok (0x0D, sub))
  else if c = 0x74 then fin (.ok (0x09, sub))
  else if c = 0x76 then fin (.ok (0x0B, sub))
  else do
    let c ← load r (r.first + (sub.start + 1))
    if isOctDigit c then do
      let r1 ← subRange r sub.start sub.length
      let ch ← parseEscaped 1 8 r1
      fin (.ok (ch, sub))
    else do
      let c ← load r (r.first + (sub.start + 1))
      fin (.ok (c.toUInt32, sub))

/-- the loop in `std::copy` (src/Ystring/Unescape.cpp:182): `k` bytes are left -/
def copyLoop (r : Range) : (k : Nat) → (a b : Nat) → Prog Unit
  | 0, _, _ => fin (.ok ())
  | k + 1, a, b => do
    let c ← load r a
    store r b c
    copyLoop r k (a + 1) (b + 1)

/-- src/Ystring/Unescape.cpp:181-182: `std::copy` needs a range, and a destination outside of it -/
def copyIfMoved (r : Range) (frm last to : Nat) : Prog Unit :=
  if frm ≠ to then do
    let _ ← ptr r (r.first + frm)
    let _ ← ptr r (r.first + last)
    let _ ← ptr r (r.first + to)
    if frm ≤ last ∧ ¬(frm ≤ to ∧ to < last) then copyLoop r (last - frm) (r.first + frm) (r.first + to)
    else fin (.error .ub)
  else fin (.ok ())

/-- src/Ystring/Unescape.cpp:178-229: the loop -/
def unescapeLoop (r : Range) : (fuel : Nat) → (frm to : Nat) → Prog Nat
  | 0, _, _ => fin (.error .diverge)
  | fuel + 1, frm, to => do
    let sub ← findFirstEscapedChar r frm
    copyIfMoved r frm sub.start to
    let to := sizeAdd to (sizeSub sub.start frm)
    if !sub.nonempty then fin (.ok to)
    else do
      let (ch, sub) ← decodeEscaped r sub
      let it ← ptr r (r.first + to)
      let _ ← encodeDetail r ch (encodeUtf8Ret ch) it
      unescapeLoop r fuel sub.stop (sizeAdd to (encodeUtf8Ret ch))

/-- src/Ystring/Unescape.cpp:173-231: `unescape(str, length)` on the buffer `r` -/
def unescape (r : Range) : Prog Nat := unescapeLoop r (r.last - r.first + 1) 0 0

end Ystring.Thr
