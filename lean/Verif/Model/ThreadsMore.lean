import Verif.Model.Threads
import Verif.Model.Escape
/-
More functions of the library as sequences of single accesses to memory (see Verif/Model/Threads.lean): going back without decoding, title
case, the comparisons and searches that ignore case, replacing malformed bytes, and escaping.
-/
namespace Ystring.Thr
open Ptr (Mem Range)

/-- include/Ystring/DecodeUtf8.hpp:155-179: from the `--it` in the condition on; `n` is a `uint32_t`. The byte that ends the loop is read again
(line 163). -/
def skipPrevLoop (r : Range) : (fuel : Nat) → (n : Nat) → (it : Nat) → Prog (Bool × Nat)
  | 0, _, _ => fin (.error .diverge)
  | fuel + 1, n, it => do
    let it ← back r 1 it
    let c ← load r it
    if c &&& 0xC0 = 0x80 then
      if it = r.first then fin (.ok (true, it))
      else skipPrevLoop r fuel ((n + 1) % 4294967296) it
    else do
      let c ← load r it
      let k :=
        if c &&& 0x80 = 0 then 1
        else if c &&& 0xE0 = 0xC0 then 2
        else if c &&& 0xF0 = 0xE0 then 3
        else if c &&& 0xF8 = 0xF0 then 4
        else 4294967295
      if k ≥ (n + 1) % 4294967296 then fin (.ok (true, it))
      else do
        let it ← ptr r (it + k)
        fin (.ok (true, it))

/-- include/Ystring/DecodeUtf8.hpp:148-180 with `begin` = `r.first` -/
def skipPrev (r : Range) (it : Nat) : Prog (Bool × Nat) :=
  if it = r.first then fin (.ok (false, it))
  else skipPrevLoop r (r.last - r.first) 0 it

/-- src/Ystring/ConvertCase.cpp:134-155; `result` is a new string -/
def toTitleLoop (r : Range) : (fuel : Nat) → (it : Nat) → (result : Str) → (precededByLetter : Bool) → Prog Str
  | 0, _, _, _ => fin (.error .diverge)
  | fuel + 1, it, result, precededByLetter => do
    match ← safeDecodeNext r it with
    | none => fin (.ok result)
    | some (ch, it) =>
      if !isLetter ch then do
        let result ← fin (append result ch)
        toTitleLoop r fuel it result false
      else if precededByLetter then do
        let result ← fin (append result (toLowerChar ch))
        toTitleLoop r fuel it result precededByLetter
      else if ch ≠ 0xDF then do
        let result ← fin (append result (toTitleChar ch))
        toTitleLoop r fuel it result true
      else toTitleLoop r fuel it (result ++ [0x53, 0x73]) true

/-- src/Ystring/ConvertCase.cpp:127-157 -/
def toTitle (r : Range) : Prog Str := toTitleLoop r (r.last - r.first + 1) r.first [] false

/-- src/Ystring/Algorithms.cpp:544-555: two strings -/
def equalLoop (r r' : Range) : (fuel : Nat) → (sIt cIt : Nat) → Prog Bool
  | 0, _, _ => fin (.error .diverge)
  | fuel + 1, sIt, cIt => do
    let s ← safeDecodeNext r sIt
    let c ← safeDecodeNext r' cIt
    match s, c with
    | some (sCh, sIt), some (cCh, cIt) =>
      if !caseInsensitiveEqual sCh cCh then fin (.ok false) else equalLoop r r' fuel sIt cIt
    | none, none => fin (.ok true)
    | some _, none => fin (.ok false)
    | none, some _ => fin (.ok false)

/-- src/Ystring/Algorithms.cpp:540-556 -/
def equal (r r' : Range) : Prog Bool := equalLoop r r' (r.last - r.first + 1) r.first r'.first

/-- src/Ystring/Algorithms.cpp:656-667 -/
def lessLoop (r r' : Range) : (fuel : Nat) → (sIt cIt : Nat) → Prog Bool
  | 0, _, _ => fin (.error .diverge)
  | fuel + 1, sIt, cIt => do
    let s ← safeDecodeNext r sIt
    let c ← safeDecodeNext r' cIt
    match s, c with
    | some (sCh, sIt), some (cCh, cIt) =>
      let result := caseInsensitiveCompare sCh cCh
      if result ≠ 0 then fin (.ok (result < 0)) else lessLoop r r' fuel sIt cIt
    | s, c => fin (.ok (s.isNone && c.isSome))

/-- src/Ystring/Algorithms.cpp:652-668 -/
def less (r r' : Range) : Prog Bool := lessLoop r r' (r.last - r.first + 1) r.first r'.first

/-- src/Ystring/AlgorithmUtilities.hpp:40-62 -/
def nextMismatch (r r' : Range) : (fuel : Nat) → (beg1 beg2 : Nat) → Prog (Nat × Nat)
  | 0, _, _ => fin (.error .diverge)
  | fuel + 1, beg1, beg2 => do
    match ← safeDecodeNext r beg1 with
    | none => fin (.ok (beg1, beg2))
    | some (ch1, it1) => do
      match ← safeDecodeNext r' beg2 with
      | none => fin (.ok (beg1, beg2))
      | some (ch2, it2) =>
        if !caseInsensitiveEqual ch1 ch2 then fin (.ok (beg1, beg2)) else nextMismatch r r' fuel it1 it2

/-- src/Ystring/AlgorithmUtilities.hpp:64-86 -/
def prevMismatch (r r' : Range) : (fuel : Nat) → (end1 end2 : Nat) → Prog (Nat × Nat)
  | 0, _, _ => fin (.error .diverge)
  | fuel + 1, end1, end2 => do
    match ← safeDecodePrev r end1 with
    | none => fin (.ok (end1, end2))
    | some (ch1, it1) => do
      match ← safeDecodePrev r' end2 with
      | none => fin (.ok (end1, end2))
      | some (ch2, it2) =>
        if !caseInsensitiveEqual ch1 ch2 then fin (.ok (end1, end2)) else prevMismatch r r' fuel it1 it2

/-- src/Ystring/Algorithms.cpp:736-741 -/
def startsWith (r r' : Range) : Prog Bool := do
  let (_, itCmp) ← nextMismatch r r' (r.last - r.first + 1) r.first r'.first
  fin (.ok (itCmp == r'.last))

/-- src/Ystring/Algorithms.cpp:533-538 -/
def endsWith (r r' : Range) : Prog Bool := do
  let (_, itCmp) ← prevMismatch r r' (r.last - r.first + 1) r.last r'.last
  fin (.ok (itCmp == r'.first))

/-- src/Ystring/Algorithms.cpp:570-581; `chCmp` is the first code point of `r'` and `itCmp` the place behind it -/
def findFirstLoop (r r' : Range) (chCmp : Char32) (itCmp : Nat) : (fuel : Nat) → (itStr itStrNext : Nat) → Prog Subrange
  | 0, _, _ => fin (.error .diverge)
  | fuel + 1, itStr, itStrNext => do
    match ← safeDecodeNext r itStrNext with
    | none => fin (.ok Subrange.default)
    | some (chStr, itStrNext) =>
      if caseInsensitiveEqual chStr chCmp then do
        let (a, b) ← nextMismatch r r' (r.last - r.first + 1) itStrNext itCmp
        if b = r'.last then fin (.ok ⟨itStr - r.first, a - itStr⟩)
        else findFirstLoop r r' chCmp itCmp fuel itStrNext itStrNext
      else findFirstLoop r r' chCmp itCmp fuel itStrNext itStrNext

/-- src/Ystring/Algorithms.cpp:558-582 -/
def findFirst (r r' : Range) (offset : Nat) : Prog Subrange := do
  match ← safeDecodeNext r' r'.first with
  | none => fin (.ok Subrange.default)
  | some (chCmp, itCmp) => do
    let itStr ← ptr r (r.first + offset)
    findFirstLoop r r' chCmp itCmp (r.last - r.first + 1) itStr itStr

/-- src/Ystring/Algorithms.cpp:618-629; `chCmp` is the last code point of `r'` and `itCmp` the place before it -/
def findLastLoop (r r' : Range) (chCmp : Char32) (itCmp : Nat) : (fuel : Nat) → (itStr itStrPrev : Nat) → Prog Subrange
  | 0, _, _ => fin (.error .diverge)
  | fuel + 1, itStr, itStrPrev => do
    match ← safeDecodePrev r itStrPrev with
    | none => fin (.ok Subrange.default)
    | some (chStr, itStrPrev) =>
      if caseInsensitiveEqual chStr chCmp then do
        let (a, b) ← prevMismatch r r' (r.last - r.first + 1) itStrPrev itCmp
        if b = r'.first then fin (.ok ⟨a - r.first, itStr - a⟩)
        else findLastLoop r r' chCmp itCmp fuel itStrPrev itStrPrev
      else findLastLoop r r' chCmp itCmp fuel itStrPrev itStrPrev

/-- src/Ystring/Algorithms.cpp:604-630 -/
def findLast (r r' : Range) (offset : Nat) : Prog Subrange := do
  match ← safeDecodePrev r' r'.last with
  | none => fin (.ok Subrange.default)
  | some (chCmp, itCmp) => do
    let offset := min offset (r.last - r.first)
    let itStr ← ptr r (r.first + offset)
    findLastLoop r r' chCmp itCmp (r.last - r.first + 1) itStr itStr

/-- `result.append(a, a + k)` (src/Ystring/Algorithms.cpp:436): every byte is read once; `result` is a new string -/
def copyOut (r : Range) : (k : Nat) → (a : Nat) → (result : Str) → Prog Str
  | 0, _, result => fin (.ok result)
  | k + 1, a, result => do
    let c ← load r a
    copyOut r k (a + 1) (result ++ [c])

/-- src/Ystring/Algorithms.cpp:432-441; `repl` are the bytes of the replacement -/
def replaceInvalidLoop (r : Range) (repl : Str) : (fuel : Nat) → (it prev : Nat) → (result : Str) → Prog Str
  | 0, _, _, _ => fin (.error .diverge)
  | fuel + 1, it, prev, result =>
    if it ≠ r.last then do
      let (ch, it) ← decodeNext r it
      if ch ≠ INVALID_CHAR then replaceInvalidLoop r repl fuel it prev result
      else do
        let result ← copyOut r (it - prev) prev result
        let (_, it) ← skipNext r it
        replaceInvalidLoop r repl fuel it it (result ++ repl)
    else copyOut r (r.last - prev) prev result

/-- src/Ystring/Algorithms.cpp:424-443 -/
def replaceInvalidUtf8 (r : Range) (chr : Char32) : Prog Str :=
  replaceInvalidLoop r (Ystring.encodeUtf8Buf chr 4).1 (r.last - r.first + 1) r.first r.first []

/-- src/Ystring/Escape.cpp:28-36: an offset relative to `r.first`; `std::find_if` as in `scan` -/
def findFirstEscapableChar (r : Range) (offset : Nat) : Prog Subrange := do
  let _ ← ptr r (r.first + offset)
  let size := r.last - r.first
  match ← scan r isEscapable (size - offset) offset with
  | none => fin (.ok ⟨size, 0⟩)
  | some i => fin (.ok ⟨i, 1⟩)

/-- src/Ystring/Escape.cpp:50-79: the bytes appended for `str[sub.offset]`, which is at `a`; the default case (lines 74-78) reads the byte
two more times -/
def escapeSequenceAt (r : Range) (a : Nat) : Prog Str := do
  let c ← load r a
  if c = 0x08 then fin (.ok [0x5C, 0x62])
  else if c = 0x0C then fin (.ok [0x5C, 0x66])
  else if c = 0x0A then fin (.ok [0x5C, 0x6E])
  else if c = 0x0D then fin (.ok [0x5C, 0x72])
  else if c = 0x09 then fin (.ok [0x5C, 0x74])
  else if c = 0x22 then fin (.ok [0x5C, 0x22])
  else if c = 0x5C then fin (.ok [0x5C, 0x5C])
  else do
    let c1 ← load r a
    let c2 ← load r a
    fin (.ok [0x5C, 0x75, 0x30, 0x30, toDigit ((c1 &&& 0xF0) >>> 4), toDigit (c2 &&& 0xF)])

/-- src/Ystring/Escape.cpp:45-83: the `while` loop and the final append -/
def escapeJsonLoop (r : Range) : (fuel : Nat) → (offset : Nat) → (result : Str) → Prog Str
  | 0, _, _ => fin (.error .diverge)
  | fuel + 1, offset, result => do
    let sub ← findFirstEscapableChar r offset
    if sub.nonempty then do
      let result ← copyOut r (sub.offset - offset) (r.first + offset) result
      let e ← escapeSequenceAt r (r.first + sub.offset)
      escapeJsonLoop r fuel sub.stop (result ++ e)
    else copyOut r (r.last - r.first - offset) (r.first + offset) result

/-- src/Ystring/Escape.cpp:43-84 -/
def escapeJson (r : Range) : Prog Str := escapeJsonLoop r (r.last - r.first + 1) 0 []

end Ystring.Thr
