import Verif.Model.Utf8
import Verif.Model.Tables.Normalization
/-
Model of src/Ystring/Normalize.cpp.
Simplification: the output parameter `str` of `decompose_char` is a list of the size of the buffer; elements are
overwritten with `List.set`.
-/
namespace Ystring

/-- src/Ystring/Normalize.cpp:20-31, for any contents `tbl` of TO_DECOMPOSED. `uint64_t(ch) << 40u` is computed modulo 2^64,
`char32_t(*it >> 40u)` modulo 2^32. -/
def findDecomposedIn (tbl : List Nat) (ch : Char32) : Char32 × Char32 :=
  if ch < 0xC0 then (ch, 0)
  else
    let key := ch.toNat * 2 ^ 40 % 2 ^ 64
    let it := lowerBound (fun i => tbl.getD i 0 < key) tbl.length
    if it = tbl.length ∨ tbl.getD it 0 / 2 ^ 40 % 2 ^ 32 ≠ ch.toNat then (ch, 0)
    else (UInt32.ofNat (tbl.getD it 0 / 2 ^ 20 % 2 ^ 20), UInt32.ofNat (tbl.getD it 0 % 2 ^ 20))

/-- src/Ystring/Normalize.cpp:20-31 -/
def findDecomposed (ch : Char32) : Char32 × Char32 := findDecomposedIn TO_DECOMPOSED ch

/-- src/Ystring/Normalize.cpp:33-44, for any contents `tbl` of TO_COMPOSED. Line 41 compares the iterator into TO_COMPOSED
with the end of the other array, TO_DECOMPOSED, so the end of TO_COMPOSED is dereferenced when no element is at least the
key. (Assumption: the start of TO_COMPOSED does not happen to be the end of TO_DECOMPOSED. The language leaves it open
whether these pointers are equal; if they are, '<' followed by U+0338 is not composed.) `char32_t(*it >> 20u)` is truncated
to 32 bits before the comparison with the 64-bit key. -/
def findComposedIn (tbl : List Nat) (ch mark : Char32) : Res Char32 :=
  if mark < 0x300 then .ok 0
  else
    let key := (ch.toNat * 2 ^ 20 % 2 ^ 64) ||| mark.toNat
    let it := lowerBound (fun i => tbl.getD i 0 < key * 2 ^ 20 % 2 ^ 64) tbl.length
    if it = tbl.length then .error .ub
    else if tbl.getD it 0 / 2 ^ 20 % 2 ^ 32 ≠ key then .ok 0
    else .ok (UInt32.ofNat (tbl.getD it 0 % 2 ^ 20))

/-- src/Ystring/Normalize.cpp:33-44 -/
def findComposed (ch mark : Char32) : Res Char32 := findComposedIn TO_COMPOSED ch mark

/-- src/Ystring/Normalize.cpp:50-54 -/
def decomposedSizeLoop : (fuel : Nat) → (mark : Char32) → (n : Nat) → Res Nat
  | 0, _, _ => .error .diverge
  | fuel + 1, mark, n =>
    if mark = 0 then .ok n
    else decomposedSizeLoop fuel (findDecomposed mark).2 (n + 1)

/-- src/Ystring/Normalize.cpp:46-56 (the loop looks up `mark`, not `norm`). The fuel is the size of the table. -/
def getDecomposedSize (ch : Char32) : Res Nat :=
  decomposedSizeLoop (TO_DECOMPOSED.length + 1) (findDecomposed ch).2 1

/-- `str[i] = c`, as in src/Ystring/Normalize.cpp:67, 80-81, 87, 92 and 95. -/
def bufSet (str : List Char32) (i : Nat) (c : Char32) : Res (List Char32) :=
  if i < str.length then .ok (str.set i c) else .error .ub

/-- Result of `decompose_char`: the returned pair and the new contents of the buffer
(src/Ystring/Normalize.cpp:58-59). -/
structure DecomposeResult where
  ok : Bool
  size : Nat
  buf : List Char32
  deriving DecidableEq

/-- src/Ystring/Normalize.cpp:88-99 -/
def decomposeLoop (ch : Char32) : (fuel : Nat) → (str : List Char32) → (i : Nat) → (norm mark : Char32) →
    Res DecomposeResult
  | 0, _, _, _, _ => .error .diverge
  | fuel + 1, str, i, norm, mark =>
    if mark ≠ 0 then
      if i + 1 = str.length then do
        let n ← getDecomposedSize ch
        .ok ⟨false, n, str⟩
      else do
        let str ← bufSet str i mark
        let (norm, mark) := findDecomposed norm
        decomposeLoop ch fuel str (i + 1) norm mark
    else do
      let str ← bufSet str i norm
      .ok ⟨true, i + 1, (str.take (i + 1)).reverse ++ str.drop (i + 1)⟩

/-- src/Ystring/Normalize.cpp:58-100 -/
def decomposeChar (ch : Char32) (str : List Char32) : Res DecomposeResult :=
  if str.length = 0 then do
    let n ← getDecomposedSize ch
    .ok ⟨false, n, str⟩
  else
    let (norm, mark) := findDecomposed ch
    if mark = 0 then do
      let str ← bufSet str 0 norm
      .ok ⟨true, 1, str⟩
    else if str.length < 2 then do
      let n ← getDecomposedSize ch
      .ok ⟨false, n, str⟩
    else
      let mark2 := mark
      let (norm, mark) := findDecomposed norm
      if mark = 0 then do
        let str ← bufSet str 0 norm
        let str ← bufSet str 1 mark2
        .ok ⟨true, 2, str⟩
      else do
        let str ← bufSet str 0 mark2
        decomposeLoop ch (str.length + 1) str 1 norm mark

/-- `str.resize(n)` of a `std::u32string`: src/Ystring/Normalize.cpp:160 and 187. -/
def resize32 (str : List Char32) (n : Nat) : List Char32 := str.take n ++ List.replicate (n - str.length) 0

/-- src/Ystring/Normalize.cpp:183-191 -/
def decompose (ch : Char32) : Res (List Char32) := do
  let r ← decomposeChar ch [0, 0, 0]
  let str := resize32 r.buf r.size
  if !r.ok then do
    let r ← decomposeChar ch str
    .ok r.buf
  else .ok str

/-- src/Ystring/Normalize.cpp:158-162: the buffer and the final `size`. -/
def growLoop (ch : Char32) : (fuel : Nat) → (buffer : List Char32) → (ok : Bool) → (size : Nat) →
    Res (List Char32 × Nat)
  | 0, _, _, _ => .error .diverge
  | fuel + 1, buffer, ok, size =>
    if !ok then do
      let r ← decomposeChar ch (resize32 buffer size)
      growLoop ch fuel r.buf r.ok r.size
    else .ok (buffer, size)

/-- `result.append(from, to)` for iterators into the same string, given by the bytes that remain: the bytes
appended. src/Ystring/Normalize.cpp:124, 142, 172 and 179. -/
def between («from» to : Str) : Res Str :=
  if to.length ≤ «from».length then .ok («from».take («from».length - to.length)) else .error .ub

/-- src/Ystring/Normalize.cpp:155-178: the final `result`, `from` and `to`. `growFuel` bounds the number of iterations
of the inner loop (lines 158-162). -/
def toDecomposedLoop (growFuel : Nat) : (fuel : Nat) → (buffer : List Char32) → (result «from» it to : Str) →
    Res (Str × Str × Str)
  | 0, _, _, _, _, _ => .error .diverge
  | fuel + 1, buffer, result, «from», it, to => do
    match ← safeDecodeNext it with
    | none => .ok (result, «from», to)
    | some (ch, it) =>
      let r ← decomposeChar ch buffer
      let (buffer, size) ← growLoop ch growFuel r.buf r.ok r.size
      if size = 1 then toDecomposedLoop growFuel fuel buffer result «from» it it
      else do
        let t ← between «from» to
        if size ≤ buffer.length then
          toDecomposedLoop growFuel fuel buffer (result ++ t ++ (buffer.take size).flatMap encodeUtf8) it it it
        else .error .ub

/-- src/Ystring/Normalize.cpp:146-181. The inner loop that grows the buffer has no bound in the code; here it is cut off
after `growFuel` iterations (see C54_to_decomposed and C54_false_to_decomposed: the result does not depend on it). -/
def toDecomposed (str : Str) (growFuel : Nat := 100) : Res Str := do
  let (result, «from», to) ← toDecomposedLoop growFuel (str.length + 1) [0, 0, 0] [] str str str
  let t ← between «from» to
  .ok (result ++ t)

/-- src/Ystring/Normalize.cpp:126-136: the final `ch`, `mark`, `it` and `from` (= `prev` = `to`). -/
def composeRun : (fuel : Nat) → (ch mark : Char32) → (it : Str) → Res (Char32 × Char32 × Str × Str)
  | 0, _, _, _ => .error .diverge
  | fuel + 1, ch, mark, it => do
    let «from» := it
    match ← safeDecodeNext it with
    | none => .ok (ch, mark, it, «from»)
    | some (mark, it) =>
      let denorm ← findComposed ch mark
      if denorm = 0 then .ok (ch, mark, it, «from»)
      else composeRun fuel denorm mark it

/-- src/Ystring/Normalize.cpp:114-141: the final `result`, `from` and `prev`. -/
def toComposedLoop (runFuel : Nat) : (fuel : Nat) → (ch : Char32) → (result «from» it to prev : Str) → Res (Str × Str × Str)
  | 0, _, _, _, _, _, _ => .error .diverge
  | fuel + 1, ch, result, «from», it, to, prev => do
    match ← safeDecodeNext it with
    | none => .ok (result, «from», prev)
    | some (mark, it) =>
      let denorm ← findComposed ch mark
      if denorm = 0 then toComposedLoop runFuel fuel mark result «from» it prev it
      else do
        let t ← between «from» to
        let (ch, mark, it, «from») ← composeRun runFuel denorm mark it
        toComposedLoop runFuel fuel mark (result ++ t ++ encodeUtf8 ch) «from» it «from» «from»

/-- src/Ystring/Normalize.cpp:103-144 -/
def toComposed (str : Str) : Res Str := do
  match ← safeDecodeNext str with
  | none => .ok []
  | some (ch, it) =>
    let (result, «from», prev) ← toComposedLoop (str.length + 1) (str.length + 1) ch [] str it str it
    let t ← between «from» prev
    .ok (result ++ t)

end Ystring
