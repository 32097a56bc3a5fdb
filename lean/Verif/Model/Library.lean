import Verif.Model.Algorithms
import Verif.Model.Escape
import Verif.Model.Unescape
import Verif.Model.Normalize
/-
The functions of the code that call an algorithm of the C++ standard library, with the implementation of these algorithms as
a parameter.  The other models use one particular implementation (Verif/Model/Basic.lean: a bisection for `lower_bound`,
linear scans for the others).  Everything else in the code reaches the algorithms only through the functions of this file.
-/
namespace Ystring.Lib

/-- An implementation of the algorithms of the header `<algorithm>` that the code calls. Iterators into a range are indices into
a list. (`std::lower_bound`: src/Ystring/CharClass.cpp:66, src/Ystring/Normalize.cpp:24, 38, src/Ystring/ConvertCase.cpp:27 and
45; `std::search`: src/Ystring/Algorithms.cpp:90 and 364; `std::find`: src/Ystring/Char32Set.cpp:69; `std::find_if`:
src/Ystring/Char32Set.cpp:74, src/Ystring/Escape.cpp:31, src/Ystring/Unescape.cpp:116; `std::any_of`:
src/Ystring/Char32Set.cpp:37 and 44; `std::mismatch`: src/Ystring/AlgorithmUtilities.hpp:25.) -/
structure Algorithms where
  /-- `std::lower_bound(first, last, key, comp) - first`; the function tells whether an element is less than the key. -/
  lowerBound : {α : Type} → List α → (α → Bool) → Nat
  /-- `std::search(first, last, s_first, s_last) - first` -/
  search : Str → Str → Nat
  /-- `std::find_if(first, last, pred) - first`; `std::find` is the predicate "equal to the value". -/
  findIf : {α : Type} → List α → (α → Bool) → Nat
  /-- `std::any_of` -/
  anyOf : {α : Type} → List α → (α → Bool) → Bool
  /-- `std::mismatch(first1, last1, first2, last2)`: the distance by which both iterators have moved -/
  mismatch : Str → Str → Nat

variable (L : Algorithms)

/-- src/Ystring/CharClass.cpp:61-73 -/
def getCharClass (codePoint : Char32) : CharClassT :=
  if codePoint < 128 then 1 <<< UInt32.ofNat (ASCII_CHAR_CLASSES.getD codePoint.toNat 0)
  else
    let key : UInt32 := codePoint <<< 11
    let it := L.lowerBound COMPLETE_CHAR_CLASSES (fun e => e < key.toNat)
    match COMPLETE_CHAR_CLASSES[it]? with
    | none => CharClass.UNASSIGNED
    | some e => 1 <<< decodeCharClass codePoint (UInt32.ofNat e)

/-- src/Ystring/ConvertCase.cpp:22-38 -/
def findInCompactMapping (mapping : List CompactRow) (codepoint : Char32) : Option Char32 :=
  let key := (codepoint &&& SEGMENT_MASK).toNat
  let set := L.lowerBound mapping (fun row => row.1 < key)
  match mapping[set]? with
  | none => none
  | some row => if row.1 ≠ key then none else CompactRow.get row codepoint

/-- src/Ystring/ConvertCase.cpp:40-55 -/
def findInMapping (mapping : List (Nat × Nat)) (codepoint : Char32) : Option Char32 :=
  let it := L.lowerBound mapping (fun p => p.1 < codepoint.toNat)
  match mapping[it]? with
  | none => none
  | some p => if p.1 ≠ codepoint.toNat then none else some (UInt32.ofNat p.2)

/-- src/Ystring/ConvertCase.cpp:57-68 -/
def convert (compact : List CompactRow) (mapping : List (Nat × Nat)) (codepoint : Char32) : Char32 :=
  match findInCompactMapping L compact codepoint with
  | some c => c
  | none =>
    match findInMapping L mapping codepoint with
    | some c => c
    | none => codepoint

/-- src/Ystring/ConvertCase.cpp:71-84 -/
def toLowerChar (codepoint : Char32) : Char32 :=
  if codepoint < 128 then
    if 0x41 ≤ codepoint ∧ codepoint ≤ 0x5A then codepoint + 32 else codepoint
  else convert L COMPACT_LOWER_CASE LOWER_CASE codepoint

/-- src/Ystring/ConvertCase.cpp:86-99 -/
def toTitleChar (codepoint : Char32) : Char32 :=
  if codepoint < 128 then
    if 0x61 ≤ codepoint ∧ codepoint ≤ 0x7A then codepoint - 32 else codepoint
  else convert L COMPACT_TITLE_CASE TITLE_CASE codepoint

/-- src/Ystring/ConvertCase.cpp:101-114 -/
def toUpperChar (codepoint : Char32) : Char32 :=
  if codepoint < 128 then
    if 0x61 ≤ codepoint ∧ codepoint ≤ 0x7A then codepoint - 32 else codepoint
  else convert L COMPACT_UPPER_CASE UPPER_CASE codepoint

/-- src/Ystring/Normalize.cpp:20-31 -/
def findDecomposed (ch : Char32) : Char32 × Char32 :=
  if ch < 0xC0 then (ch, 0)
  else
    let it := L.lowerBound TO_DECOMPOSED (fun e => e < ch.toNat * 2 ^ 40 % 2 ^ 64)
    match TO_DECOMPOSED[it]? with
    | none => (ch, 0)
    | some e =>
      if e / 2 ^ 40 % 2 ^ 32 ≠ ch.toNat then (ch, 0)
      else (UInt32.ofNat (e / 2 ^ 20 % 2 ^ 20), UInt32.ofNat (e % 2 ^ 20))

/-- src/Ystring/Normalize.cpp:33-44 (line 41 compares with the end of the wrong array, see `Ystring.findComposedIn`) -/
def findComposed (ch mark : Char32) : Res Char32 :=
  if mark < 0x300 then .ok 0
  else
    let key := (ch.toNat * 2 ^ 20 % 2 ^ 64) ||| mark.toNat
    let it := L.lowerBound TO_COMPOSED (fun e => e < key * 2 ^ 20 % 2 ^ 64)
    match TO_COMPOSED[it]? with
    | none => .error .ub
    | some e => if e / 2 ^ 20 % 2 ^ 32 ≠ key then .ok 0 else .ok (UInt32.ofNat (e % 2 ^ 20))

/-- include/Ystring/CaseInsensitive.hpp:22-25 -/
def caseInsensitiveEqual (lhs rhs : Char32) : Bool := toUpperChar L lhs == toUpperChar L rhs

/-- include/Ystring/CaseInsensitive.hpp:27-30 -/
def caseInsensitiveLess (lhs rhs : Char32) : Bool := toUpperChar L lhs < toUpperChar L rhs

/-- src/Ystring/Char32Set.cpp:35-40 -/
def setContains (set : CodepointSet) (cp : Char32) : Bool :=
  L.anyOf set.ranges (fun r => r.1 ≤ cp && cp ≤ r.2) != set.negated

/-- src/Ystring/Char32Set.cpp:42-52 -/
def setCaseInsensitiveContains (set : CodepointSet) (cp : Char32) : Bool :=
  L.anyOf set.ranges (fun r =>
    if r.1 = r.2 then caseInsensitiveEqual L cp r.1
    else !caseInsensitiveLess L cp r.1 && !caseInsensitiveLess L r.2 cp) != set.negated

/-- src/Ystring/Char32Set.cpp:67-70 -/
def u32Contains (span : List Char32) (cp : Char32) : Bool := L.findIf span (fun c => c == cp) ≠ span.length

/-- src/Ystring/Char32Set.cpp:72-77 -/
def u32CaseInsensitiveContains (span : List Char32) (cp : Char32) : Bool :=
  L.findIf span (fun c => caseInsensitiveEqual L cp c) ≠ span.length

/-- src/Ystring/Algorithms.cpp:86-95 -/
def findFirst (str cmp : Str) (offset : Nat := 0) : Res Subrange := do
  let rest ← iterAt str offset
  let i := L.search rest cmp
  if i = rest.length then .ok ⟨str.length, 0⟩
  else .ok ⟨offset + i, cmp.length⟩

/-- src/Ystring/AlgorithmUtilities.hpp:23-31: the loop; `it` is the offset of `it`, the pair the offsets of the two iterators
returned (`its.second == cmpEnd` if the iterators have moved by the length of `cmp`). -/
def searchLastLoop (str cmp : Str) : (it : Nat) → Nat × Nat
  | 0 =>
    let k := L.mismatch str cmp
    if k = cmp.length then (0, k) else (0, 0)
  | it + 1 =>
    let k := L.mismatch (str.drop (it + 1)) cmp
    if k = cmp.length then (it + 1, it + 1 + k) else searchLastLoop str cmp it

/-- src/Ystring/AlgorithmUtilities.hpp:14-33 -/
def searchLast (str cmp : Str) : Nat × Nat :=
  let n := cmp.length
  if n = 0 ∨ str.length < n then (0, 0)
  else searchLastLoop L str cmp (str.length - n)

/-- src/Ystring/Algorithms.cpp:125-134 -/
def findLast (str cmp : Str) (offset : Nat := npos) : Subrange :=
  let offset := min offset str.length
  let its := searchLast L (str.take offset) cmp
  ⟨its.1, its.2 - its.1⟩

/-- src/Ystring/AlgorithmUtilities.cpp:19-28 -/
def findLastNLoop (str cmp : Str) : (fuel : Nat) → (it maxCount : Nat) → (result : List Subrange) →
    Res (List Subrange)
  | 0, _, _, _ => .error .diverge
  | fuel + 1, it, maxCount, result =>
    let m := searchLast L (str.take it) cmp
    if m.1 = m.2 then .ok result
    else
      let result := result ++ [⟨m.1, cmp.length⟩]
      let maxCount := sizeSub maxCount 1
      if maxCount = 0 then .ok result
      else findLastNLoop str cmp fuel m.1 maxCount result

/-- src/Ystring/Algorithms.cpp:362-370 -/
def replaceFwdLoop («from» to : Str) : (maxReplacements : Nat) → (it result : Str) → Str × Str
  | 0, it, result => (it, result)
  | n + 1, it, result =>
    let i := L.search it «from»
    if i = it.length then (it, result)
    else replaceFwdLoop «from» to n (it.drop (i + «from».length)) (result ++ it.take i ++ to)

/-- src/Ystring/Algorithms.cpp:353-389 -/
def replace (str «from» to : Str) (maxReplacements : Int := PTRDIFF_MAX) : Res Str :=
  if maxReplacements ≥ 0 then
    let (it, result) := replaceFwdLoop L «from» to maxReplacements.toNat str []
    if it ≠ [] then .ok (result ++ it) else .ok result
  else if maxReplacements = PTRDIFF_MIN then .error .ub
  else do
    let ms ← findLastNLoop L str «from» (str.length + 1) str.length (-maxReplacements).toNat []
    let (prev, result) ← replaceBwdLoop str to ms.reverse 0 []
    if prev ≠ str.length then do
      let t ← substr str prev str.length
      .ok (result ++ t)
    else .ok result

/-- src/Ystring/Escape.cpp:28-36 -/
def findFirstEscapableChar (str : Str) (offset : Nat := 0) : Res Subrange :=
  if offset > str.length then .error .ub
  else
    let it := offset + L.findIf (str.drop offset) isEscapable
    .ok ⟨it, if it = str.length then 0 else 1⟩

/-- src/Ystring/Unescape.cpp:114-166 -/
def findFirstEscapedChar (str : Str) (offset : Nat := 0) : Res Subrange :=
  if offset > str.length then .error .ub
  else
    let start := offset + L.findIf (str.drop offset) (fun c => c == 0x5C)
    if start = str.length then .ok (Subrange.atOffset str.length)
    else
      match str[start + 1]? with
      | none => .error .ystring
      | some c =>
        if c = 0x58 ∨ c = 0x78 then
          checkLength start (findEndOfHexSequence str (start + 2) str.length) 4
        else if c = 0x75 then
          checkLength start (findEndOfHexSequence str (start + 2) (start + 6)) 6
        else if c = 0x55 then
          checkLength start (findEndOfHexSequence str (start + 2) (start + 10)) 10
        else if isOctDigit c then
          checkLength start (findEndOfOctSequence str (start + 1) (start + 4)) 2
        else if c &&& 0x80 = 0 then .ok ⟨start, 2⟩
        else .error .ystring

end Ystring.Lib
