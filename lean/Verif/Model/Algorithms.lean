import Verif.Model.CodepointSet
/-
Model of src/Ystring/Algorithms.cpp, include/Ystring/Algorithms.hpp, src/Ystring/AlgorithmUtilities.{cpp,hpp}
and include/Ystring/TokenIterator.hpp.

A position (iterator) in a string `str` is an offset when it is stored in a `size_t`, the remaining bytes
while it moves forwards and the reversed preceding bytes while it moves backwards.  `ptrdiff_t` values are
`Int`s; the callers' values are in `[PTRDIFF_MIN, PTRDIFF_MAX]`.
-/
namespace Ystring

/-- `str.begin() + offset` as a forward iterator; undefined if the offset is past the end.
Used in src/Ystring/Algorithms.cpp:90, 289, 567 and include/Ystring/Algorithms.hpp:137. -/
def iterAt (str : Str) (offset : Nat) : Res Str :=
  if offset > str.length then .error .ub else .ok (str.drop offset)

/-- `str.begin() + offset` as a backward iterator. Used in src/Ystring/Algorithms.cpp:130, 306, 615 and
include/Ystring/Algorithms.hpp:203. -/
def revIterAt (str : Str) (offset : Nat) : Res Str :=
  if offset > str.length then .error .ub else .ok (str.take offset).reverse

/-- `it - str.begin()` for a forward iterator (given by the bytes that remain).
Used in src/Ystring/Algorithms.cpp:105, 240, 266, 313, 577 and include/Ystring/Algorithms.hpp:142. -/
def posOf (str it : Str) : Nat := str.length - it.length

/-! ### Simple queries -/

/-- src/Ystring/Algorithms.cpp:49-54 -/
def containsLoop (chr : Char32) : (fuel : Nat) → (it : Str) → Res Bool
  | 0, _ => .error .diverge
  | fuel + 1, it => do
    match ← safeDecodeNext it with
    | none => .ok false
    | some (ch, it) => if ch = chr then .ok true else containsLoop chr fuel it

/-- src/Ystring/Algorithms.cpp:45-55 -/
def contains (str : Str) (chr : Char32) : Res Bool := containsLoop chr (str.length + 1) str

/-- src/Ystring/Algorithms.cpp:75-76 -/
def countCodepointsLoop : (fuel : Nat) → (it : Str) → (result : Nat) → Res Nat
  | 0, _, _ => .error .diverge
  | fuel + 1, it, result =>
    match skipNext it with
    | (false, _) => .ok result
    | (true, it) => countCodepointsLoop fuel it (result + 1)

/-- src/Ystring/Algorithms.cpp:70-78 -/
def countCodepoints (str : Str) : Res Nat := countCodepointsLoop (str.length + 1) str 0

/-- src/Ystring/Algorithms.cpp:80-84 -/
def endsWith (str cmp : Str) : Res Bool :=
  if str.length ≥ cmp.length then do
    let t ← substr str (str.length - cmp.length)
    .ok (t == cmp)
  else .ok false

/-- src/Ystring/Algorithms.cpp:493-496 -/
def startsWith (str cmp : Str) : Res Bool :=
  if cmp.length ≤ str.length then do
    let t ← substr str 0 cmp.length
    .ok (t == cmp)
  else .ok false

/-- src/Ystring/Algorithms.cpp:345-349 -/
def isValidUtf8Loop : (fuel : Nat) → (it : Str) → Res Bool
  | 0, _ => .error .diverge
  | fuel + 1, it =>
    if it ≠ [] then do
      let (ch, it) ← decodeNext it
      if ch = INVALID_CHAR then .ok false
      else isValidUtf8Loop fuel it
    else .ok true

/-- src/Ystring/Algorithms.cpp:342-351 -/
def isValidUtf8 (str : Str) : Res Bool := isValidUtf8Loop (str.length + 1) str

/-! ### Searching -/

/-- src/Ystring/Algorithms.cpp:86-95 -/
def findFirst (str cmp : Str) (offset : Nat := 0) : Res Subrange := do
  let rest ← iterAt str offset
  let i := stdSearch cmp rest
  if i = rest.length then .ok ⟨str.length, 0⟩
  else .ok ⟨offset + i, cmp.length⟩

/-- src/Ystring/AlgorithmUtilities.hpp:23-31: the loop; `it` is the offset of `it`. -/
def searchLastLoop (str cmp : Str) : (it : Nat) → Nat × Nat
  | 0 => if cmp.isPrefixOf str then (0, cmp.length) else (0, 0)
  | it + 1 =>
    if cmp.isPrefixOf (str.drop (it + 1)) then (it + 1, it + 1 + cmp.length)
    else searchLastLoop str cmp it

/-- src/Ystring/AlgorithmUtilities.hpp:14-33: offsets of the two iterators returned; `str` is
`[beg, end)`. -/
def searchLast (str cmp : Str) : Nat × Nat :=
  let n := cmp.length
  if n = 0 ∨ str.length < n then (0, 0)
  else searchLastLoop str cmp (str.length - n)

/-- src/Ystring/Algorithms.cpp:125-134 -/
def findLast (str cmp : Str) (offset : Nat := npos) : Subrange :=
  let offset := min offset str.length
  let its := searchLast (str.take offset) cmp
  ⟨its.1, its.2 - its.1⟩

/-- include/Ystring/Algorithms.hpp:139-144 -/
def findFirstWhereLoop (str : Str) (pred : Char32 → Bool) : (fuel : Nat) → (it prev : Str) →
    Res (Subrange × Char32)
  | 0, _, _ => .error .diverge
  | fuel + 1, it, prev => do
    match ← safeDecodeNext it with
    | none => .ok (⟨npos, 0⟩, INVALID_CHAR)
    | some (ch, it) =>
      if pred ch then .ok (⟨posOf str prev, posOf str it - posOf str prev⟩, ch)
      else findFirstWhereLoop str pred fuel it it

/-- include/Ystring/Algorithms.hpp:131-146 -/
def findFirstWhere (str : Str) (pred : Char32 → Bool) (offset : Nat := 0) : Res (Subrange × Char32) := do
  let it ← iterAt str offset
  findFirstWhereLoop str pred (str.length + 1) it it

/-- include/Ystring/Algorithms.hpp:205-210. `it`, `stop` (`end` in the code) are reversed prefixes. -/
def findLastWhereLoop (pred : Char32 → Bool) : (fuel : Nat) → (it stop : Str) → Res (Subrange × Char32)
  | 0, _, _ => .error .diverge
  | fuel + 1, it, stop => do
    match ← safeDecodePrev it with
    | none => .ok (⟨npos, 0⟩, INVALID_CHAR)
    | some (ch, it) =>
      if pred ch then .ok (⟨it.length, stop.length - it.length⟩, ch)
      else findLastWhereLoop pred fuel it it

/-- include/Ystring/Algorithms.hpp:196-212 -/
def findLastWhere (str : Str) (pred : Char32 → Bool) (offset : Nat := npos) : Res (Subrange × Char32) :=
  let offset := min offset str.length
  let it := (str.take offset).reverse
  findLastWhereLoop pred (str.length + 1) it it

/-- src/Ystring/Algorithms.cpp:109-115 -/
def findFirstOf (str : Str) (chars : List Char32) (offset : Nat := 0) : Res (Subrange × Char32) :=
  findFirstWhere str (u32Contains chars) offset

/-- src/Ystring/Algorithms.cpp:117-123 -/
def findFirstOfSet (str : Str) (chars : CodepointSet) (offset : Nat := 0) : Res (Subrange × Char32) :=
  findFirstWhere str chars.contains offset

/-- src/Ystring/Algorithms.cpp:148-155 -/
def findLastOf (str : Str) (chars : List Char32) (offset : Nat := npos) : Res (Subrange × Char32) :=
  findLastWhere str (u32Contains chars) offset

/-- src/Ystring/Algorithms.cpp:157-164 -/
def findLastOfSet (str : Str) (chars : CodepointSet) (offset : Nat := npos) : Res (Subrange × Char32) :=
  findLastWhere str chars.contains offset

/-- Conversion of a `char32_t` array that is not zero terminated to `std::u32string_view` through the
constructor from a pointer, as in `find_first_of(str, NEWLINES, offset)`
(src/Ystring/Algorithms.cpp:99, 138, include/Ystring/Algorithms.hpp:547, 556, 579): `char_traits::length` reads past the
end of the array until it meets a zero. `mem` is what it finds in memory behind the array, up to that zero (any
read behind the array is undefined behaviour in the C++ standard; with `mem = []` the program works as
intended). -/
def pointerView (array mem : List Char32) : List Char32 := array ++ mem

/-- src/Ystring/Algorithms.cpp:20-28 -/
def NEWLINES : List Char32 := [0x0A, 0x0B, 0x0C, 0x0D, NEXT_LINE, LINE_SEPARATOR, PARAGRAPH_SEPARATOR]

/-- include/Ystring/Algorithms.hpp:30 -/
def COMMON_WHITESPACE : List Char32 := [0x20, 0x09, 0x0A, 0x0D]

/-- src/Ystring/Algorithms.cpp:97-107; `mem`: see `pointerView`. -/
def findFirstNewline (mem : List Char32) (str : Str) (offset : Nat := 0) : Res Subrange := do
  let (s, c) ← findFirstOf str (pointerView NEWLINES mem) offset
  if c ≠ 0x0D then .ok s
  else
    let it ← iterAt str s.stop
    match ← safeDecodeNext it with
    | none => .ok s
    | some (ch, it) =>
      if ch = 0x0A then .ok ⟨s.start, sizeSub (posOf str it) s.start⟩ else .ok s

/-- src/Ystring/Algorithms.cpp:136-146; `mem`: see `pointerView`. -/
def findLastNewline (mem : List Char32) (str : Str) (offset : Nat := npos) : Res Subrange := do
  let (s, c) ← findLastOf str (pointerView NEWLINES mem) offset
  if c ≠ 0x0A then .ok s
  else
    let it ← revIterAt str s.start
    match ← safeDecodePrev it with
    | none => .ok s
    | some (ch, it) =>
      if ch = 0x0D then .ok ⟨it.length, sizeSub s.stop it.length⟩ else .ok s

/-! ### Characters (code points with their combining marks) -/

/-- src/Ystring/Algorithms.cpp:295-299: returns the final value of `end`. -/
def nextCharLoop : (fuel : Nat) → (it stop : Str) → Res Str
  | 0, _, _ => .error .diverge
  | fuel + 1, it, stop => do
    match ← safeDecodeNext it with
    | none => .ok stop
    | some (ch, it) => if isMark ch then nextCharLoop fuel it it else .ok stop

/-- src/Ystring/Algorithms.cpp:287-302 -/
def getNextCharRange (str : Str) (offset : Nat) : Res Subrange := do
  let it ← iterAt str offset
  match ← safeDecodeNext it with
  | none => .ok ⟨offset, 0⟩
  | some (_, it) =>
    let stop ← nextCharLoop (str.length + 1) it it
    .ok ⟨offset, sizeSub (posOf str stop) offset⟩

/-- src/Ystring/Algorithms.cpp:308-311: returns the final value of `it` (a reversed prefix). -/
def prevCharLoop : (fuel : Nat) → (it : Str) → Res Str
  | 0, _ => .error .diverge
  | fuel + 1, it => do
    match ← safeDecodePrev it with
    | none => .ok it
    | some (ch, it) => if isMark ch then prevCharLoop fuel it else .ok it

/-- src/Ystring/Algorithms.cpp:304-315 -/
def getPrevCharRange (str : Str) (offset : Nat) : Res Subrange := do
  let it ← revIterAt str offset
  let it ← prevCharLoop (str.length + 1) it
  .ok ⟨it.length, sizeSub offset it.length⟩

/-- src/Ystring/Algorithms.cpp:61-66 -/
def countCharsLoop (str : Str) : (fuel offset count : Nat) → Res Nat
  | 0, _, _ => .error .diverge
  | fuel + 1, offset, count =>
    if offset ≠ str.length then do
      let range ← getNextCharRange str offset
      countCharsLoop str fuel range.stop (count + 1)
    else .ok count

/-- src/Ystring/Algorithms.cpp:57-68 -/
def countChars (str : Str) : Res Nat := countCharsLoop str (str.length + 1) 0 0

/-- src/Ystring/Algorithms.cpp:172-178 -/
def getCharPosFwd (str : Str) : (pos offset : Nat) → Res Nat
  | 0, offset => .ok offset
  | pos + 1, offset => do
    let range ← getNextCharRange str offset
    if !range.nonempty then .ok npos
    else getCharPosFwd str pos range.stop

/-- src/Ystring/Algorithms.cpp:183-189 -/
def getCharPosBwd (str : Str) : (pos offset : Nat) → Res Nat
  | 0, offset => .ok offset
  | pos + 1, offset => do
    let range ← getPrevCharRange str offset
    if !range.nonempty then .ok npos
    else getCharPosBwd str pos range.start

/-- src/Ystring/Algorithms.cpp:166-193 -/
def getCharPos (str : Str) (pos : Int) : Res Nat :=
  if pos ≥ 0 then getCharPosFwd str pos.toNat 0
  else getCharPosBwd str (-pos).toNat str.length

/-- src/Ystring/Algorithms.cpp:195-219 -/
def getCharRange (str : Str) (pos : Int) : Res Subrange :=
  if pos ≥ 0 then do
    let offset ← getCharPos str pos
    if offset = npos then .ok ⟨str.length, 0⟩
    else getNextCharRange str offset
  else if pos < -1 then do
    let offset ← getCharPos str (pos + 1)
    if offset = npos then .ok ⟨0, 0⟩
    else getPrevCharRange str offset
  else getPrevCharRange str str.length

/-! ### Code points by index -/

/-- src/Ystring/Algorithms.cpp:235-236 and 263-264: `while (pos > 0 && skip_next(it, end)) --pos;`
returns the final `pos` and `it`. -/
def skipNextN : (pos : Nat) → (it : Str) → Nat × Str
  | 0, it => (0, it)
  | pos + 1, it =>
    match skipNext it with
    | (false, it) => (pos + 1, it)
    | (true, it) => skipNextN pos it

/-- src/Ystring/Algorithms.cpp:246-247 and 271-272, `pos` counted towards 0 from above; `it` is a reversed
prefix. -/
def skipPrevN : (pos : Nat) → (it : Str) → Res (Nat × Str)
  | 0, it => .ok (0, it)
  | pos + 1, it => do
    match ← skipPrev it with
    | (false, it) => .ok (pos + 1, it)
    | (true, it) => skipPrevN pos it

/-- src/Ystring/Algorithms.cpp:229-254 -/
def getCodepoint (str : Str) (pos : Int) : Res (Subrange × Char32) :=
  if pos ≥ 0 then do
    let (_, prev) := skipNextN pos.toNat str
    match ← safeDecodeNext prev with
    | some (ch, it) => .ok (⟨posOf str prev, posOf str it - posOf str prev⟩, ch)
    | none => .ok (⟨str.length, 0⟩, INVALID_CHAR)
  else do
    let (_, next) ← skipPrevN (-pos - 1).toNat str.reverse
    match ← safeDecodePrev next with
    | some (ch, it) => .ok (⟨it.length, next.length - it.length⟩, ch)
    | none => .ok (⟨0, 0⟩, INVALID_CHAR)

/-- src/Ystring/Algorithms.cpp:256-277. `std::abs(PTRDIFF_MIN)` is undefined. -/
def getCodepointPos (str : Str) (pos : Int) : Res Nat :=
  if pos = PTRDIFF_MIN then .error .ub
  else if (pos.natAbs : Int) > str.length then .ok npos
  else if pos ≥ 0 then
    match skipNextN pos.toNat str with
    | (0, it) => .ok (posOf str it)
    | _ => .ok npos
  else do
    match ← skipPrevN (-pos).toNat str.reverse with
    | (0, it) => .ok it.length
    | _ => .ok npos

/-! ### Substrings, insertion -/

/-- src/Ystring/AlgorithmUtilities.cpp:32-37 -/
def getCappedCharPos (str : Str) (pos : Int) : Res Nat := do
  let p ← getCharPos str pos
  if p ≠ npos then .ok p
  else .ok (if pos > 0 then str.length else 0)

/-- src/Ystring/AlgorithmUtilities.cpp:39-44 -/
def getCappedCodepointPos (str : Str) (pos : Int) : Res Nat := do
  let p ← getCodepointPos str pos
  if p ≠ npos then .ok p
  else .ok (if pos > 0 then str.length else 0)

/-- src/Ystring/AlgorithmUtilities.cpp:50-51 and 82-83 -/
def adjustEnd (startIndex endIndex : Int) : Int :=
  if endIndex < startIndex ∧ (decide (startIndex ≥ 0) = decide (endIndex ≥ 0)) then startIndex else endIndex

/-- src/Ystring/AlgorithmUtilities.cpp:46-76 -/
def getCharSubstringRange (str : Str) (startIndex endIndex : Int) : Res Subrange := do
  let endIndex := adjustEnd startIndex endIndex
  if startIndex ≥ 0 ∧ endIndex ≥ 0 then
    let s ← getCappedCharPos str startIndex
    let e ← getCappedCharPos (← substr str s) (endIndex - startIndex)
    .ok ⟨s, e⟩
  else if startIndex < 0 ∧ endIndex < 0 then
    let e ← getCappedCharPos str endIndex
    let s ← getCappedCharPos (← substr str 0 e) (startIndex - endIndex)
    .ok ⟨s, sizeSub e s⟩
  else if startIndex ≥ 0 ∧ endIndex < 0 then
    let s ← getCappedCharPos str startIndex
    let e ← getCappedCharPos (← substr str s) endIndex
    .ok ⟨s, sizeSub e s⟩
  else
    let s ← getCappedCharPos str startIndex
    let e ← getCappedCharPos str endIndex
    .ok ⟨s, if e > s then e - s else 0⟩

/-- src/Ystring/AlgorithmUtilities.cpp:78-108 -/
def getCodepointSubstringRange (str : Str) (startIndex endIndex : Int) : Res Subrange := do
  let endIndex := adjustEnd startIndex endIndex
  if startIndex ≥ 0 ∧ endIndex ≥ 0 then
    let s ← getCappedCodepointPos str startIndex
    let e ← getCappedCodepointPos (← substr str s) (endIndex - startIndex)
    .ok ⟨s, e⟩
  else if startIndex < 0 ∧ endIndex < 0 then
    let e ← getCappedCodepointPos str endIndex
    let s ← getCappedCodepointPos (← substr str 0 e) (startIndex - endIndex)
    .ok ⟨s, sizeSub e s⟩
  else if startIndex ≥ 0 ∧ endIndex < 0 then
    let s ← getCappedCodepointPos str startIndex
    let e ← getCappedCodepointPos (← substr str s) endIndex
    .ok ⟨s, e⟩
  else
    let s ← getCappedCodepointPos str startIndex
    let e ← getCappedCodepointPos str endIndex
    .ok ⟨s, max s e⟩

/-- src/Ystring/Algorithms.cpp:221-227 -/
def getCharSubstring (str : Str) (startIndex : Int) (endIndex : Int := PTRDIFF_MAX) : Res Str := do
  let range ← getCharSubstringRange str startIndex endIndex
  substr str range.offset range.length

/-- src/Ystring/Algorithms.cpp:279-285 -/
def getCodepointSubstring (str : Str) (startIndex : Int) (endIndex : Int := PTRDIFF_MAX) : Res Str := do
  let range ← getCodepointSubstringRange str startIndex endIndex
  substr str range.offset range.length

/-- src/Ystring/AlgorithmUtilities.cpp:110-121 -/
def insertAtOffset (str : Str) (offset : Nat) (codepoints : Str) : Res Str :=
  if codepoints = [] then .ok str
  else if offset = npos then .error .ystring
  else do
    let a ← substr str 0 offset
    let b ← substr str offset
    .ok (a ++ codepoints ++ b)

/-- src/Ystring/AlgorithmUtilities.cpp:123-132 -/
def insertCodepointAtOffset (str : Str) (offset : Nat) (codepoint : Char32) : Res Str :=
  if offset = npos then .error .ystring
  else do
    let result ← substr str 0 offset
    let result ← append result codepoint
    let b ← substr str offset
    .ok (result ++ b)

/-- src/Ystring/AlgorithmUtilities.cpp:134-142 -/
def replaceSubrange (str : Str) (range : Subrange) (repl : Str) : Res Str := do
  let a ← substr str 0 range.start
  let b ← substr str range.stop
  .ok (a ++ repl ++ b)

/-- src/Ystring/Algorithms.cpp:317-321 -/
def insertChar (str : Str) (pos : Int) (chr : Char32) : Res Str := do
  insertCodepointAtOffset str (← getCharPos str pos) chr

/-- src/Ystring/Algorithms.cpp:323-327 -/
def insertChars (str : Str) (pos : Int) (sub : Str) : Res Str := do
  insertAtOffset str (← getCharPos str pos) sub

/-- src/Ystring/Algorithms.cpp:329-333 -/
def insertCodepoint (str : Str) (pos : Int) (codepoint : Char32) : Res Str := do
  insertCodepointAtOffset str (← getCodepointPos str pos) codepoint

/-- src/Ystring/Algorithms.cpp:335-340 -/
def insertCodepoints (str : Str) (pos : Int) (codepoints : Str) : Res Str := do
  insertAtOffset str (← getCodepointPos str pos) codepoints

/-- src/Ystring/Algorithms.cpp:391-397 -/
def replaceChars (str : Str) (start stop : Int) (repl : Str) : Res Str := do
  replaceSubrange str (← getCharSubstringRange str start stop) repl

/-- src/Ystring/Algorithms.cpp:399-405 -/
def replaceCodepoints (str : Str) (start stop : Int) (repl : Str) : Res Str := do
  replaceSubrange str (← getCodepointSubstringRange str start stop) repl

/-! ### replace, reverse, join -/

/-- src/Ystring/AlgorithmUtilities.cpp:19-28; `it` is the offset of `it`. -/
def findLastNLoop (str cmp : Str) : (fuel : Nat) → (it maxCount : Nat) → (result : List Subrange) →
    Res (List Subrange)
  | 0, _, _, _ => .error .diverge
  | fuel + 1, it, maxCount, result =>
    let m := searchLast (str.take it) cmp
    if m.1 = m.2 then .ok result
    else
      let result := result ++ [⟨m.1, cmp.length⟩]
      let maxCount := sizeSub maxCount 1
      if maxCount = 0 then .ok result
      else findLastNLoop str cmp fuel m.1 maxCount result

/-- src/Ystring/AlgorithmUtilities.cpp:12-30 -/
def findLastN (str cmp : Str) (maxCount : Nat) : Res (List Subrange) :=
  findLastNLoop str cmp (str.length + 1) str.length maxCount []

/-- src/Ystring/Algorithms.cpp:362-370: returns the final `it` and `result`. -/
def replaceFwdLoop («from» to : Str) : (maxReplacements : Nat) → (it result : Str) → Str × Str
  | 0, it, result => (it, result)
  | n + 1, it, result =>
    let i := stdSearch «from» it
    if i = it.length then (it, result)
    else replaceFwdLoop «from» to n (it.drop (i + «from».length)) (result ++ it.take i ++ to)

/-- src/Ystring/Algorithms.cpp:378-384; the list is `matches` in reverse order. -/
def replaceBwdLoop (str to : Str) : List Subrange → (prev : Nat) → (result : Str) → Res (Nat × Str)
  | [], prev, result => .ok (prev, result)
  | m :: ms, prev, result => do
    let result ←
      if m.offset ≠ prev then do
        let t ← substr str prev (sizeSub m.offset prev)
        .ok (result ++ t)
      else .ok result
    replaceBwdLoop str to ms m.stop (result ++ to)

/-- src/Ystring/Algorithms.cpp:353-389. `-max_replacements` is undefined for `PTRDIFF_MIN`. -/
def replace (str «from» to : Str) (maxReplacements : Int := PTRDIFF_MAX) : Res Str :=
  if maxReplacements ≥ 0 then
    let (it, result) := replaceFwdLoop «from» to maxReplacements.toNat str []
    if it ≠ [] then .ok (result ++ it) else .ok result
  else if maxReplacements = PTRDIFF_MIN then .error .ub
  else do
    let ms ← findLastN str «from» (-maxReplacements).toNat
    let (prev, result) ← replaceBwdLoop str to ms.reverse 0 []
    if prev ≠ str.length then do
      let t ← substr str prev str.length
      .ok (result ++ t)
    else .ok result

/-- src/Ystring/Algorithms.cpp:407-422 -/
def replaceCodepoint (str : Str) («from» to : Char32) (maxReplacements : Int := PTRDIFF_MAX) : Res Str :=
  let (f, fSize) := encodeUtf8Buf «from» 4
  let (t, tSize) := encodeUtf8Buf to 4
  if fSize = 0 then .error .ystring
  else if tSize = 0 then .error .ystring
  else replace str f t maxReplacements

/-- src/Ystring/Algorithms.cpp:432-441; `repl` are the bytes of the replacement. -/
def replaceInvalidLoop (repl : Str) : (fuel : Nat) → (it prev result : Str) → Res Str
  | 0, _, _, _ => .error .diverge
  | fuel + 1, it, prev, result =>
    if it ≠ [] then do
      let (ch, it) ← decodeNext it
      if ch ≠ INVALID_CHAR then replaceInvalidLoop repl fuel it prev result
      else
        let result := result ++ prev.take (prev.length - it.length)   -- result.append(prev, it)
        let result := result ++ repl
        let it := (skipNext it).2
        replaceInvalidLoop repl fuel it it result
    else .ok (result ++ prev)

/-- src/Ystring/Algorithms.cpp:424-443 -/
def replaceInvalidUtf8 (str : Str) (chr : Char32 := REPLACEMENT_CHARACTER) : Res Str :=
  replaceInvalidLoop (encodeUtf8Buf chr 4).1 (str.length + 1) str str []

/-- src/Ystring/Algorithms.cpp:445-450: the new value of `str`. -/
def replaceInvalidUtf8InPlace (str : Str) (chr : Char32 := REPLACEMENT_CHARACTER) : Res Str := do
  if !(← isValidUtf8 str) then replaceInvalidUtf8 str chr else .ok str

/-- src/Ystring/Algorithms.cpp:456-463 -/
def reverseLoop (str : Str) : (fuel offset : Nat) → (result : Str) → Res Str
  | 0, _, _ => .error .diverge
  | fuel + 1, offset, result =>
    if offset ≠ 0 then do
      let range ← getPrevCharRange str offset
      reverseLoop str fuel range.start (result ++ (str.drop range.start).take (range.stop - range.start))
    else .ok result

/-- src/Ystring/Algorithms.cpp:452-465 -/
def reverse (str : Str) : Res Str := reverseLoop str (str.length + 1) str.length []

/-- include/Ystring/Algorithms.hpp:360-373 -/
def join (parts : List Str) (delimiter : Str := []) : Str :=
  match parts with
  | [] => []
  | p :: ps => ps.foldl (fun result q => result ++ delimiter ++ q) p

/-! ### TokenIterator and split -/

/-- include/Ystring/TokenIterator.hpp:64-67; the finder is passed to `next`. -/
structure TokenIterator where
  str : Str
  token : Subrange
  deriving DecidableEq

namespace TokenIterator

/-- include/Ystring/TokenIterator.hpp:18-22 -/
def mk' (str : Str) : TokenIterator := ⟨str, ⟨0, 0⟩⟩

/-- include/Ystring/TokenIterator.hpp:24-27 -/
def toBool (t : TokenIterator) : Bool := t.token.nonempty

/-- include/Ystring/TokenIterator.hpp:29-39: the return value and the new state. -/
def next (finder : Str → Res Subrange) (t : TokenIterator) : Res (Bool × TokenIterator) :=
  let find (str : Str) : Res (Bool × TokenIterator) := do
    let token ← finder str
    if !token.nonempty then .ok (true, ⟨str, ⟨npos, token.length⟩⟩)
    else .ok (true, ⟨str, token⟩)
  if t.token.nonempty then do
    let str ← substr t.str t.token.stop
    find str
  else if t.token.start ≠ 0 then .ok (false, t)
  else find t.str

/-- include/Ystring/TokenIterator.hpp:41-49 -/
def part (t : TokenIterator) : Res Str :=
  if t.token.nonempty then substr t.str 0 t.token.start
  else if t.token.start ≠ 0 then .ok t.str
  else .ok []

/-- include/Ystring/TokenIterator.hpp:51-56 -/
def tokenStr (t : TokenIterator) : Res Str :=
  if !t.token.nonempty then .ok []
  else substr t.str t.token.start t.token.stop

/-- include/Ystring/TokenIterator.hpp:58-63 -/
def remainder (t : TokenIterator) : Res Str :=
  if t.token.nonempty ∨ t.token.start = 0 then substr t.str t.token.stop
  else .ok []

end TokenIterator

/-- include/Ystring/Algorithms.hpp:457-467 -/
structure SplitParams where
  maxSplits : Nat := npos
  ignoreEmpty : Bool := false
  deriving DecidableEq

/-- include/Ystring/Algorithms.hpp:469 -/
def IGNORE_EMPTY : SplitParams := ⟨npos, true⟩

/-- include/Ystring/Algorithms.hpp:517-522: the final iterator and result. -/
def splitLoop (finder : Str → Res Subrange) (params : SplitParams) : (fuel : Nat) → TokenIterator →
    List Str → Res (TokenIterator × List Str)
  | 0, _, _ => .error .diverge
  | fuel + 1, it, result =>
    if result.length < params.maxSplits then do
      let (more, it) ← it.next finder
      if more then do
        let part ← it.part
        if !params.ignoreEmpty || !part.isEmpty then splitLoop finder params fuel it (result ++ [part])
        else splitLoop finder params fuel it result
      else .ok (it, result)
    else .ok (it, result)

/-- include/Ystring/Algorithms.hpp:509-530 -/
def splitWhere (str : Str) (finder : Str → Res Subrange) (params : SplitParams := {}) : Res (List Str) := do
  let (it, result) ← splitLoop finder params (str.length + 2) (TokenIterator.mk' str) []
  if it.toBool then do
    let remainder ← it.remainder
    if !params.ignoreEmpty || !remainder.isEmpty then .ok (result ++ [remainder])
    else .ok result
  else .ok result

/-- src/Ystring/Algorithms.cpp:467-474 -/
def splitChars (str : Str) (chars : List Char32) (params : SplitParams := {}) : Res (List Str) :=
  splitWhere str (fun s => do let r ← findFirstOf s chars; .ok r.1) params

/-- src/Ystring/Algorithms.cpp:476-483 -/
def split (str sep : Str) (params : SplitParams := {}) : Res (List Str) :=
  splitWhere str (fun s => findFirst s sep) params

/-- src/Ystring/Algorithms.cpp:485-491; `mem`: see `pointerView`. -/
def splitLines (mem : List Char32) (str : Str) (params : SplitParams := {}) : Res (List Str) :=
  splitWhere str (fun s => findFirstNewline mem s) params

/-! ### trim -/

/-- include/Ystring/Algorithms.hpp:562-570 -/
def trimEndWhere (str : Str) (pred : Char32 → Bool) : Res Str := do
  let (sub, _) ← findLastWhere str (fun c => !pred c)
  if !sub.nonempty then .ok []
  else substr str 0 sub.stop

/-- include/Ystring/Algorithms.hpp:585-593 -/
def trimStartWhere (str : Str) (pred : Char32 → Bool) : Res Str := do
  let (sub, _) ← findFirstWhere str (fun c => !pred c)
  if !sub.nonempty then .ok []
  else substr str sub.start

/-- include/Ystring/Algorithms.hpp:599-605 -/
def trimWhere (str : Str) (pred : Char32 → Bool) : Res Str := do
  trimEndWhere (← trimStartWhere str pred) pred

/-- src/Ystring/Algorithms.cpp:503-506 -/
def trimEnd (str : Str) (chars : List Char32) : Res Str := trimEndWhere str (u32Contains chars)

/-- src/Ystring/Algorithms.cpp:508-511 -/
def trimStart (str : Str) (chars : List Char32) : Res Str := trimStartWhere str (u32Contains chars)

/-- src/Ystring/Algorithms.cpp:498-501 -/
def trim (str : Str) (chars : List Char32) : Res Str := do
  trimEnd (← trimStart str chars) chars

/-- include/Ystring/Algorithms.hpp:544-547: `trim(str)` with the default argument; `mem`: see
`pointerView`. -/
def trimDefault (mem : List Char32) (str : Str) : Res Str := trim str (pointerView COMMON_WHITESPACE mem)

/-- include/Ystring/Algorithms.hpp:554-556: `trim_end(str)`; `mem`: see `pointerView`. -/
def trimEndDefault (mem : List Char32) (str : Str) : Res Str := trimEnd str (pointerView COMMON_WHITESPACE mem)

/-- include/Ystring/Algorithms.hpp:577-579: `trim_start(str)`; `mem`: see `pointerView`. -/
def trimStartDefault (mem : List Char32) (str : Str) : Res Str := trimStart str (pointerView COMMON_WHITESPACE mem)

end Ystring
