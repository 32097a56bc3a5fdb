import Verif.Model.Cost
import Verif.Model.Normalize
import Verif.Model.Escape
/-
More functions with the number of bytes they read (see Model/Cost.lean).
-/
namespace Ystring.Cost

/-! ### Positions, substrings, insertion -/

/-- src/Ystring/Algorithms.cpp:136-146; `mem`: see `pointerView`. -/
def findLastNewline (mem : List Char32) (str : Str) (offset : Nat := npos) : Counted Subrange := do
  let (s, c) ← findLastWhere str (u32Contains (pointerView NEWLINES mem)) offset
  if c ≠ 0x0A then lift (.ok s)
  else do
    let it ← lift (revIterAt str s.start)
    match ← safeDecodePrev it with
    | none => lift (.ok s)
    | some (ch, it) =>
      if ch = 0x0D then lift (.ok ⟨it.length, sizeSub s.stop it.length⟩) else lift (.ok s)

/-- src/Ystring/Algorithms.cpp:195-219 -/
def getCharRange (str : Str) (pos : Int) : Counted Subrange :=
  if pos ≥ 0 then do
    let offset ← getCharPos str pos
    if offset = npos then lift (.ok ⟨str.length, 0⟩)
    else getNextCharRange str offset
  else if pos < -1 then do
    let offset ← getCharPos str (pos + 1)
    if offset = npos then lift (.ok ⟨0, 0⟩)
    else getPrevCharRange str offset
  else getPrevCharRange str str.length

/-- src/Ystring/Algorithms.cpp:229-254 -/
def getCodepoint (str : Str) (pos : Int) : Counted (Subrange × Char32) :=
  if pos ≥ 0 then do
    let (_, prev) ← skipNextN pos.toNat str
    match ← safeDecodeNext prev with
    | some (ch, it) => lift (.ok (⟨posOf str prev, posOf str it - posOf str prev⟩, ch))
    | none => lift (.ok (⟨str.length, 0⟩, INVALID_CHAR))
  else do
    let (_, next) ← skipPrevN (-pos - 1).toNat str.reverse
    match ← safeDecodePrev next with
    | some (ch, it) => lift (.ok (⟨it.length, next.length - it.length⟩, ch))
    | none => lift (.ok (⟨0, 0⟩, INVALID_CHAR))

/-- src/Ystring/AlgorithmUtilities.cpp:32-37 -/
def getCappedCharPos (str : Str) (pos : Int) : Counted Nat := do
  let p ← getCharPos str pos
  if p ≠ npos then lift (.ok p)
  else lift (.ok (if pos > 0 then str.length else 0))

/-- src/Ystring/AlgorithmUtilities.cpp:39-44 -/
def getCappedCodepointPos (str : Str) (pos : Int) : Counted Nat := do
  let p ← getCodepointPos str pos
  if p ≠ npos then lift (.ok p)
  else lift (.ok (if pos > 0 then str.length else 0))

/-- src/Ystring/AlgorithmUtilities.cpp:46-76 -/
def getCharSubstringRange (str : Str) (startIndex endIndex : Int) : Counted Subrange := do
  let endIndex := adjustEnd startIndex endIndex
  if startIndex ≥ 0 ∧ endIndex ≥ 0 then
    let s ← getCappedCharPos str startIndex
    let rest ← lift (substr str s)
    let e ← getCappedCharPos rest (endIndex - startIndex)
    lift (.ok ⟨s, e⟩)
  else if startIndex < 0 ∧ endIndex < 0 then
    let e ← getCappedCharPos str endIndex
    let rest ← lift (substr str 0 e)
    let s ← getCappedCharPos rest (startIndex - endIndex)
    lift (.ok ⟨s, sizeSub e s⟩)
  else if startIndex ≥ 0 ∧ endIndex < 0 then
    let s ← getCappedCharPos str startIndex
    let rest ← lift (substr str s)
    let e ← getCappedCharPos rest endIndex
    lift (.ok ⟨s, sizeSub e s⟩)
  else
    let s ← getCappedCharPos str startIndex
    let e ← getCappedCharPos str endIndex
    lift (.ok ⟨s, if e > s then e - s else 0⟩)

/-- src/Ystring/AlgorithmUtilities.cpp:78-108 -/
def getCodepointSubstringRange (str : Str) (startIndex endIndex : Int) : Counted Subrange := do
  let endIndex := adjustEnd startIndex endIndex
  if startIndex ≥ 0 ∧ endIndex ≥ 0 then
    let s ← getCappedCodepointPos str startIndex
    let rest ← lift (substr str s)
    let e ← getCappedCodepointPos rest (endIndex - startIndex)
    lift (.ok ⟨s, e⟩)
  else if startIndex < 0 ∧ endIndex < 0 then
    let e ← getCappedCodepointPos str endIndex
    let rest ← lift (substr str 0 e)
    let s ← getCappedCodepointPos rest (startIndex - endIndex)
    lift (.ok ⟨s, sizeSub e s⟩)
  else if startIndex ≥ 0 ∧ endIndex < 0 then
    let s ← getCappedCodepointPos str startIndex
    let rest ← lift (substr str s)
    let e ← getCappedCodepointPos rest endIndex
    lift (.ok ⟨s, e⟩)
  else
    let s ← getCappedCodepointPos str startIndex
    let e ← getCappedCodepointPos str endIndex
    lift (.ok ⟨s, max s e⟩)

/-- src/Ystring/Algorithms.cpp:221-227 -/
def getCharSubstring (str : Str) (startIndex endIndex : Int) : Counted Str := do
  let range ← getCharSubstringRange str startIndex endIndex
  lift (substr str range.offset range.length)

/-- src/Ystring/Algorithms.cpp:279-285 -/
def getCodepointSubstring (str : Str) (startIndex endIndex : Int) : Counted Str := do
  let range ← getCodepointSubstringRange str startIndex endIndex
  lift (substr str range.offset range.length)

/-- src/Ystring/Algorithms.cpp:317-321 -/
def insertChar (str : Str) (pos : Int) (chr : Char32) : Counted Str := do
  let p ← getCharPos str pos
  lift (insertCodepointAtOffset str p chr)

/-- src/Ystring/Algorithms.cpp:323-327 -/
def insertChars (str : Str) (pos : Int) (sub : Str) : Counted Str := do
  let p ← getCharPos str pos
  lift (insertAtOffset str p sub)

/-- src/Ystring/Algorithms.cpp:329-333 -/
def insertCodepoint (str : Str) (pos : Int) (codepoint : Char32) : Counted Str := do
  let p ← getCodepointPos str pos
  lift (insertCodepointAtOffset str p codepoint)

/-- src/Ystring/Algorithms.cpp:335-340 -/
def insertCodepoints (str : Str) (pos : Int) (codepoints : Str) : Counted Str := do
  let p ← getCodepointPos str pos
  lift (insertAtOffset str p codepoints)

/-- src/Ystring/Algorithms.cpp:391-397 -/
def replaceChars (str : Str) (start stop : Int) (repl : Str) : Counted Str := do
  let range ← getCharSubstringRange str start stop
  lift (replaceSubrange str range repl)

/-- src/Ystring/Algorithms.cpp:399-405 -/
def replaceCodepoints (str : Str) (start stop : Int) (repl : Str) : Counted Str := do
  let range ← getCodepointSubstringRange str start stop
  lift (replaceSubrange str range repl)

/-! ### Searching and replacing from the right, byte by byte -/

/-- `std::mismatch(it, end, cmpBeg, cmpEnd)` and the test `its.second == cmpEnd` (src/Ystring/AlgorithmUtilities.hpp:25-26): one byte
of each string is read per comparison. -/
def mismatchEnds : (str cmp : Str) → Counted Bool
  | _, [] => lift (.ok true)
  | [], _ :: _ => lift (.ok false)
  | a :: str, b :: cmp => do
    read
    read
    if a = b then mismatchEnds str cmp else lift (.ok false)

/-- src/Ystring/AlgorithmUtilities.hpp:23-31: the loop; `it` is the offset of `it`. -/
def searchLastLoop (str cmp : Str) : (it : Nat) → Counted (Nat × Nat)
  | 0 => do
    let eq ← mismatchEnds str cmp
    if eq then lift (.ok (0, cmp.length)) else lift (.ok (0, 0))
  | it + 1 => do
    let eq ← mismatchEnds (str.drop (it + 1)) cmp
    if eq then lift (.ok (it + 1, it + 1 + cmp.length))
    else searchLastLoop str cmp it

/-- src/Ystring/AlgorithmUtilities.hpp:14-33 -/
def searchLast (str cmp : Str) : Counted (Nat × Nat) :=
  let n := cmp.length
  if n = 0 ∨ str.length < n then lift (.ok (0, 0))
  else searchLastLoop str cmp (str.length - n)

/-- src/Ystring/Algorithms.cpp:125-134: `find_last` (the case-insensitive function is `findLast`) -/
def findLastBytes (str cmp : Str) (offset : Nat := npos) : Counted Subrange := do
  let offset := min offset str.length
  let its ← searchLast (str.take offset) cmp
  lift (.ok ⟨its.1, its.2 - its.1⟩)

/-- src/Ystring/AlgorithmUtilities.cpp:19-28; `it` is the offset of `it`. -/
def findLastNLoop (str cmp : Str) : (fuel : Nat) → (it maxCount : Nat) → (result : List Subrange) →
    Counted (List Subrange)
  | 0, _, _, _ => lift (.error .diverge)
  | fuel + 1, it, maxCount, result => do
    let m ← searchLast (str.take it) cmp
    if m.1 = m.2 then lift (.ok result)
    else
      let result := result ++ [⟨m.1, cmp.length⟩]
      let maxCount := sizeSub maxCount 1
      if maxCount = 0 then lift (.ok result)
      else findLastNLoop str cmp fuel m.1 maxCount result

/-- src/Ystring/Algorithms.cpp:372-389: `replace` with a negative number (the rest is `std::search`) -/
def replaceFromRight (str «from» to : Str) (maxReplacements : Int) : Counted Str :=
  if maxReplacements = PTRDIFF_MIN then lift (.error .ub)
  else do
    let ms ← findLastNLoop str «from» (str.length + 1) str.length (-maxReplacements).toNat []
    let (prev, result) ← lift (Ystring.replaceBwdLoop str to ms.reverse 0 [])
    if prev ≠ str.length then do
      let t ← lift (substr str prev str.length)
      lift (.ok (result ++ t))
    else lift (.ok result)

/-! ### Case-insensitive replace and split -/

/-- src/Ystring/Algorithms.cpp:678-686 -/
def replaceFwdLoop («from» to : Str) : (maxReplacements : Nat) → (str result : Str) → Counted (Str × Str)
  | 0, str, result => lift (.ok (str, result))
  | n + 1, str, result => do
    let m ← findFirst str «from»
    if !m.nonempty then lift (.ok (str, result))
    else do
      let t ← lift (substr str 0 m.start)
      let rest ← lift (substr str m.stop)
      replaceFwdLoop «from» to n rest (result ++ t ++ to)

/-- src/Ystring/Algorithms.cpp:695-702 -/
def replaceMatches («from» : Str) : (maxReplacements : Nat) → (tmpStr : Str) → (ms : List Subrange) →
    Counted (List Subrange)
  | 0, _, ms => lift (.ok ms)
  | n + 1, tmpStr, ms => do
    let m ← findLast tmpStr «from»
    if !m.nonempty then lift (.ok ms)
    else do
      let tmpStr ← lift (substr tmpStr 0 m.start)
      replaceMatches «from» n tmpStr (ms ++ [m])

/-- src/Ystring/Algorithms.cpp:670-716 -/
def replace (str «from» to : Str) (maxReplacements : Int := PTRDIFF_MAX) : Counted Str :=
  if maxReplacements ≥ 0 then do
    let (str, result) ← replaceFwdLoop «from» to maxReplacements.toNat str []
    if str ≠ [] then lift (.ok (result ++ str)) else lift (.ok result)
  else do
    let ms ← replaceMatches «from» (-maxReplacements).toNat str []
    let (start, result) ← lift (CI.replaceBwdLoop str to ms.reverse 0 [])
    if start ≠ str.length then do
      let t ← lift (substr str start)
      lift (.ok (result ++ t))
    else lift (.ok result)

/-- src/Ystring/Algorithms.cpp:727-734 -/
def split (str sep : Str) (params : SplitParams := {}) : Counted (List Str) :=
  splitWhere str (fun s => findFirst s sep) params

/-! ### Normalize.cpp -/

/-- src/Ystring/Normalize.cpp:155-178 -/
def toDecomposedLoop (growFuel : Nat) : (fuel : Nat) → (buffer : List Char32) → (result «from» it to : Str) →
    Counted (Str × Str × Str)
  | 0, _, _, _, _, _ => lift (.error .diverge)
  | fuel + 1, buffer, result, «from», it, to => do
    match ← safeDecodeNext it with
    | none => lift (.ok (result, «from», to))
    | some (ch, it) =>
      let r ← lift (decomposeChar ch buffer)
      let (buffer, size) ← lift (growLoop ch growFuel r.buf r.ok r.size)
      if size = 1 then toDecomposedLoop growFuel fuel buffer result «from» it it
      else do
        let t ← lift (between «from» to)
        if size ≤ buffer.length then
          toDecomposedLoop growFuel fuel buffer (result ++ t ++ (buffer.take size).flatMap encodeUtf8) it it it
        else lift (.error .ub)

/-- src/Ystring/Normalize.cpp:146-181 (`growFuel`: see `Ystring.toDecomposed`) -/
def toDecomposed (str : Str) (growFuel : Nat := 100) : Counted Str := do
  let (result, «from», to) ← toDecomposedLoop growFuel (str.length + 1) [0, 0, 0] [] str str str
  let t ← lift (between «from» to)
  lift (.ok (result ++ t))

/-- src/Ystring/Normalize.cpp:126-136 -/
def composeRun : (fuel : Nat) → (ch mark : Char32) → (it : Str) → Counted (Char32 × Char32 × Str × Str)
  | 0, _, _, _ => lift (.error .diverge)
  | fuel + 1, ch, mark, it => do
    let «from» := it
    match ← safeDecodeNext it with
    | none => lift (.ok (ch, mark, it, «from»))
    | some (mark, it) =>
      let denorm ← lift (findComposed ch mark)
      if denorm = 0 then lift (.ok (ch, mark, it, «from»))
      else composeRun fuel denorm mark it

/-- src/Ystring/Normalize.cpp:114-141 -/
def toComposedLoop (runFuel : Nat) : (fuel : Nat) → (ch : Char32) → (result «from» it to prev : Str) → Counted (Str × Str × Str)
  | 0, _, _, _, _, _, _ => lift (.error .diverge)
  | fuel + 1, ch, result, «from», it, to, prev => do
    match ← safeDecodeNext it with
    | none => lift (.ok (result, «from», prev))
    | some (mark, it) =>
      let denorm ← lift (findComposed ch mark)
      if denorm = 0 then toComposedLoop runFuel fuel mark result «from» it prev it
      else do
        let t ← lift (between «from» to)
        let (ch, mark, it, «from») ← composeRun runFuel denorm mark it
        toComposedLoop runFuel fuel mark (result ++ t ++ encodeUtf8 ch) «from» it «from» «from»

/-- src/Ystring/Normalize.cpp:103-144 -/
def toComposed (str : Str) : Counted Str := do
  match ← safeDecodeNext str with
  | none => lift (.ok [])
  | some (ch, it) =>
    let (result, «from», prev) ← toComposedLoop (str.length + 1) (str.length + 1) ch [] str it str it
    let t ← lift (between «from» prev)
    lift (.ok (result ++ t))

/-! ### Escape.cpp -/

/-- `std::find_if` with the predicate of src/Ystring/Escape.cpp:31-34: reads up to and including the byte that is found -/
def findEscapable : Str → Counted Nat
  | [] => lift (.ok 0)
  | b :: s => do
    read
    if isEscapable b then lift (.ok 0)
    else do
      let i ← findEscapable s
      lift (.ok (i + 1))

/-- src/Ystring/Escape.cpp:28-36 -/
def findFirstEscapableChar (str : Str) (offset : Nat := 0) : Counted Subrange :=
  if offset > str.length then lift (.error .ub)
  else do
    let i ← findEscapable (str.drop offset)
    lift (.ok ⟨offset + i, if offset + i = str.length then 0 else 1⟩)

/-- src/Ystring/Escape.cpp:45-83; lines 51 and 76-77 read the byte that was found again. -/
def escapeJsonLoop (str : Str) : (fuel : Nat) → (offset : Nat) → (result : Str) → Counted Str
  | 0, _, _ => lift (.error .diverge)
  | fuel + 1, offset, result => do
    let sub ← findFirstEscapableChar str offset
    if sub.nonempty then
      let result := result ++ (str.drop offset).take (sub.offset - offset)
      match str[sub.offset]? with
      | none => lift (.error .ub)
      | some c => do
        read
        escapeJsonLoop str fuel sub.stop (result ++ escapeSequence c)
    else lift (.ok (result ++ str.drop offset))

/-- src/Ystring/Escape.cpp:43-84 -/
def escapeJson (str : Str) : Counted Str := escapeJsonLoop str (str.length + 1) 0 []

end Ystring.Cost
