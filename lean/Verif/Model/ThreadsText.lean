import Verif.Model.ThreadsMore
import Verif.Model.Normalize
/-
More functions as sequences of single accesses to memory, as in Verif/Model/Threads.lean: the functions that work with characters (a code point and
the marks behind it), code points by index, `reverse` and `to_composed`. Offsets are relative to `r.first`; the arithmetic on them is that of
Verif/Model/Algorithms.lean.
-/
namespace Ystring.Thr
open Ptr (Mem Range)

/-! ### Characters -/

/-- src/Ystring/Algorithms.cpp:295-299: the final `end` -/
def nextCharLoop (r : Range) : (fuel : Nat) → (it stop : Nat) → Prog Nat
  | 0, _, _ => fin (.error .diverge)
  | fuel + 1, it, stop => do
    match ← safeDecodeNext r it with
    | none => fin (.ok stop)
    | some (ch, it) => if isMark ch then nextCharLoop r fuel it it else fin (.ok stop)

/-- src/Ystring/Algorithms.cpp:287-302 -/
def getNextCharRange (r : Range) (offset : Nat) : Prog Subrange := do
  let it ← ptr r (r.first + offset)
  match ← safeDecodeNext r it with
  | none => fin (.ok ⟨offset, 0⟩)
  | some (_, it) => do
    let stop ← nextCharLoop r (r.last - r.first + 1) it it
    fin (.ok ⟨offset, sizeSub (stop - r.first) offset⟩)

/-- src/Ystring/Algorithms.cpp:308-311: the final `it` -/
def prevCharLoop (r : Range) : (fuel : Nat) → (it : Nat) → Prog Nat
  | 0, _ => fin (.error .diverge)
  | fuel + 1, it => do
    match ← safeDecodePrev r it with
    | none => fin (.ok it)
    | some (ch, it) => if isMark ch then prevCharLoop r fuel it else fin (.ok it)

/-- src/Ystring/Algorithms.cpp:304-315 -/
def getPrevCharRange (r : Range) (offset : Nat) : Prog Subrange := do
  let it ← ptr r (r.first + offset)
  let it ← prevCharLoop r (r.last - r.first + 1) it
  fin (.ok ⟨it - r.first, sizeSub offset (it - r.first)⟩)

/-- src/Ystring/Algorithms.cpp:61-66 -/
def countCharsLoop (r : Range) : (fuel offset count : Nat) → Prog Nat
  | 0, _, _ => fin (.error .diverge)
  | fuel + 1, offset, count =>
    if offset ≠ r.last - r.first then do
      let range ← getNextCharRange r offset
      countCharsLoop r fuel range.stop (count + 1)
    else fin (.ok count)

/-- src/Ystring/Algorithms.cpp:57-68 -/
def countChars (r : Range) : Prog Nat := countCharsLoop r (r.last - r.first + 1) 0 0

/-- src/Ystring/Algorithms.cpp:172-178 -/
def getCharPosFwd (r : Range) : (pos offset : Nat) → Prog Nat
  | 0, offset => fin (.ok offset)
  | pos + 1, offset => do
    let range ← getNextCharRange r offset
    if !range.nonempty then fin (.ok npos)
    else getCharPosFwd r pos range.stop

/-- src/Ystring/Algorithms.cpp:183-189 -/
def getCharPosBwd (r : Range) : (pos offset : Nat) → Prog Nat
  | 0, offset => fin (.ok offset)
  | pos + 1, offset => do
    let range ← getPrevCharRange r offset
    if !range.nonempty then fin (.ok npos)
    else getCharPosBwd r pos range.start

/-- src/Ystring/Algorithms.cpp:166-193 -/
def getCharPos (r : Range) (pos : Int) : Prog Nat :=
  if pos ≥ 0 then getCharPosFwd r pos.toNat 0
  else getCharPosBwd r (-pos).toNat (r.last - r.first)

/-- src/Ystring/Algorithms.cpp:195-219 -/
def getCharRange (r : Range) (pos : Int) : Prog Subrange :=
  if pos ≥ 0 then do
    let offset ← getCharPos r pos
    if offset = npos then fin (.ok ⟨r.last - r.first, 0⟩)
    else getNextCharRange r offset
  else if pos < -1 then do
    let offset ← getCharPos r (pos + 1)
    if offset = npos then fin (.ok ⟨0, 0⟩)
    else getPrevCharRange r offset
  else getPrevCharRange r (r.last - r.first)

/-- src/Ystring/Algorithms.cpp:456-463 -/
def reverseLoop (r : Range) : (fuel offset : Nat) → (result : Str) → Prog Str
  | 0, _, _ => fin (.error .diverge)
  | fuel + 1, offset, result =>
    if offset ≠ 0 then do
      let range ← getPrevCharRange r offset
      let result ← copyOut r (range.stop - range.start) (r.first + range.start) result
      reverseLoop r fuel range.start result
    else fin (.ok result)

/-- src/Ystring/Algorithms.cpp:452-465 -/
def reverse (r : Range) : Prog Str := reverseLoop r (r.last - r.first + 1) (r.last - r.first) []

/-! ### Code points by index -/

/-- src/Ystring/Algorithms.cpp:235-236 and 263-264: the final `pos` and `it` -/
def skipNextN (r : Range) : (pos : Nat) → (it : Nat) → Prog (Nat × Nat)
  | 0, it => fin (.ok (0, it))
  | pos + 1, it => do
    match ← skipNext r it with
    | (false, it) => fin (.ok (pos + 1, it))
    | (true, it) => skipNextN r pos it

/-- src/Ystring/Algorithms.cpp:246-247 and 271-272, `pos` counted towards 0 from above -/
def skipPrevN (r : Range) : (pos : Nat) → (it : Nat) → Prog (Nat × Nat)
  | 0, it => fin (.ok (0, it))
  | pos + 1, it => do
    match ← skipPrev r it with
    | (false, it) => fin (.ok (pos + 1, it))
    | (true, it) => skipPrevN r pos it

/-- src/Ystring/Algorithms.cpp:229-254 -/
def getCodepoint (r : Range) (pos : Int) : Prog (Subrange × Char32) :=
  if pos ≥ 0 then do
    let (_, prev) ← skipNextN r pos.toNat r.first
    match ← safeDecodeNext r prev with
    | some (ch, it) => fin (.ok (⟨prev - r.first, it - prev⟩, ch))
    | none => fin (.ok (⟨r.last - r.first, 0⟩, INVALID_CHAR))
  else do
    let (_, next) ← skipPrevN r (-pos - 1).toNat r.last
    match ← safeDecodePrev r next with
    | some (ch, it) => fin (.ok (⟨it - r.first, next - it⟩, ch))
    | none => fin (.ok (⟨0, 0⟩, INVALID_CHAR))

/-- src/Ystring/Algorithms.cpp:256-277; `std::abs(PTRDIFF_MIN)` is undefined -/
def getCodepointPos (r : Range) (pos : Int) : Prog Nat :=
  if pos = PTRDIFF_MIN then fin (.error .ub)
  else if (pos.natAbs : Int) > (r.last - r.first : Nat) then fin (.ok npos)
  else if pos ≥ 0 then do
    let (pos, it) ← skipNextN r pos.toNat r.first
    if pos = 0 then fin (.ok (it - r.first)) else fin (.ok npos)
  else do
    let (pos, it) ← skipPrevN r (-pos).toNat r.last
    if pos = 0 then fin (.ok (it - r.first)) else fin (.ok npos)

/-! ### to_composed -/

/-- `result.append(from, to)` (src/Ystring/Normalize.cpp:124, 142) -/
def appendBetween (r : Range) («from» to : Nat) (result : Str) : Prog Str :=
  if «from» ≤ to then copyOut r (to - «from») «from» result else fin (.error .ub)

/-- src/Ystring/Normalize.cpp:126-136: the final `ch`, `mark`, `it` and `from` (= `prev` = `to`). -/
def composeRun (r : Range) : (fuel : Nat) → (ch mark : Char32) → (it : Nat) → Prog (Char32 × Char32 × Nat × Nat)
  | 0, _, _, _ => fin (.error .diverge)
  | fuel + 1, ch, mark, it => do
    let «from» := it
    match ← safeDecodeNext r it with
    | none => fin (.ok (ch, mark, it, «from»))
    | some (mark, it) => do
      let denorm ← fin (findComposed ch mark)
      if denorm = 0 then fin (.ok (ch, mark, it, «from»))
      else composeRun r fuel denorm mark it

/-- src/Ystring/Normalize.cpp:114-142 -/
def toComposedLoop (r : Range) : (fuel : Nat) → (ch : Char32) → (result : Str) → («from» it to prev : Nat) → Prog Str
  | 0, _, _, _, _, _, _ => fin (.error .diverge)
  | fuel + 1, ch, result, «from», it, to, prev => do
    match ← safeDecodeNext r it with
    | none => appendBetween r «from» prev result
    | some (mark, it) => do
      let denorm ← fin (findComposed ch mark)
      if denorm = 0 then toComposedLoop r fuel mark result «from» it prev it
      else do
        let result ← appendBetween r «from» to result
        let (ch, mark, it, «from») ← composeRun r (r.last - r.first + 1) denorm mark it
        toComposedLoop r fuel mark (result ++ encodeUtf8 ch) «from» it «from» «from»

/-- src/Ystring/Normalize.cpp:103-144 -/
def toComposed (r : Range) : Prog Str := do
  match ← safeDecodeNext r r.first with
  | none => fin (.ok [])
  | some (ch, it) => toComposedLoop r (r.last - r.first + 1) ch [] r.first it r.first it

end Ystring.Thr
