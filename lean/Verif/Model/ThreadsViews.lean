import Verif.Model.ThreadsText
/-
More functions as sequences of single accesses to memory, as in Verif/Model/Threads.lean: the functions that return string views (`trim`,
`get_char_substring`, `get_codepoint_substring`) and the searches for newlines. A view is a range; the view `{}` is the empty range at address 0, the
null pointer.
-/
namespace Ystring.Thr
open Ptr (Mem Range)

/-- `std::string_view::substr`: src/Ystring/AlgorithmUtilities.cpp:55, 62, include/Ystring/Algorithms.hpp:569, 592, for example. Nothing is read. -/
def subview (r : Range) (pos : Nat) (n : Nat := npos) : Res Range :=
  if pos > r.last - r.first then .error .outOfRange
  else .ok ⟨r.first + pos, r.first + pos + min n (r.last - r.first - pos)⟩

/-- `return {};` (include/Ystring/Algorithms.hpp:568, 591) -/
def nullView : Range := ⟨0, 0⟩

/-! ### trim -/

/-- include/Ystring/Algorithms.hpp:562-570 -/
def trimEndWhere (r : Range) (pred : Char32 → Bool) : Prog Range := do
  let (sub, _) ← findLastWhere r (fun c => !pred c) npos
  if !sub.nonempty then fin (.ok nullView)
  else fin (subview r 0 sub.stop)

/-- include/Ystring/Algorithms.hpp:585-593 -/
def trimStartWhere (r : Range) (pred : Char32 → Bool) : Prog Range := do
  let (sub, _) ← findFirstWhere r (fun c => !pred c) 0
  if !sub.nonempty then fin (.ok nullView)
  else fin (subview r sub.start)

/-- include/Ystring/Algorithms.hpp:599-605 -/
def trimWhere (r : Range) (pred : Char32 → Bool) : Prog Range := do
  let r ← trimStartWhere r pred
  trimEndWhere r pred

/-! ### Newlines -/

/-- src/Ystring/Algorithms.cpp:97-107; `mem`: see `pointerView`. -/
def findFirstNewline (mem : List Char32) (r : Range) (offset : Nat) : Prog Subrange := do
  let (s, c) ← findFirstWhere r (u32Contains (pointerView NEWLINES mem)) offset
  if c ≠ 0x0D then fin (.ok s)
  else do
    let it ← ptr r (r.first + s.stop)
    match ← safeDecodeNext r it with
    | none => fin (.ok s)
    | some (ch, it) =>
      if ch = 0x0A then fin (.ok ⟨s.start, sizeSub (it - r.first) s.start⟩) else fin (.ok s)

/-- src/Ystring/Algorithms.cpp:136-146; `mem`: see `pointerView`. -/
def findLastNewline (mem : List Char32) (r : Range) (offset : Nat) : Prog Subrange := do
  let (s, c) ← findLastWhere r (u32Contains (pointerView NEWLINES mem)) offset
  if c ≠ 0x0A then fin (.ok s)
  else do
    let it ← ptr r (r.first + s.start)
    match ← safeDecodePrev r it with
    | none => fin (.ok s)
    | some (ch, it) =>
      if ch = 0x0D then fin (.ok ⟨it - r.first, sizeSub s.stop (it - r.first)⟩) else fin (.ok s)

/-! ### Substrings -/

/-- src/Ystring/AlgorithmUtilities.cpp:32-37 -/
def getCappedCharPos (r : Range) (pos : Int) : Prog Nat := do
  let p ← getCharPos r pos
  if p ≠ npos then fin (.ok p)
  else fin (.ok (if pos > 0 then r.last - r.first else 0))

/-- src/Ystring/AlgorithmUtilities.cpp:39-44 -/
def getCappedCodepointPos (r : Range) (pos : Int) : Prog Nat := do
  let p ← getCodepointPos r pos
  if p ≠ npos then fin (.ok p)
  else fin (.ok (if pos > 0 then r.last - r.first else 0))

/-- src/Ystring/AlgorithmUtilities.cpp:46-76 -/
def getCharSubstringRange (r : Range) (startIndex endIndex : Int) : Prog Subrange :=
  let endIndex := adjustEnd startIndex endIndex
  if startIndex ≥ 0 ∧ endIndex ≥ 0 then do
    let s ← getCappedCharPos r startIndex
    let r' ← fin (subview r s)
    let e ← getCappedCharPos r' (endIndex - startIndex)
    fin (.ok ⟨s, e⟩)
  else if startIndex < 0 ∧ endIndex < 0 then do
    let e ← getCappedCharPos r endIndex
    let r' ← fin (subview r 0 e)
    let s ← getCappedCharPos r' (startIndex - endIndex)
    fin (.ok ⟨s, sizeSub e s⟩)
  else if startIndex ≥ 0 ∧ endIndex < 0 then do
    let s ← getCappedCharPos r startIndex
    let r' ← fin (subview r s)
    let e ← getCappedCharPos r' endIndex
    fin (.ok ⟨s, sizeSub e s⟩)
  else do
    let s ← getCappedCharPos r startIndex
    let e ← getCappedCharPos r endIndex
    fin (.ok ⟨s, if e > s then e - s else 0⟩)

/-- src/Ystring/AlgorithmUtilities.cpp:78-108 -/
def getCodepointSubstringRange (r : Range) (startIndex endIndex : Int) : Prog Subrange :=
  let endIndex := adjustEnd startIndex endIndex
  if startIndex ≥ 0 ∧ endIndex ≥ 0 then do
    let s ← getCappedCodepointPos r startIndex
    let r' ← fin (subview r s)
    let e ← getCappedCodepointPos r' (endIndex - startIndex)
    fin (.ok ⟨s, e⟩)
  else if startIndex < 0 ∧ endIndex < 0 then do
    let e ← getCappedCodepointPos r endIndex
    let r' ← fin (subview r 0 e)
    let s ← getCappedCodepointPos r' (startIndex - endIndex)
    fin (.ok ⟨s, sizeSub e s⟩)
  else if startIndex ≥ 0 ∧ endIndex < 0 then do
    let s ← getCappedCodepointPos r startIndex
    let r' ← fin (subview r s)
    let e ← getCappedCodepointPos r' endIndex
    fin (.ok ⟨s, e⟩)
  else do
    let s ← getCappedCodepointPos r startIndex
    let e ← getCappedCodepointPos r endIndex
    fin (.ok ⟨s, max s e⟩)

/-- src/Ystring/Algorithms.cpp:221-227 -/
def getCharSubstring (r : Range) (startIndex endIndex : Int) : Prog Range := do
  let range ← getCharSubstringRange r startIndex endIndex
  fin (subview r range.offset range.length)

/-- src/Ystring/Algorithms.cpp:279-285 -/
def getCodepointSubstring (r : Range) (startIndex endIndex : Int) : Prog Range := do
  let range ← getCodepointSubstringRange r startIndex endIndex
  fin (subview r range.offset range.length)

end Ystring.Thr
