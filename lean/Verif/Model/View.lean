import Verif.Model.CaseInsensitive
/-
The functions that return string views, with the addresses of the views. Verif/Model/Algorithms.lean has the same functions with
the contents of the views only; Props/View.lean proves that they agree.
-/
namespace Ystring

/-- A `std::string_view`: `data()`, as a distance from the beginning of a buffer (`none` is the null pointer of a
default-constructed view), and the bytes it shows. A type of the C++ library, as in include/Ystring/Algorithms.hpp:244. -/
structure View where
  data : Option Nat
  text : Str
  deriving DecidableEq, Repr

namespace View

/-- `return {};` as in include/Ystring/Algorithms.hpp:568, 591 and include/Ystring/TokenIterator.hpp:48, 54, 62. -/
def null : View := ⟨none, []⟩

/-- `std::string_view::substr`, as in include/Ystring/Algorithms.hpp:569, for example. -/
def substr (v : View) (pos : Nat) (n : Nat := npos) : Res View := do
  let t ← Ystring.substr v.text pos n
  .ok ⟨v.data.map (· + pos), t⟩

end View

/-- include/Ystring/Algorithms.hpp:562-570 -/
def trimEndWhereV (str : View) (pred : Char32 → Bool) : Res View := do
  let (sub, _) ← findLastWhere str.text (fun c => !pred c)
  if !sub.nonempty then .ok View.null
  else str.substr 0 sub.stop

/-- include/Ystring/Algorithms.hpp:585-593 -/
def trimStartWhereV (str : View) (pred : Char32 → Bool) : Res View := do
  let (sub, _) ← findFirstWhere str.text (fun c => !pred c)
  if !sub.nonempty then .ok View.null
  else str.substr sub.start

/-- include/Ystring/Algorithms.hpp:599-605 -/
def trimWhereV (str : View) (pred : Char32 → Bool) : Res View := do
  trimEndWhereV (← trimStartWhereV str pred) pred

/-- src/Ystring/Algorithms.cpp:503-506 -/
def trimEndV (str : View) (chars : List Char32) : Res View := trimEndWhereV str (u32Contains chars)

/-- src/Ystring/Algorithms.cpp:508-511 -/
def trimStartV (str : View) (chars : List Char32) : Res View := trimStartWhereV str (u32Contains chars)

/-- src/Ystring/Algorithms.cpp:498-501 -/
def trimV (str : View) (chars : List Char32) : Res View := do
  trimEndV (← trimStartV str chars) chars

/-- src/Ystring/Algorithms.cpp:221-227 -/
def getCharSubstringV (str : View) (startIndex : Int) (endIndex : Int := PTRDIFF_MAX) : Res View := do
  let range ← getCharSubstringRange str.text startIndex endIndex
  str.substr range.offset range.length

/-- src/Ystring/Algorithms.cpp:279-285 -/
def getCodepointSubstringV (str : View) (startIndex : Int) (endIndex : Int := PTRDIFF_MAX) : Res View := do
  let range ← getCodepointSubstringRange str.text startIndex endIndex
  str.substr range.offset range.length

/-- include/Ystring/TokenIterator.hpp:64-67; the finder is passed to `next`. -/
structure TokenIteratorV where
  str : View
  token : Subrange
  deriving DecidableEq

namespace TokenIteratorV

/-- include/Ystring/TokenIterator.hpp:18-22 -/
def mk' (str : View) : TokenIteratorV := ⟨str, ⟨0, 0⟩⟩

/-- include/Ystring/TokenIterator.hpp:24-27 -/
def toBool (t : TokenIteratorV) : Bool := t.token.nonempty

/-- include/Ystring/TokenIterator.hpp:29-39: the return value and the new state. -/
def next (finder : Str → Res Subrange) (t : TokenIteratorV) : Res (Bool × TokenIteratorV) :=
  let find (str : View) : Res (Bool × TokenIteratorV) := do
    let token ← finder str.text
    if !token.nonempty then .ok (true, ⟨str, ⟨npos, token.length⟩⟩)
    else .ok (true, ⟨str, token⟩)
  if t.token.nonempty then do
    let str ← t.str.substr t.token.stop
    find str
  else if t.token.start ≠ 0 then .ok (false, t)
  else find t.str

/-- include/Ystring/TokenIterator.hpp:41-49 -/
def part (t : TokenIteratorV) : Res View :=
  if t.token.nonempty then t.str.substr 0 t.token.start
  else if t.token.start ≠ 0 then .ok t.str
  else .ok View.null

/-- include/Ystring/TokenIterator.hpp:58-63 -/
def remainder (t : TokenIteratorV) : Res View :=
  if t.token.nonempty ∨ t.token.start = 0 then t.str.substr t.token.stop
  else .ok View.null

end TokenIteratorV

/-- include/Ystring/Algorithms.hpp:517-522: the final iterator and result. -/
def splitLoopV (finder : Str → Res Subrange) (params : SplitParams) : (fuel : Nat) → TokenIteratorV →
    List View → Res (TokenIteratorV × List View)
  | 0, _, _ => .error .diverge
  | fuel + 1, it, result =>
    if result.length < params.maxSplits then do
      let (more, it) ← it.next finder
      if more then do
        let part ← it.part
        if !params.ignoreEmpty || !part.text.isEmpty then splitLoopV finder params fuel it (result ++ [part])
        else splitLoopV finder params fuel it result
      else .ok (it, result)
    else .ok (it, result)

/-- include/Ystring/Algorithms.hpp:509-530 -/
def splitWhereV (str : View) (finder : Str → Res Subrange) (params : SplitParams := {}) : Res (List View) := do
  let (it, result) ← splitLoopV finder params (str.text.length + 2) (TokenIteratorV.mk' str) []
  if it.toBool then do
    let remainder ← it.remainder
    if !params.ignoreEmpty || !remainder.text.isEmpty then .ok (result ++ [remainder])
    else .ok result
  else .ok result

/-- src/Ystring/Algorithms.cpp:467-474 -/
def splitCharsV (str : View) (chars : List Char32) (params : SplitParams := {}) : Res (List View) :=
  splitWhereV str (fun s => do let r ← findFirstOf s chars; .ok r.1) params

/-- src/Ystring/Algorithms.cpp:476-483 -/
def splitV (str : View) (sep : Str) (params : SplitParams := {}) : Res (List View) :=
  splitWhereV str (fun s => findFirst s sep) params

/-- src/Ystring/Algorithms.cpp:485-491; `mem`: see `pointerView`. -/
def splitLinesV (mem : List Char32) (str : View) (params : SplitParams := {}) : Res (List View) :=
  splitWhereV str (fun s => findFirstNewline mem s) params

/-- src/Ystring/Algorithms.cpp:718-725 -/
def CI.splitCharsV (str : View) (chars : List Char32) (params : SplitParams := {}) : Res (List View) :=
  splitWhereV str (fun s => do let r ← CI.findFirstOf s chars; .ok r.1) params

/-- src/Ystring/Algorithms.cpp:727-734 -/
def CI.splitV (str : View) (sep : Str) (params : SplitParams := {}) : Res (List View) :=
  splitWhereV str (fun s => CI.findFirst s sep) params

end Ystring
