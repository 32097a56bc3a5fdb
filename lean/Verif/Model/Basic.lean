/-
Shared vocabulary of the model: byte strings, code points, outcomes, size_t arithmetic,
`Subrange`, and the standard library functions the code calls.
-/
namespace Ystring

/-- Contents of a `std::string` / `std::string_view` (a sequence of bytes).
`char` is modelled as an unsigned byte; every place where the C++ code compares a possibly
signed `char` is commented where it is modelled. A type of the C++ library, as in include/Ystring/Algorithms.hpp:38. -/
abbrev Str := List UInt8

/-- `char32_t`: 32 bits, unsigned, wrapping arithmetic. A type of the language, as in
include/Ystring/DecodeUtf8.hpp:26. -/
abbrev Char32 := UInt32

/-- Abnormal outcomes of a call; the only exception the library throws itself is declared in
include/Ystring/YstringException.hpp:20-24. -/
inductive Err where
  /-- `throw YstringException`; include/Ystring/YstringException.hpp:20-24 (message not modelled). -/
  | ystring
  /-- `std::out_of_range`, thrown by `std::string_view::substr`. -/
  | outOfRange
  /-- undefined behaviour -/
  | ub
  /-- the model's fuel ran out: the C++ loop did not terminate within the given number of steps -/
  | diverge
  deriving DecidableEq, Repr

/-- Outcome of a library call: a result or an abnormal outcome (see `Err`; the throwing macro is
include/Ystring/YstringException.hpp:28-35). -/
abbrev Res := Except Err

instance {α : Type} [DecidableEq α] : DecidableEq (Res α) := fun a b =>
  match a, b with
  | .ok x, .ok y => if h : x = y then isTrue (by rw [h]) else isFalse (by simpa using h)
  | .error x, .error y => if h : x = y then isTrue (by rw [h]) else isFalse (by simpa using h)
  | .ok _, .error _ => isFalse (by simp)
  | .error _, .ok _ => isFalse (by simp)

/-- include/Ystring/CodepointConstants.hpp:22 -/
def UNICODE_MAX : Char32 := 0x10FFFF
/-- include/Ystring/CodepointConstants.hpp:26 -/
def INVALID_CHAR : Char32 := 0xFFFFFFFF
/-- include/Ystring/CodepointConstants.hpp:12 -/
def NEXT_LINE : Char32 := 0x85
/-- include/Ystring/CodepointConstants.hpp:14 -/
def LINE_SEPARATOR : Char32 := 0x2028
/-- include/Ystring/CodepointConstants.hpp:16 -/
def PARAGRAPH_SEPARATOR : Char32 := 0x2029
/-- include/Ystring/CodepointConstants.hpp:18 -/
def REPLACEMENT_CHARACTER : Char32 := 0xFFFD

/-- `SIZE_MAX + 1` on a 64-bit platform (`size_t`, as in include/Ystring/Subrange.hpp:49-50). -/
def SIZE_MOD : Nat := 18446744073709551616
/-- `SIZE_MAX` (include/Ystring/Subrange.hpp:49), also `std::string_view::npos`
(include/Ystring/Algorithms.hpp:145). -/
def npos : Nat := 18446744073709551615
/-- `PTRDIFF_MAX` on a 64-bit platform (include/Ystring/Algorithms.hpp:247). -/
def PTRDIFF_MAX : Int := 9223372036854775807
/-- `PTRDIFF_MIN` on a 64-bit platform (least value of the type at include/Ystring/Algorithms.hpp:247). -/
def PTRDIFF_MIN : Int := -9223372036854775808

/-- `a - b` on `size_t` operands (both below 2^64): wraps around. As in
src/Ystring/AlgorithmUtilities.cpp:62. -/
def sizeSub (a b : Nat) : Nat := (a + SIZE_MOD - b) % SIZE_MOD

/-- `a + b` on `size_t` operands: wraps around. As in include/Ystring/Subrange.hpp:41. -/
def sizeAdd (a b : Nat) : Nat := (a + b) % SIZE_MOD

/-- include/Ystring/Subrange.hpp:16-51 -/
structure Subrange where
  offset : Nat
  length : Nat
  deriving DecidableEq, Repr

namespace Subrange
/-- include/Ystring/Subrange.hpp:18,49-50 (default constructor) -/
def default : Subrange := ⟨npos, 0⟩
/-- include/Ystring/Subrange.hpp:24-26 -/
def atOffset (o : Nat) : Subrange := ⟨o, 0⟩
/-- include/Ystring/Subrange.hpp:34-37 -/
def start (r : Subrange) : Nat := r.offset
/-- include/Ystring/Subrange.hpp:39-42 (`size_t` addition wraps) -/
def stop (r : Subrange) : Nat := sizeAdd r.offset r.length
/-- include/Ystring/Subrange.hpp:44-47 (`operator bool`) -/
def nonempty (r : Subrange) : Bool := r.length != 0
end Subrange

/-- `std::string_view::substr(pos, n)`: throws `out_of_range` if `pos > size()`, clamps `n`.
Used in src/Ystring/AlgorithmUtilities.cpp:55, for example. -/
def substr (s : Str) (pos : Nat) (n : Nat := npos) : Res Str :=
  if pos > s.length then .error .outOfRange else .ok ((s.drop pos).take n)

/-- `std::search(first, last, cmpFirst, cmpLast) - first`: index of the first occurrence of `cmp`,
the length of `s` if there is none. Used in src/Ystring/Algorithms.cpp:90 and 364. -/
def stdSearch (cmp : Str) : Str → Nat
  | [] => 0
  | b :: t => if cmp.isPrefixOf (b :: t) then 0 else stdSearch cmp t + 1

/-- `std::find_if(first, last, p) - first`. Used in src/Ystring/Escape.cpp:31, src/Ystring/Unescape.cpp:116,
src/Ystring/Char32Set.cpp:69 and 74. -/
def stdFindIf {α : Type} (p : α → Bool) : List α → Nat
  | [] => 0
  | b :: t => if p b then 0 else stdFindIf p t + 1

/-- `std::lower_bound` over a random access range of length `len` starting at index `first`,
as the usual bisection (libstdc++ `__lower_bound`); `less i` tells whether element `i` is less than the
key. Fuel `len` is always enough, see `Proofs/Search`. Used in src/Ystring/CharClass.cpp:66,
src/Ystring/Normalize.cpp:24, 38, src/Ystring/ConvertCase.cpp:27 and 45. -/
def lowerBoundGo (less : Nat → Bool) : (fuel first len : Nat) → Nat
  | 0, first, _ => first
  | fuel + 1, first, len =>
    if len = 0 then first
    else
      let half := len / 2
      let middle := first + half
      if less middle then lowerBoundGo less fuel (middle + 1) (len - half - 1)
      else lowerBoundGo less fuel first half

/-- `std::lower_bound(begin, end, key) - begin`. Used in src/Ystring/CharClass.cpp:66,
src/Ystring/Normalize.cpp:24, 38, src/Ystring/ConvertCase.cpp:27 and 45. -/
def lowerBound (less : Nat → Bool) (n : Nat) : Nat := lowerBoundGo less n 0 n

end Ystring
