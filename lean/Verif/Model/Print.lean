import Verif.Model.CodepointSet
import Verif.Model.Utf8
/-
Model of the stream output operators: src/Ystring/Subrange.cpp and src/Ystring/Char32Set.cpp:54-65.
The output is the sequence of bytes written to a stream in the default state (decimal numbers, no width, the classic locale).
-/
namespace Ystring

/-- Bytes of an ASCII literal, as in src/Ystring/Subrange.cpp:15. -/
def ascii (s : String) : Str := s.toList.map (fun c => UInt8.ofNat c.toNat)

/-- `os << n` for `size_t n`: decimal, no leading zeros, no grouping (part of the C++ library, used in
src/Ystring/Subrange.cpp:15-16). -/
def printSize (n : Nat) : Str :=
  if n < 10 then [UInt8.ofNat (0x30 + n)] else printSize (n / 10) ++ [UInt8.ofNat (0x30 + n % 10)]

/-- src/Ystring/Subrange.cpp:13-17 -/
def printSubrange (s : Subrange) : Str :=
  ascii "{offset: " ++ printSize s.offset ++ ascii ", length: " ++ printSize s.length ++ ascii "}"

/-- src/Ystring/Char32Set.cpp:54-65 -/
def printCodepointSet (set : CodepointSet) : Str :=
  ascii (if set.negated then "[^" else "[") ++
    set.ranges.flatMap (fun r =>
      if r.1 = r.2 then fromUtf32Char r.1 else fromUtf32Char r.1 ++ ascii "-" ++ fromUtf32Char r.2) ++
    ascii "]"

end Ystring
