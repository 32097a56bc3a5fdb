import Verif.Model.ConvertCase
/-
Model of include/Ystring/CodepointSet.hpp and src/Ystring/Char32Set.cpp.
(`operator<<` is modelled in Verif/Model/Print.lean.)
-/
namespace Ystring

/-- include/Ystring/CodepointSet.hpp:19-35 -/
structure CodepointSet where
  ranges : List (Char32 × Char32) := []
  negated : Bool := false
  deriving DecidableEq

namespace CodepointSet

/-- src/Ystring/Char32Set.cpp:16-19 -/
def addRange (set : CodepointSet) (first last : Char32) : CodepointSet :=
  { set with ranges := set.ranges ++ [(first, last)] }

/-- src/Ystring/Char32Set.cpp:21-27 (`char32_t` addition wraps) -/
def addCodepoint (set : CodepointSet) (cp : Char32) : CodepointSet :=
  match set.ranges.getLast? with
  | some r =>
    if r.2 + 1 = cp then { set with ranges := set.ranges.dropLast ++ [(r.1, cp)] }
    else set.addRange cp cp
  | none => set.addRange cp cp

/-- src/Ystring/Char32Set.cpp:29-33 -/
def addCodepoints (set : CodepointSet) (codepoints : List Char32) : CodepointSet :=
  codepoints.foldl addCodepoint set

/-- src/Ystring/Char32Set.cpp:35-40 -/
def contains (set : CodepointSet) (cp : Char32) : Bool :=
  set.ranges.any (fun r => r.1 ≤ cp && cp ≤ r.2) != set.negated

/-- src/Ystring/Char32Set.cpp:42-52 -/
def caseInsensitiveContains (set : CodepointSet) (cp : Char32) : Bool :=
  set.ranges.any (fun r =>
    if r.1 = r.2 then caseInsensitiveEqual cp r.1
    else !caseInsensitiveLess cp r.1 && !caseInsensitiveLess r.2 cp) != set.negated

end CodepointSet

/-- src/Ystring/Char32Set.cpp:67-70 -/
def u32Contains (span : List Char32) (cp : Char32) : Bool :=
  stdFindIf (· == cp) span ≠ span.length

/-- src/Ystring/Char32Set.cpp:72-77 -/
def u32CaseInsensitiveContains (span : List Char32) (cp : Char32) : Bool :=
  stdFindIf (fun c => caseInsensitiveEqual cp c) span ≠ span.length

end Ystring
