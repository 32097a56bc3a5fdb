import Verif.Spec.Utf8
import Verif.Model.CharClass
/-
Characters (a code point with the combining marks that follow it) and positions. The only function of the model
used here is the public predicate `is_mark` (properties C50, C51).
-/
namespace Ystring.Spec

/-- A character: one code point followed by any number of combining marks. -/
def IsCharacter (u : Str) : Prop := ∃ c ms, Decodes u (c :: ms) ∧ ∀ m ∈ ms, isMark m = true

/-- The string begins with a combining mark. -/
def StartsWithMark (u : Str) : Prop := ∃ m cs, Decodes u (m :: cs) ∧ isMark m = true

/-- `gs` are the characters of `s`: marks belong to the preceding code point, i.e. only the first character may
begin with a mark. -/
def Characters (s : Str) (gs : List Str) : Prop :=
  gs.flatten = s ∧ (∀ g ∈ gs, IsCharacter g) ∧ ∀ g ∈ gs.tail, ¬ StartsWithMark g

/-- `gs` are the code points (their bytes) of `s`. -/
def CodePoints (s : Str) (gs : List Str) : Prop := gs.flatten = s ∧ ∀ g ∈ gs, ∃ c, IsSeq g c

/-- Byte offset of the boundary before piece `k` of a string with the pieces `gs`; negative `k` count from the
end; `none` if there is no such boundary. -/
def boundary (gs : List Str) (k : Int) : Option Nat :=
  if 0 ≤ k then if k ≤ gs.length then some (gs.take k.toNat).flatten.length else none
  else if -k ≤ gs.length then some (gs.take (gs.length + k).toNat).flatten.length else none

/-- Index `k` (negative: from the end) clamped to `0 .. n`. -/
def clampIndex (n : Nat) (k : Int) : Nat :=
  if 0 ≤ k then min k.toNat n else (n + k).toNat

/-- The pieces from index `i` up to, but not including, index `j` (clamped, negative from the end); empty if the
interval is. -/
def slice (gs : List Str) (i j : Int) : List Str :=
  (gs.take (clampIndex gs.length j)).drop (clampIndex gs.length i)

end Ystring.Spec
