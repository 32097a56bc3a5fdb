import Verif.Model.Width
/-
Specification for C110: what "the same result on a platform whose size_t has another width" means.
-/
namespace Ystring.Spec

/-- A platform and a string: `size_t` has `W` values (at least 6 and at most 64 bits), and the string has at most `PTRDIFF_MAX` bytes there. -/
structure Platform (W n : Nat) : Prop where
  wide : 64 ≤ W
  most : W ≤ 2 ^ 64
  fits : n < W / 2

/-- A value of type `size_t` on the other platform: `npos` stays `npos` (the greatest value), other values are the same. -/
def posW (W p : Nat) : Nat := if p = 2 ^ 64 - 1 then W - 1 else p

/-- A `Subrange` on the other platform: the default range `{npos, 0}` stays the default range. -/
def rangeW (W : Nat) (r : Subrange) : Subrange := ⟨posW W r.offset, r.length⟩

/-- A `ptrdiff_t` argument on the other platform: the default value `PTRDIFF_MAX` stays `PTRDIFF_MAX`. -/
def diffW (W : Nat) (k : Int) : Int := if k = 2 ^ 63 - 1 then (W / 2 : Nat) - 1 else k

/-- `k` is a `ptrdiff_t` of the other platform, and not its least value (whose absolute value is undefined there) -/
def Index (W : Nat) (k : Int) : Prop := -(W / 2 : Nat) < k ∧ k < (W / 2 : Nat)

/-- the same, or the default value `PTRDIFF_MAX` of the 64-bit platform -/
def Limit (W : Nat) (k : Int) : Prop := k = 2 ^ 63 - 1 ∨ Index W k

end Ystring.Spec
