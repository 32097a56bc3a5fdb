import Verif.Spec.Utf8
import Verif.Spec.Case
import Verif.Spec.Split
/-
Specification of case-insensitive comparison: two texts are the same up to case if their code points have the same
simple upper case mappings (UnicodeData16.0.0.txt).
-/
namespace Ystring.Spec

/-- The simple upper case mappings of the code points of a text. -/
def fold (cs : List Char32) : List Nat := cs.map (fun c => simpleUpper c.toNat)

/-- `a` and `b` are valid and the same up to case. -/
def SameFold (a b : Str) : Prop := ∃ cs ds, Decodes a cs ∧ Decodes b ds ∧ fold cs = fold ds

/-- The `n` bytes of `s` from offset `i` on start and end on code point boundaries and are the same as `cmp` up to
case. -/
def FoldAt (s cmp : Str) (i n : Nat) : Prop :=
  ∃ a m b, s = a ++ m ++ b ∧ a.length = i ∧ m.length = n ∧ Valid a ∧ Valid b ∧ SameFold m cmp

/-- `t` is the first match of `cmp` in `p ++ t ++ rest`. -/
def FirstFold (cmp p t rest : Str) : Prop :=
  FoldAt (p ++ t ++ rest) cmp p.length t.length ∧ ∀ i n, FoldAt (p ++ t ++ rest) cmp i n → p.length ≤ i

/-- There is no match of `cmp` in `s`. -/
def NoFold (cmp s : Str) : Prop := ∀ i n, ¬ FoldAt s cmp i n

/-- `ScanFoldRight cmp n s last ps`: cutting `s` from right to left at the last match of `cmp` (the one that ends last),
then what is before it at its last match, and so on, at most `n` times, gives the remainder `last` at the left and
the (match, piece behind it) pairs `ps`, from left to right. -/
inductive ScanFoldRight (cmp : Str) : Nat → Str → Str → List (Str × Str) → Prop
  | limit {s : Str} : ScanFoldRight cmp 0 s s []
  | none {n : Nat} {s : Str} : NoFold cmp s → ScanFoldRight cmp n s s []
  | hit {n : Nat} {p t rest last : Str} {ps : List (Str × Str)} :
      FoldAt (rest ++ t ++ p) cmp rest.length t.length →
      (∀ i m, FoldAt (rest ++ t ++ p) cmp i m → i + m ≤ rest.length + t.length) →
      ScanFoldRight cmp n rest last ps → ScanFoldRight cmp (n + 1) (rest ++ t ++ p) last (ps ++ [(t, p)])

end Ystring.Spec
