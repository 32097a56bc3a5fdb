import Verif.Model.Library
/-
What the C++ standard promises about the algorithms that the code calls ([alg.binary.search], [alg.search], [alg.find],
[alg.any.of], [alg.mismatch]). `lower_bound` promises nothing if the range is not partitioned (its precondition).
-/
namespace Ystring.Spec

/-- `k` splits the range: what is before it is less than the key, what is behind is not. -/
def PartitionPoint {α : Type} (l : List α) (less : α → Bool) (k : Nat) : Prop :=
  k ≤ l.length ∧ (∀ x ∈ l.take k, less x = true) ∧ (∀ x ∈ l.drop k, less x = false)

/-- The precondition of `std::lower_bound`. -/
def Partitioned {α : Type} (l : List α) (less : α → Bool) : Prop := ∃ k, PartitionPoint l less k

/-- `i` is the first position at which `good` holds, or the length `n` if there is none. -/
def FirstAt (n : Nat) (good : Nat → Prop) (i : Nat) : Prop :=
  (i < n ∧ good i ∨ i = n) ∧ ∀ j < i, ¬good j

/-- An implementation that does what the standard demands. -/
structure Conforms (L : Lib.Algorithms) : Prop where
  lowerBound : ∀ {α : Type} (l : List α) (less : α → Bool), Partitioned l less → PartitionPoint l less (L.lowerBound l less)
  /-- the first `i` at which `cmp` occurs in `s`; the end of `s` if there is none (an empty `cmp` occurs at the start) -/
  search : ∀ s cmp : Str, FirstAt s.length (fun i => cmp <+: s.drop i) (L.search s cmp)
  findIf : ∀ {α : Type} (l : List α) (p : α → Bool), FirstAt l.length (fun i => ∃ x, l[i]? = some x ∧ p x = true) (L.findIf l p)
  anyOf : ∀ {α : Type} (l : List α) (p : α → Bool), L.anyOf l p = true ↔ ∃ x ∈ l, p x = true
  /-- the first `i` at which the ranges differ; the end of the shorter one if there is none -/
  mismatch : ∀ a b : Str, FirstAt (min a.length b.length) (fun i => a[i]? ≠ b[i]?) (L.mismatch a b)

end Ystring.Spec
