import Verif.Spec.Utf8
/-
What it means that a call is safe on arbitrary bytes.
-/
namespace Ystring.Spec

/-- The call returns a value or throws `YstringException`: no undefined behaviour, no endless loop and no other
exception. -/
def Safe {α : Type} (r : Res α) : Prop := r = .error .ystring ∨ ∃ a, r = .ok a

/-- The call throws `YstringException` or returns a value with the property `P`. -/
def SafeWith {α : Type} (P : α → Prop) (r : Res α) : Prop := r = .error .ystring ∨ ∃ a, r = .ok a ∧ P a

/-- The string has no seven continuation bytes in a row, except perhaps at its very start. -/
def NoLongRun (s : Str) : Prop := ∀ t w r, s = t ++ w ++ r → w.length = 7 → (∀ b ∈ w, IsCont b) → t = []

/-- The range lies within a string of `n` bytes. -/
def Within (n : Nat) (r : Subrange) : Prop := r.offset + r.length ≤ n

end Ystring.Spec
