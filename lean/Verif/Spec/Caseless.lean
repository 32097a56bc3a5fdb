import Verif.Model.CharClass
import Verif.Model.ConvertCase
import Verif.Spec.Normalize
/-
Code points that case conversion and decomposition leave alone, for the statements `C120_*`.
-/
namespace Ystring.Spec

/-- Neither a letter nor the upper or lower case of anything else -/
def Caseless (c : Char32) : Prop := isLetter c = false ∧ toLowerChar c = c ∧ toUpperChar c = c

/-- Unicode has no canonical decomposition of this code point into two, nor does it occur in one. -/
def Unpaired (c : Char32) : Prop := ∀ d b m, pairOf d = some (b, m) → c.toNat ≠ d ∧ c.toNat ≠ b ∧ c.toNat ≠ m

instance (c : Char32) : Decidable (Caseless c) := inferInstanceAs (Decidable (_ ∧ _))

end Ystring.Spec
