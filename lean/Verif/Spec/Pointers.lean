import Verif.Model.Pointers
/-
What the statements about addresses (`C95_*`) talk about: the bytes that are stored in a range of addresses.
-/
namespace Ystring.Spec

/-- The bytes at the addresses from `i` to before `e` -/
def bytes (m : Nat → UInt8) (i e : Nat) : List UInt8 := (List.range' i (e - i)).map m

/-- The two memories have the same bytes at the addresses from `i` to before `e`. -/
def AgreeOn (m m' : Nat → UInt8) (i e : Nat) : Prop := ∀ a, i ≤ a → a < e → m a = m' a

end Ystring.Spec
