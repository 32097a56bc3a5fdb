import Verif.Spec.Normalize
import Verif.Spec.UnicodeData.CombiningClasses
/-
Specification of the normalization form D (NFD; Unicode Standard, section 3.11, definitions D108, D109, D118 and D70).
-/
namespace Ystring.Spec

/-- the canonical combining class of a code point (0 if the database gives none) -/
def combiningClass (c : Nat) : Nat :=
  match UD_CCC.find? (fun r => Nat.ble r.1 c && Nat.ble c r.2.1) with
  | some r => r.2.2
  | none => 0

/-- `Reorder as bs`: two neighbours whose classes are not 0 and in the wrong order (D108) are exchanged -/
inductive Reorder : List Nat → List Nat → Prop
  | swap (p : List Nat) (a b : Nat) (q : List Nat) : 0 < combiningClass b → combiningClass b < combiningClass a →
      Reorder (p ++ a :: b :: q) (p ++ b :: a :: q)

/-- any number of such exchanges -/
inductive Reorders : List Nat → List Nat → Prop
  | refl (as : List Nat) : Reorders as as
  | step {as bs cs : List Nat} : Reorder as bs → Reorders bs cs → Reorders as cs

/-- no two neighbours are in the wrong order: the canonical order of D109 -/
def InOrder (as : List Nat) : Prop :=
  ∀ p a b q, as = p ++ a :: b :: q → combiningClass b = 0 ∨ combiningClass a ≤ combiningClass b

/-- `NFD cs ds`: the normalization form D of the text `cs` is `ds` (D118): canonical decomposition of every code point,
then canonical ordering. -/
def NFD (cs ds : List Nat) : Prop := ∃ ms, CanonSeq cs ms ∧ Reorders ms ds ∧ InOrder ds

/-- canonically equivalent texts (D70) -/
def CanonEquivalent (as bs : List Nat) : Prop := ∃ ds, NFD as ds ∧ NFD bs ds

/-- the code points whose canonical decomposition the library returns (C54) -/
def Supported (c : Nat) : Prop := singleOf c = none ∧ ¬ IsHangul c ∧ ∀ l, Canon c l → l.length ≤ 3

/-- a starter other than the three Tibetan vowel signs whose decomposition begins with a mark -/
def PlainStarter (c : Nat) : Prop := combiningClass c = 0 ∧ c ≠ 0xF73 ∧ c ≠ 0xF75 ∧ c ≠ 0xF81

end Ystring.Spec
