import Verif.Spec.Utf8
/-
What the C++ standard library does with a comparison function: sorted ranges, and the keys of an ordered container.
`less` is any function that may fail.
-/
namespace Ystring.Spec

/-- `std::is_sorted`: no element is less than one before it. -/
def SortedBy (less : Str → Str → Res Bool) (xs : List Str) : Prop := xs.Pairwise fun a b => less b a = .ok false

/-- `SetHistory less ins es`: an empty `std::set` with the comparison function `less` has, after the insertion of the strings `ins`
(the last one first in the list), the elements `es`, in this order. A string is inserted only if there is no equivalent element
(one which is neither less nor greater), and then so that every element is less than the next. -/
inductive SetHistory (less : Str → Str → Res Bool) : List Str → List Str → Prop
  | empty : SetHistory less [] []
  | there {ins es : List Str} {t e : Str} : SetHistory less ins es → e ∈ es → less e t = .ok false → less t e = .ok false →
      SetHistory less (t :: ins) es
  | new {ins a b : List Str} {t : Str} : SetHistory less ins (a ++ b) → (∀ x ∈ a, less x t = .ok true) →
      (∀ x ∈ b, less t x = .ok true) → SetHistory less (t :: ins) (a ++ t :: b)

/-- `std::set::find`: there is an element which is neither less nor greater. -/
def Finds (less : Str → Str → Res Bool) (es : List Str) (t : Str) : Prop :=
  ∃ e ∈ es, less e t = .ok false ∧ less t e = .ok false

end Ystring.Spec
