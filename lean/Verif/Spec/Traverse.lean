import Verif.Model.Algorithms
import Verif.Spec.Split
/-
Client code that walks through a string with a `TokenIterator` (C84).
-/
namespace Ystring.Spec

/-- The client's loop `while (it.next()) { parts.push_back(it.part()); rest.push_back(it.remainder()); }`: the pairs of the
two views after each call of `next` that returns true. `fuel` bounds the number of iterations. -/
def traverse (finder : Str → Res Subrange) : (fuel : Nat) → TokenIterator → Res (List (Str × Str))
  | 0, _ => .error .diverge
  | fuel + 1, it => do
    let (more, it) ← it.next finder
    if more then do
      let part ← it.part
      let rest ← it.remainder
      let tail ← traverse finder fuel it
      .ok ((part, rest) :: tail)
    else .ok []

/-- What the walk shows for the pieces `ps` (each with its separator) and the last piece. -/
def walk : List (Str × Str) → Str → List (Str × Str)
  | [], last => [(last, [])]
  | (p, _) :: ps, last => (p, unsplit ps last) :: walk ps last

end Ystring.Spec
