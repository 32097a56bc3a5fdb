import Verif.Spec.Replace
namespace Ystring.Spec

/-- `Splits first no ignore n s ps last`: cutting `s` from left to right at its first separator, then the rest at its
first separator, and so on, at most `n` times, gives the (piece, separator) pairs `ps` and the remainder `last`.
`first p t rest` says that `t` is the first separator of `p ++ t ++ rest`, `no s` that `s` has none. If `ignore` is
set, cuts that produce an empty piece are not counted. -/
inductive Splits (first : Str → Str → Str → Prop) (no : Str → Prop) (ignore : Bool) :
    Nat → Str → List (Str × Str) → Str → Prop
  | limit {s : Str} : Splits first no ignore 0 s [] s
  | none {n : Nat} {s : Str} : no s → Splits first no ignore n s [] s
  | hit {n : Nat} {p t rest last : Str} {ps : List (Str × Str)} : first p t rest → (ignore = true → p ≠ []) →
      Splits first no ignore n rest ps last → Splits first no ignore (n + 1) (p ++ t ++ rest) ((p, t) :: ps) last
  | skip {n : Nat} {t rest last : Str} {ps : List (Str × Str)} : first [] t rest → ignore = true →
      Splits first no ignore (n + 1) rest ps last → Splits first no ignore (n + 1) (t ++ rest) (([], t) :: ps) last

/-- The pieces, without the empty ones if `ignore` is set. -/
def keep (ignore : Bool) (ps : List Str) : List Str := if ignore then ps.filter (· ≠ []) else ps

/-- All pieces and separators in order. -/
def unsplit : List (Str × Str) → Str → Str
  | [], last => last
  | (p, t) :: ps, last => p ++ t ++ unsplit ps last

end Ystring.Spec
