import Verif.Spec.Find
namespace Ystring.Spec

/-- `ScanLeft f n s ps`: looking for `f` in `s` from left to right and always taking the leftmost occurrence behind
the previous one, at most `n` times, `ps` are the pieces of `s` between the chosen occurrences. -/
inductive ScanLeft (f : Str) : Nat → Str → List Str → Prop
  | limit {s : Str} : ScanLeft f 0 s [s]
  | none {n : Nat} {s : Str} : (∀ i, ¬ OccursAt s f i) → ScanLeft f n s [s]
  | hit {n : Nat} {p t : Str} {ps : List Str} : (∀ i, OccursAt (p ++ f ++ t) f i → p.length ≤ i) →
      ScanLeft f n t ps → ScanLeft f (n + 1) (p ++ f ++ t) (p :: ps)

/-- The same from right to left: always the rightmost occurrence before the previous one. -/
inductive ScanRight (f : Str) : Nat → Str → List Str → Prop
  | limit {s : Str} : ScanRight f 0 s [s]
  | none {n : Nat} {s : Str} : (∀ i, ¬ OccursAt s f i) → ScanRight f n s [s]
  | hit {n : Nat} {p t : Str} {ps : List Str} : (∀ i, OccursAt (t ++ f ++ p) f i → i ≤ t.length) →
      ScanRight f n t ps → ScanRight f (n + 1) (t ++ f ++ p) (ps ++ [p])

/-- `p0 ++ sep ++ p1 ++ sep ++ ... ++ pk`. -/
def joinWith (sep : Str) : List Str → Str
  | [] => []
  | [p] => p
  | p :: q :: ps => p ++ sep ++ joinWith sep (q :: ps)

/-- The list with its first `n` elements equal to `a` replaced by `b`. -/
def replaceFirst (a b : Char32) : Nat → List Char32 → List Char32
  | _, [] => []
  | 0, cs => cs
  | n + 1, c :: cs => if c = a then b :: replaceFirst a b n cs else c :: replaceFirst a b (n + 1) cs

/-- The list with its last `n` elements equal to `a` replaced by `b`. -/
def replaceLast (a b : Char32) (n : Nat) (cs : List Char32) : List Char32 :=
  (replaceFirst a b n cs.reverse).reverse

/-- The UTF-8 encoding of a sequence of code points. -/
def encodeAll (cs : List Char32) : Str := cs.flatMap (fun c => rfcEncode c.toNat)

end Ystring.Spec
