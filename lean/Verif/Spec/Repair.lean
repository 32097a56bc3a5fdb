import Verif.Spec.Utf8
namespace Ystring.Spec

/-- Number of continuation bytes a first byte announces; `none`: it is no lead byte. -/
def announced (b : UInt8) : Option Nat :=
  if b.toNat < 0x80 then some 0
  else if b.toNat < 0xC0 then none
  else if b.toNat < 0xE0 then some 1
  else if b.toNat < 0xF0 then some 2
  else if b.toNat < 0xF8 then some 3
  else none

/-- `Repaired repl s r`: reading `s` from the left, every sequence is kept, and where no sequence starts one
byte, together with continuation bytes that follow it (no more than it announces), is replaced by `repl`. -/
inductive Repaired (repl : Str) : Str → Str → Prop
  | nil : Repaired repl [] []
  | keep {u s r : Str} {c : Char32} : IsSeq u c → Repaired repl s r → Repaired repl (u ++ s) (u ++ r)
  | bad {b : UInt8} {cs s r : Str} : ¬ HasSeqPrefix (b :: (cs ++ s)) → (∀ x ∈ cs, IsCont x) →
      (∀ n, announced b = some n → cs.length ≤ n) →
      Repaired repl s r → Repaired repl (b :: (cs ++ s)) (repl ++ r)

end Ystring.Spec
