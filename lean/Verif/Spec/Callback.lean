import Verif.Model.Callback
/-
Vocabulary for the properties of functions that call a function object of the user (C85, C86).
-/
namespace Ystring.Spec
variable {ε σ : Type}

/-- Called with the code points `cs` in this order, starting in the state `st`, the predicate answers `b` every time and leaves
the state `st'`. -/
inductive Asked (pred : Pred ε σ) (b : Bool) : σ → List Char32 → σ → Prop
  | nil {st : σ} : Asked pred b st [] st
  | cons {st st1 st2 : σ} {c : Char32} {cs : List Char32} : pred c st = (.ok b, st1) → Asked pred b st1 cs st2 →
      Asked pred b st (c :: cs) st2

/-- Called with `s` and then, each time, with the text after the separator that it has reported, starting in the state `st`,
the finder reports the separators of the (piece, separator) pairs `ps`; `rest` is the text after the last one and `st'` the
state then. -/
inductive Cuts (finder : Finder ε σ) : σ → Str → List (Str × Str) → Str → σ → Prop
  | nil {st : σ} {s : Str} : Cuts finder st s [] s st
  | cons {st st1 st2 : σ} {p t r rest : Str} {ps : List (Str × Str)} :
      finder (p ++ t ++ r) st = (.ok ⟨p.length, t.length⟩, st1) → t ≠ [] → Cuts finder st1 r ps rest st2 →
      Cuts finder st (p ++ t ++ r) ((p, t) :: ps) rest st2

/-- The iterators that calls of `next()`, with finders and states of any kind, whether they return or throw, make of an
iterator over `s`. -/
inductive Walked (ε σ : Type) (s : Str) : TokenIterator → Prop
  | start : Walked ε σ s (TokenIterator.mk' s)
  | next {it it' : TokenIterator} {finder : Finder ε σ} {st st' : σ} {r : Except (Exn ε) Bool} : Walked ε σ s it →
      it.nextS finder st = (r, it', st') → Walked ε σ s it'

end Ystring.Spec
