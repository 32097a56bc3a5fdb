import Verif.Model.Algorithms
/-
The function templates that call a function object of the user, for function objects that have a state (or change the
state of their environment) and may throw. Verif/Model/Algorithms.lean has the same functions for function objects without
effects; Props/Callback.lean proves that they agree.

`σ` is the type of the states. The state is outside of the function object (captured by reference): the library copies
function objects (`pred` in include/Ystring/Algorithms.hpp:134, 199, `m_finder` in include/Ystring/TokenIterator.hpp:21),
and a state inside of them would be copied too. `ε` is the type of the exceptions that the function object throws.
-/
namespace Ystring

/-- What a call throws (or how else it goes wrong): an outcome of the library itself, or an exception of the function object,
which no function of the library catches (there is no `catch` in include/Ystring/Algorithms.hpp). -/
inductive Exn (ε : Type) where
  | lib (e : Err)
  | user (x : ε)
  deriving DecidableEq, Repr

/-- A computation that reads and changes the state of the environment and returns or throws, such as a call of
include/Ystring/Algorithms.hpp:141. -/
def Run (ε σ α : Type) : Type := σ → Except (Exn ε) α × σ

namespace Run
variable {ε σ α β : Type}

/-- Evaluation in sequence; an exception ends it (as in include/Ystring/Algorithms.hpp:139-144). -/
def bind (x : Run ε σ α) (f : α → Run ε σ β) : Run ε σ β := fun st =>
  match x st with
  | (.ok a, st) => f a st
  | (.error e, st) => (.error e, st)

instance : Monad (Run ε σ) where
  pure a := fun st => (.ok a, st)
  bind := bind

/-- A step of the library, which calls no function object (as in include/Ystring/Algorithms.hpp:139). -/
def lib (r : Res α) : Run ε σ α := fun st =>
  match r with
  | .ok a => (.ok a, st)
  | .error e => (.error (.lib e), st)

/-- A call of the function object (as in include/Ystring/Algorithms.hpp:141). -/
def call (r : σ → Except ε α × σ) : Run ε σ α := fun st =>
  match r st with
  | (.ok a, st) => (.ok a, st)
  | (.error x, st) => (.error (.user x), st)

end Run

/-- The type of predicates: include/Ystring/Algorithms.hpp:131 (`Char32Predicate`). -/
abbrev Pred (ε σ : Type) := Char32 → σ → Except ε Bool × σ

/-- The type of finders: include/Ystring/TokenIterator.hpp:14 (`TokenFinder`). -/
abbrev Finder (ε σ : Type) := Str → σ → Except ε Subrange × σ

variable {ε σ : Type}

/-- include/Ystring/Algorithms.hpp:139-144 -/
def findFirstWhereLoopS (str : Str) (pred : Pred ε σ) : (fuel : Nat) → (it prev : Str) → Run ε σ (Subrange × Char32)
  | 0, _, _ => Run.lib (.error .diverge)
  | fuel + 1, it, prev => do
    match ← Run.lib (safeDecodeNext it) with
    | none => pure (⟨npos, 0⟩, INVALID_CHAR)
    | some (ch, it) =>
      if ← Run.call (pred ch) then pure (⟨posOf str prev, posOf str it - posOf str prev⟩, ch)
      else findFirstWhereLoopS str pred fuel it it

/-- include/Ystring/Algorithms.hpp:131-146 -/
def findFirstWhereS (str : Str) (pred : Pred ε σ) (offset : Nat := 0) : Run ε σ (Subrange × Char32) := do
  let it ← Run.lib (iterAt str offset)
  findFirstWhereLoopS str pred (str.length + 1) it it

/-- include/Ystring/Algorithms.hpp:205-210. `it`, `stop` (`end` in the code) are reversed prefixes. -/
def findLastWhereLoopS (pred : Pred ε σ) : (fuel : Nat) → (it stop : Str) → Run ε σ (Subrange × Char32)
  | 0, _, _ => Run.lib (.error .diverge)
  | fuel + 1, it, stop => do
    match ← Run.lib (safeDecodePrev it) with
    | none => pure (⟨npos, 0⟩, INVALID_CHAR)
    | some (ch, it) =>
      if ← Run.call (pred ch) then pure (⟨it.length, stop.length - it.length⟩, ch)
      else findLastWhereLoopS pred fuel it it

/-- include/Ystring/Algorithms.hpp:196-212 -/
def findLastWhereS (str : Str) (pred : Pred ε σ) (offset : Nat := npos) : Run ε σ (Subrange × Char32) :=
  let offset := min offset str.length
  let it := (str.take offset).reverse
  findLastWhereLoopS pred (str.length + 1) it it

/-- The lambda `[&](auto c) {return !pred(c);}` of include/Ystring/Algorithms.hpp:566 and 589. -/
def notPred (pred : Pred ε σ) : Pred ε σ := fun c st =>
  match pred c st with
  | (.ok b, st) => (.ok (!b), st)
  | (.error x, st) => (.error x, st)

/-- include/Ystring/Algorithms.hpp:562-570 -/
def trimEndWhereS (str : Str) (pred : Pred ε σ) : Run ε σ Str := do
  let (sub, _) ← findLastWhereS str (notPred pred)
  if !sub.nonempty then pure []
  else Run.lib (substr str 0 sub.stop)

/-- include/Ystring/Algorithms.hpp:585-593 -/
def trimStartWhereS (str : Str) (pred : Pred ε σ) : Run ε σ Str := do
  let (sub, _) ← findFirstWhereS str (notPred pred)
  if !sub.nonempty then pure []
  else Run.lib (substr str sub.start)

/-- include/Ystring/Algorithms.hpp:599-605 -/
def trimWhereS (str : Str) (pred : Pred ε σ) : Run ε σ Str := do
  trimEndWhereS (← trimStartWhereS str pred) pred

/-- include/Ystring/TokenIterator.hpp:29-39: what the call returns or throws, the members of the iterator after it (also
after an exception: line 32 assigns to `m_str` before line 35 calls the finder and assigns to `m_token`), and the state
of the environment. -/
def TokenIterator.nextS (finder : Finder ε σ) (t : TokenIterator) (st : σ) :
    Except (Exn ε) Bool × TokenIterator × σ :=
  let find (str : Str) : Except (Exn ε) Bool × TokenIterator × σ :=
    match finder str st with
    | (.error x, st) => (.error (.user x), ⟨str, t.token⟩, st)
    | (.ok token, st) =>
      if !token.nonempty then (.ok true, ⟨str, ⟨npos, token.length⟩⟩, st)
      else (.ok true, ⟨str, token⟩, st)
  if t.token.nonempty then
    match substr t.str t.token.stop with
    | .error e => (.error (.lib e), t, st)
    | .ok str => find str
  else if t.token.start ≠ 0 then (.ok false, t, st)
  else find t.str

/-- include/Ystring/Algorithms.hpp:517: `it.next()` in `split_where`, where an exception ends the life of the iterator. -/
def TokenIterator.nextRun (finder : Finder ε σ) (t : TokenIterator) : Run ε σ (Bool × TokenIterator) := fun st =>
  match t.nextS finder st with
  | (.ok more, it, st) => (.ok (more, it), st)
  | (.error e, _, st) => (.error e, st)

/-- include/Ystring/Algorithms.hpp:517-522. The iterator and `result` when the loop ends. -/
def splitLoopS (finder : Finder ε σ) (params : SplitParams) : (fuel : Nat) → (it : TokenIterator) → (result : List Str) →
    Run ε σ (TokenIterator × List Str)
  | 0, _, _ => Run.lib (.error .diverge)
  | fuel + 1, it, result =>
    if result.length < params.maxSplits then do
      let (more, it) ← it.nextRun finder
      if more then do
        let part ← Run.lib it.part
        if !params.ignoreEmpty || !part.isEmpty then splitLoopS finder params fuel it (result ++ [part])
        else splitLoopS finder params fuel it result
      else pure (it, result)
    else pure (it, result)

/-- include/Ystring/Algorithms.hpp:509-530 -/
def splitWhereS (str : Str) (finder : Finder ε σ) (params : SplitParams := {}) : Run ε σ (List Str) := do
  let (it, result) ← splitLoopS finder params (str.length + 2) (TokenIterator.mk' str) []
  if it.toBool then do
    let remainder ← Run.lib it.remainder
    if !params.ignoreEmpty || !remainder.isEmpty then pure (result ++ [remainder])
    else pure result
  else pure result

end Ystring
