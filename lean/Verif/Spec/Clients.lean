import Verif.Spec.Threads
/-
What the statements about programs that use the library (`C122_*`) talk about: a program reads and writes memory of its own, calls functions of the
library, one after the other, and decides what to do next by what it has read and by what the calls have returned or thrown.
-/
namespace Ystring.Spec
open Thr Ptr

/-- A program with the result `β` -/
inductive Client (β : Type) : Type
  | ret (b : β)
  | read (a : Nat) (next : UInt8 → Client β)
  | write (a : Nat) (x : UInt8) (next : Client β)
  /-- a call, and what to do with the value that it returns or with the exception that it throws -/
  | call (c : Call) (next : Res Value → Client β)

/-- The call has ended with a value or an exception (and not with undefined behaviour or never). -/
def Returned : Res Value → Prop
  | .ok _ | .error .ystring | .error .outOfRange => True
  | .error .ub | .error .diverge => False

instance (r : Res Value) : Decidable (Returned r) :=
  match r with
  | .ok _ | .error .ystring | .error .outOfRange => .isTrue trivial
  | .error .ub | .error .diverge => .isFalse id

/-- What an execution of a program that is alone may come to, step by step: `Runs p m r m'` says that `p` ends with `r` and the memory `m'` if it
begins with the memory `m`. A call has the outcome and leaves in its buffer what the functions on strings say, and changes nothing else. -/
inductive Runs {β : Type} : Client β → Mem → Res β → Mem → Prop
  | ret (b : β) (m : Mem) : Runs (.ret b) m (.ok b) m
  | read {a : Nat} {next : UInt8 → Client β} {m m' : Mem} {r : Res β} (h : Runs (next (m a)) m r m') : Runs (.read a next) m r m'
  | write {a : Nat} {x : UInt8} {next : Client β} {m m' : Mem} {r : Res β} (h : Runs next (assign m a x) r m') : Runs (.write a x next) m r m'
  | call {c : Call} {next : Res Value → Client β} {m m1 m' : Mem} {r : Res β} (hr : Returned (c.outcome m)) (hl : c.leaves m m1)
      (ho : ∀ a, ¬ InSome c.buffers a → m1 a = m a) (h : Runs (next (c.outcome m)) m1 r m') : Runs (.call c next) m r m'
  | stuck {c : Call} {next : Res Value → Client β} {m m1 : Mem} {e : Err} (he : c.outcome m = .error e) (hr : ¬ Returned (.error e))
      (ho : ∀ a, ¬ InSome c.buffers a → m1 a = m a) : Runs (.call c next) m (.error e) m1

/-- A program keeps to what it may read (`R`) and what it may change (`W`), whatever it reads and whatever the calls return; the ranges that it
passes to the library are ranges. -/
inductive Keeps {β : Type} (R W : Nat → Prop) : Client β → Prop
  | ret (b : β) : Keeps R W (.ret b)
  | read {a : Nat} {next : UInt8 → Client β} (h : R a) (k : ∀ x, Keeps R W (next x)) : Keeps R W (.read a next)
  | write {a : Nat} {x : UInt8} {next : Client β} (h : W a) (k : Keeps R W next) : Keeps R W (.write a x next)
  | call {c : Call} {next : Res Value → Client β} (hp : c.Proper) (hr : ∀ a, InSome c.args a → R a) (hw : ∀ a, InSome c.buffers a → W a)
      (k : ∀ r, Keeps R W (next r)) : Keeps R W (.call c next)

/-- first `p`, then `f` with the outcome of `p`, be it a value or an exception -/
def Prog.try {α β : Type} : Prog α → (Res α → Prog β) → Prog β
  | .done r, f => f r
  | .load a k, f => .load a fun x => Prog.try (k x) f
  | .store a x p, f => .store a x (Prog.try p f)

/-- The accesses that a program makes, those of the calls included -/
def Client.prog {β : Type} : Client β → Prog β
  | .ret b => .done (.ok b)
  | .read a next => .load a fun x => (next x).prog
  | .write a x next => .store a x next.prog
  | .call c next => Prog.try c.prog fun r =>
    match r with
    | .ok v => (next (.ok v)).prog
    | .error .ystring => (next (.error .ystring)).prog
    | .error .outOfRange => (next (.error .outOfRange)).prog
    | .error e => .done (.error e)

variable {ι β : Type} [DecidableEq ι]

/-- All the threads are about to begin with their programs. -/
def start (client : ι → Client β) (m : Mem) : State ι β := ⟨fun i => (client i).prog, m⟩

/-- No thread changes what another one may read or change. -/
def Apart (R W : ι → Nat → Prop) : Prop := ∀ i j, i ≠ j → ∀ a, W i a → ¬ R j a ∧ ¬ W j a

end Ystring.Spec
