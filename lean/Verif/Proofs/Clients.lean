import Verif.Spec.Clients
import Verif.Proofs.ThreadsOutcome
/- Programs that call the library, alone and in threads -/
namespace Ystring.Thr
open Ptr Spec

variable {α β : Type}

theorem alone_try (p : Prog α) (f : Res α → Prog β) (m : Mem) : alone (Spec.Prog.try p f) m = alone (f (alone p m).1) (alone p m).2 := by
  induction p generalizing m with
  | done r => rfl
  | load a k ih => exact ih _ _
  | store a x p ih => exact ih _

theorem within_try {R W : Nat → Prop} {p : Prog α} {f : Res α → Prog β} (h : Within R W p) (hf : ∀ r, Within R W (f r)) :
    Within R W (Spec.Prog.try p f) := by
  induction h with
  | done r => exact hf r
  | load h _ ih => exact .load h ih
  | store h _ ih => exact .store h ih

/-- a program keeps to what it may access -/
theorem within_client {R W : Nat → Prop} {p : Client β} (h : Keeps R W p) : Within R W p.prog := by
  induction h with
  | ret b => exact .done _
  | read h _ ih => exact .load h ih
  | write h _ ih => exact .store h ih
  | @call c next hp hr hw _ ih =>
    unfold Client.prog
    refine within_try ((within_call c).mono hr hw) fun r => ?_
    match r with
    | .ok v => exact ih _
    | .error .ystring => exact ih _
    | .error .outOfRange => exact ih _
    | .error .ub => exact .done _
    | .error .diverge => exact .done _

/-- alone, a program does what the functions on strings say -/
theorem runs_client {R W : Nat → Prop} {p : Client β} (h : Keeps R W p) : ∀ m, Runs p m (alone p.prog m).1 (alone p.prog m).2 := by
  induction h with
  | ret b => exact fun m => .ret b m
  | read h _ ih => exact fun m => .read (ih _ m)
  | write h _ ih => exact fun m => .write (ih _)
  | @call c next hp hr hw _ ih =>
    intro m
    have ho : ∀ a, ¬ InSome c.buffers a → (alone c.prog m).2 a = m a := fun a ha => alone_outside (within_call c) ha
    obtain ⟨h1, h2⟩ := outcome_call c hp m
    unfold Client.prog
    rw [alone_try, h1]
    cases e : c.outcome m with
    | ok v => exact .call (by rw [e]; trivial) h2 ho (by rw [e]; exact ih _ _)
    | error er =>
      cases er with
      | ystring => exact .call (by rw [e]; trivial) h2 ho (by rw [e]; exact ih _ _)
      | outOfRange => exact .call (by rw [e]; trivial) h2 ho (by rw [e]; exact ih _ _)
      | ub => exact .stuck e id ho
      | diverge => exact .stuck e id ho

end Ystring.Thr
