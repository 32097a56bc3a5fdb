import Verif.Proofs.Clients
/-
C122: threads that run programs of their own, which call functions of the library as often as they want. As long as no program changes what another
one uses, it is as if each of them were alone.
-/
namespace Ystring
open Spec

variable {ι β : Type} [DecidableEq ι]

/-- **C122** After any schedule of the accesses: there is no data race; a program that has come to its end has a result that it can have when it is
alone, with all calls of the library having had the outcomes that the functions on strings have; the memory it uses is as it has left it; and nothing
has changed that none of the programs may change. -/
theorem C122_any_schedule (R W : ι → Nat → Prop) (hi : Apart R W) (client : ι → Client β) (hk : ∀ i, Keeps (R i) (W i) (client i)) (m : Ptr.Mem)
    (schedule : List ι) :
    let s := (start client m).after schedule
    ¬ s.Race ∧
    (∀ i r, s.left i = .done r → ∃ m', Runs (client i) m r m' ∧ ∀ a, R i a ∨ W i a → s.mem a = m' a) ∧
    (∀ a, (∀ i, ¬ W i a) → s.mem a = m a) := by
  intro s
  have inv : Thr.Inv R W (start client m) s := Thr.Inv.after hi schedule (Thr.Inv.start fun i => Thr.within_client (hk i))
  refine ⟨inv.no_race hi, fun i r e => ?_, fun a ha => inv.outside a ha⟩
  have h1 := inv.result i
  have h2 := inv.mem i
  rw [e] at h1 h2
  have h1' : r = (alone (client i).prog m).1 := h1
  subst h1'
  exact ⟨_, Thr.runs_client (hk i) m, h2⟩

/-- **C122** Every program comes to its end within a number of accesses of its own, whatever the others do. -/
theorem C122_ends (R W : ι → Nat → Prop) (hi : Apart R W) (client : ι → Client β) (hk : ∀ i, Keeps (R i) (W i) (client i)) (m : Ptr.Mem) (i : ι) :
    ∃ n, ∀ schedule : List ι, n ≤ schedule.count i → ∃ r, ((start client m).after schedule).left i = .done r := by
  refine ⟨Thr.steps (client i).prog m, fun σ h => ?_⟩
  have := Thr.steps_after (R := R) (W := W) hi i σ (s := start client m) fun i => Thr.within_client (hk i)
  refine Thr.steps_zero (m := ((start client m).after σ).mem) ?_
  rw [this]
  show Thr.steps (client i).prog m - _ = 0
  omega

/-- **C122** The order of the accesses does not matter: when all programs have come to their ends, their results and the memory are the same. -/
theorem C122_same_end (R W : ι → Nat → Prop) (hi : Apart R W) (client : ι → Client β) (hk : ∀ i, Keeps (R i) (W i) (client i)) (m : Ptr.Mem)
    (schedule schedule' : List ι) (h : ∀ i, ∃ r, ((start client m).after schedule).left i = .done r)
    (h' : ∀ i, ∃ r, ((start client m).after schedule').left i = .done r) :
    (∀ i, ((start client m).after schedule).left i = ((start client m).after schedule').left i) ∧
    ((start client m).after schedule).mem = ((start client m).after schedule').mem := by
  have inv : ∀ σ, Thr.Inv R W (start client m) ((start client m).after σ) :=
    fun σ => Thr.Inv.after hi σ (Thr.Inv.start fun i => Thr.within_client (hk i))
  have i1 := inv schedule
  have i2 := inv schedule'
  refine ⟨fun i => ?_, funext fun a => ?_⟩
  · obtain ⟨r, e⟩ := h i
    obtain ⟨r', e'⟩ := h' i
    have h1 := i1.result i
    have h2 := i2.result i
    rw [e] at h1 ⊢
    rw [e'] at h2 ⊢
    have : r = r' := h1.trans h2.symm
    rw [this]
  · by_cases ha : ∃ i, W i a
    · obtain ⟨i, ha⟩ := ha
      obtain ⟨r, e⟩ := h i
      obtain ⟨r', e'⟩ := h' i
      have h1 := i1.mem i a (.inr ha)
      have h2 := i2.mem i a (.inr ha)
      rw [e] at h1
      rw [e'] at h2
      exact h1.trans h2.symm
    · have ha' : ∀ i, ¬ W i a := fun i hi => ha ⟨i, hi⟩
      exact (i1.outside a ha').trans (i2.outside a ha').symm

/-- **C122** What a program returns does not depend on the schedule: it is what it returns if the others do not run at all. -/
theorem C122_same_result (R W : ι → Nat → Prop) (hi : Apart R W) (client : ι → Client β) (hk : ∀ i, Keeps (R i) (W i) (client i)) (m : Ptr.Mem)
    (schedule : List ι) (i : ι) (n : Nat) (r r' : Res β) (h : ((start client m).after schedule).left i = .done r)
    (h' : ((start client m).after (List.replicate n i)).left i = .done r') : r = r' := by
  have inv : ∀ σ, Thr.Inv R W (start client m) ((start client m).after σ) :=
    fun σ => Thr.Inv.after hi σ (Thr.Inv.start fun i => Thr.within_client (hk i))
  have h1 := (inv schedule).result i
  have h2 := (inv (List.replicate n i)).result i
  rw [h] at h1
  rw [h'] at h2
  exact h1.trans h2.symm

/-! ### What the statements are about -/

/-- `\\u0041b` at 10, `aé` at 30 -/
def mem122 : Ptr.Mem := fun a =>
  (if a < 20 then [0x5C, 0x75, 0x30, 0x30, 0x34, 0x31, 0x62][a - 10]? else [0x61, 0xC3, 0xA9][a - 30]?).getD 0

/-- Two programs. The first one unescapes the string at 10 and counts the code points of the result; if the string is not valid it writes `?` to 10.
The second one asks whether the string at 30 is valid UTF-8, and then for its last code point. -/
def clients122 : Bool → Client Nat
  | false => .call (.unescape ⟨10, 17⟩) fun
    | .ok (.num n) => .call (.countCodepoints ⟨10, 10 + min n 7⟩) fun
      | .ok (.num k) => .ret k
      | _ => .ret 0
    | _ => .write 10 0x3F (.ret 0)
  | true => .call (.isValidUtf8 ⟨30, 33⟩) fun
    | .ok (.bool true) => .call (.getCodepoint ⟨30, 33⟩ (-1)) fun
      | .ok (.found _ c) => .ret c.toNat
      | _ => .ret 0
    | _ => .read 30 fun x => .ret x.toNat

/-- the strings that they use -/
def uses122 (i : Bool) (a : Nat) : Prop := if i then 30 ≤ a ∧ a < 33 else 10 ≤ a ∧ a < 17

/-- the buffers that they may change: the second program changes nothing -/
def changes122 (i : Bool) (a : Nat) : Prop := if i then False else 10 ≤ a ∧ a < 17

theorem apart122 : Apart uses122 changes122 := by
  intro i j hij a h
  cases i <;> cases j <;> simp [uses122, changes122] at * <;> omega

theorem keeps122 : ∀ i, Keeps (uses122 i) (changes122 i) (clients122 i) := by
  intro i
  cases i
  · refine .call (by simp [Call.Proper, Call.args, Call.buffers]) ?_ ?_ ?_
    · simp [InSome, Call.args, uses122]
    · simp [InSome, Call.buffers, changes122]
    · intro r
      split
      · refine .call (by simp [Call.Proper, Call.args, Call.buffers]) ?_ ?_ ?_
        · simp only [InSome, Call.args, uses122, List.mem_singleton]
          rintro a ⟨_, rfl, h1, h2⟩
          dsimp only at h1 h2
          simp only [Bool.false_eq_true, if_false]
          omega
        · simp [InSome, Call.buffers]
        · intro r
          split <;> exact .ret _
      · exact .write (by simp [changes122]) (.ret _)
  · refine .call (by simp [Call.Proper, Call.args, Call.buffers]) ?_ ?_ ?_
    · simp [InSome, Call.args, uses122]
    · simp [InSome, Call.buffers]
    · intro r
      split
      · refine .call (by simp [Call.Proper, Call.args, Call.buffers]) ?_ ?_ ?_
        · simp [InSome, Call.args, uses122]
        · simp [InSome, Call.buffers]
        · intro r
          split <;> exact .ret _
      · exact .read (by simp [uses122]) fun _ => .ret _

/-- what a program has returned -/
def returned122 (p : Thr.Prog Nat) : Option Nat :=
  match p with
  | .done (.ok n) => some n
  | _ => none

theorem returned122_eq {p : Thr.Prog Nat} {n : Nat} (h : returned122 p = some n) : p = .done (.ok n) := by
  unfold returned122 at h
  split at h
  · injection h with h; rw [h]
  · cases h

/-- After forty rounds both have come to their ends: `Ab` has two code points, and the last one of `aé` is U+00E9. -/
theorem ended122 : ((start clients122 mem122).after ((List.replicate 40 [true, false]).flatten)).left false = .done (.ok 2) ∧
    ((start clients122 mem122).after ((List.replicate 40 [true, false]).flatten)).left true = .done (.ok 0xE9) :=
  ⟨returned122_eq (by decide +kernel), returned122_eq (by decide +kernel)⟩

/-- … without a data race on the way, and this is what they do when they are alone. -/
example : (∀ n, ¬ ((start clients122 mem122).after ((List.replicate n [true, false]).flatten)).Race) ∧ ∃ m', Runs (clients122 false) mem122 (.ok 2) m' := by
  refine ⟨fun n => (C122_any_schedule _ _ apart122 clients122 keeps122 mem122 _).1, ?_⟩
  obtain ⟨m', h, _⟩ := (C122_any_schedule _ _ apart122 clients122 keeps122 mem122 ((List.replicate 40 [true, false]).flatten)).2.1 false _ ended122.1
  exact ⟨m', h⟩

/-- **C122** `Runs` says what a program comes to: the result of the first of these programs is 2 in every execution that `Runs` allows. -/
example : ∀ r m', Runs (clients122 false) mem122 r m' → r = .ok 2 := by
  intro r m' h
  cases h with
  | stuck he hr ho => exact absurd he (by intro e; cases e)
  | @call _ _ _ m1 _ _ hr hl ho h =>
    have hu : Ystring.unescapeBuf (text mem122 ⟨10, 17⟩) = .ok ([0x41, 0x62, 0x30, 0x30, 0x34, 0x31, 0x62], 2) := by decide +kernel
    have hl' : text m1 ⟨10, 17⟩ = [0x41, 0x62, 0x30, 0x30, 0x34, 0x31, 0x62] := hl _ _ hu
    have hc : Call.outcome mem122 (.unescape ⟨10, 17⟩) = .ok (.num 2) := by
      simp only [Call.outcome, hu]; rfl
    rw [hc] at h
    have h' : Runs (Client.call (.countCodepoints ⟨10, 12⟩) fun
      | .ok (.num k) => .ret k
      | _ => .ret 0) m1 r m' := h
    have e : Call.outcome m1 (.countCodepoints ⟨10, 12⟩) = .ok (.num 2) := by
      have e2 : text m1 ⟨10, 12⟩ = [0x41, 0x62] := (Thr.bytes_take m1 (b := 10) (n := 2) (e := 17) (by omega)).symm.trans (congrArg (List.take 2) hl')
      simp only [Call.outcome, e2]
      rfl
    cases h' with
    | stuck he hr ho => rw [e] at he; cases he
    | call hr hl ho h =>
      rw [e] at h
      cases h with
      | ret => rfl

end Ystring
