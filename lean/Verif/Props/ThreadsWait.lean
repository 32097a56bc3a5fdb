import Verif.Proofs.ThreadsLinear
import Verif.Props.ThreadsStop
/-
C113: threads whose strings are changed by others while they are at work. (For C++ this is a data race; what is said here is about the accesses
of the machine.) No call waits, loops or leaves its arguments, whatever it reads.
-/
namespace Ystring
open Spec Thr

variable {ι : Type} [DecidableEq ι]

/-- **C113** A call comes to its end within a number of accesses of its own that depends only on the lengths of its arguments, whatever the
other threads do and however the memory changes while it is at work. (It does not loop: see `Err.diverge`.) -/
theorem C113_wait_free (call : ι → Call) (m : Ptr.Mem) (i : ι) (hp : (call i).Proper) (hf : (call i).Fits) (history : List (Event ι))
    (h : (call i).bound ≤ accesses i history) :
    ∃ r, ((begin call m).afterAll history).left i = .done r ∧ r ≠ .error .diverge := by
  have hE : ∀ e c, Ends True (call i).bound e c → c ≤ (call i).bound := fun e c h => h.1
  obtain ⟨c', h1, h2⟩ := wp_afterAll i history (begin call m) 0 (wp_call (call i) hp hf True (.inr trivial))
  have hd : ∃ r, ((begin call m).afterAll history).left i = .done r := by
    rcases h2 with h2 | h2
    · exact h2
    · have := wp_le hE (fun _ _ h => h) h1
      exact this.2 (by omega)
  obtain ⟨r, e⟩ := hd
  refine ⟨r, e, ?_⟩
  rintro rfl
  rw [e] at h1
  exact h1.2.1 rfl

/-- **C113** The functions that go forwards are defined whatever happens to the bytes of their arguments while they are at work: they return
or throw. -/
theorem C113_defined (call : ι → Call) (m : Ptr.Mem) (i : ι) (hp : (call i).Proper) (hf : (call i).Fits) (hr : (call i).Robust)
    (history : List (Event ι)) (r : Res Value) (h : ((begin call m).afterAll history).left i = .done r) : r ≠ .error .ub := by
  obtain ⟨c', h1, h2⟩ := wp_afterAll i history (begin call m) 0 (wp_call (call i) hp hf False (.inl hr))
  rintro rfl
  rw [h] at h1
  exact h1.2.2 rfl

/-- **C113** No access is outside of the strings and buffers of the call, and only buffers are written to, whatever happens to the bytes. -/
theorem C113_inside (call : ι → Call) (m : Ptr.Mem) (i : ι) (history : List (Event ι)) (a : Nat) :
    (WillRead (((begin call m).afterAll history).left i) a → InSome (call i).args a) ∧
    (WillWrite (((begin call m).afterAll history).left i) a → InSome (call i).buffers a) := by
  have key : ∀ (σ : List (Event ι)) (s : State ι Value), (∀ i, Within (InSome (call i).args) (InSome (call i).buffers) (s.left i)) →
      ∀ i, Within (InSome (call i).args) (InSome (call i).buffers) ((s.afterAll σ).left i) := by
    intro σ
    induction σ with
    | nil => exact fun s h => h
    | cons e σ ih =>
      intro s h
      refine ih (s.react e) ?_
      cases e with
      | disturb m => exact h
      | access k =>
        intro i
        show Within _ _ ((s.step k).left i)
        unfold State.step
        have hk := h k
        split
        · exact h i
        · rename_i a q e
          rw [e] at hk
          cases hk with
          | load ha hk =>
          show Within _ _ (if i = k then _ else _)
          split
          · rename_i e'; subst e'; exact hk _
          · exact h i
        · rename_i a x p e
          rw [e] at hk
          cases hk with
          | store ha hk =>
          show Within _ _ (if i = k then _ else _)
          split
          · rename_i e'; subst e'; exact hk
          · exact h i
  have hw := key history (begin call m) (fun i => within_call (call i)) i
  constructor
  · rintro ⟨k, e⟩
    rw [e] at hw
    cases hw with
    | load h _ => exact h
  · rintro ⟨x, q, e⟩
    rw [e] at hw
    cases hw with
    | store h _ => exact h

/-- **C113** `unescape`, when no other call uses its buffer: five accesses for each byte are enough. (`o` and `t` as in C112: the strings on which
`unescape` is defined.) -/
theorem C113_linear (call : ι → Call) (hi : Independent call) (m : Ptr.Mem) (i : ι) (r : Ptr.Range) (hr : r.first ≤ r.last)
    (hc : call i = .unescape r) (hf : Fits (text m r)) (o t : Str) (ho : Reads Escape (text m r) o t) (ht : t = [] ∨ Malformed t)
    (schedule : List ι) (h : 5 * Range.size r + 17 ≤ schedule.count i) : ∃ x, ((begin call m).after schedule).left i = .done x := by
  have hlen : (text m r).length = r.last - r.first := Ptr.bytes_length _ _ _
  have hl := hf.lt12
  rw [hlen] at hl
  have k1 := Thr.steps_unescapeLoop (b := r.first) (e := r.last) hr hl ht ho m [] [] [] (r.last - r.first + 1) (by simp) (by simp; omega) rfl
  have k2 : Thr.steps (call i).prog m ≤ 5 * Range.size r + 17 := by
    rw [hc]
    show Thr.steps (Thr.unescape r >>= fun b => .done (.ok (Value.num b))) m ≤ _
    rw [Thr.steps_bind]
    have k3 : Thr.steps (Thr.unescape r) m ≤ 5 * Range.size r + 17 := by
      refine Nat.le_trans k1 ?_
      rw [List.nil_append, hlen]
      exact Nat.le_refl _
    split
    · exact k3
    · exact k3
  have := Thr.steps_after (R := fun i => InSome (call i).args) (W := fun i => InSome (call i).buffers) hi i schedule (s := begin call m)
    fun i => Thr.within_call (call i)
  refine Thr.steps_zero (m := ((begin call m).after schedule).mem) ?_
  rw [this]
  show Thr.steps (call i).prog m - _ = 0
  omega

/-! ### What the statements are about -/

/-- `a` at 30, 0xE9 from some moment on -/
def mem113 (x : UInt8) : Ptr.Mem := fun a => if a = 30 then x else 0

/-- two threads: one decodes the byte at 30, one counts the characters in the ten bytes from 25 on -/
def calls113 : Bool → Call
  | false => .decodeNext 30 31
  | true => .countCodepoints ⟨25, 35⟩

/-- a history with a change of the byte at 30 after the first access of each of the threads -/
def history113 : List (Event Bool) :=
  [.access false, .access true, .disturb (mem113 0xE9)] ++ List.replicate 20 (.access true) ++ List.replicate 8 (.access false)

/-- The hypotheses of `C113_wait_free` and `C113_defined` are met … -/
example : ∀ i, (calls113 i).Proper ∧ (calls113 i).Fits ∧ (calls113 i).Robust ∧ (calls113 i).bound ≤ accesses i history113 := by
  intro i
  cases i
  · exact ⟨by simp [Call.Proper, calls113, Call.args, Call.buffers], by simp [Call.Fits, calls113, Call.args, Call.buffers, Range.size], trivial,
      by decide⟩
  · exact ⟨by simp [Call.Proper, calls113, Call.args, Call.buffers], by simp [Call.Fits, calls113, Call.args, Call.buffers, Range.size], trivial,
      by decide⟩

/-- … and the bound of `decode_next` is reached (a character of four bytes). -/
example : accesses false (List.replicate 7 (Event.access false)) = 7 ∧
    (∃ a, WillRead (((begin (fun _ : Bool => Call.decodeNext 30 34)
      (fun a => if a = 30 then 0xF0 else 0x90)).afterAll (List.replicate 7 (Event.access false))).left false) a) := by
  exact ⟨rfl, 33, _, rfl⟩

/-- The hypotheses of `C113_linear` are met: the two calls of `unescape` in C111, `\\u0041b` and `\\\\x`. -/
example : Reads Escape (text mem111 ⟨10, 17⟩) [0x41, 0x62] [] ∧ Reads Escape (text mem111 ⟨20, 23⟩) [0x5C, 0x78] [] := by
  constructor
  · exact .escape (e := [0x5C, 0x75, 0x30, 0x30, 0x34, 0x31]) (out := [0x41])
      (.short (ds := [0x30, 0x30, 0x34, 0x31]) rfl (by decide) (by decide)) (.plain (by decide) .stop)
  · exact .escape (e := [0x5C, 0x5C]) (out := [0x5C]) (.other (b := 0x5C) (by decide) (by decide)) (.plain (by decide) .stop)

/-- **C113** What a call returns is a different matter: `decode_next` reads the byte `a`, which is changed to 0xE9, and returns the code point
U+00E9. It is in neither of the strings: the first one is `a`, and the second one is not UTF-8. -/
theorem C113_torn : ∃ (m m' : Ptr.Mem) (history : List (Event Bool)) (it : Nat),
    ((begin calls113 m).afterAll (.access false :: .disturb m' :: history)).left false = .done (.ok (.decoded 0xE9 it)) ∧
    Ystring.decodeNext (bytes m 30 31) = .ok (0x61, []) ∧ Ystring.decodeNext (bytes m' 30 31) = .ok (INVALID_CHAR, [0xE9]) :=
  ⟨mem113 0x61, mem113 0xE9, List.replicate 8 (.access false), 31, rfl, rfl, rfl⟩

/-- **C113** … and `escape_json` finds the character U+000B at 30, which is changed to `a` after the `switch` and to `b` before the last digit: the result is
the escape sequence `\u0062`, which is in the result for none of the three strings. (The call ends within its bound, 4, all the same.) -/
theorem C113_torn_escape : ∃ history : List (Event Unit), accesses () history = 4 ∧
    ((begin (fun _ : Unit => Call.escapeJson ⟨30, 31⟩) (mem113 0x0B)).afterAll history).left ()
      = .done (.ok (.text [0x5C, 0x75, 0x30, 0x30, 0x36, 0x32])) ∧
    Ystring.escapeJson [0x0B] = .ok [0x5C, 0x75, 0x30, 0x30, 0x30, 0x42] ∧ Ystring.escapeJson [0x61] = .ok [0x61] ∧
    Ystring.escapeJson [0x62] = .ok [0x62] :=
  ⟨[.access (), .access (), .disturb (mem113 0x61), .access (), .disturb (mem113 0x62), .access ()], rfl, rfl, rfl, rfl, rfl⟩

/-- Four more calls whose strings change: replacing what is malformed, a search that ignores case, a comparison, and going back. -/
def calls113' : Fin 4 → Call
  | 0 => .replaceInvalidUtf8 ⟨25, 35⟩ 0xFFFD
  | 1 => .findFirst ⟨25, 35⟩ ⟨30, 31⟩ 2
  | 2 => .equal ⟨30, 31⟩ ⟨25, 35⟩
  | 3 => .skipPrev 25 31

/-- The hypotheses of `C113_wait_free` and `C113_defined` are met by them, for any history in which each of them makes its accesses. -/
example : ∀ i, (calls113' i).Proper ∧ (calls113' i).Fits ∧ (calls113' i).Robust := by
  intro i
  match i with
  | 0 | 2 | 3 =>
    exact ⟨by simp [Call.Proper, calls113', Call.args, Call.buffers], by simp [Call.Fits, calls113', Call.args, Call.buffers, Range.size], trivial⟩
  | 1 =>
    refine ⟨by simp [Call.Proper, calls113', Call.args, Call.buffers], by simp [Call.Fits, calls113', Call.args, Call.buffers, Range.size], ?_⟩
    show 2 ≤ 35 - 25
    decide

/-- The bounds of `skip_prev` (three bytes, and the first of them once more) and of `escape_json` are reached. -/
example : (∃ a, WillRead (((begin (fun _ : Bool => Call.skipPrev 30 33) (fun a => if a = 30 then 0xE2 else 0x82)).afterAll
      (List.replicate 3 (Event.access false))).left false) a) ∧
    (∃ a, WillRead (((begin (fun _ : Bool => Call.escapeJson ⟨30, 32⟩) (fun _ => 1)).afterAll
      (List.replicate 7 (Event.access false))).left false) a) :=
  ⟨⟨30, _, rfl⟩, ⟨31, _, rfl⟩⟩

/-- Five more calls whose strings change: they count characters, go to a character or code point, and go to a code point from behind. -/
def calls113'' : Fin 5 → Call
  | 0 => .countChars ⟨25, 35⟩
  | 1 => .getCharPos ⟨25, 35⟩ 3
  | 2 => .getCharRange ⟨25, 35⟩ 0
  | 3 => .getCodepoint ⟨25, 35⟩ 9
  | 4 => .getCodepointPos ⟨25, 35⟩ (-9)

/-- The hypotheses of `C113_wait_free` and `C113_defined` are met by them, for any history in which each of them makes its accesses. -/
example : ∀ i, (calls113'' i).Proper ∧ (calls113'' i).Fits ∧ (calls113'' i).Robust := by
  intro i
  match i with
  | 0 =>
    exact ⟨by simp [Call.Proper, calls113'', Call.args, Call.buffers], by simp [Call.Fits, calls113'', Call.args, Call.buffers, Range.size], trivial⟩
  | 1 | 2 | 3 | 4 =>
    refine ⟨by simp [Call.Proper, calls113'', Call.args, Call.buffers], by simp [Call.Fits, calls113'', Call.args, Call.buffers, Range.size], ?_⟩
    simp [calls113'', Call.Robust, PTRDIFF_MIN]

/-- **C113** `get_codepoint` for a negative position is not among them: seven continuation bytes behind another byte are enough (C64). -/
example : ∃ (m : Ptr.Mem) (history : List (Event Unit)),
    ((begin (fun _ : Unit => Call.getCodepoint ⟨30, 38⟩ (-1)) m).afterAll history).left () = .done (.error .ub) :=
  ⟨fun _ => 0x80, List.replicate 16 (.access ()), rfl⟩

end Ystring
