import Verif.Proofs.ThreadsOutcome
/-
C111: any number of threads, any schedule. Calls of which none changes what another one uses do not disturb each other: whatever the order
of their accesses to the memory is, each of them returns what it returns when it is alone, and none of the accesses is a data race.
-/
namespace Ystring
open Spec

variable {ι : Type} [DecidableEq ι]

/-- **C111** After any schedule, of calls that do not change what another one uses: there is no data race; a call that has come to its end has
the outcome that it has for the strings that were in memory at the beginning, and has left in its buffers what it leaves there; and
nothing has changed outside of the buffers. -/
theorem C111_any_schedule (call : ι → Call) (hp : ∀ i, (call i).Proper) (hi : Independent call) (m : Ptr.Mem) (schedule : List ι) :
    let s := (begin call m).after schedule
    ¬ s.Race ∧
    (∀ i r, s.left i = .done r → r = (call i).outcome m ∧ (call i).leaves m s.mem) ∧
    (∀ a, (∀ i, ¬ InSome (call i).buffers a) → s.mem a = m a) := by
  intro s
  have hd : ∀ i j, i ≠ j → ∀ a, InSome (call i).buffers a → ¬ InSome (call j).args a ∧ ¬ InSome (call j).buffers a := hi
  have inv : Thr.Inv (fun i => InSome (call i).args) (fun i => InSome (call i).buffers) (begin call m) s :=
    Thr.Inv.after hd schedule (Thr.Inv.start fun i => Thr.within_call (call i))
  refine ⟨inv.no_race hd, fun i r e => ?_, fun a ha => inv.outside a ha⟩
  have h1 := inv.result i
  have h2 := inv.mem i
  rw [e] at h1 h2
  obtain ⟨o, l⟩ := Thr.outcome_call (call i) (hp i) m
  exact ⟨h1.trans o, Thr.leaves_agree (call i) (fun a ha => (h2 a (.inr ha)).symm) l⟩

/-- **C111** No call waits for another one: each of them comes to its end within a number of accesses of its own that depends only on the
strings in memory at the beginning, whatever the other threads do. -/
theorem C111_ends (call : ι → Call) (hi : Independent call) (m : Ptr.Mem) (i : ι) :
    ∃ n, ∀ schedule : List ι, n ≤ schedule.count i → ∃ r, ((begin call m).after schedule).left i = .done r := by
  refine ⟨Thr.steps (call i).prog m, fun σ h => ?_⟩
  have := Thr.steps_after (R := fun i => InSome (call i).args) (W := fun i => InSome (call i).buffers) hi i σ (s := begin call m)
    fun i => Thr.within_call (call i)
  refine Thr.steps_zero (m := ((begin call m).after σ).mem) ?_
  rw [this]
  show Thr.steps (call i).prog m - _ = 0
  omega

/-- **C111** The order of the accesses does not matter: when all calls have come to their ends, the outcomes and the memory are the same. -/
theorem C111_same_end (call : ι → Call) (hi : Independent call) (m : Ptr.Mem) (schedule schedule' : List ι)
    (h : ∀ i, ∃ r, ((begin call m).after schedule).left i = .done r)
    (h' : ∀ i, ∃ r, ((begin call m).after schedule').left i = .done r) :
    (∀ i, ((begin call m).after schedule).left i = ((begin call m).after schedule').left i) ∧
    ((begin call m).after schedule).mem = ((begin call m).after schedule').mem := by
  have inv : ∀ σ, Thr.Inv (fun i => InSome (call i).args) (fun i => InSome (call i).buffers) (begin call m) ((begin call m).after σ) :=
    fun σ => Thr.Inv.after hi σ (Thr.Inv.start fun i => Thr.within_call (call i))
  have i1 := inv schedule
  have i2 := inv schedule'
  refine ⟨fun i => ?_, funext fun a => ?_⟩
  · obtain ⟨r, e⟩ := h i
    obtain ⟨r', e'⟩ := h' i
    have h1 := i1.result i
    have h2 := i2.result i
    rw [e] at h1 ⊢
    rw [e'] at h2 ⊢
    have : r = r' := h1.trans h2.symm
    rw [this]
  · by_cases ha : ∃ i, InSome (call i).buffers a
    · obtain ⟨i, ha⟩ := ha
      obtain ⟨r, e⟩ := h i
      obtain ⟨r', e'⟩ := h' i
      have h1 := i1.mem i a (.inr ha)
      have h2 := i2.mem i a (.inr ha)
      rw [e] at h1
      rw [e'] at h2
      exact h1.trans h2.symm
    · have ha' : ∀ i, ¬ InSome (call i).buffers a := fun i hi => ha ⟨i, hi⟩
      exact (i1.outside a ha').trans (i2.outside a ha').symm

/-! ### What the statements are about -/

/-- `\\u0041b` at 10, `\\x` at 20, `aé` at 30, zeros elsewhere -/
def mem111 : Ptr.Mem := fun a =>
  ((if a < 20 then [0x5C, 0x75, 0x30, 0x30, 0x34, 0x31, 0x62][a - 10]?
    else if a < 30 then [0x5C, 0x5C, 0x78][a - 20]?
    else [0x61, 0xC3, 0xA9][a - 30]?).getD 0)

/-- five calls: two that read `aé`, one that unescapes `\\u0041b`, one that unescapes `\\x`, and one that writes into a buffer of its own -/
def calls111 : Fin 5 → Call
  | 0 => .toUpper ⟨30, 33⟩
  | 1 => .findLastWhere ⟨30, 33⟩ (· == 0xE9) 3
  | 2 => .unescape ⟨10, 17⟩
  | 3 => .unescape ⟨20, 23⟩
  | 4 => .encodeUtf8 ⟨40, 44⟩ 0x20AC

theorem proper111 : ∀ i, (calls111 i).Proper := by
  intro i
  match i with
  | 0 | 1 | 2 | 3 | 4 => simp [Call.Proper, calls111, Call.args, Call.buffers]

theorem independent111 : Independent calls111 := by
  intro i j hij a h
  match i with
  | 0 | 1 => simp [InSome, calls111, Call.buffers] at h
  | 2 =>
    match j with
    | 0 | 1 | 3 | 4 => simp [InSome, calls111, Call.args, Call.buffers] at h ⊢ <;> omega
    | 2 => exact absurd rfl hij
  | 3 =>
    match j with
    | 0 | 1 | 2 | 4 => simp [InSome, calls111, Call.args, Call.buffers] at h ⊢ <;> omega
    | 3 => exact absurd rfl hij
  | 4 =>
    match j with
    | 0 | 1 | 2 | 3 => simp [InSome, calls111, Call.args, Call.buffers] at h ⊢ <;> omega
    | 4 => exact absurd rfl hij

/-- a schedule in which all five make ten accesses in turns -/
example : ¬ ((begin calls111 mem111).after ((List.replicate 10 [4, 2, 0, 3, 1]).flatten)).Race :=
  (C111_any_schedule calls111 proper111 independent111 mem111 _).1

/-- … all of them have come to their ends after a number of rounds. -/
example : ∃ n, ∀ i, ∃ r, ((begin calls111 mem111).after ((List.replicate n [4, 2, 0, 3, 1]).flatten)).left i = .done r := by
  have hc : ∀ n (i : Fin 5), ((List.replicate n [4, 2, 0, 3, 1]).flatten).count i = n := by
    intro n i
    induction n with
    | zero => rfl
    | succ n ih =>
      rw [List.replicate_succ, List.flatten_cons, List.count_append, ih]
      have : ∀ i : Fin 5, List.count i [4, 2, 0, 3, 1] = 1 := by decide
      rw [this]; omega
  have key : ∀ i, ∃ n, ∀ k, n ≤ k → ∃ r, ((begin calls111 mem111).after ((List.replicate k [4, 2, 0, 3, 1]).flatten)).left i = .done r := by
    intro i
    obtain ⟨n, h⟩ := C111_ends calls111 independent111 mem111 i
    exact ⟨n, fun k hk => h _ (by rw [hc]; exact hk)⟩
  obtain ⟨n0, h0⟩ := key 0
  obtain ⟨n1, h1⟩ := key 1
  obtain ⟨n2, h2⟩ := key 2
  obtain ⟨n3, h3⟩ := key 3
  obtain ⟨n4, h4⟩ := key 4
  refine ⟨n0 + n1 + n2 + n3 + n4, fun i => ?_⟩
  match i with
  | 0 => exact h0 _ (by omega)
  | 1 => exact h1 _ (by omega)
  | 2 => exact h2 _ (by omega)
  | 3 => exact h3 _ (by omega)
  | 4 => exact h4 _ (by omega)

/-- … with these outcomes: `\\u0041b` becomes `Ab`, `\\x` becomes `\x`, and the euro sign takes three bytes. -/
example : (calls111 2).outcome mem111 = .ok (.num 2) ∧ (calls111 3).outcome mem111 = .ok (.num 2) ∧
    (calls111 4).outcome mem111 = .ok (.num 3) := ⟨rfl, rfl, rfl⟩

/-- Six more calls that read `aé` at the same time, in threads of their own, while `\\\\x` is unescaped -/
def calls111' : Fin 7 → Call
  | 0 => .toTitle ⟨30, 33⟩
  | 1 => .equal ⟨30, 33⟩ ⟨30, 31⟩
  | 2 => .findLast ⟨30, 33⟩ ⟨31, 33⟩ 3
  | 3 => .replaceInvalidUtf8 ⟨30, 32⟩ 0x3F
  | 4 => .escapeJson ⟨30, 33⟩
  | 5 => .skipPrev 30 33
  | 6 => .unescape ⟨20, 23⟩

/-- The hypotheses of `C111_any_schedule` are met by them … -/
example : (∀ i, (calls111' i).Proper) ∧ Independent calls111' := by
  constructor
  · intro i
    match i with
    | 0 | 1 | 2 | 3 | 4 | 5 | 6 => simp [Call.Proper, calls111', Call.args, Call.buffers]
  · intro i j hij a h
    match i with
    | 0 | 1 | 2 | 3 | 4 | 5 => simp [InSome, calls111', Call.buffers] at h
    | 6 =>
      match j with
      | 0 | 1 | 2 | 3 | 4 | 5 => simp [InSome, calls111', Call.args, Call.buffers] at h ⊢ <;> omega
      | 6 => exact absurd rfl hij

/-- … with these outcomes: `aé` is not `a`; `é` is found at offset 1; the truncated `é` becomes `?`; and the character before the end starts
at 31. -/
example : (calls111' 1).outcome mem111 = .ok (.bool false) ∧ (calls111' 2).outcome mem111 = .ok (.range ⟨1, 2⟩) ∧
    (calls111' 3).outcome mem111 = .ok (.text [0x61, 0x3F]) ∧ (calls111' 4).outcome mem111 = .ok (.text [0x61, 0xC3, 0xA9]) ∧
    (calls111' 5).outcome mem111 = .ok (.skipped true 31) := by
  exact ⟨rfl, rfl, rfl, rfl, rfl⟩

/-- `é` as `e` and U+0301, and `x` at 50 -/
def mem111'' : Ptr.Mem := fun a => ([0x65, 0xCC, 0x81, 0x78][a - 50]?).getD 0

/-- Seven more calls that read it at the same time, while the euro sign is written into a buffer behind it -/
def calls111'' : Fin 8 → Call
  | 0 => .countChars ⟨50, 54⟩
  | 1 => .getCharPos ⟨50, 54⟩ (-1)
  | 2 => .getCharRange ⟨50, 54⟩ 0
  | 3 => .reverse ⟨50, 54⟩
  | 4 => .getCodepoint ⟨50, 54⟩ (-2)
  | 5 => .getCodepointPos ⟨50, 54⟩ 2
  | 6 => .toComposed ⟨50, 54⟩
  | 7 => .encodeUtf8 ⟨54, 58⟩ 0x20AC

/-- The hypotheses of `C111_any_schedule` are met by them … -/
example : (∀ i, (calls111'' i).Proper) ∧ Independent calls111'' := by
  constructor
  · intro i
    match i with
    | 0 | 1 | 2 | 3 | 4 | 5 | 6 | 7 => simp [Call.Proper, calls111'', Call.args, Call.buffers]
  · intro i j hij a h
    match i with
    | 0 | 1 | 2 | 3 | 4 | 5 | 6 => simp [InSome, calls111'', Call.buffers] at h
    | 7 =>
      match j with
      | 0 | 1 | 2 | 3 | 4 | 5 | 6 => simp [InSome, calls111'', Call.args, Call.buffers] at h ⊢ <;> omega
      | 7 => exact absurd rfl hij

/-- … with these outcomes: there are two characters; the last one starts at 3; the first one has three bytes; `x` comes first in the reverse; the last
code point but one is U+0301; the code point with index 2 starts at 3; and the composed string is `é` with two bytes
(the `x` is lost, C55). -/
example : (calls111'' 0).outcome mem111'' = .ok (.num 2) ∧ (calls111'' 1).outcome mem111'' = .ok (.num 3) ∧
    (calls111'' 2).outcome mem111'' = .ok (.range ⟨0, 3⟩) ∧ (calls111'' 3).outcome mem111'' = .ok (.text [0x78, 0x65, 0xCC, 0x81]) ∧
    (calls111'' 4).outcome mem111'' = .ok (.found ⟨1, 2⟩ 0x301) ∧ (calls111'' 5).outcome mem111'' = .ok (.num 3) ∧
    (calls111'' 6).outcome mem111'' = .ok (.text [0xC3, 0xA9]) := by
  have e : text mem111'' ⟨50, 54⟩ = [0x65, 0xCC, 0x81, 0x78] := by rfl
  have h0 : Ystring.countChars [0x65, 0xCC, 0x81, 0x78] = .ok 2 := by decide +kernel
  have h1 : Ystring.getCharPos [0x65, 0xCC, 0x81, 0x78] (-1) = .ok 3 := by decide +kernel
  have h2 : Ystring.getCharRange [0x65, 0xCC, 0x81, 0x78] 0 = .ok ⟨0, 3⟩ := by decide +kernel
  have h3 : Ystring.reverse [0x65, 0xCC, 0x81, 0x78] = .ok [0x78, 0x65, 0xCC, 0x81] := by decide +kernel
  have h4 : Ystring.getCodepoint [0x65, 0xCC, 0x81, 0x78] (-2) = .ok (⟨1, 2⟩, 0x301) := by decide +kernel
  have h5 : Ystring.getCodepointPos [0x65, 0xCC, 0x81, 0x78] 2 = .ok 3 := by decide +kernel
  have h6 : Ystring.toComposed [0x65, 0xCC, 0x81, 0x78] = .ok [0xC3, 0xA9] := by decide +kernel
  simp only [calls111'', Call.outcome, e, h0, h1, h2, h3, h4, h5, h6]
  exact ⟨rfl, rfl, rfl, rfl, rfl, rfl, rfl⟩

/-- a space, `a`, carriage return, newline, `b` and a space at 60 -/
def mem111v : Ptr.Mem := fun a => ([0x20, 0x61, 0x0D, 0x0A, 0x62, 0x20][a - 60]?).getD 0

/-- Seven calls that return views of it or places in it, while the euro sign is written into a buffer behind it -/
def calls111v : Fin 8 → Call
  | 0 => .trimStartWhere ⟨60, 66⟩ (· == 0x20)
  | 1 => .trimEndWhere ⟨60, 66⟩ (· == 0x20)
  | 2 => .trimWhere ⟨60, 66⟩ (· == 0x20)
  | 3 => .findFirstNewline [] ⟨60, 66⟩ 0
  | 4 => .findLastNewline [] ⟨60, 66⟩ 6
  | 5 => .getCharSubstring ⟨60, 66⟩ 1 3
  | 6 => .getCodepointSubstring ⟨60, 66⟩ (-2) (-1)
  | 7 => .encodeUtf8 ⟨66, 70⟩ 0x20AC

/-- The hypotheses of `C111_any_schedule` are met by them … -/
example : (∀ i, (calls111v i).Proper) ∧ Independent calls111v := by
  constructor
  · intro i
    match i with
    | 0 | 1 | 2 | 3 | 4 | 5 | 6 | 7 => simp [Call.Proper, calls111v, Call.args, Call.buffers]
  · intro i j hij a h
    match i with
    | 0 | 1 | 2 | 3 | 4 | 5 | 6 => simp [InSome, calls111v, Call.buffers] at h
    | 7 =>
      match j with
      | 0 | 1 | 2 | 3 | 4 | 5 | 6 => simp [InSome, calls111v, Call.args, Call.buffers] at h ⊢ <;> omega
      | 7 => exact absurd rfl hij

/-- … with these outcomes: the views are of the bytes from 61, to 65, and from 61 to 65; both newlines are the two bytes at offset 2; the two
characters from the second one are at 61 (a carriage return and a newline are two characters); and the last code point but one is at 64. -/
example : (calls111v 0).outcome mem111v = .ok (.view ⟨61, 66⟩) ∧ (calls111v 1).outcome mem111v = .ok (.view ⟨60, 65⟩) ∧
    (calls111v 2).outcome mem111v = .ok (.view ⟨61, 65⟩) ∧ (calls111v 3).outcome mem111v = .ok (.range ⟨2, 2⟩) ∧
    (calls111v 4).outcome mem111v = .ok (.range ⟨2, 2⟩) ∧ (calls111v 5).outcome mem111v = .ok (.view ⟨61, 63⟩) ∧
    (calls111v 6).outcome mem111v = .ok (.view ⟨64, 65⟩) := by
  have e : text mem111v ⟨60, 66⟩ = [0x20, 0x61, 0x0D, 0x0A, 0x62, 0x20] := by rfl
  have h0 : Ystring.trimStartWhereV ⟨some 60, [0x20, 0x61, 0x0D, 0x0A, 0x62, 0x20]⟩ (· == 0x20) = .ok ⟨some 61, [0x61, 0x0D, 0x0A, 0x62, 0x20]⟩ := by
    decide +kernel
  have h1 : Ystring.trimEndWhereV ⟨some 60, [0x20, 0x61, 0x0D, 0x0A, 0x62, 0x20]⟩ (· == 0x20) = .ok ⟨some 60, [0x20, 0x61, 0x0D, 0x0A, 0x62]⟩ := by
    decide +kernel
  have h2 : Ystring.trimWhereV ⟨some 60, [0x20, 0x61, 0x0D, 0x0A, 0x62, 0x20]⟩ (· == 0x20) = .ok ⟨some 61, [0x61, 0x0D, 0x0A, 0x62]⟩ := by
    decide +kernel
  have h3 : Ystring.findFirstNewline [] [0x20, 0x61, 0x0D, 0x0A, 0x62, 0x20] 0 = .ok ⟨2, 2⟩ := by decide +kernel
  have h4 : Ystring.findLastNewline [] [0x20, 0x61, 0x0D, 0x0A, 0x62, 0x20] 6 = .ok ⟨2, 2⟩ := by decide +kernel
  have h5 : Ystring.getCharSubstringV ⟨some 60, [0x20, 0x61, 0x0D, 0x0A, 0x62, 0x20]⟩ 1 3 = .ok ⟨some 61, [0x61, 0x0D]⟩ := by decide +kernel
  have h6 : Ystring.getCodepointSubstringV ⟨some 60, [0x20, 0x61, 0x0D, 0x0A, 0x62, 0x20]⟩ (-2) (-1) = .ok ⟨some 64, [0x62]⟩ := by decide +kernel
  simp only [calls111v, Call.outcome, viewOf, e, h0, h1, h2, h3, h4, h5, h6]
  exact ⟨rfl, rfl, rfl, rfl, rfl, rfl, rfl⟩

/-- **C111** The calls must not change what another one uses: two calls of `unescape` with the same buffer, which holds `\\x`, can race, and
the second of them can throw although none of them would if it were alone. -/
theorem C111_needs_independence :
    ∃ (call : Bool → Call) (m : Ptr.Mem), (∀ i, (call i).Proper) ∧ (∀ i, (call i).outcome m = .ok (.num 2)) ∧
      (∃ schedule, ((begin call m).after schedule).Race) ∧
      (∃ schedule, ((begin call m).after schedule).left true = .done (.error .ystring)) := by
  refine ⟨fun _ => .unescape ⟨20, 23⟩, mem111, fun _ => by simp [Call.Proper, Call.args, Call.buffers], fun _ => rfl, ?_, ?_⟩
  · exact ⟨List.replicate 5 false, false, true, 20, by decide, ⟨_, _, rfl⟩, .inl ⟨_, rfl⟩⟩
  · refine ⟨List.replicate 20 false ++ List.replicate 20 true, ?_⟩
    rfl

end Ystring
