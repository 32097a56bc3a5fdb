import Verif.Spec.Callback
import Verif.Spec.Split
import Verif.Props.Trim
import Verif.Props.Split
/-
Property theorems C85 (calls of function objects) and C86 (a TokenIterator after an exception).
-/
namespace Ystring
open Spec
variable {ε σ : Type}

theorem run_bind {α β : Type} (x : Run ε σ α) (f : α → Run ε σ β) (st : σ) : (x >>= f) st =
    match x st with
    | (.ok a, st) => f a st
    | (.error e, st) => (.error e, st) := rfl

theorem run_pure {α : Type} (a : α) (st : σ) : (pure a : Run ε σ α) st = (.ok a, st) := rfl

theorem run_lib_ok {α : Type} (a : α) (st : σ) : (Run.lib (.ok a) : Run ε σ α) st = (.ok a, st) := rfl

theorem run_lib_error {α : Type} (e : Err) (st : σ) : (Run.lib (.error e) : Run ε σ α) st = (.error (.lib e), st) := rfl

theorem run_call {α : Type} (r : σ → Except ε α × σ) (st : σ) : Run.call r st =
    match r st with
    | (.ok a, st) => (.ok a, st)
    | (.error x, st) => (.error (.user x), st) := rfl

/-! ### find_first_where -/

theorem findFirstWhereLoopS_units (str : Str) (pred : Pred ε σ) (us : List Unit8) (h : Units us) (fuel : Nat) (t : Str)
    (st st' : σ) (hp : Asked pred false st (valsOf us) st') :
    findFirstWhereLoopS str pred (us.length + fuel) (bytesOf us ++ t) (bytesOf us ++ t) st =
      findFirstWhereLoopS str pred fuel t t st' := by
  induction us generalizing st with
  | nil => cases hp; simp
  | cons x us ih =>
    rw [Units_cons] at h
    rw [valsOf_cons] at hp
    cases hp with
    | cons h1 h2 =>
      rw [List.length_cons, show us.length + 1 + fuel = (us.length + fuel) + 1 by omega, findFirstWhereLoopS,
        bytesOf_cons, List.append_assoc, safeDecodeNext_seq h.1, run_bind, run_lib_ok]
      simp only
      rw [run_bind, run_call, h1]
      simp only [Bool.false_eq_true, if_false]
      exact ih h.2 _ h2

theorem findFirstWhereS_run {str : Str} {pred : Pred ε σ} {a t : Str} {us : List Unit8} (h : Units us)
    {st st' : σ} (hp : Asked pred false st (valsOf us) st') (e : str = a ++ (bytesOf us ++ t)) :
    ∃ fuel, findFirstWhereS str pred a.length st = findFirstWhereLoopS str pred (fuel + 1) t t st' := by
  have hl := units_length_le h
  refine ⟨str.length - us.length, ?_⟩
  unfold findFirstWhereS iterAt
  rw [if_neg (by rw [e]; simp), run_bind, run_lib_ok]
  simp only
  rw [show str.drop a.length = bytesOf us ++ t by rw [e]; simp,
    show str.length + 1 = us.length + (str.length - us.length + 1) by rw [e]; simp; omega,
    findFirstWhereLoopS_units str pred us h _ _ _ _ hp]

/-- C85: what `find_first_where`, started at offset `a.length` of the string `a ++ b` in the state `st`, returns or throws, and
the state after it. The predicate is called with the code points of `b` in order and with nothing else, until it returns
true (1), it throws (2, the exception is passed on), the string ends (3) or malformed bytes follow (4). `C85_cases` shows that
there are no other cases. -/
theorem C85_find_first_where (a b : Str) (pred : Pred ε σ) (st : σ) :
    (∀ u v t cs c st1 st2, b = u ++ v ++ t → Decodes u cs → Asked pred false st cs st1 → IsSeq v c →
      pred c st1 = (.ok true, st2) →
      findFirstWhereS (a ++ b) pred a.length st = (.ok (⟨a.length + u.length, v.length⟩, c), st2)) ∧
    (∀ u v t cs c st1 st2 x, b = u ++ v ++ t → Decodes u cs → Asked pred false st cs st1 → IsSeq v c →
      pred c st1 = (.error x, st2) → findFirstWhereS (a ++ b) pred a.length st = (.error (.user x), st2)) ∧
    (∀ cs st1, Decodes b cs → Asked pred false st cs st1 →
      findFirstWhereS (a ++ b) pred a.length st = (.ok (⟨npos, 0⟩, INVALID_CHAR), st1)) ∧
    (∀ u t cs st1, b = u ++ t → Decodes u cs → Asked pred false st cs st1 → t ≠ [] → ¬ HasSeqPrefix t →
      findFirstWhereS (a ++ b) pred a.length st = (.error (.lib .ystring), st1)) := by
  refine ⟨?_, ?_, ?_, ?_⟩
  · rintro u v t cs c st1 st2 rfl hu hp hv hc
    obtain ⟨us, h, rfl, rfl⟩ := hu.units
    obtain ⟨k, hk⟩ := findFirstWhereS_run (a := a) (str := a ++ (bytesOf us ++ v ++ t)) (t := v ++ t) h hp (by simp)
    rw [hk, findFirstWhereLoopS, safeDecodeNext_seq hv, run_bind, run_lib_ok]
    simp only
    rw [run_bind, run_call, hc]
    simp only [if_true, run_pure]
    have e1 : posOf (a ++ (bytesOf us ++ v ++ t)) (v ++ t) = a.length + (bytesOf us).length := by
      simp [posOf]; omega
    have e2 : posOf (a ++ (bytesOf us ++ v ++ t)) t = a.length + (bytesOf us).length + v.length := by
      simp [posOf]; omega
    rw [e1, e2, Nat.add_sub_cancel_left]
  · rintro u v t cs c st1 st2 x rfl hu hp hv hc
    obtain ⟨us, h, rfl, rfl⟩ := hu.units
    obtain ⟨k, hk⟩ := findFirstWhereS_run (a := a) (str := a ++ (bytesOf us ++ v ++ t)) (t := v ++ t) h hp (by simp)
    rw [hk, findFirstWhereLoopS, safeDecodeNext_seq hv, run_bind, run_lib_ok]
    simp only
    rw [run_bind, run_call, hc]
  · intro cs st1 hb hp
    obtain ⟨us, h, rfl, rfl⟩ := hb.units
    obtain ⟨k, hk⟩ := findFirstWhereS_run (a := a) (str := a ++ bytesOf us) (t := []) h hp (by simp)
    rw [hk, findFirstWhereLoopS]; rfl
  · rintro u t cs st1 rfl hu hp h0 ht
    obtain ⟨us, h, rfl, rfl⟩ := hu.units
    obtain ⟨k, hk⟩ := findFirstWhereS_run (a := a) (str := a ++ (bytesOf us ++ t)) (t := t) h hp rfl
    rw [hk, findFirstWhereLoopS, safeDecodeNext_bad h0 ht]; rfl

/-- What a predicate does on a list: it answers `b` throughout, or gives another answer or throws at some element. -/
theorem asked_cases (pred : Pred ε σ) (b : Bool) (st : σ) (cs : List Char32) :
    (∃ st', Asked pred b st cs st') ∨
    (∃ xs c ys st1 st2, cs = xs ++ c :: ys ∧ Asked pred b st xs st1 ∧ pred c st1 = (.ok (!b), st2)) ∨
    (∃ xs c ys st1 st2 x, cs = xs ++ c :: ys ∧ Asked pred b st xs st1 ∧ pred c st1 = (.error x, st2)) := by
  induction cs generalizing st with
  | nil => exact .inl ⟨st, .nil⟩
  | cons c cs ih =>
    rcases hc : pred c st with ⟨⟨x⟩ | ⟨d⟩, st1⟩
    · exact .inr (.inr ⟨[], c, cs, st, st1, x, rfl, .nil, hc⟩)
    · by_cases hd : d = b
      · subst hd
        rcases ih st1 with ⟨s2, h⟩ | ⟨xs, c', ys, s1, s2, rfl, h1, h2⟩ | ⟨xs, c', ys, s1, s2, x, rfl, h1, h2⟩
        · exact .inl ⟨s2, .cons hc h⟩
        · exact .inr (.inl ⟨c :: xs, c', ys, s1, s2, rfl, .cons hc h1, h2⟩)
        · exact .inr (.inr ⟨c :: xs, c', ys, s1, s2, x, rfl, .cons hc h1, h2⟩)
      · have : d = !b := by cases b <;> cases d <;> simp_all
        subst this
        exact .inr (.inl ⟨[], c, cs, st, st1, rfl, .nil, hc⟩)

/-- Cutting a decoded text at a code point. -/
theorem decodes_cut {s : Str} {xs ys : List Char32} {c : Char32} (h : Decodes s (xs ++ c :: ys)) :
    ∃ u v t, s = u ++ v ++ t ∧ Decodes u xs ∧ IsSeq v c ∧ Decodes t ys := by
  induction xs generalizing s with
  | nil =>
    cases h with
    | @cons u t _ _ h1 h2 => exact ⟨[], u, t, by simp, .nil, h1, h2⟩
  | cons x xs ih =>
    cases h with
    | @cons u t _ _ h1 h2 =>
      obtain ⟨u', v, w, rfl, h3, h4, h5⟩ := ih h2
      exact ⟨u ++ u', v, w, by simp, .cons h1 h3, h4, h5⟩

/-- C85: the four cases of `C85_find_first_where` cover every byte string, predicate and state. -/
theorem C85_cases (b : Str) (pred : Pred ε σ) (st : σ) :
    (∃ u v t cs c st1 st2, b = u ++ v ++ t ∧ Decodes u cs ∧ Asked pred false st cs st1 ∧ IsSeq v c ∧
      pred c st1 = (.ok true, st2)) ∨
    (∃ u v t cs c st1 st2 x, b = u ++ v ++ t ∧ Decodes u cs ∧ Asked pred false st cs st1 ∧ IsSeq v c ∧
      pred c st1 = (.error x, st2)) ∨
    (∃ cs st1, Decodes b cs ∧ Asked pred false st cs st1) ∨
    (∃ u t cs st1, b = u ++ t ∧ Decodes u cs ∧ Asked pred false st cs st1 ∧ t ≠ [] ∧ ¬ HasSeqPrefix t) := by
  obtain ⟨us, t, h, rfl, ht⟩ := splitUnits b
  have hd := h.decodes
  rcases asked_cases pred false st (valsOf us) with ⟨st', h1⟩ | ⟨xs, c, ys, st1, st2, e, h1, h2⟩ |
      ⟨xs, c, ys, st1, st2, x, e, h1, h2⟩
  · by_cases h0 : t = []
    · exact .inr (.inr (.inl ⟨_, _, by simpa [h0] using hd, h1⟩))
    · exact .inr (.inr (.inr ⟨_, t, _, _, rfl, hd, h1, h0, ht⟩))
  · rw [e] at hd
    obtain ⟨u, v, w, e', h3, h4, -⟩ := decodes_cut hd
    exact .inl ⟨u, v, w ++ t, xs, c, st1, st2, by rw [e']; simp, h3, h1, h4, h2⟩
  · rw [e] at hd
    obtain ⟨u, v, w, e', h3, h4, -⟩ := decodes_cut hd
    exact .inr (.inl ⟨u, v, w ++ t, xs, c, st1, st2, x, by rw [e']; simp, h3, h1, h4, h2⟩)

/-! ### find_last_where -/

theorem findLastWhereLoopS_units (pred : Pred ε σ) (us : List Unit8) (h : Units us) (fuel : Nat) (t : Str)
    (st st' : σ) (hp : Asked pred false st (valsOf us).reverse st') :
    findLastWhereLoopS pred (us.length + fuel) ((bytesOf us).reverse ++ t) ((bytesOf us).reverse ++ t) st =
      findLastWhereLoopS pred fuel t t st' := by
  induction hn : us.length generalizing us st with
  | zero =>
    have := List.length_eq_zero_iff.mp hn; subst this
    cases hp; simp
  | succ n ih =>
    obtain ⟨vs, v, rfl⟩ := units_snoc (us := us) (by rintro rfl; simp at hn)
    simp at h hp hn
    cases hp with
    | cons h1 h2 =>
      rw [show n + 1 + fuel = (n + fuel) + 1 by omega, findLastWhereLoopS,
        bytesOf_append, List.reverse_append, bytesOf_cons, bytesOf_nil, List.append_nil, List.append_assoc,
        safeDecodePrev_seq h.2, run_bind, run_lib_ok]
      simp only
      rw [run_bind, run_call, h1]
      simp only [Bool.false_eq_true, if_false]
      exact ih vs h.1 _ h2 hn

theorem findLastWhereS_run {str : Str} {pred : Pred ε σ} {t b : Str} {us : List Unit8} (h : Units us)
    {st st' : σ} (hp : Asked pred false st (valsOf us).reverse st') (e : str = t ++ bytesOf us ++ b) {offset : Nat}
    (ho : min offset str.length = (t ++ bytesOf us).length) :
    ∃ fuel, findLastWhereS str pred offset st = findLastWhereLoopS pred (fuel + 1) t.reverse t.reverse st' := by
  have hl := units_length_le h
  refine ⟨str.length - us.length, ?_⟩
  have e0 : findLastWhereS str pred offset st = findLastWhereLoopS pred (str.length + 1)
    (str.take (min offset str.length)).reverse (str.take (min offset str.length)).reverse st := rfl
  rw [e0, ho, show str.take (t ++ bytesOf us).length = t ++ bytesOf us by rw [e, List.take_left],
    show str.length + 1 = us.length + (str.length - us.length + 1) by rw [e]; simp; omega,
    List.reverse_append, findLastWhereLoopS_units pred us h _ _ _ _ hp]

/-- C85: the same for `find_last_where` on the string `a ++ b`, for an offset that cuts it after `a` (an offset past the end
stands for the end): the predicate is called with the code points of `a` from the last one on, in reverse order. -/
theorem C85_find_last_where (a b : Str) (pred : Pred ε σ) (st : σ) (offset : Nat)
    (ho : min offset (a ++ b).length = a.length) :
    (∀ t v w cs c st1 st2, a = t ++ v ++ w → Decodes w cs → Asked pred false st cs.reverse st1 → IsSeq v c →
      pred c st1 = (.ok true, st2) →
      findLastWhereS (a ++ b) pred offset st = (.ok (⟨t.length, v.length⟩, c), st2)) ∧
    (∀ t v w cs c st1 st2 x, a = t ++ v ++ w → Decodes w cs → Asked pred false st cs.reverse st1 → IsSeq v c →
      pred c st1 = (.error x, st2) → findLastWhereS (a ++ b) pred offset st = (.error (.user x), st2)) ∧
    (∀ cs st1, Decodes a cs → Asked pred false st cs.reverse st1 →
      findLastWhereS (a ++ b) pred offset st = (.ok (⟨npos, 0⟩, INVALID_CHAR), st1)) ∧
    (∀ t w cs st1, a = t ++ w → Decodes w cs → Asked pred false st cs.reverse st1 → t ≠ [] → ¬ HasSeqSuffix t →
      (¬ LongContRun t → findLastWhereS (a ++ b) pred offset st = (.error (.lib .ystring), st1)) ∧
      (LongContRun t → findLastWhereS (a ++ b) pred offset st = (.error (.lib .ub), st1))) := by
  refine ⟨?_, ?_, ?_, ?_⟩
  · rintro t v w cs c st1 st2 rfl hw hp hv hc
    obtain ⟨us, h, rfl, rfl⟩ := hw.units
    obtain ⟨k, hk⟩ := findLastWhereS_run (t := t ++ v) h hp rfl ho
    rw [hk, findLastWhereLoopS, List.reverse_append, safeDecodePrev_seq hv, run_bind, run_lib_ok]
    simp only
    rw [run_bind, run_call, hc]
    simp [run_pure]
  · rintro t v w cs c st1 st2 x rfl hw hp hv hc
    obtain ⟨us, h, rfl, rfl⟩ := hw.units
    obtain ⟨k, hk⟩ := findLastWhereS_run (t := t ++ v) h hp rfl ho
    rw [hk, findLastWhereLoopS, List.reverse_append, safeDecodePrev_seq hv, run_bind, run_lib_ok]
    simp only
    rw [run_bind, run_call, hc]
  · intro cs st1 hb hp
    obtain ⟨us, h, rfl, rfl⟩ := hb.units
    obtain ⟨k, hk⟩ := findLastWhereS_run (t := []) h hp rfl ho
    have e : ([] : Str) ++ bytesOf us ++ b = bytesOf us ++ b := by simp
    rw [e] at hk
    rw [hk, findLastWhereLoopS]; rfl
  · rintro t w cs st1 rfl hu hp h0 ht
    obtain ⟨us, h, rfl, rfl⟩ := hu.units
    obtain ⟨k, hk⟩ := findLastWhereS_run (t := t) h hp rfl ho
    rw [hk, findLastWhereLoopS]
    refine ⟨fun hl => ?_, fun hl => ?_⟩
    · rw [safeDecodePrev_bad h0 ht hl]; rfl
    · rw [safeDecodePrev_ub hl]; rfl

/-- C85: the cases of `C85_find_last_where` cover every byte string, predicate and state. -/
theorem C85_cases_last (a : Str) (pred : Pred ε σ) (st : σ) :
    (∃ t v w cs c st1 st2, a = t ++ v ++ w ∧ Decodes w cs ∧ Asked pred false st cs.reverse st1 ∧ IsSeq v c ∧
      pred c st1 = (.ok true, st2)) ∨
    (∃ t v w cs c st1 st2 x, a = t ++ v ++ w ∧ Decodes w cs ∧ Asked pred false st cs.reverse st1 ∧ IsSeq v c ∧
      pred c st1 = (.error x, st2)) ∨
    (∃ cs st1, Decodes a cs ∧ Asked pred false st cs.reverse st1) ∨
    (∃ t w cs st1, a = t ++ w ∧ Decodes w cs ∧ Asked pred false st cs.reverse st1 ∧ t ≠ [] ∧ ¬ HasSeqSuffix t) := by
  obtain ⟨us, t, h, rfl, ht⟩ := decompose_back a
  have hd := h.decodes
  have hrev : ∀ {xs c ys}, (valsOf us).reverse = xs ++ c :: ys → valsOf us = ys.reverse ++ c :: xs.reverse := by
    intro xs c ys e
    have := congrArg List.reverse e
    simpa using this
  rcases asked_cases pred false st (valsOf us).reverse with ⟨st', h1⟩ | ⟨xs, c, ys, st1, st2, e, h1, h2⟩ |
      ⟨xs, c, ys, st1, st2, x, e, h1, h2⟩
  · by_cases h0 : t = []
    · exact .inr (.inr (.inl ⟨_, _, by simpa [h0] using hd, h1⟩))
    · exact .inr (.inr (.inr ⟨t, _, _, _, rfl, hd, h1, h0, ht⟩))
  · rw [hrev e] at hd
    obtain ⟨u, v, w, e', -, h4, h5⟩ := decodes_cut hd
    exact .inl ⟨t ++ u, v, w, _, c, st1, st2, by rw [e']; simp, h5, by simpa using h1, h4, h2⟩
  · rw [hrev e] at hd
    obtain ⟨u, v, w, e', -, h4, h5⟩ := decodes_cut hd
    exact .inr (.inl ⟨t ++ u, v, w, _, c, st1, st2, x, by rw [e']; simp, h5, by simpa using h1, h4, h2⟩)

/-! ### Predicates without effects -/

/-- C85: for a predicate without effects that does not throw, the searches do what C20 and C21 say. -/
theorem C85_no_effects (p : Char32 → Bool) (str : Str) (offset : Nat) (st : σ) :
    findFirstWhereS (fun c st => (.ok (p c), st) : Pred ε σ) (str := str) offset st =
      (Run.lib (findFirstWhere str p offset) : Run ε σ _) st ∧
    findLastWhereS (fun c st => (.ok (p c), st) : Pred ε σ) (str := str) offset st =
      (Run.lib (findLastWhere str p offset) : Run ε σ _) st := by
  have hfirst : ∀ fuel it prev, findFirstWhereLoopS str (fun c st => (.ok (p c), st) : Pred ε σ) fuel it prev st =
      (Run.lib (findFirstWhereLoop str p fuel it prev) : Run ε σ _) st := by
    intro fuel
    induction fuel with
    | zero => intros; rfl
    | succ fuel ih =>
      intro it prev
      rw [findFirstWhereLoopS, findFirstWhereLoop, run_bind]
      rcases safeDecodeNext it with e | ⟨⟩ | ⟨c, it'⟩
      · rfl
      · rfl
      · rw [run_lib_ok]
        simp only [bind, Except.bind]
        rw [Run.bind, run_call]
        simp only
        by_cases hc : p c = true
        · rw [if_pos hc, if_pos hc]; rfl
        · rw [if_neg hc, if_neg hc, ih]
  have hlast : ∀ fuel it prev, findLastWhereLoopS (fun c st => (.ok (p c), st) : Pred ε σ) fuel it prev st =
      (Run.lib (findLastWhereLoop p fuel it prev) : Run ε σ _) st := by
    intro fuel
    induction fuel with
    | zero => intros; rfl
    | succ fuel ih =>
      intro it prev
      rw [findLastWhereLoopS, findLastWhereLoop, run_bind]
      rcases safeDecodePrev it with e | ⟨⟩ | ⟨c, it'⟩
      · rfl
      · rfl
      · rw [run_lib_ok]
        simp only [bind, Except.bind]
        rw [Run.bind, run_call]
        simp only
        by_cases hc : p c = true
        · rw [if_pos hc, if_pos hc]; rfl
        · rw [if_neg hc, if_neg hc, ih]
  constructor
  · unfold findFirstWhereS findFirstWhere
    rw [run_bind]
    rcases iterAt str offset with e | it
    · rfl
    · simp only [run_lib_ok, hfirst]; rfl
  · unfold findLastWhereS findLastWhere
    simp only [hlast]

/-! ### trim_*_where -/

theorem asked_not {pred : Pred ε σ} {b : Bool} {st st' : σ} {cs : List Char32} (h : Asked pred b st cs st') :
    Asked (notPred pred) (!b) st cs st' := by
  induction h with
  | nil => exact .nil
  | cons h1 _ ih => exact .cons (by unfold notPred; rw [h1]) ih

theorem notPred_ok {pred : Pred ε σ} {b : Bool} {st st' : σ} {c : Char32} (h : pred c st = (.ok b, st')) :
    notPred pred c st = (.ok (!b), st') := by unfold notPred; rw [h]

theorem notPred_error {pred : Pred ε σ} {x : ε} {st st' : σ} {c : Char32} (h : pred c st = (.error x, st')) :
    notPred pred c st = (.error x, st') := by unfold notPred; rw [h]

/-- C85: `trim_start_where` calls the predicate with the code points in order until it returns false or throws, and returns
the text from there on. -/
theorem C85_trim_start_where (s : Str) (hl : s.length < SIZE_MOD) (pred : Pred ε σ) (st : σ) :
    (∀ u v t cs c st1 st2, s = u ++ v ++ t → Decodes u cs → Asked pred true st cs st1 → IsSeq v c →
      pred c st1 = (.ok false, st2) → trimStartWhereS s pred st = (.ok (v ++ t), st2)) ∧
    (∀ u v t cs c st1 st2 x, s = u ++ v ++ t → Decodes u cs → Asked pred true st cs st1 → IsSeq v c →
      pred c st1 = (.error x, st2) → trimStartWhereS s pred st = (.error (.user x), st2)) ∧
    (∀ cs st1, Decodes s cs → Asked pred true st cs st1 → trimStartWhereS s pred st = (.ok [], st1)) ∧
    (∀ u t cs st1, s = u ++ t → Decodes u cs → Asked pred true st cs st1 → t ≠ [] → ¬ HasSeqPrefix t →
      trimStartWhereS s pred st = (.error (.lib .ystring), st1)) := by
  obtain ⟨k1, k2, k3, k4⟩ := C85_find_first_where [] s (notPred pred) st
  simp only [List.nil_append, List.length_nil, Nat.zero_add] at k1 k2 k3 k4
  unfold trimStartWhereS
  refine ⟨?_, ?_, ?_, ?_⟩
  · rintro u v t cs c st1 st2 rfl hu hp hv hc
    rw [run_bind, k1 u v t cs c st1 st2 rfl hu (asked_not hp) hv (notPred_ok hc)]
    have hv0 := hv.length_pos
    simp only
    rw [if_neg (by simp [Subrange.nonempty]; intro h; rw [h] at hv0; simp at hv0), Subrange.start]
    unfold substr
    rw [if_neg (by simp), run_lib_ok, List.append_assoc, List.drop_left, List.take_of_length_le]
    simp only [List.length_append, SIZE_MOD] at hl ⊢; unfold npos; omega
  · rintro u v t cs c st1 st2 x rfl hu hp hv hc
    rw [run_bind, k2 u v t cs c st1 st2 x rfl hu (asked_not hp) hv (notPred_error hc)]
  · intro cs st1 hs hp
    rw [run_bind, k3 cs st1 hs (asked_not hp)]
    rfl
  · rintro u t cs st1 rfl hu hp h0 ht
    rw [run_bind, k4 u t cs st1 rfl hu (asked_not hp) h0 ht]

/-- C85: `trim_end_where` calls the predicate with the code points in reverse order until it returns false or throws, and
returns the text up to there. -/
theorem C85_trim_end_where (s : Str) (hl : s.length < SIZE_MOD) (pred : Pred ε σ) (st : σ) :
    (∀ t v w cs c st1 st2, s = t ++ v ++ w → Decodes w cs → Asked pred true st cs.reverse st1 → IsSeq v c →
      pred c st1 = (.ok false, st2) → trimEndWhereS s pred st = (.ok (t ++ v), st2)) ∧
    (∀ t v w cs c st1 st2 x, s = t ++ v ++ w → Decodes w cs → Asked pred true st cs.reverse st1 → IsSeq v c →
      pred c st1 = (.error x, st2) → trimEndWhereS s pred st = (.error (.user x), st2)) ∧
    (∀ cs st1, Decodes s cs → Asked pred true st cs.reverse st1 → trimEndWhereS s pred st = (.ok [], st1)) ∧
    (∀ t w cs st1, s = t ++ w → Decodes w cs → Asked pred true st cs.reverse st1 → t ≠ [] → ¬ HasSeqSuffix t →
      (¬ LongContRun t → trimEndWhereS s pred st = (.error (.lib .ystring), st1)) ∧
      (LongContRun t → trimEndWhereS s pred st = (.error (.lib .ub), st1))) := by
  obtain ⟨k1, k2, k3, k4⟩ := C85_find_last_where s [] (notPred pred) st npos (by
    simp only [List.append_nil]; unfold SIZE_MOD at hl; unfold npos; omega)
  simp only [List.append_nil] at k1 k2 k3 k4
  unfold trimEndWhereS
  refine ⟨?_, ?_, ?_, ?_⟩
  · rintro t v w cs c st1 st2 rfl hu hp hv hc
    rw [run_bind, k1 t v w cs c st1 st2 rfl hu (asked_not hp) hv (notPred_ok hc)]
    have hv0 := hv.length_pos
    have hstop : Subrange.stop ⟨t.length, v.length⟩ = (t ++ v).length := by
      unfold Subrange.stop sizeAdd
      simp only [List.length_append] at hl ⊢
      exact Nat.mod_eq_of_lt (by omega)
    simp only [hstop]
    rw [if_neg (by simp [Subrange.nonempty]; intro h; rw [h] at hv0; simp at hv0)]
    unfold substr
    rw [if_neg (by simp), run_lib_ok, List.drop_zero, List.take_left]
  · rintro t v w cs c st1 st2 x rfl hu hp hv hc
    rw [run_bind, k2 t v w cs c st1 st2 x rfl hu (asked_not hp) hv (notPred_error hc)]
  · intro cs st1 hs hp
    rw [run_bind, k3 cs st1 hs (asked_not hp)]
    rfl
  · rintro t w cs st1 rfl hu hp h0 ht
    obtain ⟨j1, j2⟩ := k4 t w cs st1 rfl hu (asked_not hp) h0 ht
    refine ⟨fun h => ?_, fun h => ?_⟩
    · rw [run_bind, j1 h]
    · rw [run_bind, j2 h]

/-- C85: `trim_where` asks about the code points from the front until the predicate returns false, and then about those of the
rest from the back, beginning with the last one (so it asks twice about a single code point that is left). -/
theorem C85_trim_where (s : Str) (hl : s.length < SIZE_MOD) (pred : Pred ε σ) (st : σ) :
    (∀ u v t cs c st1 st2 t' v' w ds d st3 st4, s = u ++ v ++ t → Decodes u cs → Asked pred true st cs st1 → IsSeq v c →
      pred c st1 = (.ok false, st2) → v ++ t = t' ++ v' ++ w → Decodes w ds → Asked pred true st2 ds.reverse st3 →
      IsSeq v' d → pred d st3 = (.ok false, st4) → trimWhereS s pred st = (.ok (t' ++ v'), st4)) ∧
    (∀ u v t cs c st1 st2 t' v' w ds d st3 st4 x, s = u ++ v ++ t → Decodes u cs → Asked pred true st cs st1 → IsSeq v c →
      pred c st1 = (.ok false, st2) → v ++ t = t' ++ v' ++ w → Decodes w ds → Asked pred true st2 ds.reverse st3 →
      IsSeq v' d → pred d st3 = (.error x, st4) → trimWhereS s pred st = (.error (.user x), st4)) ∧
    (∀ u v t cs c st1 st2 x, s = u ++ v ++ t → Decodes u cs → Asked pred true st cs st1 → IsSeq v c →
      pred c st1 = (.error x, st2) → trimWhereS s pred st = (.error (.user x), st2)) ∧
    (∀ cs st1, Decodes s cs → Asked pred true st cs st1 → trimWhereS s pred st = (.ok [], st1)) ∧
    (∀ u v t cs c st1 st2 ds st3, s = u ++ v ++ t → Decodes u cs → Asked pred true st cs st1 → IsSeq v c →
      pred c st1 = (.ok false, st2) → Decodes (v ++ t) ds → Asked pred true st2 ds.reverse st3 →
      trimWhereS s pred st = (.ok [], st3)) ∧
    (∀ u t cs st1, s = u ++ t → Decodes u cs → Asked pred true st cs st1 → t ≠ [] → ¬ HasSeqPrefix t →
      trimWhereS s pred st = (.error (.lib .ystring), st1)) ∧
    (∀ u v t cs c st1 st2 t' w ds st3, s = u ++ v ++ t → Decodes u cs → Asked pred true st cs st1 → IsSeq v c →
      pred c st1 = (.ok false, st2) → v ++ t = t' ++ w → Decodes w ds → Asked pred true st2 ds.reverse st3 →
      t' ≠ [] → ¬ HasSeqSuffix t' →
      (¬ LongContRun t' → trimWhereS s pred st = (.error (.lib .ystring), st3)) ∧
      (LongContRun t' → trimWhereS s pred st = (.error (.lib .ub), st3))) := by
  obtain ⟨k1, k2, k3, k4⟩ := C85_trim_start_where s hl pred st
  have hl' : ∀ {u v t : Str}, s = u ++ v ++ t → (v ++ t).length < SIZE_MOD := by
    intro u v t e; rw [e] at hl; simp only [List.length_append] at hl ⊢; omega
  unfold trimWhereS
  refine ⟨?_, ?_, ?_, ?_, ?_, ?_, ?_⟩
  · intro u v t cs c st1 st2 t' v' w ds d st3 st4 e hu hp hv hc e' hw hq hv' hd
    rw [run_bind, k1 u v t cs c st1 st2 e hu hp hv hc]
    exact (C85_trim_end_where _ (hl' e) pred st2).1 t' v' w ds d st3 st4 e' hw hq hv' hd
  · intro u v t cs c st1 st2 t' v' w ds d st3 st4 x e hu hp hv hc e' hw hq hv' hd
    rw [run_bind, k1 u v t cs c st1 st2 e hu hp hv hc]
    exact (C85_trim_end_where _ (hl' e) pred st2).2.1 t' v' w ds d st3 st4 x e' hw hq hv' hd
  · intro u v t cs c st1 st2 x e hu hp hv hc
    rw [run_bind, k2 u v t cs c st1 st2 x e hu hp hv hc]
  · intro cs st1 hs hp
    rw [run_bind, k3 cs st1 hs hp]
    exact (C85_trim_end_where [] (by simp [SIZE_MOD]) pred st1).2.2.1 [] st1 .nil .nil
  · intro u v t cs c st1 st2 ds st3 e hu hp hv hc hw hq
    rw [run_bind, k1 u v t cs c st1 st2 e hu hp hv hc]
    exact (C85_trim_end_where _ (hl' e) pred st2).2.2.1 ds st3 hw hq
  · intro u t cs st1 e hu hp ht hn
    rw [run_bind, k4 u t cs st1 e hu hp ht hn]
  · intro u v t cs c st1 st2 t' w ds st3 e hu hp hv hc e' hw hq ht hn
    rw [run_bind, k1 u v t cs c st1 st2 e hu hp hv hc]
    exact (C85_trim_end_where _ (hl' e) pred st2).2.2.2 t' w ds st3 e' hw hq ht hn

/-! ### split_where -/

theorem nextS_ready {finder : Finder ε σ} {it : TokenIterator} {s : Str} (h : Ready it s) (st : σ) :
    (∀ x st1, finder s st = (.error x, st1) → it.nextS finder st = (.error (.user x), ⟨s, it.token⟩, st1)) ∧
    (∀ o st1, finder s st = (.ok ⟨o, 0⟩, st1) → it.nextS finder st = (.ok true, ⟨s, ⟨npos, 0⟩⟩, st1)) ∧
    (∀ o l st1, finder s st = (.ok ⟨o, l⟩, st1) → l ≠ 0 → it.nextS finder st = (.ok true, ⟨s, ⟨o, l⟩⟩, st1)) := by
  have key : it.nextS finder st =
      match finder s st with
      | (.error x, st) => (.error (.user x), ⟨s, it.token⟩, st)
      | (.ok token, st) =>
        if !token.nonempty then (.ok true, ⟨s, ⟨npos, token.length⟩⟩, st)
        else (.ok true, ⟨s, token⟩, st) := by
    rcases h with ⟨h1, h2⟩ | ⟨h1, h2⟩
    · unfold TokenIterator.nextS
      rw [if_pos h1, h2]; rfl
    · unfold TokenIterator.nextS
      rw [if_neg (by rw [h1]; simp [Subrange.nonempty]), if_neg (by rw [h1]; simp [Subrange.start]), h2]; rfl
  refine ⟨fun x st1 h => ?_, fun o st1 h => ?_, fun o l st1 h hl => ?_⟩
  · rw [key, h]
  · rw [key, h]; rfl
  · rw [key, h]
    simp only
    rw [if_neg (by simpa [Subrange.nonempty] using hl)]

theorem ready_after {p t r : Str} (ht : t ≠ []) (hs : (p ++ t ++ r).length < SIZE_MOD) :
    Ready ⟨p ++ t ++ r, ⟨p.length, t.length⟩⟩ r := by
  have h0 : 0 < t.length := List.length_pos_iff.mpr ht
  left
  refine ⟨by simp only [Subrange.nonempty]; simpa using ht, ?_⟩
  have hstop : Subrange.stop ⟨p.length, t.length⟩ = (p ++ t).length := by
    unfold Subrange.stop sizeAdd
    simp only [List.length_append] at hs ⊢
    exact Nat.mod_eq_of_lt (by omega)
  simp only [hstop]
  unfold substr
  rw [if_neg (by simp), List.drop_left, List.take_of_length_le]
  simp only [List.length_append, SIZE_MOD] at hs; unfold npos; omega

theorem part_after {p t r : Str} (ht : t ≠ []) :
    TokenIterator.part ⟨p ++ t ++ r, ⟨p.length, t.length⟩⟩ = .ok p := by
  unfold TokenIterator.part
  rw [if_pos (by simp only [Subrange.nonempty]; simpa using ht)]
  unfold substr Subrange.start
  rw [if_neg (by simp)]
  simp

theorem splitLoopS_cuts {finder : Finder ε σ} {st st1 : σ} {s rest : Str} {ps : List (Str × Str)}
    (h : Cuts finder st s ps rest st1) (max : Nat) (ig : Bool) (fuel : Nat) : ∀ (it : TokenIterator) (result : List Str),
    Ready it s → s.length < SIZE_MOD →
    (ps ≠ [] → result.length + (keep ig (ps.map (·.1)).dropLast).length < max) →
    ∃ it', Ready it' rest ∧ (ps ≠ [] → it'.token.nonempty = true) ∧ (ps = [] → it' = it) ∧
      splitLoopS finder ⟨max, ig⟩ (ps.length + fuel) it result st =
        splitLoopS finder ⟨max, ig⟩ fuel it' (result ++ keep ig (ps.map (·.1))) st1 := by
  induction h with
  | nil =>
    intro it result hr _ _
    refine ⟨it, hr, by simp, by simp, ?_⟩
    simp [keep]
  | @cons st st1 st2 p t r rest ps h1 ht h2 ih =>
    intro it result hr hs hm
    have hm := hm (by simp)
    have hk : keep ig ((p, t) :: ps |>.map (·.1)) = keep ig [p] ++ keep ig (ps.map (·.1)) := by
      rw [List.map_cons, ← List.singleton_append, keep_append]
    obtain ⟨it', k1, k2, k3, k4⟩ := ih ⟨p ++ t ++ r, ⟨p.length, t.length⟩⟩ (result ++ keep ig [p]) (ready_after ht hs)
      (by simp at hs; omega) (by
        intro hne
        have e : (((p, t) :: ps).map (·.1)).dropLast = [p] ++ (ps.map (·.1)).dropLast := by
          rw [List.map_cons, List.dropLast_cons_of_ne_nil (by simpa using hne)]; rfl
        rw [e, keep_append] at hm
        simp only [List.length_append] at hm ⊢
        omega)
    refine ⟨it', k1, ?_, by simp, ?_⟩
    · intro _
      by_cases hps : ps = []
      · rw [k3 hps]; simp only [Subrange.nonempty]; simpa using ht
      · exact k2 hps
    · rw [hk, ← List.append_assoc, ← k4, List.length_cons,
        show ps.length + 1 + fuel = (ps.length + fuel) + 1 by omega, splitLoopS]
      rw [if_pos (by simp only; omega), run_bind, TokenIterator.nextRun,
        (nextS_ready hr st).2.2 _ _ _ h1 (by simpa using ht)]
      simp only [if_true]
      rw [part_after ht, run_bind, run_lib_ok]
      simp only
      by_cases hc : (!ig || !p.isEmpty) = true
      · rw [if_pos hc]
        have : keep ig [p] = [p] := by
          unfold keep
          cases ig with
          | false => rfl
          | true => cases p <;> simp_all
        rw [this]
      · rw [if_neg hc]
        have : keep ig [p] = [] := by
          unfold keep
          cases ig with
          | false => simp at hc
          | true => cases p <;> simp_all
        rw [this, List.append_nil]

theorem cuts_length_le {finder : Finder ε σ} {st st1 : σ} {s rest : Str} {ps : List (Str × Str)}
    (h : Cuts finder st s ps rest st1) : ps.length + rest.length ≤ s.length := by
  induction h with
  | nil => simp
  | cons _ ht _ ih =>
    have := List.length_pos_iff.mpr ht
    simp only [List.length_append, List.length_cons]; omega

/-- C85: what `split_where` with at most `n` splits returns or throws in the state `st`, and the state after it. The finder is
called with the string and then each time with the text after the last separator, until (1) it finds nothing, (2) it
throws (the exception is passed on) or (3) the number of pieces has reached `n`; then it is not called again. -/
theorem C85_split_where (s : Str) (hs : s.length < SIZE_MOD) (finder : Finder ε σ) (st : σ) (n : Nat) (ig : Bool) :
    (∀ ps rest st1 st2 o, Cuts finder st s ps rest st1 → (keep ig (ps.map (·.1))).length < n →
      finder rest st1 = (.ok ⟨o, 0⟩, st2) →
      splitWhereS s finder ⟨n, ig⟩ st = (.ok (keep ig (ps.map (·.1) ++ [rest])), st2)) ∧
    (∀ ps rest st1 st2 x, Cuts finder st s ps rest st1 → (keep ig (ps.map (·.1))).length < n →
      finder rest st1 = (.error x, st2) → splitWhereS s finder ⟨n, ig⟩ st = (.error (.user x), st2)) ∧
    (∀ ps rest st1, Cuts finder st s ps rest st1 → ps ≠ [] → (keep ig (ps.map (·.1)).dropLast).length < n →
      (keep ig (ps.map (·.1))).length = n →
      splitWhereS s finder ⟨n, ig⟩ st = (.ok (keep ig (ps.map (·.1) ++ [rest])), st1)) ∧
    (n = 0 → splitWhereS s finder ⟨n, ig⟩ st = (.ok [], st)) := by
  have hr0 : Ready (TokenIterator.mk' s) s := .inr ⟨rfl, rfl⟩
  have hdrop : ∀ l : List Str, (keep ig l.dropLast).length ≤ (keep ig l).length := by
    intro l
    rcases List.eq_nil_or_concat l with rfl | ⟨a, b, rfl⟩
    · simp
    · rw [List.concat_eq_append, List.dropLast_concat, keep_append]; simp
  refine ⟨?_, ?_, ?_, ?_⟩
  · intro ps rest st1 st2 o h hn hf
    have hlen := cuts_length_le h
    obtain ⟨it', k1, k2, k3, k4⟩ := splitLoopS_cuts h n ig (s.length + 2 - ps.length) _ [] hr0 hs (by
      intro _; have := hdrop (ps.map (·.1)); simp only [List.length_nil]; omega)
    unfold splitWhereS
    rw [run_bind, show s.length + 2 = ps.length + (s.length + 2 - ps.length) by omega, k4,
      show s.length + 2 - ps.length = s.length - ps.length + 1 + 1 by omega, splitLoopS, List.nil_append,
      if_pos hn, run_bind, TokenIterator.nextRun, (nextS_ready k1 st1).2.1 _ _ hf]
    simp only [if_true]
    have hpart : TokenIterator.part ⟨rest, ⟨npos, 0⟩⟩ = .ok rest := by
      simp [TokenIterator.part, Subrange.nonempty, Subrange.start, npos]
    have hend : ∀ result : List Str, splitLoopS finder ⟨n, ig⟩ (s.length - ps.length + 1) ⟨rest, ⟨npos, 0⟩⟩ result st2 =
        (.ok (⟨rest, ⟨npos, 0⟩⟩, result), st2) := by
      intro result
      have e : TokenIterator.nextRun finder ⟨rest, ⟨npos, 0⟩⟩ st2 = (.ok (false, ⟨rest, ⟨npos, 0⟩⟩), st2) := by
        simp [TokenIterator.nextRun, TokenIterator.nextS, Subrange.nonempty, Subrange.start, npos]
      rw [splitLoopS]
      split
      · rw [run_bind, e]; rfl
      · rfl
    rw [hpart, run_bind, run_lib_ok]
    simp only
    have hb : TokenIterator.toBool ⟨rest, ⟨npos, 0⟩⟩ = false := rfl
    by_cases hc : (!ig || !rest.isEmpty) = true
    · rw [if_pos hc, hend]
      simp only [hb, Bool.false_eq_true, if_false, run_pure, keep_append]
      have : keep ig [rest] = [rest] := by
        unfold keep
        cases ig with
        | false => rfl
        | true => cases rest <;> simp_all
      rw [this]
    · rw [if_neg hc, hend]
      simp only [hb, Bool.false_eq_true, if_false, run_pure, keep_append]
      have : keep ig [rest] = [] := by
        unfold keep
        cases ig with
        | false => simp at hc
        | true => cases rest <;> simp_all
      rw [this, List.append_nil]
  · intro ps rest st1 st2 x h hn hf
    have hlen := cuts_length_le h
    obtain ⟨it', k1, k2, k3, k4⟩ := splitLoopS_cuts h n ig (s.length + 2 - ps.length) _ [] hr0 hs (by
      intro _; have := hdrop (ps.map (·.1)); simp only [List.length_nil]; omega)
    unfold splitWhereS
    rw [run_bind, show s.length + 2 = ps.length + (s.length + 2 - ps.length) by omega, k4,
      show s.length + 2 - ps.length = s.length - ps.length + 1 + 1 by omega, splitLoopS, List.nil_append,
      if_pos hn, run_bind, TokenIterator.nextRun, (nextS_ready k1 st1).1 _ _ hf]
  · intro ps rest st1 h hne hd hn
    have hlen := cuts_length_le h
    obtain ⟨it', k1, k2, k3, k4⟩ := splitLoopS_cuts h n ig (s.length + 2 - ps.length) _ [] hr0 hs (by
      intro _; simpa using hd)
    unfold splitWhereS
    rw [run_bind, show s.length + 2 = ps.length + (s.length + 2 - ps.length) by omega, k4,
      show s.length + 2 - ps.length = s.length - ps.length + 1 + 1 by omega, splitLoopS, List.nil_append,
      if_neg (by simp only [hn]; omega), run_pure]
    have hb : it'.toBool = true := k2 hne
    simp only [hb, if_true]
    have hrem : it'.remainder = .ok rest := by
      unfold TokenIterator.remainder
      rw [if_pos (.inl (k2 hne))]
      rcases k1 with ⟨_, j⟩ | ⟨j, _⟩
      · exact j
      · have := k2 hne; rw [j] at this; simp [Subrange.nonempty] at this
    rw [hrem, run_bind, run_lib_ok]
    simp only
    by_cases hc : (!ig || !rest.isEmpty) = true
    · rw [if_pos hc]
      simp only [run_pure, keep_append]
      have : keep ig [rest] = [rest] := by
        unfold keep
        cases ig with
        | false => rfl
        | true => cases rest <;> simp_all
      rw [this]
    · rw [if_neg hc]
      simp only [run_pure, keep_append]
      have : keep ig [rest] = [] := by
        unfold keep
        cases ig with
        | false => simp at hc
        | true => cases rest <;> simp_all
      rw [this, List.append_nil]
  · rintro rfl
    unfold splitWhereS
    rw [run_bind, show s.length + 2 = s.length + 1 + 1 from rfl, splitLoopS, if_neg (by simp), run_pure]
    rfl

/-- C85: the cases of `C85_split_where` cover every string, state, limit and finder that reports ranges inside of the string it
is given. -/
theorem C85_split_cases (s : Str) (finder : Finder ε σ) (st : σ) (n : Nat) (ig : Bool)
    (hf : ∀ s st r st', finder s st = (.ok r, st') → r.length = 0 ∨ r.offset + r.length ≤ s.length) :
    (∃ ps rest st1 st2 o, Cuts finder st s ps rest st1 ∧ (keep ig (ps.map (·.1))).length < n ∧
      finder rest st1 = (.ok ⟨o, 0⟩, st2)) ∨
    (∃ ps rest st1 st2 x, Cuts finder st s ps rest st1 ∧ (keep ig (ps.map (·.1))).length < n ∧
      finder rest st1 = (.error x, st2)) ∨
    (∃ ps rest st1, Cuts finder st s ps rest st1 ∧ ps ≠ [] ∧ (keep ig (ps.map (·.1)).dropLast).length < n ∧
      (keep ig (ps.map (·.1))).length = n) ∨ n = 0 := by
  induction hn : s.length using Nat.strongRecOn generalizing s st n with
  | _ m ih =>
    by_cases h0 : n = 0
    · exact .inr (.inr (.inr h0))
    rcases hx : finder s st with ⟨⟨x⟩ | ⟨o, l⟩, st1⟩
    · exact .inr (.inl ⟨[], s, st, st1, x, .nil, by simp [keep]; omega, hx⟩)
    · by_cases hl : l = 0
      · subst hl
        exact .inl ⟨[], s, st, st1, o, .nil, by simp [keep]; omega, hx⟩
      · have hb := hf s st ⟨o, l⟩ st1 hx
        simp only [hl, false_or] at hb
        have e1 : (s.take o).length = o := by simp; omega
        have e2 : ((s.drop o).take l).length = l := by simp; omega
        have e : s = s.take o ++ (s.drop o).take l ++ s.drop (o + l) := by
          rw [List.append_assoc, ← List.drop_drop, List.take_append_drop, List.take_append_drop]
        have ht : (s.drop o).take l ≠ [] := by intro h; rw [h] at e2; simp at e2; omega
        have hcut : ∀ {ps rest st2}, Cuts finder st1 (s.drop (o + l)) ps rest st2 →
            Cuts finder st s ((s.take o, (s.drop o).take l) :: ps) rest st2 := by
          intro ps rest st2 h
          have := Cuts.cons (finder := finder) (p := s.take o) (t := (s.drop o).take l) (r := s.drop (o + l)) (st := st)
            (by rw [← e, e1, e2]; exact hx) ht h
          rwa [← e] at this
        generalize s.take o = p at hcut
        generalize (s.drop o).take l = t at hcut
        have hk : ∀ ps : List (Str × Str), keep ig (((p, t) :: ps).map (·.1)) = keep ig [p] ++ keep ig (ps.map (·.1)) := by
          intro ps; rw [List.map_cons, keep_cons]
        have hd : ∀ ps : List (Str × Str), ps ≠ [] → keep ig (((p, t) :: ps).map (·.1)).dropLast =
            keep ig [p] ++ keep ig (ps.map (·.1)).dropLast := by
          intro ps hne
          rw [List.map_cons, List.dropLast_cons_of_ne_nil (by simpa using hne), keep_cons]
        have hp : (keep ig [p]).length ≤ 1 := by rw [keep_single]; split <;> simp
        by_cases hfull : (keep ig [p]).length = n
        · refine .inr (.inr (.inl ⟨[(p, t)], _, st1, hcut .nil, by simp, ?_, ?_⟩))
          · simp [keep]; omega
          · simpa using hfull
        · rcases ih (s.drop (o + l)).length (by simp; omega) (s.drop (o + l)) st1 (n - (keep ig [p]).length) rfl with
            ⟨ps, rest, s2, s3, o', h1, h2, h3⟩ | ⟨ps, rest, s2, s3, x, h1, h2, h3⟩ | ⟨ps, rest, s2, h1, h2, h3, h4⟩ | h
          · exact .inl ⟨_, rest, s2, s3, o', hcut h1, by rw [hk]; simp only [List.length_append]; omega, h3⟩
          · exact .inr (.inl ⟨_, rest, s2, s3, x, hcut h1, by rw [hk]; simp only [List.length_append]; omega, h3⟩)
          · refine .inr (.inr (.inl ⟨_, rest, s2, hcut h1, by simp, ?_, ?_⟩))
            · rw [hd ps h2]; simp only [List.length_append]; omega
            · rw [hk]; simp only [List.length_append]; omega
          · omega

/-- A finder of the model in Model/Algorithms.lean, which has no state, as a finder that may throw. -/
def pureFinder (finder : Str → Res Subrange) : Finder Err σ := fun s st => (finder s, st)

/-- An outcome of the model in Model/Algorithms.lean: the exceptions of the finder are not told apart from the others. -/
def merge {α : Type} : Except (Exn Err) α → Res α
  | .ok a => .ok a
  | .error (.lib e) => .error e
  | .error (.user e) => .error e

theorem merge_lib {α : Type} (r : Res α) (st : σ) : merge ((Run.lib r : Run Err σ α) st).1 = r := by
  cases r <;> rfl

/-- C85: for a finder without a state, `split_where` does what C38 and C39 say, and changes no state. -/
theorem C85_split_no_effects (str : Str) (finder : Str → Res Subrange) (params : SplitParams) (st : σ) :
    merge (splitWhereS str (pureFinder finder) params st).1 = splitWhere str finder params ∧
    (splitWhereS str (pureFinder finder) params st).2 = st := by
  have hnext : ∀ it : TokenIterator, merge (it.nextRun (pureFinder finder) st).1 = it.next finder ∧
      (it.nextRun (pureFinder finder) st).2 = st := by
    intro it
    unfold TokenIterator.nextRun TokenIterator.nextS TokenIterator.next pureFinder
    by_cases h1 : it.token.nonempty = true
    · rw [if_pos h1, if_pos h1]
      rcases substr it.str it.token.stop with e | s
      · exact ⟨rfl, rfl⟩
      · simp only [bind, Except.bind]
        rcases finder s with e | t
        · exact ⟨rfl, rfl⟩
        · rcases hne : t.nonempty <;> simp [hne, merge]
    · rw [if_neg h1, if_neg h1]
      by_cases h2 : it.token.start ≠ 0
      · rw [if_pos h2, if_pos h2]; exact ⟨rfl, rfl⟩
      · rw [if_neg h2, if_neg h2]
        simp only [bind, Except.bind]
        rcases finder it.str with e | t
        · exact ⟨rfl, rfl⟩
        · rcases hne : t.nonempty <;> simp [hne, merge]
  have hloop : ∀ fuel it result, merge (splitLoopS (pureFinder finder) params fuel it result st).1 =
      splitLoop finder params fuel it result ∧ (splitLoopS (pureFinder finder) params fuel it result st).2 = st := by
    intro fuel
    induction fuel with
    | zero => intros; exact ⟨rfl, rfl⟩
    | succ fuel ih =>
      intro it result
      rw [splitLoopS, splitLoop]
      by_cases hm : result.length < params.maxSplits
      · rw [if_pos hm, if_pos hm, run_bind, ← (hnext it).1]
        have h2 := (hnext it).2
        rcases hx : it.nextRun (pureFinder finder) st with ⟨⟨e⟩ | ⟨more, it'⟩, st'⟩
        · rw [hx] at h2; simp only at h2; subst h2
          cases e <;> exact ⟨rfl, rfl⟩
        · rw [hx] at h2; simp only at h2; subst h2
          simp only [merge, bind, Except.bind]
          cases more with
          | false => exact ⟨rfl, rfl⟩
          | true =>
            simp only [if_true, Run.bind]
            rcases it'.part with e | part
            · exact ⟨rfl, rfl⟩
            · rw [run_lib_ok]
              simp only
              by_cases hc : (!params.ignoreEmpty || !part.isEmpty) = true
              · rw [if_pos hc, if_pos hc]; exact ih _ _
              · rw [if_neg hc, if_neg hc]; exact ih _ _
      · rw [if_neg hm, if_neg hm]; exact ⟨rfl, rfl⟩
  unfold splitWhereS splitWhere
  rw [run_bind, ← (hloop (str.length + 2) (TokenIterator.mk' str) []).1]
  have h2 := (hloop (str.length + 2) (TokenIterator.mk' str) []).2
  rcases hx : splitLoopS (pureFinder finder) params (str.length + 2) (TokenIterator.mk' str) [] st with ⟨⟨e⟩ | ⟨it, result⟩, st'⟩
  · rw [hx] at h2; simp only at h2; subst h2
    cases e <;> exact ⟨rfl, rfl⟩
  · rw [hx] at h2; simp only at h2; subst h2
    simp only [merge, bind, Except.bind]
    by_cases hb : it.toBool = true
    · rw [if_pos hb, if_pos hb]
      simp only [Run.bind]
      rcases it.remainder with e | rem
      · exact ⟨rfl, rfl⟩
      · rw [run_lib_ok]
        simp only
        by_cases hc : (!params.ignoreEmpty || !rem.isEmpty) = true
        · rw [if_pos hc, if_pos hc]; exact ⟨rfl, rfl⟩
        · rw [if_neg hc, if_neg hc]; exact ⟨rfl, rfl⟩
    · rw [if_neg hb, if_neg hb]; exact ⟨rfl, rfl⟩

/-! ### C86 -/

theorem substr_cases (s : Str) (pos n : Nat) : (∃ t, substr s pos n = .ok t ∧ t <:+: s) ∨ substr s pos n = .error .outOfRange := by
  unfold substr
  split
  · exact .inr rfl
  · exact .inl ⟨_, rfl, ((List.take_prefix _ _).isInfix).trans (List.drop_suffix _ _).isInfix⟩

theorem nextS_cases (finder : Finder ε σ) (it : TokenIterator) (st : σ) :
    (it.nextS finder st).2.1.str <:+: it.str ∧
    ((∃ b, (it.nextS finder st).1 = .ok b) ∨ (∃ x, (it.nextS finder st).1 = .error (.user x)) ∨
      (it.nextS finder st).1 = .error (.lib .outOfRange)) := by
  unfold TokenIterator.nextS
  by_cases h1 : it.token.nonempty = true
  · rw [if_pos h1]
    rcases substr_cases it.str it.token.stop npos with ⟨t, h, hi⟩ | h
    · rw [h]
      simp only
      rcases finder t st with ⟨⟨x⟩ | ⟨r⟩, st'⟩
      · exact ⟨hi, .inr (.inl ⟨x, rfl⟩)⟩
      · simp only
        split <;> exact ⟨hi, .inl ⟨_, rfl⟩⟩
    · rw [h]; exact ⟨List.infix_rfl, .inr (.inr rfl)⟩
  · rw [if_neg h1]
    split
    · exact ⟨List.infix_rfl, .inl ⟨_, rfl⟩⟩
    · simp only
      rcases finder it.str st with ⟨⟨x⟩ | ⟨r⟩, st'⟩
      · exact ⟨List.infix_rfl, .inr (.inl ⟨x, rfl⟩)⟩
      · simp only
        split <;> exact ⟨List.infix_rfl, .inl ⟨_, rfl⟩⟩

/-- C86: whatever the finders returned or threw in the calls of `next()` so far (ranges outside of the string included), the
four member functions have no undefined behaviour: `next()` returns, passes on the exception of the finder or throws
`std::out_of_range`, and `part()`, `token()` and `remainder()` throw `std::out_of_range` or return a substring of the string
that the iterator was made with. -/
theorem C86_safe (s : Str) (it : TokenIterator) (h : Walked ε σ s it) :
    (∀ (finder : Finder ε σ) st, (∃ b, (it.nextS finder st).1 = .ok b) ∨ (∃ x, (it.nextS finder st).1 = .error (.user x)) ∨
      (it.nextS finder st).1 = .error (.lib .outOfRange)) ∧
    (∀ r ∈ [it.part, it.tokenStr, it.remainder], (∃ t, r = .ok t ∧ t <:+: s) ∨ r = .error .outOfRange) := by
  have hi : it.str <:+: s := by
    induction h with
    | start => exact List.infix_rfl
    | @next it it' finder st st' r _ e ih =>
      have h1 := (nextS_cases finder it st).1
      rw [e] at h1
      exact h1.trans ih
  refine ⟨fun finder st => (nextS_cases finder it st).2, ?_⟩
  have hsub : ∀ pos n, (∃ t, substr it.str pos n = .ok t ∧ t <:+: s) ∨ substr it.str pos n = .error .outOfRange := by
    intro pos n
    rcases substr_cases it.str pos n with ⟨t, h1, h2⟩ | h
    · exact .inl ⟨t, h1, h2.trans hi⟩
    · exact .inr h
  intro r hr
  simp only [List.mem_cons, List.not_mem_nil, or_false] at hr
  rcases hr with rfl | rfl | rfl
  · unfold TokenIterator.part
    split
    · exact hsub _ _
    · split
      · exact .inl ⟨_, rfl, hi⟩
      · exact .inl ⟨_, rfl, List.nil_infix⟩
  · unfold TokenIterator.tokenStr
    split
    · exact .inl ⟨_, rfl, List.nil_infix⟩
    · exact hsub _ _
  · unfold TokenIterator.remainder
    split
    · exact hsub _ _
    · exact .inl ⟨_, rfl, List.nil_infix⟩

/-- C86: if the finder throws in the first call of `next()`, the iterator is as before and the call can be repeated. -/
theorem C86_first_call (s : Str) (finder : Finder ε σ) (st st1 : σ) (x : ε) (h : finder s st = (.error x, st1)) :
    (TokenIterator.mk' s).nextS finder st = (.error (.user x), TokenIterator.mk' s, st1) :=
  (nextS_ready (it := TokenIterator.mk' s) (.inr ⟨rfl, rfl⟩) st).1 x st1 h

/-- C86: what happens if the finder throws in a later call, when the last separator found was `t`, after the piece `p`, and
`r` is the text after it. The exception is passed on, but the iterator has moved forward: the next call of `next()` skips as
many bytes of `r` as `p` and `t` have and asks the finder about what follows; if `r` is too short it throws
`std::out_of_range`, and so does every later call. `C86_false` shows that this is not harmless. -/
theorem C86_later_call_partial (p t r : Str) (ht : t ≠ []) (hs : (p ++ t ++ r).length < SIZE_MOD) (finder : Finder ε σ)
    (st st1 : σ) (x : ε) (h : finder r st = (.error x, st1)) :
    ∃ it, TokenIterator.nextS finder ⟨p ++ t ++ r, ⟨p.length, t.length⟩⟩ st = (.error (.user x), it, st1) ∧
      (∀ u v, r = u ++ v → u.length = (p ++ t).length → ∀ (g : Finder ε σ) st2,
        it.nextS g st2 =
          match g v st2 with
          | (.error y, st3) => (.error (.user y), ⟨v, it.token⟩, st3)
          | (.ok k, st3) => if k.length = 0 then (.ok true, ⟨v, ⟨npos, 0⟩⟩, st3) else (.ok true, ⟨v, k⟩, st3)) ∧
      (r.length < (p ++ t).length → ∀ (g : Finder ε σ) st2, it.nextS g st2 = (.error (.lib .outOfRange), it, st2)) := by
  refine ⟨⟨r, ⟨p.length, t.length⟩⟩, (nextS_ready (ready_after ht hs) st).1 x st1 h, ?_, ?_⟩
  · rintro u v rfl hu g st2
    have hr : Ready ⟨u ++ v, ⟨p.length, t.length⟩⟩ v := by
      left
      refine ⟨by simp only [Subrange.nonempty]; simpa using ht, ?_⟩
      have hstop : Subrange.stop ⟨p.length, t.length⟩ = u.length := by
        unfold Subrange.stop sizeAdd
        simp only [List.length_append] at hs hu
        rw [hu]
        exact Nat.mod_eq_of_lt (by simp only; omega)
      simp only [hstop]
      unfold substr
      rw [if_neg (by simp), List.drop_left, List.take_of_length_le]
      simp only [List.length_append, SIZE_MOD] at hs; unfold npos; omega
    obtain ⟨k1, k2, k3⟩ := nextS_ready (finder := g) hr st2
    rcases hg : g v st2 with ⟨⟨y⟩ | ⟨o, l⟩, st3⟩
    · exact k1 y st3 hg
    · simp only
      by_cases hl : l = 0
      · subst hl; rw [if_pos rfl]; exact k2 o st3 hg
      · rw [if_neg hl]; exact k3 o l st3 hg hl
  · intro hlt g st2
    unfold TokenIterator.nextS
    rw [if_pos (by simp only [Subrange.nonempty]; simpa using ht)]
    have hstop : Subrange.stop ⟨p.length, t.length⟩ = p.length + t.length := by
      unfold Subrange.stop sizeAdd
      simp only [List.length_append] at hs
      exact Nat.mod_eq_of_lt (by simp only; omega)
    simp only [hstop]
    unfold substr
    rw [if_pos (by simpa using hlt)]

local instance {α β : Type} [DecidableEq α] [DecidableEq β] : DecidableEq (Except α β) := fun a b =>
  match a, b with
  | .ok x, .ok y => if h : x = y then isTrue (by rw [h]) else isFalse (by simpa using h)
  | .error x, .error y => if h : x = y then isTrue (by rw [h]) else isFalse (by simpa using h)
  | .ok _, .error _ => isFalse (by simp)
  | .error _, .ok _ => isFalse (by simp)

/-- A finder for commas that counts its calls and throws in the second one. -/
def throwsOnce : Finder Unit Nat := fun s n => if n = 1 then (.error (), 2) else (findFirst s [0x2C] |>.mapError fun _ => (), n + 1)

/-- C86 is false in general: on "a,b,c" the first call finds "a"; the second one throws; when the call is repeated, the
iterator goes on with "c": "b" is lost. -/
theorem C86_false :
    let s : Str := [0x61, 0x2C, 0x62, 0x2C, 0x63]
    let a := (TokenIterator.mk' s).nextS throwsOnce 0
    let b := a.2.1.nextS throwsOnce a.2.2
    let c := b.2.1.nextS throwsOnce b.2.2
    a.1 = .ok true ∧ a.2.1.part = .ok [0x61] ∧ b.1 = .error (.user ()) ∧ c.1 = .ok true ∧ c.2.1.part = .ok [0x63] := by
  simp only
  decide +kernel

/-! ### Concrete cases -/

/-- A predicate that writes down what it is asked and throws when asked about "x". -/
def logging : Pred Unit (List Char32) := fun c log =>
  if c = 0x78 then (.error (), log ++ [c]) else (.ok (c == 0x20), log ++ [c])

example : findFirstWhereS [0x61, 0x20, 0x62] logging 0 [] = (.ok (⟨1, 1⟩, 0x20), [0x61, 0x20]) := by decide +kernel
example : findLastWhereS [0x61, 0x20, 0x62] logging npos [] = (.ok (⟨1, 1⟩, 0x20), [0x62, 0x20]) := by decide +kernel
example : findFirstWhereS [0x61, 0x78, 0x20] logging 0 [] = (.error (.user ()), [0x61, 0x78]) := by decide +kernel
example : findFirstWhereS [0x61, 0xFF, 0x20] logging 0 [] = (.error (.lib .ystring), [0x61]) := by decide +kernel
example : trimWhereS [0x20, 0x61, 0x20] logging [] = (.ok [0x61], [0x20, 0x61, 0x20, 0x61]) := by decide +kernel
example : splitWhereS [0x61, 0x2C, 0x62, 0x2C, 0x63] throwsOnce {} 0 = (.error (.user ()), 2) := by decide +kernel
example : splitWhereS [0x61, 0x2C, 0x62, 0x2C, 0x63] throwsOnce ⟨1, false⟩ 0 = (.ok [[0x61], [0x62, 0x2C, 0x63]], 1) := by
  decide +kernel
example : Cuts throwsOnce 2 [0x61, 0x2C, 0x62] [([0x61], [0x2C])] [0x62] 3 :=
  .cons (p := [0x61]) (t := [0x2C]) (r := [0x62]) (by decide +kernel) (by simp) .nil

end Ystring
