import Verif.Proofs.Compose
/-
The loop of to_composed.
-/
namespace Ystring
open Spec

/-- the composition of units, with the model's lookup -/
def uRuns : (cur : Char32) → (f : Bool) → (w : Str) → List Unit8 → Res (List (Bool × Str))
  | _, f, w, [] => .ok [(f, w)]
  | cur, f, w, u :: us => do
    let d ← findComposed cur u.2
    if d = 0 then do
      let ps ← uRuns u.2 false u.1 us
      .ok ((f, w) :: ps)
    else uRuns d true (encodeUtf8 d) us

/-- the end of to_composed -/
def finishC (r : Res (Str × Str × Str)) : Res Str := do
  let (result, «from», prev) ← r
  let t ← between «from» prev
  .ok (result ++ t)

/-- the effect of a malformed tail -/
def tailC (t out : Str) : Res Str := if t = [] then .ok out else .error .ystring

theorem uRuns_true {d : Char32} {w : Str} {us : List Unit8} {ps} (h : uRuns d true w us = .ok ps) : endsHere ps = true := by
  induction us generalizing d w ps with
  | nil => simp only [uRuns, Except.ok.injEq] at h; subst h; rfl
  | cons u us ih =>
    simp only [uRuns] at h
    cases hf : findComposed d u.2 with
    | error e => rw [hf] at h; cases h
    | ok d' =>
      rw [hf, bind_ok'] at h
      split at h
      · cases hr : uRuns u.2 false u.1 us with
        | error e => rw [hr] at h; cases h
        | ok ps' => rw [hr, bind_ok'] at h; cases h; rfl
      · exact ih h

theorem bind_error' {α β : Type} (e : Err) (f : α → Res β) : ((Except.error e : Res α) >>= f) = .error e := rfl

/-- the four states of the loop -/
theorem toComposedLoop_spec {t : Str} (ht : ¬ HasSeqPrefix t) (us : List Unit8) (h : Units us) :
    ∀ (ch : Char32) (w : Str) (fuel rf : Nat), us.length < fuel → us.length < rf →
    (∀ result p, finishC (toComposedLoop rf fuel ch result (p ++ (w ++ (bytesOf us ++ t))) (bytesOf us ++ t)
        (w ++ (bytesOf us ++ t)) (bytesOf us ++ t)) =
      (uRuns ch false w us >>= fun ps => tailC t (result ++ p ++ (dropLost false ps).flatten))) ∧
    (∀ result, finishC (toComposedLoop rf fuel ch result (w ++ (bytesOf us ++ t)) (bytesOf us ++ t)
        (w ++ (bytesOf us ++ t)) (w ++ (bytesOf us ++ t))) =
      (uRuns ch false w us >>= fun ps => tailC t (result ++ (dropLost true ps).flatten))) ∧
    (∀ result w', finishC (toComposedLoop rf fuel ch result (w' ++ (w ++ (bytesOf us ++ t))) (bytesOf us ++ t)
        (w' ++ (w ++ (bytesOf us ++ t))) (bytesOf us ++ t)) =
      (uRuns ch false w us >>= fun ps => tailC t (result ++ (dropLost true ((false, w') :: ps)).flatten))) ∧
    (∀ result mark0 jf b, us.length < jf →
      finishC (composeRun jf ch mark0 (bytesOf us ++ t) >>= fun x =>
          toComposedLoop rf fuel x.2.1 (result ++ encodeUtf8 x.1) x.2.2.2 x.2.2.1 x.2.2.2 x.2.2.2) =
      (uRuns ch true (encodeUtf8 ch) us >>= fun ps => tailC t (result ++ (dropLost b ps).flatten))) := by
  induction us with
  | nil =>
    intro ch w fuel rf hf hr
    obtain ⟨fuel, rfl⟩ : ∃ k, fuel = k + 1 := ⟨fuel - 1, by simp at hf; omega⟩
    simp only [bytesOf_nil, List.nil_append]
    by_cases h0 : t = []
    · subst h0
      refine ⟨?_, ?_, ?_, ?_⟩
      · intro result p
        rw [toComposedLoop, safeDecodeNext_nil]
        have := between_append (p ++ w) []
        simp only [List.append_nil] at this ⊢
        simp only [bind_ok', finishC, this, uRuns, tailC, if_true]
        simp [dropLost, endsHere]
      · intro result
        rw [toComposedLoop, safeDecodeNext_nil]
        have := between_append [] (w ++ [])
        simp only [List.append_nil, List.nil_append] at this ⊢
        simp only [bind_ok', finishC, this, uRuns, tailC, if_true]
        simp [dropLost, endsHere]
      · intro result w'
        rw [toComposedLoop, safeDecodeNext_nil]
        have := between_append (w' ++ w) []
        simp only [List.append_nil] at this ⊢
        simp only [bind_ok', finishC, this, uRuns, tailC, if_true]
        simp [dropLost, endsHere]
      · intro result mark0 jf b hj
        obtain ⟨jf, rfl⟩ : ∃ k, jf = k + 1 := ⟨jf - 1, by simp at hj; omega⟩
        rw [composeRun, safeDecodeNext_nil]
        simp only [bind_ok']
        rw [toComposedLoop, safeDecodeNext_nil]
        have := between_append [] []
        simp only [List.append_nil] at this
        simp only [bind_ok', finishC, this, uRuns, tailC, if_true]
        simp [dropLost]
    · have e := safeDecodeNext_bad h0 ht
      refine ⟨?_, ?_, ?_, ?_⟩
      · intro result p
        rw [toComposedLoop, e]
        simp only [bind_error', finishC, uRuns, bind_ok', tailC, if_neg h0]
      · intro result
        rw [toComposedLoop, e]
        simp only [bind_error', finishC, uRuns, bind_ok', tailC, if_neg h0]
      · intro result w'
        rw [toComposedLoop, e]
        simp only [bind_error', finishC, uRuns, bind_ok', tailC, if_neg h0]
      · intro result mark0 jf b hj
        obtain ⟨jf, rfl⟩ : ∃ k, jf = k + 1 := ⟨jf - 1, by simp at hj; omega⟩
        rw [composeRun, e]
        simp only [bind_error', finishC, uRuns, bind_ok', tailC, if_neg h0]
  | cons u us ih =>
    rw [Units_cons] at h
    intro ch w fuel rf hf hr
    simp only [List.length_cons] at hf hr
    obtain ⟨fuel, rfl⟩ : ∃ k, fuel = k + 1 := ⟨fuel - 1, by omega⟩
    have IH := fun ch w => ih h.2 ch w fuel rf (by omega) (by omega)
    have IH' := fun ch w => ih h.2 ch w (fuel + 1) rf (by omega) (by omega)
    simp only [bytesOf_cons, List.append_assoc]
    generalize hX : bytesOf us ++ t = X at *
    have e := safeDecodeNext_seq h.1 X
    cases hfc : findComposed ch u.2 with
    | error er =>
      refine ⟨?_, ?_, ?_, ?_⟩
      · intro result p
        rw [toComposedLoop, e]
        simp only [bind_ok', hfc, bind_error', finishC, uRuns]
      · intro result
        rw [toComposedLoop, e]
        simp only [bind_ok', hfc, bind_error', finishC, uRuns]
      · intro result w'
        rw [toComposedLoop, e]
        simp only [bind_ok', hfc, bind_error', finishC, uRuns]
      · intro result mark0 jf b hj
        obtain ⟨jf, rfl⟩ : ∃ k, jf = k + 1 := ⟨jf - 1, by simp at hj; omega⟩
        rw [composeRun, e]
        simp only [bind_ok', hfc, bind_error', finishC, uRuns]
    | ok d =>
      by_cases hd : d = 0
      · refine ⟨?_, ?_, ?_, ?_⟩
        · intro result p
          rw [toComposedLoop, e]
          simp only [bind_ok', hfc, if_pos hd, uRuns]
          have := (IH u.2 u.1).1 result (p ++ w)
          rw [List.append_assoc] at this
          rw [this]
          cases hu : uRuns u.2 false u.1 us with
          | error e => rfl
          | ok ps => simp [bind_ok', dropLost]
        · intro result
          rw [toComposedLoop, e]
          simp only [bind_ok', hfc, if_pos hd, uRuns]
          rw [(IH u.2 u.1).2.2.1 result w]
          cases hu : uRuns u.2 false u.1 us with
          | error e => rfl
          | ok ps => simp [bind_ok']
        · intro result w'
          rw [toComposedLoop, e]
          simp only [bind_ok', hfc, if_pos hd, uRuns]
          have := (IH u.2 u.1).1 result (w' ++ w)
          rw [List.append_assoc] at this
          rw [this]
          cases hu : uRuns u.2 false u.1 us with
          | error e => rfl
          | ok ps => simp [bind_ok', dropLost, endsHere]
        · intro result mark0 jf b hj
          obtain ⟨jf, rfl⟩ : ∃ k, jf = k + 1 := ⟨jf - 1, by simp at hj; omega⟩
          rw [composeRun, e]
          simp only [bind_ok', hfc, if_pos hd, uRuns]
          rw [(IH' u.2 u.1).2.1 (result ++ encodeUtf8 ch)]
          cases hu : uRuns u.2 false u.1 us with
          | error e => rfl
          | ok ps => simp [bind_ok', dropLost]
      · refine ⟨?_, ?_, ?_, ?_⟩
        · intro result p
          rw [toComposedLoop, e]
          simp only [bind_ok', hfc, if_neg hd, uRuns, between_append]
          have := (IH d (encodeUtf8 d)).2.2.2 (result ++ p) u.2 rf false (by omega)
          refine Eq.trans this ?_
          simp only [List.append_assoc]
        · intro result
          rw [toComposedLoop, e]
          have hb := between_append [] (w ++ (u.1 ++ X))
          rw [List.nil_append] at hb
          simp only [bind_ok', hfc, if_neg hd, uRuns, hb, List.append_nil]
          exact (IH d (encodeUtf8 d)).2.2.2 result u.2 rf true (by omega)
        · intro result w'
          rw [toComposedLoop, e]
          have hb := between_append [] (w' ++ (w ++ (u.1 ++ X)))
          rw [List.nil_append] at hb
          simp only [bind_ok', hfc, if_neg hd, uRuns, hb, List.append_nil]
          have := (IH d (encodeUtf8 d)).2.2.2 result u.2 rf false (by omega)
          refine Eq.trans this ?_
          cases hu : uRuns d true (encodeUtf8 d) us with
          | error e => rfl
          | ok ps => simp [bind_ok', dropLost, uRuns_true hu]
        · intro result mark0 jf b hj
          obtain ⟨jf, rfl⟩ : ∃ k, jf = k + 1 := ⟨jf - 1, by simp at hj; omega⟩
          rw [composeRun, e]
          simp only [bind_ok', hfc, if_neg hd, uRuns]
          exact (IH' d (encodeUtf8 d)).2.2.2 result u.2 jf b (by simp at hj; omega)

/-- `to_composed` in terms of the composition of units -/
theorem toComposed_units (u : Unit8) (us : List Unit8) (t : Str) (hu : IsSeq u.1 u.2) (h : Units us) (ht : ¬ HasSeqPrefix t) :
    toComposed (u.1 ++ (bytesOf us ++ t)) =
      (uRuns u.2 false u.1 us >>= fun ps => tailC t (dropLost false ps).flatten) := by
  unfold toComposed
  rw [safeDecodeNext_seq hu]
  simp only [bind_ok']
  have hl := units_length_le h
  have := ((toComposedLoop_spec ht us h) u.2 u.1 ((u.1 ++ (bytesOf us ++ t)).length + 1) ((u.1 ++ (bytesOf us ++ t)).length + 1)
    (by simp; omega) (by simp; omega)).1 [] []
  simp only [List.nil_append] at this
  rw [← this]
  rfl

theorem toComposed_bad (t : Str) (ht : ¬ HasSeqPrefix t) (h0 : t ≠ []) : toComposed t = .error .ystring := by
  unfold toComposed
  rw [safeDecodeNext_bad h0 ht]
  rfl

end Ystring
