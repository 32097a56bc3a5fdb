import Verif.Spec.Malformed
import Verif.Props.CaseInsensitiveFind
import Verif.Props.Slice
import Verif.Proofs.SafetyMore
/-
Property theorems C104: when the functions whose documentation announces an exception for strings that are not valid
UTF-8 throw it.
-/
namespace Ystring
open Spec

theorem Spec.ReadsTo.units {s m : Str} {cs : List Char32} (h : ReadsTo s cs m) :
    ∃ us, Units us ∧ s = bytesOf us ++ m ∧ valsOf us = cs ∧ ¬ HasSeqPrefix m := by
  obtain ⟨p, rfl, h1, h2⟩ := h
  obtain ⟨us, hu, rfl, rfl⟩ := h1.units
  exact ⟨us, hu, rfl, rfl, h2⟩

theorem Spec.ReadsBackTo.units {s m : Str} {cs : List Char32} (h : ReadsBackTo s m cs) :
    ∃ us, Units us ∧ s = m ++ bytesOf us ∧ valsOf us = cs ∧ ¬ HasSeqSuffix m := by
  obtain ⟨p, rfl, h1, h2⟩ := h
  obtain ⟨us, hu, rfl, rfl⟩ := h1.units
  exact ⟨us, hu, rfl, rfl, h2⟩

/-- C104: every string can be read in exactly one way from the left, and is valid iff nothing is left over. -/
theorem C104_readable (s : Str) : (∃ cs m, ReadsTo s cs m) ∧
    (∀ cs m cs' m', ReadsTo s cs m → ReadsTo s cs' m' → cs = cs' ∧ m = m') ∧
    ∀ cs m, ReadsTo s cs m → (Valid s ↔ m = []) := by
  refine ⟨?_, ?_, ?_⟩
  · obtain ⟨us, t, hu, e, ht⟩ := splitUnits s
    exact ⟨valsOf us, t, bytesOf us, e, hu.decodes, ht⟩
  · intro cs m cs' m' h h'
    obtain ⟨us, hu, e, rfl, hm⟩ := h.units
    obtain ⟨vs, hv, e', rfl, hm'⟩ := h'.units
    have key : ∀ {us vs : List Unit8} {m m' : Str}, Units us → Units vs → ¬ HasSeqPrefix m →
        bytesOf us ++ m = bytesOf vs ++ m' → us.length ≤ vs.length → us = vs ∧ m = m' := by
      intro us vs m m' hu hv hm e hl
      obtain ⟨ws, rfl, e2⟩ := units_prefix hu hv e hl
      cases ws with
      | nil => exact ⟨by simp, by simpa using e2⟩
      | cons w ws =>
        simp at hv e2
        exact absurd (e2 ▸ hv.2.1.hasPrefix _) hm
    rcases Nat.le_total us.length vs.length with hl | hl
    · obtain ⟨rfl, h2⟩ := key hu hv hm (e.symm.trans e') hl
      exact ⟨rfl, h2⟩
    · obtain ⟨rfl, h2⟩ := key hv hu hm' (e'.symm.trans e) hl
      exact ⟨rfl, h2.symm⟩
  · intro cs m h
    obtain ⟨us, hu, e, rfl, hm⟩ := h.units
    rw [e]
    exact valid_bad_tail hu hm

namespace CI

/-- the loops of `compare`, `less` and `equal` on strings that may be malformed -/
theorem loops_units {m n : Str} (hm : ¬ HasSeqPrefix m) (hn : ¬ HasSeqPrefix n) {us : List Unit8} :
    ∀ {vs : List Unit8} {fuel : Nat}, Units us → Units vs → us.length < fuel →
    ((m ≠ [] ∧ fu us <+: fu vs ∨ n ≠ [] ∧ fu vs <+: fu us) →
      compareLoop fuel (bytesOf us ++ m) (bytesOf vs ++ n) = .error .ystring ∧
      lessLoop fuel (bytesOf us ++ m) (bytesOf vs ++ n) = .error .ystring ∧
      equalLoop fuel (bytesOf us ++ m) (bytesOf vs ++ n) = .error .ystring) ∧
    (¬ (m ≠ [] ∧ fu us <+: fu vs ∨ n ≠ [] ∧ fu vs <+: fu us) →
      compareLoop fuel (bytesOf us ++ m) (bytesOf vs ++ n) = compareLoop fuel (bytesOf us) (bytesOf vs) ∧
      lessLoop fuel (bytesOf us ++ m) (bytesOf vs ++ n) = lessLoop fuel (bytesOf us) (bytesOf vs) ∧
      equalLoop fuel (bytesOf us ++ m) (bytesOf vs ++ n) = equalLoop fuel (bytesOf us) (bytesOf vs)) := by
  induction us with
  | nil =>
    intro vs fuel _ hv hf
    obtain ⟨fuel, rfl⟩ : ∃ f, fuel = f + 1 := ⟨fuel - 1, by simp at hf; omega⟩
    by_cases h0 : m = []
    · subst h0
      cases vs with
      | nil =>
        by_cases h1 : n = []
        · subst h1; simp
        · simp [h1, compareLoop, lessLoop, equalLoop, safeDecodeNext_bad h1 hn, bind, Except.bind]
      | cons v vs =>
        simp only [Units_cons] at hv
        simp only [compareLoop, lessLoop, equalLoop, bytesOf_cons, List.append_assoc, safeDecodeNext_seq hv.1]
        simp [bind, Except.bind]
    · simp [h0, compareLoop, lessLoop, equalLoop, safeDecodeNext_bad h0 hm, bind, Except.bind]
  | cons x us ih =>
    intro vs fuel hu hv hf
    obtain ⟨fuel, rfl⟩ : ∃ f, fuel = f + 1 := ⟨fuel - 1, by simp at hf; omega⟩
    simp only [Units_cons] at hu
    simp only [List.length_cons] at hf
    simp only [compareLoop, lessLoop, equalLoop, bytesOf_cons, List.append_assoc, safeDecodeNext_seq hu.1]
    cases vs with
    | nil =>
      by_cases h1 : n = []
      · subst h1; simp [bind, Except.bind]
      · simp [h1, safeDecodeNext_bad h1 hn, bind, Except.bind]
    | cons v vs =>
      simp only [Units_cons] at hv
      simp only [bytesOf_cons, List.append_assoc, safeDecodeNext_seq hv.1]
      simp only [bind, Except.bind, fu_cons, List.cons_prefix_cons]
      obtain ⟨i1, i2⟩ := ih (fuel := fuel) hu.2 hv.2 (by omega)
      by_cases he : caseInsensitiveEqual x.2 v.2 = true
      · have e := (ciEqual_iff _ _).mp he
        have hc : caseInsensitiveCompare x.2 v.2 = 0 := by rw [ciCompare_units hu.1 hv.1, e]; omega
        rw [he, hc, e]
        simp only [ne_eq, not_true_eq_false, if_false, Bool.not_true, Bool.false_eq_true, true_and]
        exact ⟨i1, i2⟩
      · have e : simpleUpper x.2.toNat ≠ simpleUpper v.2.toNat := fun e => he ((ciEqual_iff x.2 v.2).mpr e)
        have hc : caseInsensitiveCompare x.2 v.2 ≠ 0 := by rw [ciCompare_units hu.1 hv.1]; omega
        simp [he, hc, e, e.symm]

/-- C104: `case_insensitive::equal`, `compare` and `less` throw exactly if one of the strings is malformed and what
precedes the malformed bytes agrees, up to case, with the beginning of the other string; otherwise their result is that
for the code points in front of the malformed bytes. -/
theorem C104_compare_partial {s t m n : Str} {cs ds : List Char32} (hs : ReadsTo s cs m) (ht : ReadsTo t ds n) :
    ((m ≠ [] ∧ fold cs <+: fold ds ∨ n ≠ [] ∧ fold ds <+: fold cs) →
      equal s t = .error .ystring ∧ compare s t = .error .ystring ∧ less s t = .error .ystring) ∧
    (¬ (m ≠ [] ∧ fold cs <+: fold ds ∨ n ≠ [] ∧ fold ds <+: fold cs) →
      equal s t = .ok (decide (fold cs = fold ds)) ∧ less s t = .ok (decide (fold cs < fold ds)) ∧
      ∃ r, compare s t = .ok r ∧ (r < 0 ↔ fold cs < fold ds) ∧ (r = 0 ↔ fold cs = fold ds) ∧ (0 < r ↔ fold ds < fold cs)) := by
  obtain ⟨us, hu, rfl, rfl, hm⟩ := hs.units
  obtain ⟨vs, hv, rfl, rfl, hn⟩ := ht.units
  have hl := units_length hu
  obtain ⟨h1, h2⟩ := loops_units hm hn (fuel := (bytesOf us ++ m).length + 1) hu hv (by simp; omega)
  refine ⟨fun h => ?_, fun h => ?_⟩
  · obtain ⟨a, b, c⟩ := h1 h
    exact ⟨c, a, b⟩
  · obtain ⟨a, b, c⟩ := h2 h
    obtain ⟨r, q1, q2, q3, q4, -, -⟩ := compareLoop_units hu hv (by simp; omega : us.length < (bytesOf us ++ m).length + 1)
    refine ⟨c.trans (equalLoop_units hu hv (by simp; omega)), ?_, r, a.trans q1, q2, q3, ?_⟩
    · refine b.trans (q4.trans ?_)
      congr 1
      exact decide_eq_decide.mpr q2
    · have h7 : r < 0 ∨ r = 0 ∨ 0 < r := by omega
      constructor
      · intro h
        by_cases hh : fu us < fu vs
        · have := q2.mpr hh; omega
        · by_cases hh' : fu vs < fu us
          · exact hh'
          · have := q3.mpr (List.le_antisymm (List.not_lt.mp hh') (List.not_lt.mp hh)); omega
      · intro h
        rcases h7 with hh | hh | hh
        · exact absurd (List.lt_trans (q2.mp hh) h) (List.lt_irrefl _)
        · have e := q3.mp hh
          have h' : fu vs < fu us := h
          rw [e] at h'; exact absurd h' (List.lt_irrefl _)
        · exact hh

-- "ab\xFF" and "Ac": the difference comes first; "ab\xFF" and "AB": the malformed byte comes first
example : equal [0x61, 0x62, 0xFF] [0x41, 0x63] = .ok false ∧ less [0x61, 0x62, 0xFF] [0x41, 0x63] = .ok true ∧
    equal [0x61, 0x62, 0xFF] [0x41, 0x42] = .error .ystring ∧ compare [0x41, 0x42, 0x43] [0x61, 0x62, 0xFF] = .error .ystring ∧
    less [0x61, 0x62] [0xFF] = .error .ystring := by decide +kernel

/-- `nextMismatch` on strings that may be malformed -/
theorem nextMismatch_any {m n : Str} (hm : ¬ HasSeqPrefix m) (hn : ¬ HasSeqPrefix n) {us : List Unit8} :
    ∀ {vs : List Unit8} {fuel : Nat}, Units us → Units vs → us.length < fuel →
    ((m ≠ [] ∧ fu us <+: fu vs ∨ n ≠ [] ∧ fu vs <+: fu us ∧ vs.length < us.length) →
      nextMismatch fuel (bytesOf us ++ m) (bytesOf vs ++ n) = .error .ystring) ∧
    (¬ (m ≠ [] ∧ fu us <+: fu vs ∨ n ≠ [] ∧ fu vs <+: fu us ∧ vs.length < us.length) →
      ∃ a b, nextMismatch fuel (bytesOf us ++ m) (bytesOf vs ++ n) = .ok (a, b) ∧
        (b = [] ↔ n = [] ∧ fu vs <+: fu us) ∧ (b = [] → a = bytesOf (us.drop vs.length) ++ m)) := by
  induction us with
  | nil =>
    intro vs fuel _ hv hf
    obtain ⟨fuel, rfl⟩ : ∃ f, fuel = f + 1 := ⟨fuel - 1, by simp at hf; omega⟩
    by_cases h0 : m = []
    · subst h0
      refine ⟨by simp, fun _ => ⟨[], bytesOf vs ++ n, by simp [nextMismatch, bind, Except.bind], ?_⟩⟩
      cases vs with
      | nil => simp
      | cons v vs =>
        simp only [Units_cons] at hv
        simp [hv.1.ne_nil]
    · simp [h0, nextMismatch, safeDecodeNext_bad h0 hm, bind, Except.bind]
  | cons x us ih =>
    intro vs fuel hu hv hf
    obtain ⟨fuel, rfl⟩ : ∃ f, fuel = f + 1 := ⟨fuel - 1, by simp at hf; omega⟩
    simp only [Units_cons] at hu
    simp only [List.length_cons] at hf
    simp only [nextMismatch, bytesOf_cons, List.append_assoc, safeDecodeNext_seq hu.1]
    cases vs with
    | nil =>
      by_cases h1 : n = []
      · subst h1
        exact ⟨by simp, fun _ => ⟨x.1 ++ (bytesOf us ++ m), [], by simp [bind, Except.bind], by simp, by simp⟩⟩
      · simp [h1, safeDecodeNext_bad h1 hn, bind, Except.bind]
    | cons v vs =>
      simp only [Units_cons] at hv
      simp only [bytesOf_cons, List.append_assoc, safeDecodeNext_seq hv.1]
      simp only [bind, Except.bind, fu_cons, List.cons_prefix_cons, List.length_cons, Nat.add_lt_add_iff_right]
      obtain ⟨i1, i2⟩ := ih (fuel := fuel) hu.2 hv.2 (by omega)
      by_cases he : caseInsensitiveEqual x.2 v.2 = true
      · have e := (ciEqual_iff _ _).mp he
        rw [he, e]
        simp only [if_false, Bool.not_true, Bool.false_eq_true, true_and]
        exact ⟨i1, i2⟩
      · have e : simpleUpper x.2.toNat ≠ simpleUpper v.2.toNat := fun e => he ((ciEqual_iff x.2 v.2).mpr e)
        refine ⟨by simp [e, e.symm], fun _ => ⟨x.1 ++ (bytesOf us ++ m), v.1 ++ (bytesOf vs ++ n), by simp [he], ?_⟩⟩
        simp [e.symm, hv.1.ne_nil]

/-- C104: `case_insensitive::starts_with(s, cmp)` throws exactly if it reaches the malformed bytes of `s` (whatever precedes
them agrees, up to case, with the beginning of `cmp`, even if that is all of `cmp`), or those of `cmp` before the end of `s`.
Otherwise the result is whether `cmp` is valid and a beginning of `s` up to case. -/
theorem C104_starts_with_partial {s cmp m n : Str} {cs ds : List Char32} (hs : ReadsTo s cs m) (ht : ReadsTo cmp ds n) :
    startsWith s cmp =
      if m ≠ [] ∧ fold cs <+: fold ds ∨ n ≠ [] ∧ fold ds <+: fold cs ∧ ds.length < cs.length then .error .ystring
      else .ok (decide (n = [] ∧ fold ds <+: fold cs)) := by
  obtain ⟨us, hu, rfl, rfl, hm⟩ := hs.units
  obtain ⟨vs, hv, rfl, rfl, hn⟩ := ht.units
  have hl := units_length hu
  obtain ⟨h1, h2⟩ := nextMismatch_any hm hn (fuel := (bytesOf us ++ m).length + 1) hu hv (by simp; omega)
  have e : (valsOf vs).length < (valsOf us).length ↔ vs.length < us.length := by simp [valsOf]
  simp only [e]
  unfold startsWith
  by_cases h : m ≠ [] ∧ fold (valsOf us) <+: fold (valsOf vs) ∨
      n ≠ [] ∧ fold (valsOf vs) <+: fold (valsOf us) ∧ vs.length < us.length
  · rw [if_pos h, h1 h]; rfl
  · rw [if_neg h]
    obtain ⟨a, b, h3, h4, -⟩ := h2 h
    rw [h3]
    simp only [bind, Except.bind]
    congr 1
    rw [Bool.eq_iff_iff]
    simp only [beq_iff_eq, decide_eq_true_eq]
    exact h4

example : startsWith [0x61, 0x62, 0xFF] [0x41] = .ok true ∧ startsWith [0x61, 0xFF] [0x41] = .error .ystring ∧
    startsWith [0x61] [0x41, 0xFF] = .ok false ∧ startsWith [0x61, 0x62] [0x41, 0xFF] = .error .ystring := by decide +kernel

/-- `prevMismatch` on strings that may be malformed -/
theorem prevMismatch_any {m n : Str} (hm : ¬ HasSeqSuffix m) (hn : ¬ HasSeqSuffix n) (hm2 : ¬ LongContRun m) (hn2 : ¬ LongContRun n) {us : List Unit8} :
    ∀ {vs : List Unit8} {fuel : Nat}, Units us → Units vs → us.length < fuel →
    ((m ≠ [] ∧ fu us <+: fu vs ∨ n ≠ [] ∧ fu vs <+: fu us ∧ vs.length < us.length) →
      prevMismatch fuel (rb us ++ m.reverse) (rb vs ++ n.reverse) = .error .ystring) ∧
    (¬ (m ≠ [] ∧ fu us <+: fu vs ∨ n ≠ [] ∧ fu vs <+: fu us ∧ vs.length < us.length) →
      ∃ a b, prevMismatch fuel (rb us ++ m.reverse) (rb vs ++ n.reverse) = .ok (a, b) ∧
        (b = [] ↔ n = [] ∧ fu vs <+: fu us) ∧ (b = [] → a = rb (us.drop vs.length) ++ m.reverse)) := by
  induction us with
  | nil =>
    intro vs fuel _ hv hf
    obtain ⟨fuel, rfl⟩ : ∃ f, fuel = f + 1 := ⟨fuel - 1, by simp at hf; omega⟩
    by_cases h0 : m = []
    · subst h0
      refine ⟨by simp, fun _ => ⟨[], rb vs ++ n.reverse, by simp [prevMismatch, bind, Except.bind], ?_⟩⟩
      cases vs with
      | nil => simp
      | cons v vs =>
        simp only [Units_cons] at hv
        simp [hv.1.ne_nil]
    · simp [h0, prevMismatch, safeDecodePrev_bad h0 hm hm2, bind, Except.bind]
  | cons x us ih =>
    intro vs fuel hu hv hf
    obtain ⟨fuel, rfl⟩ : ∃ f, fuel = f + 1 := ⟨fuel - 1, by simp at hf; omega⟩
    simp only [Units_cons] at hu
    simp only [List.length_cons] at hf
    simp only [prevMismatch, rb_cons, List.append_assoc, safeDecodePrev_seq hu.1]
    cases vs with
    | nil =>
      by_cases h1 : n = []
      · subst h1
        exact ⟨by simp, fun _ => ⟨x.1.reverse ++ (rb us ++ m.reverse), [], by simp [bind, Except.bind], by simp, by simp⟩⟩
      · simp [h1, safeDecodePrev_bad h1 hn hn2, bind, Except.bind]
    | cons v vs =>
      simp only [Units_cons] at hv
      simp only [rb_cons, List.append_assoc, safeDecodePrev_seq hv.1]
      simp only [bind, Except.bind, fu_cons, List.cons_prefix_cons, List.length_cons, Nat.add_lt_add_iff_right]
      obtain ⟨i1, i2⟩ := ih (fuel := fuel) hu.2 hv.2 (by omega)
      by_cases he : caseInsensitiveEqual x.2 v.2 = true
      · have e := (ciEqual_iff _ _).mp he
        rw [he, e]
        simp only [if_false, Bool.not_true, Bool.false_eq_true, true_and]
        exact ⟨i1, i2⟩
      · have e : simpleUpper x.2.toNat ≠ simpleUpper v.2.toNat := fun e => he ((ciEqual_iff x.2 v.2).mpr e)
        refine ⟨by simp [e, e.symm], fun _ => ⟨x.1.reverse ++ (rb us ++ m.reverse), v.1.reverse ++ (rb vs ++ n.reverse), by simp [he], ?_⟩⟩
        simp [e.symm, hv.1.ne_nil]

/-- C104: `case_insensitive::ends_with(s, cmp)`, which reads from the right, throws exactly if it reaches the malformed bytes of `s`,
or those of `cmp` before the beginning of `s`. (Without the hypotheses on long runs of continuation bytes the behaviour at the
malformed bytes is undefined, C06.) -/
theorem C104_ends_with_partial {s cmp m n : Str} {cs ds : List Char32} (hs : ReadsBackTo s m cs) (ht : ReadsBackTo cmp n ds)
    (hm : ¬ LongContRun m) (hn : ¬ LongContRun n) :
    endsWith s cmp =
      if m ≠ [] ∧ fold cs <:+ fold ds ∨ n ≠ [] ∧ fold ds <:+ fold cs ∧ ds.length < cs.length then .error .ystring
      else .ok (decide (n = [] ∧ fold ds <:+ fold cs)) := by
  obtain ⟨us, hu, rfl, rfl, hm1⟩ := hs.units
  obtain ⟨vs, hv, rfl, rfl, hn1⟩ := ht.units
  have hl := units_length hu
  have hur : Units us.reverse := by intro x hx; exact hu x (by simpa using hx)
  have hvr : Units vs.reverse := by intro x hx; exact hv x (by simpa using hx)
  obtain ⟨h1, h2⟩ := prevMismatch_any hm1 hn1 hm hn (fuel := (m ++ bytesOf us).length + 1) hur hvr (by simp; omega)
  have e : (valsOf vs).length < (valsOf us).length ↔ vs.length < us.length := by simp [valsOf]
  have e1 : ∀ ws zs : List Unit8, fold (valsOf ws) <:+ fold (valsOf zs) ↔ fu ws.reverse <+: fu zs.reverse := by
    intro ws zs; rw [fu_reverse, fu_reverse, List.reverse_prefix]; rfl
  simp only [e, e1]
  unfold endsWith
  rw [List.reverse_append, List.reverse_append, ← rb_reverse, ← rb_reverse]
  simp only [List.length_reverse] at h1 h2
  by_cases h : m ≠ [] ∧ fu us.reverse <+: fu vs.reverse ∨
      n ≠ [] ∧ fu vs.reverse <+: fu us.reverse ∧ vs.length < us.length
  · rw [if_pos h, h1 h]; rfl
  · rw [if_neg h]
    obtain ⟨a, b, h3, h4, -⟩ := h2 h
    rw [h3]
    simp only [bind, Except.bind]
    congr 1
    rw [Bool.eq_iff_iff]
    simp only [beq_iff_eq, decide_eq_true_eq]
    exact h4

example : endsWith [0xFF, 0x62, 0x61] [0x41] = .ok true ∧ endsWith [0xFF, 0x61] [0x41] = .error .ystring ∧
    endsWith [0x61] [0xFF, 0x41] = .ok false ∧ endsWith [0x62, 0x61] [0xFF, 0x41] = .error .ystring := by decide +kernel

end CI

/-! ### Characters in front of, and behind, malformed bytes -/

theorem getNextCharRange_bad {s m : Str} (h0 : m ≠ []) (hm : ¬ HasSeqPrefix m) (a : Str) (gs : List (List Unit8))
    (hg : Groups gs) (hs : gs.length ≤ 1) (e : s = a ++ (bytesOf gs.flatten ++ m)) :
    getNextCharRange s a.length = .error .ystring := by
  cases gs with
  | nil =>
    simp at e
    unfold getNextCharRange iterAt
    rw [if_neg (by rw [e]; simp)]
    simp only [bind, Except.bind]
    rw [e, List.drop_left, safeDecodeNext_bad h0 hm]
  | cons g gs =>
    have : gs = [] := by simpa using hs
    subst this
    simp only [List.flatten_cons, List.flatten_nil, List.append_nil] at e
    obtain ⟨k, hk⟩ := getNextCharRange_run a m (hg.chars g (by simp)) (hg.units g (by simp))
    rw [e, hk, nextCharLoop, safeDecodeNext_bad h0 hm]
    rfl

theorem endsChar_append {gs : List (List Unit8)} {g g' : List Unit8} (h : Groups (g :: g' :: gs)) (m : Str) :
    EndsChar (bytesOf (g' :: gs).flatten ++ m) := by
  rcases groups_endsChar h with h3 | ⟨u, c, t, e, h1, h2⟩
  · obtain ⟨x, ms, rfl, -⟩ := h.chars g' (by simp)
    have hu := h.units (x :: ms) (by simp)
    rw [Units_cons] at hu
    simp at h3; exact absurd h3.1 hu.1.ne_nil
  · exact .inr ⟨u, c, t ++ m, by rw [e, List.append_assoc], h1, h2⟩

theorem getCharPosFwd_bad {s m : Str} (hl : s.length < SIZE_MOD) (h0 : m ≠ []) (hm : ¬ HasSeqPrefix m) (pos : Nat) :
    ∀ (a : Str) (gs : List (List Unit8)), Groups gs → s = a ++ (bytesOf gs.flatten ++ m) →
    getCharPosFwd s pos a.length = if pos = 0 ∨ pos < gs.length then
      .ok (a.length + (bytesOf (gs.take pos).flatten).length) else .error .ystring := by
  induction pos with
  | zero => intro a gs _ _; simp [getCharPosFwd]
  | succ pos ih =>
    intro a gs hg e
    rw [getCharPosFwd]
    by_cases hs : gs.length ≤ 1
    · rw [getNextCharRange_bad h0 hm a gs hg hs e, if_neg (by omega)]
      rfl
    · obtain ⟨g, g', gs, rfl⟩ : ∃ g g' hs, gs = g :: g' :: hs := by
        match gs, hs with
        | [], h => simp at h
        | [_], h => simp at h
        | g :: g' :: hs, _ => exact ⟨g, g', hs, rfl⟩
      have hg2 : Groups (g' :: gs) := (Groups.of_append (gs := [g]) hg).2
      have he : s = a ++ (bytesOf g ++ (bytesOf (g' :: gs).flatten ++ m)) := by rw [e]; simp
      have hr := getNextCharRange_char a _ (hg.chars g (by simp)) (hg.units g (by simp)) (endsChar_append hg m)
        (by rw [← he]; exact hl)
      rw [← he] at hr
      have hle := congrArg List.length he
      simp only [List.length_append] at hle
      obtain ⟨x, ms, hx, -⟩ := hg.chars g (by simp)
      have hpos : 0 < (bytesOf g).length := by
        have := hg.units g (by simp)
        rw [hx, Units_cons] at this
        have := this.1.length_pos
        rw [hx]; simp; omega
      rw [hr]
      simp only [bind, Except.bind]
      rw [if_neg (by simp only [Subrange.nonempty]; simpa using fun e => by rw [e] at hpos; simp at hpos),
        subrange_stop _ _ (by omega)]
      have := ih (a ++ bytesOf g) (g' :: gs) hg2 (by rw [he]; simp)
      rw [List.length_append] at this
      rw [this]
      simp only [List.length_cons, List.take_succ_cons, List.flatten_cons, bytesOf_append, List.length_append]
      by_cases hp : pos = 0
      · subst hp; simp
      · have : (pos = 0 ∨ pos < gs.length + 1) ↔ (pos + 1 = 0 ∨ pos + 1 < gs.length + 1 + 1) := by omega
        simp only [this]
        congr 2; omega

/-- C104: positions of characters in a malformed string, from the left: if the string begins with the characters `gs` followed
by malformed bytes, the positions of all characters but the last of `gs` are found. (The end of the last one cannot be
determined, as a combining mark could follow.) Everything beyond throws. -/
theorem C104_get_char_pos_partial {s p m : Str} {gs : List Str} (e : s = p ++ m) (hp : Characters p gs) (h0 : m ≠ [])
    (hm : ¬ HasSeqPrefix m) (hl : s.length < SIZE_MOD) {k : Int} (hk : 0 ≤ k) :
    getCharPos s k = if k = 0 ∨ k < gs.length then .ok (gs.take k.toNat).flatten.length else .error .ystring := by
  obtain ⟨ugs, hg, rfl⟩ := characters_groups hp
  have := getCharPosFwd_bad hl h0 hm k.toNat [] ugs hg (by rw [e, ← hp.1, bytesOf_flatten]; rfl)
  unfold getCharPos
  rw [if_pos hk]
  rw [List.length_nil] at this
  rw [this]
  have hc : (k.toNat = 0 ∨ k.toNat < ugs.length) ↔ (k = 0 ∨ k < (ugs.map bytesOf).length) := by simp; omega
  simp only [hc, bytesOf_flatten, List.map_take, Nat.zero_add]

/-- C104: `insert_char` and `insert_chars` at a position from the left: they throw exactly if they would have to look at the
malformed bytes to find the position (or, for `insert_char`, if the inserted value is no code point). -/
theorem C104_insert_char_partial {s p m : Str} {gs : List Str} (e : s = p ++ m) (hp : Characters p gs) (h0 : m ≠ [])
    (hm : ¬ HasSeqPrefix m) (hl : s.length < npos) {k : Int} (hk : 0 ≤ k) (sub : Str) (c : Char32) :
    insertChars s k sub = (if k = 0 ∨ k < gs.length then
      .ok ((gs.take k.toNat).flatten ++ sub ++ (gs.drop k.toNat).flatten ++ m) else .error .ystring) ∧
    insertChar s k c = (if (k = 0 ∨ k < gs.length) ∧ c.toNat ≤ 0x10FFFF then
      .ok ((gs.take k.toNat).flatten ++ rfcEncode c.toNat ++ (gs.drop k.toNat).flatten ++ m) else .error .ystring) := by
  have hpos := C104_get_char_pos_partial e hp h0 hm (by unfold npos at hl; unfold SIZE_MOD; omega) hk
  unfold insertChars insertChar
  rw [hpos]
  by_cases hc : k = 0 ∨ k < gs.length
  · have hs : s = (gs.take k.toNat).flatten ++ ((gs.drop k.toNat).flatten ++ m) := by
      rw [← List.append_assoc, ← List.flatten_append, List.take_append_drop, hp.1, e]
    have hlen := congrArg List.length hs
    simp only [List.length_append] at hlen
    have ht : substr s 0 (gs.take k.toNat).flatten.length = .ok (gs.take k.toNat).flatten := by
      rw [substr_safe (Nat.zero_le _), List.drop_zero]
      conv => lhs; rw [hs]
      rw [List.take_left]
    have hd : substr s (gs.take k.toNat).flatten.length = .ok ((gs.drop k.toNat).flatten ++ m) := by
      rw [substr_from (by omega) hl]
      conv => lhs; rw [hs]
      rw [List.drop_left]
    rw [if_pos hc]
    simp only [bind, Except.bind]
    constructor
    · unfold insertAtOffset
      by_cases h1 : sub = []
      · rw [if_pos h1, if_pos hc]; congr 1; rw [h1]; simpa using hs
      · rw [if_neg h1, if_neg (by omega), ht, hd, if_pos hc]
        simp [bind, Except.bind]
    · unfold insertCodepointAtOffset
      rw [if_neg (by omega), ht, hd]
      simp only [bind, Except.bind]
      by_cases hcp : c.toNat ≤ 0x10FFFF
      · rw [(C15_append _ c).1 hcp, if_pos ⟨hc, hcp⟩]; simp
      · rw [(C15_append _ c).2 (by omega), if_neg (fun h => hcp h.2)]
  · rw [if_neg hc, if_neg hc, if_neg (fun h => hc h.1)]
    exact ⟨rfl, rfl⟩

-- "ae" + combining acute + "\xFFb": the characters "a" and "é" precede the malformed byte
example : insertChars [0x61, 0x65, 0xCC, 0x81, 0xFF, 0x62] 1 [0x2D] = .ok [0x61, 0x2D, 0x65, 0xCC, 0x81, 0xFF, 0x62] ∧
    insertChars [0x61, 0x65, 0xCC, 0x81, 0xFF, 0x62] 2 [0x2D] = .error .ystring ∧
    insertChars [0xFF, 0x62] 0 [0x2D] = .ok [0x2D, 0xFF, 0x62] ∧ insertChars [0xFF, 0x62] 1 [0x2D] = .error .ystring := by
  decide +kernel

/-- the characters that remain behind the first `k` -/
theorem characters_drop {p : Str} {gs : List Str} (h : Characters p gs) (k : Nat) :
    Characters (gs.drop k).flatten (gs.drop k) := by
  refine ⟨rfl, fun g hg => h.2.1 g (List.mem_of_mem_drop hg), fun g hg => h.2.2 g ?_⟩
  rw [List.tail_drop] at hg
  rw [← List.drop_one]
  exact List.mem_of_mem_drop (i := k) (by rw [List.drop_drop, Nat.add_comm]; exact hg)

/-- C104: `get_char_substring` with indices from the left throws exactly if the larger index lies behind the last character
in front of the malformed bytes, or is its end; otherwise it returns the substring. -/
theorem C104_get_char_substring_partial {s p m : Str} {gs : List Str} (e : s = p ++ m) (hp : Characters p gs) (h0 : m ≠ [])
    (hm : ¬ HasSeqPrefix m) (hl : s.length < npos) {i j : Int} (hi : 0 ≤ i) (hj : 0 ≤ j) :
    getCharSubstring s i j = if max i j = 0 ∨ max i j < gs.length then .ok (slice gs i j).flatten else .error .ystring := by
  have hpos : ∀ {k : Int}, 0 ≤ k → getCappedCharPos s k =
      if k = 0 ∨ k < gs.length then .ok (gs.take k.toNat).flatten.length else .error .ystring := by
    intro k hk
    unfold getCappedCharPos
    rw [C104_get_char_pos_partial e hp h0 hm (by unfold npos at hl; unfold SIZE_MOD; omega) hk]
    by_cases hc : k = 0 ∨ k < gs.length
    · rw [if_pos hc]
      simp only [bind, Except.bind]
      have := flatten_take_le gs k.toNat
      rw [hp.1] at this
      have he := congrArg List.length e
      simp only [List.length_append] at he
      rw [if_pos (by omega)]
    · rw [if_neg hc]; rfl
  have hadj : adjustEnd i j = max i j := by unfold adjustEnd; split <;> simp_all <;> omega
  unfold getCharSubstring getCharSubstringRange
  simp only [hadj]
  rw [if_pos ⟨hi, by omega⟩, hpos hi]
  by_cases hc : i = 0 ∨ i < gs.length
  · rw [if_pos hc]
    simp only [bind, Except.bind]
    have hs : s = (gs.take i.toNat).flatten ++ ((gs.drop i.toNat).flatten ++ m) := by
      rw [← List.append_assoc, ← List.flatten_append, List.take_append_drop, hp.1, e]
    have hlen := congrArg List.length hs
    simp only [List.length_append] at hlen
    have hd : substr s (gs.take i.toNat).flatten.length = .ok ((gs.drop i.toNat).flatten ++ m) := by
      rw [substr_from (by omega) hl]
      conv => lhs; rw [hs]
      rw [List.drop_left]
    rw [hd]
    simp only
    have h2 : getCappedCharPos ((gs.drop i.toNat).flatten ++ m) (max i j - i) =
        if max i j - i = 0 ∨ max i j - i < (gs.drop i.toNat).length then
          .ok ((gs.drop i.toNat).take (max i j - i).toNat).flatten.length else .error .ystring := by
      unfold getCappedCharPos
      rw [C104_get_char_pos_partial rfl (characters_drop hp i.toNat) h0 hm (by simp only [List.length_append]; unfold npos at hl; unfold SIZE_MOD; omega) (by omega)]
      by_cases hc : max i j - i = 0 ∨ max i j - i < (gs.drop i.toNat).length
      · rw [if_pos hc]
        simp only [bind, Except.bind]
        have := flatten_take_le (gs.drop i.toNat) (max i j - i).toNat
        rw [if_pos (by omega)]
      · rw [if_neg hc]; rfl
    rw [h2]
    by_cases hc2 : max i j = 0 ∨ max i j < gs.length
    · rw [if_pos hc2, if_pos (by simp only [List.length_drop]; omega)]
      simp only
      rw [substr_safe (by omega)]
      congr 1
      conv => lhs; rw [hs]
      rw [List.drop_left]
      have hsp : (gs.drop i.toNat).flatten ++ m = ((gs.drop i.toNat).take (max i j - i).toNat).flatten ++
          (((gs.drop i.toNat).drop (max i j - i).toNat).flatten ++ m) := by
        rw [← List.append_assoc, ← List.flatten_append, List.take_append_drop]
      rw [hsp, List.take_left]
      unfold slice clampIndex
      rw [if_pos hi, if_pos hj, List.drop_take]
      congr 2
      · omega
      · congr 1; omega
    · rw [if_neg hc2, if_neg (by simp only [List.length_drop]; omega)]
  · rw [if_neg hc, if_neg (by omega)]
    rfl

example : getCharSubstring [0x61, 0x62, 0x63, 0xFF, 0x62] 0 2 = .ok [0x61, 0x62] ∧
    getCharSubstring [0x61, 0x62, 0x63, 0xFF, 0x62] 1 3 = .error .ystring ∧
    getCharSubstring [0x61, 0x62, 0x63, 0xFF, 0x62] 1 1 = .ok [] := by decide +kernel

/-! ### The same from the right -/

theorem getPrevCharRange_bad {s m : Str} (h0 : m ≠ []) (hm : ¬ HasSeqSuffix m) (hm2 : ¬ LongContRun m) (b : Str) (ms : List Unit8)
    (hu : Units ms) (hms : ∀ x ∈ ms, isMark x.2 = true) (e : s = m ++ (bytesOf ms ++ b)) :
    getPrevCharRange s (m.length + (bytesOf ms).length) = .error .ystring := by
  have hle := units_length_le hu
  unfold getPrevCharRange revIterAt
  rw [if_neg (by rw [e]; simp)]
  simp only [bind, Except.bind]
  rw [show s.take (m.length + (bytesOf ms).length) = m ++ bytesOf ms by
    rw [e, ← List.append_assoc, ← List.length_append, List.take_left]]
  have hlen := congrArg List.length e
  simp only [List.length_append] at hlen
  rw [List.reverse_append, show s.length + 1 = ms.length + ((s.length - ms.length) + 1) by omega,
    prevCharLoop_marks ms hu hms, prevCharLoop, safeDecodePrev_bad h0 hm hm2]
  rfl

/-- `CompleteChars` for units -/
def CompleteUnits (gs : List (List Unit8)) (n : Nat) : Prop :=
  ((∀ g hs, gs = g :: hs → ¬ MarkUnits g) ∧ n = gs.length) ∨ (∃ g hs, gs = g :: hs ∧ MarkUnits g ∧ n = hs.length)

theorem markUnits_iff {g : List Unit8} (h : Units g) : MarkUnits g ↔ StartsWithMark (bytesOf g) := by
  constructor
  · rintro ⟨x, ms, rfl, hx⟩
    exact ⟨x.2, valsOf ms, h.decodes, hx⟩
  · rintro ⟨c, cs, hd, hc⟩
    have := hd.unique h.decodes
    cases g with
    | nil => simp at this
    | cons x ms => simp at this; exact ⟨x, ms, rfl, this.1 ▸ hc⟩

theorem getCharPosBwd_bad {s m : Str} (hl : s.length < SIZE_MOD) (h0 : m ≠ []) (hm : ¬ HasSeqSuffix m) (hm2 : ¬ LongContRun m)
    (pos : Nat) : ∀ (gs : List (List Unit8)) (b : Str) (n : Nat), Groups gs → CompleteUnits gs n →
    s = m ++ (bytesOf gs.flatten ++ b) →
    getCharPosBwd s pos (m.length + (bytesOf gs.flatten).length) = if pos ≤ n then
      .ok (m.length + (bytesOf (gs.take (gs.length - pos)).flatten).length) else .error .ystring := by
  induction pos with
  | zero => intro gs b n _ _ _; simp [getCharPosBwd]
  | succ pos ih =>
    intro gs b n hg hn e
    rw [getCharPosBwd]
    have hbad : n = 0 → getPrevCharRange s (m.length + (bytesOf gs.flatten).length) = .error .ystring := by
      intro hz
      refine getPrevCharRange_bad h0 hm hm2 b gs.flatten (units_flatten hg.units) ?_ e
      rcases hn with ⟨-, h⟩ | ⟨g, hs, rfl, ⟨x, ms, rfl, hx⟩, h⟩
      · have : gs = [] := List.length_eq_zero_iff.mp (by omega)
        subst this; simp
      · have : hs = [] := List.length_eq_zero_iff.mp (by omega)
        subst this
        obtain ⟨y, ys, e2, hy⟩ := hg.chars (x :: ms) (by simp)
        injection e2 with e3 e4
        subst e3 e4
        simpa [hx] using hy
    by_cases hz : n = 0
    · rw [hbad hz, if_neg (by omega)]; rfl
    · have hne : gs ≠ [] := by
        rintro rfl
        rcases hn with ⟨-, h⟩ | ⟨g, hs, h, -⟩
        · simp at h; omega
        · simp at h
      obtain ⟨ks, g, rfl⟩ : ∃ ks g, gs = ks ++ [g] := ⟨gs.dropLast, gs.getLast hne, (List.dropLast_concat_getLast hne).symm⟩
      have hgm : ¬ MarkUnits g := by
        by_cases hk : ks = []
        · subst hk
          rcases hn with ⟨h, -⟩ | ⟨g', hs, h, h1, h2⟩
          · exact h g [] rfl
          · simp at h; rw [h.2] at h2; simp at h2; omega
        · exact hg.not_mark hk
      have hn2 : CompleteUnits ks (n - 1) := by
        rcases hn with ⟨h, h1⟩ | ⟨g', hs, h, h1, h2⟩
        · refine .inl ⟨fun g' hs e' => h g' (hs ++ [g]) (by rw [e']; rfl), by simp at h1; omega⟩
        · cases ks with
          | nil => simp at h; rw [h.2] at h2; simp at h2; omega
          | cons k ks =>
            simp at h
            refine .inr ⟨k, ks, rfl, h.1 ▸ h1, ?_⟩
            rw [← h.2] at h2; simp at h2; omega
      have he : s = (m ++ bytesOf ks.flatten) ++ (bytesOf g ++ b) := by rw [e]; simp
      have hr := getPrevCharRange_char (m ++ bytesOf ks.flatten) b (hg.chars g (by simp)) (hg.units g (by simp)) (.inr hgm)
        (by rw [← he]; exact hl)
      rw [← he] at hr
      have hle := congrArg List.length he
      simp only [List.length_append] at hle
      obtain ⟨x, ms, hx, -⟩ := hg.chars g (by simp)
      have hpos : 0 < (bytesOf g).length := by
        have := hg.units g (by simp)
        rw [hx, Units_cons] at this
        have := this.1.length_pos
        rw [hx]; simp; omega
      rw [show m.length + (bytesOf (ks ++ [g]).flatten).length = (m ++ bytesOf ks.flatten).length + (bytesOf g).length by
        simp; omega, hr]
      simp only [bind, Except.bind]
      rw [if_neg (by simp only [Subrange.nonempty]; simpa using fun e => by rw [e] at hpos; simp at hpos)]
      unfold Subrange.start
      simp only
      have := ih ks (bytesOf g ++ b) (n - 1) (hg.of_append).1 hn2 (by rw [he]; simp)
      rw [List.length_append, this]
      have h1 : (ks ++ [g]).take ((ks ++ [g]).length - (pos + 1)) = ks.take (ks.length - pos) := by
        rw [List.take_append_of_le_length (by simp)]
        congr 1
        simp
      rw [h1]
      have h2 : pos ≤ n - 1 ↔ pos + 1 ≤ n := by omega
      simp only [h2]

/-- C104: positions of characters in a malformed string, from the right: if the characters `gs` follow the malformed bytes, the
beginnings of those that do not start with a combining mark are found. (Which code point the marks at the beginning belong to
cannot be determined.) Everything beyond throws. -/
theorem C104_get_char_pos_neg_partial {s p m : Str} {gs : List Str} {n : Nat} (e : s = m ++ p) (hp : Characters p gs) (h0 : m ≠ [])
    (hm : ¬ HasSeqSuffix m) (hm2 : ¬ LongContRun m) (hn : CompleteChars gs n) (hl : s.length < SIZE_MOD) {k : Int} (hk : k < 0) :
    getCharPos s k = if -k ≤ n then .ok (m.length + (gs.take (gs.length + k).toNat).flatten.length) else .error .ystring := by
  obtain ⟨ugs, hg, rfl⟩ := characters_groups hp
  have hn' : CompleteUnits ugs n := by
    rcases hn with ⟨h1, h2⟩ | ⟨g, hs, h1, h2, h3⟩
    · refine .inl ⟨?_, by simpa using h2⟩
      rintro g hs rfl hmk
      exact h1 (bytesOf g) (hs.map bytesOf) rfl ((markUnits_iff (hg.units g (by simp))).mp hmk)
    · cases ugs with
      | nil => simp at h1
      | cons g' hs' =>
        simp at h1
        refine .inr ⟨g', hs', rfl, (markUnits_iff (hg.units g' (by simp))).mpr (h1.1 ▸ h2), ?_⟩
        rw [h3, ← h1.2]; simp
  have := getCharPosBwd_bad hl h0 hm hm2 (-k).toNat ugs [] n hg hn' (by rw [e, ← hp.1, bytesOf_flatten, List.append_nil])
  unfold getCharPos
  rw [if_neg (by omega)]
  rw [show s.length = m.length + (bytesOf ugs.flatten).length by rw [e, ← hp.1, bytesOf_flatten, List.length_append], this]
  have hc : (-k).toNat ≤ n ↔ -k ≤ n := by omega
  simp only [hc, bytesOf_flatten, List.map_take, List.length_map]
  rw [show ugs.length - (-k).toNat = (ugs.length + k).toNat by omega]

theorem take_chars {p : Str} {gs : List Str} (h : Characters p gs) (k : Nat) :
    Characters (gs.take k).flatten (gs.take k) := by
  refine ⟨rfl, fun g hg => h.2.1 g (List.mem_of_mem_take hg), fun g hg => h.2.2 g ?_⟩
  cases gs with
  | nil => simp at hg
  | cons a gs =>
    cases k with
    | zero => simp at hg
    | succ k => simp at hg ⊢; exact List.mem_of_mem_take hg

theorem CompleteChars_le {gs : List Str} {n : Nat} (h : CompleteChars gs n) : n ≤ gs.length ∧ gs.length ≤ n + 1 := by
  rcases h with ⟨-, rfl⟩ | ⟨g, hs, rfl, -, rfl⟩ <;> simp

theorem CompleteChars_take {gs : List Str} {n d : Nat} (h : CompleteChars gs n) (hd : d ≤ n) :
    CompleteChars (gs.take (gs.length - d)) (n - d) := by
  rcases h with ⟨h1, h2⟩ | ⟨g, hs, rfl, h1, h2⟩
  · refine .inl ⟨?_, by simp; omega⟩
    intro g hs e
    cases gs with
    | nil => simp at e
    | cons a gs =>
      have : ∃ q, (a :: gs).length - d = q + 1 ∨ (a :: gs).length - d = 0 := by
        rcases Nat.eq_zero_or_pos ((a :: gs).length - d) with h | h
        · exact ⟨0, .inr h⟩
        · exact ⟨(a :: gs).length - d - 1, .inl (by omega)⟩
      obtain ⟨q, hq | hq⟩ := this
      · rw [hq, List.take_succ_cons] at e
        injection e with e1 e2
        exact e1 ▸ h1 a gs rfl
      · rw [hq] at e; simp at e
  · refine .inr ⟨g, hs.take (hs.length - d), ?_, h1, by simp; omega⟩
    rw [List.length_cons, show hs.length + 1 - d = (hs.length - d) + 1 by omega, List.take_succ_cons]

/-- C104: `insert_char` and `insert_chars` at a position from the right. -/
theorem C104_insert_char_neg_partial {s p m : Str} {gs : List Str} {n : Nat} (e : s = m ++ p) (hp : Characters p gs) (h0 : m ≠ [])
    (hm : ¬ HasSeqSuffix m) (hm2 : ¬ LongContRun m) (hn : CompleteChars gs n) (hl : s.length < npos) {k : Int} (hk : k < 0)
    (sub : Str) (c : Char32) :
    insertChars s k sub = (if -k ≤ n then
      .ok (m ++ (gs.take (gs.length + k).toNat).flatten ++ sub ++ (gs.drop (gs.length + k).toNat).flatten)
      else .error .ystring) ∧
    insertChar s k c = (if -k ≤ n ∧ c.toNat ≤ 0x10FFFF then
      .ok (m ++ (gs.take (gs.length + k).toNat).flatten ++ rfcEncode c.toNat ++ (gs.drop (gs.length + k).toNat).flatten)
      else .error .ystring) := by
  have hpos := C104_get_char_pos_neg_partial e hp h0 hm hm2 hn (by unfold npos at hl; unfold SIZE_MOD; omega) hk
  unfold insertChars insertChar
  rw [hpos]
  generalize (gs.length + k).toNat = q
  by_cases hc : -k ≤ n
  · have hs : s = (m ++ (gs.take q).flatten) ++ (gs.drop q).flatten := by
      rw [List.append_assoc, ← List.flatten_append, List.take_append_drop, hp.1, e]
    have hlen := congrArg List.length hs
    simp only [List.length_append] at hlen
    have ht : substr s 0 (m ++ (gs.take q).flatten).length = .ok (m ++ (gs.take q).flatten) := by
      rw [substr_safe (Nat.zero_le _), List.drop_zero]
      conv => lhs; rw [hs]
      rw [List.take_left]
    have hd : substr s (m ++ (gs.take q).flatten).length = .ok (gs.drop q).flatten := by
      rw [substr_from (by simp only [List.length_append]; omega) hl]
      conv => lhs; rw [hs]
      rw [List.drop_left]
    rw [if_pos hc]
    simp only [bind, Except.bind]
    rw [← List.length_append]
    constructor
    · unfold insertAtOffset
      by_cases h1 : sub = []
      · rw [if_pos h1, if_pos hc]; congr 1; rw [h1]; simpa using hs
      · rw [if_neg h1, if_neg (by simp only [List.length_append]; omega), ht, hd, if_pos hc]
        simp [bind, Except.bind]
    · unfold insertCodepointAtOffset
      rw [if_neg (by simp only [List.length_append]; omega), ht, hd]
      simp only [bind, Except.bind]
      by_cases hcp : c.toNat ≤ 0x10FFFF
      · rw [(C15_append _ c).1 hcp, if_pos ⟨hc, hcp⟩]
      · rw [(C15_append _ c).2 (by omega), if_neg (fun h => hcp h.2)]
  · rw [if_neg hc, if_neg hc, if_neg (fun h => hc h.1)]
    exact ⟨rfl, rfl⟩

-- "\xFF" + combining acute + "ab": the mark has no code point, so only two characters are found from the right
example : insertChars [0xFF, 0xCC, 0x81, 0x61, 0x62] (-2) [0x2D] = .ok [0xFF, 0xCC, 0x81, 0x2D, 0x61, 0x62] ∧
    insertChars [0xFF, 0xCC, 0x81, 0x61, 0x62] (-3) [0x2D] = .error .ystring ∧
    insertChars [0xFF, 0x61, 0x62] (-2) [0x2D] = .ok [0xFF, 0x2D, 0x61, 0x62] := by decide +kernel

/-- C104: `get_char_substring` with two indices from the right, the first before the second. -/
theorem C104_get_char_substring_neg_partial {s p m : Str} {gs : List Str} {n : Nat} (e : s = m ++ p) (hp : Characters p gs)
    (h0 : m ≠ []) (hm : ¬ HasSeqSuffix m) (hm2 : ¬ LongContRun m) (hn : CompleteChars gs n) (hl : s.length < npos) {i j : Int}
    (hij : i < j) (hj : j < 0) :
    getCharSubstring s i j = if -i ≤ n then .ok (slice gs i j).flatten else .error .ystring := by
  have hpos : ∀ {p : Str} {gs : List Str} {n : Nat} {k : Int}, Characters p gs → CompleteChars gs n → (m ++ p).length < npos → k < 0 →
      getCappedCharPos (m ++ p) k =
      if -k ≤ n then .ok (m ++ (gs.take (gs.length + k).toNat).flatten).length else .error .ystring := by
    intro p gs n k hp hn hl hk
    unfold getCappedCharPos
    rw [C104_get_char_pos_neg_partial rfl hp h0 hm hm2 hn (by unfold npos at hl; unfold SIZE_MOD; omega) hk]
    by_cases hc : -k ≤ n
    · rw [if_pos hc, if_pos hc]
      simp only [bind, Except.bind]
      have := flatten_take_le gs (gs.length + k).toNat
      rw [hp.1] at this
      simp only [List.length_append] at hl ⊢
      rw [if_pos (by omega)]
    · rw [if_neg hc, if_neg hc]; rfl
  have hadj : adjustEnd i j = j := by unfold adjustEnd; rw [if_neg (by omega)]
  have hle := CompleteChars_le hn
  unfold getCharSubstring getCharSubstringRange
  simp only [hadj]
  rw [if_neg (by omega), if_pos ⟨by omega, hj⟩, e, hpos hp hn (by rw [← e]; exact hl) hj]
  by_cases hc : -j ≤ n
  · rw [if_pos hc]
    simp only [bind, Except.bind]
    have hq : (gs.length + j).toNat = gs.length - (-j).toNat := by omega
    have hs : m ++ p = (m ++ (gs.take (gs.length + j).toNat).flatten) ++ (gs.drop (gs.length + j).toNat).flatten := by
      rw [List.append_assoc, ← List.flatten_append, List.take_append_drop, hp.1]
    have ht : substr (m ++ p) 0 (m ++ (gs.take (gs.length + j).toNat).flatten).length = .ok (m ++ (gs.take (gs.length + j).toNat).flatten) := by
      rw [substr_safe (Nat.zero_le _), List.drop_zero]
      conv => lhs; rw [hs]
      rw [List.take_left]
    rw [ht]
    simp only
    have hlen := congrArg List.length hs
    rw [← e] at hlen
    rw [List.length_append] at hlen
    rw [hpos (take_chars hp _) (by rw [hq]; exact CompleteChars_take hn (by omega)) (by omega) (by omega)]
    by_cases hc2 : -i ≤ n
    · rw [if_pos hc2, if_pos (by omega)]
      simp only
      have h1 : ((gs.take (gs.length + j).toNat).length + (i - j)).toNat = (gs.length + i).toNat := by
        simp only [List.length_take]; omega
      rw [h1, List.take_take, Nat.min_eq_left (by omega)]
      have hs2 : m ++ (gs.take (gs.length + j).toNat).flatten = (m ++ (gs.take (gs.length + i).toNat).flatten) ++ (slice gs i j).flatten := by
        unfold slice clampIndex
        rw [if_neg (by omega), if_neg (by omega), List.append_assoc, ← List.flatten_append]
        have := List.take_append_drop (gs.length + i).toNat (gs.take (gs.length + j).toNat)
        rw [List.take_take, Nat.min_eq_left (by omega)] at this
        rw [this]
      have hlen2 := congrArg List.length hs2
      rw [List.length_append (bs := (slice gs i j).flatten)] at hlen2
      rw [substr_safe (by rw [← e]; omega)]
      congr 1
      have : sizeSub (m ++ (gs.take (gs.length + i).toNat).flatten ++ (slice gs i j).flatten).length
          (m ++ (gs.take (gs.length + i).toNat).flatten).length = (slice gs i j).flatten.length := by
        unfold sizeSub
        rw [List.length_append]
        rw [show ∀ a b : Nat, a + b + SIZE_MOD - a = b + SIZE_MOD by intros; omega, Nat.add_mod_right,
          Nat.mod_eq_of_lt (by unfold npos at hl; unfold SIZE_MOD; omega)]
      rw [hs, hs2, this, List.append_assoc (_ ++ _) (slice gs i j).flatten, List.drop_left, List.take_left]
    · rw [if_neg hc2, if_neg (by omega)]
  · rw [if_neg hc, if_neg (by omega)]
    rfl

example : getCharSubstring [0xFF, 0xCC, 0x81, 0x61, 0x62] (-2) (-1) = .ok [0x61] ∧
    getCharSubstring [0xFF, 0xCC, 0x81, 0x61, 0x62] (-3) (-1) = .error .ystring := by decide +kernel

/-! ### Functions that never complain, and the documented claim -/

/-- C104: `insert_codepoint` and `insert_codepoints` take any string apart into pieces (C11) and so never complain about malformed
bytes: for every string there are as many positions as pieces, and only positions beyond those (or values that are no code
points) make them throw. -/
theorem C104_insert_codepoint_partial (s : Str) (hl : s.length < 4294967296) :
    ∃ gs : List Str, gs.flatten = s ∧ (∀ g ∈ gs, g ≠ []) ∧ ∀ k : Int, k ≠ PTRDIFF_MIN →
      (∀ sub, sub ≠ [] → insertCodepoints s k sub =
        match boundary gs k with
        | some o => .ok (s.take o ++ sub ++ s.drop o)
        | none => .error .ystring) ∧
      (∀ c : Char32, insertCodepoint s k c =
        match boundary gs k with
        | some o => if c.toNat ≤ 0x10FFFF then .ok (s.take o ++ rfcEncode c.toNat ++ s.drop o) else .error .ystring
        | none => .error .ystring) := by
  obtain ⟨gs, h1, h2, -, h3⟩ := C27_any_string_partial s hl
  refine ⟨gs, h1, h2, fun k hk => ?_⟩
  have hb : ∀ o, boundary gs k = some o → o ≤ s.length := by
    intro o ho
    unfold boundary at ho
    rw [← h1]
    split at ho
    · split at ho
      · injection ho with ho; rw [← ho]; exact flatten_take_le _ _
      · cases ho
    · split at ho
      · injection ho with ho; rw [← ho]; exact flatten_take_le _ _
      · cases ho
  have hN : s.length < npos := by unfold npos; omega
  unfold insertCodepoints insertCodepoint
  rw [h3 k hk]
  simp only [bind, Except.bind]
  cases ho : boundary gs k with
  | none =>
    simp only [Option.getD_none]
    refine ⟨fun sub hsub => ?_, fun c => ?_⟩
    · unfold insertAtOffset; rw [if_neg hsub, if_pos rfl]
    · unfold insertCodepointAtOffset; rw [if_pos rfl]
  | some o =>
    have hlo := hb o ho
    simp only [Option.getD_some]
    refine ⟨fun sub hsub => ?_, fun c => ?_⟩
    · unfold insertAtOffset
      rw [if_neg hsub, if_neg (by omega), substr_safe (Nat.zero_le _), substr_from hlo hN]
      simp [bind, Except.bind]
    · unfold insertCodepointAtOffset
      rw [if_neg (by omega), substr_safe (Nat.zero_le _), substr_from hlo hN]
      simp only [bind, Except.bind, List.drop_zero]
      by_cases hcp : c.toNat ≤ 0x10FFFF
      · rw [(C15_append _ c).1 hcp, if_pos hcp]
      · rw [(C15_append _ c).2 (by omega), if_neg hcp]

example : insertCodepoints [0x61, 0xFF, 0x62] 2 [0x2D] = .ok [0x61, 0xFF, 0x2D, 0x62] := by decide +kernel

/-- C104: of the documented exceptions, that of `count_chars` is thrown for every malformed string (of a length that fits
`size_t`); all the others are not always thrown: the string "ab\xFF" is not valid, yet each of the functions returns a value. -/
theorem C104_false : (∀ s : Str, ¬ Valid s → s.length < SIZE_MOD → countChars s = .error .ystring) ∧
    ¬ Valid [0x61, 0x62, 0xFF] ∧
    contains [0x61, 0x62, 0xFF] 0x61 = .ok true ∧
    countCodepoints [0x61, 0x62, 0xFF] = .ok 3 ∧
    getCharSubstring [0x61, 0x62, 0xFF] 0 1 = .ok [0x61] ∧
    insertChars [0x61, 0x62, 0xFF] 1 [0x2D] = .ok [0x61, 0x2D, 0x62, 0xFF] ∧
    insertChar [0x61, 0x62, 0xFF] 1 0x2D = .ok [0x61, 0x2D, 0x62, 0xFF] ∧
    insertCodepoint [0x61, 0x62, 0xFF] 3 0x2D = .ok [0x61, 0x62, 0xFF, 0x2D] ∧
    insertCodepoints [0x61, 0x62, 0xFF] 3 [0x2D] = .ok [0x61, 0x62, 0xFF, 0x2D] ∧
    startsWith [0x61, 0x62, 0xFF] [0x61, 0x62, 0xFF] = .ok true ∧
    CI.compare [0x61, 0x62, 0xFF] [0x63] = .ok (-2) ∧ CI.equal [0x61, 0x62, 0xFF] [0x63] = .ok false ∧
    CI.less [0x61, 0x62, 0xFF] [0x63] = .ok true ∧ CI.startsWith [0x61, 0x62, 0xFF] [0x61] = .ok true := by
  refine ⟨fun s h hl => C25_count_chars_malformed s h hl, ?_, ?_⟩
  · rw [← (C08_is_valid_partial _).2.1]
    decide +kernel
  · decide +kernel

end Ystring
