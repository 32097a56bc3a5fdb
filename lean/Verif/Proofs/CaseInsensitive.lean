import Verif.Spec.CaseInsensitive
import Verif.Model.CaseInsensitive
import Verif.Props.CaseChar
import Verif.Props.Slice
/-
Lemmas about the case-insensitive functions, in terms of lists of units.
-/
namespace Ystring
open Spec

/-- case folding of a unit -/
def fu (us : List Unit8) : List Nat := fold (valsOf us)

@[simp] theorem fu_nil : fu [] = [] := rfl
@[simp] theorem fu_cons (x us) : fu (x :: us) = simpleUpper x.2.toNat :: fu us := rfl
@[simp] theorem fu_append (us vs) : fu (us ++ vs) = fu us ++ fu vs := by simp [fu, fold, valsOf]
@[simp] theorem fu_length (us) : (fu us).length = us.length := by simp [fu, fold, valsOf]
theorem fu_drop (us k) : fu (us.drop k) = (fu us).drop k := by simp [fu, fold, valsOf, List.map_drop]
theorem fu_take (us k) : fu (us.take k) = (fu us).take k := by simp [fu, fold, valsOf, List.map_take]
theorem fu_reverse (us) : fu us.reverse = (fu us).reverse := by simp [fu, fold, valsOf]

theorem ciEqual_iff (a b : Char32) : caseInsensitiveEqual a b = true ↔ simpleUpper a.toNat = simpleUpper b.toNat := by
  unfold caseInsensitiveEqual
  rw [beq_iff_eq, ← C52_to_upper, ← C52_to_upper]
  constructor
  · intro h; rw [h]
  · intro h; exact UInt32.toNat_inj.mp h

theorem ciEqual_false (a b : Char32) : caseInsensitiveEqual a b = false ↔ simpleUpper a.toNat ≠ simpleUpper b.toNat := by
  rw [Ne, ← ciEqual_iff, Bool.not_eq_true]

theorem simpleUpper_lt (c : Nat) (h : c < 0x200000) : simpleUpper c < 0x200000 := by
  unfold simpleUpper
  have hall : ∀ p ∈ UD_UPPER, goodPair p = true := by
    intro p hp
    have := List.all_eq_true.mp upper_good p hp
    simp at this; exact this.1
  by_cases hc : c ≤ 0x10FFFF
  · have := (simpleUpper_good c).1 hc
    unfold simpleUpper at this; omega
  · have : lookup UD_UPPER c = c ∨ lookup UD_UPPER c ≤ 0x10FFFF := by
      unfold lookup
      cases hf : UD_UPPER.find? (fun p => p.1 == c) with
      | none => exact .inl rfl
      | some p =>
        have hp := hall p (List.mem_of_find?_eq_some hf)
        have h1 := List.find?_some hf
        simp [goodPair] at hp h1
        right; simp only; omega
    omega

/-- The comparison of two decoded code points is the difference of their folded values. -/
theorem ciCompare_eq (a b : Char32) (ha : a.toNat < 0x200000) (hb : b.toNat < 0x200000) :
    caseInsensitiveCompare a b = (simpleUpper a.toNat : Int) - simpleUpper b.toNat := by
  unfold caseInsensitiveCompare
  have h1 := simpleUpper_lt _ ha
  have h2 := simpleUpper_lt _ hb
  rw [← C52_to_upper] at h1 h2 ⊢
  rw [← C52_to_upper]
  generalize toUpperChar a = x at *
  generalize toUpperChar b = y at *
  show ((x - y).toBitVec.toInt) = _
  rw [UInt32.toBitVec_sub, BitVec.toInt_sub]
  have e1 : x.toBitVec.toInt = x.toNat := by
    rw [BitVec.toInt_eq_toNat_of_lt]; · rfl
    · show 2 * x.toNat < _; omega
  have e2 : y.toBitVec.toInt = y.toNat := by
    rw [BitVec.toInt_eq_toNat_of_lt]; · rfl
    · show 2 * y.toNat < _; omega
  rw [e1, e2, Int.bmod_def]
  simp only [Nat.reducePow]
  omega

theorem bytesOf_eq_nil {us : List Unit8} (h : Units us) : bytesOf us = [] ↔ us = [] := by
  constructor
  · intro e
    cases us with
    | nil => rfl
    | cons x us => simp at h e; exact absurd e.1 h.1.ne_nil
  · rintro rfl; rfl

theorem units_length {us : List Unit8} (h : Units us) : us.length ≤ (bytesOf us).length := by
  induction us with
  | nil => simp
  | cons x us ih => simp at h ⊢; have := ih h.2; have := h.1.length_pos; omega

namespace CI

theorem nextMismatch_spec {us : List Unit8} : ∀ {vs : List Unit8} {fuel : Nat}, Units us → Units vs →
    us.length < fuel →
    (fu vs <+: fu us ∧ nextMismatch fuel (bytesOf us) (bytesOf vs) = .ok (bytesOf (us.drop vs.length), [])) ∨
    (¬ fu vs <+: fu us ∧ ∃ a b, b ≠ [] ∧ nextMismatch fuel (bytesOf us) (bytesOf vs) = .ok (a, b)) := by
  induction us with
  | nil =>
    intro vs fuel _ hv hf
    obtain ⟨fuel, rfl⟩ : ∃ f, fuel = f + 1 := ⟨fuel - 1, by simp at hf; omega⟩
    cases vs with
    | nil => left; simp [nextMismatch, bind, Except.bind]
    | cons v vs =>
      right
      simp only [Units_cons] at hv
      refine ⟨by simp, [], bytesOf (v :: vs), by simp [hv.1.ne_nil], by simp [nextMismatch, bind, Except.bind]⟩
  | cons x us ih =>
    intro vs fuel hu hv hf
    obtain ⟨fuel, rfl⟩ : ∃ f, fuel = f + 1 := ⟨fuel - 1, by simp at hf; omega⟩
    simp only [Units_cons] at hu
    rw [nextMismatch, bytesOf_cons, safeDecodeNext_seq hu.1]
    cases vs with
    | nil => left; simp [bind, Except.bind]
    | cons v vs =>
      simp only [Units_cons] at hv
      rw [bytesOf_cons, safeDecodeNext_seq hv.1]
      simp only [bind, Except.bind]
      by_cases he : caseInsensitiveEqual x.2 v.2 = true
      · have e := (ciEqual_iff _ _).mp he
        simp only [List.length_cons] at hf
        rw [he]
        simp only [Bool.not_true, Bool.false_eq_true, if_false, fu_cons, ← e, List.cons_prefix_cons, true_and,
          List.length_cons, List.drop_succ_cons]
        exact ih hu.2 hv.2 (by omega)
      · right
        have e : ¬ _ := fun e => he ((ciEqual_iff x.2 v.2).mpr e)
        refine ⟨?_, x.1 ++ bytesOf us, v.1 ++ bytesOf vs, by simp [hv.1.ne_nil], ?_⟩
        · simp only [fu_cons, List.cons_prefix_cons]; rintro ⟨h, _⟩; exact e h.symm
        · simp [he]

/-- the bytes of a reversed list of units, as a backward iterator -/
def rb (us : List Unit8) : Str := (bytesOf us.reverse).reverse

@[simp] theorem rb_nil : rb [] = [] := rfl
@[simp] theorem rb_cons (x us) : rb (x :: us) = x.1.reverse ++ rb us := by simp [rb]
theorem rb_reverse (us) : rb us.reverse = (bytesOf us).reverse := by simp [rb]

theorem prevMismatch_spec {us : List Unit8} : ∀ {vs : List Unit8} {fuel : Nat}, Units us → Units vs →
    us.length < fuel →
    (fu vs <+: fu us ∧ prevMismatch fuel (rb us) (rb vs) = .ok (rb (us.drop vs.length), [])) ∨
    (¬ fu vs <+: fu us ∧ ∃ a b, b ≠ [] ∧ prevMismatch fuel (rb us) (rb vs) = .ok (a, b)) := by
  induction us with
  | nil =>
    intro vs fuel _ hv hf
    obtain ⟨fuel, rfl⟩ : ∃ f, fuel = f + 1 := ⟨fuel - 1, by simp at hf; omega⟩
    cases vs with
    | nil => left; simp [prevMismatch, bind, Except.bind]
    | cons v vs =>
      right
      simp only [Units_cons] at hv
      refine ⟨by simp, [], rb (v :: vs), by simp [hv.1.ne_nil], by simp [prevMismatch, bind, Except.bind]⟩
  | cons x us ih =>
    intro vs fuel hu hv hf
    obtain ⟨fuel, rfl⟩ : ∃ f, fuel = f + 1 := ⟨fuel - 1, by simp at hf; omega⟩
    simp only [Units_cons] at hu
    rw [prevMismatch, rb_cons, safeDecodePrev_seq hu.1]
    cases vs with
    | nil => left; simp [bind, Except.bind]
    | cons v vs =>
      simp only [Units_cons] at hv
      rw [rb_cons, safeDecodePrev_seq hv.1]
      simp only [bind, Except.bind]
      by_cases he : caseInsensitiveEqual x.2 v.2 = true
      · have e := (ciEqual_iff _ _).mp he
        simp only [List.length_cons] at hf
        rw [he]
        simp only [Bool.not_true, Bool.false_eq_true, if_false, fu_cons, ← e, List.cons_prefix_cons, true_and,
          List.length_cons, List.drop_succ_cons]
        exact ih hu.2 hv.2 (by omega)
      · right
        have e : ¬ _ := fun e => he ((ciEqual_iff x.2 v.2).mpr e)
        refine ⟨?_, x.1.reverse ++ rb us, v.1.reverse ++ rb vs, by simp [hv.1.ne_nil], ?_⟩
        · simp only [fu_cons, List.cons_prefix_cons]; rintro ⟨h, _⟩; exact e h.symm
        · simp [he]

theorem findFirstLoop_spec (v : Unit8) (vs : List Unit8) (hv : Units (v :: vs)) (us : List Unit8) :
    ∀ (pre : Str) (fuel : Nat), Units us → us.length < fuel →
    ((∀ k, ¬ fu (v :: vs) <+: fu (us.drop k)) ∧
      findFirstLoop (pre ++ bytesOf us) v.2 (bytesOf vs) fuel (bytesOf us) (bytesOf us) = .ok ⟨npos, 0⟩) ∨
    (∃ ws m rs, us = ws ++ m ++ rs ∧ fu m = fu (v :: vs) ∧
      (∀ k, k < ws.length → ¬ fu (v :: vs) <+: fu (us.drop k)) ∧
      findFirstLoop (pre ++ bytesOf us) v.2 (bytesOf vs) fuel (bytesOf us) (bytesOf us) =
        .ok ⟨pre.length + (bytesOf ws).length, (bytesOf m).length⟩) := by
  simp only [Units_cons] at hv
  induction us with
  | nil =>
    intro pre fuel _ hf
    obtain ⟨fuel, rfl⟩ : ∃ f, fuel = f + 1 := ⟨fuel - 1, by simp at hf; omega⟩
    left
    refine ⟨by simp, ?_⟩
    rw [findFirstLoop]
    simp [bind, Except.bind, Subrange.default]
  | cons x us ih =>
    intro pre fuel hu hf
    obtain ⟨fuel, rfl⟩ : ∃ f, fuel = f + 1 := ⟨fuel - 1, by simp at hf; omega⟩
    simp only [Units_cons] at hu
    simp only [List.length_cons] at hf
    have step : ¬ fu (v :: vs) <+: fu (x :: us) →
        findFirstLoop (pre ++ bytesOf (x :: us)) v.2 (bytesOf vs) (fuel + 1) (bytesOf (x :: us)) (bytesOf (x :: us)) =
          findFirstLoop ((pre ++ x.1) ++ bytesOf us) v.2 (bytesOf vs) fuel (bytesOf us) (bytesOf us) := by
      intro hn
      rw [findFirstLoop]
      simp only [bytesOf_cons, safeDecodeNext_seq hu.1, List.append_assoc]
      simp only [bind, Except.bind]
      by_cases he : caseInsensitiveEqual x.2 v.2 = true
      · rw [if_pos he]
        rcases nextMismatch_spec (us := us) (vs := vs) (fuel := (pre ++ (x.1 ++ bytesOf us)).length + 1) hu.2 hv.2
          (by have := units_length hu.2; simp; omega) with ⟨h1, h2⟩ | ⟨h1, a, b, h2, h3⟩
        · exfalso
          apply hn
          simp only [fu_cons, List.cons_prefix_cons]
          exact ⟨((ciEqual_iff _ _).mp he).symm, h1⟩
        · rw [h3]; simp [h2]
      · rw [if_neg he]
    by_cases hp : fu (v :: vs) <+: fu (x :: us)
    · right
      have hp' := hp
      simp only [fu_cons, List.cons_prefix_cons] at hp'
      have hlen := hp'.2.length_le
      simp only [fu_length] at hlen
      refine ⟨[], x :: us.take vs.length, us.drop vs.length, by simp, ?_, by simp, ?_⟩
      · rw [fu_cons, fu_cons, hp'.1, fu_take, ← fu_length vs, List.prefix_iff_eq_take.mp hp'.2]
        simp [Nat.min_eq_left hlen]
      · rw [findFirstLoop]
        simp only [bytesOf_cons, safeDecodeNext_seq hu.1]
        simp only [bind, Except.bind]
        rw [if_pos ((ciEqual_iff _ _).mpr hp'.1.symm)]
        rcases nextMismatch_spec (us := us) (vs := vs) (fuel := (pre ++ (x.1 ++ bytesOf us)).length + 1) hu.2 hv.2
          (by have := units_length hu.2; simp; omega) with ⟨h1, h2⟩ | ⟨h1, a, b, h2, h3⟩
        · rw [h2]
          have e : (bytesOf us).length = (bytesOf (us.take vs.length)).length + (bytesOf (us.drop vs.length)).length := by
            rw [← List.length_append, ← bytesOf_append, List.take_append_drop]
          simp only [posOf, if_true, List.length_append, bytesOf_nil, List.length_nil]
          congr 2 <;> omega
        · exact absurd hp'.2 h1
    · rw [step hp]
      rcases ih (pre ++ x.1) fuel hu.2 (by omega) with ⟨h1, h2⟩ | ⟨ws, m, rs, rfl, h1, h2, h3⟩
      · left
        refine ⟨?_, h2⟩
        intro k
        cases k with
        | zero => exact hp
        | succ k => simpa using h1 k
      · right
        refine ⟨x :: ws, m, rs, rfl, h1, ?_, ?_⟩
        · intro k hk
          cases k with
          | zero => exact hp
          | succ k => simpa using h2 k (by simpa using hk)
        · rw [h3]; simp [Nat.add_assoc]

theorem findLastLoop_spec (str : Str) (v : Unit8) (vs : List Unit8) (hv : Units (v :: vs)) (us : List Unit8) :
    ∀ (fuel : Nat), Units us → us.length < fuel → us.length ≤ str.length →
    ((∀ k, ¬ fu (v :: vs) <+: fu (us.drop k)) ∧
      findLastLoop str v.2 (rb vs) fuel (rb us) (rb us) = .ok ⟨npos, 0⟩) ∨
    (∃ ws m rs, us = ws ++ m ++ rs ∧ fu m = fu (v :: vs) ∧
      (∀ k, k < ws.length → ¬ fu (v :: vs) <+: fu (us.drop k)) ∧
      findLastLoop str v.2 (rb vs) fuel (rb us) (rb us) = .ok ⟨(rb rs).length, (rb m).length⟩) := by
  simp only [Units_cons] at hv
  induction us with
  | nil =>
    intro fuel _ hf _
    obtain ⟨fuel, rfl⟩ : ∃ f, fuel = f + 1 := ⟨fuel - 1, by simp at hf; omega⟩
    left
    refine ⟨by simp, ?_⟩
    rw [findLastLoop]
    simp [bind, Except.bind, Subrange.default]
  | cons x us ih =>
    intro fuel hu hf hs
    obtain ⟨fuel, rfl⟩ : ∃ f, fuel = f + 1 := ⟨fuel - 1, by simp at hf; omega⟩
    simp only [Units_cons] at hu
    simp only [List.length_cons] at hf hs
    have step : ¬ fu (v :: vs) <+: fu (x :: us) →
        findLastLoop str v.2 (rb vs) (fuel + 1) (rb (x :: us)) (rb (x :: us)) =
          findLastLoop str v.2 (rb vs) fuel (rb us) (rb us) := by
      intro hn
      rw [findLastLoop]
      simp only [rb_cons, safeDecodePrev_seq hu.1]
      simp only [bind, Except.bind]
      by_cases he : caseInsensitiveEqual x.2 v.2 = true
      · rw [if_pos he]
        rcases prevMismatch_spec (us := us) (vs := vs) (fuel := str.length + 1) hu.2 hv.2
          (by omega) with ⟨h1, h2⟩ | ⟨h1, a, b, h2, h3⟩
        · exfalso
          apply hn
          simp only [fu_cons, List.cons_prefix_cons]
          exact ⟨((ciEqual_iff _ _).mp he).symm, h1⟩
        · rw [h3]; simp [h2]
      · rw [if_neg he]
    by_cases hp : fu (v :: vs) <+: fu (x :: us)
    · right
      have hp' := hp
      simp only [fu_cons, List.cons_prefix_cons] at hp'
      have hlen := hp'.2.length_le
      simp only [fu_length] at hlen
      refine ⟨[], x :: us.take vs.length, us.drop vs.length, by simp, ?_, by simp, ?_⟩
      · rw [fu_cons, fu_cons, hp'.1, fu_take, ← fu_length vs, List.prefix_iff_eq_take.mp hp'.2]
        simp [Nat.min_eq_left hlen]
      · rw [findLastLoop]
        simp only [rb_cons, safeDecodePrev_seq hu.1]
        simp only [bind, Except.bind]
        rw [if_pos ((ciEqual_iff _ _).mpr hp'.1.symm)]
        rcases prevMismatch_spec (us := us) (vs := vs) (fuel := str.length + 1) hu.2 hv.2
          (by omega) with ⟨h1, h2⟩ | ⟨h1, a, b, h2, h3⟩
        · rw [h2]
          have e : (rb us).length = (rb (us.take vs.length)).length + (rb (us.drop vs.length)).length := by
            have : rb us = rb (us.take vs.length) ++ rb (us.drop vs.length) := by
              rw [rb, rb, rb, ← List.reverse_append, ← bytesOf_append, ← List.reverse_append, List.take_append_drop]
            rw [this, List.length_append]
          simp only [if_true, List.length_append, List.length_reverse]
          congr 2; omega
        · exact absurd hp'.2 h1
    · rw [step hp]
      rcases ih fuel hu.2 (by omega) (by omega) with ⟨h1, h2⟩ | ⟨ws, m, rs, rfl, h1, h2, h3⟩
      · left
        refine ⟨?_, h2⟩
        intro k
        cases k with
        | zero => exact hp
        | succ k => simpa using h1 k
      · right
        refine ⟨x :: ws, m, rs, rfl, h1, ?_, h3⟩
        intro k hk
        cases k with
        | zero => exact hp
        | succ k => simpa using h2 k (by simpa using hk)

end CI
end Ystring
