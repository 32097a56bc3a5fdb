import Verif.Model.Algorithms
import Verif.Proofs.Boundary
import Verif.Props.Basics
/-
Property theorems C17 (find_first), C18 (find_last), C19 (code point boundaries).
-/
namespace Ystring
open Spec

theorem occursAt_iff {s cmp : Str} {i : Nat} : OccursAt s cmp i ↔ i ≤ s.length ∧ cmp <+: s.drop i := by
  constructor
  · rintro ⟨a, b, rfl, rfl⟩
    refine ⟨by simp, b, ?_⟩
    simp
  · rintro ⟨h1, b, h2⟩
    exact ⟨s.take i, b, by rw [List.append_assoc, h2, List.take_append_drop], by simp; omega⟩

theorem occursAt_le {s cmp : Str} {i : Nat} (h : OccursAt s cmp i) : i + cmp.length ≤ s.length := by
  obtain ⟨a, b, rfl, rfl⟩ := h; simp

theorem stdSearch_spec (cmp : Str) (hc : cmp ≠ []) (s : Str) :
    (stdSearch cmp s = s.length ∧ ∀ j, ¬ OccursAt s cmp j) ∨
    (stdSearch cmp s < s.length ∧ OccursAt s cmp (stdSearch cmp s) ∧
      ∀ j, OccursAt s cmp j → stdSearch cmp s ≤ j) := by
  induction s with
  | nil =>
    left
    refine ⟨rfl, fun j h => ?_⟩
    have := occursAt_le h
    have := List.length_pos_iff.mpr hc
    rw [List.length_nil] at *; omega
  | cons b t ih =>
    have shift : ∀ j, OccursAt (b :: t) cmp (j + 1) ↔ OccursAt t cmp j := by
      intro j; rw [occursAt_iff, occursAt_iff]; simp
    have zero : OccursAt (b :: t) cmp 0 ↔ cmp.isPrefixOf (b :: t) = true := by
      rw [occursAt_iff]; simp
    rw [stdSearch]
    split
    · rename_i hp
      right
      exact ⟨by simp, zero.mpr hp, fun j _ => by omega⟩
    · rename_i hp
      rcases ih with ⟨h1, h2⟩ | ⟨h1, h2, h3⟩
      · left
        refine ⟨by simp [h1], fun j h => ?_⟩
        cases j with
        | zero => exact hp (zero.mp h)
        | succ j => exact h2 j ((shift j).mp h)
      · right
        refine ⟨by simp; omega, (shift _).mpr h2, fun j h => ?_⟩
        cases j with
        | zero => exact absurd (zero.mp h) hp
        | succ j => have := h3 j ((shift j).mp h); omega

theorem occursAt_drop {s cmp : Str} {o : Nat} (ho : o ≤ s.length) (j : Nat) :
    OccursAt (s.drop o) cmp j ↔ OccursAt s cmp (o + j) := by
  rw [occursAt_iff, occursAt_iff, List.drop_drop, List.length_drop]
  constructor
  · rintro ⟨h1, h2⟩; exact ⟨by omega, h2⟩
  · rintro ⟨h1, h2⟩; exact ⟨by omega, h2⟩

/-- C17: for every offset within the string `find_first` returns either the range of the leftmost occurrence of
a non-empty `cmp` at or after `offset`, or, exactly if there is none, the empty range at the end. -/
theorem C17_find_first (s cmp : Str) (hc : cmp ≠ []) (offset : Nat) (ho : offset ≤ s.length) :
    (∃ i, findFirst s cmp offset = .ok ⟨i, cmp.length⟩ ∧ offset ≤ i ∧ OccursAt s cmp i ∧
      ∀ j, offset ≤ j → OccursAt s cmp j → i ≤ j) ∨
    (findFirst s cmp offset = .ok ⟨s.length, 0⟩ ∧ ∀ j, offset ≤ j → ¬ OccursAt s cmp j) := by
  unfold findFirst iterAt
  rw [if_neg (by omega)]
  simp only [bind, Except.bind]
  rcases stdSearch_spec cmp hc (s.drop offset) with ⟨h1, h2⟩ | ⟨h1, h2, h3⟩
  · right
    rw [if_pos h1]
    refine ⟨rfl, fun j hj h => h2 (j - offset) ?_⟩
    rw [occursAt_drop ho, show offset + (j - offset) = j by omega]; exact h
  · left
    rw [if_neg (by omega)]
    refine ⟨_, rfl, by omega, (occursAt_drop ho _).mp h2, fun j hj h => ?_⟩
    have := h3 (j - offset) (by rw [occursAt_drop ho, show offset + (j - offset) = j by omega]; exact h)
    omega

/-- C17: an empty `cmp` gives the empty range at `offset`; an offset past the end is undefined behaviour. -/
theorem C17_find_first_corner (s : Str) (offset : Nat) :
    (offset ≤ s.length → findFirst s [] offset = .ok ⟨offset, 0⟩) ∧
    (∀ cmp, s.length < offset → findFirst s cmp offset = .error .ub) := by
  constructor
  · intro ho
    unfold findFirst iterAt
    rw [if_neg (by omega)]
    simp only [bind, Except.bind]
    cases h : s.drop offset with
    | nil =>
      have : offset = s.length := by have := congrArg List.length h; simp at this; omega
      simp [stdSearch, this]
    | cons b t => simp [stdSearch, List.isPrefixOf]
  · intro cmp ho
    unfold findFirst iterAt
    rw [if_pos ho]; rfl

example : findFirst [1, 2, 1, 2, 3] [1, 2] 1 = .ok ⟨2, 2⟩ ∧ findFirst [1, 2, 1, 2, 3] [2, 2] 0 = .ok ⟨5, 0⟩ := by
  decide +kernel

/-! ### C18 -/

theorem searchLastLoop_spec (s cmp : Str) (i : Nat) (hi : i ≤ s.length) :
    (searchLastLoop s cmp i = (0, 0) ∧ ∀ j, j ≤ i → ¬ OccursAt s cmp j) ∨
    (∃ k, searchLastLoop s cmp i = (k, k + cmp.length) ∧ OccursAt s cmp k ∧
      ∀ j, j ≤ i → OccursAt s cmp j → j ≤ k) := by
  induction i with
  | zero =>
    have zero : OccursAt s cmp 0 ↔ cmp.isPrefixOf s = true := by
      rw [occursAt_iff]; simp
    rw [searchLastLoop]
    split
    · rename_i hp
      right
      exact ⟨0, by simp, zero.mpr hp, fun j hj _ => hj⟩
    · rename_i hp
      left
      exact ⟨rfl, fun j hj h => hp (zero.mp (by rwa [show j = 0 by omega] at h))⟩
  | succ i ih =>
    have here : OccursAt s cmp (i + 1) ↔ cmp.isPrefixOf (s.drop (i + 1)) = true := by
      rw [occursAt_iff]; simp; omega
    rw [searchLastLoop]
    split
    · rename_i hp
      right
      exact ⟨i + 1, rfl, here.mpr hp, fun j hj _ => hj⟩
    · rename_i hp
      have split : ∀ j, j ≤ i + 1 → OccursAt s cmp j → j ≤ i := by
        intro j hj h
        rcases Nat.lt_or_ge i j with h1 | h1
        · rw [show j = i + 1 by omega] at h; exact absurd (here.mp h) hp
        · exact h1
      rcases ih (by omega) with ⟨h1, h2⟩ | ⟨k, h1, h2, h3⟩
      · left; exact ⟨h1, fun j hj h => h2 j (split j hj h) h⟩
      · right; exact ⟨k, h1, h2, fun j hj h => h3 j (split j hj h) h⟩

theorem searchLast_spec (s cmp : Str) (hc : cmp ≠ []) :
    (searchLast s cmp = (0, 0) ∧ ∀ j, ¬ OccursAt s cmp j) ∨
    (∃ k, searchLast s cmp = (k, k + cmp.length) ∧ OccursAt s cmp k ∧
      ∀ j, OccursAt s cmp j → j ≤ k) := by
  have hl := List.length_pos_iff.mpr hc
  unfold searchLast
  simp only
  split
  · left
    refine ⟨rfl, fun j h => ?_⟩
    have := occursAt_le h
    omega
  · rcases searchLastLoop_spec s cmp (s.length - cmp.length) (by omega) with ⟨h1, h2⟩ | ⟨k, h1, h2, h3⟩
    · left; exact ⟨h1, fun j h => h2 j (by have := occursAt_le h; omega) h⟩
    · right; exact ⟨k, h1, h2, fun j h => h3 j (by have := occursAt_le h; omega) h⟩

theorem occursAt_take {s cmp : Str} {o : Nat} (j : Nat) (ho : o ≤ s.length) :
    OccursAt (s.take o) cmp j ↔ OccursAt s cmp j ∧ j + cmp.length ≤ o := by
  constructor
  · intro h
    refine ⟨?_, by have := occursAt_le h; simp at this; omega⟩
    obtain ⟨a, b, h1, h2⟩ := h
    exact ⟨a, b ++ s.drop o, by rw [← List.append_assoc, ← h1, List.take_append_drop], h2⟩
  · rintro ⟨⟨a, b, rfl, rfl⟩, h⟩
    refine ⟨a, b.take (o - (a ++ cmp).length), ?_, rfl⟩
    rw [List.take_append, List.take_of_length_le (by simp; omega)]

/-- C18: for every offset (an offset past the end stands for the end) `find_last` returns either the range of the
rightmost occurrence of a non-empty `cmp` that ends at or before the offset, or, exactly if there is none, the
empty range at 0. -/
theorem C18_find_last (s cmp : Str) (hc : cmp ≠ []) (offset : Nat) :
    (∃ i, findLast s cmp offset = ⟨i, cmp.length⟩ ∧ i + cmp.length ≤ offset ∧ OccursAt s cmp i ∧
      ∀ j, j + cmp.length ≤ offset → OccursAt s cmp j → j ≤ i) ∨
    (findLast s cmp offset = ⟨0, 0⟩ ∧ ∀ j, j + cmp.length ≤ offset → ¬ OccursAt s cmp j) := by
  unfold findLast
  simp only
  have ho : min offset s.length ≤ s.length := by omega
  have tk : ∀ j, OccursAt (s.take (min offset s.length)) cmp j ↔ OccursAt s cmp j ∧ j + cmp.length ≤ offset := by
    intro j
    rw [occursAt_take j ho]
    constructor
    · rintro ⟨h1, h2⟩; exact ⟨h1, by omega⟩
    · rintro ⟨h1, h2⟩; exact ⟨h1, by have := occursAt_le h1; omega⟩
  rcases searchLast_spec (s.take (min offset s.length)) cmp hc with ⟨h1, h2⟩ | ⟨k, h1, h2, h3⟩
  · right
    rw [h1]
    exact ⟨rfl, fun j hj h => h2 j ((tk j).mpr ⟨h, hj⟩)⟩
  · left
    rw [h1]
    refine ⟨k, by simp, ((tk k).mp h2).2, ((tk k).mp h2).1, fun j hj h => h3 j ((tk j).mpr ⟨h, hj⟩)⟩

/-- C18: an empty `cmp` gives the empty range at 0. -/
theorem C18_find_last_empty (s : Str) (offset : Nat) : findLast s [] offset = ⟨0, 0⟩ := by
  simp [findLast, searchLast]

example : findLast [1, 2, 1, 2, 3] [1, 2] 3 = ⟨0, 2⟩ ∧ findLast [1, 2, 1, 2, 3] [1, 2] = ⟨2, 2⟩ := by
  decide +kernel

/-! ### C19 -/

/-- An occurrence of a valid non-empty string in a valid string is aligned. -/
theorem occurs_aligned {s cmp : Str} (hs : Valid s) (hc : Valid cmp) (h0 : cmp ≠ []) {i : Nat}
    (h : OccursAt s cmp i) : Aligned s i cmp.length := by
  obtain ⟨a, b, rfl, rfl⟩ := h
  have := valid_cut hs hc h0
  exact ⟨a, cmp, b, rfl, rfl, rfl, this.1, hc, this.2⟩

/-- C19: in valid strings the matches found by `find_first` and `find_last` begin and end on code point
boundaries, for every starting offset. -/
theorem C19_matches_aligned (s cmp : Str) (hs : Valid s) (hc : Valid cmp) (h0 : cmp ≠ []) (offset : Nat) :
    (∀ r, findFirst s cmp offset = .ok r → r.length ≠ 0 → Aligned s r.offset r.length) ∧
    ((findLast s cmp offset).length ≠ 0 →
      Aligned s (findLast s cmp offset).offset (findLast s cmp offset).length) := by
  constructor
  · intro r hr hl
    rcases Nat.lt_or_ge s.length offset with ho | ho
    · rw [(C17_find_first_corner s offset).2 cmp ho] at hr; simp at hr
    · rcases C17_find_first s cmp h0 offset ho with ⟨i, h1, _, h2, _⟩ | ⟨h1, _⟩
      · rw [h1] at hr; injection hr with hr; subst hr
        exact occurs_aligned hs hc h0 h2
      · rw [h1] at hr; injection hr with hr; subst hr; simp at hl
  · intro hl
    rcases C18_find_last s cmp h0 offset with ⟨i, h1, _, h2, _⟩ | ⟨h1, _⟩
    · rw [h1]; exact occurs_aligned hs hc h0 h2
    · rw [h1] at hl; simp at hl

/-- non-vacuity: the second byte of "ææ" does not match a part of a code point -/
example : Valid [0xC3, 0xA6, 0xC3, 0xA6] ∧ Valid [0xC3, 0xA6] ∧
    findFirst [0xC3, 0xA6, 0xC3, 0xA6] [0xC3, 0xA6] 1 = .ok ⟨2, 2⟩ := by
  refine ⟨⟨[0xE6, 0xE6], ((C09_to_utf32 _).1 _).mp (by decide +kernel)⟩, ⟨[0xE6], ((C09_to_utf32 _).1 _).mp (by decide +kernel)⟩, by decide +kernel⟩

end Ystring
