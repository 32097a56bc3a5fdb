import Verif.Proofs.Library
/-
C109: the results do not depend on how the algorithms of the standard library are implemented; the preconditions of
`std::lower_bound` are met in every call.
-/
namespace Ystring

open Spec

/-- C109. The five tables are searched by `lower_bound` for every code point only with keys by which they are partitioned. -/
theorem C109_preconditions (c mark : Char32) :
    Partitioned COMPLETE_CHAR_CLASSES (fun e => e < (c <<< 11).toNat) ∧
    (∀ t ∈ [COMPACT_LOWER_CASE, COMPACT_UPPER_CASE, COMPACT_TITLE_CASE],
      Partitioned t (fun row => row.1 < (c &&& SEGMENT_MASK).toNat)) ∧
    (∀ t ∈ [LOWER_CASE, UPPER_CASE, TITLE_CASE], Partitioned t (fun p => p.1 < c.toNat)) ∧
    Partitioned TO_DECOMPOSED (fun e => e < c.toNat * 2 ^ 40 % 2 ^ 64) ∧
    Partitioned TO_COMPOSED (fun e => e < (c.toNat * 2 ^ 20 % 2 ^ 64 ||| mark.toNat) * 2 ^ 20 % 2 ^ 64) := by
  refine ⟨⟨_, lowerBound_splits _ 0 id _ (pairwise_of_isSortedBy table_sorted)⟩, ?_, ?_, ?_, ?_⟩
  · intro t ht
    simp only [List.mem_cons, List.not_mem_nil, or_false] at ht
    rcases ht with rfl | rfl | rfl
    · exact ⟨_, lowerBound_splits _ (0, 0, 0, 0) (·.1) _ (pairwise_of_isSortedBy lower_wf.2.1)⟩
    · exact ⟨_, lowerBound_splits _ (0, 0, 0, 0) (·.1) _ (pairwise_of_isSortedBy upper_wf.2.1)⟩
    · exact ⟨_, lowerBound_splits _ (0, 0, 0, 0) (·.1) _ (pairwise_of_isSortedBy title_wf.2.1)⟩
  · intro t ht
    simp only [List.mem_cons, List.not_mem_nil, or_false] at ht
    rcases ht with rfl | rfl | rfl
    · exact ⟨_, lowerBound_splits _ (0, 0) (·.1) _ (pairwise_of_isSortedBy lower_wf.2.2.1)⟩
    · exact ⟨_, lowerBound_splits _ (0, 0) (·.1) _ (pairwise_of_isSortedBy upper_wf.2.2.1)⟩
    · exact ⟨_, lowerBound_splits _ (0, 0) (·.1) _ (pairwise_of_isSortedBy title_wf.2.2.1)⟩
  · exact ⟨_, lowerBound_splits _ 0 id _ ((pairwise_of_incr decomposed_incr).imp Nat.le_of_lt)⟩
  · exact ⟨_, lowerBound_splits _ 0 id _ (composed_sorted.imp Nat.le_of_lt)⟩

/-- C109. With every conforming implementation of the algorithms the functions that use them return the same: whatever
`lower_bound` does with a range that is not partitioned makes no difference. -/
theorem C109_same (L : Lib.Algorithms) (h : Conforms L) :
    (∀ c, Lib.getCharClass L c = getCharClass c) ∧
    (∀ c, Lib.toLowerChar L c = toLowerChar c ∧ Lib.toUpperChar L c = toUpperChar c ∧ Lib.toTitleChar L c = toTitleChar c) ∧
    (∀ c, Lib.findDecomposed L c = findDecomposed c) ∧
    (∀ c mark, Lib.findComposed L c mark = findComposed c mark) ∧
    (∀ l c, Lib.u32Contains L l c = u32Contains l c ∧
      Lib.u32CaseInsensitiveContains L l c = u32CaseInsensitiveContains l c) ∧
    (∀ set c, Lib.setContains L set c = set.contains c ∧
      Lib.setCaseInsensitiveContains L set c = set.caseInsensitiveContains c) ∧
    (∀ s cmp o, Lib.findFirst L s cmp o = findFirst s cmp o ∧ Lib.findLast L s cmp o = findLast s cmp o) ∧
    (∀ s f t n, Lib.replace L s f t n = replace s f t n) ∧
    (∀ s o, Lib.findFirstEscapableChar L s o = findFirstEscapableChar s o) ∧
    (∀ s o, Lib.findFirstEscapedChar L s o = findFirstEscapedChar s o) :=
  ⟨Lib.getCharClass_eq h, fun c => ⟨Lib.toLowerChar_eq h c, Lib.toUpperChar_eq h c, Lib.toTitleChar_eq h c⟩,
    Lib.findDecomposed_eq h, Lib.findComposed_eq h,
    fun l c => ⟨Lib.u32Contains_eq h l c, Lib.u32CaseInsensitiveContains_eq h l c⟩,
    fun s c => ⟨Lib.setContains_eq h s c, Lib.setCaseInsensitiveContains_eq h s c⟩,
    fun s cmp o => ⟨Lib.findFirst_eq h s cmp o, Lib.findLast_eq h s cmp o⟩, Lib.replace_eq h,
    Lib.findFirstEscapableChar_eq h, Lib.findFirstEscapedChar_eq h⟩

/-- the index of the first difference of two ranges -/
def exampleMismatch : Str → Str → Nat
  | a :: s, b :: t => if a = b then exampleMismatch s t + 1 else 0
  | _, _ => 0

/-- A conforming implementation that differs from the one of the other models: `lower_bound` counts the elements that are less
than the key, without a bisection. -/
def exampleAlgorithms : Lib.Algorithms where
  lowerBound l less := (l.filter less).length
  search s cmp := stdSearch cmp s
  findIf l p := stdFindIf p l
  anyOf l p := l.any p
  mismatch := exampleMismatch

theorem exampleMismatch_firstAt (a b : Str) :
    FirstAt (min a.length b.length) (fun i => a[i]? ≠ b[i]?) (exampleMismatch a b) := by
  induction a generalizing b with
  | nil => cases b <;> exact ⟨Or.inr (by simp [exampleMismatch]), fun j hj => by simp [exampleMismatch] at hj⟩
  | cons x s ih =>
    cases b with
    | nil => exact ⟨Or.inr (by simp [exampleMismatch]), fun j hj => by simp [exampleMismatch] at hj⟩
    | cons y t =>
      unfold exampleMismatch
      by_cases h : x = y
      · subst h
        rw [if_pos rfl]
        have ih := ih t
        refine ⟨?_, ?_⟩
        · rcases ih.1 with ⟨h, g⟩ | h
          · exact Or.inl ⟨by simp only [List.length_cons]; omega, by simpa using g⟩
          · exact Or.inr (by simp only [List.length_cons]; omega)
        · intro j hj
          cases j with
          | zero => simp
          | succ j => simpa using ih.2 j (by omega)
      · rw [if_neg h]
        exact ⟨Or.inl ⟨by simp only [List.length_cons]; omega, by simpa using h⟩, fun j hj => by omega⟩

/-- `exampleAlgorithms` meets the hypothesis of `C109_same`. -/
theorem exampleAlgorithms_conforms : Conforms exampleAlgorithms where
  lowerBound := by
    intro α l less ⟨k, h1, h2, h3⟩
    have e : (l.filter less).length = k := by
      conv => lhs; rw [← List.take_append_drop k l]
      rw [List.filter_append, List.filter_eq_self.mpr h2, List.filter_eq_nil_iff.mpr (fun x hx => by simp [h3 x hx])]
      simp [Nat.min_eq_left h1]
    show PartitionPoint l less (l.filter less).length
    rw [e]
    exact ⟨h1, h2, h3⟩
  search := fun s cmp => stdSearch_firstAt s cmp
  findIf := fun l p => stdFindIf_firstAt l p
  anyOf := fun l p => List.any_eq_true
  mismatch := exampleMismatch_firstAt

/-- It really is a different one: on a range that is not partitioned it disagrees with the bisection. -/
example : exampleAlgorithms.lowerBound [5, 1, 7] (fun x => x < 5) = 1 ∧
    lowerBound (fun i => [5, 1, 7].getD i 0 < 5) 3 = 2 ∧ ¬Partitioned [5, 1, 7] (fun x => decide (x < 5)) := by
  refine ⟨by decide, by decide, ?_⟩
  rintro ⟨k, h1, h2, h3⟩
  match k with
  | 0 => exact absurd (h3 1 (by simp)) (by decide)
  | k + 1 => exact absurd (h2 5 (by simp)) (by decide)

example : Lib.toUpperChar exampleAlgorithms 0xE9 = 0xC9 := by
  rw [(C109_same _ exampleAlgorithms_conforms).2.1 0xE9 |>.2.1]; decide +kernel

end Ystring
