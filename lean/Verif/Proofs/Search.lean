import Verif.Model.Basic
/- `std::lower_bound` on sorted ranges. -/
namespace Ystring

theorem getD_getElem {α : Type} (l : List α) (d : α) {i : Nat} (h : i < l.length) : l.getD i d = l[i] := by
  simp [List.getD, h]

theorem lowerBoundGo_spec (less : Nat → Bool) (n : Nat)
    (mono : ∀ i j, i < j → j < n → less j = true → less i = true) :
    ∀ (fuel first len : Nat), len ≤ fuel → first + len ≤ n →
      (∀ i, i < first → less i = true) → (∀ i, first + len ≤ i → i < n → less i = false) →
      lowerBoundGo less fuel first len ≤ n ∧
      (∀ i, i < lowerBoundGo less fuel first len → less i = true) ∧
      (∀ i, lowerBoundGo less fuel first len ≤ i → i < n → less i = false) := by
  intro fuel
  induction fuel with
  | zero =>
    intro first len h1 h2 h3 h4
    have : len = 0 := by omega
    subst this
    simp only [lowerBoundGo]
    exact ⟨by omega, h3, fun i hi hn => h4 i (by omega) hn⟩
  | succ fuel ih =>
    intro first len h1 h2 h3 h4
    simp only [lowerBoundGo]
    by_cases h0 : len = 0
    · subst h0
      rw [if_pos rfl]
      exact ⟨by omega, h3, fun i hi hn => h4 i (by omega) hn⟩
    · rw [if_neg h0]
      by_cases hm : less (first + len / 2) = true
      · rw [if_pos hm]
        apply ih
        · omega
        · omega
        · intro i hi
          by_cases hh : i = first + len / 2
          · rw [hh]; exact hm
          · exact mono i (first + len / 2) (by omega) (by omega) hm
        · intro i hi hn; exact h4 i (by omega) hn
      · rw [if_neg hm]
        apply ih
        · omega
        · omega
        · exact h3
        · intro i hi hn
          cases hl : less i with
          | false => rfl
          | true =>
            exfalso; apply hm
            by_cases hh : i = first + len / 2
            · rw [← hh]; exact hl
            · exact mono (first + len / 2) i (by omega) hn hl

theorem lowerBound_spec (less : Nat → Bool) (n : Nat)
    (mono : ∀ i j, i < j → j < n → less j = true → less i = true) :
    lowerBound less n ≤ n ∧ (∀ i, i < lowerBound less n → less i = true) ∧
      (∀ i, lowerBound less n ≤ i → i < n → less i = false) :=
  lowerBoundGo_spec less n mono n 0 n (Nat.le_refl _) (by omega) (by omega) (by omega)

/-- on a list sorted by `k` the bisection finds the first element whose key is not below `key` -/
theorem lowerBound_find {α : Type} (l : List α) (d : α) (k : α → Nat) (key : Nat)
    (hs : l.Pairwise (fun a b => k a ≤ k b)) :
    l.find? (fun a => decide (key ≤ k a)) = l[lowerBound (fun i => decide (k (l.getD i d) < key)) l.length]? := by
  have mono : ∀ i j, i < j → j < l.length → decide (k (l.getD j d) < key) = true →
      decide (k (l.getD i d) < key) = true := by
    intro i j hij hj h
    have h1 := List.pairwise_iff_getElem.mp hs i j (by omega) hj hij
    simp only [decide_eq_true_eq] at h ⊢
    rw [getD_getElem _ _ (by omega)] at h ⊢
    omega
  obtain ⟨h1, h2, h3⟩ := lowerBound_spec _ _ mono
  generalize lowerBound (fun i => decide (k (l.getD i d) < key)) l.length = n at h1 h2 h3
  by_cases hn : n < l.length
  · rw [List.getElem?_eq_getElem hn, List.find?_eq_some_iff_getElem]
    refine ⟨?_, n, hn, rfl, ?_⟩
    · have := h3 n (Nat.le_refl _) hn
      rw [getD_getElem _ _ hn] at this
      simpa using this
    · intro j hj
      have := h2 j hj
      rw [getD_getElem _ _ (by omega)] at this
      simpa using this
  · rw [List.getElem?_eq_none (by omega), List.find?_eq_none]
    intro x hx
    obtain ⟨i, hi, rfl⟩ := List.mem_iff_getElem.mp hx
    have := h2 i (by omega)
    rw [getD_getElem _ _ hi] at this
    simpa using this

/-- sortedness test that is cheap for the kernel -/
def isSortedBy {α : Type} (k : α → Nat) : List α → Bool
  | [] => true
  | [_] => true
  | a :: b :: t => Nat.ble (k a) (k b) && isSortedBy k (b :: t)

theorem pairwise_of_isSortedBy {α : Type} {k : α → Nat} {l : List α} (h : isSortedBy k l = true) :
    l.Pairwise (fun a b => k a ≤ k b) := by
  induction l with
  | nil => exact .nil
  | cons a t ih =>
    cases t with
    | nil => simp
    | cons b t =>
      simp only [isSortedBy, Bool.and_eq_true] at h
      have h2 := ih h.2
      refine List.pairwise_cons.mpr ⟨?_, h2⟩
      intro x hx
      have hab := Nat.le_of_ble_eq_true h.1
      rcases List.mem_cons.mp hx with rfl | hx
      · exact hab
      · exact Nat.le_trans hab ((List.pairwise_cons.mp h2).1 x hx)

end Ystring
