import Verif.Proofs.Safety
import Verif.Props.Find
import Verif.Props.Basics
/-
Safety on arbitrary byte strings: ranges, slices, split, trim and the case-insensitive functions.
-/
namespace Ystring
open Spec

variable {α β : Type}

theorem Spec.Safe.to {r : Res α} (h : Safe r) : SafeWith (fun _ => True) r := by
  rcases h with h | ⟨a, h⟩
  · exact .inl h
  · exact .inr ⟨a, h, trivial⟩

theorem substr_safe {s : Str} {p : Nat} (h : p ≤ s.length) (n : Nat) : substr s p n = .ok ((s.drop p).take n) := by
  unfold substr; rw [if_neg (by omega)]

theorem substr_from {s : Str} {p : Nat} (h : p ≤ s.length) (hl : s.length < npos) : substr s p = .ok (s.drop p) := by
  rw [substr_safe h, List.take_of_length_le (by simp; omega)]

/-! ### Characters and code points by index -/

theorem getCharRange_fwd_safe (s : Str) (hs : s.length < SIZE_MOD) (k : Int) (hk : 0 ≤ k) :
    SafeWith (Within s.length) (getCharRange s k) := by
  unfold getCharRange
  rw [if_pos hk]
  refine (getCharPos_fwd_safe s hs k hk).bind fun p hp => ?_
  refine SafeWith.ite (fun _ => .ok (Nat.le_refl _)) fun h => ?_
  refine (getNextCharRange_safe s p (by omega) hs).mono ?_
  rintro r ⟨n, rfl, h1, _⟩
  exact h1

theorem getCharRange_safe (s : Str) (hs : s.length < SIZE_MOD) (hn : NoLongRun s) (k : Int) :
    SafeWith (Within s.length) (getCharRange s k) := by
  by_cases hk : 0 ≤ k
  · exact getCharRange_fwd_safe s hs k hk
  · have prev : ∀ p, p ≤ s.length → SafeWith (Within s.length) (getPrevCharRange s p) := fun p hp => by
      refine (getPrevCharRange_safe s p hp hs hn).mono ?_
      rintro r ⟨i, h1, rfl, _⟩
      unfold Within; show i + (p - i) ≤ _; omega
    unfold getCharRange
    rw [if_neg (by omega)]
    refine SafeWith.ite (fun _ => ?_) (fun _ => prev _ (Nat.le_refl _))
    refine (getCharPos_safe s hs hn _).bind fun p hp => ?_
    refine SafeWith.ite (fun _ => .ok (by unfold Within; show 0 + 0 ≤ _; omega)) fun h => prev p (by omega)

theorem skipNextN_suffix (k : Nat) : ∀ it : Str, ∃ u, it = u ++ (skipNextN k it).2 := by
  induction k with
  | zero => intro it; exact ⟨[], rfl⟩
  | succ n ih =>
    intro it
    rw [skipNextN]
    by_cases h : it = []
    · subst h; exact ⟨[], rfl⟩
    · obtain ⟨u, t, _, e, h2⟩ := (C11_forward_progress it).2 h
      rw [h2]
      obtain ⟨v, hv⟩ := ih t
      exact ⟨u ++ v, by rw [List.append_assoc, ← hv, ← e]⟩

theorem skipPrevN_suffix (k : Nat) : ∀ it : Str, ∃ m u t, it = u ++ t ∧ skipPrevN k it = .ok (m, t) := by
  induction k with
  | zero => intro it; exact ⟨0, [], it, rfl, rfl⟩
  | succ n ih =>
    intro it
    rw [skipPrevN]
    by_cases h : it = []
    · subst h; exact ⟨n + 1, [], [], rfl, rfl⟩
    · obtain ⟨u, t, _, e, h2⟩ := (C11_backward_progress it.reverse).2 (by simpa using h)
      rw [List.reverse_reverse] at h2
      rw [h2]
      obtain ⟨m, v, w, hv, h3⟩ := ih t.reverse
      refine ⟨m, u.reverse ++ v, w, ?_, h3⟩
      rw [List.append_assoc, ← hv, ← List.reverse_append, ← e, List.reverse_reverse]

theorem getCodepoint_fwd_safe (s : Str) (k : Int) (hk : 0 ≤ k) :
    SafeWith (fun r => Within s.length r.1) (getCodepoint s k) := by
  unfold getCodepoint
  rw [if_pos hk]
  obtain ⟨u, hu⟩ := skipNextN_suffix k.toNat s
  refine safeNextW (fun _ => .ok (Nat.le_refl _)) fun v c t h h' => .ok ?_
  have h1 := congrArg List.length hu
  have h2 := congrArg List.length h
  simp at h1 h2
  unfold Within posOf
  simp only
  omega

theorem getCodepoint_safe (s : Str) (hn : NoLongRun s) (k : Int) :
    SafeWith (fun r => Within s.length r.1) (getCodepoint s k) := by
  by_cases hk : 0 ≤ k
  · exact getCodepoint_fwd_safe s k hk
  · unfold getCodepoint
    rw [if_neg (by omega)]
    obtain ⟨m, u, t, e, h1⟩ := skipPrevN_suffix (-k - 1).toNat s.reverse
    rw [h1]
    have h2 := congrArg List.length e
    simp at h2
    refine safePrevW (it := t) ?_ (fun _ => .ok (by unfold Within; show 0 + 0 ≤ _; omega)) fun v c w h h' _ => .ok ?_
    · have : s = t.reverse ++ u.reverse := by rw [← List.reverse_append, ← e, List.reverse_reverse]
      rw [this] at hn; exact hn.prefix
    · have h3 := congrArg List.length h
      simp at h3
      unfold Within
      simp only
      omega

theorem getCodepointPos_safe (s : Str) (k : Int) (hk : k ≠ PTRDIFF_MIN) :
    ∃ p, (p = npos ∨ p ≤ s.length) ∧ getCodepointPos s k = .ok p := by
  unfold getCodepointPos
  rw [if_neg hk]
  split
  · exact ⟨npos, .inl rfl, rfl⟩
  split
  · cases h : skipNextN k.toNat s with
    | mk a it =>
      cases a with
      | zero => exact ⟨posOf s it, .inr (by unfold posOf; omega), rfl⟩
      | succ a => exact ⟨npos, .inl rfl, rfl⟩
  · obtain ⟨m, u, t, e, h1⟩ := skipPrevN_suffix (-k).toNat s.reverse
    rw [h1]
    have h2 := congrArg List.length e
    simp at h2
    cases m with
    | zero => exact ⟨t.length, .inr (by omega), rfl⟩
    | succ a => exact ⟨npos, .inl rfl, rfl⟩

/-! ### Slices -/

theorem getCappedCharPos_safe (s : Str) (hs : s.length < SIZE_MOD) (hn : NoLongRun s) (k : Int) :
    SafeWith (· ≤ s.length) (getCappedCharPos s k) := by
  unfold getCappedCharPos
  refine (getCharPos_safe s hs hn k).bind fun p hp => ?_
  refine SafeWith.ite (fun h => .ok (by omega)) fun h => .ok ?_
  split <;> omega

theorem getCappedCodepointPos_safe (s : Str) (k : Int) (hk : k ≠ PTRDIFF_MIN) :
    SafeWith (· ≤ s.length) (getCappedCodepointPos s k) := by
  unfold getCappedCodepointPos
  obtain ⟨p, hp, h⟩ := getCodepointPos_safe s k hk
  rw [h]
  refine SafeWith.ite (x := .ok p) (fun h => .ok (by omega)) fun h => .ok ?_
  split <;> omega

theorem sizeAdd_sizeSub {e s : Nat} (he : e < SIZE_MOD) (hs : s < SIZE_MOD) : sizeAdd s (sizeSub e s) = e := by
  unfold sizeAdd sizeSub
  rcases Nat.le_total s e with h | h
  · rw [show e + SIZE_MOD - s = (e - s) + SIZE_MOD by omega, Nat.add_mod_right,
      Nat.mod_eq_of_lt (a := e - s) (by omega), show s + (e - s) = e by omega, Nat.mod_eq_of_lt he]
  · by_cases h' : e = s
    · subst h'
      rw [show e + SIZE_MOD - e = 0 + SIZE_MOD by omega, Nat.add_mod_right]
      have : 0 % SIZE_MOD = 0 := Nat.zero_mod _
      rw [this, Nat.add_zero, Nat.mod_eq_of_lt he]
    · rw [Nat.mod_eq_of_lt (a := e + SIZE_MOD - s) (by omega), show s + (e + SIZE_MOD - s) = e + SIZE_MOD by omega,
        Nat.add_mod_right, Nat.mod_eq_of_lt he]

theorem getCharSubstringRange_safe (s : Str) (hs : s.length < npos) (hn : NoLongRun s) (i j : Int) :
    SafeWith (fun r => r.offset ≤ s.length ∧ r.stop ≤ s.length) (getCharSubstringRange s i j) := by
  have hM : npos < SIZE_MOD := by unfold npos SIZE_MOD; omega
  unfold getCharSubstringRange
  refine SafeWith.ite (fun _ => ?_) (fun _ => SafeWith.ite (fun _ => ?_) (fun _ => SafeWith.ite (fun _ => ?_) (fun _ => ?_)))
  · refine (getCappedCharPos_safe s (by omega) hn _).bind fun p hp => ?_
    rw [substr_from hp hs]
    refine (getCappedCharPos_safe (s.drop p) (by simp; omega) (hn.drop p) _).bind fun e he => .ok ?_
    simp at he
    exact ⟨hp, by rw [stop_eq (by omega)]; omega⟩
  · refine (getCappedCharPos_safe s (by omega) hn _).bind fun e he => ?_
    rw [substr_safe (Nat.zero_le _)]
    refine (getCappedCharPos_safe ((s.drop 0).take e) (by simp; omega) ((hn.drop 0).take e) _).bind fun p hp => .ok ?_
    simp at hp
    refine ⟨by show p ≤ _; omega, ?_⟩
    show sizeAdd p (sizeSub e p) ≤ _
    rw [sizeAdd_sizeSub (by omega) (by omega)]; exact he
  · refine (getCappedCharPos_safe s (by omega) hn _).bind fun p hp => ?_
    rw [substr_from hp hs]
    refine (getCappedCharPos_safe (s.drop p) (by simp; omega) (hn.drop p) _).bind fun e he => .ok ?_
    simp at he
    refine ⟨hp, ?_⟩
    show sizeAdd p (sizeSub e p) ≤ _
    rw [sizeAdd_sizeSub (by omega) (by omega)]; omega
  · refine (getCappedCharPos_safe s (by omega) hn _).bind fun p hp => ?_
    refine (getCappedCharPos_safe s (by omega) hn _).bind fun e he => .ok ?_
    refine ⟨hp, ?_⟩
    split
    · rw [stop_eq (by omega)]; omega
    · rw [stop_eq (by omega)]; omega

theorem getCodepointSubstringRange_safe (s : Str) (hs : s.length < npos) (i j : Int) (hi : PTRDIFF_MIN < i)
    (hj : PTRDIFF_MIN < j) :
    SafeWith (fun r => r.offset ≤ s.length ∧ (0 ≤ i ∨ j < 0 → r.stop ≤ s.length)) (getCodepointSubstringRange s i j) := by
  have hM : npos < SIZE_MOD := by unfold npos SIZE_MOD; omega
  have h0 : PTRDIFF_MIN < 0 := by unfold PTRDIFF_MIN; omega
  have hadj : PTRDIFF_MIN < adjustEnd i j ∧ (0 ≤ adjustEnd i j ↔ 0 ≤ j) ∧
      ((0 ≤ i ∧ 0 ≤ j ∨ i < 0 ∧ j < 0) → i ≤ adjustEnd i j) := by
    unfold adjustEnd
    split
    · rename_i h
      have := h.2
      simp at this
      exact ⟨hi, by omega, by omega⟩
    · rename_i h
      refine ⟨hj, Iff.rfl, fun h' => ?_⟩
      rw [Classical.not_and_iff_not_or_not] at h
      rcases h with h | h
      · omega
      · exfalso; apply h; simp; omega
  unfold getCodepointSubstringRange
  dsimp only
  generalize adjustEnd i j = j' at hadj ⊢
  obtain ⟨h1, h2, h3⟩ := hadj
  refine SafeWith.ite (fun hc => ?_) (fun _ => SafeWith.ite (fun hc => ?_) (fun _ => SafeWith.ite (fun hc => ?_) (fun hc => ?_)))
  · refine (getCappedCodepointPos_safe s _ (by omega)).bind fun p hp => ?_
    rw [substr_from hp hs]
    refine (getCappedCodepointPos_safe (s.drop p) _ (by omega)).bind fun e he => .ok ?_
    simp at he
    exact ⟨hp, fun _ => by rw [stop_eq (by omega)]; omega⟩
  · refine (getCappedCodepointPos_safe s _ (by omega)).bind fun e he => ?_
    rw [substr_safe (Nat.zero_le _)]
    refine (getCappedCodepointPos_safe ((s.drop 0).take e) _ (by omega)).bind fun p hp => .ok ?_
    simp at hp
    refine ⟨by show p ≤ _; omega, fun _ => ?_⟩
    show sizeAdd p (sizeSub e p) ≤ _
    rw [sizeAdd_sizeSub (by omega) (by omega)]; exact he
  · refine (getCappedCodepointPos_safe s _ (by omega)).bind fun p hp => ?_
    rw [substr_from hp hs]
    refine (getCappedCodepointPos_safe (s.drop p) _ (by omega)).bind fun e he => .ok ?_
    simp at he
    exact ⟨hp, fun _ => by rw [stop_eq (by omega)]; omega⟩
  · refine (getCappedCodepointPos_safe s _ (by omega)).bind fun p hp => ?_
    refine (getCappedCodepointPos_safe s _ (by omega)).bind fun e he => .ok ?_
    exact ⟨hp, fun h => by omega⟩

end Ystring
