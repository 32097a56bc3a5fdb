import Verif.Proofs.WidthEscape
/-
Lemmas for C110, sixth part: the default values `PTRDIFF_MAX` and `npos` mean the same for every width.
-/
namespace Ystring.Wd

variable {W : Nat}

/-- a position, or `npos` for the end -/
def capAt (n p : Nat) : Nat := if p ≠ npos then p else n

theorem nextCharRange_within {s : Str} (hs : s.length < npos) {o : Nat} {r : Subrange} (hr : Ystring.getNextCharRange s o = .ok r) :
    r.offset = o ∧ o + r.length ≤ s.length := by
  have h4 : ∀ x : Res Subrange, x = .ok r → (Sim (fun r _ => r.offset = o ∧ o + r.length ≤ s.length) x x) →
      r.offset = o ∧ o + r.length ≤ s.length := by
    intro x hx h; rw [hx] at h; exact h
  refine h4 _ hr ?_
  unfold Ystring.getNextCharRange
  refine Sim.bindSame fun it hit => ?_
  obtain ⟨h5, rfl⟩ := iterAt_ok hit
  refine Sim.bindSame fun a ha => ?_
  rcases a with _ | ⟨ch, it'⟩
  · exact Sim.ok ⟨rfl, by simp only; omega⟩
  · have hl := next_lt ha
    simp only
    refine Sim.bindSame fun t ht => ?_
    have := nextCharLoop_le _ it' it' t (Nat.le_refl _) ht
    simp only [List.length_drop] at hl
    have hp : posOf s t ≤ s.length := posOf_le _ _
    have hp2 : o ≤ posOf s t := by unfold posOf; omega
    have hnp := nposEq
    rw [sizeSub64, sizeSub_eq hp2 (by omega)]
    exact Sim.ok ⟨rfl, by simp only; omega⟩

/-- every character has at least one byte -/
theorem getCharPosFwd_ge {s : Str} (hs : s.length < npos) (k : Nat) : ∀ {o p : Nat}, Ystring.getCharPosFwd s k o = .ok p →
    p = npos ∨ o + k ≤ p := by
  induction k with
  | zero => intro o p h; rw [← Except.ok.inj h]; right; omega
  | succ k ih =>
    intro o p h
    unfold Ystring.getCharPosFwd at h
    rcases hr : Ystring.getNextCharRange s o with e | r
    · rw [hr] at h; cases h
    · rw [hr] at h
      simp only [Cost.res_bind_ok] at h
      have h3 := nextCharRange_within hs hr
      split at h
      · left; exact (Except.ok.inj h).symm
      · rename_i hn
        unfold Subrange.nonempty at hn
        simp at hn
        have hnp := nposEq
        have e : r.stop = r.offset + r.length := by rw [stop64]; exact stop_eq (by omega)
        rw [e] at h
        rcases ih h with h | h
        · exact Or.inl h
        · right; omega

theorem getCappedCharPos_ge {s : Str} (hs : s.length < npos) {k : Int} (hk : 0 ≤ k) {a : Nat} (h : Ystring.getCappedCharPos s k = .ok a) :
    min k s.length ≤ (a : Int) := by
  unfold Ystring.getCappedCharPos Ystring.getCharPos at h
  rw [if_pos (show k ≥ 0 from hk)] at h
  rcases hp : Ystring.getCharPosFwd s k.toNat 0 with e | p
  · rw [hp] at h; cases h
  · rw [hp] at h
    simp only [Cost.res_bind_ok] at h
    have := getCharPosFwd_ge hs _ hp
    split at h
    · rw [← Except.ok.inj h]; omega
    · rw [← Except.ok.inj h]; split <;> omega

theorem getCharPosFwd_enough (s : Str) (hs : s.length < npos) (k : Nat) : ∀ (m o : Nat), o ≤ s.length → s.length ≤ o + k → s.length ≤ o + m →
    Sim (fun a b => capAt s.length a = capAt s.length b) (Ystring.getCharPosFwd s k o) (Ystring.getCharPosFwd s m o) := by
  have hW : Fits SIZE_MOD s.length → True := fun _ => trivial
  have hend : ∀ m, ∃ p, Ystring.getCharPosFwd s m s.length = .ok p ∧ capAt s.length p = s.length := by
    intro m
    cases m with
    | zero => exact ⟨_, rfl, by unfold capAt; rw [if_pos (by omega)]⟩
    | succ m =>
      refine ⟨npos, ?_, by unfold capAt; rw [if_neg (by simp)]⟩
      unfold Ystring.getCharPosFwd Ystring.getNextCharRange iterAt
      rw [if_neg (by omega), List.drop_length]
      rfl
  induction k with
  | zero =>
    intro m o ho h1 h2
    have : o = s.length := by omega
    subst this
    obtain ⟨p, e1, e2⟩ := hend 0
    obtain ⟨q, e3, e4⟩ := hend m
    rw [e1, e3]
    exact Sim.ok (by rw [e2, e4])
  | succ k ih =>
    intro m o ho h1 h2
    by_cases he : o = s.length
    · subst he
      obtain ⟨p, e1, e2⟩ := hend (k + 1)
      obtain ⟨q, e3, e4⟩ := hend m
      rw [e1, e3]
      exact Sim.ok (by rw [e2, e4])
    · cases m with
      | zero => omega
      | succ m =>
        unfold Ystring.getCharPosFwd
        refine Sim.bindSame fun r hr => ?_
        split
        · exact Sim.ok rfl
        · rename_i hn
          have h3 := nextCharRange_within hs hr
          unfold Subrange.nonempty at hn
          simp at hn
          have hnp := nposEq
          have e : r.stop = r.offset + r.length := by rw [stop64]; exact stop_eq (by omega)
          rw [e]
          exact ih _ _ (by omega) (by omega) (by omega)

theorem getCappedCharPos_enough (s : Str) (hs : s.length < npos) (k m : Int) (hk : (s.length : Int) ≤ k) (hm : (s.length : Int) ≤ m) :
    Ystring.getCappedCharPos s k = Ystring.getCappedCharPos s m := by
  have h1 : ∀ j : Int, (s.length : Int) ≤ j → Ystring.getCappedCharPos s j = (do
      let p ← Ystring.getCharPosFwd s j.toNat 0
      .ok (capAt s.length p)) := by
    intro j hj
    unfold Ystring.getCappedCharPos Ystring.getCharPos
    rw [if_pos (show j ≥ 0 by omega)]
    have : (if j > 0 then s.length else 0) = s.length := by split <;> omega
    rw [this]
    refine Sim.eq (Sim.bindSame fun p _ => ?_)
    unfold capAt
    split <;> exact Sim.ok rfl
  rw [h1 k hk, h1 m hm]
  refine Sim.eq (Sim.bind (getCharPosFwd_enough s hs _ m.toNat 0 (by omega) (by omega) (by omega)) fun p q h => ?_)
  exact Sim.ok h

theorem skipNextN_le (k : Nat) : ∀ s it : Str, skipNextN k s = (0, it) → it.length + k ≤ s.length := by
  induction k with
  | zero => intro s it h2; rw [skipNextN] at h2; cases h2; omega
  | succ n ih =>
    intro s it h2
    rw [skipNextN] at h2
    by_cases h : s = []
    · subst h; simp [skipNext] at h2
    · obtain ⟨u, t, h0, e, h3⟩ := (C11_forward_progress s).2 h
      rw [h3] at h2
      have h4 := congrArg List.length e
      rw [List.length_append] at h4
      have := List.length_pos_iff.mpr h0
      have := ih t it h2
      omega

theorem skipNextN_end (k : Nat) (s it : Str) (h1 : s.length ≤ k) (h2 : skipNextN k s = (0, it)) : it = [] := by
  have := skipNextN_le k s it h2
  exact List.length_eq_zero_iff.mp (by omega)

theorem getCappedCodepointPos_ge {s : Str} {k : Int} (hk : 0 ≤ k) {a : Nat} (h : Ystring.getCappedCodepointPos s k = .ok a) :
    min k s.length ≤ (a : Int) := by
  have h1 : ∀ p, Ystring.getCodepointPos s k = .ok p → p = npos ∨ k ≤ (p : Int) := by
    intro p hp
    unfold Ystring.getCodepointPos at hp
    rw [if_neg (show ¬ k = PTRDIFF_MIN by unfold PTRDIFF_MIN; omega)] at hp
    split at hp
    · left; exact (Except.ok.inj hp).symm
    · skip
      rcases h : skipNextN k.toNat s with ⟨_ | j, it⟩
      · rw [h] at hp
        have := skipNextN_le _ _ _ h
        right
        rw [← Except.ok.inj hp]
        unfold posOf
        omega
      · rw [h] at hp
        left; exact (Except.ok.inj hp).symm
  unfold Ystring.getCappedCodepointPos at h
  rcases hp : Ystring.getCodepointPos s k with e | p
  · rw [hp] at h; cases h
  · rw [hp] at h
    simp only [Cost.res_bind_ok] at h
    have := h1 p hp
    split at h
    · rw [← Except.ok.inj h]; omega
    · rw [← Except.ok.inj h]; split <;> omega

theorem getCappedCodepointPos_enough (s : Str) (hs : s.length < npos) (k : Int) (hk : (s.length : Int) ≤ k) :
    Ystring.getCappedCodepointPos s k = .ok s.length := by
  have h1 : ∃ p, Ystring.getCodepointPos s k = .ok p ∧ (p = npos ∨ p = s.length) := by
    unfold Ystring.getCodepointPos
    rw [if_neg (show ¬ k = PTRDIFF_MIN by unfold PTRDIFF_MIN; omega)]
    split
    · exact ⟨_, rfl, Or.inl rfl⟩
    · rw [if_pos (show k ≥ 0 by omega)]
      rcases h : skipNextN k.toNat s with ⟨_ | j, it⟩
      · have := skipNextN_end _ _ _ (by omega) h
        subst this
        exact ⟨_, rfl, Or.inr (by unfold posOf; simp)⟩
      · exact ⟨_, rfl, Or.inl rfl⟩
  obtain ⟨p, h2, h3⟩ := h1
  unfold Ystring.getCappedCodepointPos
  rw [h2]
  show (if p ≠ npos then Except.ok p else Except.ok (if k > 0 then s.length else 0)) = _
  rcases h3 with rfl | rfl
  · rw [if_neg (by simp)]
    congr 1
    split <;> omega
  · rw [if_pos (by omega)]

theorem charSubstring_default (s : Str) (hs : s.length < npos) (i e e' : Int) (h1 : (s.length : Int) ≤ e ∧ i ≤ e)
    (h2 : (s.length : Int) ≤ e' ∧ i ≤ e') : Ystring.getCharSubstring s i e = Ystring.getCharSubstring s i e' := by
  have ha : ∀ e : Int, (s.length : Int) ≤ e ∧ i ≤ e → adjustEnd i e = e := by
    intro e h; unfold adjustEnd; rw [if_neg (fun h => by omega)]
  unfold Ystring.getCharSubstring
  have : Ystring.getCharSubstringRange s i e = Ystring.getCharSubstringRange s i e' := by
    unfold Ystring.getCharSubstringRange
    simp only [ha e h1, ha e' h2]
    by_cases hi : i ≥ 0
    · rw [if_pos ⟨hi, by omega⟩, if_pos ⟨hi, by omega⟩]
      refine Sim.eq (Sim.bindSame fun a ha => Sim.bindSame fun t ht => ?_)
      obtain ⟨_, rfl⟩ := substr_ok ht
      have := getCappedCharPos_ge hs hi ha
      rw [getCappedCharPos_enough _ (by simp; omega) (e - i) (e' - i) (by simp; omega) (by simp; omega)]
      exact Sim.same fun _ _ => rfl
    · rw [if_neg (show ¬ (i ≥ 0 ∧ e ≥ 0) by omega), if_neg (show ¬ (i < 0 ∧ e < 0) by omega), if_neg (show ¬ (i ≥ 0 ∧ e < 0) by omega),
        if_neg (show ¬ (i ≥ 0 ∧ e' ≥ 0) by omega), if_neg (show ¬ (i < 0 ∧ e' < 0) by omega), if_neg (show ¬ (i ≥ 0 ∧ e' < 0) by omega)]
      rw [getCappedCharPos_enough s hs e e' (by omega) (by omega)]
  rw [this]

theorem codepointSubstring_default (s : Str) (hs : s.length < npos) (i e e' : Int) (h1 : (s.length : Int) ≤ e ∧ i ≤ e)
    (h2 : (s.length : Int) ≤ e' ∧ i ≤ e') : Ystring.getCodepointSubstring s i e = Ystring.getCodepointSubstring s i e' := by
  have ha : ∀ e : Int, (s.length : Int) ≤ e ∧ i ≤ e → adjustEnd i e = e := by
    intro e h; unfold adjustEnd; rw [if_neg (fun h => by omega)]
  unfold Ystring.getCodepointSubstring
  have : Ystring.getCodepointSubstringRange s i e = Ystring.getCodepointSubstringRange s i e' := by
    unfold Ystring.getCodepointSubstringRange
    simp only [ha e h1, ha e' h2]
    by_cases hi : i ≥ 0
    · rw [if_pos ⟨hi, by omega⟩, if_pos ⟨hi, by omega⟩]
      refine Sim.eq (Sim.bindSame fun a ha => Sim.bindSame fun t ht => ?_)
      obtain ⟨_, rfl⟩ := substr_ok ht
      have := getCappedCodepointPos_ge hi ha
      rw [getCappedCodepointPos_enough _ (by simp; omega) (e - i) (by simp; omega),
        getCappedCodepointPos_enough _ (by simp; omega) (e' - i) (by simp; omega)]
      exact Sim.same fun _ _ => rfl
    · rw [if_neg (show ¬ (i ≥ 0 ∧ e ≥ 0) by omega), if_neg (show ¬ (i < 0 ∧ e < 0) by omega), if_neg (show ¬ (i ≥ 0 ∧ e < 0) by omega),
        if_neg (show ¬ (i ≥ 0 ∧ e' ≥ 0) by omega), if_neg (show ¬ (i < 0 ∧ e' < 0) by omega), if_neg (show ¬ (i ≥ 0 ∧ e' < 0) by omega)]
      rw [getCappedCodepointPos_enough s hs e (by omega), getCappedCodepointPos_enough s hs e' (by omega)]
  rw [this]

end Ystring.Wd
