import Verif.Proofs.Width
/-
Lemmas for C110, second part: positions of code points, substrings, insertion, replacement, splitting and trimming.
-/
namespace Ystring.Wd

variable {W : Nat}

theorem skipPrev_le {s it : Str} {b : Bool} (h : skipPrev s = .ok (b, it)) : it.length ≤ s.length := by
  rw [← Cost.val_skipPrev] at h
  have := (Cost.wp_skipPrev s s.length (Nat.le_refl _) (Q := fun a _ => a.2.length ≤ s.length)
    (fun h => by simp [h]) (fun it d r e _ _ => by simp only; omega)).2 _ h
  exact this

theorem skipPrevN_le (k : Nat) : ∀ (s it : Str) (j : Nat), skipPrevN k s = .ok (j, it) → it.length ≤ s.length := by
  induction k with
  | zero => intro s it j h; cases h; omega
  | succ k ih =>
    intro s it j h
    unfold skipPrevN at h
    rcases hs : skipPrev s with e | ⟨b, t⟩
    · rw [hs] at h; cases h
    · rw [hs] at h
      have := skipPrev_le hs
      cases b
      · cases h; omega
      · simp only [Cost.res_bind_ok] at h
        have := ih t it j h
        omega

theorem ptrdiffMin_le (hm : W ≤ SIZE_MOD) : PTRDIFF_MIN ≤ ptrdiffMin W := by
  unfold PTRDIFF_MIN ptrdiffMin
  unfold SIZE_MOD at hm
  omega

theorem sim_getCodepointPos (s : Str) (hW : Fits W s.length) (k : Int) (hk : ptrdiffMin W < k) :
    Sim (SamePos W s.length) (Ystring.getCodepointPos s k) (getCodepointPos W s k) := by
  have := ptrdiffMin_le hW.most
  unfold Ystring.getCodepointPos getCodepointPos
  rw [if_neg (show ¬ k = PTRDIFF_MIN by omega), if_neg (show ¬ k = ptrdiffMin W by omega)]
  split
  · exact Sim.ok (Or.inl ⟨rfl, rfl⟩)
  split
  · rcases skipNextN k.toNat s with ⟨_ | j, it⟩
    · exact Sim.ok (Or.inr ⟨rfl, posOf_le _ _⟩)
    · exact Sim.ok (Or.inl ⟨rfl, rfl⟩)
  · refine Sim.bindSame fun a ha => ?_
    rcases a with ⟨_ | j, it⟩
    · have := skipPrevN_le _ _ _ _ ha
      exact Sim.ok (Or.inr ⟨rfl, by simpa using this⟩)
    · exact Sim.ok (Or.inl ⟨rfl, rfl⟩)

/-- what `get_capped_...` makes of a position -/
theorem sim_cap {n c : Nat} (hc : c ≤ n) (hW : Fits W n) {x y : Res Nat} (h : Sim (SamePos W n) x y) :
    Sim (fun a b => a = b ∧ a ≤ n) (do let p ← x; if p ≠ npos then .ok p else .ok c)
      (do let p ← y; if p ≠ nposW W then .ok p else .ok c) := by
  refine Sim.bind h fun p p' h => ?_
  have hi := h.npos_iff hW
  by_cases hp : p = npos
  · rw [if_neg (by simp [hp]), if_neg (by simp [hi.1 hp])]
    exact Sim.ok ⟨rfl, hc⟩
  · rw [if_pos hp, if_pos (fun h => hp (hi.2 h))]
    rcases h with ⟨h, _⟩ | h
    · exact absurd h hp
    · exact Sim.ok h

theorem sim_getCappedCharPos (s : Str) (hW : Fits W s.length) (k : Int) :
    Sim (fun a b => a = b ∧ a ≤ s.length) (Ystring.getCappedCharPos s k) (getCappedCharPos W s k) := by
  unfold Ystring.getCappedCharPos getCappedCharPos
  exact sim_cap (by split <;> omega) hW (sim_getCharPos s hW k)

theorem sim_getCappedCodepointPos (s : Str) (hW : Fits W s.length) (k : Int) (hk : ptrdiffMin W < k) :
    Sim (fun a b => a = b ∧ a ≤ s.length) (Ystring.getCappedCodepointPos s k) (getCappedCodepointPos W s k) := by
  unfold Ystring.getCappedCodepointPos getCappedCodepointPos
  exact sim_cap (by split <;> omega) hW (sim_getCodepointPos s hW k hk)

/-- ranges of substrings: the same beginning, and the same end or (where the code subtracts in the wrong order) lengths that both wrap around -/
structure SameSlice (W n : Nat) (r r' : Subrange) : Prop where
  offset : r.offset = r'.offset
  within : r.offset ≤ n
  stop : r.stop = Wd.stop W r'
  length : r.length = r'.length ∨ n ≤ r.length ∧ n ≤ r'.length

theorem sameSlice_sub {n s e : Nat} (hW : Fits W n) (hs : s ≤ n) (he : e ≤ n) :
    SameSlice W n ⟨s, Ystring.sizeSub e s⟩ ⟨s, sizeSub W e s⟩ := by
  have h1 := hW.fits
  have h2 := hW.most
  refine ⟨rfl, hs, ?_, ?_⟩
  · show sizeAdd SIZE_MOD s (sizeSub SIZE_MOD e s) = sizeAdd W s (sizeSub W e s)
    rw [add_sub (by omega) (by omega), add_sub (by omega) (by omega)]
  · simp only [sizeSub64]
    by_cases h : s ≤ e
    · left; rw [sizeSub_eq h (by omega), sizeSub_eq h (by omega)]
    · right
      unfold sizeSub
      rw [Nat.mod_eq_of_lt (by omega), Nat.mod_eq_of_lt (by omega)]
      omega

theorem sameSlice_len {n s l : Nat} (hW : Fits W n) (hs : s ≤ n) (hl : l ≤ n) : SameSlice W n ⟨s, l⟩ ⟨s, l⟩ := by
  have h1 := hW.fits
  have h2 := hW.most
  refine ⟨rfl, hs, ?_, Or.inl rfl⟩
  rw [stop64, stop_eq (by simp only; omega), stop_eq (by simp only; omega)]

theorem substr_ok {s t : Str} {p n : Nat} (h : substr s p n = .ok t) : p ≤ s.length ∧ t = (s.drop p).take n := by
  unfold substr at h
  split at h
  · cases h
  · exact ⟨by omega, (Except.ok.inj h).symm⟩

theorem sim_getCharSubstringRange (s : Str) (hW : Fits W s.length) (i j : Int) :
    Sim (SameSlice W s.length) (Ystring.getCharSubstringRange s i j) (getCharSubstringRange W s i j) := by
  have h2 := hW.most
  unfold Ystring.getCharSubstringRange getCharSubstringRange
  simp only
  split
  · refine Sim.bind (sim_getCappedCharPos s hW i) ?_
    rintro a _ ⟨rfl, ha⟩
    refine Sim.bindSame fun t ht => ?_
    obtain ⟨_, rfl⟩ := substr_ok ht
    refine Sim.bind (sim_getCappedCharPos _ (hW.le (by simp; omega)) _) ?_
    rintro b _ ⟨rfl, hb⟩
    exact Sim.ok (sameSlice_len hW ha (Nat.le_trans hb (by simp; omega)))
  split
  · refine Sim.bind (sim_getCappedCharPos s hW _) ?_
    rintro a _ ⟨rfl, ha⟩
    refine Sim.bindSame fun t ht => ?_
    obtain ⟨_, rfl⟩ := substr_ok ht
    refine Sim.bind (sim_getCappedCharPos _ (hW.le (by simp; omega)) _) ?_
    rintro b _ ⟨rfl, hb⟩
    exact Sim.ok (sameSlice_sub hW (Nat.le_trans hb (by simp; omega)) ha)
  split
  · refine Sim.bind (sim_getCappedCharPos s hW _) ?_
    rintro a _ ⟨rfl, ha⟩
    refine Sim.bindSame fun t ht => ?_
    obtain ⟨_, rfl⟩ := substr_ok ht
    refine Sim.bind (sim_getCappedCharPos _ (hW.le (by simp; omega)) _) ?_
    rintro b _ ⟨rfl, hb⟩
    exact Sim.ok (sameSlice_sub hW ha (Nat.le_trans hb (by simp; omega)))
  · refine Sim.bind (sim_getCappedCharPos s hW _) ?_
    rintro a _ ⟨rfl, ha⟩
    refine Sim.bind (sim_getCappedCharPos s hW _) ?_
    rintro b _ ⟨rfl, hb⟩
    exact Sim.ok (sameSlice_len hW ha (by split <;> omega))

theorem sim_getCodepointSubstringRange (s : Str) (hW : Fits W s.length) (i j : Int) (hi : ptrdiffMin W < i) (hj : ptrdiffMin W < j) :
    Sim (SameSlice W s.length) (Ystring.getCodepointSubstringRange s i j) (getCodepointSubstringRange W s i j) := by
  have h2 := hW.most
  have h3 : ptrdiffMin W < 0 := by
    have := hW.wide
    unfold ptrdiffMin; omega
  have h4 : ptrdiffMin W < adjustEnd i j := by unfold adjustEnd; split <;> omega
  have h5 : i ≤ adjustEnd i j ∨ (decide (i ≥ 0) = decide (adjustEnd i j ≥ 0)) = False := by
    unfold adjustEnd
    split
    · left; omega
    · rename_i h
      by_cases h6 : j < i
      · right
        simp only [h6, true_and] at h
        simpa using h
      · left; omega
  unfold Ystring.getCodepointSubstringRange getCodepointSubstringRange
  simp only
  split
  · rename_i hc
    have h5' : i ≤ adjustEnd i j := by
      rcases h5 with h | h
      · exact h
      · simp [hc.1, hc.2] at h
    refine Sim.bind (sim_getCappedCodepointPos s hW i hi) ?_
    rintro a _ ⟨rfl, ha⟩
    refine Sim.bindSame fun t ht => ?_
    obtain ⟨_, rfl⟩ := substr_ok ht
    refine Sim.bind (sim_getCappedCodepointPos _ (hW.le (by simp; omega)) _ (by omega)) ?_
    rintro b _ ⟨rfl, hb⟩
    exact Sim.ok (sameSlice_len hW ha (Nat.le_trans hb (by simp; omega)))
  split
  · refine Sim.bind (sim_getCappedCodepointPos s hW _ h4) ?_
    rintro a _ ⟨rfl, ha⟩
    refine Sim.bindSame fun t ht => ?_
    obtain ⟨_, rfl⟩ := substr_ok ht
    refine Sim.bind (sim_getCappedCodepointPos _ (hW.le (by simp; omega)) _ (by omega)) ?_
    rintro b _ ⟨rfl, hb⟩
    exact Sim.ok (sameSlice_sub hW (Nat.le_trans hb (by simp; omega)) ha)
  split
  · refine Sim.bind (sim_getCappedCodepointPos s hW _ hi) ?_
    rintro a _ ⟨rfl, ha⟩
    refine Sim.bindSame fun t ht => ?_
    obtain ⟨_, rfl⟩ := substr_ok ht
    refine Sim.bind (sim_getCappedCodepointPos _ (hW.le (by simp; omega)) _ h4) ?_
    rintro b _ ⟨rfl, hb⟩
    exact Sim.ok (sameSlice_len hW ha (Nat.le_trans hb (by simp; omega)))
  · refine Sim.bind (sim_getCappedCodepointPos s hW _ hi) ?_
    rintro a _ ⟨rfl, ha⟩
    refine Sim.bind (sim_getCappedCodepointPos s hW _ h4) ?_
    rintro b _ ⟨rfl, hb⟩
    exact Sim.ok (sameSlice_len hW ha (by omega))

theorem sameSlice_substr {s : Str} {r r' : Subrange} (h : SameSlice W s.length r r') :
    substr s r.offset r.length = substr s r'.offset r'.length := by
  rw [h.offset]
  rcases h.length with h1 | ⟨h1, h2⟩
  · rw [h1]
  · unfold substr
    rw [List.take_of_length_le (by simp; omega), List.take_of_length_le (by simp; omega)]

theorem sim_getCharSubstring (s : Str) (hW : Fits W s.length) (i j : Int) :
    Wd.getCharSubstring W s i j = Ystring.getCharSubstring s i j := by
  symm
  refine Sim.eq (Sim.bind (sim_getCharSubstringRange s hW i j) fun r r' h => ?_)
  rw [sameSlice_substr h]
  exact Sim.same fun _ _ => rfl

theorem sim_getCodepointSubstring (s : Str) (hW : Fits W s.length) (i j : Int) (hi : ptrdiffMin W < i) (hj : ptrdiffMin W < j) :
    Wd.getCodepointSubstring W s i j = Ystring.getCodepointSubstring s i j := by
  symm
  refine Sim.eq (Sim.bind (sim_getCodepointSubstringRange s hW i j hi hj) fun r r' h => ?_)
  rw [sameSlice_substr h]
  exact Sim.same fun _ _ => rfl

theorem sim_replaceSubrange {s : Str} {r r' : Subrange} (h : SameSlice W s.length r r') (t : Str) :
    Ystring.replaceSubrange s r t = Wd.replaceSubrange W s r' t := by
  unfold Ystring.replaceSubrange Wd.replaceSubrange Subrange.start
  rw [h.offset, h.stop]

theorem sim_replaceChars (s : Str) (hW : Fits W s.length) (i j : Int) (t : Str) :
    Wd.replaceChars W s i j t = Ystring.replaceChars s i j t := by
  symm
  refine Sim.eq (Sim.bind (sim_getCharSubstringRange s hW i j) fun r r' h => ?_)
  rw [sim_replaceSubrange h]
  exact Sim.same fun _ _ => rfl

theorem sim_replaceCodepoints (s : Str) (hW : Fits W s.length) (i j : Int) (hi : ptrdiffMin W < i) (hj : ptrdiffMin W < j) (t : Str) :
    Wd.replaceCodepoints W s i j t = Ystring.replaceCodepoints s i j t := by
  symm
  refine Sim.eq (Sim.bind (sim_getCodepointSubstringRange s hW i j hi hj) fun r r' h => ?_)
  rw [sim_replaceSubrange h]
  exact Sim.same fun _ _ => rfl

theorem sim_insertAtOffset {s : Str} (hW : Fits W s.length) {p p' : Nat} (h : SamePos W s.length p p') (t : Str) :
    Ystring.insertAtOffset s p t = Wd.insertAtOffset W s p' t := by
  unfold Ystring.insertAtOffset Wd.insertAtOffset
  have hi := h.npos_iff hW
  split
  · rfl
  · by_cases hp : p = npos
    · rw [if_pos hp, if_pos (hi.1 hp)]
    · rw [if_neg hp, if_neg (fun h => hp (hi.2 h))]
      rcases h with ⟨h, _⟩ | ⟨rfl, _⟩
      · exact absurd h hp
      · rfl

theorem sim_insertCodepointAtOffset {s : Str} (hW : Fits W s.length) {p p' : Nat} (h : SamePos W s.length p p') (c : Char32) :
    Ystring.insertCodepointAtOffset s p c = Wd.insertCodepointAtOffset W s p' c := by
  unfold Ystring.insertCodepointAtOffset Wd.insertCodepointAtOffset
  have hi := h.npos_iff hW
  by_cases hp : p = npos
  · rw [if_pos hp, if_pos (hi.1 hp)]
  · rw [if_neg hp, if_neg (fun h => hp (hi.2 h))]
    rcases h with ⟨h, _⟩ | ⟨rfl, _⟩
    · exact absurd h hp
    · rfl

theorem sim_inserts (s : Str) (hW : Fits W s.length) (k : Int) (t : Str) (c : Char32) (hk : ptrdiffMin W < k) :
    Wd.insertChar W s k c = Ystring.insertChar s k c ∧ Wd.insertChars W s k t = Ystring.insertChars s k t ∧
    Wd.insertCodepoint W s k c = Ystring.insertCodepoint s k c ∧ Wd.insertCodepoints W s k t = Ystring.insertCodepoints s k t := by
  refine ⟨(Sim.eq (Sim.bind (sim_getCharPos s hW k) fun p p' h => ?_)).symm, (Sim.eq (Sim.bind (sim_getCharPos s hW k) fun p p' h => ?_)).symm,
    (Sim.eq (Sim.bind (sim_getCodepointPos s hW k hk) fun p p' h => ?_)).symm,
    (Sim.eq (Sim.bind (sim_getCodepointPos s hW k hk) fun p p' h => ?_)).symm⟩
  · rw [sim_insertCodepointAtOffset hW h]; exact Sim.same fun _ _ => rfl
  · rw [sim_insertAtOffset hW h]; exact Sim.same fun _ _ => rfl
  · rw [sim_insertCodepointAtOffset hW h]; exact Sim.same fun _ _ => rfl
  · rw [sim_insertAtOffset hW h]; exact Sim.same fun _ _ => rfl

end Ystring.Wd
