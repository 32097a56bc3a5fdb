import Verif.Proofs.WidthSplit
/-
Lemmas for C110, fourth part: the case-insensitive functions, escape_json and unescape.
-/
namespace Ystring.Wd

variable {W : Nat}

/-! ### Case-insensitive functions -/

theorem prevMismatch_le (fuel : Nat) : ∀ a b r r' : Str, CI.prevMismatch fuel a b = .ok (r, r') → r.length ≤ a.length := by
  induction fuel with
  | zero => intro a b r r' h; cases h
  | succ fuel ih =>
    intro a b r r' h
    rw [CI.prevMismatch] at h
    rcases h1 : safeDecodePrev a with e | _ | ⟨c, it⟩
    · rw [h1] at h; cases h
    · rw [h1] at h; cases h; omega
    · rw [h1] at h
      simp only [Cost.res_bind_ok] at h
      have := prev_lt h1
      rcases h2 : safeDecodePrev b with e | _ | ⟨c2, it2⟩
      · rw [h2] at h; cases h
      · rw [h2] at h; cases h; omega
      · rw [h2] at h
        simp only [Cost.res_bind_ok] at h
        split at h
        · cases h; omega
        · have := ih _ _ _ _ h; omega

theorem sim_ciFindFirstLoop (s : Str) (c : Char32) (u : Str) (fuel : Nat) : ∀ it : Str,
    Sim (SameRange W s.length) (CI.findFirstLoop s c u fuel it it) (ciFindFirstLoop W s c u fuel it it) := by
  induction fuel with
  | zero => intro it; exact rfl
  | succ fuel ih =>
    intro it
    unfold CI.findFirstLoop ciFindFirstLoop
    refine Sim.bindSame fun a ha => ?_
    rcases a with _ | ⟨ch, it'⟩
    · exact Sim.ok (Or.inl ⟨rfl, rfl⟩)
    · simp only
      split
      · refine Sim.bindSame fun a _ => ?_
        rcases a with ⟨a, b⟩
        simp only
        split
        · refine Sim.ok (Or.inr ⟨rfl, ?_⟩)
          have := posOf_le s it
          have := posOf_le s a
          simp only
          omega
        · exact ih it'
      · exact ih it'

theorem sim_ciFindFirst (s cmp : Str) (o : Nat) : Sim (SameRange W s.length) (CI.findFirst s cmp o) (ciFindFirst W s cmp o) := by
  unfold CI.findFirst ciFindFirst
  refine Sim.bindSame fun a ha => ?_
  rcases a with _ | ⟨ch, it'⟩
  · exact Sim.ok (Or.inl ⟨rfl, rfl⟩)
  · exact Sim.bindSame fun it _ => sim_ciFindFirstLoop s _ _ _ it

theorem sim_ciFindLastLoop (s : Str) (c : Char32) (u : Str) (n fuel : Nat) : ∀ it : Str, it.length ≤ n →
    Sim (SameRange W n) (CI.findLastLoop s c u fuel it it) (ciFindLastLoop W s c u fuel it it) := by
  induction fuel with
  | zero => intro it _; exact rfl
  | succ fuel ih =>
    intro it hit
    unfold CI.findLastLoop ciFindLastLoop
    refine Sim.bindSame fun a ha => ?_
    rcases a with _ | ⟨ch, it'⟩
    · exact Sim.ok (Or.inl ⟨rfl, rfl⟩)
    · have hl := prev_lt ha
      simp only
      split
      · refine Sim.bindSame fun a ha => ?_
        rcases a with ⟨a, b⟩
        have := prevMismatch_le _ _ _ _ _ ha
        simp only
        split
        · exact Sim.ok (Or.inr ⟨rfl, by simp only; omega⟩)
        · exact ih it' (by omega)
      · exact ih it' (by omega)

theorem sim_ciFindLast (s cmp : Str) (o o' : Nat) (ho : min o s.length = min o' s.length) :
    Sim (SameRange W s.length) (CI.findLast s cmp o) (ciFindLast W s cmp o') := by
  unfold CI.findLast ciFindLast
  refine Sim.bindSame fun a ha => ?_
  rcases a with _ | ⟨ch, it'⟩
  · exact Sim.ok (Or.inl ⟨rfl, rfl⟩)
  · simp only [ho]
    exact sim_ciFindLastLoop s _ _ s.length _ _ (by simp; omega)

theorem SameRange.cases {n : Nat} {r r' : Subrange} (h : SameRange W n r r') :
    (r.nonempty = false ∧ r'.nonempty = false) ∨ (r = r' ∧ r.offset + r.length ≤ n) := by
  rcases h with ⟨rfl, rfl⟩ | h
  · exact Or.inl ⟨rfl, rfl⟩
  · exact Or.inr h

theorem sim_ciReplaceFwdLoop (f t : Str) (k : Nat) : ∀ (s r : Str), Fits W s.length →
    Sim (fun a b => a = b) (CI.replaceFwdLoop f t k s r) (ciReplaceFwdLoop W f t k s r) := by
  induction k with
  | zero => intro s r _; exact Sim.ok rfl
  | succ k ih =>
    intro s r hW
    unfold CI.replaceFwdLoop ciReplaceFwdLoop
    refine Sim.bind (sim_ciFindFirst s f 0) fun m m' h => ?_
    rcases h.cases with ⟨h1, h2⟩ | ⟨rfl, h1⟩
    · rw [h1, h2]; exact Sim.ok rfl
    · split
      · exact Sim.ok rfl
      · refine Sim.bindSame fun a _ => ?_
        obtain ⟨e1, e2⟩ := stop_within hW h1
        rw [e1, e2]
        refine Sim.bindSame fun rest hr => ?_
        obtain ⟨_, rfl⟩ := substr_ok hr
        exact ih _ _ (hW.le (by simp; omega))

theorem sim_ciReplaceMatches (f : Str) (n k : Nat) : ∀ (s : Str) (ms : List Subrange), Fits W s.length → s.length ≤ n → AllWithin n ms →
    Sim (fun a b => a = b ∧ AllWithin n a) (CI.replaceMatches f k s ms) (ciReplaceMatches W f k s ms) := by
  induction k with
  | zero => intro s ms _ _ h; exact Sim.ok ⟨rfl, h⟩
  | succ k ih =>
    intro s ms hW hn hms
    unfold CI.replaceMatches ciReplaceMatches
    obtain ⟨g1, g2⟩ := npos_enough hW
    refine Sim.bind (sim_ciFindLast s f npos (nposW W) (by omega)) fun m m' h => ?_
    rcases h.cases with ⟨h1, h2⟩ | ⟨rfl, h1⟩
    · rw [h1, h2]; exact Sim.ok ⟨rfl, hms⟩
    · split
      · exact Sim.ok ⟨rfl, hms⟩
      · refine Sim.bindSame fun rest hr => ?_
        obtain ⟨_, rfl⟩ := substr_ok hr
        exact ih _ _ (hW.le (by simp; omega)) (by simp; omega) (hms.snoc (by omega))

theorem sim_ciReplaceBwdLoop (s to : Str) (hW : Fits W s.length) : ∀ (ms : List Subrange), AllWithin s.length ms → ∀ (p : Nat) (r : Str),
    p ≤ s.length →
    Sim (fun a b => a = b) (CI.replaceBwdLoop s to ms p r) (ciReplaceBwdLoop W s to ms p r) := by
  intro ms
  induction ms with
  | nil => intro _ p r _; exact Sim.ok rfl
  | cons m ms ih =>
    intro hms p r hp
    have hm := hms m (by simp)
    obtain ⟨e1, e2⟩ := stop_within hW hm
    unfold CI.replaceBwdLoop ciReplaceBwdLoop
    rw [substr_sub s hW hp (show m.start ≤ s.length by unfold Subrange.start; omega), e1, e2]
    refine Sim.bindSame fun a _ => ?_
    exact ih (fun x hx => hms x (by simp [hx])) _ _ hm

theorem sim_ciReplace (s f t : Str) (hW : Fits W s.length) (k : Int) : Wd.ciReplace W s f t k = CI.replace s f t k := by
  symm
  unfold CI.replace ciReplace
  split
  · refine Sim.eq (Sim.bind (sim_ciReplaceFwdLoop f t _ s [] hW) ?_)
    rintro p _ rfl
    exact Sim.same fun _ _ => rfl
  · refine Sim.eq (Sim.bind (sim_ciReplaceMatches f s.length _ s [] hW (Nat.le_refl _) (fun _ h => by simp at h)) ?_)
    rintro ms _ ⟨rfl, hms⟩
    refine Sim.bind (sim_ciReplaceBwdLoop s t hW _ (fun m hm => hms m (by simpa using hm)) 0 [] (Nat.zero_le _)) ?_
    rintro p _ rfl
    exact Sim.same fun _ _ => rfl

theorem ciFindFirst_within {s f : Str} {m : Subrange} (h : CI.findFirst s f = .ok m) : m.nonempty = false ∨ m.offset + m.length ≤ s.length := by
  have h1 := sim_ciFindFirst (W := SIZE_MOD) s f 0
  rw [h] at h1
  rcases h2 : ciFindFirst SIZE_MOD s f 0 with e | m'
  · rw [h2] at h1; exact h1.elim
  · rw [h2] at h1
    rcases SameRange.cases (show SameRange SIZE_MOD s.length m m' from h1) with h | h
    · exact Or.inl h.1
    · exact Or.inr h.2

theorem ciReplaceFwdLoop_enough (f t : Str) (hno : ∃ x, CI.findFirst [] f = .ok x) (n : Nat) : ∀ (m : Nat) (s r : Str), s.length < SIZE_MOD → s.length ≤ n → s.length ≤ m →
    Sim (fun a b => a = b) (CI.replaceFwdLoop f t n s r) (CI.replaceFwdLoop f t m s r) := by
  have hnil : ∀ (m : Nat) (r : Str), CI.replaceFwdLoop f t m [] r = .ok ([], r) ∨
      ∃ e, CI.findFirst [] f = .error e := by
    intro m r
    cases m with
    | zero => exact Or.inl rfl
    | succ m =>
      rcases h : CI.findFirst [] f with e | x
      · exact Or.inr ⟨e, rfl⟩
      · left
        unfold CI.replaceFwdLoop
        rw [h]
        have := (ciFindFirst_within h)
        have hx : x.nonempty = false := by
          rcases this with h | h
          · exact h
          · unfold Subrange.nonempty; simp at h ⊢; exact h.2
        simp [Cost.res_bind_ok, hx]
  have hnil' : ∀ (m : Nat) (r : Str), CI.replaceFwdLoop f t m [] r = .ok ([], r) := by
    intro m r
    rcases hnil m r with h | ⟨e, h⟩
    · exact h
    · obtain ⟨x, hx⟩ := hno; rw [hx] at h; cases h
  induction n with
  | zero =>
    intro m s r _ hn hm
    have : s = [] := List.length_eq_zero_iff.mp (by omega)
    subst this
    rw [hnil', hnil']; exact Sim.ok rfl
  | succ n ih =>
    intro m s r hs hn hm
    cases m with
    | zero =>
      have : s = [] := List.length_eq_zero_iff.mp (by omega)
      subst this
      rw [hnil', hnil']; exact Sim.ok rfl
    | succ m =>
      rw [CI.replaceFwdLoop, CI.replaceFwdLoop]
      refine Sim.bindSame fun x hx => ?_
      split
      · exact Sim.ok rfl
      · rename_i hne
        simp at hne
        rcases ciFindFirst_within hx with h | h
        · rw [hne] at h; cases h
        · refine Sim.bindSame fun a _ => Sim.bindSame fun b hb => ?_
          rw [stop64, stop_eq (by omega)] at hb
          obtain ⟨_, rfl⟩ := substr_ok hb
          unfold Subrange.nonempty at hne
          simp at hne
          refine ih _ _ _ ?_ ?_ ?_ <;> simp <;> omega

theorem ciReplace_default (s f t : Str) (hW : Fits W s.length) :
    CI.replace s f t (ptrdiffMax W) = CI.replace s f t PTRDIFF_MAX := by
  obtain ⟨h1, h2⟩ := ptrdiffMax_ge s.length hW
  have h3 := hW.fits
  have h4 := hW.most
  unfold CI.replace
  rw [if_pos (show ptrdiffMax W ≥ 0 by omega), if_pos (show PTRDIFF_MAX ≥ 0 by omega)]
  refine Sim.eq (Sim.bind (R := fun a b => a = b) ?_ ?_)
  · rcases h5 : safeDecodeNext f with e | a
    · have h6 : ∀ u : Str, CI.findFirst u f = .error e := by intro u; unfold CI.findFirst; rw [h5]; rfl
      have h7 : ∀ n : Nat, 0 < n → CI.replaceFwdLoop f t n s [] = .error e := by
        intro n hn
        cases n with
        | zero => omega
        | succ n => unfold CI.replaceFwdLoop; rw [h6]; rfl
      have h8 := hW.wide
      rw [h7 _ (by unfold ptrdiffMax; omega), h7 _ (by decide)]
      exact Sim.error
    · refine ciReplaceFwdLoop_enough f t ?_ _ PTRDIFF_MAX.toNat s [] (by omega) (by omega) (by omega)
      unfold CI.findFirst
      rw [h5]
      rcases a with _ | ⟨c, u⟩
      · exact ⟨_, rfl⟩
      · exact ⟨Subrange.default, rfl⟩
  · rintro p _ rfl
    exact Sim.same fun _ _ => rfl

end Ystring.Wd
