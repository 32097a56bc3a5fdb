import Verif.Proofs.CostMore
/-
Budgets for the functions of Model/CostMore.lean.
-/
namespace Ystring.Cost

/-- what is left, from a bound on what is read -/
theorem wp_of_reads {α : Type} {n m : Nat} {x : Counted α} {Q : α → Nat → Prop} (h : wp m x Q) (hn : m ≤ n) :
    wp n x fun _ r => n ≤ r + m := ⟨Nat.le_trans h.1 hn, fun _ _ => by have := h.1; omega⟩

theorem wp_top {α : Type} {n : Nat} {x : Counted α} {Q : α → Nat → Prop} (h : wp n x Q) : wp n x fun _ _ => True :=
  wp_mono h fun _ _ _ => trivial

/-! ### find_last_newline -/

theorem wp_findLastWhereLoop' (pred : Char32 → Bool) (fuel : Nat) : ∀ (it stop : Str) (n : Nat), it.length ≤ n →
    wp n (findLastWhereLoop pred fuel it stop) fun p r => p.2 = INVALID_CHAR ∨ p.1.offset ≤ r := by
  induction fuel with
  | zero => intro it _ n _; exact wp_error
  | succ fuel ih =>
    intro it stop n hn
    unfold findLastWhereLoop
    refine wp_bind (wp_safeDecodePrev it n (Or.inr hn) (fun _ => wp_ok (Or.inl rfl)) ?_)
    rintro u ch it' r rfl h1 h2 h3
    simp only [List.length_append] at hn
    simp only
    split
    · exact wp_ok (Or.inr (by simp only; omega))
    · exact ih it' _ r (by omega)

theorem wp_findLastNewline (mem : List Char32) (str : Str) (o n : Nat) (hn : min o str.length ≤ n) :
    wp n (findLastNewline mem str o) fun _ _ => True := by
  unfold findLastNewline findLastWhere
  refine wp_bind (wp_mono (wp_findLastWhereLoop' _ _ _ _ n (by simp only [List.length_reverse, List.length_take]; omega)) ?_)
  rintro ⟨p, c⟩ r h
  simp only at h ⊢
  split
  · exact wp_ok trivial
  · rename_i hc
    have hc : c = 0x0A := Classical.not_not.mp hc
    have hp : p.offset ≤ r := h.resolve_left (by rw [hc]; decide)
    refine wp_bind (wp_lift fun it hit => ?_)
    obtain ⟨-, h2⟩ := revIterAt_ok hit
    have hs : p.start = p.offset := rfl
    refine wp_bind (wp_safeDecodePrev it r (Or.inr (by omega)) (fun _ => wp_ok trivial) fun u ch it' r' _ _ _ _ => ?_)
    simp only
    split <;> exact wp_ok trivial

/-! ### Positions -/

theorem wp_getCharPosFwd' (str : Str) (hl : str.length < npos) (k : Nat) : ∀ (o n : Nat), phi (str.drop o) ≤ n →
    wp n (getCharPosFwd str k o) fun p r => p = npos ∨ phi (str.drop p) ≤ r := by
  induction k with
  | zero => intro o n h; exact wp_ok (Or.inr h)
  | succ k ih =>
    intro o n hn
    unfold getCharPosFwd
    refine wp_bind (wp_mono (wp_getNextCharRange str o n hl hn) fun p r h => ?_)
    rcases h with ⟨-, h⟩ | ⟨-, h, -⟩
    · simp only [h]; exact wp_ok (Or.inl rfl)
    · split
      · exact wp_ok (Or.inl rfl)
      · exact ih _ r h

theorem wp_getCharPosBwd' (str : Str) (k : Nat) : ∀ (o n : Nat), o ≤ n →
    wp n (getCharPosBwd str k o) fun p r => p = npos ∨ p ≤ r := by
  induction k with
  | zero => intro o n h; exact wp_ok (Or.inr h)
  | succ k ih =>
    intro o n hn
    unfold getCharPosBwd
    refine wp_bind (wp_mono (wp_getPrevCharRange str o n hn) fun p r h => ?_)
    split
    · exact wp_ok (Or.inl rfl)
    · exact ih _ r (by omega)

theorem wp_getCharPos (str : Str) (pos : Int) (n : Nat) (hl : str.length < npos)
    (hn : (if 0 ≤ pos then 2 else 1) * str.length ≤ n) : wp n (getCharPos str pos) fun p r =>
      p = npos ∨ if 0 ≤ pos then phi (str.drop p) ≤ r else p ≤ r := by
  unfold getCharPos
  split
  · rename_i hp
    rw [if_pos hp] at hn
    refine wp_mono (wp_getCharPosFwd' str hl _ 0 _ (Nat.le_trans (phi_le _) (by simpa using hn))) fun p r h => ?_
    exact h
  · rename_i hp
    rw [if_neg hp] at hn
    refine wp_mono (wp_getCharPosBwd' str _ _ n (by omega)) fun p r h => ?_
    exact h

theorem wp_getCharRange (str : Str) (pos : Int) (n : Nat) (hl : str.length < npos)
    (hn : (if 0 ≤ pos then 2 else 1) * str.length ≤ n) : wp n (getCharRange str pos) fun _ _ => True := by
  unfold getCharRange
  split
  · rename_i hp
    refine wp_bind (wp_mono (wp_getCharPos str pos n hl hn) fun p r h => ?_)
    rw [if_pos hp] at h
    split
    · exact wp_ok trivial
    · exact wp_top (wp_getNextCharRange str p r hl (h.resolve_left ‹_›))
  · rename_i hp
    rw [if_neg (by omega), Nat.one_mul] at hn
    split
    · refine wp_bind (wp_mono (wp_getCharPos str (pos + 1) n hl (by rw [if_neg (by omega)]; omega)) fun p r h => ?_)
      rw [if_neg (by omega)] at h
      split
      · exact wp_ok trivial
      · exact wp_top (wp_getPrevCharRange str p r (h.resolve_left ‹_›))
    · exact wp_top (wp_getPrevCharRange str _ n hn)

theorem wp_skipNextN' (k : Nat) : ∀ (it : Str) (n : Nat), 2 * it.length ≤ n →
    wp n (skipNextN k it) fun p r => 2 * p.2.length ≤ r := by
  induction k with
  | zero => intro it n h; exact wp_ok h
  | succ k ih =>
    intro it n hn
    unfold skipNextN
    refine wp_bind (wp_skipNext it n (by omega) (fun _ => wp_ok (by simp)) ?_)
    rintro u it' r rfl h1 h2 h3 h4
    simp only [List.length_append] at hn
    exact ih it' r (by omega)

theorem wp_skipPrevN' (k : Nat) : ∀ (it : Str) (n : Nat), 5 * it.length ≤ n →
    wp n (skipPrevN k it) fun p r => 5 * p.2.length ≤ r := by
  induction k with
  | zero => intro it n h; exact wp_ok h
  | succ k ih =>
    intro it n hn
    unfold skipPrevN
    refine wp_bind (wp_skipPrev it n (by omega) (fun _ => wp_ok (by simp)) ?_)
    rintro it' d r h1 h2 h3
    exact ih it' r (by omega)

theorem wp_getCodepoint (str : Str) (pos : Int) (n : Nat)
    (hn : (if 0 ≤ pos then 2 else 5) * str.length ≤ n) : wp n (getCodepoint str pos) fun _ _ => True := by
  unfold getCodepoint
  split
  · rename_i hp
    rw [if_pos hp] at hn
    refine wp_bind (wp_mono (wp_skipNextN' _ str n hn) ?_)
    rintro ⟨k, it⟩ r h
    simp only at h ⊢
    exact wp_bind (wp_safeDecodeNext it r (Or.inr (by omega)) (fun _ => wp_ok trivial) fun _ _ _ _ _ _ _ _ => wp_ok trivial)
  · rename_i hp
    rw [if_neg hp] at hn
    refine wp_bind (wp_mono (wp_skipPrevN' _ str.reverse n (by simpa using hn)) ?_)
    rintro ⟨k, it⟩ r h
    simp only at h ⊢
    exact wp_bind (wp_safeDecodePrev it r (Or.inr (by omega)) (fun _ => wp_ok trivial) fun _ _ _ _ _ _ _ _ => wp_ok trivial)

/-! ### Substrings -/

theorem wp_getCappedCharPos (str : Str) (pos : Int) (n : Nat) (hl : str.length < npos) (hn : 2 * str.length ≤ n) :
    wp n (getCappedCharPos str pos) fun _ r => n ≤ r + 2 * str.length := by
  refine wp_of_reads (Q := fun _ _ => True) ?_ hn
  unfold getCappedCharPos
  refine wp_bind (wp_mono (wp_getCharPos str pos _ hl ?_) fun p r _ => ?_)
  · exact Nat.mul_le_mul_right _ (by split <;> omega)
  · split <;> exact wp_ok trivial

theorem wp_getCappedCodepointPos (str : Str) (pos : Int) (n : Nat) (hn : 5 * str.length ≤ n) :
    wp n (getCappedCodepointPos str pos) fun _ r => n ≤ r + 5 * str.length := by
  refine wp_of_reads (Q := fun _ _ => True) ?_ hn
  unfold getCappedCodepointPos
  refine wp_bind (wp_mono (wp_getCodepointPos str pos _ ?_) fun p r _ => ?_)
  · exact Nat.mul_le_mul_right _ (by split <;> omega)
  · split <;> exact wp_ok trivial

theorem substr_length {s t : Str} {o k : Nat} (h : substr s o k = .ok t) : t.length ≤ s.length := by
  unfold substr at h
  split at h
  · cases h
  · rw [← Except.ok.inj h]
    simp only [List.length_take, List.length_drop]; omega

theorem wp_getCharSubstringRange (str : Str) (i j : Int) (n : Nat) (hl : str.length < npos) (hn : 4 * str.length ≤ n) :
    wp n (getCharSubstringRange str i j) fun _ _ => True := by
  have step : ∀ (i k : Int) (o : Nat → Nat) (m : Nat → Nat) (f : Nat → Nat → Subrange),
      wp n (do
        let s ← getCappedCharPos str i
        let rest ← lift (substr str (o s) (m s))
        let e ← getCappedCharPos rest k
        lift (.ok (f s e))) fun _ _ => True := by
    intro i k o m f
    refine wp_bind (wp_mono (wp_getCappedCharPos str i n hl (by omega)) fun s r h => ?_)
    refine wp_bind (wp_lift fun rest hr => ?_)
    have := substr_length hr
    exact wp_bind (wp_mono (wp_getCappedCharPos rest k r (by omega) (by omega)) fun _ _ _ => wp_ok trivial)
  unfold getCharSubstringRange
  simp only
  split
  · exact step i _ id (fun _ => npos) (fun s e => ⟨s, e⟩)
  split
  · exact step _ _ (fun _ => 0) id (fun e s => ⟨s, sizeSub e s⟩)
  split
  · exact step i _ id (fun _ => npos) (fun s e => ⟨s, sizeSub e s⟩)
  · refine wp_bind (wp_mono (wp_getCappedCharPos str i n hl (by omega)) fun s r h => ?_)
    exact wp_bind (wp_mono (wp_getCappedCharPos str _ r hl (by omega)) fun _ _ _ => wp_ok trivial)

theorem wp_getCodepointSubstringRange (str : Str) (i j : Int) (n : Nat) (hn : 10 * str.length ≤ n) :
    wp n (getCodepointSubstringRange str i j) fun _ _ => True := by
  have step : ∀ (i k : Int) (o : Nat → Nat) (m : Nat → Nat) (f : Nat → Nat → Subrange),
      wp n (do
        let s ← getCappedCodepointPos str i
        let rest ← lift (substr str (o s) (m s))
        let e ← getCappedCodepointPos rest k
        lift (.ok (f s e))) fun _ _ => True := by
    intro i k o m f
    refine wp_bind (wp_mono (wp_getCappedCodepointPos str i n (by omega)) fun s r h => ?_)
    refine wp_bind (wp_lift fun rest hr => ?_)
    have := substr_length hr
    exact wp_bind (wp_mono (wp_getCappedCodepointPos rest k r (by omega)) fun _ _ _ => wp_ok trivial)
  unfold getCodepointSubstringRange
  simp only
  split
  · exact step i _ id (fun _ => npos) (fun s e => ⟨s, e⟩)
  split
  · exact step _ _ (fun _ => 0) id (fun e s => ⟨s, sizeSub e s⟩)
  split
  · exact step i _ id (fun _ => npos) (fun s e => ⟨s, e⟩)
  · refine wp_bind (wp_mono (wp_getCappedCodepointPos str i n (by omega)) fun s r h => ?_)
    exact wp_bind (wp_mono (wp_getCappedCodepointPos str _ r (by omega)) fun _ _ _ => wp_ok trivial)

/-- something that reads nothing, afterwards -/
theorem wp_then {α β : Type} {n : Nat} {x : Counted α} {f : α → Res β} {Q : α → Nat → Prop} (h : wp n x Q) :
    wp n (x >>= fun a => lift (f a)) fun _ _ => True :=
  wp_bind (wp_mono h fun _ _ _ => wp_lift fun _ _ => trivial)

/-! ### Searching and replacing from the right -/

theorem wp_mismatchEnds (cmp : Str) : ∀ (str : Str) (n : Nat), 2 * cmp.length ≤ n →
    wp n (mismatchEnds str cmp) fun _ r => n ≤ r + 2 * cmp.length := by
  induction cmp with
  | nil => intro str n _; cases str <;> exact wp_ok (by simp)
  | cons b cmp ih =>
    intro str n hn
    simp only [List.length_cons] at hn ⊢
    cases str with
    | nil => exact wp_ok (by omega)
    | cons a str =>
      unfold mismatchEnds
      refine wp_bind (wp_read (by omega) (wp_bind (wp_read (by omega) ?_)))
      split
      · exact wp_mono (ih str _ (by omega)) fun _ r h => by omega
      · exact wp_ok (by omega)

theorem wp_searchLastLoop (str cmp : Str) (it : Nat) : ∀ n : Nat, (it + 1) * (2 * cmp.length) ≤ n →
    wp n (searchLastLoop str cmp it) fun p r => (p.1 < p.2 ∧ p.1 * (2 * cmp.length) ≤ r ∧ p.1 ≤ it) ∨ p.1 = p.2 := by
  induction it with
  | zero =>
    intro n hn
    unfold searchLastLoop
    refine wp_bind (wp_mono (wp_mismatchEnds cmp _ n (by omega)) fun b r h => ?_)
    split
    · refine wp_ok ?_
      rcases Nat.eq_zero_or_pos cmp.length with h0 | h0
      · exact Or.inr h0.symm
      · exact Or.inl ⟨h0, by simp, Nat.le_refl _⟩
    · exact wp_ok (Or.inr rfl)
  | succ it ih =>
    intro n hn
    rw [Nat.add_mul, Nat.one_mul] at hn
    unfold searchLastLoop
    refine wp_bind (wp_mono (wp_mismatchEnds cmp _ n (by omega)) fun b r h => ?_)
    split
    · refine wp_ok ?_
      rcases Nat.eq_zero_or_pos cmp.length with h0 | h0
      · exact Or.inr (by simp [h0])
      · exact Or.inl ⟨by simp only; omega, by simp only; omega, Nat.le_refl _⟩
    · refine wp_mono (ih r (by omega)) ?_
      rintro p r' (⟨h1, h2, h3⟩ | h1)
      · exact Or.inl ⟨h1, h2, by omega⟩
      · exact Or.inr h1

theorem wp_searchLast (str cmp : Str) (n : Nat) (hn : str.length * (2 * cmp.length) ≤ n) :
    wp n (searchLast str cmp) fun p r => (p.1 < p.2 ∧ p.1 * (2 * cmp.length) ≤ r ∧ p.1 ≤ str.length) ∨ p.1 = p.2 := by
  unfold searchLast
  simp only
  split
  · exact wp_ok (Or.inr rfl)
  · refine wp_mono (wp_searchLastLoop str cmp _ n ?_) ?_
    · exact Nat.le_trans (Nat.mul_le_mul_right _ (by omega)) hn
    · rintro p r (⟨h1, h2, h3⟩ | h1)
      · exact Or.inl ⟨h1, h2, by omega⟩
      · exact Or.inr h1

theorem wp_findLastBytes (str cmp : Str) (o n : Nat) (hn : min o str.length * (2 * cmp.length) ≤ n) :
    wp n (findLastBytes str cmp o) fun _ _ => True := by
  unfold findLastBytes
  exact wp_then (wp_searchLast _ cmp n (by
    refine Nat.le_trans (Nat.mul_le_mul_right _ ?_) hn
    simp only [List.length_take]; omega))

theorem wp_findLastNLoop (str cmp : Str) (fuel : Nat) : ∀ (it maxCount : Nat) (result : List Subrange) (n : Nat),
    it * (2 * cmp.length) ≤ n → wp n (findLastNLoop str cmp fuel it maxCount result) fun _ _ => True := by
  induction fuel with
  | zero => intro _ _ _ n _; exact wp_error
  | succ fuel ih =>
    intro it maxCount result n hn
    unfold findLastNLoop
    refine wp_bind (wp_mono (wp_searchLast _ cmp n ?_) fun m r h => ?_)
    · exact Nat.le_trans (Nat.mul_le_mul_right _ (by simp only [List.length_take]; omega)) hn
    · split
      · exact wp_ok trivial
      · rename_i hm
        have h2 := (h.resolve_right hm).2.1
        simp only
        split
        · exact wp_ok trivial
        · exact ih _ _ _ r h2

theorem wp_replaceFromRight (str «from» to : Str) (k : Int) (n : Nat) (hn : 2 * str.length * from.length ≤ n) :
    wp n (replaceFromRight str «from» to k) fun _ _ => True := by
  unfold replaceFromRight
  split
  · exact wp_error
  · refine wp_bind (wp_mono (wp_findLastNLoop str «from» _ _ _ _ n ?_) fun ms r _ => ?_)
    · rw [← Nat.mul_assoc, Nat.mul_comm str.length 2]; exact hn
    · refine wp_bind (wp_lift fun p _ => ?_)
      rcases p with ⟨prev, result⟩
      simp only
      split
      · exact wp_bind (wp_lift fun _ _ => wp_ok trivial)
      · exact wp_ok trivial

/-! ### Case-insensitive replace and split -/

theorem wp_nextMismatch' (fuel : Nat) : ∀ (a b : Str) (n : Nat), (5 * b.length + 4 ≤ n ∨ a.length + b.length ≤ n) →
    wp n (nextMismatch fuel a b) fun p r => n ≤ r + 5 * b.length + 4 ∧ p.1.length ≤ a.length := by
  induction fuel with
  | zero => intro a b n _; exact wp_error
  | succ fuel ih =>
    intro a b n hn
    unfold nextMismatch
    refine wp_bind (wp_safeDecodeNext a n (by omega) (fun _ => wp_ok ⟨by omega, Nat.le_refl _⟩) ?_)
    rintro u ch a r rfl h1 h2 h3
    simp only [List.length_append] at hn
    refine wp_bind (wp_safeDecodeNext b r (by omega) (fun _ => wp_ok ⟨by omega, Nat.le_refl _⟩) ?_)
    rintro v ch' b r' rfl h4 h5 h6
    simp only [List.length_append] at hn
    simp only [List.length_append]
    split
    · exact wp_ok ⟨by omega, by simp⟩
    · refine wp_mono (ih a b r' (by omega)) fun _ r'' h => ?_
      omega

theorem wp_prevMismatch' (fuel : Nat) : ∀ (a b : Str) (n : Nat), (5 * b.length + 7 ≤ n ∨ a.length + b.length ≤ n) →
    wp n (prevMismatch fuel a b) fun p r => n ≤ r + 5 * b.length + 4 ∧ p.1.length ≤ a.length := by
  induction fuel with
  | zero => intro a b n _; exact wp_error
  | succ fuel ih =>
    intro a b n hn
    unfold prevMismatch
    refine wp_bind (wp_safeDecodePrev a n (by omega) (fun _ => wp_ok ⟨by omega, Nat.le_refl _⟩) ?_)
    rintro u ch a r rfl h1 h2 h3
    simp only [List.length_append] at hn
    refine wp_bind (wp_safeDecodePrev b r (by omega) (fun _ => wp_ok ⟨by omega, Nat.le_refl _⟩) ?_)
    rintro v ch' b r' rfl h4 h5 h6
    simp only [List.length_append] at hn
    simp only [List.length_append]
    split
    · exact wp_ok ⟨by omega, by simp⟩
    · refine wp_mono (ih a b r' (by omega)) fun _ r'' h => ?_
      omega

/-- one code point of `u` bytes pays for itself, the comparison that follows and `c` bytes more -/
theorem weight (u k c w : Nat) (hu : 1 ≤ u) (hc : 1 ≤ c) (hw : 5 * (c + k) + 1 ≤ w) : u + (5 * k + 4) + c ≤ u * w := by
  have : u * w = w + (u - 1) * w := by
    conv => lhs; rw [show u = 1 + (u - 1) by omega, Nat.add_mul, Nat.one_mul]
  rw [this]
  have : (u - 1) * 1 ≤ (u - 1) * w := Nat.mul_le_mul_left _ (by omega)
  omega

theorem wp_findFirstLoop' (str : Str) (c : Char32) (itCmp : Str) (w x : Nat) (hx : 1 ≤ x) (hw : 5 * (x + itCmp.length) + 1 ≤ w)
    (fuel : Nat) : ∀ (it it' : Str) (n : Nat), it'.length ≤ str.length → it.length = it'.length →
    it'.length * w ≤ n → wp n (findFirstLoop str c itCmp fuel it it') fun p r => p.nonempty = true →
      (str.length - (p.offset + p.length)) * w + x ≤ r ∧ p.offset + p.length ≤ str.length := by
  induction fuel with
  | zero => intro it it' n _ _ _; exact wp_error
  | succ fuel ih =>
    intro it it' n hs hii hn
    unfold findFirstLoop
    have h0 : it'.length ≤ n := Nat.le_trans (Nat.le_mul_of_pos_right _ (by omega)) hn
    refine wp_bind (wp_safeDecodeNext it' n (Or.inr h0) (fun _ => wp_ok fun h => by cases h) ?_)
    rintro u ch it2 r rfl h1 h2 h3
    simp only [List.length_append] at hn hs hii
    rw [Nat.add_mul] at hn
    have hu := weight u.length itCmp.length x w h1 hx hw
    simp only
    split
    · refine wp_bind (wp_mono (wp_nextMismatch' _ it2 itCmp r (by omega)) ?_)
      rintro ⟨a, b⟩ r' ⟨h, ha⟩
      simp only at ha ⊢
      split
      · refine wp_ok fun _ => ?_
        have he : posOf str it + (posOf str a - posOf str it) = str.length - a.length := by
          simp only [posOf]; omega
        simp only [he]
        refine ⟨?_, by omega⟩
        have : (str.length - (str.length - a.length)) * w ≤ it2.length * w := Nat.mul_le_mul_right _ (by omega)
        omega
      · exact ih _ _ r' (by omega) rfl (by omega)
    · exact ih _ _ r (by omega) rfl (by omega)

/-- the budget for looking for `t` everywhere in a string of `l` bytes -/
def psi (t : Str) (l : Nat) : Nat := l * (5 * t.length + 1) + t.length

theorem psi_mono (t : Str) {a b : Nat} (h : a ≤ b) : psi t a ≤ psi t b :=
  Nat.add_le_add_right (Nat.mul_le_mul_right _ h) _

theorem wp_findFirst' (str cmp : Str) (n : Nat) (hl : str.length < npos) (hn : psi cmp str.length ≤ n) :
    wp n (findFirst str cmp) fun p r => p.nonempty = true → psi cmp (str.length - p.stop) ≤ r := by
  unfold psi at hn
  unfold findFirst
  refine wp_bind (wp_safeDecodeNext cmp n (by omega) (fun _ => wp_ok fun h => by cases h) ?_)
  rintro u ch itCmp r hcmp h1 h2 h3
  have hlen : cmp.length = u.length + itCmp.length := by rw [hcmp]; simp
  refine wp_bind (wp_lift fun it h => ?_)
  obtain ⟨-, hit⟩ := iterAt_ok h
  rw [hit, List.drop_zero]
  have key := wp_findFirstLoop' str ch itCmp (5 * cmp.length + 1) u.length h1 (by omega) (str.length + 1) str str
    (str.length * (5 * cmp.length + 1)) (Nat.le_refl _) rfl (Nat.le_refl _)
  obtain ⟨m, hm⟩ : ∃ m, r = str.length * (5 * cmp.length + 1) + m := ⟨r - str.length * (5 * cmp.length + 1), by omega⟩
  rw [hm]
  refine wp_more (wp_mono key fun p r' hp hne => ?_)
  obtain ⟨h4, h5⟩ := hp hne
  have hst : p.stop = p.offset + p.length := sizeAdd_lt (by omega)
  rw [hst]
  unfold psi
  omega

theorem wp_split (str sep : Str) (params : SplitParams) (n : Nat) (hl : str.length < npos) (hn : psi sep str.length ≤ n) :
    wp n (split str sep params) fun _ _ => True := by
  refine wp_splitWhere (fun s => psi sep s.length) _ ?_ str params n hl hn
  intro s n hl hn
  refine wp_mono (wp_findFirst' s sep n hl hn) fun p r h hp => ?_
  simpa only [List.length_drop] using h hp

theorem wp_replaceFwdLoop («from» to : Str) (k : Nat) : ∀ (str result : Str) (n : Nat), str.length < npos → psi «from» str.length ≤ n →
    wp n (replaceFwdLoop «from» to k str result) fun _ _ => True := by
  induction k with
  | zero => intro _ _ _ _ _; exact wp_ok trivial
  | succ k ih =>
    intro str result n hl hn
    unfold replaceFwdLoop
    refine wp_bind (wp_mono (wp_findFirst' str «from» n hl hn) fun m r h => ?_)
    cases hm : m.nonempty with
    | false => exact wp_ok trivial
    | true =>
      simp only [Bool.not_true, Bool.false_eq_true, if_false]
      refine wp_bind (wp_lift fun t _ => wp_bind (wp_lift fun rest hr => ?_))
      obtain ⟨-, rfl⟩ := substr_ok hl hr
      exact ih _ _ r (by simp only [List.length_drop]; omega) (by simpa only [List.length_drop] using h hm)

theorem wp_findLastLoop' (str : Str) (c : Char32) (itCmp : Str) (w x : Nat) (hx : 1 ≤ x) (hw : 5 * (x + itCmp.length) + 1 ≤ w)
    (fuel : Nat) : ∀ (it it' : Str) (n : Nat), it.length = it'.length →
    it'.length * w + 3 ≤ n → wp n (findLastLoop str c itCmp fuel it it') fun p r => p.nonempty = true →
      p.offset * w + x + 3 ≤ r := by
  induction fuel with
  | zero => intro it it' n _ _; exact wp_error
  | succ fuel ih =>
    intro it it' n hii hn
    unfold findLastLoop
    have h0 : it'.length ≤ n :=
      Nat.le_trans (Nat.le_mul_of_pos_right _ (by omega)) (Nat.le_trans (Nat.le_add_right _ 3) hn)
    refine wp_bind (wp_safeDecodePrev it' n (Or.inr h0) (fun _ => wp_ok fun h => by cases h) ?_)
    rintro u ch it2 r rfl h1 h2 h3
    simp only [List.length_append] at hn hii
    rw [Nat.add_mul] at hn
    have hu := weight u.length itCmp.length x w h1 hx hw
    simp only
    split
    · refine wp_bind (wp_mono (wp_prevMismatch' _ it2 itCmp r (by omega)) ?_)
      rintro ⟨a, b⟩ r' ⟨h, ha⟩
      simp only at ha ⊢
      split
      · refine wp_ok fun _ => ?_
        have : a.length * w ≤ it2.length * w := Nat.mul_le_mul_right _ ha
        simp only
        omega
      · exact ih _ _ r' rfl (by omega)
    · exact ih _ _ r rfl (by omega)

theorem wp_findLast' (str cmp : Str) (n : Nat) (hn : psi cmp str.length + 3 ≤ n) :
    wp n (findLast str cmp) fun p r => p.nonempty = true → psi cmp p.offset + 3 ≤ r := by
  unfold psi at hn
  unfold findLast
  refine wp_bind (wp_safeDecodePrev cmp.reverse n (by simp only [List.length_reverse]; omega) (fun _ => wp_ok fun h => by cases h) ?_)
  rintro u ch itCmp r e h1 h2 h3
  have hlen := congrArg List.length e
  simp only [List.length_append, List.length_reverse] at hlen
  simp only
  have hm : (str.take (min npos str.length)).reverse.length ≤ str.length := by
    simp only [List.length_reverse, List.length_take]; omega
  have hmw := Nat.mul_le_mul_right (5 * cmp.length + 1) hm
  generalize (str.take (min npos str.length)).reverse = it at hm hmw
  have key := wp_findLastLoop' str ch itCmp (5 * cmp.length + 1) u.length h1 (by omega) (str.length + 1) it it
    (str.length * (5 * cmp.length + 1) + 3) rfl (by omega)
  obtain ⟨m, hm⟩ : ∃ m, r = str.length * (5 * cmp.length + 1) + 3 + m := ⟨r - (str.length * (5 * cmp.length + 1) + 3), by omega⟩
  rw [hm]
  refine wp_more (wp_mono key fun p r' hp hne => ?_)
  have h4 := hp hne
  unfold psi
  omega

theorem wp_replaceMatches («from» : Str) (k : Nat) : ∀ (str : Str) (ms : List Subrange) (n : Nat), psi «from» str.length + 3 ≤ n →
    wp n (replaceMatches «from» k str ms) fun _ _ => True := by
  induction k with
  | zero => intro _ _ _ _; exact wp_ok trivial
  | succ k ih =>
    intro str ms n hn
    unfold replaceMatches
    refine wp_bind (wp_mono (wp_findLast' str «from» n hn) fun m r h => ?_)
    cases hm : m.nonempty with
    | false => exact wp_ok trivial
    | true =>
      simp only [Bool.not_true, Bool.false_eq_true, if_false]
      refine wp_bind (wp_lift fun t ht => ?_)
      have htl : t.length ≤ m.offset := by
        unfold substr at ht
        split at ht
        · cases ht
        · rw [← Except.ok.inj ht]
          simp only [List.length_take, Subrange.start]; omega
      have := h hm
      have := psi_mono «from» htl
      exact ih _ _ r (by omega)

theorem wp_replace (str «from» to : Str) (k : Int) (n : Nat) (hl : str.length < npos)
    (hn : psi «from» str.length + (if 0 ≤ k then 0 else 3) ≤ n) : wp n (replace str «from» to k) fun _ _ => True := by
  unfold replace
  split
  · rename_i hk
    rw [if_pos hk] at hn
    refine wp_bind (wp_mono (wp_replaceFwdLoop «from» to _ str [] n hl hn) ?_)
    rintro ⟨s, r⟩ _ _
    simp only
    split <;> exact wp_ok trivial
  · rename_i hk
    rw [if_neg hk] at hn
    refine wp_bind (wp_mono (wp_replaceMatches «from» _ str [] n hn) fun ms r _ => ?_)
    refine wp_bind (wp_lift fun p _ => ?_)
    rcases p with ⟨prev, result⟩
    simp only
    split
    · exact wp_bind (wp_lift fun _ _ => wp_ok trivial)
    · exact wp_ok trivial

/-! ### Normalization -/

theorem wp_toDecomposedLoop (g fuel : Nat) : ∀ (buffer : List Char32) (result «from» it to : Str) (n : Nat), it.length ≤ n →
    wp n (toDecomposedLoop g fuel buffer result «from» it to) fun _ r => r + it.length = n := by
  induction fuel with
  | zero => intro _ _ _ _ _ n _; exact wp_error
  | succ fuel ih =>
    intro buffer result «from» it to n hn
    unfold toDecomposedLoop
    refine wp_bind (wp_safeDecodeNext it n (Or.inr hn) (fun h => wp_ok (by rw [h]; simp)) ?_)
    rintro u ch it r rfl h1 h2 h3
    simp only [List.length_append] at hn ⊢
    refine wp_bind (wp_lift fun q _ => wp_bind (wp_lift fun b _ => ?_))
    rcases b with ⟨buffer, size⟩
    simp only
    split
    · exact wp_mono (ih _ _ _ it _ r (by omega)) fun a r' h => by omega
    · refine wp_bind (wp_lift fun t _ => ?_)
      split
      · exact wp_mono (ih _ _ _ it _ r (by omega)) fun a r' h => by omega
      · exact wp_error

theorem wp_toDecomposed (str : Str) (g n : Nat) (hn : str.length ≤ n) :
    wp n (toDecomposed str g) fun _ r => r + str.length = n := by
  unfold toDecomposed
  refine wp_bind (wp_mono (wp_toDecomposedLoop g _ _ _ _ str _ n hn) ?_)
  rintro ⟨_, _, _⟩ r h
  exact wp_bind (wp_lift fun t _ => wp_ok h)

theorem wp_composeRun (fuel : Nat) : ∀ (ch mark : Char32) (it : Str) (n : Nat), it.length ≤ n →
    wp n (composeRun fuel ch mark it) fun p r => r + it.length = n + p.2.2.1.length ∧ p.2.2.1.length ≤ r := by
  induction fuel with
  | zero => intro _ _ _ n _; exact wp_error
  | succ fuel ih =>
    intro ch mark it n hn
    unfold composeRun
    simp only
    refine wp_bind (wp_safeDecodeNext it n (Or.inr hn) (fun h => wp_ok ⟨rfl, hn⟩) ?_)
    rintro u m it r rfl h1 h2 h3
    simp only [List.length_append] at hn ⊢
    refine wp_bind (wp_lift fun d _ => ?_)
    split
    · exact wp_ok ⟨by simp only; omega, by simp only; omega⟩
    · exact wp_mono (ih _ _ it r (by omega)) fun a r' h => ⟨by omega, by omega⟩

theorem wp_toComposedLoop (g fuel : Nat) : ∀ (ch : Char32) (result «from» it to prev : Str) (n : Nat), it.length ≤ n →
    wp n (toComposedLoop g fuel ch result «from» it to prev) fun _ r => r + it.length = n := by
  induction fuel with
  | zero => intro _ _ _ _ _ _ n _; exact wp_error
  | succ fuel ih =>
    intro ch result «from» it to prev n hn
    unfold toComposedLoop
    refine wp_bind (wp_safeDecodeNext it n (Or.inr hn) (fun h => wp_ok (by rw [h]; simp)) ?_)
    rintro u m it r rfl h1 h2 h3
    simp only [List.length_append] at hn ⊢
    refine wp_bind (wp_lift fun d _ => ?_)
    split
    · exact wp_mono (ih _ _ _ it _ _ r (by omega)) fun a r' h => by omega
    · refine wp_bind (wp_lift fun t _ => wp_bind (wp_mono (wp_composeRun g _ _ it r (by omega)) ?_))
      rintro ⟨ch', mark', it', from'⟩ r' ⟨h4, h5⟩
      simp only at h4 h5 ⊢
      exact wp_mono (ih _ _ _ it' _ _ r' h5) fun a r'' h => by omega

theorem wp_toComposed (str : Str) (n : Nat) (hn : str.length ≤ n) :
    wp n (toComposed str) fun _ r => r + str.length = n := by
  unfold toComposed
  refine wp_bind (wp_safeDecodeNext str n (Or.inr hn) (fun h => wp_ok (by rw [h]; simp)) ?_)
  rintro u m it r e h1 h2 h3
  have hlen : str.length = u.length + it.length := by rw [e]; simp
  refine wp_bind (wp_mono (wp_toComposedLoop _ _ m [] str it str it r (by omega)) ?_)
  rintro ⟨_, _, _⟩ r' h
  exact wp_bind (wp_lift fun t _ => wp_ok (by omega))

/-! ### escape_json -/

theorem wp_findEscapable (s : Str) : ∀ n : Nat, s.length ≤ n →
    wp n (findEscapable s) fun i r => i ≤ s.length ∧ (i = s.length ∧ r + s.length = n ∧ s.countP isEscapable = 0 ∨
      i < s.length ∧ r + i + 1 = n ∧ s.countP isEscapable = 1 + (s.drop (i + 1)).countP isEscapable) := by
  induction s with
  | nil => intro n _; exact wp_ok ⟨Nat.le_refl _, Or.inl ⟨rfl, rfl, rfl⟩⟩
  | cons b s ih =>
    intro n hn
    simp only [List.length_cons] at hn ⊢
    unfold findEscapable
    refine wp_bind (wp_read (by omega) ?_)
    split
    · rename_i hb
      refine wp_ok ⟨by omega, Or.inr ⟨by omega, by omega, ?_⟩⟩
      simp only [List.countP_cons, hb, if_true, Nat.zero_add, List.drop_succ_cons, List.drop_zero]
      omega
    · rename_i hb
      refine wp_bind (wp_mono (ih _ (by omega)) ?_)
      rintro i r ⟨h0, h | h⟩
      · refine wp_ok ⟨by omega, Or.inl ⟨by omega, by omega, ?_⟩⟩
        rw [List.countP_cons, if_neg hb]; omega
      · refine wp_ok ⟨by omega, Or.inr ⟨by omega, by omega, ?_⟩⟩
        rw [List.countP_cons, if_neg hb, List.drop_succ_cons]; omega

theorem wp_escapeJsonLoop (str : Str) (hl : str.length < npos) (fuel : Nat) : ∀ (o : Nat) (result : Str) (n : Nat),
    (str.drop o).length + (str.drop o).countP isEscapable ≤ n →
    wp n (escapeJsonLoop str fuel o result) fun _ r => r + ((str.drop o).length + (str.drop o).countP isEscapable) = n := by
  induction fuel with
  | zero => intro _ _ n _; exact wp_error
  | succ fuel ih =>
    intro o result n hn
    unfold escapeJsonLoop findFirstEscapableChar
    have hd : (str.drop o).length = str.length - o := List.length_drop
    split
    · exact wp_bind wp_error
    rename_i ho
    refine wp_bind (wp_bind (wp_mono (wp_findEscapable (str.drop o) n (by omega)) ?_))
    rintro i r ⟨h0, h | h⟩
    · have hc : o + i = str.length := by omega
      refine wp_ok ?_
      rw [if_pos hc]
      exact wp_ok (by omega)
    · have hc : ¬ o + i = str.length := by omega
      refine wp_ok ?_
      rw [if_neg hc]
      obtain ⟨h1, h2, h3⟩ := h
      rw [if_pos (show (Subrange.mk (o + i) 1).nonempty = true from rfl)]
      simp only
      split
      · exact wp_error
      · have hst : (Subrange.mk (o + i) 1).stop = o + i + 1 := sizeAdd_lt (by simp only; omega)
        have hdd : (str.drop o).drop (i + 1) = str.drop (o + i + 1) := by rw [List.drop_drop]; congr 1
        rw [hdd] at h3
        have hd2 : (str.drop (o + i + 1)).length = str.length - (o + i + 1) := List.length_drop
        refine wp_bind (wp_read (by omega) ?_)
        rw [hst]
        exact wp_mono (ih _ _ _ (by omega)) fun a r' h => by omega

theorem wp_escapeJson (str : Str) (hl : str.length < npos) (n : Nat) (hn : str.length + str.countP isEscapable ≤ n) :
    wp n (escapeJson str) fun _ r => r + (str.length + str.countP isEscapable) = n :=
  wp_escapeJsonLoop str hl _ 0 [] n hn

end Ystring.Cost
