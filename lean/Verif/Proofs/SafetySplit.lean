import Verif.Proofs.SafetyMore
import Verif.Props.Split
/-
Safety on arbitrary byte strings: searches that return ranges, split, trim, reverse and the case-insensitive
functions.
-/
namespace Ystring
open Spec

/-- A range that is empty or lies within a string of `n` bytes. -/
def EmptyOr (n : Nat) (r : Subrange) : Prop := r.length = 0 ∨ Within n r

theorem findFirstWhereLoop_within (s : Str) (p : Char32 → Bool) (fuel : Nat) : ∀ (w it : Str), s = w ++ it → it.length < fuel →
    SafeWith (fun r => r = (⟨npos, 0⟩, INVALID_CHAR) ∨ Within s.length r.1) (findFirstWhereLoop s p fuel it it) := by
  induction fuel with
  | zero => intro w it _ h; omega
  | succ n ih =>
    intro w it hw hl
    refine safeNextW (fun _ => .ok (.inl rfl)) (fun u c t h h' => ?_)
    refine SafeWith.ite (fun _ => .ok (.inr ?_)) (fun _ => ih (w ++ u) t (by rw [hw, h]; simp) (shorter h h' hl))
    have h1 := congrArg List.length hw
    have h2 := congrArg List.length h
    simp at h1 h2
    unfold Within posOf
    simp only
    omega

theorem findFirstWhere_within (s : Str) (p : Char32 → Bool) (o : Nat) (ho : o ≤ s.length) :
    SafeWith (fun r => r = (⟨npos, 0⟩, INVALID_CHAR) ∨ Within s.length r.1) (findFirstWhere s p o) := by
  unfold findFirstWhere iterAt
  rw [if_neg (by omega)]
  exact findFirstWhereLoop_within s p _ (s.take o) (s.drop o) (by simp) (by simp; omega)

theorem findLastWhereLoop_within (m : Nat) (p : Char32 → Bool) (fuel : Nat) : ∀ (it : Str), it.length < fuel → it.length ≤ m →
    NoLongRun it.reverse →
    SafeWith (fun r => r = (⟨npos, 0⟩, INVALID_CHAR) ∨ Within m r.1) (findLastWhereLoop p fuel it it) := by
  induction fuel with
  | zero => intro it h; omega
  | succ n ih =>
    intro it hl hm hn
    refine safePrevW hn (fun _ => .ok (.inl rfl)) (fun u c t h h' hn' => ?_)
    have h2 := congrArg List.length h
    simp at h2
    refine SafeWith.ite (fun _ => .ok (.inr ?_)) (fun _ => ih t (shorter h h' hl) (by omega) hn')
    unfold Within
    simp only
    omega

theorem findLastWhere_within (s : Str) (p : Char32 → Bool) (o : Nat) (hn : NoLongRun s) :
    SafeWith (fun r => r = (⟨npos, 0⟩, INVALID_CHAR) ∨ Within s.length r.1) (findLastWhere s p o) := by
  unfold findLastWhere
  exact findLastWhereLoop_within s.length p _ _ (by simp; omega) (by simp; omega) (by simpa using hn.take _)

theorem findFirstNewline_within (mem : List Char32) (s : Str) (hs : s.length < SIZE_MOD) (o : Nat) (ho : o ≤ s.length) :
    SafeWith (EmptyOr s.length) (findFirstNewline mem s o) := by
  unfold findFirstNewline findFirstOf
  refine (findFirstWhere_within s _ o ho).bind ?_
  rintro ⟨r, c⟩ h
  have he : EmptyOr s.length r := by
    rcases h with h | h
    · injection h with h1 h2; left; rw [h1]
    · exact .inr h
  refine SafeWith.ite (fun _ => .ok he) fun hc => ?_
  have hw : Within s.length r := by
    rcases h with h | h
    · injection h with h1 h2
      simp at hc; rw [h2] at hc; exact absurd hc (by decide)
    · exact h
  obtain ⟨a, n⟩ := r
  unfold Within at hw
  simp only at hw
  rw [stop_eq (by omega), iterAt, if_neg (by omega)]
  refine safeNextW (it := s.drop (a + n)) (fun _ => .ok he) fun u c t h h' => ?_
  refine SafeWith.ite (fun _ => .ok (.inr ?_)) (fun _ => .ok he)
  have h1 := congrArg List.length h
  simp at h1
  unfold Within posOf
  show a + sizeSub (s.length - t.length) a ≤ _
  rw [sizeSub_eq (by omega) (by omega)]
  omega

theorem findLastNewline_within (mem : List Char32) (s : Str) (hs : s.length < SIZE_MOD) (o : Nat) (hn : NoLongRun s) :
    SafeWith (EmptyOr s.length) (findLastNewline mem s o) := by
  unfold findLastNewline findLastOf
  refine (findLastWhere_within s _ o hn).bind ?_
  rintro ⟨r, c⟩ h
  have he : EmptyOr s.length r := by
    rcases h with h | h
    · injection h with h1 h2; left; rw [h1]
    · exact .inr h
  refine SafeWith.ite (fun _ => .ok he) fun hc => ?_
  have hw : Within s.length r := by
    rcases h with h | h
    · injection h with h1 h2
      simp at hc; rw [h2] at hc; exact absurd hc (by decide)
    · exact h
  obtain ⟨a, n⟩ := r
  unfold Within at hw
  simp only at hw
  show SafeWith _ (revIterAt s a >>= _)
  rw [revIterAt, if_neg (by omega)]
  refine safePrevW (it := (s.take a).reverse) (by simpa using hn.take a) (fun _ => .ok he) fun u c t h h' _ => ?_
  refine SafeWith.ite (fun _ => .ok (.inr ?_)) (fun _ => .ok he)
  have h1 := congrArg List.length h
  simp at h1
  unfold Within
  show t.length + sizeSub (Subrange.stop ⟨a, n⟩) t.length ≤ _
  rw [stop_eq (by omega), sizeSub_eq (by omega) (by omega)]
  omega

theorem findFirst_within (s cmp : Str) (o : Nat) (ho : o ≤ s.length) (hc : cmp ≠ []) :
    ∃ r, findFirst s cmp o = .ok r ∧ Within s.length r := by
  unfold findFirst iterAt
  rw [if_neg (by omega)]
  dsimp only [bind, Except.bind]
  split
  · exact ⟨_, rfl, Nat.le_refl _⟩
  · rename_i h
    refine ⟨_, rfl, ?_⟩
    have : ∀ l : Str, stdSearch cmp l ≠ l.length → stdSearch cmp l + cmp.length ≤ l.length := by
      intro l
      induction l with
      | nil => intro h; simp [stdSearch] at h
      | cons b t ih =>
        rw [stdSearch]
        split
        · rename_i hp
          intro _
          have := (List.isPrefixOf_iff_prefix.mp hp).length_le
          omega
        · intro h
          have := ih (by simp at h; exact h)
          simp only [List.length_cons]; omega
    have := this _ h
    simp at this
    unfold Within
    simp only
    have : cmp.length ≠ 0 := by simpa using hc
    omega

theorem findFirst_within' (s cmp : Str) : ∃ r, findFirst s cmp = .ok r ∧ EmptyOr s.length r := by
  by_cases hc : cmp = []
  · subst hc
    unfold findFirst iterAt
    rw [if_neg (by omega)]
    dsimp only [bind, Except.bind]
    split
    · exact ⟨_, rfl, .inl rfl⟩
    · exact ⟨_, rfl, .inl rfl⟩
  · obtain ⟨r, h1, h2⟩ := findFirst_within s cmp 0 (Nat.zero_le _) hc
    exact ⟨r, h1, .inr h2⟩

/-! ### split -/

/-- The iterator's token, if any, lies within its string. -/
def TokenOK (it : TokenIterator) : Prop := it.str.length < npos ∧ (it.token.nonempty = true → Within it.str.length it.token)

theorem splitLoop_ended (finder : Str → Res Subrange) (params : SplitParams) (fuel : Nat) (s : Str) (n : Nat) (res : List Str)
    (h : Subrange.nonempty ⟨npos, n⟩ = false) :
    splitLoop finder params (fuel + 1) ⟨s, ⟨npos, n⟩⟩ res = .ok (⟨s, ⟨npos, n⟩⟩, res) := by
  rw [splitLoop]
  have : TokenIterator.next finder ⟨s, ⟨npos, n⟩⟩ = .ok (false, ⟨s, ⟨npos, n⟩⟩) := by
    unfold TokenIterator.next
    rw [if_neg (by rw [h]; simp), if_pos (by simp [Subrange.start, npos])]
  split
  · rw [this]; rfl
  · rfl

theorem splitLoop_safe (finder : Str → Res Subrange) (params : SplitParams) (P : Str → Prop)
    (hP : ∀ t n, P t → P (t.drop n))
    (hf : ∀ t : Str, P t → t.length < npos → SafeWith (EmptyOr t.length) (finder t)) (fuel : Nat) :
    ∀ (it : TokenIterator) (s : Str) (res : List Str), s.length + 1 < fuel → s.length < npos → Ready it s → TokenOK it → P s →
      SafeWith (fun r => TokenOK r.1) (splitLoop finder params fuel it res) := by
  have hM : npos < SIZE_MOD := by unfold npos SIZE_MOD; omega
  induction fuel with
  | zero => intro it s res h; omega
  | succ n ih =>
    intro it s res hl hs hr ht hp
    rw [splitLoop]
    refine SafeWith.ite (fun _ => ?_) (fun _ => .ok ht)
    rw [next_ready hr]
    rcases hf s hp hs with h | ⟨r, h, hr'⟩
    · rw [h]; exact .inl rfl
    rw [h]
    by_cases hne : r.nonempty = true
    · have hw : Within s.length r := by
        rcases hr' with h' | h'
        · simp [Subrange.nonempty, h'] at hne
        · exact h'
      have hlen : r.length ≠ 0 := by simpa [Subrange.nonempty] using hne
      have hstop : r.stop = r.offset + r.length := by
        cases r; unfold Within at hw; simp only at hw; exact stop_eq (by omega)
      unfold Within at hw
      have hrd : Ready ⟨s, r⟩ (s.drop r.stop) := .inl ⟨hne, substr_from (by rw [hstop]; exact hw) hs⟩
      have hpart : TokenIterator.part ⟨s, r⟩ = .ok (s.take r.offset) := by
        unfold TokenIterator.part
        rw [if_pos hne, substr_safe (Nat.zero_le _)]; rfl
      have hgo : ∀ res, SafeWith (fun r => TokenOK r.1) (splitLoop finder params n ⟨s, r⟩ res) := by
        intro res
        refine ih ⟨s, r⟩ (s.drop r.stop) res ?_ ?_ hrd ⟨hs, fun _ => hw⟩ (hP _ _ hp)
        · rw [hstop, List.length_drop]; omega
        · rw [List.length_drop]; omega
      show SafeWith _ ((if !r.nonempty then _ else _) >>= _)
      rw [hne, if_neg (by simp)]
      show SafeWith _ (TokenIterator.part ⟨s, r⟩ >>= _)
      rw [hpart]
      exact SafeWith.ite (fun _ => hgo _) (fun _ => hgo _)
    · have hne' : r.nonempty = false := by simpa using hne
      have hne2 : Subrange.nonempty ⟨npos, r.length⟩ = false := hne'
      have hpart : TokenIterator.part ⟨s, ⟨npos, r.length⟩⟩ = .ok s := by
        unfold TokenIterator.part
        rw [if_neg (by rw [hne2]; simp), if_pos (by simp [Subrange.start, npos])]
      have hgo : ∀ res, SafeWith (fun r => TokenOK r.1) (splitLoop finder params n ⟨s, ⟨npos, r.length⟩⟩ res) := by
        intro res
        obtain ⟨m, rfl⟩ : ∃ m, n = m + 1 := ⟨n - 1, by omega⟩
        rw [splitLoop_ended _ _ _ _ _ _ hne2]
        exact .ok ⟨hs, fun h' => by rw [hne2] at h'; cases h'⟩
      show SafeWith _ ((if !r.nonempty then _ else _) >>= _)
      rw [hne', if_pos (by simp)]
      show SafeWith _ (TokenIterator.part ⟨s, ⟨npos, r.length⟩⟩ >>= _)
      rw [hpart]
      exact SafeWith.ite (fun _ => hgo _) (fun _ => hgo _)

theorem splitWhere_safe (finder : Str → Res Subrange) (params : SplitParams) (P : Str → Prop)
    (hP : ∀ t n, P t → P (t.drop n))
    (hf : ∀ t : Str, P t → t.length < npos → SafeWith (EmptyOr t.length) (finder t)) (s : Str) (hp : P s) (hs : s.length < npos) :
    Safe (splitWhere s finder params) := by
  have hM : npos < SIZE_MOD := by unfold npos SIZE_MOD; omega
  unfold splitWhere
  refine (splitLoop_safe finder params P hP hf (s.length + 2) (TokenIterator.mk' s) s [] (by omega) hs (.inr ⟨rfl, rfl⟩)
    ⟨hs, fun h => by cases h⟩ hp).bindS ?_
  rintro ⟨it, res⟩ ⟨h1, h2⟩
  refine Safe.ite (fun h => ?_) (fun _ => .ok _)
  have hw := h2 h
  have h' : it.token.nonempty = true := h
  have hstop : it.token.stop ≤ it.str.length := by
    obtain ⟨str, ⟨o, l⟩⟩ := it
    unfold Within at hw; simp only at hw h1
    rw [stop_eq (by omega)]; exact hw
  have : it.remainder = .ok (it.str.drop it.token.stop) := by
    unfold TokenIterator.remainder
    rw [if_pos (by simp [h']), substr_from hstop h1]
  rw [this]
  exact Safe.ite (fun _ => .ok _) (fun _ => .ok _)

theorem split_safe (s sep : Str) (params : SplitParams) (hs : s.length < npos) : Safe (split s sep params) := by
  refine splitWhere_safe _ params (fun _ => True) (fun _ _ _ => trivial) (fun t _ _ => ?_) s trivial hs
  obtain ⟨r, h, h'⟩ := findFirst_within' t sep
  exact .inr ⟨r, h, h'⟩

theorem splitChars_safe (s : Str) (cs : List Char32) (params : SplitParams) (hs : s.length < npos) :
    Safe (splitChars s cs params) := by
  refine splitWhere_safe _ params (fun _ => True) (fun _ _ _ => trivial) (fun t _ _ => ?_) s trivial hs
  refine (findFirstWhere_within t _ 0 (Nat.zero_le _)).bind fun r hr => .ok ?_
  rcases hr with hr | hr
  · left; rw [hr]
  · exact .inr hr

theorem splitLines_safe (mem : List Char32) (s : Str) (params : SplitParams) (hs : s.length < npos) :
    Safe (splitLines mem s params) := by
  refine splitWhere_safe _ params (fun _ => True) (fun _ _ _ => trivial) (fun t _ ht => ?_) s trivial hs
  exact findFirstNewline_within mem t (by unfold npos SIZE_MOD at *; omega) 0 (Nat.zero_le _)

/-! ### trim -/

theorem trimStartWhere_safe (s : Str) (p : Char32 → Bool) (hs : s.length < npos) :
    SafeWith (fun r => ∃ n, r = s.drop n) (trimStartWhere s p) := by
  unfold trimStartWhere
  refine (findFirstWhere_within s _ 0 (Nat.zero_le _)).bind ?_
  rintro ⟨r, c⟩ hr
  refine SafeWith.ite (fun _ => .ok ⟨s.length, by simp⟩) fun h => ?_
  have hw : Within s.length r := by
    rcases hr with hr | hr
    · injection hr with h1 h2; rw [h1] at h; exact absurd (by decide) h
    · exact hr
  unfold Within at hw
  rw [substr_from (p := r.start) (by unfold Subrange.start; omega) hs]
  exact .ok ⟨_, rfl⟩

theorem trimEndWhere_safe (s : Str) (p : Char32 → Bool) (hn : NoLongRun s) :
    SafeWith (fun r => ∃ n, r = s.take n) (trimEndWhere s p) := by
  unfold trimEndWhere
  refine (findLastWhere_within s _ npos hn).bind ?_
  rintro ⟨r, c⟩ hr
  refine SafeWith.ite (fun _ => .ok ⟨0, by simp⟩) fun h => ?_
  rw [substr_safe (Nat.zero_le _)]
  exact .ok ⟨_, rfl⟩

end Ystring
