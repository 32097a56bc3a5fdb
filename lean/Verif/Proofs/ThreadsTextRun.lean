import Verif.Model.ThreadsText
import Verif.Proofs.ThreadsMoreRun
/- What the functions of Verif/Model/ThreadsText.lean return when they are alone. -/
namespace Ystring.Thr
open Ptr Spec

theorem run_nextCharLoop (m : Mem) (b e : Nat) : ∀ (fuel it stop : Nat), b ≤ it → it ≤ e → b ≤ stop → stop ≤ it →
    (∃ er, Ystring.nextCharLoop fuel (bytes m it e) (bytes m stop e) = .error er ∧
      alone (nextCharLoop ⟨b, e⟩ fuel it stop) m = (.error er, m)) ∨
    (∃ x, stop ≤ x ∧ x ≤ e ∧ Ystring.nextCharLoop fuel (bytes m it e) (bytes m stop e) = .ok (bytes m x e) ∧
      alone (nextCharLoop ⟨b, e⟩ fuel it stop) m = (.ok x, m)) := by
  intro fuel
  induction fuel with
  | zero => intros; exact .inl ⟨.diverge, rfl, rfl⟩
  | succ fuel ih =>
    intro it stop hb he hb' he'
    unfold nextCharLoop Ystring.nextCharLoop
    obtain ⟨h1, h2⟩ | ⟨h1, h2⟩ | ⟨c, i, h3, h4, h1, h2⟩ := run_safeDecodeNext m b e it hb he
    · rw [alone_ok h2, h1]
      exact .inr ⟨stop, Nat.le_refl _, by omega, rfl, rfl⟩
    · rw [alone_err h2, h1]; exact .inl ⟨_, rfl, rfl⟩
    · rw [alone_ok h2, h1]
      simp only [ok_bind]
      by_cases hm : isMark c
      · rw [if_pos hm, if_pos hm]
        rcases ih i i (by omega) h4 (by omega) (Nat.le_refl _) with h | ⟨x, k1, k2, k3, k4⟩
        · exact .inl h
        · exact .inr ⟨x, by omega, k2, k3, k4⟩
      · rw [if_neg hm, if_neg hm]
        exact .inr ⟨stop, Nat.le_refl _, by omega, rfl, rfl⟩

theorem run_getNextCharRange (m : Mem) (b e : Nat) (hb : b ≤ e) (o : Nat) :
    alone (getNextCharRange ⟨b, e⟩ o) m = (Ystring.getNextCharRange (bytes m b e) o, m) := by
  unfold getNextCharRange Ystring.getNextCharRange iterAt
  by_cases ho : o > e - b
  · rw [alone_err (alone_ptr_bad m (by dsimp only; omega)), if_pos (by rw [bytes_length]; exact ho)]; rfl
  · rw [alone_ok (alone_ptr m (by dsimp only; omega) (by dsimp only; omega)), if_neg (by rw [bytes_length]; exact ho), ok_bind, bytes_drop]
    obtain ⟨h1, h2⟩ | ⟨h1, h2⟩ | ⟨c, i, h3, h4, h1, h2⟩ := run_safeDecodeNext m b e (b + o) (by omega) (by omega)
    · rw [alone_ok h2, h1]; rfl
    · rw [alone_err h2, h1]; rfl
    · rw [alone_ok h2, h1]
      simp only [ok_bind, bytes_length]
      rcases run_nextCharLoop m b e (e - b + 1) i i (by omega) h4 (by omega) (Nat.le_refl _) with ⟨er, k1, k2⟩ | ⟨x, k1, k2, k3, k4⟩
      · rw [alone_err k2, k1]; rfl
      · rw [alone_ok k4, k3]
        simp only [ok_bind, posOf, bytes_length, alone_fin]
        rw [show e - b - (e - x) = x - b by omega]

theorem run_prevCharLoop (m : Mem) (b e : Nat) : ∀ (fuel it : Nat), b ≤ it → it ≤ e →
    (∃ er, Ystring.prevCharLoop fuel (bytes m b it).reverse = .error er ∧ alone (prevCharLoop ⟨b, e⟩ fuel it) m = (.error er, m)) ∨
    (∃ x, b ≤ x ∧ x ≤ it ∧ Ystring.prevCharLoop fuel (bytes m b it).reverse = .ok (bytes m b x).reverse ∧
      alone (prevCharLoop ⟨b, e⟩ fuel it) m = (.ok x, m)) := by
  intro fuel
  induction fuel with
  | zero => intros; exact .inl ⟨.diverge, rfl, rfl⟩
  | succ fuel ih =>
    intro it hb he
    unfold prevCharLoop Ystring.prevCharLoop
    obtain ⟨h1, h2⟩ | ⟨er, h1, h2⟩ | ⟨c, i, h3, h4, h1, h2⟩ := run_safeDecodePrev m b e it hb he
    · rw [alone_ok h2, h1]
      exact .inr ⟨it, hb, Nat.le_refl _, rfl, rfl⟩
    · rw [alone_err h2, h1]; exact .inl ⟨_, rfl, rfl⟩
    · rw [alone_ok h2, h1]
      simp only [ok_bind]
      by_cases hm : isMark c
      · rw [if_pos hm, if_pos hm]
        rcases ih i h3 (by omega) with h | ⟨x, k1, k2, k3, k4⟩
        · exact .inl h
        · exact .inr ⟨x, k1, by omega, k3, k4⟩
      · rw [if_neg hm, if_neg hm]
        exact .inr ⟨i, h3, by omega, rfl, rfl⟩

/-- also where the range is -/
theorem run_getPrevCharRange' (m : Mem) (b e : Nat) (hb : b ≤ e) (o : Nat) :
    (∃ er, Ystring.getPrevCharRange (bytes m b e) o = .error er ∧ alone (getPrevCharRange ⟨b, e⟩ o) m = (.error er, m)) ∨
    (∃ x, x ≤ o ∧ o ≤ e - b ∧ Ystring.getPrevCharRange (bytes m b e) o = .ok ⟨x, sizeSub o x⟩ ∧
      alone (getPrevCharRange ⟨b, e⟩ o) m = (.ok ⟨x, sizeSub o x⟩, m)) := by
  unfold getPrevCharRange Ystring.getPrevCharRange revIterAt
  by_cases ho : o > e - b
  · rw [alone_err (alone_ptr_bad m (by dsimp only; omega)), if_pos (by rw [bytes_length]; exact ho)]; exact .inl ⟨_, rfl, rfl⟩
  · rw [alone_ok (alone_ptr m (by dsimp only; omega) (by dsimp only; omega)), if_neg (by rw [bytes_length]; exact ho), ok_bind,
      bytes_take m (by omega), bytes_length]
    rcases run_prevCharLoop m b e (e - b + 1) (b + o) (by omega) (by omega) with ⟨er, k1, k2⟩ | ⟨x, k1, k2, k3, k4⟩
    · rw [alone_err k2, k1]; exact .inl ⟨_, rfl, rfl⟩
    · rw [alone_ok k4, k3]
      refine .inr ⟨x - b, by omega, by omega, ?_, rfl⟩
      simp only [ok_bind, List.length_reverse, bytes_length]

theorem run_getPrevCharRange (m : Mem) (b e : Nat) (hb : b ≤ e) (o : Nat) :
    alone (getPrevCharRange ⟨b, e⟩ o) m = (Ystring.getPrevCharRange (bytes m b e) o, m) := by
  rcases run_getPrevCharRange' m b e hb o with ⟨er, k1, k2⟩ | ⟨x, -, -, k1, k2⟩ <;> rw [k1, k2]

theorem run_countCharsLoop (m : Mem) (b e : Nat) (hb : b ≤ e) : ∀ (fuel o x : Nat),
    alone (countCharsLoop ⟨b, e⟩ fuel o x) m = (Ystring.countCharsLoop (bytes m b e) fuel o x, m) := by
  intro fuel
  induction fuel with
  | zero => intros; rfl
  | succ fuel ih =>
    intro o x
    unfold countCharsLoop Ystring.countCharsLoop
    rw [bytes_length]
    split
    · rw [alone_bind, run_getNextCharRange m b e hb]
      cases Ystring.getNextCharRange (bytes m b e) o with
      | error er => rfl
      | ok r => exact ih _ _
    · rfl

theorem run_getCharPosFwd (m : Mem) (b e : Nat) (hb : b ≤ e) : ∀ (pos o : Nat),
    alone (getCharPosFwd ⟨b, e⟩ pos o) m = (Ystring.getCharPosFwd (bytes m b e) pos o, m) := by
  intro pos
  induction pos with
  | zero => intros; rfl
  | succ pos ih =>
    intro o
    unfold getCharPosFwd Ystring.getCharPosFwd
    rw [alone_bind, run_getNextCharRange m b e hb]
    cases Ystring.getNextCharRange (bytes m b e) o with
    | error er => rfl
    | ok r =>
      simp only [ok_bind]
      split
      · rfl
      · exact ih _

theorem run_getCharPosBwd (m : Mem) (b e : Nat) (hb : b ≤ e) : ∀ (pos o : Nat),
    alone (getCharPosBwd ⟨b, e⟩ pos o) m = (Ystring.getCharPosBwd (bytes m b e) pos o, m) := by
  intro pos
  induction pos with
  | zero => intros; rfl
  | succ pos ih =>
    intro o
    unfold getCharPosBwd Ystring.getCharPosBwd
    rw [alone_bind, run_getPrevCharRange m b e hb]
    cases Ystring.getPrevCharRange (bytes m b e) o with
    | error er => rfl
    | ok r =>
      simp only [ok_bind]
      split
      · rfl
      · exact ih _

theorem run_getCharPos (m : Mem) (b e : Nat) (hb : b ≤ e) (pos : Int) :
    alone (getCharPos ⟨b, e⟩ pos) m = (Ystring.getCharPos (bytes m b e) pos, m) := by
  unfold getCharPos Ystring.getCharPos
  split
  · exact run_getCharPosFwd m b e hb _ _
  · rw [bytes_length]; exact run_getCharPosBwd m b e hb _ _

theorem run_getCharRange (m : Mem) (b e : Nat) (hb : b ≤ e) (pos : Int) :
    alone (getCharRange ⟨b, e⟩ pos) m = (Ystring.getCharRange (bytes m b e) pos, m) := by
  unfold getCharRange Ystring.getCharRange
  simp only [bytes_length]
  split
  · rw [alone_bind, run_getCharPos m b e hb]
    cases Ystring.getCharPos (bytes m b e) pos with
    | error er => rfl
    | ok o =>
      simp only [ok_bind]
      split
      · rfl
      · exact run_getNextCharRange m b e hb _
  · split
    · rw [alone_bind, run_getCharPos m b e hb]
      cases Ystring.getCharPos (bytes m b e) (pos + 1) with
      | error er => rfl
      | ok o =>
        simp only [ok_bind]
        split
        · rfl
        · exact run_getPrevCharRange m b e hb _
    · exact run_getPrevCharRange m b e hb _

theorem run_reverseLoop (m : Mem) (b e : Nat) (hb : b ≤ e) : ∀ (fuel o : Nat) (x : Str),
    alone (reverseLoop ⟨b, e⟩ fuel o x) m = (Ystring.reverseLoop (bytes m b e) fuel o x, m) := by
  intro fuel
  induction fuel with
  | zero => intros; rfl
  | succ fuel ih =>
    intro o x
    unfold reverseLoop Ystring.reverseLoop
    split
    · rcases run_getPrevCharRange' m b e hb o with ⟨er, k1, k2⟩ | ⟨y, k1, k2, k3, k4⟩
      · rw [alone_err k2, k1]; rfl
      · rw [alone_ok k4, k3]
        simp only [ok_bind]
        have hs : (⟨y, sizeSub o y⟩ : Subrange).start = y := rfl
        have hst : (⟨y, sizeSub o y⟩ : Subrange).stop ≤ o := by
          show (y + sizeSub o y) % SIZE_MOD ≤ o
          have h1 : sizeSub o y ≤ o - y := by
            unfold sizeSub
            rw [show o + SIZE_MOD - y = (o - y) + SIZE_MOD by omega, Nat.add_mod_right]
            exact Nat.mod_le _ _
          exact Nat.le_trans (Nat.mod_le _ _) (by omega)
        rw [hs]
        clear hs
        generalize (⟨y, sizeSub o y⟩ : Subrange).stop = z at hst
        by_cases hz : y ≤ z
        · rw [alone_ok (run_copyOut m b e _ _ _ (by omega) (by omega)), ih, bytes_drop, bytes_take m (by omega)]
        · rw [show z - y = 0 by omega]
          rw [alone_ok (run_copyOut m b e 0 _ _ (by omega) (by omega)), ih, bytes_nil m (show b + y + 0 ≤ b + y by omega), List.take_zero]
    · rfl

/-! ### Code points by index -/

theorem skipNext_suffix (s : Str) : ∃ u, s = u ++ (Ystring.skipNext s).2 := by
  cases s with
  | nil => exact ⟨[], rfl⟩
  | cons c t =>
    simp only [Ystring.skipNext]
    have : ∀ n (s : Str), ∃ u, s = u ++ skipCont n s := by
      intro n s
      induction s generalizing n with
      | nil => exact ⟨[], by cases n <;> rfl⟩
      | cons a s ih =>
        cases n with
        | zero => exact ⟨[], rfl⟩
        | succ n =>
          simp only [skipCont]
          split
          · obtain ⟨u, hu⟩ := ih n
            exact ⟨a :: u, by rw [List.cons_append, ← hu]⟩
          · exact ⟨[], rfl⟩
    split
    · exact ⟨[c], rfl⟩
    · obtain ⟨u, hu⟩ := this (if c &&& 0xE0 = 0xC0 then 1
        else if c &&& 0xF0 = 0xE0 then 2
        else if c &&& 0xF8 = 0xF0 then 3
        else 4294967295) t
      exact ⟨c :: u, by rw [List.cons_append, ← hu]⟩

theorem run_skipNextN (m : Mem) (b e : Nat) : ∀ (pos it : Nat), b ≤ it → it ≤ e →
    ∃ k x, it ≤ x ∧ x ≤ e ∧ Ystring.skipNextN pos (bytes m it e) = (k, bytes m x e) ∧
      alone (skipNextN ⟨b, e⟩ pos it) m = (.ok (k, x), m) := by
  intro pos
  induction pos with
  | zero => intro it hb he; exact ⟨0, it, Nat.le_refl _, he, rfl, rfl⟩
  | succ pos ih =>
    intro it hb he
    unfold skipNextN Ystring.skipNextN
    rw [alone_ok (run_skipNext m b e it hb he)]
    obtain ⟨u, hu⟩ := skipNext_suffix (bytes m it e)
    revert hu
    generalize Ystring.skipNext (bytes m it e) = x
    intro hu
    obtain ⟨h3, h4, h5⟩ := bytes_suffix m he hu
    obtain ⟨f, t⟩ := x
    have h6 : e - List.length t = it + u.length := by dsimp only at h5; omega
    cases f
    · refine ⟨pos + 1, it + u.length, by omega, h4, ?_, ?_⟩
      · show (pos + 1, t) = _
        dsimp only at h3
        rw [h3]
      · show alone (fin (.ok (pos + 1, e - t.length))) m = _
        rw [h6]; rfl
    · obtain ⟨k, x, k1, k2, k3, k4⟩ := ih (it + u.length) (by omega) h4
      refine ⟨k, x, by omega, k2, ?_, ?_⟩
      · show Ystring.skipNextN pos t = _
        dsimp only at h3
        rw [h3]; exact k3
      · show alone (skipNextN ⟨b, e⟩ pos (e - t.length)) m = _
        rw [h6]; exact k4

theorem run_skipPrevN (m : Mem) (b e : Nat) : ∀ (pos it : Nat), b ≤ it → it ≤ e →
    ∃ k x, b ≤ x ∧ x ≤ it ∧ Ystring.skipPrevN pos (bytes m b it).reverse = .ok (k, (bytes m b x).reverse) ∧
      alone (skipPrevN ⟨b, e⟩ pos it) m = (.ok (k, x), m) := by
  intro pos
  induction pos with
  | zero => intro it hb he; exact ⟨0, it, hb, Nat.le_refl _, rfl, rfl⟩
  | succ pos ih =>
    intro it hb he
    unfold skipPrevN Ystring.skipPrevN
    have hp : ∃ f u t, (bytes m b it).reverse = u ++ t ∧ Ystring.skipPrev (bytes m b it).reverse = .ok (f, t) := by
      obtain ⟨k, u, t, h2, h3⟩ := skipPrevN_suffix 1 (bytes m b it).reverse
      simp only [Ystring.skipPrevN] at h3
      cases h4 : Ystring.skipPrev (bytes m b it).reverse with
      | ok a =>
        rw [h4] at h3
        obtain ⟨f, t'⟩ := a
        refine ⟨f, u, t, h2, ?_⟩
        cases f <;> (simp only [ok_bind] at h3; injection h3 with h3; injection h3 with _ h3; rw [h3])
      | error er => rw [h4] at h3; cases h3
    obtain ⟨f, u, t, h2, h3⟩ := hp
    have h2' : bytes m b it = t.reverse ++ u.reverse := by
      rw [← List.reverse_append, ← h2, List.reverse_reverse]
    obtain ⟨h4, h5, h6⟩ := bytes_prefix m hb h2'
    rw [List.length_reverse] at h4 h5 h6
    rw [List.length_reverse] at h6
    have hr := run_skipPrev m b e it hb he
    rw [h3] at hr
    have ht : t = (bytes m b (it - u.length)).reverse := by rw [← h4, List.reverse_reverse]
    have hr' : alone (skipPrev ⟨b, e⟩ it) m = (.ok (f, it - u.length), m) := by rw [hr, ← h6]; rfl
    rw [alone_ok hr', h3]
    cases f
    · exact ⟨pos + 1, it - u.length, by omega, by omega, by rw [← ht]; rfl, rfl⟩
    · obtain ⟨k, x, k1, k2, k3, k4⟩ := ih (it - u.length) (by omega) (by omega)
      refine ⟨k, x, k1, by omega, ?_, k4⟩
      show Ystring.skipPrevN pos t = _
      rw [ht]; exact k3

theorem run_getCodepoint (m : Mem) (b e : Nat) (hb : b ≤ e) (pos : Int) :
    alone (getCodepoint ⟨b, e⟩ pos) m = (Ystring.getCodepoint (bytes m b e) pos, m) := by
  unfold getCodepoint Ystring.getCodepoint
  by_cases hp : pos ≥ 0
  · rw [if_pos hp, if_pos hp]
    obtain ⟨k, x, k1, k2, k3, k4⟩ := run_skipNextN m b e pos.toNat b (Nat.le_refl _) hb
    rw [alone_ok k4, k3]
    dsimp only
    obtain ⟨h1, h2⟩ | ⟨h1, h2⟩ | ⟨c, i, h3, h4, h1, h2⟩ := run_safeDecodeNext m b e x (by omega) k2
    · rw [alone_ok h2, h1]
      simp only [ok_bind, bytes_length, alone_fin]
    · rw [alone_err h2, h1]; rfl
    · rw [alone_ok h2, h1]
      simp only [ok_bind, posOf, bytes_length, alone_fin]
      rw [show e - b - (e - x) = x - b by omega, show e - b - (e - i) - (x - b) = i - x by omega]
  · rw [if_neg hp, if_neg hp]
    obtain ⟨k, x, k1, k2, k3, k4⟩ := run_skipPrevN m b e (-pos - 1).toNat e hb (Nat.le_refl _)
    rw [alone_ok k4, k3]
    dsimp only [ok_bind]
    obtain ⟨h1, h2⟩ | ⟨er, h1, h2⟩ | ⟨c, i, h3, h4, h1, h2⟩ := run_safeDecodePrev m b e x k1 (by omega)
    · rw [alone_ok h2, h1]; rfl
    · rw [alone_err h2, h1]; rfl
    · rw [alone_ok h2, h1]
      simp only [ok_bind, List.length_reverse, bytes_length, alone_fin]
      rw [show x - b - (i - b) = x - i by omega]

theorem run_getCodepointPos (m : Mem) (b e : Nat) (hb : b ≤ e) (pos : Int) :
    alone (getCodepointPos ⟨b, e⟩ pos) m = (Ystring.getCodepointPos (bytes m b e) pos, m) := by
  unfold getCodepointPos Ystring.getCodepointPos
  rw [bytes_length]
  split
  · rfl
  split
  · rfl
  split
  · obtain ⟨k, x, k1, k2, k3, k4⟩ := run_skipNextN m b e pos.toNat b (Nat.le_refl _) hb
    rw [alone_ok k4, k3]
    cases k with
    | zero =>
      simp only [posOf, bytes_length, if_true, alone_fin]
      rw [show e - b - (e - x) = x - b by omega]
    | succ k => rfl
  · obtain ⟨k, x, k1, k2, k3, k4⟩ := run_skipPrevN m b e (-pos).toNat e hb (Nat.le_refl _)
    rw [alone_ok k4, k3]
    cases k with
    | zero =>
      simp only [ok_bind, if_true, alone_fin, List.length_reverse, bytes_length]
    | succ k => rfl

/-! ### to_composed -/

theorem run_appendBetween (m : Mem) (b e f t : Nat) (x : Str) (hf : b ≤ f) (ht : t ≤ e) (hf' : f ≤ e) :
    (∃ er, between (bytes m f e) (bytes m t e) = .error er ∧ alone (appendBetween ⟨b, e⟩ f t x) m = (.error er, m)) ∨
    (∃ y, between (bytes m f e) (bytes m t e) = .ok y ∧ alone (appendBetween ⟨b, e⟩ f t x) m = (.ok (x ++ y), m)) := by
  unfold appendBetween between
  simp only [bytes_length]
  by_cases h : f ≤ t
  · rw [if_pos h, if_pos (by omega), run_copyOut m b e _ _ _ hf (by omega)]
    refine .inr ⟨_, rfl, ?_⟩
    rw [show e - f - (e - t) = t - f by omega, bytes_take m (by omega)]
  · rw [if_neg h, if_neg (by omega)]
    exact .inl ⟨_, rfl, rfl⟩

theorem run_composeRun (m : Mem) (b e : Nat) : ∀ (fuel : Nat) (ch mark : Char32) (it : Nat), b ≤ it → it ≤ e →
    (∃ er, Ystring.composeRun fuel ch mark (bytes m it e) = .error er ∧ alone (composeRun ⟨b, e⟩ fuel ch mark it) m = (.error er, m)) ∨
    (∃ c k i f, it ≤ f ∧ f ≤ i ∧ i ≤ e ∧ Ystring.composeRun fuel ch mark (bytes m it e) = .ok (c, k, bytes m i e, bytes m f e) ∧
      alone (composeRun ⟨b, e⟩ fuel ch mark it) m = (.ok (c, k, i, f), m)) := by
  intro fuel
  induction fuel with
  | zero => intros; exact .inl ⟨.diverge, rfl, rfl⟩
  | succ fuel ih =>
    intro ch mark it hb he
    unfold composeRun Ystring.composeRun
    dsimp only
    obtain ⟨h1, h2⟩ | ⟨h1, h2⟩ | ⟨c, i, h3, h4, h1, h2⟩ := run_safeDecodeNext m b e it hb he
    · rw [alone_ok h2, h1]
      exact .inr ⟨ch, mark, it, it, Nat.le_refl _, Nat.le_refl _, he, rfl, rfl⟩
    · rw [alone_err h2, h1]; exact .inl ⟨_, rfl, rfl⟩
    · rw [alone_ok h2, h1]
      simp only [ok_bind]
      rw [alone_bind, alone_fin]
      cases findComposed ch c with
      | error er => exact .inl ⟨_, rfl, rfl⟩
      | ok d =>
        simp only [ok_bind]
        by_cases hd : d = 0
        · rw [if_pos hd, if_pos hd]
          exact .inr ⟨ch, c, i, it, Nat.le_refl _, by omega, h4, rfl, rfl⟩
        · rw [if_neg hd, if_neg hd]
          rcases ih d c i (by omega) h4 with h | ⟨c', k', i', f', k1, k2, k3, k4, k5⟩
          · exact .inl h
          · exact .inr ⟨c', k', i', f', by omega, k2, k3, k4, k5⟩

theorem run_toComposedLoop (m : Mem) (b e : Nat) : ∀ (fuel : Nat) (ch : Char32) (x : Str) (f it t p : Nat),
    b ≤ it → it ≤ e → b ≤ f → f ≤ e → t ≤ e → p ≤ e →
    alone (toComposedLoop ⟨b, e⟩ fuel ch x f it t p) m =
      ((do
        let (result, «from», prev) ← Ystring.toComposedLoop (e - b + 1) fuel ch x (bytes m f e) (bytes m it e) (bytes m t e) (bytes m p e)
        let t ← between «from» prev
        .ok (result ++ t)), m) := by
  intro fuel
  induction fuel with
  | zero => intros; rfl
  | succ fuel ih =>
    intro ch x f it t p hb he hf hf' ht hp
    unfold toComposedLoop Ystring.toComposedLoop
    obtain ⟨h1, h2⟩ | ⟨h1, h2⟩ | ⟨c, i, h3, h4, h1, h2⟩ := run_safeDecodeNext m b e it hb he
    · rw [alone_ok h2, h1]
      simp only [ok_bind]
      rcases run_appendBetween m b e f p x hf hp hf' with ⟨er, k1, k2⟩ | ⟨y, k1, k2⟩
      · rw [k1, k2]; rfl
      · rw [k1, k2]; rfl
    · rw [alone_err h2, h1]; rfl
    · rw [alone_ok h2, h1]
      simp only [ok_bind]
      rw [alone_bind, alone_fin]
      cases findComposed ch c with
      | error er => rfl
      | ok d =>
        simp only [ok_bind]
        by_cases hd : d = 0
        · rw [if_pos hd, if_pos hd]
          exact ih _ _ _ _ _ _ (by omega) h4 hf hf' hp h4
        · rw [if_neg hd, if_neg hd]
          rcases run_appendBetween m b e f t x hf ht hf' with ⟨er, k1, k2⟩ | ⟨y, k1, k2⟩
          · rw [alone_err k2, k1]; rfl
          · rw [alone_ok k2, k1]
            simp only [ok_bind]
            rcases run_composeRun m b e (e - b + 1) d c i (by omega) h4 with ⟨er, j1, j2⟩ | ⟨c', k', i', f', j1, j2, j3, j4, j5⟩
            · rw [alone_err j2, j1]; rfl
            · rw [alone_ok j5, j4]
              simp only [ok_bind]
              exact ih _ _ _ _ _ _ (by omega) j3 (by omega) (by omega) (by omega) (by omega)

theorem run_toComposed (m : Mem) (b e : Nat) (hb : b ≤ e) :
    alone (toComposed ⟨b, e⟩) m = (Ystring.toComposed (bytes m b e), m) := by
  unfold toComposed Ystring.toComposed
  obtain ⟨h1, h2⟩ | ⟨h1, h2⟩ | ⟨c, i, h3, h4, h1, h2⟩ := run_safeDecodeNext m b e b (Nat.le_refl _) hb
  · rw [alone_ok h2, h1]; rfl
  · rw [alone_err h2, h1]; rfl
  · rw [alone_ok h2, h1]
    simp only [ok_bind, bytes_length]
    exact run_toComposedLoop m b e _ _ _ _ _ _ _ (by omega) h4 (Nat.le_refl _) hb hb h4

end Ystring.Thr
