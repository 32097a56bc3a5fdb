import Verif.Proofs.ThreadsRun
/- What the functions that read a string return when they are alone. -/
namespace Ystring.Thr
open Ptr Spec

theorem run_toUtf32Loop (m : Mem) (b e : Nat) : ∀ (fuel it : Nat) (x : List Char32), b ≤ it → it ≤ e →
    alone (toUtf32Loop ⟨b, e⟩ fuel it x) m = (Ystring.toUtf32Loop fuel (bytes m it e) x, m) := by
  intro fuel
  induction fuel with
  | zero => intros; rfl
  | succ fuel ih =>
    intro it x hb he
    unfold toUtf32Loop Ystring.toUtf32Loop
    obtain ⟨h1, h2⟩ | ⟨h1, h2⟩ | ⟨c, it', h3, h4, h1, h2⟩ := run_safeDecodeNext m b e it hb he
    · rw [alone_ok h2, h1]; rfl
    · rw [alone_err h2, h1]; rfl
    · rw [alone_ok h2, h1]; exact ih it' _ (by omega) h4

theorem run_containsLoop (m : Mem) (b e : Nat) (chr : Char32) : ∀ (fuel it : Nat), b ≤ it → it ≤ e →
    alone (containsLoop ⟨b, e⟩ chr fuel it) m = (Ystring.containsLoop chr fuel (bytes m it e), m) := by
  intro fuel
  induction fuel with
  | zero => intros; rfl
  | succ fuel ih =>
    intro it hb he
    unfold containsLoop Ystring.containsLoop
    obtain ⟨h1, h2⟩ | ⟨h1, h2⟩ | ⟨c, it', h3, h4, h1, h2⟩ := run_safeDecodeNext m b e it hb he
    · rw [alone_ok h2, h1]; rfl
    · rw [alone_err h2, h1]; rfl
    · rw [alone_ok h2, h1]
      simp only [bind, Except.bind]
      split
      · rfl
      · exact ih it' (by omega) h4

theorem skipNext_false (s : Str) : (Ystring.skipNext s).1 = false ↔ s = [] := by
  cases s with
  | nil => simp [Ystring.skipNext]
  | cons c t => simp only [Ystring.skipNext]; split <;> simp

theorem run_countCodepointsLoop (m : Mem) (b e : Nat) : ∀ (fuel it x : Nat), b ≤ it → it ≤ e →
    alone (countCodepointsLoop ⟨b, e⟩ fuel it x) m = (Ystring.countCodepointsLoop fuel (bytes m it e) x, m) := by
  intro fuel
  induction fuel with
  | zero => intros; rfl
  | succ fuel ih =>
    intro it x hb he
    unfold countCodepointsLoop Ystring.countCodepointsLoop
    rw [alone_ok (run_skipNext m b e it hb he)]
    have hs : ∃ u, bytes m it e = u ++ (Ystring.skipNext (bytes m it e)).2 := by
      cases bytes m it e with
      | nil => exact ⟨[], rfl⟩
      | cons c t =>
        simp only [Ystring.skipNext]
        have : ∀ n (s : Str), ∃ u, s = u ++ skipCont n s := by
          intro n s
          induction s generalizing n with
          | nil => exact ⟨[], by cases n <;> rfl⟩
          | cons a s ih =>
            cases n with
            | zero => exact ⟨[], rfl⟩
            | succ n =>
              simp only [skipCont]
              split
              · obtain ⟨u, hu⟩ := ih n
                exact ⟨a :: u, by rw [List.cons_append, ← hu]⟩
              · exact ⟨[], rfl⟩
        split
        · exact ⟨[c], rfl⟩
        · obtain ⟨u, hu⟩ := this (if c &&& 0xE0 = 0xC0 then 1
            else if c &&& 0xF0 = 0xE0 then 2
            else if c &&& 0xF8 = 0xF0 then 3
            else 4294967295) t
          exact ⟨c :: u, by rw [List.cons_append, ← hu]⟩
    revert hs
    generalize Ystring.skipNext (bytes m it e) = x
    rintro ⟨u, hu⟩
    obtain ⟨h3, h4, h5⟩ := bytes_suffix m he hu
    obtain ⟨f, t⟩ := x
    cases f
    · rfl
    · simp only [ahead]
      have : e - List.length t = it + u.length := by dsimp only at h5; omega
      rw [this, ih _ _ (by omega) h4, ← h3]

theorem run_isValidUtf8Loop (m : Mem) (b e : Nat) : ∀ (fuel it : Nat), b ≤ it → it ≤ e →
    alone (isValidUtf8Loop ⟨b, e⟩ fuel it) m = (Ystring.isValidUtf8Loop fuel (bytes m it e), m) := by
  intro fuel
  induction fuel with
  | zero => intros; rfl
  | succ fuel ih =>
    intro it hb he
    unfold isValidUtf8Loop Ystring.isValidUtf8Loop
    by_cases h0 : it = e
    · rw [if_neg (by simpa using h0), if_neg (by simp [bytes_nil m (show e ≤ it by omega)])]; rfl
    · have hr := run_decodeNext m b e it hb he
      rw [if_pos h0, if_pos (by rw [bytes_cons m (by omega)]; simp)]
      by_cases h : HasSeqPrefix (bytes m it e)
      · obtain ⟨u, c, t, hu, e'⟩ := h
        obtain ⟨h3, h4, h5⟩ := bytes_suffix m he e'
        rw [e', decodeNext_seq hu] at hr
        have hr' : alone (decodeNext ⟨b, e⟩ it) m = (.ok (c, it + u.length), m) := by
          rw [hr, show it + u.length = e - t.length by omega]; rfl
        rw [alone_ok hr', e', decodeNext_seq hu]
        simp only [bind, Except.bind]
        rw [if_neg hu.ne_invalid, if_neg hu.ne_invalid, h3]
        exact ih _ (by omega) h4
      · rw [decodeNext_bad h] at hr ⊢
        have hr' : alone (decodeNext ⟨b, e⟩ it) m = (.ok (INVALID_CHAR, e - (bytes m it e).length), m) := hr
        rw [alone_ok hr']
        simp only [bind, Except.bind]
        rw [if_pos trivial, if_pos trivial]; rfl

theorem run_findFirstWhereLoop (m : Mem) (b e : Nat) (pred : Char32 → Bool) : ∀ (fuel it prev : Nat), b ≤ it → it ≤ e → b ≤ prev →
    prev ≤ e →
    alone (findFirstWhereLoop ⟨b, e⟩ pred fuel it prev) m
      = (Ystring.findFirstWhereLoop (bytes m b e) pred fuel (bytes m it e) (bytes m prev e), m) := by
  intro fuel
  induction fuel with
  | zero => intros; rfl
  | succ fuel ih =>
    intro it prev hb he hb' he'
    unfold findFirstWhereLoop Ystring.findFirstWhereLoop
    obtain ⟨h1, h2⟩ | ⟨h1, h2⟩ | ⟨c, it', h3, h4, h1, h2⟩ := run_safeDecodeNext m b e it hb he
    · rw [alone_ok h2, h1]; rfl
    · rw [alone_err h2, h1]; rfl
    · rw [alone_ok h2, h1]
      simp only [bind, Except.bind]
      split
      · simp only [posOf, bytes_length]
        show (_, _) = _
        congr 4 <;> omega
      · exact ih it' _ (by omega) h4 (by omega) h4

theorem run_findLastWhereLoop (m : Mem) (b e : Nat) (pred : Char32 → Bool) : ∀ (fuel it stop : Nat), b ≤ it → it ≤ e → b ≤ stop →
    stop ≤ e →
    alone (findLastWhereLoop ⟨b, e⟩ pred fuel it stop) m
      = (Ystring.findLastWhereLoop pred fuel (bytes m b it).reverse (bytes m b stop).reverse, m) := by
  intro fuel
  induction fuel with
  | zero => intros; rfl
  | succ fuel ih =>
    intro it stop hb he hb' he'
    unfold findLastWhereLoop Ystring.findLastWhereLoop
    obtain ⟨h1, h2⟩ | ⟨er, h1, h2⟩ | ⟨c, it', h3, h4, h1, h2⟩ := run_safeDecodePrev m b e it hb he
    · rw [alone_ok h2, h1]; rfl
    · rw [alone_err h2, h1]; rfl
    · rw [alone_ok h2, h1]
      simp only [bind, Except.bind]
      split
      · simp only [bytes_length, List.length_reverse]
        show (_, _) = _
        congr 4; omega
      · exact ih it' _ h3 (by omega) h3 (by omega)

theorem run_toLowerLoop (m : Mem) (b e : Nat) : ∀ (fuel it : Nat) (x : Str), b ≤ it → it ≤ e →
    alone (toLowerLoop ⟨b, e⟩ fuel it x) m = (Ystring.toLowerLoop fuel (bytes m it e) x, m) := by
  intro fuel
  induction fuel with
  | zero => intros; rfl
  | succ fuel ih =>
    intro it x hb he
    unfold toLowerLoop Ystring.toLowerLoop
    obtain ⟨h1, h2⟩ | ⟨h1, h2⟩ | ⟨c, it', h3, h4, h1, h2⟩ := run_safeDecodeNext m b e it hb he
    · rw [alone_ok h2, h1]; rfl
    · rw [alone_err h2, h1]; rfl
    · rw [alone_ok h2, h1]
      simp only [bind, Except.bind]
      rw [← bind_def, alone_bind, alone_fin]
      cases append x (toLowerChar c) with
      | error er => rfl
      | ok y => exact ih it' _ (by omega) h4

theorem run_toUpperLoop (m : Mem) (b e : Nat) : ∀ (fuel it : Nat) (x : Str), b ≤ it → it ≤ e →
    alone (toUpperLoop ⟨b, e⟩ fuel it x) m = (Ystring.toUpperLoop fuel (bytes m it e) x, m) := by
  intro fuel
  induction fuel with
  | zero => intros; rfl
  | succ fuel ih =>
    intro it x hb he
    unfold toUpperLoop Ystring.toUpperLoop
    obtain ⟨h1, h2⟩ | ⟨h1, h2⟩ | ⟨c, it', h3, h4, h1, h2⟩ := run_safeDecodeNext m b e it hb he
    · rw [alone_ok h2, h1]; rfl
    · rw [alone_err h2, h1]; rfl
    · rw [alone_ok h2, h1]
      simp only [bind, Except.bind]
      split
      · rw [← bind_def, alone_bind, alone_fin]
        cases append x (toUpperChar c) with
        | error er => rfl
        | ok y => exact ih it' _ (by omega) h4
      · exact ih it' _ (by omega) h4

theorem run_compareLoop (m : Mem) (b e b' e' : Nat) : ∀ (fuel it it' : Nat), b ≤ it → it ≤ e → b' ≤ it' → it' ≤ e' →
    alone (compareLoop ⟨b, e⟩ ⟨b', e'⟩ fuel it it') m = (CI.compareLoop fuel (bytes m it e) (bytes m it' e'), m) := by
  intro fuel
  induction fuel with
  | zero => intros; rfl
  | succ fuel ih =>
    intro it it' hb he hb' he'
    unfold compareLoop CI.compareLoop
    obtain ⟨h1, h2⟩ | ⟨h1, h2⟩ | ⟨c, i, h3, h4, h1, h2⟩ := run_safeDecodeNext m b e it hb he
    · rw [alone_ok h2, h1]
      obtain ⟨h1, h2⟩ | ⟨h1, h2⟩ | ⟨c', i', h3', h4', h1, h2⟩ := run_safeDecodeNext m b' e' it' hb' he'
      · rw [alone_ok h2, h1]; rfl
      · rw [alone_err h2, h1]; rfl
      · rw [alone_ok h2, h1]; rfl
    · rw [alone_err h2, h1]; rfl
    · rw [alone_ok h2, h1]
      obtain ⟨h1, h2⟩ | ⟨h1, h2⟩ | ⟨c', i', h3', h4', h1, h2⟩ := run_safeDecodeNext m b' e' it' hb' he'
      · rw [alone_ok h2, h1]; rfl
      · rw [alone_err h2, h1]; rfl
      · rw [alone_ok h2, h1]
        simp only [bind, Except.bind]
        split
        · rfl
        · exact ih i i' (by omega) h4 (by omega) h4'

end Ystring.Thr
