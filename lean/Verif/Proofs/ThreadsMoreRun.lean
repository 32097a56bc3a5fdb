import Verif.Model.ThreadsMore
import Verif.Proofs.ThreadsCalls
import Verif.Proofs.ThreadsUnescape
import Verif.Proofs.SafetyMore
/- What the functions of Verif/Model/ThreadsMore.lean return when they are alone. -/
namespace Ystring.Thr
open Ptr Spec

theorem alone_pincs (m : Mem) {b e : Nat} (k it : Nat) (h : it + k ≤ e) (hb : b ≤ it) :
    alone (ptr ⟨b, e⟩ (it + k)) m = (.ok (it + k), m) ∧ incs ⟨b, e⟩ k it = .ok (it + k) := by
  refine ⟨alone_ptr m (by omega) h, ?_⟩
  induction k generalizing it with
  | zero => rfl
  | succ k ih =>
    unfold incs
    rw [inc_ok b e it hb (by omega)]
    show incs ⟨b, e⟩ k (it + 1) = _
    rw [ih (it + 1) (by omega) (by omega)]
    congr 1; omega

theorem run_skipPrevLoop (m : Mem) (b e s : Nat) (hs : s ≤ e) : ∀ (fuel n it d : Nat), b < it → it - b ≤ fuel →
    s = it + d → n = d % 4294967296 →
    alone (skipPrevLoop ⟨b, e⟩ fuel n it) m = (conv (Ptr.skipPrevLoop m ⟨b, e⟩ fuel n it), m) := by
  intro fuel
  induction fuel with
  | zero => intros; omega
  | succ fuel ih =>
    intro n it d hb hf hs' hn
    unfold skipPrevLoop Ptr.skipPrevLoop
    rw [alone_ok (alone_back m (by omega) (by omega)), alone_ok (alone_load m (by omega) (by omega)), dec_ok b e it hb (by omega)]
    simp only [bind, Except.bind, load_ok m b e (it - 1) (by omega) (by omega)]
    split
    · split
      · rfl
      · rename_i h1 h2
        exact ih _ (it - 1) (d + 1) (by omega) (by omega) (by omega) (by omega)
    · rw [← bind_def, alone_ok (alone_load m (by omega) (by omega))]
      generalize (if m (it - 1) &&& 0x80 = 0 then 1
        else if m (it - 1) &&& 0xE0 = 0xC0 then 2
        else if m (it - 1) &&& 0xF0 = 0xE0 then 3
        else if m (it - 1) &&& 0xF8 = 0xF0 then 4
        else 4294967295) = k
      split
      · rfl
      · obtain ⟨h1, h2⟩ := alone_pincs m (b := b) (e := e) k (it - 1) (by omega) (by omega)
        rw [← bind_def, alone_ok h1, h2]
        rfl

theorem run_skipPrev (m : Mem) (b e it : Nat) (hb : b ≤ it) (he : it ≤ e) :
    alone (skipPrev ⟨b, e⟩ it) m = ((Ystring.skipPrev (bytes m b it).reverse).map (behind b), m) := by
  have h1 : alone (skipPrev ⟨b, e⟩ it) m = (conv (Ptr.skipPrev m ⟨b, e⟩ it), m) := by
    unfold skipPrev Ptr.skipPrev
    by_cases h : it = b
    · rw [if_pos h, if_pos h]; rfl
    · rw [if_neg h, if_neg h]
      exact run_skipPrevLoop m b e it he _ 0 it 0 (by omega) (by dsimp only; omega) rfl rfl
  rw [h1, Ptr.skipPrev_eq m b e it hb he]
  have : ∀ x : Res (Bool × Str), (∃ a, x = .ok a) → conv (lift (behind b) x) = x.map (behind b) := by
    rintro _ ⟨a, rfl⟩; rfl
  rw [this]
  obtain ⟨k, u, t, h2, h3⟩ := skipPrevN_suffix 1 (bytes m b it).reverse
  simp only [Ystring.skipPrevN] at h3
  cases h4 : Ystring.skipPrev (bytes m b it).reverse with
  | ok a => exact ⟨a, rfl⟩
  | error er => rw [h4] at h3; cases h3

theorem run_toTitleLoop (m : Mem) (b e : Nat) : ∀ (fuel it : Nat) (x : Str) (p : Bool), b ≤ it → it ≤ e →
    alone (toTitleLoop ⟨b, e⟩ fuel it x p) m = (Ystring.toTitleLoop fuel (bytes m it e) x p, m) := by
  intro fuel
  induction fuel with
  | zero => intros; rfl
  | succ fuel ih =>
    intro it x p hb he
    unfold toTitleLoop Ystring.toTitleLoop
    obtain ⟨h1, h2⟩ | ⟨h1, h2⟩ | ⟨c, it', h3, h4, h1, h2⟩ := run_safeDecodeNext m b e it hb he
    · rw [alone_ok h2, h1]; rfl
    · rw [alone_err h2, h1]; rfl
    · rw [alone_ok h2, h1]
      simp only [bind, Except.bind]
      split
      · rw [← bind_def, alone_bind, alone_fin]
        cases append x c with
        | error er => rfl
        | ok y => exact ih it' _ _ (by omega) h4
      split
      · rw [← bind_def, alone_bind, alone_fin]
        cases append x (toLowerChar c) with
        | error er => rfl
        | ok y => exact ih it' _ _ (by omega) h4
      split
      · rw [← bind_def, alone_bind, alone_fin]
        cases append x (toTitleChar c) with
        | error er => rfl
        | ok y => exact ih it' _ _ (by omega) h4
      · exact ih it' _ _ (by omega) h4

theorem run_equalLoop (m : Mem) (b e b' e' : Nat) : ∀ (fuel it it' : Nat), b ≤ it → it ≤ e → b' ≤ it' → it' ≤ e' →
    alone (equalLoop ⟨b, e⟩ ⟨b', e'⟩ fuel it it') m = (CI.equalLoop fuel (bytes m it e) (bytes m it' e'), m) := by
  intro fuel
  induction fuel with
  | zero => intros; rfl
  | succ fuel ih =>
    intro it it' hb he hb' he'
    unfold equalLoop CI.equalLoop
    obtain ⟨h1, h2⟩ | ⟨h1, h2⟩ | ⟨c, i, h3, h4, h1, h2⟩ := run_safeDecodeNext m b e it hb he
    · rw [alone_ok h2, h1]
      obtain ⟨h1, h2⟩ | ⟨h1, h2⟩ | ⟨c', i', h3', h4', h1, h2⟩ := run_safeDecodeNext m b' e' it' hb' he'
      · rw [alone_ok h2, h1]; rfl
      · rw [alone_err h2, h1]; rfl
      · rw [alone_ok h2, h1]; rfl
    · rw [alone_err h2, h1]; rfl
    · rw [alone_ok h2, h1]
      obtain ⟨h1, h2⟩ | ⟨h1, h2⟩ | ⟨c', i', h3', h4', h1, h2⟩ := run_safeDecodeNext m b' e' it' hb' he'
      · rw [alone_ok h2, h1]; rfl
      · rw [alone_err h2, h1]; rfl
      · rw [alone_ok h2, h1]
        simp only [bind, Except.bind]
        split
        · rfl
        · exact ih i i' (by omega) h4 (by omega) h4'

theorem run_lessLoop (m : Mem) (b e b' e' : Nat) : ∀ (fuel it it' : Nat), b ≤ it → it ≤ e → b' ≤ it' → it' ≤ e' →
    alone (lessLoop ⟨b, e⟩ ⟨b', e'⟩ fuel it it') m = (CI.lessLoop fuel (bytes m it e) (bytes m it' e'), m) := by
  intro fuel
  induction fuel with
  | zero => intros; rfl
  | succ fuel ih =>
    intro it it' hb he hb' he'
    unfold lessLoop CI.lessLoop
    obtain ⟨h1, h2⟩ | ⟨h1, h2⟩ | ⟨c, i, h3, h4, h1, h2⟩ := run_safeDecodeNext m b e it hb he
    · rw [alone_ok h2, h1]
      obtain ⟨h1, h2⟩ | ⟨h1, h2⟩ | ⟨c', i', h3', h4', h1, h2⟩ := run_safeDecodeNext m b' e' it' hb' he'
      · rw [alone_ok h2, h1]; rfl
      · rw [alone_err h2, h1]; rfl
      · rw [alone_ok h2, h1]; rfl
    · rw [alone_err h2, h1]; rfl
    · rw [alone_ok h2, h1]
      obtain ⟨h1, h2⟩ | ⟨h1, h2⟩ | ⟨c', i', h3', h4', h1, h2⟩ := run_safeDecodeNext m b' e' it' hb' he'
      · rw [alone_ok h2, h1]; rfl
      · rw [alone_err h2, h1]; rfl
      · rw [alone_ok h2, h1]
        simp only [bind, Except.bind]
        split
        · rfl
        · exact ih i i' (by omega) h4 (by omega) h4'

/-- the outcomes of the mismatch functions at addresses -/
theorem run_nextMismatch (m : Mem) (b e b' e' : Nat) : ∀ (fuel it it' : Nat), b ≤ it → it ≤ e → b' ≤ it' → it' ≤ e' →
    (∃ er, CI.nextMismatch fuel (bytes m it e) (bytes m it' e') = .error er ∧
      alone (nextMismatch ⟨b, e⟩ ⟨b', e'⟩ fuel it it') m = (.error er, m)) ∨
    (∃ x y, it ≤ x ∧ x ≤ e ∧ it' ≤ y ∧ y ≤ e' ∧
      CI.nextMismatch fuel (bytes m it e) (bytes m it' e') = .ok (bytes m x e, bytes m y e') ∧
      alone (nextMismatch ⟨b, e⟩ ⟨b', e'⟩ fuel it it') m = (.ok (x, y), m)) := by
  intro fuel
  induction fuel with
  | zero => intros; exact .inl ⟨.diverge, rfl, rfl⟩
  | succ fuel ih =>
    intro it it' hb he hb' he'
    unfold nextMismatch CI.nextMismatch
    obtain ⟨h1, h2⟩ | ⟨h1, h2⟩ | ⟨c, i, h3, h4, h1, h2⟩ := run_safeDecodeNext m b e it hb he
    · rw [alone_ok h2, h1]
      exact .inr ⟨it, it', by omega, he, by omega, he', rfl, rfl⟩
    · rw [alone_err h2, h1]; exact .inl ⟨_, rfl, rfl⟩
    · rw [alone_ok h2, h1]
      simp only [ok_bind]
      obtain ⟨h1, h2⟩ | ⟨h1, h2⟩ | ⟨c', i', h3', h4', h1, h2⟩ := run_safeDecodeNext m b' e' it' hb' he'
      · rw [alone_ok h2, h1]
        exact .inr ⟨it, it', by omega, he, by omega, he', rfl, rfl⟩
      · rw [alone_err h2, h1]; exact .inl ⟨_, rfl, rfl⟩
      · rw [alone_ok h2, h1]
        simp only [ok_bind]
        by_cases hc : caseInsensitiveEqual c c'
        · rw [if_neg (by simp [hc]), if_neg (by simp [hc])]
          rcases ih i i' (by omega) h4 (by omega) h4' with h | ⟨x, y, k1, k2, k3, k4, k5, k6⟩
          · exact .inl h
          · exact .inr ⟨x, y, by omega, k2, by omega, k4, k5, k6⟩
        · rw [if_pos (by simp [hc]), if_pos (by simp [hc])]
          exact .inr ⟨it, it', by omega, he, by omega, he', rfl, rfl⟩

theorem run_prevMismatch (m : Mem) (b e b' e' : Nat) : ∀ (fuel it it' : Nat), b ≤ it → it ≤ e → b' ≤ it' → it' ≤ e' →
    (∃ er, CI.prevMismatch fuel (bytes m b it).reverse (bytes m b' it').reverse = .error er ∧
      alone (prevMismatch ⟨b, e⟩ ⟨b', e'⟩ fuel it it') m = (.error er, m)) ∨
    (∃ x y, b ≤ x ∧ x ≤ it ∧ b' ≤ y ∧ y ≤ it' ∧
      CI.prevMismatch fuel (bytes m b it).reverse (bytes m b' it').reverse = .ok ((bytes m b x).reverse, (bytes m b' y).reverse) ∧
      alone (prevMismatch ⟨b, e⟩ ⟨b', e'⟩ fuel it it') m = (.ok (x, y), m)) := by
  intro fuel
  induction fuel with
  | zero => intros; exact .inl ⟨.diverge, rfl, rfl⟩
  | succ fuel ih =>
    intro it it' hb he hb' he'
    unfold prevMismatch CI.prevMismatch
    obtain ⟨h1, h2⟩ | ⟨er, h1, h2⟩ | ⟨c, i, h3, h4, h1, h2⟩ := run_safeDecodePrev m b e it hb he
    · rw [alone_ok h2, h1]
      exact .inr ⟨it, it', hb, by omega, hb', by omega, rfl, rfl⟩
    · rw [alone_err h2, h1]; exact .inl ⟨_, rfl, rfl⟩
    · rw [alone_ok h2, h1]
      simp only [ok_bind]
      obtain ⟨h1, h2⟩ | ⟨er, h1, h2⟩ | ⟨c', i', h3', h4', h1, h2⟩ := run_safeDecodePrev m b' e' it' hb' he'
      · rw [alone_ok h2, h1]
        exact .inr ⟨it, it', hb, by omega, hb', by omega, rfl, rfl⟩
      · rw [alone_err h2, h1]; exact .inl ⟨_, rfl, rfl⟩
      · rw [alone_ok h2, h1]
        simp only [ok_bind]
        by_cases hc : caseInsensitiveEqual c c'
        · rw [if_neg (by simp [hc]), if_neg (by simp [hc])]
          rcases ih i i' h3 (by omega) h3' (by omega) with h | ⟨x, y, k1, k2, k3, k4, k5, k6⟩
          · exact .inl h
          · exact .inr ⟨x, y, k1, by omega, k3, by omega, k5, k6⟩
        · rw [if_pos (by simp [hc]), if_pos (by simp [hc])]
          exact .inr ⟨it, it', hb, by omega, hb', by omega, rfl, rfl⟩

theorem bytes_eq_nil (m : Mem) {a e : Nat} (h : a ≤ e) : bytes m a e = [] ↔ a = e := by
  rw [← List.length_eq_zero_iff, bytes_length]; omega

theorem run_startsWith (m : Mem) (b e b' e' : Nat) (h : b ≤ e) (h' : b' ≤ e') :
    alone (startsWith ⟨b, e⟩ ⟨b', e'⟩) m = (CI.startsWith (bytes m b e) (bytes m b' e'), m) := by
  unfold startsWith CI.startsWith
  rw [bytes_length]
  rcases run_nextMismatch m b e b' e' (e - b + 1) b b' (Nat.le_refl _) h (Nat.le_refl _) h' with ⟨er, h1, h2⟩ | ⟨x, y, k1, k2, k3, k4, h1, h2⟩
  · rw [alone_err h2, h1]; rfl
  · rw [alone_ok h2, h1, ok_bind]
    dsimp only
    rw [alone_fin, Bool.eq_iff_iff.mpr (show (y == e') = true ↔ (bytes m y e' == []) = true by simp [bytes_eq_nil m k4])]

theorem run_endsWith (m : Mem) (b e b' e' : Nat) (h : b ≤ e) (h' : b' ≤ e') :
    alone (endsWith ⟨b, e⟩ ⟨b', e'⟩) m = (CI.endsWith (bytes m b e) (bytes m b' e'), m) := by
  unfold endsWith CI.endsWith
  rw [bytes_length]
  rcases run_prevMismatch m b e b' e' (e - b + 1) e e' h (Nat.le_refl _) h' (Nat.le_refl _) with ⟨er, h1, h2⟩ | ⟨x, y, k1, k2, k3, k4, h1, h2⟩
  · rw [alone_err h2, h1]; rfl
  · rw [alone_ok h2, h1, ok_bind]
    dsimp only
    rw [alone_fin, Bool.eq_iff_iff.mpr (show (y == b') = true ↔ ((bytes m b' y).reverse == []) = true by
      simp [bytes_eq_nil m k3]; omega)]

theorem run_findFirstLoop (m : Mem) (b e b' e' : Nat) (chCmp : Char32) (itCmp : Nat) (hc1 : b' ≤ itCmp) (hc2 : itCmp ≤ e') :
    ∀ (fuel it it' : Nat), b ≤ it → it ≤ it' → it' ≤ e →
    alone (findFirstLoop ⟨b, e⟩ ⟨b', e'⟩ chCmp itCmp fuel it it') m
      = (CI.findFirstLoop (bytes m b e) chCmp (bytes m itCmp e') fuel (bytes m it e) (bytes m it' e), m) := by
  intro fuel
  induction fuel with
  | zero => intros; rfl
  | succ fuel ih =>
    intro it it' hb hi he
    unfold findFirstLoop CI.findFirstLoop
    obtain ⟨h1, h2⟩ | ⟨h1, h2⟩ | ⟨c, i, h3, h4, h1, h2⟩ := run_safeDecodeNext m b e it' (by omega) he
    · rw [alone_ok h2, h1]; rfl
    · rw [alone_err h2, h1]; rfl
    · rw [alone_ok h2, h1]
      simp only [ok_bind]
      by_cases hc : caseInsensitiveEqual c chCmp
      · rw [if_pos hc, if_pos hc]
        rcases run_nextMismatch m b e b' e' (e - b + 1) i itCmp (by omega) h4 hc1 hc2 with ⟨er, h1, h2⟩ | ⟨x, y, k1, k2, k3, k4, h1, h2⟩
        · rw [alone_err h2, bytes_length, h1]; rfl
        · rw [alone_ok h2, bytes_length, h1, ok_bind]
          dsimp only
          by_cases hy : y = e'
          · rw [if_pos hy, if_pos ((bytes_eq_nil m k4).mpr hy), alone_fin]
            simp only [posOf, bytes_length]
            congr 3 <;> omega
          · rw [if_neg hy, if_neg (fun h => hy ((bytes_eq_nil m k4).mp h))]
            exact ih i i (by omega) (Nat.le_refl _) h4
      · rw [if_neg hc, if_neg hc]
        exact ih i i (by omega) (Nat.le_refl _) h4

theorem run_findFirst (m : Mem) (b e b' e' o : Nat) (h : b ≤ e) (h' : b' ≤ e') :
    alone (findFirst ⟨b, e⟩ ⟨b', e'⟩ o) m = (CI.findFirst (bytes m b e) (bytes m b' e') o, m) := by
  unfold findFirst CI.findFirst
  obtain ⟨h1, h2⟩ | ⟨h1, h2⟩ | ⟨c, i, h3, h4, h1, h2⟩ := run_safeDecodeNext m b' e' b' (Nat.le_refl _) h'
  · rw [alone_ok h2, h1]; rfl
  · rw [alone_err h2, h1]; rfl
  · rw [alone_ok h2, h1]
    simp only [ok_bind]
    unfold iterAt
    by_cases ho : o > e - b
    · rw [alone_err (alone_ptr_bad m (by omega)), if_pos (by rw [bytes_length]; exact ho)]; rfl
    · rw [alone_ok (alone_ptr m (by omega) (by omega)), if_neg (by rw [bytes_length]; exact ho), ok_bind, bytes_length, bytes_drop]
      exact run_findFirstLoop m b e b' e' c i (by omega) h4 _ _ _ (by omega) (Nat.le_refl _) (by omega)

theorem run_findLastLoop (m : Mem) (b e b' e' : Nat) (chCmp : Char32) (itCmp : Nat) (hc1 : b' ≤ itCmp) (hc2 : itCmp ≤ e') :
    ∀ (fuel it it' : Nat), b ≤ it' → it' ≤ it → it ≤ e →
    alone (findLastLoop ⟨b, e⟩ ⟨b', e'⟩ chCmp itCmp fuel it it') m
      = (CI.findLastLoop (bytes m b e) chCmp (bytes m b' itCmp).reverse fuel (bytes m b it).reverse (bytes m b it').reverse, m) := by
  intro fuel
  induction fuel with
  | zero => intros; rfl
  | succ fuel ih =>
    intro it it' hb hi he
    unfold findLastLoop CI.findLastLoop
    obtain ⟨h1, h2⟩ | ⟨er, h1, h2⟩ | ⟨c, i, h3, h4, h1, h2⟩ := run_safeDecodePrev m b e it' hb (by omega)
    · rw [alone_ok h2, h1]; rfl
    · rw [alone_err h2, h1]; rfl
    · rw [alone_ok h2, h1]
      simp only [ok_bind]
      by_cases hc : caseInsensitiveEqual c chCmp
      · rw [if_pos hc, if_pos hc]
        rcases run_prevMismatch m b e b' e' (e - b + 1) i itCmp h3 (by omega) hc1 hc2 with ⟨er, h1, h2⟩ | ⟨x, y, k1, k2, k3, k4, h1, h2⟩
        · rw [alone_err h2, bytes_length, h1]; rfl
        · rw [alone_ok h2, bytes_length, h1, ok_bind]
          dsimp only
          have hn : (bytes m b' y).reverse = [] ↔ y = b' := by
            rw [List.reverse_eq_nil_iff, bytes_eq_nil m k3]; omega
          by_cases hy : y = b'
          · rw [if_pos hy, if_pos (hn.mpr hy), alone_fin]
            simp only [List.length_reverse, bytes_length]
            congr 3; omega
          · rw [if_neg hy, if_neg (fun h => hy (hn.mp h))]
            exact ih i i h3 (Nat.le_refl _) (by omega)
      · rw [if_neg hc, if_neg hc]
        exact ih i i h3 (Nat.le_refl _) (by omega)

theorem run_findLast (m : Mem) (b e b' e' o : Nat) (h : b ≤ e) (h' : b' ≤ e') :
    alone (findLast ⟨b, e⟩ ⟨b', e'⟩ o) m = (CI.findLast (bytes m b e) (bytes m b' e') o, m) := by
  unfold findLast CI.findLast
  obtain ⟨h1, h2⟩ | ⟨er, h1, h2⟩ | ⟨c, i, h3, h4, h1, h2⟩ := run_safeDecodePrev m b' e' e' h' (Nat.le_refl _)
  · rw [alone_ok h2, h1]; rfl
  · rw [alone_err h2, h1]; rfl
  · rw [alone_ok h2, h1]
    simp only [ok_bind]
    rw [alone_ok (alone_ptr m (by omega) (by omega)), bytes_length, bytes_take m (by omega)]
    exact run_findLastLoop m b e b' e' c i h3 (by omega) _ _ _ (by omega) (Nat.le_refl _) (by omega)

theorem run_copyOut (m : Mem) (b e : Nat) : ∀ (k a : Nat) (x : Str), b ≤ a → a + k ≤ e →
    alone (copyOut ⟨b, e⟩ k a x) m = (.ok (x ++ bytes m a (a + k)), m) := by
  intro k
  induction k with
  | zero => intro a x _ _; rw [bytes_nil m (by omega), List.append_nil]; rfl
  | succ k ih =>
    intro a x hb he
    unfold copyOut
    rw [alone_ok (alone_load m hb (by omega)), ih (a + 1) _ (by omega) (by omega), bytes_cons m (show a < a + (k + 1) by omega),
      List.append_assoc, show a + 1 + k = a + (k + 1) by omega]
    rfl

theorem bytes_take' (m : Mem) {a i e : Nat} (h1 : a ≤ i) (h2 : i ≤ e) : (bytes m a e).take (e - a - (e - i)) = bytes m a i := by
  have := bytes_take m (b := a) (e := e) (n := i - a) (by omega)
  rw [show e - a - (e - i) = i - a by omega, this, show a + (i - a) = i by omega]

theorem run_replaceInvalidLoop (m : Mem) (b e : Nat) (repl : Str) : ∀ (fuel it prev : Nat) (x : Str), b ≤ prev → prev ≤ it → it ≤ e →
    alone (replaceInvalidLoop ⟨b, e⟩ repl fuel it prev x) m
      = (Ystring.replaceInvalidLoop repl fuel (bytes m it e) (bytes m prev e) x, m) := by
  intro fuel
  induction fuel with
  | zero => intros; rfl
  | succ fuel ih =>
    intro it prev x hb hp he
    unfold replaceInvalidLoop Ystring.replaceInvalidLoop
    by_cases h0 : it = e
    · rw [if_neg (by simpa using h0), if_neg (by simp [bytes_nil m (show e ≤ it by omega)])]
      dsimp only
      rw [run_copyOut m b e _ _ _ hb (by omega), show prev + (e - prev) = e by omega]
    · have hr := run_decodeNext m b e it (by omega) he
      rw [if_pos h0, if_pos (by rw [bytes_cons m (by omega)]; simp)]
      by_cases h : HasSeqPrefix (bytes m it e)
      · obtain ⟨u, c, t, hu, e'⟩ := h
        obtain ⟨h3, h4, h5⟩ := bytes_suffix m he e'
        rw [e', decodeNext_seq hu] at hr
        have hr' : alone (decodeNext ⟨b, e⟩ it) m = (.ok (c, it + u.length), m) := by
          rw [hr, show it + u.length = e - t.length by omega]; rfl
        rw [alone_ok hr', e', decodeNext_seq hu, ok_bind]
        dsimp only
        rw [if_pos hu.ne_invalid, if_pos hu.ne_invalid, h3]
        exact ih _ _ _ hb (by omega) h4
      · rw [decodeNext_bad h] at hr ⊢
        have hr' : alone (decodeNext ⟨b, e⟩ it) m = (.ok (INVALID_CHAR, it), m) := by
          rw [hr]
          show (Except.ok (INVALID_CHAR, e - (bytes m it e).length), m) = _
          rw [bytes_length, show e - (e - it) = it by omega]
        rw [alone_ok hr', ok_bind]
        dsimp only
        rw [if_neg (by simp), if_neg (by simp), alone_ok (run_copyOut m b e _ _ _ hb (by omega)),
          alone_ok (run_skipNext m b e it (by omega) he), bytes_length, bytes_length, bytes_take' m hp he, show prev + (it - prev) = it by omega]
        have hs : ∃ u, bytes m it e = u ++ (Ystring.skipNext (bytes m it e)).2 := by
          obtain ⟨u, hu⟩ := skipNextN_suffix 1 (bytes m it e)
          refine ⟨u, hu.trans ?_⟩
          unfold Ystring.skipNextN
          cases h : Ystring.skipNext (bytes m it e) with
          | mk f t => cases f <;> rfl
        obtain ⟨u, hu⟩ := hs
        obtain ⟨h3, h4, h5⟩ := bytes_suffix m he hu
        have e1 : e - (Ystring.skipNext (bytes m it e)).2.length = it + u.length := by omega
        simp only [ahead, e1]
        rw [ih _ _ _ (by omega) (Nat.le_refl _) h4, ← h3]

theorem stdFindIf_le (pred : UInt8 → Bool) (l : Str) : stdFindIf pred l ≤ l.length := by
  induction l with
  | nil => exact Nat.le_refl _
  | cons a l ih => simp only [stdFindIf]; split <;> simp <;> omega

theorem run_findFirstEscapableChar (m : Mem) (b e o : Nat) (hb : b ≤ e) :
    alone (findFirstEscapableChar ⟨b, e⟩ o) m = (Ystring.findFirstEscapableChar (bytes m b e) o, m) := by
  unfold findFirstEscapableChar Ystring.findFirstEscapableChar
  by_cases ho : o > e - b
  · rw [alone_err (alone_ptr_bad m (by dsimp only; omega)), if_pos (by rw [bytes_length]; omega)]
  rw [alone_ok (alone_ptr m (by dsimp only; omega) (by dsimp only; omega)), if_neg (by rw [bytes_length]; omega)]
  dsimp only
  rw [alone_ok (run_scan m b e _ _ o (by omega)), bytes_drop, bytes_length, show b + o + (e - b - o) = e by omega]
  have hle := stdFindIf_le isEscapable (bytes m (b + o) e)
  rw [bytes_length] at hle
  revert hle
  generalize stdFindIf isEscapable (bytes m (b + o) e) = x
  intro hle
  by_cases hx : x < e - b - o
  · rw [if_pos hx, if_neg (by omega)]; rfl
  · rw [if_neg hx, if_pos (by omega)]
    dsimp only
    rw [alone_fin, show o + x = e - b by omega]

theorem run_escapeSequenceAt (m : Mem) (b e a : Nat) (h1 : b ≤ a) (h2 : a < e) :
    alone (escapeSequenceAt ⟨b, e⟩ a) m = (.ok (escapeSequence (m a)), m) := by
  unfold escapeSequenceAt escapeSequence
  rw [alone_ok (alone_load m h1 h2)]
  repeat' (split; · rfl)
  rw [alone_ok (alone_load m h1 h2), alone_ok (alone_load m h1 h2)]
  rfl

theorem run_escapeJsonLoop (m : Mem) (b e : Nat) (hb : b ≤ e) : ∀ (fuel o : Nat) (x : Str),
    alone (escapeJsonLoop ⟨b, e⟩ fuel o x) m = (Ystring.escapeJsonLoop (bytes m b e) fuel o x, m) := by
  intro fuel
  induction fuel with
  | zero => intros; rfl
  | succ fuel ih =>
    intro o x
    unfold escapeJsonLoop Ystring.escapeJsonLoop
    have hr := run_findFirstEscapableChar m b e o hb
    by_cases ho : o > e - b
    · have : Ystring.findFirstEscapableChar (bytes m b e) o = .error .ub := by
        unfold Ystring.findFirstEscapableChar; rw [if_pos (by rw [bytes_length]; exact ho)]
      rw [this] at hr ⊢
      rw [alone_err hr]; rfl
    · have hle := stdFindIf_le isEscapable (bytes m (b + o) e)
      rw [bytes_length] at hle
      have hf : Ystring.findFirstEscapableChar (bytes m b e) o
          = .ok ⟨o + stdFindIf isEscapable (bytes m (b + o) e), if o + stdFindIf isEscapable (bytes m (b + o) e) = e - b then 0 else 1⟩ := by
        unfold Ystring.findFirstEscapableChar
        rw [if_neg (by rw [bytes_length]; exact ho), bytes_drop, bytes_length]
      rw [hf] at hr ⊢
      rw [alone_ok hr, ok_bind]
      revert hle
      generalize stdFindIf isEscapable (bytes m (b + o) e) = k
      intro hle
      by_cases hk : o + k = e - b
      · rw [if_pos hk]
        rw [if_neg (by simp [Subrange.nonempty]), if_neg (by simp [Subrange.nonempty])]
        dsimp only
        rw [run_copyOut m b e _ _ _ (by omega) (by omega), bytes_drop, show b + o + (e - b - o) = e by omega]
      · rw [if_neg hk]
        rw [if_pos (by simp [Subrange.nonempty]), if_pos (by simp [Subrange.nonempty])]
        dsimp only
        rw [alone_ok (run_copyOut m b e _ _ _ (by omega) (by omega)), alone_ok (run_escapeSequenceAt m b e _ (by omega) (by omega)),
          ih, bytes_drop]
        have e1 : (bytes m b e)[o + k]? = some (m (b + (o + k))) := by
          have := bytes_drop m b e (o + k)
          have h2 : ((bytes m b e).drop (o + k))[0]? = some (m (b + (o + k))) := by
            rw [this, bytes_cons m (by omega)]; rfl
          rw [List.getElem?_drop] at h2
          simpa using h2
        rw [e1]
        dsimp only
        have e2 := bytes_take m (b := b + o) (e := e) (n := k) (by omega)
        rw [show o + k - o = k by omega, e2]

end Ystring.Thr
