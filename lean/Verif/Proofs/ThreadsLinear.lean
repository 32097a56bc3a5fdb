import Verif.Proofs.ThreadsWaitRun
import Verif.Proofs.ThreadsStop
/- The number of accesses of `unescape` when nobody else changes the buffer: at most five for each byte -/
namespace Ystring.Thr
open Ptr Spec

variable {α β : Type}

theorem wp_steps {E : Err → Nat → Prop} {Q : α → Nat → Prop} {p : Prog α} : ∀ {c : Nat} {m : Mem}, Wp E Q p c →
    (∀ a m', alone p m = (.ok a, m') → Q a (c + steps p m)) ∧ (∀ e m', alone p m = (.error e, m') → E e (c + steps p m)) := by
  induction p with
  | done r =>
    intro c m h
    cases r with
    | ok a =>
      refine ⟨fun a' m' e => ?_, fun e m' e' => ?_⟩
      · injection e with e _; injection e with e; subst e; exact h
      · injection e' with e' _; cases e'
    | error x =>
      refine ⟨fun a' m' e => ?_, fun e m' e' => ?_⟩
      · injection e with e _; cases e
      · injection e' with e' _; injection e' with e'; subst e'; exact h
  | load a k ih =>
    intro c m h
    have := ih (m a) (c := c + 1) (m := m) (h _)
    simp only [steps, alone]
    rw [show c + (steps (k (m a)) m + 1) = c + 1 + steps (k (m a)) m by omega]
    exact this
  | store a x p ih =>
    intro c m h
    have := ih (c := c + 1) (m := assign m a x) h
    simp only [steps, alone]
    rw [show c + (steps p (assign m a x) + 1) = c + 1 + steps p (assign m a x) by omega]
    exact this

theorem steps_bind (p : Prog α) (f : α → Prog β) (m : Mem) :
    steps (p >>= f) m = steps p m + match alone p m with
      | (.ok a, m') => steps (f a) m'
      | (.error _, _) => 0 := by
  rw [bind_def]
  induction p generalizing m with
  | done r => cases r <;> simp [Prog.bind, steps, alone]
  | load a k ih => simp only [Prog.bind, steps, alone]; rw [ih]; omega
  | store a x p ih => simp only [Prog.bind, steps, alone]; rw [ih]; omega

theorem steps_ok {p : Prog α} {f : α → Prog β} {m m' : Mem} {a : α} (h : alone p m = (.ok a, m')) :
    steps (p >>= f) m = steps p m + steps (f a) m' := by rw [steps_bind, h]

theorem steps_err {p : Prog α} {f : α → Prog β} {m m' : Mem} {e : Err} (h : alone p m = (.error e, m')) :
    steps (p >>= f) m = steps p m := by rw [steps_bind, h]; rfl

/-! ### The length of a sequence -/

theorem dec_len {str : Str} {sub sub' : Subrange} {ch : Char32} (h : Ystring.decodeEscaped str sub = .ok (ch, sub')) :
    sub' = sub ∨ str[sub.start + 1]? = some 0x75 := by
  unfold Ystring.decodeEscaped charAt at h
  cases hc : str[sub.start + 1]? with
  | none => rw [hc] at h; cases h
  | some c =>
    rw [hc, ok_bind] at h
    by_cases hu : c = 0x75
    · exact .inr (by rw [hu])
    · left
      have hex : ∀ {x : Res Str} {f : Str → Res Char32}, (x >>= fun y => f y >>= fun z => .ok (z, sub)) = .ok (ch, sub') → sub' = sub := by
        intro x f h
        cases x with
        | error e => cases h
        | ok y =>
          cases hf : f y with
          | error e => rw [ok_bind, hf] at h; cases h
          | ok z => rw [ok_bind, hf] at h; cases h; rfl
      split at h
      · exact hex h
      · repeat' (split at h)
        all_goals first | contradiction | exact hex h | (cases h; rfl)

theorem after_u {q v : Str} {k n : Nat} (h : afterBackslash q v = .ok ⟨n, k⟩) (hu : v[0]? = some 0x75) : k ≤ 6 := by
  cases v with
  | nil => cases hu
  | cons c u =>
    simp at hu
    subst hu
    unfold afterBackslash at h
    dsimp only at h
    rw [if_neg (by decide), if_pos rfl] at h
    unfold checkLength at h
    split at h
    · cases h
    · injection h with h
      injection h with _ h
      have : findEndOfHexSequence (q ++ 0x5C :: 0x75 :: u) (q.length + 2) (q.length + 6) ≤ q.length + 6 := by
        unfold findEndOfHexSequence Ystring.findFirstByteWhere
        dsimp only
        split
        · rename_i h
          simp only [List.length_take, List.length_drop] at h
          omega
        · omega
      omega

/-- one iteration -/
theorem steps_iter {b e : Nat} (hb : b ≤ e) {m : Mem} {a j p v : Str} {k N : Nat} {fuel : Nat} (hp : 0x5C ∉ p) (hk : k ≠ 0)
    (hf : ∀ q, afterBackslash q v = .ok ⟨q.length, k⟩) (hm : bytes m b e = a ++ (j ++ (p ++ 0x5C :: v))) (hl : e - b + 12 < SIZE_MOD)
    (hn : ∀ m' j', j'.length = j.length → bytes m' b e = (a ++ p) ++ (j' ++ 0x5C :: v) → 2 ≤ k → k ≤ v.length + 9 →
      steps (do
        let (ch, sub) ← decodeEscaped ⟨b, e⟩ ⟨(a ++ p).length + j.length, k⟩
        let it ← ptr ⟨b, e⟩ (b + (a ++ p).length)
        let _ ← encodeDetail ⟨b, e⟩ ch (encodeUtf8Ret ch) it
        unescapeLoop ⟨b, e⟩ fuel sub.stop (sizeAdd (a ++ p).length (encodeUtf8Ret ch))) m' ≤ N) :
    steps (unescapeLoop ⟨b, e⟩ (fuel + 1) (a.length + j.length) a.length) m ≤ N + 3 * p.length + min (2 + k) (v.length + 2) := by
  have hlen : e - b = a.length + j.length + p.length + (v.length + 1) := by
    rw [← bytes_length m b e, hm]; simp; omega
  have e1 : Ystring.findFirstEscapedChar (bytes m b e) (a.length + j.length) = .ok ⟨a.length + j.length + p.length, k⟩ := by
    rw [hm, ← List.append_assoc a j, ← List.length_append, find_start hp, hf]
    simp [Nat.add_assoc]
  have hfind : alone (findFirstEscapedChar ⟨b, e⟩ (a.length + j.length)) m = (.ok ⟨a.length + j.length + p.length, k⟩, m) := by
    rw [run_findFirstEscapedChar m b e _ hb, e1]
  obtain ⟨f1, _, f3⟩ := (wp_steps (m := m) (any_findFirstEscapedChar (r := ⟨b, e⟩) (offset := a.length + j.length) (c := 0) hb (Nat.le_refl _))).1 _ _ hfind
  dsimp only at f1 f3
  rcases f3 with ⟨f3, _⟩ | ⟨f3, f4, f5, f6, f7⟩
  · injection f3 with _ f3; exact absurd f3 hk
  have hcopy : ∃ m1, alone (copyIfMoved ⟨b, e⟩ (a.length + j.length) (a.length + j.length + p.length) a.length) m = (.ok (), m1) ∧
      ∃ j' : Str, j'.length = j.length ∧ bytes m1 b e = (a ++ p) ++ (j' ++ 0x5C :: v) := by
    obtain ⟨j', hj', hc⟩ := copy_step a j p (0x5C :: v)
    obtain ⟨m1, h1, h2⟩ | ⟨m1, h1, h2⟩ := run_copyIfMoved m b e (a.length + j.length) (a.length + j.length + p.length) a.length hb
    · rw [hm, hc] at h2
      injection h2 with h2
      exact ⟨m1, h1, j', hj', by rw [← h2]; simp⟩
    · rw [hm, hc] at h2; cases h2
  obtain ⟨m1, hc1, j', hj', hc2⟩ := hcopy
  have g1 := (wp_steps (m := m) (any_copyIfMoved (r := ⟨b, e⟩) (frm := a.length + j.length) (last := a.length + j.length + p.length) (to := a.length)
    (c := 0) (Nat.le_refl _))).1 _ _ hc1
  have hsz : sizeAdd a.length (sizeSub (a.length + j.length + p.length) (a.length + j.length)) = (a ++ p).length := by
    rw [sizeSub_add _ _ (by omega), sizeAdd_lt (by omega), List.length_append]
  have hn := hn m1 j' hj' hc2 f3 (by omega)
  have hne : ¬ ((!(⟨a.length + j.length + p.length, k⟩ : Subrange).nonempty) = true) := by simp [Subrange.nonempty, hk]
  have heq : a.length + j.length + p.length = (a ++ p).length + j.length := by simp; omega
  unfold unescapeLoop
  rw [steps_ok hfind]
  dsimp only [Subrange.start]
  rw [steps_ok hc1, hsz, if_neg hne]
  rw [← heq] at hn
  have g2 : steps (copyIfMoved ⟨b, e⟩ (a.length + j.length) (a.length + j.length + p.length) a.length) m ≤ 2 * p.length := by omega
  have f8 : steps (findFirstEscapedChar ⟨b, e⟩ (a.length + j.length)) m ≤ p.length + min (2 + k) (v.length + 2) := by omega
  exact Nat.le_trans (Nat.add_le_add f8 (Nat.add_le_add g2 hn)) (by omega)

/-- the loop, in the middle of a string -/
theorem steps_unescapeLoop {b e : Nat} (hb : b ≤ e) {t : Str} (hl : e - b + 12 < SIZE_MOD) (ht : t = [] ∨ Malformed t) {s o' : Str}
    (hr : Reads Escape s o' t) : ∀ (m : Mem) (a j p : Str) (fuel : Nat), 0x5C ∉ p → (p ++ s).length < fuel →
    bytes m b e = a ++ (j ++ (p ++ s)) → steps (unescapeLoop ⟨b, e⟩ fuel (a.length + j.length) a.length) m ≤ 5 * (p ++ s).length + 17 := by
  induction hr with
  | @stop t =>
    intro m a j p fuel hp hfu hm
    obtain ⟨fuel, rfl⟩ : ∃ f, fuel = f + 1 := ⟨fuel - 1, by omega⟩
    have hlen : e - b = a.length + j.length + (p.length + t.length) := by
      rw [← bytes_length m b e, hm]; simp; omega
    have wf := wp_steps (m := m) (any_findFirstEscapedChar (r := ⟨b, e⟩) (offset := a.length + j.length) (c := 0) hb (Nat.le_refl _))
    rcases ht with rfl | ht
    · -- the end
      simp only [List.append_nil] at hm ⊢
      have e1 : Ystring.findFirstEscapedChar (bytes m b e) (a.length + j.length) = .ok ⟨a.length + j.length + p.length, 0⟩ := by
        rw [hm, ← List.append_assoc a j, ← List.length_append, find_none hp]
      have hfind : alone (findFirstEscapedChar ⟨b, e⟩ (a.length + j.length)) m = (.ok ⟨a.length + j.length + p.length, 0⟩, m) := by
        rw [run_findFirstEscapedChar m b e _ hb, e1]
      obtain ⟨f1, -, -⟩ := wf.1 _ _ hfind
      dsimp only at f1
      have wc := wp_steps (m := m) (any_copyIfMoved (r := ⟨b, e⟩) (frm := a.length + j.length) (last := a.length + j.length + p.length)
        (to := a.length) (c := 0) (Nat.le_refl _))
      have hne : (!(⟨a.length + j.length + p.length, 0⟩ : Subrange).nonempty) = true := rfl
      unfold unescapeLoop
      rw [steps_ok hfind]
      dsimp only [Subrange.start]
      rw [steps_bind]
      have g : steps (copyIfMoved ⟨b, e⟩ (a.length + j.length) (a.length + j.length + p.length) a.length) m ≤ 2 * p.length := by
        cases hc : alone (copyIfMoved ⟨b, e⟩ (a.length + j.length) (a.length + j.length + p.length) a.length) m with
        | mk x m' =>
          cases x with
          | ok u => have := wc.1 _ _ hc; omega
          | error x => have := (wc.2 _ _ hc).1; omega
      split
      · rw [if_pos hne]
        show _ + (_ + 0) ≤ _
        simp at hlen
        omega
      · simp at hlen
        omega
    · -- something malformed
      obtain ⟨v, rfl, hbad | ⟨k, hk, hf, hd⟩⟩ := step_bad ht
      · have e1 : Ystring.findFirstEscapedChar (bytes m b e) (a.length + j.length) = .error .ystring := by
          rw [hm, ← List.append_assoc a j, ← List.length_append, find_start hp, hbad]
        have hfind : alone (findFirstEscapedChar ⟨b, e⟩ (a.length + j.length)) m = (.error .ystring, m) := by
          rw [run_findFirstEscapedChar m b e _ hb, e1]
        have f1 := (wf.2 _ _ hfind).1
        dsimp only at f1
        unfold unescapeLoop
        rw [steps_err hfind]
        simp at hlen ⊢
        omega
      · have := steps_iter (N := v.length + 20) (fuel := fuel) hb hp hk hf hm hl (fun m' j' hj' hm' k2 k9 => by
            have hdec : alone (decodeEscaped ⟨b, e⟩ ⟨(a ++ p).length + j.length, k⟩) m' = (.error .ystring, m') := by
              rw [run_decodeEscaped, hm', ← hj', ← List.length_append, ← List.append_assoc (a ++ p), hd _ (by simp at hlen ⊢; omega)]
            have := ((wp_steps (m := m') (any_decodeEscaped (r := ⟨b, e⟩) (sub := ⟨(a ++ p).length + j.length, k⟩) (c := 0) k2 (Nat.le_refl _))).2 _ _ hdec).1
            rw [steps_err hdec]
            dsimp only at this
            omega)
        simp at this ⊢
        omega
  | @plain c s o'' t hc _ ih =>
    intro m a j p fuel hp hfu hm
    have := ih ht m a j (p ++ [c]) fuel (by simp [hp]; exact fun h => hc h.symm) (by simpa using hfu) (by simpa using hm)
    simpa using this
  | @escape es s out o'' t he _ ih =>
    intro m a j p fuel hp hfu hm
    obtain ⟨fuel, rfl⟩ : ∃ f, fuel = f + 1 := ⟨fuel - 1, by omega⟩
    obtain ⟨h1, h2, _⟩ := escape_length he
    obtain ⟨v, k, ch, hv, hk, hf, hd, henc⟩ := step_ok he
    rw [hv] at hm
    have hlv := congrArg List.length hv
    simp at hlv
    have hlen : e - b = a.length + j.length + p.length + (v.length + 1) := by
      rw [← bytes_length m b e, hm]; simp; omega
    have hret : encodeUtf8Ret ch = out.length := by rw [← henc, encodeUtf8_length]; rfl
    have hout : Ystring.encodeDetail ch out.length = out := by rw [← hret]; exact henc
    have hkl : k = es.length ∨ k ≤ 6 := by
      have := hd [] (by show 0 + 12 < SIZE_MOD; omega)
      rcases dec_len this with h | h
      · injection h with _ h; exact .inl h.symm
      · refine .inr (after_u (hf []) ?_)
        rw [hv] at h
        simpa [Subrange.start] using h
    have h3 : out.length ≤ 4 := by rw [← hret]; exact encodedLength_le ch
    have key := steps_iter (N := 5 * s.length + 17 + (5 * es.length - (2 + k))) (fuel := fuel) hb hp hk hf hm hl
      fun m' j' hj' hm' k2 k9 => by
        have hdec : alone (decodeEscaped ⟨b, e⟩ ⟨(a ++ p).length + j.length, k⟩) m' = (.ok (ch, ⟨(a ++ p).length + j.length, es.length⟩), m') := by
          rw [run_decodeEscaped, hm', ← hj', ← List.length_append, ← List.append_assoc (a ++ p), ← hv, hd _ (by simp; omega)]
        obtain ⟨_, _, _, d1, d2, d3⟩ := (wp_steps (m := m') (any_decodeEscaped (r := ⟨b, e⟩) (sub := ⟨(a ++ p).length + j.length, k⟩) (c := 0) k2
          (Nat.le_refl _))).1 _ _ hdec
        dsimp only at d1 d2 d3
        have hfit : b + (a ++ p).length + out.length ≤ e := by simp; omega
        obtain ⟨m2, k1, k2, k3⟩ := run_encodeDetail b e ch out.length m' (b + (a ++ p).length) (by omega) hfit
        have e1 := (wp_steps (m := m') (wp_encodeDetail (r := ⟨b, e⟩) (E := fun _ _ => True) ch (n := out.length) (it := b + (a ++ p).length) (c := 0)
          (by show b ≤ _; omega) hfit)).1 _ _ k1
        rw [hout] at k3
        have hw := bytes_written (b := b) (e := e) (i := (a ++ p).length) hfit k2 k3
        have hj2 : ∃ j2 : Str, j2.length + out.length = j.length + es.length ∧ bytes m2 b e = ((a ++ p) ++ out) ++ (j2 ++ s) := by
          refine ⟨(j' ++ es).drop out.length, by simp; omega, ?_⟩
          rw [hw, hm', List.take_left, ← hv, ← List.drop_drop, List.drop_left, ← List.append_assoc j' es s,
            List.drop_append_of_le_length (by simp; omega)]
        obtain ⟨j2, hj2, hs2⟩ := hj2
        have hrec := ih ht m2 ((a ++ p) ++ out) j2 [] fuel (by simp) (by simp at hfu ⊢; omega) (by rw [hs2]; rfl)
        have hstop : Subrange.stop ⟨(a ++ p).length + j.length, es.length⟩ = ((a ++ p) ++ out).length + j2.length := by
          rw [stop_lt (by simp; omega)]; simp; omega
        have hadd : sizeAdd (a ++ p).length out.length = ((a ++ p) ++ out).length := by
          rw [sizeAdd_lt (by simp; omega)]; simp; omega
        rw [← hstop, ← hadd] at hrec
        rw [steps_ok hdec]
        dsimp only
        rw [steps_ok (alone_ptr m' (by omega) (by omega)), hret, steps_ok k1]
        have e0 : steps (ptr ⟨b, e⟩ (b + (a ++ p).length)) m' = 0 := by
          unfold ptr; split <;> rfl
        rw [e0]
        simp only [List.nil_append] at hrec
        rw [Nat.zero_add, Nat.zero_add] at e1
        refine Nat.le_trans (Nat.add_le_add (Nat.le_refl _) (Nat.add_le_add (Nat.le_refl 0) (Nat.add_le_add (Nat.le_of_eq e1) hrec))) ?_
        omega
    simp only [List.length_append] at key ⊢
    omega

end Ystring.Thr
