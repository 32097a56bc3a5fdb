import Verif.Proofs.ThreadsOutcome
import Verif.Proofs.UnescapeLoop
/- What is in memory while a call is under way. -/
namespace Ystring.Thr
open Ptr Spec

variable {ι α β : Type}

/-- `P` holds of the memory at every moment of a call that is alone. -/
def Always (P : Mem → Prop) : Prog α → Mem → Prop
  | .done _, m => P m
  | .load a k, m => P m ∧ Always P (k (m a)) m
  | .store a x p, m => P m ∧ Always P p (assign m a x)

theorem Always.now {P : Mem → Prop} {p : Prog α} {m : Mem} (h : Always P p m) : P m := by
  cases p with
  | done r => exact h
  | load a k => exact h.1
  | store a x p => exact h.1

theorem Always.mono {P Q : Mem → Prop} (hq : ∀ m, P m → Q m) {p : Prog α} : ∀ {m : Mem}, Always P p m → Always Q p m := by
  induction p with
  | done r => exact fun h => hq _ h
  | load a k ih => exact fun h => ⟨hq _ h.1, ih _ h.2⟩
  | store a x p ih => exact fun h => ⟨hq _ h.1, ih h.2⟩

theorem Always.bind {P : Mem → Prop} {p : Prog α} {f : α → Prog β} : ∀ {m : Mem}, Always P p m →
    (∀ a m', alone p m = (.ok a, m') → Always P (f a) m') → Always P (p >>= f) m := by
  induction p with
  | done r =>
    intro m h hf
    cases r with
    | ok a => exact hf a m rfl
    | error e => exact h
  | load a k ih => exact fun h hf => ⟨h.1, ih _ h.2 hf⟩
  | store a x p ih => exact fun h hf => ⟨h.1, ih h.2 hf⟩

/-- a call that only reads -/
theorem Within.always {P : Mem → Prop} {R : Nat → Prop} {p : Prog α} (h : Within R (fun _ => False) p) {m : Mem} (hm : P m) :
    Always P p m := by
  induction h with
  | done r => exact hm
  | load _ _ ih => exact ⟨hm, ih _⟩
  | store h _ _ => exact h.elim

/-- other bytes do not matter -/
theorem Always.agree {P : Mem → Prop} {R W : Nat → Prop} (hP : ∀ m m', (∀ a, R a ∨ W a → m a = m' a) → P m → P m') {p : Prog α}
    (h : Within R W p) : ∀ {m m' : Mem}, (∀ a, R a ∨ W a → m a = m' a) → Always P p m → Always P p m' := by
  induction h with
  | done r => exact fun hm h => hP _ _ hm h
  | load h _ ih =>
    intro m m' hm hA
    refine ⟨hP _ _ hm hA.1, ?_⟩
    rw [← hm _ (.inl h)]
    exact ih _ hm hA.2
  | @store a x p h _ ih =>
    intro m m' hm hA
    refine ⟨hP _ _ hm hA.1, ih (fun b hb => ?_) hA.2⟩
    by_cases e : b = a
    · rw [e, assign_same, assign_same]
    · rw [assign_other _ _ e, assign_other _ _ e, hm b hb]

variable [DecidableEq ι]

/-- … so that it holds under any schedule. -/
theorem always_step {R W : ι → Nat → Prop} (hd : ∀ i j, i ≠ j → ∀ a, W i a → ¬ R j a ∧ ¬ W j a) {P : Mem → Prop} {s : State ι α}
    (hw : ∀ i, Within (R i) (W i) (s.left i)) (i : ι) (hP : ∀ m m', (∀ a, R i a ∨ W i a → m a = m' a) → P m → P m')
    (h : Always P (s.left i) s.mem) (j : ι) : Always P ((s.step j).left i) (s.step j).mem := by
  have hj := hw j
  unfold State.step
  split
  · exact h
  · rename_i a k e
    show Always P (if i = j then _ else _) _
    split
    · rename_i e'; rw [e', e] at h; exact h.2
    · exact h
  · rename_i a x p e
    rw [e] at hj
    cases hj with
    | store ha hp =>
    show Always P (if i = j then _ else _) (assign s.mem a x)
    split
    · rename_i e'; rw [e', e] at h; exact h.2
    · rename_i e'
      refine Always.agree hP (hw i) (fun b hb => ?_) h
      rw [assign_other]
      intro e''
      have := hd j i (Ne.symm e') a ha
      rw [← e''] at this
      exact hb.elim this.1 this.2

theorem always_after {R W : ι → Nat → Prop} (hd : ∀ i j, i ≠ j → ∀ a, W i a → ¬ R j a ∧ ¬ W j a) {P : Mem → Prop} (i : ι)
    (hP : ∀ m m', (∀ a, R i a ∨ W i a → m a = m' a) → P m → P m') (σ : List ι) :
    ∀ {s : State ι α}, (∀ i, Within (R i) (W i) (s.left i)) → Always P (s.left i) s.mem → P (s.after σ).mem := by
  induction σ with
  | nil => exact fun _ h => h.now
  | cons j σ ih => exact fun hw h => ih ((Inv.start hw).step hd j).within (always_step hd hw i hP h j)

/-! ### Assignments in ascending order -/

/-- the assignments are at ascending addresses from `lo` on and below `hi` -/
def Asc : Prog α → (lo hi : Nat) → Mem → Prop
  | .done _, lo, hi, _ => lo ≤ hi
  | .load a k, lo, hi, m => Asc (k (m a)) lo hi m
  | .store a x p, lo, hi, m => lo ≤ a ∧ Asc p (a + 1) hi (assign m a x)

theorem Asc.le {p : Prog α} : ∀ {lo hi : Nat} {m : Mem}, Asc p lo hi m → lo ≤ hi := by
  induction p with
  | done r => exact fun h => h
  | load a k ih => exact fun h => ih _ h
  | store a x p ih => exact fun h => by have := ih h.2; have := h.1; omega

theorem Asc.bind {p : Prog α} {f : α → Prog β} : ∀ {lo mid hi : Nat} {m : Mem}, Asc p lo mid m → mid ≤ hi →
    (∀ a m', alone p m = (.ok a, m') → Asc (f a) mid hi m') → Asc (p >>= f) lo hi m := by
  induction p with
  | done r =>
    intro lo mid hi m h hm hf
    cases r with
    | ok a =>
      have h1 := hf a m rfl
      have : ∀ {q : Prog β} {lo lo' hi : Nat} {m : Mem}, lo ≤ lo' → Asc q lo' hi m → Asc q lo hi m := by
        intro q
        induction q with
        | done r => exact fun h h' => Nat.le_trans h h'
        | load a k ih => exact fun h h' => ih _ h h'
        | store a x p ih => exact fun h h' => ⟨Nat.le_trans h h'.1, h'.2⟩
      exact this h h1
    | error e => exact Nat.le_trans h hm
  | load a k ih => exact fun h hm hf => ih _ h hm hf
  | store a x p ih => exact fun h hm hf => ⟨h.1, ih h.2 hm hf⟩

theorem Within.asc {R : Nat → Prop} {p : Prog α} (h : Within R (fun _ => False) p) {lo hi : Nat} (hl : lo ≤ hi) {m : Mem} : Asc p lo hi m := by
  induction h with
  | done r => exact hl
  | load _ _ ih => exact ih _
  | store h _ _ => exact h.elim

/-- what lies outside does not change -/
theorem Asc.outside {p : Prog α} : ∀ {lo hi : Nat} {m : Mem}, Asc p lo hi m → ∀ a, a < lo ∨ hi ≤ a → (alone p m).2 a = m a := by
  induction p with
  | done r => exact fun _ _ _ => rfl
  | load a k ih => exact fun h => ih _ h
  | store a x p ih =>
    intro lo hi m h b hb
    have := h.2.le
    show (alone p (assign m a x)).2 b = _
    rw [ih h.2 b (by have := h.1; omega), assign_other _ _ (by have := h.1; omega)]

/-- at every moment a first part is as at the end, and the rest as at the beginning -/
theorem Asc.always {p : Prog α} : ∀ {lo hi : Nat} {m : Mem}, Asc p lo hi m →
    Always (fun m' => ∃ k, lo ≤ k ∧ k ≤ hi ∧ ∀ a, m' a = if a < k then (alone p m).2 a else m a) p m := by
  induction p with
  | done r => exact fun h => ⟨_, Nat.le_refl _, h, fun a => by show _ = if _ then _ else _; split <;> rfl⟩
  | load a k ih =>
    intro lo hi m h
    refine ⟨⟨lo, Nat.le_refl _, Asc.le h, fun b => ?_⟩, ih _ h⟩
    split
    · rename_i hb; exact (Asc.outside h b (.inl hb)).symm
    · rfl
  | store a x p ih =>
    intro lo hi m h
    have h' := h
    obtain ⟨h1, h2⟩ := h
    refine ⟨⟨lo, Nat.le_refl _, Asc.le h', fun b => ?_⟩, (ih h2).mono ?_⟩
    · split
      · rename_i hb; exact (Asc.outside h' b (.inl hb)).symm
      · rfl
    · rintro m' ⟨k, k1, k2, k3⟩
      refine ⟨k, by omega, k2, fun b => ?_⟩
      rw [k3 b]
      split
      · rfl
      · exact assign_other _ _ (by omega)

theorem asc_store (b e it x : Nat) (m : Mem) (c : UInt8) (h : x ≤ it) : Asc (store ⟨b, e⟩ it c) x (it + 1) m := by
  unfold store
  split
  · exact ⟨h, Nat.le_refl _⟩
  · show _ ≤ _; omega

theorem asc_encodeLoop (b e : Nat) (chr : Char32) : ∀ (k shift it : Nat) (m : Mem), Asc (encodeLoop ⟨b, e⟩ chr k shift it) it (it + k) m := by
  intro k
  induction k with
  | zero => intro shift it m; exact Nat.le_refl _
  | succ k ih =>
    intro shift it m
    unfold encodeLoop
    refine Asc.bind (asc_store b e it it m _ (Nat.le_refl _)) (by omega) fun _ m' _ => ?_
    refine Asc.bind ((within_ptr (R := fun _ => True) _ _).asc (Nat.le_refl _)) (by omega) fun a m'' h => ?_
    have ha : a = it + 1 := by
      unfold ptr at h
      split at h
      · injection h with h _; injection h with h; exact h.symm
      · injection h with h _; cases h
    rw [ha, show it + (k + 1) = it + 1 + k by omega]
    exact ih _ _ _

theorem asc_encodeDetail (b e : Nat) (chr : Char32) (k it : Nat) (m : Mem) : Asc (encodeDetail ⟨b, e⟩ chr k it) it (it + k) m := by
  unfold encodeDetail
  split
  · rename_i h
    subst h
    refine Asc.bind (asc_store b e it it m _ (Nat.le_refl _)) (by omega) fun _ m' _ => ?_
    exact (within_ptr (R := fun _ => True) _ _).asc (Nat.le_refl _)
  split
  · rename_i h
    refine Asc.bind (asc_store b e it it m _ (Nat.le_refl _)) (by omega) fun _ m' _ => ?_
    refine Asc.bind ((within_ptr (R := fun _ => True) _ _).asc (Nat.le_refl _)) (by omega) fun a m'' h => ?_
    have ha : a = it + 1 := by
      unfold ptr at h
      split at h
      · injection h with h _; injection h with h; exact h.symm
      · injection h with h _; cases h
    rw [ha, show it + k = it + 1 + (k - 1) by omega]
    exact asc_encodeLoop _ _ _ _ _ _ _
  · exact Nat.le_add_right _ _

theorem asc_copyLoop (b e : Nat) : ∀ (k a d : Nat) (m : Mem), Asc (copyLoop ⟨b, e⟩ k a d) d (d + k) m := by
  intro k
  induction k with
  | zero => intro a d m; exact Nat.le_refl _
  | succ k ih =>
    intro a d m
    unfold copyLoop
    refine Asc.bind ((within_load (R := fun _ => True) (fun _ _ => trivial) _).asc (Nat.le_refl d)) (by omega) fun c m' _ => ?_
    refine Asc.bind (asc_store b e d d m' _ (Nat.le_refl _)) (by omega) fun _ m'' _ => ?_
    rw [show d + (k + 1) = d + 1 + k by omega]
    exact ih _ _ _

theorem asc_copyIfMoved (b e frm last to : Nat) (m : Mem) : Asc (copyIfMoved ⟨b, e⟩ frm last to) (b + to) (b + (to + (last - frm))) m := by
  unfold copyIfMoved
  split
  · refine Asc.bind ((within_ptr (R := fun _ => True) _ _).asc (Nat.le_refl (b + to))) (by omega) fun _ m' _ => ?_
    refine Asc.bind ((within_ptr (R := fun _ => True) _ _).asc (Nat.le_refl (b + to))) (by omega) fun _ m' _ => ?_
    refine Asc.bind ((within_ptr (R := fun _ => True) _ _).asc (Nat.le_refl (b + to))) (by omega) fun _ m' _ => ?_
    split
    · rw [show b + (to + (last - frm)) = b + to + (last - frm) by omega]
      exact asc_copyLoop _ _ _ _ _ _
    · show _ ≤ _; omega
  · show _ ≤ _; omega

/-- a part of the output has been written -/
theorem block {b e : Nat} {s o a a' x : Str} {p : Prog α} {m : Mem} (h : Asc p (b + a.length) (b + a'.length) m) (he : b + a'.length ≤ e)
    (hm : bytes m b e = a ++ s.drop a.length) (hf : bytes (alone p m).2 b e = a' ++ x) (ho : a' <+: o) :
    bytes (alone p m).2 b e = a' ++ s.drop a'.length ∧
    Always (fun m' => ∃ k, k ≤ o.length ∧ bytes m' b e = o.take k ++ s.drop k) p m := by
  have hl := h.le
  have hdrop : ∀ k, a.length ≤ k → (bytes m b e).drop k = s.drop k := by
    intro k hk
    rw [hm, List.drop_append, List.drop_eq_nil_of_le hk, List.drop_drop, List.nil_append]
    congr 1; omega
  have hmix : ∀ m', ∀ k, a.length ≤ k → k ≤ a'.length → (∀ c, m' c = if c < b + k then (alone p m).2 c else m c) →
      bytes m' b e = a'.take k ++ s.drop k := by
    intro m' k k1 k2 hk
    rw [bytes_append m' (show b ≤ b + k by omega) (by omega)]
    rw [bytes_agree (m := m') (m' := (alone p m).2) (fun c _ h2 => by rw [hk c, if_pos h2]),
      bytes_agree (m := m') (m' := m) (fun c h1 _ => by rw [hk c, if_neg (by omega)]),
      ← bytes_take _ (show b + k ≤ e by omega), ← bytes_drop, hf, hdrop k k1, List.take_append_of_le_length k2]
  constructor
  · have := hmix (alone p m).2 a'.length (by omega) (Nat.le_refl _) fun c => by
      split
      · rfl
      · exact h.outside c (by omega)
    rw [this, List.take_length]
  · refine h.always.mono ?_
    rintro m' ⟨k, k1, k2, k3⟩
    obtain ⟨k, rfl⟩ : ∃ k', k = b + k' := ⟨k - b, by omega⟩
    refine ⟨k, by have := ho.length_le; omega, ?_⟩
    rw [hmix m' k (by omega) (by omega) k3]
    obtain ⟨z, rfl⟩ := ho
    rw [List.take_append_of_le_length (by omega)]

/-! ### `unescape` -/

theorem begins {s0 o a x : Str} (h : x = a ++ s0.drop a.length) (ho : a <+: o) : ∃ k, k ≤ o.length ∧ x = o.take k ++ s0.drop k := by
  obtain ⟨z, rfl⟩ := ho
  exact ⟨a.length, by simp, by rw [h, List.take_left]⟩

/-- the loop finds the next sequence and moves what is in front of it -/
theorem always_iter {b e : Nat} (hb : b ≤ e) {s0 o : Str} {m : Mem} {a j p v : Str} {k : Nat} {fuel : Nat} (hp : 0x5C ∉ p) (hk : k ≠ 0)
    (hf : ∀ q, afterBackslash q v = .ok ⟨q.length, k⟩) (hm : bytes m b e = a ++ (j ++ (p ++ 0x5C :: v)))
    (hs : j ++ (p ++ 0x5C :: v) = s0.drop a.length) (ho : a ++ p <+: o) (hl : e - b + 12 < SIZE_MOD)
    (Q : Mem → Prop)
    (hn : ∀ m' j', j'.length = j.length → bytes m' b e = (a ++ p) ++ (j' ++ 0x5C :: v) → j' ++ 0x5C :: v = s0.drop (a ++ p).length →
      Always (fun m' => ∃ k, k ≤ o.length ∧ bytes m' b e = o.take k ++ s0.drop k) (do
        let (ch, sub) ← decodeEscaped ⟨b, e⟩ ⟨(a ++ p).length + j.length, k⟩
        let it ← ptr ⟨b, e⟩ (b + (a ++ p).length)
        let _ ← encodeDetail ⟨b, e⟩ ch (encodeUtf8Ret ch) it
        unescapeLoop ⟨b, e⟩ fuel sub.stop (sizeAdd (a ++ p).length (encodeUtf8Ret ch))) m' ∧
      Q (alone (do
        let (ch, sub) ← decodeEscaped ⟨b, e⟩ ⟨(a ++ p).length + j.length, k⟩
        let it ← ptr ⟨b, e⟩ (b + (a ++ p).length)
        let _ ← encodeDetail ⟨b, e⟩ ch (encodeUtf8Ret ch) it
        unescapeLoop ⟨b, e⟩ fuel sub.stop (sizeAdd (a ++ p).length (encodeUtf8Ret ch))) m').2) :
    Always (fun m' => ∃ k, k ≤ o.length ∧ bytes m' b e = o.take k ++ s0.drop k)
      (unescapeLoop ⟨b, e⟩ (fuel + 1) (a.length + j.length) a.length) m ∧
    Q (alone (unescapeLoop ⟨b, e⟩ (fuel + 1) (a.length + j.length) a.length) m).2 := by
  have hlen : e - b = a.length + j.length + p.length + (v.length + 1) := by
    rw [← bytes_length m b e, hm]; simp; omega
  have hP : ∃ k, k ≤ o.length ∧ bytes m b e = o.take k ++ s0.drop k := by
    obtain ⟨z, rfl⟩ := ho
    exact ⟨a.length, by simp, by rw [hm, hs]; simp⟩
  have e1 : Ystring.findFirstEscapedChar (bytes m b e) (a.length + j.length) = .ok ⟨a.length + j.length + p.length, k⟩ := by
    rw [hm, ← List.append_assoc a j, ← List.length_append, find_start hp, hf]
    simp [Nat.add_assoc]
  have hfind : alone (findFirstEscapedChar ⟨b, e⟩ (a.length + j.length)) m = (.ok ⟨a.length + j.length + p.length, k⟩, m) := by
    rw [run_findFirstEscapedChar m b e _ hb, e1]
  have hcopy : ∃ m1, alone (copyIfMoved ⟨b, e⟩ (a.length + j.length) (a.length + j.length + p.length) a.length) m = (.ok (), m1) ∧
      ∃ j' : Str, j'.length = j.length ∧ bytes m1 b e = (a ++ p) ++ (j' ++ 0x5C :: v) := by
    obtain ⟨j', hj', hc⟩ := copy_step a j p (0x5C :: v)
    obtain ⟨m1, h1, h2⟩ | ⟨m1, h1, h2⟩ := run_copyIfMoved m b e (a.length + j.length) (a.length + j.length + p.length) a.length hb
    · rw [hm, hc] at h2
      injection h2 with h2
      exact ⟨m1, h1, j', hj', by rw [← h2]; simp⟩
    · rw [hm, hc] at h2; cases h2
  obtain ⟨m1, hc1, j', hj', hc2⟩ := hcopy
  have hasc := asc_copyIfMoved b e (a.length + j.length) (a.length + j.length + p.length) a.length m
  rw [show a.length + (a.length + j.length + p.length - (a.length + j.length)) = (a ++ p).length by simp] at hasc
  obtain ⟨hb1, hb2⟩ := block (e := e) (s := s0) hasc (by simp; omega) (by rw [hm, hs]) (by rw [hc1]; exact hc2) ho
  rw [hc1] at hb1
  have hsz : sizeAdd a.length (sizeSub (a.length + j.length + p.length) (a.length + j.length)) = (a ++ p).length := by
    rw [sizeSub_add _ _ (by omega), sizeAdd_lt (by omega), List.length_append]
  obtain ⟨hn1, hn2⟩ := hn m1 j' hj' hc2 (List.append_cancel_left (hc2.symm.trans hb1))
  have hne : ¬ ((!(⟨a.length + j.length + p.length, k⟩ : Subrange).nonempty) = true) := by simp [Subrange.nonempty, hk]
  have heq : a.length + j.length + p.length = (a ++ p).length + j.length := by simp; omega
  constructor
  · unfold unescapeLoop
    refine Always.bind ((within_findFirstEscapedChar (R := fun _ => True) (fun _ _ => trivial) _).always hP) fun sub m' h => ?_
    rw [hfind] at h
    injection h with h h'
    injection h with h
    subst h h'
    refine Always.bind hb2 fun _ m' h => ?_
    have h := hc1.symm.trans h
    injection h with _ h'
    subst h'
    dsimp only [Subrange.start]
    rw [hsz, if_neg hne, heq]
    exact hn1
  · unfold unescapeLoop
    rw [alone_ok hfind]
    dsimp only [Subrange.start]
    rw [alone_ok hc1, hsz, if_neg hne, heq]
    exact hn2

/-- the loop, in the middle of a string -/
theorem always_unescapeLoop {b e : Nat} (hb : b ≤ e) {s0 o t : Str} (hl : e - b + 12 < SIZE_MOD) (ht : t = [] ∨ Malformed t) {s o' : Str}
    (hr : Reads Escape s o' t) : ∀ (m : Mem) (a j p : Str) (fuel : Nat), 0x5C ∉ p → (p ++ s).length < fuel →
    bytes m b e = a ++ (j ++ (p ++ s)) → j ++ (p ++ s) = s0.drop a.length → a ++ (p ++ o') = o →
    Always (fun m' => ∃ k, k ≤ o.length ∧ bytes m' b e = o.take k ++ s0.drop k)
      (unescapeLoop ⟨b, e⟩ fuel (a.length + j.length) a.length) m ∧
    (t = [] → bytes (alone (unescapeLoop ⟨b, e⟩ fuel (a.length + j.length) a.length) m).2 b e = o ++ s0.drop o.length) := by
  induction hr with
  | @stop t =>
    intro m a j p fuel hp hfu hm hs ho
    obtain ⟨fuel, rfl⟩ : ∃ f, fuel = f + 1 := ⟨fuel - 1, by omega⟩
    rcases ht with rfl | ht
    · -- the end
      have hlen : e - b = a.length + j.length + p.length := by
        rw [← bytes_length m b e, hm]; simp; omega
      simp only [List.append_nil] at hm hs ho
      have hP : ∃ k, k ≤ o.length ∧ bytes m b e = o.take k ++ s0.drop k := by
        exact ⟨a.length, by rw [← ho]; simp, by rw [hm, hs, ← ho]; simp⟩
      have e1 : Ystring.findFirstEscapedChar (bytes m b e) (a.length + j.length) = .ok ⟨a.length + j.length + p.length, 0⟩ := by
        rw [hm, ← List.append_assoc a j, ← List.length_append, find_none hp]
      have hfind : alone (findFirstEscapedChar ⟨b, e⟩ (a.length + j.length)) m = (.ok ⟨a.length + j.length + p.length, 0⟩, m) := by
        rw [run_findFirstEscapedChar m b e _ hb, e1]
      have hcopy : ∃ m1, alone (copyIfMoved ⟨b, e⟩ (a.length + j.length) (a.length + j.length + p.length) a.length) m = (.ok (), m1) ∧
          ∃ j' : Str, bytes m1 b e = (a ++ p) ++ j' := by
        obtain ⟨j', hj', hc⟩ := copy_step a j p []
        simp only [List.append_nil] at hc
        obtain ⟨m1, h1, h2⟩ | ⟨m1, h1, h2⟩ := run_copyIfMoved m b e (a.length + j.length) (a.length + j.length + p.length) a.length hb
        · rw [hm, hc] at h2
          injection h2 with h2
          exact ⟨m1, h1, j', by rw [← h2]; simp⟩
        · rw [hm, hc] at h2; cases h2
      obtain ⟨m1, hc1, j', hc2⟩ := hcopy
      have hasc := asc_copyIfMoved b e (a.length + j.length) (a.length + j.length + p.length) a.length m
      rw [show a.length + (a.length + j.length + p.length - (a.length + j.length)) = (a ++ p).length by simp] at hasc
      obtain ⟨hb1, hb2⟩ := block (e := e) (s := s0) (o := o) hasc (by simp; omega) (by rw [hm, hs]) (by rw [hc1]; exact hc2) ⟨[], by simpa using ho⟩
      rw [hc1] at hb1
      have hne : (!(⟨a.length + j.length + p.length, 0⟩ : Subrange).nonempty) = true := rfl
      constructor
      · unfold unescapeLoop
        refine Always.bind ((within_findFirstEscapedChar (R := fun _ => True) (fun _ _ => trivial) _).always hP) fun sub m' h => ?_
        rw [hfind] at h
        injection h with h h'
        injection h with h
        subst h h'
        refine Always.bind hb2 fun _ m' h => ?_
        have h := hc1.symm.trans h
        injection h with _ h'
        subst h'
        dsimp only [Subrange.start]
        rw [if_pos hne]
        exact ⟨(a ++ p).length, by rw [← ho]; exact Nat.le_refl _, by rw [hb1, ← ho, List.take_length]⟩
      · intro _
        unfold unescapeLoop
        rw [alone_ok hfind]
        dsimp only [Subrange.start]
        rw [alone_ok hc1, if_pos hne, ← ho]
        exact hb1
    · -- something malformed
      obtain ⟨v, rfl, hbad | ⟨k, hk, hf, hd⟩⟩ := step_bad ht
      · have hP : ∃ k, k ≤ o.length ∧ bytes m b e = o.take k ++ s0.drop k := by
          exact ⟨a.length, by rw [← ho]; simp, by rw [hm, hs, ← ho]; simp⟩
        refine ⟨?_, fun h => by cases h⟩
        have e1 : Ystring.findFirstEscapedChar (bytes m b e) (a.length + j.length) = .error .ystring := by
          rw [hm, ← List.append_assoc a j, ← List.length_append, find_start hp, hbad]
        unfold unescapeLoop
        refine Always.bind ((within_findFirstEscapedChar (R := fun _ => True) (fun _ _ => trivial) _).always hP) fun sub m' h => ?_
        rw [run_findFirstEscapedChar m b e _ hb, e1] at h
        injection h with h _
        cases h
      · have := always_iter (fuel := fuel) hb hp hk hf hm hs (o := o) ⟨[], by simpa using ho⟩ hl (fun _ => True)
          (fun m' j' hj' hm' hs' => by
            have hP : ∃ k, k ≤ o.length ∧ bytes m' b e = o.take k ++ s0.drop k := by
              exact begins (a := a ++ p) (by rw [hm', hs']) ⟨[], by simpa using ho⟩
            refine ⟨?_, trivial⟩
            refine Always.bind ((within_decodeEscaped (R := fun _ => True) (fun _ _ => trivial) _).always hP) fun x m'' h => ?_
            have hlen : e - b = a.length + j.length + p.length + (v.length + 1) := by
              rw [← bytes_length m b e, hm]; simp; omega
            rw [run_decodeEscaped, hm', ← hj', ← List.length_append, ← List.append_assoc (a ++ p), hd _ (by simp; omega)] at h
            injection h with h _
            cases h)
        exact ⟨this.1, fun h => by cases h⟩
  | @plain c s o'' t hc _ ih =>
    intro m a j p fuel hp hfu hm hs ho
    have := ih ht m a j (p ++ [c]) fuel (by simp [hp]; exact fun h => hc h.symm) (by simpa using hfu) (by simpa using hm)
      (by simpa using hs) (by simpa using ho)
    exact this
  | @escape es s out o'' t he _ ih =>
    intro m a j p fuel hp hfu hm hs ho
    obtain ⟨fuel, rfl⟩ : ∃ f, fuel = f + 1 := ⟨fuel - 1, by omega⟩
    obtain ⟨h1, h2, _⟩ := escape_length he
    obtain ⟨v, k, ch, hv, hk, hf, hd, henc⟩ := step_ok he
    rw [hv] at hm hs
    refine always_iter (fuel := fuel) hb hp hk hf hm hs (o := o) ⟨out ++ o'', by rw [← ho]; simp⟩ hl
      (fun m' => t = [] → bytes m' b e = o ++ s0.drop o.length) fun m' j' hj' hm' hs' => ?_
    have hlv := congrArg List.length hv
    simp at hlv
    have hlen : e - b = a.length + j.length + p.length + (v.length + 1) := by
      rw [← bytes_length m b e, hm]; simp; omega
    have hP : ∃ k, k ≤ o.length ∧ bytes m' b e = o.take k ++ s0.drop k := by
      exact begins (a := a ++ p) (by rw [hm', hs']) ⟨out ++ o'', by rw [← ho]; simp⟩
    have hdec : alone (decodeEscaped ⟨b, e⟩ ⟨(a ++ p).length + j.length, k⟩) m' = (.ok (ch, ⟨(a ++ p).length + j.length, es.length⟩), m') := by
      rw [run_decodeEscaped, hm', ← hj', ← List.length_append, ← List.append_assoc (a ++ p), ← hv, hd _ (by simp; omega)]
    have hret : encodeUtf8Ret ch = out.length := by rw [← henc, encodeUtf8_length]; rfl
    have hfit : b + (a ++ p).length + out.length ≤ e := by simp; omega
    obtain ⟨m2, k1, k2, k3⟩ := run_encodeDetail b e ch out.length m' (b + (a ++ p).length) (by omega) hfit
    have hout : Ystring.encodeDetail ch out.length = out := by rw [← hret]; exact henc
    rw [hout] at k3
    have hw := bytes_written (b := b) (e := e) (i := (a ++ p).length) hfit k2 k3
    have hasc := asc_encodeDetail b e ch out.length (b + (a ++ p).length) m'
    rw [show b + (a ++ p).length + out.length = b + ((a ++ p) ++ out).length by simp; omega] at hasc
    have hfin : bytes m2 b e = ((a ++ p) ++ out) ++ (bytes m' b e).drop ((a ++ p).length + out.length) := by
      rw [hw, hm', List.take_left]
    obtain ⟨hb1, hb2⟩ := block (e := e) (s := s0) (o := o) hasc (by simp; omega) (by rw [hm', hs']) (by rw [k1]; exact hfin) ⟨o'', by rw [← ho]; simp⟩
    rw [k1] at hb1
    -- what is left of the part that has been read
    have hj2 : ∃ j2 : Str, j2.length + out.length = j.length + es.length ∧ s0.drop ((a ++ p) ++ out).length = j2 ++ s := by
      refine ⟨(j' ++ es).drop out.length, by simp; omega, ?_⟩
      have : s0.drop ((a ++ p) ++ out).length = (j' ++ (es ++ s)).drop out.length := by
        rw [hv, hs', List.drop_drop]; congr 1; simp; omega
      rw [this, ← List.append_assoc, List.drop_append_of_le_length (by simp; omega)]
    obtain ⟨j2, hj2, hs2⟩ := hj2
    have hrec := ih ht m2 ((a ++ p) ++ out) j2 [] fuel (by simp) (by simp at hfu ⊢; omega) (by rw [hb1, hs2]; rfl) (by rw [hs2]; rfl)
      (by rw [← ho]; simp)
    have hstop : Subrange.stop ⟨(a ++ p).length + j.length, es.length⟩ = ((a ++ p) ++ out).length + j2.length := by
      rw [stop_lt (by simp; omega)]; simp; omega
    have hadd : sizeAdd (a ++ p).length out.length = ((a ++ p) ++ out).length := by
      rw [sizeAdd_lt (by simp; omega)]; simp; omega
    rw [← hstop, ← hadd] at hrec
    constructor
    · refine Always.bind ((within_decodeEscaped (R := fun _ => True) (fun _ _ => trivial) _).always hP) fun x m'' h => ?_
      rw [hdec] at h
      injection h with h h'
      injection h with h
      subst h h'
      dsimp only
      refine Always.bind ((within_ptr (R := fun _ => True) _ _).always hP) fun x m'' h => ?_
      rw [alone_ptr m' (by omega) (by omega)] at h
      injection h with h h'
      injection h with h
      subst h h'
      rw [hret]
      refine Always.bind hb2 fun x m'' h => ?_
      have h := k1.symm.trans h
      injection h with _ h'
      subst h'
      exact hrec.1
    · rw [alone_ok hdec]
      dsimp only
      rw [alone_ok (alone_ptr m' (by omega) (by omega)), hret, alone_ok k1]
      exact hrec.2

/-- what holds always holds at the end -/
theorem always_end {P : Mem → Prop} {p : Prog α} : ∀ {m : Mem}, Always P p m → ∀ {x : Res α} {m' : Mem}, alone p m = (x, m') → P m' := by
  induction p with
  | done r => intro m h x m' e; injection e with _ e; exact e ▸ h
  | load a k ih => exact fun h => ih _ h.2
  | store a x p ih => exact fun h => ih h.2

/-- a call, when it is alone -/
def alone' (c : Call) (m : Mem) : Res Value × Mem := alone c.prog m

theorem always_encodeUtf8Buf (b e : Nat) (hb : b ≤ e) (c : Char32) (m : Mem) :
    Always (fun m' => ∃ k, text m' ⟨b, e⟩ = (Ystring.encodeUtf8Buf c (e - b)).1.take k ++ (text m ⟨b, e⟩).drop k)
      (encodeUtf8Buf ⟨b, e⟩ c) m := by
  unfold encodeUtf8Buf Ystring.encodeUtf8Buf
  dsimp only
  generalize hk : (if getUtf8EncodedLength c > e - b then 0 else getUtf8EncodedLength c) = k
  have hk' : b + k ≤ e := by rw [← hk]; split <;> omega
  obtain ⟨m', h1, h2, h3⟩ := run_encodeDetail b e c k m b (by omega) hk'
  have hl := encodeDetail_length c k
  have hasc := asc_encodeDetail b e c k b m
  rw [← hl] at hasc
  have := (block (e := e) (s := bytes m b e) (o := Ystring.encodeDetail c k) (a := []) (a' := Ystring.encodeDetail c k)
    (x := (bytes m b e).drop k) (by rw [hl] at hasc ⊢; exact hasc) (by rw [hl]; exact hk') rfl (by
      rw [h1]
      have := bytes_written (b := b) (e := e) (i := 0) hk' h2 h3
      simpa using this) (List.prefix_refl _)).2.mono
    (Q := fun m' => ∃ k', text m' ⟨b, e⟩ = (Ystring.encodeDetail c k).take k' ++ (text m ⟨b, e⟩).drop k')
    fun m' ⟨k', _, h⟩ => ⟨k', h⟩
  refine Always.bind this fun n m' h => ?_
  exact always_end this h

end Ystring.Thr
