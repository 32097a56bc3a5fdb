import Verif.Proofs.Decompose
/- skip_next_utf8_codepoint / skip_prev_utf8_codepoint on arbitrary bytes. -/
namespace Ystring
open Spec

/-- number of continuation bytes a byte announces (`none`: no limit) -/
def capOf (l : UInt8) : Option Nat :=
  if l.toNat < 0x80 then some 0
  else if 0xC0 ≤ l.toNat ∧ l.toNat < 0xE0 then some 1
  else if 0xE0 ≤ l.toNat ∧ l.toNat < 0xF0 then some 2
  else if 0xF0 ≤ l.toNat ∧ l.toNat < 0xF8 then some 3
  else none

/-- a block: a byte and continuation bytes, at most as many as announced -/
def IsBlock (u : Str) : Prop :=
  ∃ l cs, u = l :: cs ∧ (∀ b ∈ cs, IsCont b) ∧ (∀ k, capOf l = some k → cs.length ≤ k)

/-- the block can take no more continuation bytes -/
def FullBlock (u : Str) : Prop :=
  ∃ l cs, u = l :: cs ∧ (∀ b ∈ cs, IsCont b) ∧ capOf l = some cs.length

def StartsCont (t : Str) : Prop := ∃ b t', t = b :: t' ∧ IsCont b

/-- segmentation of a string into blocks -/
inductive Seg : List Str → Prop
  | nil : Seg []
  | cons {u us} : IsBlock u → (StartsCont us.flatten → FullBlock u) → Seg us → Seg (u :: us)

instance (b : UInt8) : Decidable (IsCont b) := by unfold IsCont; infer_instance

theorem isC (b : UInt8) : b &&& 0xC0 = 0x80 ↔ IsCont b := andC0 b

theorem skipCont_all {cs : Str} (h : ∀ b ∈ cs, IsCont b) : ∀ {n : Nat} {t : Str}, cs.length ≤ n →
    (StartsCont t → cs.length = n) → skipCont n (cs ++ t) = t := by
  induction cs with
  | nil =>
    intro n t _ h2
    cases t with
    | nil => cases n <;> rfl
    | cons b t =>
      cases n with
      | zero => rfl
      | succ n =>
        simp only [List.nil_append, skipCont, isC]
        rw [if_neg]
        intro hb
        have := h2 ⟨b, t, rfl, hb⟩
        simp at this
  | cons b cs ih =>
    intro n t h1 h2
    cases n with
    | zero => simp at h1
    | succ n =>
      simp only [List.cons_append, skipCont, isC]
      rw [if_pos (h b (by simp))]
      exact ih (fun x hx => h x (by simp [hx])) (by simpa using h1) (fun hc => by simpa using h2 hc)

theorem capOf_cont {b : UInt8} (h : IsCont b) : capOf b = none := by
  unfold IsCont at h; unfold capOf
  rw [if_neg (by omega), if_neg (by omega), if_neg (by omega), if_neg (by omega)]

/-- the step of `skipNext` in terms of `capOf` -/
theorem skipNext_cap (l : UInt8) (t : Str) :
    skipNext (l :: t) = (true, skipCont ((capOf l).getD 4294967295) t) := by
  simp only [skipNext, capOf, and80, andE0, andF0, andF8]
  split
  · simp; cases t <;> rfl
  · split
    · simp
    · split
      · simp
      · split <;> simp

theorem skipNext_block {u t : Str} (h : IsBlock u) (hf : StartsCont t → FullBlock u)
    (hl : u.length < 4294967296) : skipNext (u ++ t) = (true, t) := by
  obtain ⟨l, cs, rfl, hc, hk⟩ := h
  rw [List.cons_append, skipNext_cap]
  congr 1
  cases hcap : capOf l with
  | none =>
    apply skipCont_all hc
    · simp at hl ⊢; omega
    · intro hs
      obtain ⟨l', cs', e, -, h3⟩ := hf hs
      injection e with e1 e2
      rw [← e1, hcap] at h3; cases h3
  | some k =>
    apply skipCont_all hc
    · exact hk k hcap
    · intro hs
      obtain ⟨l', cs', e, -, h3⟩ := hf hs
      injection e with e1 e2
      rw [← e1, hcap] at h3; rw [e2]; simp at h3 ⊢; omega

theorem skipPrevLoop_conts (ws : Str) : ∀ (w : UInt8) (n : Nat) (p : Str) (l : UInt8) (rest : Str),
    IsCont w → (∀ b ∈ ws, IsCont b) → n + ws.length + 1 < 4294967296 →
    skipPrevLoop n w p (ws ++ l :: rest) =
      skipPrevLoop (n + ws.length + 1) l (l :: (ws.reverse ++ p)) rest := by
  induction ws with
  | nil =>
    intro w n p l rest hw _ hn
    rw [skipPrevLoop.eq_def]
    simp only [isC]
    rw [if_pos hw]
    simp at hn
    simp only [List.nil_append, List.length_nil, List.reverse_nil, Nat.add_zero]
    rw [Nat.mod_eq_of_lt hn]
  | cons x ws ih =>
    intro w n p l rest hw hc hn
    rw [skipPrevLoop.eq_def]
    simp only [isC]
    rw [if_pos hw]
    simp only [List.length_cons] at hn
    simp only [List.cons_append, List.length_cons, List.reverse_cons, List.append_assoc]
    rw [Nat.mod_eq_of_lt (by omega), ih x (n + 1) (x :: p) l rest (hc x (by simp))
      (fun b hb => hc b (by simp [hb])) (by omega)]
    simp; congr 1; omega

theorem skipPrevLoop_begin (ws : Str) : ∀ (w : UInt8) (n : Nat) (p : Str),
    IsCont w → (∀ b ∈ ws, IsCont b) → skipPrevLoop n w p ws = .ok (true, []) := by
  induction ws with
  | nil =>
    intro w n p hw _
    rw [skipPrevLoop.eq_def]
    simp only [isC]
    rw [if_pos hw]
  | cons x ws ih =>
    intro w n p hw hc
    rw [skipPrevLoop.eq_def]
    simp only [isC]
    rw [if_pos hw]
    exact ih x _ _ (hc x (by simp)) (fun b hb => hc b (by simp [hb]))

theorem skipPrevLoop_lead (l : UInt8) (cs rest : Str) (hl : ¬ IsCont l)
    (hn : cs.length + 1 < 4294967296) :
    skipPrevLoop cs.length l (l :: cs) rest =
      .ok (true, match capOf l with
        | none => rest
        | some k => if cs.length ≤ k then rest else ((l :: cs).take (k + 1)).reverse ++ rest) := by
  rw [skipPrevLoop.eq_def]
  simp only [isC, and80, andE0, andF0, andF8]
  rw [if_neg hl, Nat.mod_eq_of_lt hn]
  have key : ∀ k, ¬ cs.length ≤ k → stepBack (k + 1) (l :: cs) rest
      = .ok (((l :: cs).take (k + 1)).reverse ++ rest) := by
    intro k hk
    have h1 : ((l :: cs).take (k + 1)).length = k + 1 := by simp; omega
    have := stepBack_append ((l :: cs).take (k + 1)) ((l :: cs).drop (k + 1)) rest
    rwa [List.take_append_drop, h1] at this
  unfold capOf
  unfold IsCont at hl
  have fin : ∀ k, (if k + 1 ≥ cs.length + 1 then Except.ok (true, rest)
      else do let it ← stepBack (k + 1) (l :: cs) rest; Except.ok (true, it)) =
      (Except.ok (true, if cs.length ≤ k then rest else ((l :: cs).take (k + 1)).reverse ++ rest) : Res _) := by
    intro k
    by_cases hk : cs.length ≤ k
    · rw [if_pos (by omega), if_pos hk]
    · rw [if_neg (by omega), if_neg hk, key k hk]; rfl
  split
  · exact fin 0
  split
  · exact fin 1
  split
  · exact fin 2
  split
  · exact fin 3
  · rw [if_pos (by omega)]

/-- `skipPrev` over continuation bytes `cs` preceded by a byte `l` that is not one. -/
theorem skipPrev_lead (l : UInt8) (cs rest : Str) (hl : ¬ IsCont l) (hc : ∀ b ∈ cs, IsCont b)
    (hn : cs.length + 1 < 4294967296) :
    skipPrev (cs.reverse ++ l :: rest) =
      .ok (true, match capOf l with
        | none => rest
        | some k => if cs.length ≤ k then rest else ((l :: cs).take (k + 1)).reverse ++ rest) := by
  cases hr : cs.reverse with
  | nil =>
    have : cs = [] := by simpa using hr
    subst this
    exact skipPrevLoop_lead l [] rest hl (by simp)
  | cons w ws =>
    have hcs : cs = ws.reverse ++ [w] := by simpa using congrArg List.reverse hr
    have hlen : cs.length = ws.length + 1 := by simp [hcs]
    rw [List.cons_append, skipPrev, skipPrevLoop_conts ws w 0 [w] l rest (hc w (by simp [hcs]))
      (fun b hb => hc b (by simp [hcs, hb])) (by omega), ← hcs]
    have : 0 + ws.length + 1 = cs.length := by omega
    rw [this]
    exact skipPrevLoop_lead l cs rest hl hn

theorem skipPrev_begin (cs : Str) (h : cs ≠ []) (hc : ∀ b ∈ cs, IsCont b) :
    skipPrev cs.reverse = .ok (true, []) := by
  cases hr : cs.reverse with
  | nil => simp at hr; exact absurd hr h
  | cons w ws =>
    have hcs : cs = ws.reverse ++ [w] := by simpa using congrArg List.reverse hr
    exact skipPrevLoop_begin ws w 0 [w] (hc w (by simp [hcs])) (fun b hb => hc b (by simp [hcs, hb]))

/-! ### Segmentation exists -/

theorem FullBlock.isBlock {u} (h : FullBlock u) : IsBlock u := by
  obtain ⟨l, cs, rfl, h1, h2⟩ := h
  exact ⟨l, cs, rfl, h1, fun k hk => by rw [hk] at h2; simp at h2; omega⟩

theorem IsBlock.ne_nil {u} (h : IsBlock u) : u ≠ [] := by
  obtain ⟨l, cs, rfl, _⟩ := h; simp

/-- the longest block at the start of a non-empty string -/
theorem first_block (l : UInt8) (t : Str) : ∃ u t', l :: t = u ++ t' ∧ IsBlock u ∧
    (StartsCont t' → FullBlock u) := by
  -- take at most `k` continuation bytes
  have take : ∀ (k : Nat) (t : Str), ∃ cs t', t = cs ++ t' ∧ (∀ b ∈ cs, IsCont b) ∧ cs.length ≤ k ∧
      (StartsCont t' → cs.length = k) := by
    intro k
    induction k with
    | zero => intro t; exact ⟨[], t, by simp⟩
    | succ k ih =>
      intro t
      cases t with
      | nil => exact ⟨[], [], by simp [StartsCont]⟩
      | cons b t =>
        by_cases hb : IsCont b
        · obtain ⟨cs, t', rfl, h1, h2, h3⟩ := ih t
          refine ⟨b :: cs, t', by simp, ?_, by simpa using h2, fun h => by simpa using h3 h⟩
          intro x hx
          rcases List.mem_cons.mp hx with rfl | hx
          · exact hb
          · exact h1 x hx
        · refine ⟨[], b :: t, by simp, by simp, by simp, ?_⟩
          rintro ⟨b', t', e, hb'⟩
          injection e with e1 e2; subst e1; exact absurd hb' hb
  cases hcap : capOf l with
  | some k =>
    obtain ⟨cs, t', rfl, h1, h2, h3⟩ := take k t
    refine ⟨l :: cs, t', by simp, ⟨l, cs, rfl, h1, fun k' hk' => ?_⟩, fun h => ⟨l, cs, rfl, h1, ?_⟩⟩
    · rw [hcap] at hk'; simp at hk'; omega
    · rw [hcap, h3 h]
  | none =>
    obtain ⟨cs, t', rfl, h1, h2, h3⟩ := take (t.length + 1) t
    refine ⟨l :: cs, t', by simp, ⟨l, cs, rfl, h1, fun k' hk' => ?_⟩, fun h => ?_⟩
    · rw [hcap] at hk'; cases hk'
    · have := h3 h; simp at this; omega

theorem seg_exists (s : Str) : ∃ us, Seg us ∧ us.flatten = s := by
  induction h : s.length using Nat.strongRecOn generalizing s with
  | _ n ih =>
    cases s with
    | nil => exact ⟨[], .nil, rfl⟩
    | cons l t =>
      obtain ⟨u, t', e, h1, h2⟩ := first_block l t
      obtain ⟨us, h3, h4⟩ := ih t'.length (by
        have h5 := congrArg List.length e
        have := List.length_pos_iff.mpr h1.ne_nil
        simp only [List.length_append] at h5
        rw [h] at h5; omega) t' rfl
      exact ⟨u :: us, .cons h1 (by rw [h4]; exact h2) h3, by simp [h4, e]⟩

theorem Seg.block {us : List Str} (h : Seg us) {u} (hu : u ∈ us) : IsBlock u := by
  induction h with
  | nil => cases hu
  | cons h1 _ _ ih =>
    rcases List.mem_cons.mp hu with rfl | hu
    · exact h1
    · exact ih hu

theorem Seg.split {us vs : List Str} (h : Seg (us ++ vs)) : Seg vs := by
  induction us with
  | nil => exact h
  | cons u us ih => cases h with | cons _ _ h => exact ih h

/-- stepping back over the last block of a segmented prefix -/
theorem skipPrev_seg {us : List Str} {u : Str} {vs : List Str} (h : Seg (us ++ u :: vs))
    (hn : (us ++ [u]).flatten.length < 4294967296) :
    skipPrev (us ++ [u]).flatten.reverse = .ok (true, us.flatten.reverse) := by
  have hu : IsBlock u := h.block (by simp)
  obtain ⟨l, cs, rfl, hc, hk⟩ := hu
  simp only [List.flatten_append, List.flatten_cons, List.flatten_nil, List.append_nil,
    List.length_append, List.length_cons] at hn
  by_cases hl : IsCont l
  · cases hus : us.reverse with
    | nil =>
      have : us = [] := by simpa using hus
      subst this
      have := skipPrev_begin (l :: cs) (by simp) (by
        intro b hb; rcases List.mem_cons.mp hb with rfl | hb
        · exact hl
        · exact hc b hb)
      simpa using this
    | cons v us' =>
      have hus : us = us'.reverse ++ [v] := by simpa using congrArg List.reverse hus
      subst hus
      have hs : Seg (v :: (l :: cs) :: vs) := by
        have : Seg (us'.reverse ++ (v :: (l :: cs) :: vs)) := by simpa using h
        exact this.split
      cases hs with
      | cons _ hf _ =>
        obtain ⟨l', cs', rfl, hc', hcap⟩ := hf ⟨l, cs ++ vs.flatten, by simp, hl⟩
        have hl' : ¬ IsCont l' := fun hh => by rw [capOf_cont hh] at hcap; cases hcap
        have := skipPrev_lead l' (cs' ++ l :: cs) us'.reverse.flatten.reverse hl' (by
          intro b hb
          simp only [List.mem_append, List.mem_cons] at hb
          rcases hb with hb | rfl | hb
          · exact hc' b hb
          · exact hl
          · exact hc b hb) (by simp at hn ⊢; omega)
        rw [hcap] at this
        simp only at this
        rw [if_neg (by simp)] at this
        have e2 : (l' :: (cs' ++ l :: cs)).take (cs'.length + 1) = l' :: cs' := by simp
        rw [e2] at this
        simpa using this
  · have := skipPrev_lead l cs us.flatten.reverse hl hc (by omega)
    rw [show skipPrev (us ++ [l :: cs]).flatten.reverse = _ from by simpa using this]
    congr 2
    cases hcap : capOf l with
    | none => rfl
    | some k => simp only; rw [if_pos (hk k hcap)]

/-! ### Sequences are full blocks -/

theorem Spec.IsSeq.full {u c} (h : IsSeq u c) : FullBlock u := by
  cases h with
  | one h1 h2 => exact ⟨_, [], rfl, by simp, by unfold capOf; rw [if_pos h1]; rfl⟩
  | two h1 h2 h3 => exact ⟨_, [_], rfl, by simpa using h3, by
      unfold capOf; rw [if_neg (by omega), if_pos (by omega)]; rfl⟩
  | three h1 h2 h3 h4 => exact ⟨_, [_, _], rfl, by simpa using ⟨h3, h4⟩, by
      unfold capOf; rw [if_neg (by omega), if_neg (by omega), if_pos (by omega)]; rfl⟩
  | four h1 h2 h3 h4 h5 => exact ⟨_, [_, _, _], rfl, by simpa using ⟨h3, h4, h5⟩, by
      unfold capOf
      rw [if_neg (by omega), if_neg (by omega), if_neg (by omega), if_pos (by omega)]; rfl⟩

theorem skipNext_seq {u c} (h : IsSeq u c) (t : Str) : skipNext (u ++ t) = (true, t) :=
  skipNext_block h.full.isBlock (fun _ => h.full) (by have := h.length_le; omega)

theorem skipPrev_seq {u c} (h : IsSeq u c) (t : Str) : skipPrev (u.reverse ++ t) = .ok (true, t) := by
  have hl := h.length_le
  obtain ⟨l, cs, rfl, hc, hcap⟩ := h.full
  simp at hl
  have hl' : ¬ IsCont l := fun hh => by rw [capOf_cont hh] at hcap; cases hcap
  have := skipPrev_lead l cs t hl' hc (by omega)
  rw [hcap] at this
  simpa using this

end Ystring
