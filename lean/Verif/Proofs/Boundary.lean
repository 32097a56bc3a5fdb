import Verif.Proofs.Decompose
import Verif.Spec.Find
/- Self-synchronisation: cutting a valid string before a byte that is no continuation byte. -/
namespace Ystring
open Spec

/-- bytes of a sequence behind the first one are continuation bytes -/
theorem Spec.IsSeq.tail_cont {u c} (h : IsSeq u c) : ∀ b ∈ u.tail, IsCont b := by
  cases h <;> simp_all

/-- the first byte of a sequence is no continuation byte -/
theorem Spec.IsSeq.head_lead {u c} (h : IsSeq u c) : ∃ b t, u = b :: t ∧ ¬ IsCont b := by
  cases h <;> refine ⟨_, _, rfl, ?_⟩ <;> unfold IsCont <;> omega

/-- A valid string cut before a lead byte gives two valid strings. -/
theorem cut_before_lead {us : List Unit8} (h : Units us) : ∀ {a b : Str}, bytesOf us = a ++ b →
    (∀ x t, b = x :: t → ¬ IsCont x) →
    ∃ vs ws, us = vs ++ ws ∧ a = bytesOf vs ∧ b = bytesOf ws := by
  induction us with
  | nil =>
    intro a b e _
    have : a = [] ∧ b = [] := by simpa using e.symm
    exact ⟨[], [], rfl, by simp [this], by simp [this]⟩
  | cons x us ih =>
    intro a b e hb
    rw [Units_cons] at h
    by_cases ha : a = []
    · subst ha; exact ⟨[], x :: us, rfl, rfl, by simpa using e.symm⟩
    · rw [bytesOf_cons, List.append_eq_append_iff] at e
      rcases e with ⟨a', rfl, e⟩ | ⟨c', e1, e2⟩
      · obtain ⟨vs, ws, rfl, rfl, rfl⟩ := ih h.2 e hb
        exact ⟨x :: vs, ws, rfl, by simp, rfl⟩
      · cases c' with
        | nil =>
          simp at e1 e2
          exact ⟨[x], us, rfl, by simp [e1], e2⟩
        | cons y c' =>
          exfalso
          refine hb y _ (by rw [e2]; rfl) (h.1.tail_cont y ?_)
          rw [e1]
          cases a with
          | nil => exact absurd rfl ha
          | cons z a => simp

theorem valid_cut {a m b : Str} (hs : Valid (a ++ m ++ b)) (hm : Valid m) (h0 : m ≠ []) : Valid a ∧ Valid b := by
  obtain ⟨us, h, e⟩ := hs.units
  obtain ⟨ms, hms, rfl⟩ := hm.units
  rw [List.append_assoc] at e
  have hl : ∀ x t, bytesOf ms ++ b = x :: t → ¬ IsCont x := by
    intro x t e
    cases ms with
    | nil => simp at h0
    | cons y ms =>
      obtain ⟨z, t', e1, e2⟩ := (Units_cons.mp hms).1.head_lead
      rw [bytesOf_cons, e1] at e
      simp at e
      exact e.1 ▸ e2
  obtain ⟨vs, ws, rfl, rfl, e2⟩ := cut_before_lead h e hl
  rw [Units_append] at h
  obtain ⟨ks, h3, h4, rfl⟩ := valid_suffix hms h.2 e2
  exact ⟨h.1.valid, h3.valid⟩

end Ystring
