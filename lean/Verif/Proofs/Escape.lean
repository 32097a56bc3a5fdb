import Verif.Model.Escape
import Verif.Spec.Escape
import Verif.Proofs.Encode
/-
Lemmas for C56: the loop of `escape_json`.
-/
namespace Ystring
open Spec

theorem forall_u8 {P : UInt8 → Prop} (h : ∀ n, n < 256 → P (UInt8.ofNat n)) (b : UInt8) : P b := by
  have := h b.toNat b.toNat_lt
  rwa [UInt8.ofNat_toNat] at this

theorem stdFindIf_none {α : Type} {f : α → Bool} : ∀ {p : List α}, (∀ x ∈ p, f x = false) →
    stdFindIf f p = p.length
  | [], _ => rfl
  | x :: p, h => by
    rw [stdFindIf, h x (by simp), if_neg (by simp), stdFindIf_none (fun y hy => h y (by simp [hy]))]; simp

theorem stdFindIf_first {α : Type} {f : α → Bool} {b : α} {t : List α} (hb : f b = true) :
    ∀ {p : List α}, (∀ x ∈ p, f x = false) → stdFindIf f (p ++ b :: t) = p.length
  | [], _ => by simp [stdFindIf, hb]
  | x :: p, h => by
    rw [List.cons_append, stdFindIf, h x (by simp), if_neg (by simp),
      stdFindIf_first hb (fun y hy => h y (by simp [hy]))]; simp

theorem find_split {α : Type} (f : α → Bool) : ∀ s : List α,
    (∀ x ∈ s, f x = false) ∨ ∃ p b t, s = p ++ b :: t ∧ (∀ x ∈ p, f x = false) ∧ f b = true
  | [] => .inl (by simp)
  | x :: s => by
    cases hx : f x with
    | true => exact .inr ⟨[], x, s, rfl, by simp, hx⟩
    | false =>
      rcases find_split f s with h | ⟨p, b, t, rfl, h1, h2⟩
      · exact .inl (by simpa [hx] using h)
      · exact .inr ⟨x :: p, b, t, rfl, by simpa [hx] using h1, h2⟩

theorem isEscapable_iff (b : UInt8) : isEscapable b = true ↔ MustEscape b := by
  revert b
  apply forall_u8
  decide +kernel

theorem isEscapable_false (b : UInt8) : isEscapable b = false ↔ ¬ MustEscape b := by
  rw [← isEscapable_iff]; simp

theorem escapeSequence_spec (b : UInt8) (h : MustEscape b) : escapeSequence b = jsonByte b := by
  revert b
  apply forall_u8
  decide +kernel

theorem jsonByte_plain (b : UInt8) (h : ¬ MustEscape b) : jsonByte b = [b] := by
  revert b
  apply forall_u8
  decide +kernel

theorem jsonEscaped_append (s t : Str) : jsonEscaped (s ++ t) = jsonEscaped s ++ jsonEscaped t := by
  simp [jsonEscaped]

theorem jsonEscaped_plain : ∀ {s : Str}, (∀ b ∈ s, ¬ MustEscape b) → jsonEscaped s = s
  | [], _ => rfl
  | b :: s, h => by
    have := jsonEscaped_plain (s := s) (fun y hy => h y (by simp [hy]))
    unfold jsonEscaped at *
    rw [List.flatMap_cons, this, jsonByte_plain b (h b (by simp))]; rfl

theorem findFirstEscapableChar_none {w p : Str} (h : ∀ b ∈ p, ¬ MustEscape b) :
    findFirstEscapableChar (w ++ p) w.length = .ok ⟨w.length + p.length, 0⟩ := by
  unfold findFirstEscapableChar
  rw [if_neg (by simp), List.drop_left, stdFindIf_none (fun x hx => (isEscapable_false x).mpr (h x hx))]
  simp

theorem findFirstEscapableChar_some {w p t : Str} {b : UInt8} (h : ∀ b ∈ p, ¬ MustEscape b) (hb : MustEscape b) :
    findFirstEscapableChar (w ++ (p ++ b :: t)) w.length = .ok ⟨w.length + p.length, 1⟩ := by
  unfold findFirstEscapableChar
  rw [if_neg (by simp), List.drop_left,
    stdFindIf_first ((isEscapable_iff b).mpr hb) (fun x hx => (isEscapable_false x).mpr (h x hx))]
  simp

theorem escapeJsonLoop_spec : ∀ (fuel : Nat) (w s result : Str), s.length < fuel → (w ++ s).length < SIZE_MOD →
    escapeJsonLoop (w ++ s) fuel w.length result = .ok (result ++ jsonEscaped s)
  | 0, _, _, _, h, _ => by omega
  | fuel + 1, w, s, result, hf, hl => by
    rw [escapeJsonLoop]
    rcases find_split (fun b => decide (MustEscape b)) s with h | ⟨p, b, t, rfl, h1, h2⟩
    · have h : ∀ b ∈ s, ¬ MustEscape b := by simpa using h
      rw [findFirstEscapableChar_none h]
      simp only [bind, Except.bind]
      rw [if_neg (by simp [Subrange.nonempty]), List.drop_left, jsonEscaped_plain h]
    · have h1 : ∀ b ∈ p, ¬ MustEscape b := by simpa using h1
      have h2 : MustEscape b := by simpa using h2
      rw [findFirstEscapableChar_some h1 h2]
      simp only [bind, Except.bind]
      rw [if_pos (by simp [Subrange.nonempty]), List.drop_left]
      have hg : (w ++ (p ++ b :: t))[w.length + p.length]? = some b := by
        rw [List.getElem?_append_right (by omega), Nat.add_sub_cancel_left, List.getElem?_append_right (by omega)]
        simp
      simp only [hg]
      have hs : Subrange.stop ⟨w.length + p.length, 1⟩ = (w ++ p ++ [b]).length := by
        unfold Subrange.stop sizeAdd
        simp only
        rw [Nat.mod_eq_of_lt (by simp at hl; omega)]
        simp [Nat.add_assoc]
      rw [hs]
      have ha : w ++ (p ++ b :: t) = (w ++ p ++ [b]) ++ t := by simp
      rw [ha, escapeJsonLoop_spec fuel (w ++ p ++ [b]) t _ (by simp at hf; omega) (by rw [← ha]; exact hl)]
      rw [jsonEscaped_append, jsonEscaped_plain h1, escapeSequence_spec b h2]
      rw [show w.length + p.length - w.length = p.length by omega, List.take_left]
      simp [jsonEscaped]

end Ystring
