import Verif.Proofs.CostBound3
import Verif.Props.Cost
import Verif.Props.Escape
/-
C114: how many bytes further functions read (see C108). All bounds hold for all byte strings, valid or not, whether the function
returns or throws.
-/
namespace Ystring
open Spec

/-- C114: the counting models compute what the other models compute. -/
theorem C114_same (s t u : Str) (c : Char32) (o : Nat) (k j : Int) (mem : List Char32) (params : SplitParams) :
    (Cost.findLastNewline mem s o).val = findLastNewline mem s o ∧
    (Cost.getCharRange s k).val = getCharRange s k ∧
    (Cost.getCodepoint s k).val = getCodepoint s k ∧
    (Cost.getCharSubstring s k j).val = getCharSubstring s k j ∧
    (Cost.getCodepointSubstring s k j).val = getCodepointSubstring s k j ∧
    (Cost.insertChar s k c).val = insertChar s k c ∧ (Cost.insertChars s k t).val = insertChars s k t ∧
    (Cost.insertCodepoint s k c).val = insertCodepoint s k c ∧ (Cost.insertCodepoints s k t).val = insertCodepoints s k t ∧
    (Cost.replaceChars s k j t).val = replaceChars s k j t ∧
    (Cost.replaceCodepoints s k j t).val = replaceCodepoints s k j t ∧
    (Cost.findLastBytes s t o).val = .ok (findLast s t o) ∧
    (k < 0 → (Cost.replaceFromRight s t u k).val = replace s t u k) ∧
    (Cost.replace s t u k).val = CI.replace s t u k ∧
    (Cost.split s t params).val = CI.split s t params ∧
    (Cost.toComposed s).val = toComposed s ∧ (Cost.toDecomposed s).val = toDecomposed s ∧
    (Cost.escapeJson s).val = escapeJson s := by
  refine ⟨Cost.val_findLastNewline _ _ _, Cost.val_getCharRange _ _, Cost.val_getCodepoint _ _, ?_, ?_, ?_, ?_, ?_, ?_, ?_, ?_,
    Cost.val_findLastBytes _ _ _, Cost.val_replaceFromRight _ _ _ _, Cost.val_replace _ _ _ _, Cost.val_split _ _ _,
    Cost.val_toComposed _, Cost.val_toDecomposed _ _, Cost.val_escapeJsonLoop _ _ _ _⟩
  · simp only [Cost.getCharSubstring, getCharSubstring, Cost.val_bind, Cost.val_getCharSubstringRange, Cost.val_lift]
  · simp only [Cost.getCodepointSubstring, getCodepointSubstring, Cost.val_bind, Cost.val_getCodepointSubstringRange, Cost.val_lift]
  · simp only [Cost.insertChar, insertChar, Cost.val_bind, Cost.val_getCharPos, Cost.val_lift]
  · simp only [Cost.insertChars, insertChars, Cost.val_bind, Cost.val_getCharPos, Cost.val_lift]
  · simp only [Cost.insertCodepoint, insertCodepoint, Cost.val_bind, Cost.val_getCodepointPos, Cost.val_lift]
  · simp only [Cost.insertCodepoints, insertCodepoints, Cost.val_bind, Cost.val_getCodepointPos, Cost.val_lift]
  · simp only [Cost.replaceChars, replaceChars, Cost.val_bind, Cost.val_getCharSubstringRange, Cost.val_lift]
  · simp only [Cost.replaceCodepoints, replaceCodepoints, Cost.val_bind, Cost.val_getCodepointSubstringRange, Cost.val_lift]

/-- C114: one pass, or a bounded number of passes, through the string. -/
theorem C114_linear (s t : Str) (c : Char32) (k j : Int) (o : Nat) (mem : List Char32) (hl : s.length < npos) :
    (Cost.findLastNewline mem s o).reads ≤ min o s.length ∧
    (Cost.getCharRange s k).reads ≤ (if 0 ≤ k then 2 else 1) * s.length ∧
    (Cost.insertChar s k c).reads ≤ (if 0 ≤ k then 2 else 1) * s.length ∧
    (Cost.insertChars s k t).reads ≤ (if 0 ≤ k then 2 else 1) * s.length ∧
    (Cost.getCodepoint s k).reads ≤ (if 0 ≤ k then 2 else 5) * s.length ∧
    (Cost.insertCodepoint s k c).reads ≤ (if 0 ≤ k then 2 else 5) * s.length ∧
    (Cost.insertCodepoints s k t).reads ≤ (if 0 ≤ k then 2 else 5) * s.length ∧
    (Cost.getCharSubstring s k j).reads ≤ 4 * s.length ∧
    (Cost.replaceChars s k j t).reads ≤ 4 * s.length ∧
    (Cost.getCodepointSubstring s k j).reads ≤ 10 * s.length ∧
    (Cost.replaceCodepoints s k j t).reads ≤ 10 * s.length :=
  ⟨(Cost.wp_findLastNewline mem s o _ (Nat.le_refl _)).1, (Cost.wp_getCharRange s k _ hl (Nat.le_refl _)).1,
    (Cost.wp_then (Cost.wp_getCharPos s k _ hl (Nat.le_refl _))).1, (Cost.wp_then (Cost.wp_getCharPos s k _ hl (Nat.le_refl _))).1,
    (Cost.wp_getCodepoint s k _ (Nat.le_refl _)).1,
    (Cost.wp_then (Cost.wp_getCodepointPos s k _ (Nat.le_refl _))).1, (Cost.wp_then (Cost.wp_getCodepointPos s k _ (Nat.le_refl _))).1,
    (Cost.wp_then (Cost.wp_getCharSubstringRange s k j _ hl (Nat.le_refl _))).1,
    (Cost.wp_then (Cost.wp_getCharSubstringRange s k j _ hl (Nat.le_refl _))).1,
    (Cost.wp_then (Cost.wp_getCodepointSubstringRange s k j _ (Nat.le_refl _))).1,
    (Cost.wp_then (Cost.wp_getCodepointSubstringRange s k j _ (Nat.le_refl _))).1⟩

/-- C114: the normalizations read no byte twice, and every byte when they return. -/
theorem C114_once (s : Str) :
    (Cost.toComposed s).reads ≤ s.length ∧
    (Cost.toDecomposed s).reads ≤ s.length ∧
    (∀ r, toComposed s = .ok r → (Cost.toComposed s).reads = s.length) ∧
    (∀ r, toDecomposed s = .ok r → (Cost.toDecomposed s).reads = s.length) := by
  have h := Nat.le_refl s.length
  have h1 := Cost.wp_toComposed s _ h
  have h2 := Cost.wp_toDecomposed s 100 _ h
  refine ⟨h1.1, h2.1, fun r e => ?_, fun r e => ?_⟩
  · have := (Cost.wp_result h1 ((Cost.val_toComposed s).trans e)).2
    have := h1.1
    omega
  · have := (Cost.wp_result h2 ((Cost.val_toDecomposed s 100).trans e)).2
    have := h2.1
    omega

/-- C114: escaping reads every byte, and the bytes that are escaped once more. -/
theorem C114_escape (s : Str) (h : Fits s) :
    (Cost.escapeJson s).reads = s.length + s.countP (fun b => b.toNat < 0x20 || b == 0x22 || b == 0x5C) := by
  have hb : (fun b : UInt8 => decide (b.toNat < 0x20) || b == 0x22 || b == 0x5C) = isEscapable := by
    funext b; rfl
  have hl : s.length < npos := by
    unfold Fits PTRDIFF_MAX at h; unfold npos; omega
  have h1 := Cost.wp_escapeJson s hl _ (Nat.le_refl _)
  have := (Cost.wp_result h1 ((Cost.val_escapeJsonLoop _ _ _ _).trans (C56_exact s h))).2
  rw [hb]
  have := h1.1
  omega

/-- C114: searching from the right compares two bytes per pair of a byte of the string and one of the pattern, in all, however many
occurrences are replaced. -/
theorem C114_from_right (s t u : Str) (o : Nat) (k : Int) :
    (Cost.findLastBytes s t o).reads ≤ 2 * s.length * t.length ∧
    (Cost.replaceFromRight s t u k).reads ≤ 2 * s.length * t.length :=
  ⟨(Cost.wp_findLastBytes s t o _ (by
      refine Nat.le_trans (Nat.mul_le_mul_right _ (Nat.min_le_right _ _)) ?_
      rw [← Nat.mul_assoc, Nat.mul_comm s.length 2]
      exact Nat.le_refl _)).1,
    (Cost.wp_replaceFromRight s t u k _ (Nat.le_refl _)).1⟩

/-- C114: replacing or splitting ignoring the case costs no more, up to the constant, than searching for one occurrence, however many
occurrences there are and whatever the number of replacements asked for. -/
theorem C114_ignoring_case (s t u : Str) (k : Int) (params : SplitParams) (hl : s.length < npos) :
    (Cost.split s t params).reads ≤ s.length * (5 * t.length + 1) + t.length ∧
    (Cost.replace s t u k).reads ≤ s.length * (5 * t.length + 1) + t.length + (if 0 ≤ k then 0 else 3) :=
  ⟨(Cost.wp_split s t params _ hl (Nat.le_refl _)).1, (Cost.wp_replace s t u k _ hl (Nat.le_refl _)).1⟩

/-! Concrete cases: "aé" is 61 C3 A9, "e" with a combining acute accent is 65 CC 81. -/

example : (Cost.getCharRange [0x61, 0xC3, 0xA9] 1).reads = 5 ∧ (Cost.getCharRange [0x61, 0xC3, 0xA9] (-2)).reads = 3 := by
  decide +kernel
example : (Cost.getCharSubstring [0x61, 0x62, 0x63] 1 2).val = .ok [0x62] ∧
    (Cost.getCharSubstring [0x61, 0x62, 0x63] 1 2).reads = 4 := by decide +kernel
example : (Cost.replaceFromRight [0x61, 0x61, 0x62, 0x61] [0x61] [0x63] (-2)).val = .ok [0x61, 0x63, 0x62, 0x63] ∧
    (Cost.replaceFromRight [0x61, 0x61, 0x62, 0x61] [0x61] [0x63] (-2)).reads = 6 := by decide +kernel
example : (Cost.replace [0x61, 0x41, 0x62] [0x41] [0x63]).val = .ok [0x63, 0x63, 0x62] ∧
    (Cost.replace [0x61, 0x41, 0x62] [0x41] [0x63]).reads = 8 := by decide +kernel
example : (Cost.toComposed [0x65, 0xCC, 0x81]).reads = 3 ∧ (Cost.toDecomposed [0xC3, 0xA9, 0x80]).reads = 3 := by decide +kernel
example : (Cost.escapeJson [0x61, 0x22, 0x62]).reads = 4 := by decide +kernel

end Ystring
