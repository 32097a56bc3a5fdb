import Verif.Proofs.ConvertCase
import Verif.Proofs.CharClass
import Verif.Proofs.CasePieces
import Verif.Spec.Utf8
/-
Property theorems C52 (case mapping of code points).
-/
namespace Ystring
open Spec

/-! ### C52 Case mapping of code points -/

/-- the ASCII keys are the first 26 entries of each table -/
theorem lookup_ascii (l : List (Nat × Nat)) (h : (l.drop 26).all (fun p => Nat.ble 128 p.1) = true) (c : Nat)
    (hc : c < 128) : lookup l c = lookup (l.take 26) c := by
  unfold lookup
  have h2 : (l.drop 26).find? (fun p => p.1 == c) = none := by
    rw [List.find?_eq_none]
    intro p hp
    have := List.all_eq_true.mp h p hp
    rw [Nat.ble_eq] at this
    simp only [beq_iff_eq]; omega
  have : l.find? (fun p => p.1 == c) = (l.take 26).find? (fun p => p.1 == c) := by
    conv => lhs; rw [← List.take_append_drop 26 l]
    rw [List.find?_append, h2, Option.or_none]
  rw [this]

theorem ascii_lower (c : Fin 128) : (if 0x41 ≤ c.val ∧ c.val ≤ 0x5A then c.val + 32 else c.val) =
    simpleLower c.val := by
  unfold simpleLower
  rw [lookup_ascii UD_LOWER (by decide +kernel) _ c.isLt]
  revert c; decide +kernel
theorem ascii_upper (c : Fin 128) : (if 0x61 ≤ c.val ∧ c.val ≤ 0x7A then c.val - 32 else c.val) =
    simpleUpper c.val := by
  unfold simpleUpper
  rw [lookup_ascii UD_UPPER (by decide +kernel) _ c.isLt]
  revert c; decide +kernel
theorem ascii_title (c : Fin 128) : (if 0x61 ≤ c.val ∧ c.val ≤ 0x7A then c.val - 32 else c.val) =
    simpleTitle c.val := by
  unfold simpleTitle
  rw [lookup_ascii UD_TITLE (by decide +kernel) _ c.isLt]
  revert c; decide +kernel

theorem add32 (c : Char32) (h : c.toNat < 128) : (c + 32).toNat = c.toNat + 32 := by
  rw [UInt32.toNat_add]
  have : UInt32.toNat 32 = 32 := rfl
  rw [this]; simp only [Nat.reducePow]; omega
theorem sub32 (c : Char32) (h : 32 ≤ c.toNat) : (c - 32).toNat = c.toNat - 32 := by
  have : UInt32.toNat 32 = 32 := rfl
  rw [UInt32.toNat_sub_of_le _ _ (by rw [UInt32.le_iff_toNat_le, this]; exact h), this]

/-- C52: `to_lower` is Unicode's simple lower case mapping, for every 32-bit value. -/
theorem C52_to_lower (c : Char32) : (toLowerChar c).toNat = simpleLower c.toNat := by
  unfold toLowerChar
  by_cases h : c.toNat < 128
  · rw [if_pos ((lt128 c).mpr h), ← ascii_lower ⟨c.toNat, h⟩]
    simp only [UInt32.le_iff_toNat_le, UInt32.toNat_ofNat, Nat.reducePow, Nat.reduceMod]
    split
    · exact add32 c h
    · rfl
  · rw [if_neg (fun h' => h ((lt128 c).mp h')), convert_convN _ _ _ lower_wf.1 lower_wf.2.1 lower_wf.2.2.1
      lower_wf.2.2.2]
    exact convN_lookup _ _ _ lower_1 lower_2 lower_3 _ (by omega)

/-- C52: `to_upper` is Unicode's simple upper case mapping, for every 32-bit value. -/
theorem C52_to_upper (c : Char32) : (toUpperChar c).toNat = simpleUpper c.toNat := by
  unfold toUpperChar
  by_cases h : c.toNat < 128
  · rw [if_pos ((lt128 c).mpr h), ← ascii_upper ⟨c.toNat, h⟩]
    simp only [UInt32.le_iff_toNat_le, UInt32.toNat_ofNat, Nat.reducePow, Nat.reduceMod]
    split
    · exact sub32 c (by omega)
    · rfl
  · rw [if_neg (fun h' => h ((lt128 c).mp h')), convert_convN _ _ _ upper_wf.1 upper_wf.2.1 upper_wf.2.2.1
      upper_wf.2.2.2]
    exact convN_lookup _ _ _ upper_1 upper_2 upper_3 _ (by omega)

/-- C52: `to_title` is Unicode's simple title case mapping, for every 32-bit value. -/
theorem C52_to_title (c : Char32) : (toTitleChar c).toNat = simpleTitle c.toNat := by
  unfold toTitleChar
  by_cases h : c.toNat < 128
  · rw [if_pos ((lt128 c).mpr h), ← ascii_title ⟨c.toNat, h⟩]
    simp only [UInt32.le_iff_toNat_le, UInt32.toNat_ofNat, Nat.reducePow, Nat.reduceMod]
    split
    · exact sub32 c (by omega)
    · rfl
  · rw [if_neg (fun h' => h ((lt128 c).mp h')), convert_convN _ _ _ title_wf.1 title_wf.2.1 title_wf.2.2.1
      title_wf.2.2.2]
    exact convN_lookup _ _ _ title_1 title_2 title_3 _ (by omega)

/-- non-trivial values: ÿ has an upper case outside Latin-1, ǆ has a separate title case -/
example : simpleUpper 0xFF = 0x178 ∧ simpleTitle 0x1C6 = 0x1C5 ∧ simpleUpper 0x1C6 = 0x1C4 ∧
    simpleLower 0x130 = 0x69 ∧ simpleUpper 0x110000 = 0x110000 := by decide +kernel

/-- a property of all results of a mapping, checked on its table -/
theorem lookup_prop (l : List (Nat × Nat)) (P : Nat → Nat → Prop) (h : ∀ p ∈ l, P p.1 p.2)
    (c : Nat) (hc : P c c) : P c (lookup l c) := by
  unfold lookup
  split
  · rename_i p hp
    have hk := List.find?_some hp
    simp only [beq_iff_eq] at hk
    rw [← hk]; exact h p (List.mem_of_find?_eq_some hp)
  · exact hc

/-- evaluation of the mapping (fast in the kernel) -/
def lowN (c : Nat) : Nat := caseGroupOf lowerGroups c
def upN (c : Nat) : Nat := caseGroupOf upperGroups c
def titN (c : Nat) : Nat := caseGroupOf titleGroups c

theorem lowN_eq (c : Nat) : simpleLower c = lowN c := lowerGroups_eq c
theorem upN_eq (c : Nat) : simpleUpper c = upN c := upperGroups_eq c
theorem titN_eq (c : Nat) : simpleTitle c = titN c := titleGroups_eq c

theorem lower_idem_tbl1 : (UD_LOWER.take 370).all (fun p => Nat.beq (lowN p.2) p.2) = true := by decide +kernel
theorem lower_idem_tbl2 : ((UD_LOWER.drop 370).take 370).all (fun p => Nat.beq (lowN p.2) p.2) = true := by decide +kernel
theorem lower_idem_tbl3 : (((UD_LOWER.drop 370).drop 370).take 370).all (fun p => Nat.beq (lowN p.2) p.2) = true := by decide +kernel
theorem lower_idem_tbl4 : (((UD_LOWER.drop 370).drop 370).drop 370).all (fun p => Nat.beq (lowN p.2) p.2) = true := by decide +kernel
theorem lower_idem_tbl : UD_LOWER.all (fun p => Nat.beq (lowN p.2) p.2) = true :=
  all_parts _ _ 370 lower_idem_tbl1 lower_idem_tbl2 lower_idem_tbl3 lower_idem_tbl4
theorem upper_idem_tbl1 : (UD_UPPER.take 370).all (fun p => Nat.beq (upN p.2) p.2) = true := by decide +kernel
theorem upper_idem_tbl2 : ((UD_UPPER.drop 370).take 370).all (fun p => Nat.beq (upN p.2) p.2) = true := by decide +kernel
theorem upper_idem_tbl3 : (((UD_UPPER.drop 370).drop 370).take 370).all (fun p => Nat.beq (upN p.2) p.2) = true := by decide +kernel
theorem upper_idem_tbl4 : (((UD_UPPER.drop 370).drop 370).drop 370).all (fun p => Nat.beq (upN p.2) p.2) = true := by decide +kernel
theorem upper_idem_tbl : UD_UPPER.all (fun p => Nat.beq (upN p.2) p.2) = true :=
  all_parts _ _ 370 upper_idem_tbl1 upper_idem_tbl2 upper_idem_tbl3 upper_idem_tbl4
theorem title_idem_tbl1 : (UD_TITLE.take 370).all (fun p => Nat.beq (titN p.2) p.2) = true := by decide +kernel
theorem title_idem_tbl2 : ((UD_TITLE.drop 370).take 370).all (fun p => Nat.beq (titN p.2) p.2) = true := by decide +kernel
theorem title_idem_tbl3 : (((UD_TITLE.drop 370).drop 370).take 370).all (fun p => Nat.beq (titN p.2) p.2) = true := by decide +kernel
theorem title_idem_tbl4 : (((UD_TITLE.drop 370).drop 370).drop 370).all (fun p => Nat.beq (titN p.2) p.2) = true := by decide +kernel
theorem title_idem_tbl : UD_TITLE.all (fun p => Nat.beq (titN p.2) p.2) = true :=
  all_parts _ _ 370 title_idem_tbl1 title_idem_tbl2 title_idem_tbl3 title_idem_tbl4

theorem simpleLower_idem (c : Nat) : simpleLower (simpleLower c) = simpleLower c := by
  have := lookup_prop UD_LOWER (fun c v => simpleLower c = v → simpleLower v = v) (by
    intro p hp _
    have := List.all_eq_true.mp lower_idem_tbl p hp
    rw [lowN_eq]; exact Nat.eq_of_beq_eq_true this) c id
  exact this rfl
theorem simpleUpper_idem (c : Nat) : simpleUpper (simpleUpper c) = simpleUpper c := by
  have := lookup_prop UD_UPPER (fun c v => simpleUpper c = v → simpleUpper v = v) (by
    intro p hp _
    have := List.all_eq_true.mp upper_idem_tbl p hp
    rw [upN_eq]; exact Nat.eq_of_beq_eq_true this) c id
  exact this rfl
theorem simpleTitle_idem (c : Nat) : simpleTitle (simpleTitle c) = simpleTitle c := by
  have := lookup_prop UD_TITLE (fun c v => simpleTitle c = v → simpleTitle v = v) (by
    intro p hp _
    have := List.all_eq_true.mp title_idem_tbl p hp
    rw [titN_eq]; exact Nat.eq_of_beq_eq_true this) c id
  exact this rfl

/-- C52: each of the three conversions is idempotent on every 32-bit value. -/
theorem C52_idempotent (c : Char32) :
    toLowerChar (toLowerChar c) = toLowerChar c ∧ toUpperChar (toUpperChar c) = toUpperChar c ∧
    toTitleChar (toTitleChar c) = toTitleChar c := by
  refine ⟨?_, ?_, ?_⟩ <;> apply UInt32.toNat_inj.mp
  · rw [C52_to_lower, C52_to_lower, simpleLower_idem]
  · rw [C52_to_upper, C52_to_upper, simpleUpper_idem]
  · rw [C52_to_title, C52_to_title, simpleTitle_idem]

example : toUpperChar 0x1C6 ≠ 0x1C6 ∧ toUpperChar (toUpperChar 0x1C6) = toUpperChar 0x1C6 := by decide +kernel

/-- a table maps scalar values to scalar values, never to ß, and only code points to code points -/
def goodPair (p : Nat × Nat) : Bool :=
  (Nat.ble (p.2 + 1) 0xD800 || (Nat.ble 0xE000 p.2 && Nat.ble p.2 0x10FFFF)) &&
  Nat.ble p.1 0x10FFFF && (!Nat.beq p.1 0xDF) && (!Nat.beq p.1 0)

theorem lower_good : UD_LOWER.all goodPair = true := by decide +kernel
theorem upper_good : UD_UPPER.all (fun p => goodPair p && (!Nat.beq p.2 0xDF)) = true := by decide +kernel
theorem title_good : UD_TITLE.all (fun p => goodPair p && (!Nat.beq p.2 0xDF)) = true := by decide +kernel

theorem lookup_good (l : List (Nat × Nat)) (h : ∀ p ∈ l, goodPair p = true) (c : Nat) :
    (c ≤ 0x10FFFF → lookup l c ≤ 0x10FFFF) ∧ (0x10FFFF < c → lookup l c = c) ∧
    (IsScalar c → IsScalar (lookup l c)) := by
  refine lookup_prop l (fun c v => (c ≤ 0x10FFFF → v ≤ 0x10FFFF) ∧ (0x10FFFF < c → v = c) ∧
    (IsScalar c → IsScalar v)) ?_ c ⟨id, fun _ => rfl, id⟩
  intro p hp
  have := h p hp
  simp only [goodPair, Bool.and_eq_true, Bool.or_eq_true, Nat.ble_eq] at this
  unfold IsScalar
  omega

theorem simpleLower_good (c : Nat) : (c ≤ 0x10FFFF → simpleLower c ≤ 0x10FFFF) ∧
    (0x10FFFF < c → simpleLower c = c) ∧ (IsScalar c → IsScalar (simpleLower c)) :=
  lookup_good _ (List.all_eq_true.mp lower_good) c
theorem simpleUpper_good (c : Nat) : (c ≤ 0x10FFFF → simpleUpper c ≤ 0x10FFFF) ∧
    (0x10FFFF < c → simpleUpper c = c) ∧ (IsScalar c → IsScalar (simpleUpper c)) :=
  lookup_good _ (fun p hp => by
    have := List.all_eq_true.mp upper_good p hp
    simp only [Bool.and_eq_true] at this; exact this.1) c
theorem simpleTitle_good (c : Nat) : (c ≤ 0x10FFFF → simpleTitle c ≤ 0x10FFFF) ∧
    (0x10FFFF < c → simpleTitle c = c) ∧ (IsScalar c → IsScalar (simpleTitle c)) :=
  lookup_good _ (fun p hp => by
    have := List.all_eq_true.mp title_good p hp
    simp only [Bool.and_eq_true] at this; exact this.1) c

/-- C52: conversion never leaves the Unicode range and changes nothing outside it. -/
theorem C52_range (c : Char32) :
    ((toLowerChar c).toNat ≤ 0x10FFFF ↔ c.toNat ≤ 0x10FFFF) ∧
    ((toUpperChar c).toNat ≤ 0x10FFFF ↔ c.toNat ≤ 0x10FFFF) ∧
    ((toTitleChar c).toNat ≤ 0x10FFFF ↔ c.toNat ≤ 0x10FFFF) := by
  rw [C52_to_lower, C52_to_upper, C52_to_title]
  have h1 := simpleLower_good c.toNat
  have h2 := simpleUpper_good c.toNat
  have h3 := simpleTitle_good c.toNat
  omega

theorem simpleUpper_ne_ss (c : Nat) (h : c ≠ 0xDF) : simpleUpper c ≠ 0xDF := by
  refine lookup_prop UD_UPPER (fun c v => c ≠ 0xDF → v ≠ 0xDF) ?_ c id h
  intro p hp _
  have := List.all_eq_true.mp upper_good p hp
  simp only [Bool.and_eq_true, Bool.not_eq_true'] at this
  exact Nat.ne_of_beq_eq_false this.2

end Ystring
