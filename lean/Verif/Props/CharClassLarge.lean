import Verif.Props.CharClass
/-
C50 for the values that are no code points and do not fit into 21 bits.
-/
namespace Ystring
open Spec

/-- the entries whose last code point has a class of its own cover at least two code points -/
def twoOK : Nat → List Nat → Bool
  | _, [] => true
  | lo, e :: tbl => (Nat.beq (e / 32 % 64) 0 || Nat.beq (e / 32 % 64) 32 || Nat.blt lo (e / 2048)) &&
      Nat.ble lo (e / 2048) && twoOK (e / 2048 + 1) tbl

theorem two_ok : twoOK 0 COMPLETE_CHAR_CLASSES = true := by decide +kernel

/-- class by linear search where the entry is found by `m` and decoded with `c` -/
def classAt (tbl : List Nat) (m c : Nat) : Nat :=
  match tbl.find? (fun e => decide (m ≤ e / 2048)) with
  | none => 29
  | some e => decN c e

theorem classAt_self (tbl : List Nat) (m : Nat) : classAt tbl m m = classEnd tbl m := rfl

/-- the classes of the values with the same lower bits -/
theorem classAt_wrap : ∀ (tbl : List Nat) (lo m c : Nat), twoOK lo tbl = true → lo ≤ m → tbl.all wfEntry = true →
    2097152 ≤ c → c % 2097152 = m →
    classAt tbl m c = classAt tbl m m ∨ (lo < m ∧ classAt tbl m c = classAt tbl (m - 1) (m - 1)) := by
  intro tbl
  induction tbl with
  | nil => intro lo m c _ _ _ _ _; exact .inl rfl
  | cons e tbl ih =>
    intro lo m c h hl hw hc hm
    simp only [twoOK, Bool.and_eq_true, Bool.or_eq_true, Nat.beq_eq, Nat.blt_eq, Nat.ble_eq] at h
    simp only [List.all_cons, Bool.and_eq_true] at hw
    by_cases he : m ≤ e / 2048
    · have k1 : ∀ x, x ≤ e / 2048 → ∀ y, classAt (e :: tbl) x y = decN y e := by
        intro x hx y
        unfold classAt; rw [List.find?_cons_of_pos (by simpa using hx)]
      rw [k1 m he, k1 m he, k1 (m - 1) (by omega)]
      have hlt : e < 4294967296 := by
        have := hw.1
        simp only [wfEntry, Bool.and_eq_true, decide_eq_true_eq] at this
        exact this.1.1.1
      have hce : c ≠ e / 2048 := by omega
      unfold decN
      by_cases c1 : e / 32 % 64 = 0
      · simp only [if_pos c1]; exact .inl trivial
      · by_cases c2 : e / 32 % 64 = 32
        · simp only [if_neg c1, if_pos c2]
          have : (c + e / 2048) % 2 = (m + e / 2048) % 2 := by omega
          rw [this]; exact .inl rfl
        · simp only [if_neg c1, if_neg c2]
          rw [if_neg hce]
          have hlo : lo < e / 2048 := by
            rcases h.1.1 with (h | h) | h
            · exact absurd h c1
            · exact absurd h c2
            · exact h
          by_cases hme : m = e / 2048
          · right
            refine ⟨by omega, ?_⟩
            rw [if_neg (by omega)]
          · left; rw [if_neg hme]
    · have k1 : ∀ y, classAt (e :: tbl) m y = classAt tbl m y := by
        intro y
        unfold classAt; rw [List.find?_cons_of_neg (by simpa using he)]
      rw [k1, k1]
      rcases ih (e / 2048 + 1) m c h.2 (by omega) hw.2 hc hm with h' | ⟨h1, h'⟩
      · exact .inl h'
      · right
        refine ⟨?_, ?_⟩
        · have := h.1.2; omega
        · rw [h']
          unfold classAt
          rw [List.find?_cons_of_neg (a := e) (by simp only [decide_eq_true_eq]; omega)]

theorem shift_classEnd (c : Char32) (h : c.toNat ≤ 0x1FFFFF) :
    (charClassShift c).toNat = classEnd COMPLETE_CHAR_CLASSES c.toNat := by
  rw [charClassShift_own c h]
  obtain ⟨b, hb⟩ := cover_correct UD_RANGES 0 c.toNat rows_ok (by omega) h
  exact (mergeCheck_correct _ _ _ _ merge_ok c.toNat (by omega) _ _ hb).symm

/-- C50 for the values from 2^21 on (none of them is a code point): the class is that of the value with the same lower 21
bits, or that of the value before this one. -/
theorem C50_large (c : Char32) (h : 0x200000 ≤ c.toNat) :
    getCharClass c = getCharClass (UInt32.ofNat (c.toNat % 0x200000)) ∨
    (0 < c.toNat % 0x200000 ∧ getCharClass c = getCharClass (UInt32.ofNat (c.toNat % 0x200000 - 1))) := by
  generalize hm : c.toNat % 0x200000 = m
  have hmlt : m < 0x200000 := by omega
  have key : (charClassShift c).toNat = classAt COMPLETE_CHAR_CLASSES m c.toNat := by
    rw [charClassShift_table c (by omega)]
    have e1 : c.toNat * 2048 % 4294967296 = m * 2048 := by omega
    rw [e1]
    unfold classLin classAt
    have : (fun e : Nat => decide (m * 2048 ≤ e)) = (fun e => decide (m ≤ e / 2048)) := by
      funext e; congr 1; apply propext; omega
    rw [this]; rfl
  have conv : ∀ x, x < 0x200000 → (charClassShift (UInt32.ofNat x)).toNat = classAt COMPLETE_CHAR_CLASSES x x := by
    intro x hx
    have : (UInt32.ofNat x).toNat = x := UInt32.toNat_ofNat_of_lt' (by show x < 4294967296; omega)
    rw [shift_classEnd _ (by omega), this, classAt_self]
  unfold getCharClass
  rcases classAt_wrap COMPLETE_CHAR_CLASSES 0 m c.toNat two_ok (by omega) table_wf h hm with h' | ⟨h1, h'⟩
  · left
    rw [← key, ← conv m hmlt] at h'
    rw [UInt32.toNat_inj.mp h']
  · right
    rw [← key, ← conv (m - 1) (by omega)] at h'
    exact ⟨h1, by rw [UInt32.toNat_inj.mp h']⟩

/-- both cases occur: 0x200061 has the class of `a` (0x61), and 0x20005B, whose lower bits are those of `[`, has the class of `Z` -/
example : getCharClass 0x200061 = getCharClass 0x61 ∧ getCharClass 0x20005B ≠ getCharClass 0x5B ∧
    getCharClass 0x20005B = getCharClass 0x5A := by decide +kernel
end Ystring
