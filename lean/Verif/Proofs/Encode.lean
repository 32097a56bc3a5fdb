import Verif.Proofs.Utf8
/- The encoder: bit operations against RFC 3629 arithmetic. -/
namespace Ystring
open Spec

theorem shr_toNat (c : UInt32) (k : Nat) (hk : k < 32) :
    (c >>> (UInt32.ofNat k)).toNat = c.toNat / 2 ^ k := by
  rw [UInt32.toNat_shiftRight, UInt32.toNat_ofNat_of_lt' (by show k < 4294967296; omega), Nat.mod_eq_of_lt hk,
    Nat.shiftRight_eq_div_pow]

theorem contByte (c : UInt32) (k : Nat) (hk : k < 32) :
    (0x80 ||| ((c >>> (UInt32.ofNat k)) &&& 0x3F)).toUInt8 = UInt8.ofNat (0x80 + c.toNat / 2 ^ k % 64) := by
  apply UInt8.toNat_inj.mp
  rw [UInt32.toNat_toUInt8, UInt32.toNat_or, UInt32.toNat_and, shr_toNat c k hk]
  have h3 : UInt32.toNat 63 = 2 ^ 6 - 1 := rfl
  have h8 : UInt32.toNat 128 = 2 ^ 6 * 2 := rfl
  rw [h3, h8, Nat.and_two_pow_sub_one_eq_mod]
  rw [← Nat.two_pow_add_eq_or_of_lt (Nat.mod_lt _ (by decide)) 2]
  simp [UInt8.toNat_ofNat']

theorem leadByte (c : UInt32) (k m : Nat) (l r : UInt32) (hl : l.toNat = 2 ^ m * 255)
    (hr : r.toNat = k) (hk : k < 32) (hc : c.toNat / 2 ^ k < 2 ^ m) :
    (l ||| (c >>> r)).toUInt8 = UInt8.ofNat (2 ^ m * 255 + c.toNat / 2 ^ k) := by
  apply UInt8.toNat_inj.mp
  rw [UInt32.toNat_toUInt8, UInt32.toNat_or, UInt32.toNat_shiftRight, hr, Nat.mod_eq_of_lt hk,
    Nat.shiftRight_eq_div_pow, hl, ← Nat.two_pow_add_eq_or_of_lt hc]
  simp [UInt8.toNat_ofNat']

theorem ofNat_mod256 {a b : Nat} (h : a % 256 = b % 256) : UInt8.ofNat a = UInt8.ofNat b := by
  apply UInt8.toNat_inj.mp
  simpa [UInt8.toNat_ofNat'] using h

theorem toUInt8_eq_ofNat (c : UInt32) : c.toUInt8 = UInt8.ofNat c.toNat := by
  apply UInt8.toNat_inj.mp
  simp

theorem max_toNat : UNICODE_MAX.toNat = 0x10FFFF := by decide

theorem encodedLength_eq (c : Char32) : getUtf8EncodedLength c =
    if c.toNat < 0x80 then 1 else if c.toNat < 0x800 then 2 else if c.toNat < 0x10000 then 3
    else if c.toNat ≤ 0x10FFFF then 4 else 0 := by
  simp only [getUtf8EncodedLength, UInt32.lt_iff_toNat_lt, UInt32.le_iff_toNat_le, max_toNat]
  rfl

/-- The encoder produces the RFC 3629 encoding. -/
theorem encodeUtf8_rfc (c : Char32) (h : c.toNat ≤ 0x10FFFF) : encodeUtf8 c = rfcEncode c.toNat := by
  unfold encodeUtf8 rfcEncode
  rw [encodedLength_eq]
  split
  · simp [encodeDetail]
  split
  · simp only [encodeDetail, encodeTail]
    rw [if_neg (by decide), if_pos (by decide)]
    rw [contByte c _ (by omega), leadByte c 6 6 _ _ (by decide) (by decide) (by omega)
      (by simp only [Nat.reducePow]; omega)]
    simp only [Nat.reducePow, Nat.reduceSub, Nat.reduceMul, Nat.div_one]
    rw [ofNat_mod256 (b := 192 + c.toNat / 64) (by omega)]
  split
  · simp only [encodeDetail, encodeTail]
    rw [if_neg (by decide), if_pos (by decide)]
    rw [contByte c _ (by omega), contByte c _ (by omega),
      leadByte c 12 5 _ _ (by decide) (by decide) (by omega)
      (by simp only [Nat.reducePow]; omega)]
    simp only [Nat.reducePow, Nat.reduceSub, Nat.reduceMul, Nat.div_one]
    rw [ofNat_mod256 (b := 224 + c.toNat / 4096) (by omega)]
  · simp only [encodeDetail, encodeTail]
    rw [if_neg (by decide), if_pos (by decide)]
    rw [contByte c _ (by omega), contByte c _ (by omega), contByte c _ (by omega),
      leadByte c 18 4 _ _ (by decide) (by decide) (by omega)
      (by simp only [Nat.reducePow]; omega)]
    simp only [Nat.reducePow, Nat.reduceSub, Nat.reduceMul, Nat.div_one]
    rw [ofNat_mod256 (b := 240 + c.toNat / 262144) (by omega)]

theorem encodeUtf8_big (c : Char32) (h : ¬ c.toNat ≤ 0x10FFFF) : encodeUtf8 c = [] := by
  unfold encodeUtf8
  rw [encodedLength_eq, if_neg (by omega), if_neg (by omega), if_neg (by omega), if_neg h]
  rfl

theorem ofNat_toNat8 {n : Nat} (h : n < 256) : (UInt8.ofNat n).toNat = n := by
  rw [UInt8.toNat_ofNat']; exact Nat.mod_eq_of_lt h

/-- The RFC encoding of a number up to U+10FFFF is a sequence denoting it. -/
theorem rfcEncode_seq (c : Char32) (h : c.toNat ≤ 0x10FFFF) : IsSeq (rfcEncode c.toNat) c := by
  unfold rfcEncode
  split
  · refine .one ?_ ?_ <;> rw [ofNat_toNat8] <;> omega
  split
  · refine .two ?_ ?_ ⟨?_, ?_⟩ ?_ <;> simp only [ofNat_toNat8 (n := 0xC0 + c.toNat / 64) (by omega),
      ofNat_toNat8 (n := 0x80 + c.toNat % 64) (by omega)] <;> omega
  split
  · refine .three ?_ ?_ ⟨?_, ?_⟩ ⟨?_, ?_⟩ ?_ <;>
      simp only [ofNat_toNat8 (n := 0xE0 + c.toNat / 4096) (by omega),
        ofNat_toNat8 (n := 0x80 + c.toNat / 64 % 64) (by omega),
        ofNat_toNat8 (n := 0x80 + c.toNat % 64) (by omega)] <;> omega
  · refine .four ?_ ?_ ⟨?_, ?_⟩ ⟨?_, ?_⟩ ⟨?_, ?_⟩ ?_ <;>
      simp only [ofNat_toNat8 (n := 0xF0 + c.toNat / 262144) (by omega),
        ofNat_toNat8 (n := 0x80 + c.toNat / 4096 % 64) (by omega),
        ofNat_toNat8 (n := 0x80 + c.toNat / 64 % 64) (by omega),
        ofNat_toNat8 (n := 0x80 + c.toNat % 64) (by omega)] <;> omega

theorem encodeUtf8_seq (c : Char32) (h : c.toNat ≤ 0x10FFFF) : IsSeq (encodeUtf8 c) c := by
  rw [encodeUtf8_rfc c h]; exact rfcEncode_seq c h

theorem rfcEncode_length (c : Nat) : (rfcEncode c).length =
    if c < 0x80 then 1 else if c < 0x800 then 2 else if c < 0x10000 then 3 else 4 := by
  unfold rfcEncode; repeat' split
  all_goals rfl

theorem encodeUtf8_length (c : Char32) : (encodeUtf8 c).length = getUtf8EncodedLength c := by
  by_cases h : c.toNat ≤ 0x10FFFF
  · rw [encodeUtf8_rfc c h, encodedLength_eq, rfcEncode_length]
    simp [h]
  · rw [encodeUtf8_big c h, encodedLength_eq, if_neg (by omega), if_neg (by omega), if_neg (by omega),
      if_neg h]
    rfl

end Ystring
