import Verif.Model.Signed
import Verif.Proofs.UnescapeLoop
import Verif.Spec.Safety
/-
Property theorems C106: signed and unsigned `char`.
-/
namespace Ystring
open Spec

namespace Sgn

theorem toU8_promote (sg : Bool) (b : UInt8) : toU8 (promote sg b) = b := by
  cases sg <;> (revert b; apply forall_u8; decide +kernel)

theorem rd_eq (sg : Bool) (b : UInt8) : rd sg b = b.toUInt32 := by
  cases sg <;> (revert b; apply forall_u8; decide +kernel)

theorem promote_eq_iff (sg : Bool) (k : UInt8) (hk : k < 0x80) (b : UInt8) : promote sg b = k.toNat ↔ b = k := by
  have hk' : k.toNat < 128 := hk
  unfold promote
  split
  · rename_i h
    have h2 : 128 ≤ b.toNat := h.2
    have := b.toNat_lt
    constructor
    · intro e; omega
    · rintro rfl; omega
  · constructor
    · intro e; exact UInt8.toNat_inj.mp (by omega)
    · rintro rfl; rfl

/-! ### DecodeUtf8.hpp -/

theorem and_eq (sg : Bool) (b m : UInt8) : rd sg b &&& m.toUInt32 = (b &&& m).toUInt32 := by
  rw [rd_eq, UInt8.toUInt32_and]

theorem and_eq_iff (sg : Bool) (b m k : UInt8) : rd sg b &&& m.toUInt32 = k.toUInt32 ↔ b &&& m = k := by
  rw [and_eq]
  constructor
  · intro h; exact UInt8.toUInt32_inj.mp h
  · rintro rfl; rfl

theorem c00 (sg : Bool) (b : UInt8) : rd sg b &&& 0x80 = 0 ↔ b &&& 0x80 = 0 := and_eq_iff sg b 0x80 0
theorem c80 (sg : Bool) (b : UInt8) : rd sg b &&& 0xC0 = 0x80 ↔ b &&& 0xC0 = 0x80 := and_eq_iff sg b 0xC0 0x80
theorem cC0 (sg : Bool) (b : UInt8) : rd sg b &&& 0xE0 = 0xC0 ↔ b &&& 0xE0 = 0xC0 := and_eq_iff sg b 0xE0 0xC0
theorem cE0 (sg : Bool) (b : UInt8) : rd sg b &&& 0xF0 = 0xE0 ↔ b &&& 0xF0 = 0xE0 := and_eq_iff sg b 0xF0 0xE0
theorem cF0 (sg : Bool) (b : UInt8) : rd sg b &&& 0xF8 = 0xF0 ↔ b &&& 0xF8 = 0xF0 := and_eq_iff sg b 0xF8 0xF0
theorem a3F (sg : Bool) (b : UInt8) : rd sg b &&& 0x3F = (b &&& 0x3F).toUInt32 := and_eq sg b 0x3F
theorem a1F (sg : Bool) (b : UInt8) : rd sg b &&& 0x1F = (b &&& 0x1F).toUInt32 := and_eq sg b 0x1F
theorem a0F (sg : Bool) (b : UInt8) : rd sg b &&& 0x0F = (b &&& 0x0F).toUInt32 := and_eq sg b 0x0F
theorem a07 (sg : Bool) (b : UInt8) : rd sg b &&& 0x07 = (b &&& 0x07).toUInt32 := and_eq sg b 0x07

theorem decodeNextLoop_eq (sg : Bool) (n : Nat) : ∀ (i : Nat) (r : Char32) (passed it : Str),
    decodeNextLoop sg n i r passed it = Ystring.decodeNextLoop n i r passed it := by
  induction n with
  | zero => intro i r p it; rw [decodeNextLoop, Ystring.decodeNextLoop]
  | succ n ih =>
    intro i r p it
    cases it with
    | nil => rw [decodeNextLoop, Ystring.decodeNextLoop]
    | cons c it =>
      rw [decodeNextLoop, Ystring.decodeNextLoop, ih]
      simp only [c80, a3F]

theorem decodeNext_eq (sg : Bool) (s : Str) : decodeNext sg s = Ystring.decodeNext s := by
  cases s with
  | nil => rfl
  | cons b it =>
    rw [decodeNext, Ystring.decodeNext]
    simp only [decodeNextLoop_eq, c00, cC0, cE0, cF0, a1F, a0F, a07]
    simp only [rd_eq]

theorem decodePrevLoop_eq (sg : Bool) (rest : Str) : ∀ (n : Nat) (r : Char32) (cur : UInt8) (passed : Str),
    decodePrevLoop sg n r cur passed rest = Ystring.decodePrevLoop n r cur passed rest := by
  induction rest with
  | nil =>
    intro n r cur p
    rw [decodePrevLoop, Ystring.decodePrevLoop]
    simp only [c80, cC0, cE0, cF0, a1F, a0F, a07]
  | cons b rest ih =>
    intro n r cur p
    rw [decodePrevLoop, Ystring.decodePrevLoop]
    simp only [ih, c80, cC0, cE0, cF0, a1F, a0F, a07, a3F]

theorem decodePrev_eq (sg : Bool) (s : Str) : decodePrev sg s = Ystring.decodePrev s := by
  cases s with
  | nil => rfl
  | cons b it =>
    rw [decodePrev, Ystring.decodePrev]
    simp only [decodePrevLoop_eq, c00]
    simp only [rd_eq]

theorem skipCont_eq (sg : Bool) (s : Str) : ∀ n, skipCont sg n s = Ystring.skipCont n s := by
  induction s with
  | nil => intro n; cases n <;> rfl
  | cons b s ih =>
    intro n
    cases n with
    | zero => rfl
    | succ n => rw [skipCont, Ystring.skipCont]; simp only [ih, c80]

theorem skipNext_eq (sg : Bool) (s : Str) : skipNext sg s = Ystring.skipNext s := by
  cases s with
  | nil => rfl
  | cons c it => rw [skipNext, Ystring.skipNext]; simp only [skipCont_eq, c00, cC0, cE0, cF0]

theorem skipPrevLoop_eq (sg : Bool) (rest : Str) : ∀ (n : Nat) (cur : UInt8) (passed : Str),
    skipPrevLoop sg n cur passed rest = Ystring.skipPrevLoop n cur passed rest := by
  induction rest with
  | nil =>
    intro n cur p
    rw [skipPrevLoop, Ystring.skipPrevLoop]
    simp only [c00, c80, cC0, cE0, cF0]
  | cons b rest ih =>
    intro n cur p
    rw [skipPrevLoop, Ystring.skipPrevLoop]
    simp only [ih, c00, c80, cC0, cE0, cF0]

theorem skipPrev_eq (sg : Bool) (s : Str) : skipPrev sg s = Ystring.skipPrev s := by
  cases s with
  | nil => rfl
  | cons b it => rw [skipPrev, Ystring.skipPrev, skipPrevLoop_eq]

theorem safeDecodeNext_eq (sg : Bool) (s : Str) : safeDecodeNext sg s = Ystring.safeDecodeNext s := by
  unfold safeDecodeNext Ystring.safeDecodeNext
  rw [decodeNext_eq]

theorem safeDecodePrev_eq (sg : Bool) (s : Str) : safeDecodePrev sg s = Ystring.safeDecodePrev s := by
  unfold safeDecodePrev Ystring.safeDecodePrev
  rw [decodePrev_eq]

theorem popUtf8Codepoint_eq (sg : Bool) (s : Str) : popUtf8Codepoint sg s = Ystring.popUtf8Codepoint s := by
  unfold popUtf8Codepoint Ystring.popUtf8Codepoint
  rw [safeDecodeNext_eq]
  rfl

/-! ### EncodeUtf8.hpp -/

theorem ofUnsigned_eq (sg : Bool) (u : UInt32) : ofUnsigned sg u = u.toUInt8 := by
  have : ∀ v : Nat, v < 256 → UInt8.ofNat (((if sg = true ∧ 128 ≤ (v : Int) then (v : Int) - 256 else v) % 256).toNat) = UInt8.ofNat v := by
    intro v hv
    congr 1
    split <;> omega
  unfold ofUnsigned
  simp only
  rw [this _ (Nat.mod_lt _ (by omega))]
  apply UInt8.toNat_inj.mp
  simp

theorem encodeTail_eq (sg : Bool) (c : Char32) (k : Nat) : ∀ shift, encodeTail sg c k shift = Ystring.encodeTail c k shift := by
  induction k with
  | zero => intro s; rfl
  | succ k ih => intro s; rw [encodeTail, Ystring.encodeTail, ih, ofUnsigned_eq]

theorem encodeDetail_eq (sg : Bool) (c : Char32) (n : Nat) : encodeDetail sg c n = Ystring.encodeDetail c n := by
  unfold encodeDetail Ystring.encodeDetail
  simp only [encodeTail_eq, ofUnsigned_eq]

theorem encodeUtf8_eq (sg : Bool) (c : Char32) : encodeUtf8 sg c = Ystring.encodeUtf8 c := encodeDetail_eq sg c _

/-! ### Escape.cpp -/

theorem toDigit_eq (sg : Bool) (c : UInt8) : toDigit sg c = Ystring.toDigit c := by
  cases sg <;> (revert c; apply forall_u8; decide +kernel)

theorem isEscapable_eq (sg : Bool) (c : UInt8) : isEscapable sg c = Ystring.isEscapable c := by
  cases sg <;> (revert c; apply forall_u8; decide +kernel)

theorem escapeSequence_eq (sg : Bool) (c : UInt8) : escapeSequence sg c = Ystring.escapeSequence c := by
  cases sg <;> (revert c; apply forall_u8; decide +kernel)

theorem findFirstEscapableChar_eq (sg : Bool) (s : Str) (o : Nat) : findFirstEscapableChar sg s o = Ystring.findFirstEscapableChar s o := by
  have : isEscapable sg = Ystring.isEscapable := funext (isEscapable_eq sg)
  unfold findFirstEscapableChar Ystring.findFirstEscapableChar
  rw [this]

theorem escapeJsonLoop_eq (sg : Bool) (s : Str) (fuel : Nat) : ∀ o r, escapeJsonLoop sg s fuel o r = Ystring.escapeJsonLoop s fuel o r := by
  induction fuel with
  | zero => intro o r; rfl
  | succ fuel ih =>
    intro o r
    rw [escapeJsonLoop, Ystring.escapeJsonLoop, findFirstEscapableChar_eq]
    simp only [ih, escapeSequence_eq]
    rfl

theorem escapeJson_eq (sg : Bool) (s : Str) : escapeJson sg s = Ystring.escapeJson s := escapeJsonLoop_eq sg s _ _ _

/-! ### Unescape.cpp -/

theorem isHexDigitByte_eq (sg : Bool) (c : UInt8) : isHexDigitByte sg c = Ystring.isHexDigitByte c := by
  cases sg <;> (revert c; apply forall_u8; decide +kernel)

theorem isOctDigit_eq (sg : Bool) (c : UInt8) : isOctDigit sg c = Ystring.isOctDigit c := by
  cases sg <;> (revert c; apply forall_u8; decide +kernel)

theorem high_iff (sg : Bool) (c : UInt8) : toUnsigned (promote sg c) &&& 0x80 = 0 ↔ c &&& 0x80 = 0 := by
  cases sg <;> (revert c; apply forall_u8; decide +kernel)

theorem ascii_eq (sg : Bool) (c : UInt8) : c &&& 0x80 = 0 → toUnsigned (promote sg c) = c.toUInt32 := by
  cases sg <;> (revert c; apply forall_u8; decide +kernel)

theorem oct_ascii (c : UInt8) : Ystring.isOctDigit c = true → c &&& 0x80 = 0 := by
  revert c; apply forall_u8; decide +kernel

theorem p58 (sg : Bool) (c : UInt8) : promote sg c = 0x58 ↔ c = 0x58 := promote_eq_iff sg 0x58 (by decide) c
theorem p78 (sg : Bool) (c : UInt8) : promote sg c = 0x78 ↔ c = 0x78 := promote_eq_iff sg 0x78 (by decide) c
theorem p75 (sg : Bool) (c : UInt8) : promote sg c = 0x75 ↔ c = 0x75 := promote_eq_iff sg 0x75 (by decide) c
theorem p55 (sg : Bool) (c : UInt8) : promote sg c = 0x55 ↔ c = 0x55 := promote_eq_iff sg 0x55 (by decide) c
theorem p61 (sg : Bool) (c : UInt8) : promote sg c = 0x61 ↔ c = 0x61 := promote_eq_iff sg 0x61 (by decide) c
theorem p62 (sg : Bool) (c : UInt8) : promote sg c = 0x62 ↔ c = 0x62 := promote_eq_iff sg 0x62 (by decide) c
theorem p66 (sg : Bool) (c : UInt8) : promote sg c = 0x66 ↔ c = 0x66 := promote_eq_iff sg 0x66 (by decide) c
theorem p6E (sg : Bool) (c : UInt8) : promote sg c = 0x6E ↔ c = 0x6E := promote_eq_iff sg 0x6E (by decide) c
theorem p72 (sg : Bool) (c : UInt8) : promote sg c = 0x72 ↔ c = 0x72 := promote_eq_iff sg 0x72 (by decide) c
theorem p74 (sg : Bool) (c : UInt8) : promote sg c = 0x74 ↔ c = 0x74 := promote_eq_iff sg 0x74 (by decide) c
theorem p76 (sg : Bool) (c : UInt8) : promote sg c = 0x76 ↔ c = 0x76 := promote_eq_iff sg 0x76 (by decide) c
theorem p5C (sg : Bool) (c : UInt8) : promote sg c = 0x5C ↔ c = 0x5C := promote_eq_iff sg 0x5C (by decide) c

theorem findEndOfHexSequence_eq (sg : Bool) (s : Str) (a b : Nat) : findEndOfHexSequence sg s a b = Ystring.findEndOfHexSequence s a b := by
  unfold findEndOfHexSequence Ystring.findEndOfHexSequence
  simp only [isHexDigitByte_eq]

theorem findEndOfOctSequence_eq (sg : Bool) (s : Str) (a b : Nat) : findEndOfOctSequence sg s a b = Ystring.findEndOfOctSequence s a b := by
  unfold findEndOfOctSequence Ystring.findEndOfOctSequence
  simp only [isOctDigit_eq]

theorem findFirstEscapedChar_eq (sg : Bool) (s : Str) (o : Nat) : findFirstEscapedChar sg s o = Ystring.findFirstEscapedChar s o := by
  unfold findFirstEscapedChar Ystring.findFirstEscapedChar
  simp only [findEndOfHexSequence_eq, findEndOfOctSequence_eq, isOctDigit_eq, p58, p78, p75, p55, high_iff]
  rfl

theorem parseUtf16_eq (sg : Bool) (s : Str) (sub : Subrange) : parseUtf16 sg s sub = Ystring.parseUtf16 s sub := by
  unfold parseUtf16 Ystring.parseUtf16
  simp only [findFirstEscapedChar_eq, p75, ne_eq]

/-- The character after the backslash must be ASCII: otherwise `char32_t(sv[..])` depends on the sign. -/
theorem decodeEscaped_eq (sg : Bool) (s : Str) (sub : Subrange)
    (h : ∀ c, charAt s (sub.start + 1) = .ok c → c &&& 0x80 = 0) : decodeEscaped sg s sub = Ystring.decodeEscaped s sub := by
  unfold decodeEscaped Ystring.decodeEscaped
  cases hc : charAt s (sub.start + 1) with
  | error e => rfl
  | ok c =>
    rw [bind_ok, bind_ok, ascii_eq sg c (h c hc)]
    simp only [parseUtf16_eq, isOctDigit_eq, p58, p78, p75, p55, p61, p62, p66, p6E, p72, p74, p76]

theorem unescapeSwitch_eq (sg : Bool) (t : UInt8) (s : Str) : unescapeSwitch sg t s = Ystring.unescapeSwitch t s := by
  unfold unescapeSwitch Ystring.unescapeSwitch
  simp only [popUtf8Codepoint_eq, isOctDigit_eq, p58, p78, p75, p55, p61, p62, p66, p6E, p72, p74, p76]

theorem unescapeNext_eq (sg : Bool) (s : Str) : unescapeNext sg s = Ystring.unescapeNext s := by
  unfold unescapeNext Ystring.unescapeNext
  simp only [popUtf8Codepoint_eq, unescapeSwitch_eq, p5C, ne_eq]
  rfl

/-- one iteration of both loops on a buffer that consists of the output `a`, bytes already read `j` and the rest -/
theorem unescapeLoop_eq (sg : Bool) (fuel : Nat) : ∀ (a j r : Str), (a ++ (j ++ r)).length + 12 < SIZE_MOD →
    unescapeLoop sg fuel (a ++ (j ++ r)) (a.length + j.length) a.length =
      Ystring.unescapeLoop fuel (a ++ (j ++ r)) (a.length + j.length) a.length := by
  induction fuel with
  | zero => intro a j r _; rw [unescapeLoop, Ystring.unescapeLoop]
  | succ fuel ih =>
    intro a j r hl
    rw [unescapeLoop, Ystring.unescapeLoop, findFirstEscapedChar_eq]
    by_cases hb : 0x5C ∈ r
    · obtain ⟨p, v, rfl, hp⟩ := List.eq_append_cons_of_mem hb
      have e0 : Ystring.findFirstEscapedChar (a ++ (j ++ (p ++ 0x5C :: v))) (a.length + j.length) = afterBackslash (a ++ j ++ p) v := by
        rw [← List.append_assoc, ← List.length_append, find_start hp]
      rw [e0]
      -- what is known about the outcome
      have key : (∃ e, afterBackslash (a ++ j ++ p) v = .error e) ∨ ∃ k, k ≠ 0 ∧ (∀ q, afterBackslash q v = .ok ⟨q.length, k⟩) ∧
          ∀ q : Str, q.length + 12 < SIZE_MOD → (∃ e, Ystring.decodeEscaped (q ++ 0x5C :: v) ⟨q.length, k⟩ = .error e) ∨
            ∃ ch n, Ystring.decodeEscaped (q ++ 0x5C :: v) ⟨q.length, k⟩ = .ok (ch, ⟨q.length, n⟩) ∧
              (((0x5C :: v).length < n ∧ n ≤ 10) ∨ (n ≤ (0x5C :: v).length ∧ (Ystring.encodeUtf8 ch).length ≤ n)) := by
        rcases step_cases v with ⟨e, s, out, he, hx⟩ | hm | hu
        · obtain ⟨h1, h2, -⟩ := escape_length hx
          obtain ⟨v', k, ch, hv, hk, hf, hd, ho⟩ := step_ok hx
          obtain rfl : v = v' := by rw [← he] at hv; simpa using hv
          refine .inr ⟨k, hk, hf, fun q hq => .inr ⟨ch, e.length, ?_, .inr ⟨by rw [he]; simp, by rw [ho]; exact h1⟩⟩⟩
          rw [he]; exact hd q hq
        · obtain ⟨v', hv, h | ⟨k, hk, hf, hd⟩⟩ := step_bad hm
          · obtain rfl : v = v' := by simpa using hv
            exact .inl ⟨_, h _⟩
          · obtain rfl : v = v' := by simpa using hv
            exact .inr ⟨k, hk, hf, fun q hq => .inl ⟨_, hd q hq⟩⟩
        · obtain ⟨v', k, hv, hk, hf, hd | ⟨h1, h2, ch, hd⟩⟩ := step_ub hu
          · obtain rfl : v = v' := by simpa using hv
            exact .inr ⟨k, hk, hf, fun q hq => .inl ⟨_, hd q⟩⟩
          · obtain rfl : v = v' := by simpa using hv
            exact .inr ⟨k, hk, hf, fun q hq => .inr ⟨ch, k, hd q, .inl ⟨h1, h2⟩⟩⟩
      rcases key with ⟨e, he⟩ | ⟨k, hk, hf, hd⟩
      · rw [he, bind_err, bind_err]
      · -- the character behind the backslash is ASCII
        have hasc : ∀ c u, v = c :: u → c &&& 0x80 = 0 := by
          rintro c u rfl
          have h0 := hf []
          simp only [afterBackslash] at h0
          have hx : c = 0x58 ∨ c = 0x78 ∨ c = 0x75 ∨ c = 0x55 → c &&& 0x80 = 0 := by rintro (rfl | rfl | rfl | rfl) <;> rfl
          by_cases h1 : c = 0x58 ∨ c = 0x78
          · exact hx (by rcases h1 with h | h <;> simp [h])
          by_cases h2 : c = 0x75
          · exact hx (by simp [h2])
          by_cases h3 : c = 0x55
          · exact hx (by simp [h3])
          by_cases h4 : Ystring.isOctDigit c = true
          · exact oct_ascii c h4
          by_cases h5 : c &&& 0x80 = 0
          · exact h5
          · rw [if_neg h1, if_neg h2, if_neg h3, if_neg h4, if_neg h5] at h0
            cases h0
        rw [hf, bind_ok, bind_ok]
        dsimp only [Subrange.start]
        obtain ⟨j', hj', hc⟩ := copy_step a j p (0x5C :: v)
        have el : (a ++ j ++ p).length = a.length + j.length + p.length := by simp [Nat.add_assoc]
        rw [el, hc, bind_ok, bind_ok]
        have hl2 := hl
        simp at hl2
        rw [if_neg (by simp [Subrange.nonempty, hk]), if_neg (by simp [Subrange.nonempty, hk]),
          sizeSub_add _ _ (by omega), sizeAdd_lt (by omega)]
        have e2 : a ++ (p ++ (j' ++ 0x5C :: v)) = (a ++ (p ++ j')) ++ 0x5C :: v := by simp
        have e3 : a.length + j.length + p.length = (a ++ (p ++ j')).length := by simp; omega
        rw [e2, e3, decodeEscaped_eq]
        · rcases hd (a ++ (p ++ j')) (by simp; omega) with ⟨e, h⟩ | ⟨ch, n, h, hn⟩
          · rw [h, bind_err, bind_err]
          · rw [h, bind_ok, bind_ok]
            dsimp only
            rw [encodeUtf8_eq]
            cases hw : writeAt ((a ++ (p ++ j')) ++ 0x5C :: v) (a.length + p.length) (Ystring.encodeUtf8 ch) with
            | error e => rw [bind_err, bind_err]
            | ok b =>
              rw [bind_ok, bind_ok]
              have hb := writeAt_length hw
              simp at hb
              rcases hn with ⟨hn1, hn2⟩ | ⟨hn1, hn2⟩
              · have hstop : b.length < Subrange.stop ⟨(a ++ (p ++ j')).length, n⟩ := by
                  rw [stop_lt (by simp; omega)]
                  simp at hn1 ⊢
                  omega
                cases fuel with
                | zero => rw [unescapeLoop, Ystring.unescapeLoop]
                | succ f => rw [unescapeLoop, Ystring.unescapeLoop, findFirstEscapedChar_eq, find_beyond hstop, bind_err, bind_err]
              · have e4 : (a ++ (p ++ j')) ++ 0x5C :: v = (a ++ p) ++ (j' ++ 0x5C :: v) := by simp
                have e5 : a.length + p.length = (a ++ p).length := by simp
                simp at hn1
                rw [e4, e5, writeAt_append (by simp; omega)] at hw
                have hw' := Except.ok.inj hw
                rw [stop_lt (by simp; omega), show sizeAdd (a.length + p.length) (encodeUtf8Ret ch) = a.length + p.length + (Ystring.encodeUtf8 ch).length by
                  have : encodeUtf8Ret ch = (Ystring.encodeUtf8 ch).length := by rw [encodeUtf8_length]; rfl
                  rw [this, sizeAdd_lt (by omega)]]
                -- the bytes behind the output split at the end of the sequence
                have e6 : (j' ++ 0x5C :: v).drop (Ystring.encodeUtf8 ch).length =
                    (j' ++ (0x5C :: v).take n).drop (Ystring.encodeUtf8 ch).length ++ (0x5C :: v).drop n := by
                  rw [← List.drop_append_of_le_length (by simp; omega), List.append_assoc, List.take_append_drop]
                have := ih (a ++ p ++ Ystring.encodeUtf8 ch) ((j' ++ (0x5C :: v).take n).drop (Ystring.encodeUtf8 ch).length)
                  ((0x5C :: v).drop n) (by
                    rw [← e6, List.append_assoc, hw', hb]
                    omega)
                rw [← e6, List.append_assoc, hw'] at this
                have e7 : (a ++ (p ++ j')).length + n = (a ++ p ++ Ystring.encodeUtf8 ch).length +
                    ((j' ++ (0x5C :: v).take n).drop (Ystring.encodeUtf8 ch).length).length := by
                  simp; omega
                have e8 : a.length + p.length + (Ystring.encodeUtf8 ch).length = (a ++ p ++ Ystring.encodeUtf8 ch).length := by
                  simp; omega
                rw [e7, e8]
                exact this
        · intro c hc
          cases v with
          | nil =>
            have h0 := hf []
            simp [afterBackslash] at h0
          | cons d u =>
            have : charAt ((a ++ (p ++ j')) ++ 0x5C :: d :: u) ((a ++ (p ++ j')).length + 1) = .ok d := by
              unfold charAt
              rw [List.getElem?_append_right (by omega)]
              simp
            dsimp only [Subrange.start] at hc
            rw [this] at hc
            obtain rfl := Except.ok.inj hc
            exact hasc d u rfl
    · have e0 : Ystring.findFirstEscapedChar (a ++ (j ++ r)) (a.length + j.length) = .ok ⟨a.length + j.length + r.length, 0⟩ := by
        rw [← List.append_assoc, ← List.length_append, find_none hb]
      obtain ⟨j', -, hc⟩ := copy_step a j r []
      simp only [List.append_nil] at hc
      rw [e0, bind_ok, bind_ok]
      dsimp only [Subrange.start]
      rw [hc, bind_ok, bind_ok, if_pos (by simp [Subrange.nonempty]), if_pos (by simp [Subrange.nonempty])]

theorem unescapeBuf_eq (sg : Bool) (s : Str) (h : s.length + 12 < SIZE_MOD) : unescapeBuf sg s = Ystring.unescapeBuf s := by
  have := unescapeLoop_eq sg (s.length + 1) [] [] s (by simpa using h)
  exact this

theorem unescape_eq (sg : Bool) (s : Str) (h : s.length + 12 < SIZE_MOD) : unescape sg s = Ystring.unescape s := by
  unfold unescape Ystring.unescape
  rw [unescapeBuf_eq sg s h]

end Sgn

/-- C106: decoding and skipping code points, forwards and backwards, is the same whether `char` is signed or not. -/
theorem C106_decode (sg : Bool) (s : Str) :
    Sgn.decodeNext sg s = decodeNext s ∧ Sgn.decodePrev sg s = decodePrev s ∧
    Sgn.safeDecodeNext sg s = safeDecodeNext s ∧ Sgn.safeDecodePrev sg s = safeDecodePrev s ∧
    Sgn.skipNext sg s = skipNext s ∧ Sgn.skipPrev sg s = skipPrev s ∧ Sgn.popUtf8Codepoint sg s = popUtf8Codepoint s :=
  ⟨Sgn.decodeNext_eq sg s, Sgn.decodePrev_eq sg s, Sgn.safeDecodeNext_eq sg s, Sgn.safeDecodePrev_eq sg s, Sgn.skipNext_eq sg s,
    Sgn.skipPrev_eq sg s, Sgn.popUtf8Codepoint_eq sg s⟩

/-- C106: the same bytes are written for every code point. -/
theorem C106_encode (sg : Bool) (c : Char32) : Sgn.encodeUtf8 sg c = encodeUtf8 c := Sgn.encodeUtf8_eq sg c

/-- C106: `escape_json` and `find_first_escapable_char`. -/
theorem C106_escape (sg : Bool) (s : Str) (offset : Nat) :
    Sgn.escapeJson sg s = escapeJson s ∧ Sgn.findFirstEscapableChar sg s offset = findFirstEscapableChar s offset :=
  ⟨Sgn.escapeJson_eq sg s, Sgn.findFirstEscapableChar_eq sg s offset⟩

/-- C106: `unescape`: the result, the contents of the buffer, exceptions and undefined behaviour. -/
theorem C106_unescape (sg : Bool) (s : Str) (h : Fits s) :
    Sgn.unescape sg s = unescape s ∧ Sgn.unescapeBuf sg s = unescapeBuf s := by
  have h' : s.length + 12 < SIZE_MOD := by unfold Fits PTRDIFF_MAX at h; unfold SIZE_MOD; omega
  exact ⟨Sgn.unescape_eq sg s h', Sgn.unescapeBuf_eq sg s h'⟩

/-- C106: `unescape_next` and `find_first_escaped_char`. -/
theorem C106_unescape_next (sg : Bool) (s : Str) (offset : Nat) :
    Sgn.unescapeNext sg s = unescapeNext s ∧ Sgn.findFirstEscapedChar sg s offset = findFirstEscapedChar s offset :=
  ⟨Sgn.unescapeNext_eq sg s, Sgn.findFirstEscapedChar_eq sg s offset⟩

-- "é" and an escaped newline; a backslash before "é" is an error, also if `char` is signed
example : Sgn.promote true 0xE9 = -23 ∧ Sgn.promote false 0xE9 = 233 ∧
    Sgn.decodeNext true [0xC3, 0xA9, 0x61] = .ok (0xE9, [0x61]) ∧ Sgn.escapeJson true [0xC3, 0xA9, 0x0A] = .ok [0xC3, 0xA9, 0x5C, 0x6E] ∧
    Sgn.unescape true [0xC3, 0xA9, 0x5C, 0x6E] = .ok [0xC3, 0xA9, 0x0A] ∧ Sgn.unescape true [0x5C, 0xC3, 0xA9] = .error .ystring := by decide +kernel

-- without the check in find_first_escaped_char the character behind a backslash would depend on the sign
example : Sgn.decodeEscaped true [0x5C, 0xE9] ⟨0, 2⟩ = .ok (0xFFFFFFE9, ⟨0, 2⟩) ∧
    Sgn.decodeEscaped false [0x5C, 0xE9] ⟨0, 2⟩ = .ok (0xE9, ⟨0, 2⟩) := by decide +kernel

end Ystring
