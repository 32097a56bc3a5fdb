import Verif.Model.Print
import Verif.Props.Order
/-
Property theorems C68: stream output.
-/
namespace Ystring
open Spec

/-- Value of a string of decimal digits. -/
def decimalValue (s : Str) : Nat := s.foldl (fun v b => 10 * v + (b.toNat - 0x30)) 0

theorem printSize_spec (n : Nat) : printSize n ≠ [] ∧ (∀ b ∈ printSize n, 0x30 ≤ b.toNat ∧ b.toNat ≤ 0x39) ∧
    decimalValue (printSize n) = n ∧ (10 ≤ n → ∀ b t, printSize n = b :: t → b ≠ 0x30) ∧ (n < 10 → (printSize n).length = 1) := by
  induction n using printSize.induct with
  | case1 n h =>
    rw [printSize, if_pos h]
    refine ⟨by simp, ?_, ?_, by omega, fun _ => rfl⟩
    · intro b hb
      rw [List.mem_singleton] at hb; subst hb
      rw [UInt8.toNat_ofNat', Nat.mod_eq_of_lt (by omega)]; omega
    · show 10 * 0 + _ = _
      rw [UInt8.toNat_ofNat', Nat.mod_eq_of_lt (by omega)]; omega
  | case2 n h ih =>
    obtain ⟨h1, h2, h3, h4, h5⟩ := ih
    rw [printSize, if_neg h]
    have hd : (UInt8.ofNat (0x30 + n % 10)).toNat = 0x30 + n % 10 := by
      rw [UInt8.toNat_ofNat', Nat.mod_eq_of_lt (by omega)]
    refine ⟨by simp, ?_, ?_, fun _ => ?_, by omega⟩
    · intro b hb
      rcases List.mem_append.mp hb with hb | hb
      · exact h2 b hb
      · rw [List.mem_singleton] at hb; subst hb; omega
    · unfold decimalValue at h3 ⊢
      rw [List.foldl_append, h3]
      show 10 * (n / 10) + _ = _
      rw [hd]; omega
    · intro b t e
      obtain ⟨b', t', e'⟩ := List.exists_cons_of_ne_nil h1
      rw [e', List.cons_append] at e
      injection e with e1 e2
      subst e1
      by_cases h10 : 10 ≤ n / 10
      · exact h4 h10 _ _ e'
      · rw [printSize, if_pos (by omega)] at e'
        injection e' with e1 _
        intro e3
        have := congrArg UInt8.toNat (e1.trans e3)
        rw [UInt8.toNat_ofNat', Nat.mod_eq_of_lt (by omega)] at this
        have : (0x30 : UInt8).toNat = 0x30 := rfl
        omega

theorem cut_unique {b : UInt8} {x y s t : Str} (hx : b ∉ x) (hy : b ∉ y) (e : x ++ b :: s = y ++ b :: t) : x = y ∧ s = t := by
  induction x generalizing y with
  | nil =>
    cases y with
    | nil => injection e with _ e; exact ⟨rfl, e⟩
    | cons c y => injection e with e _; rw [e] at hy; simp at hy
  | cons a x ih =>
    cases y with
    | nil => injection e with e _; rw [e] at hx; simp at hx
    | cons c y =>
      injection e with e1 e2
      obtain ⟨h1, h2⟩ := ih (fun h => hx (List.mem_cons_of_mem _ h)) (fun h => hy (List.mem_cons_of_mem _ h)) e2
      exact ⟨by rw [e1, h1], h2⟩

/-- C68: a range is printed as `{offset: A, length: B}` where A and B are the decimal digits of its members, without
leading zeros. -/
theorem C68_subrange (r : Subrange) : ∃ a b : Str,
    printSubrange r = ascii "{offset: " ++ a ++ ascii ", length: " ++ b ++ ascii "}" ∧
    (∀ x ∈ a ++ b, 0x30 ≤ x.toNat ∧ x.toNat ≤ 0x39) ∧ decimalValue a = r.offset ∧ decimalValue b = r.length ∧
    (a = [0x30] ∨ ∀ t, a ≠ 0x30 :: t) ∧ (b = [0x30] ∨ ∀ t, b ≠ 0x30 :: t) := by
  have lead : ∀ n, printSize n = [0x30] ∨ ∀ t, printSize n ≠ 0x30 :: t := by
    intro n
    obtain ⟨h1, h2, h3, h4, h5⟩ := printSize_spec n
    by_cases h : 10 ≤ n
    · right; intro t e; exact h4 h _ _ e rfl
    · by_cases h0 : n = 0
      · left; subst h0; decide +kernel
      · right; intro t e
        have hl := h5 (by omega)
        rw [e] at hl h3
        have : t = [] := by simpa using hl
        subst this
        have : decimalValue [0x30] = 0 := by decide
        omega
  refine ⟨printSize r.offset, printSize r.length, rfl, ?_, (printSize_spec _).2.2.1, (printSize_spec _).2.2.1, lead _, lead _⟩
  intro x hx
  rcases List.mem_append.mp hx with h | h
  · exact (printSize_spec _).2.1 x h
  · exact (printSize_spec _).2.1 x h

/-- C68: different ranges are printed differently. -/
theorem C68_subrange_injective (r s : Subrange) : printSubrange r = printSubrange s ↔ r = s := by
  refine ⟨fun e => ?_, fun e => by rw [e]⟩
  unfold printSubrange at e
  simp only [List.append_assoc] at e
  have e1 := List.append_cancel_left e
  have nd : ∀ n, ∀ b : UInt8, (b.toNat < 0x30 ∨ 0x39 < b.toNat) → b ∉ printSize n := by
    intro n b hb hm
    have := (printSize_spec n).2.1 b hm
    omega
  have c1 : ∀ t : Str, ascii ", length: " ++ t = 0x2C :: (ascii " length: " ++ t) := by
    intro t
    have : ascii ", length: " = 0x2C :: ascii " length: " := by decide +kernel
    rw [this]; rfl
  rw [c1, c1] at e1
  obtain ⟨h1, h2⟩ := cut_unique (nd _ 0x2C (by decide)) (nd _ 0x2C (by decide)) e1
  have h3 := List.append_cancel_left h2
  have c2 : ascii "}" = [0x7D] := by decide +kernel
  rw [c2] at h3
  obtain ⟨h4, _⟩ := cut_unique (nd _ 0x7D (by decide)) (nd _ 0x7D (by decide)) h3
  have i1 := congrArg decimalValue h1
  have i2 := congrArg decimalValue h4
  rw [(printSize_spec _).2.2.1, (printSize_spec _).2.2.1] at i1 i2
  cases r; cases s
  simp only at i1 i2
  rw [i1, i2]

example : printSubrange ⟨120, 7⟩ = ascii "{offset: 120, length: 7}" := by
  have h1 : printSize 120 = ascii "120" := by
    rw [printSize, if_neg (by decide), printSize, if_neg (by decide), printSize, if_pos (by decide)]; decide +kernel
  have h2 : printSize 7 = ascii "7" := by rw [printSize, if_pos (by decide)]; decide +kernel
  unfold printSubrange
  rw [h1, h2]; decide +kernel

/-- C10: `from_utf32` of one code point is the encoding of the one-element sequence. -/
theorem C10_from_utf32_char (c : Char32) : fromUtf32Char c = fromUtf32 [c] ∧
    (c.toNat ≤ 0x10FFFF → toUtf32 (fromUtf32Char c) = .ok [c]) := by
  have h : fromUtf32Char c = fromUtf32 [c] := by rw [fromUtf32_eq]; simp [fromUtf32Char]
  exact ⟨h, fun hc => by rw [h, C10_to_from_utf32_exact _ (by simpa using hc)]⟩

/-- The code points a set is printed with: each range `x-y`, a range of one code point as that code point. -/
def setText (set : CodepointSet) : List Char32 :=
  (if set.negated then [0x5B, 0x5E] else [0x5B]) ++
    set.ranges.flatMap (fun r => if r.1 = r.2 then [r.1] else [r.1, 0x2D, r.2]) ++ [0x5D]

/-- C68: a set is printed as the UTF-8 encoding of `[`, `^` if it is negated, its ranges in order, and `]` (values above
U+10FFFF are left out); the output is valid UTF-8. -/
theorem C68_codepoint_set (set : CodepointSet) : printCodepointSet set = fromUtf32 (setText set) ∧
    toUtf32 (printCodepointSet set) = .ok ((setText set).filter (fun c => c.toNat ≤ 0x10FFFF)) := by
  have h : printCodepointSet set = fromUtf32 (setText set) := by
    rw [fromUtf32_eq]
    unfold printCodepointSet setText
    rw [List.flatMap_append, List.flatMap_append]
    have h1 : ascii (if set.negated then "[^" else "[") = (if set.negated then [0x5B, 0x5E] else [(0x5B : Char32)]).flatMap encodeUtf8 := by
      cases set.negated <;> decide +kernel
    have h2 : ascii "]" = [(0x5D : Char32)].flatMap encodeUtf8 := by decide +kernel
    have h3 : ascii "-" = encodeUtf8 0x2D := by decide +kernel
    rw [h1, h2, List.flatMap_assoc]
    congr 2
    congr 1
    funext r
    split
    · simp [fromUtf32Char]
    · rw [h3]; simp [fromUtf32Char]
  exact ⟨h, by rw [h, C10_to_from_utf32]⟩

/-- C68: the printed form of a set is ambiguous: the range a-c and the three code points a, -, c. -/
theorem C68_set_ambiguous : printCodepointSet { ranges := [(0x61, 0x63)] } =
    printCodepointSet { ranges := [(0x61, 0x61), (0x2D, 0x2D), (0x63, 0x63)] } := by decide +kernel

example : printCodepointSet { ranges := [(0x61, 0x7A), (0xE6, 0xE6)], negated := true } =
    [0x5B, 0x5E, 0x61, 0x2D, 0x7A, 0xC3, 0xA6, 0x5D] := by decide +kernel

end Ystring
