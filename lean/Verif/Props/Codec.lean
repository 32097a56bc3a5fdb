import Verif.Proofs.Skip
/-
Property theorems C01–C07, C09–C11, C13: the UTF-8 codec.
(C08, C12 and C14 are in Props/Basics.lean.)
-/
namespace Ystring
open Spec

/-! ### C03 Encoder conforms to RFC 3629 -/

/-- The RFC encoding of the specification is also Lean's own UTF-8 encoding of a `Char`. -/
theorem C03_spec_agrees_with_lean (c : Char) : rfcEncode c.toNat = String.utf8EncodeChar c := by
  have hc : c.val.toNat = c.toNat := rfl
  have h : c.toNat < 0x110000 := by
    have := c.valid; unfold UInt32.isValidChar Nat.isValidChar at this; omega
  unfold rfcEncode String.utf8EncodeChar
  simp only [hc]
  split
  · rw [if_pos (by omega)]
  split
  · rw [if_neg (by omega), if_pos (by omega), ofNat_mod256 (b := c.toNat / 64 % 32 + 192) (by omega),
      Nat.add_comm 128]
  split
  · rw [if_neg (by omega), if_neg (by omega), if_pos (by omega),
      ofNat_mod256 (b := c.toNat / 4096 % 16 + 224) (by omega),
      Nat.add_comm 128, Nat.add_comm 128]
  · rw [if_neg (by omega), if_neg (by omega), if_neg (by omega),
      ofNat_mod256 (b := c.toNat / 262144 % 8 + 240) (by omega),
      Nat.add_comm 128, Nat.add_comm 128, Nat.add_comm 128]

/-- C03: the encoder writes the RFC 3629 encoding for every code point up to U+10FFFF and nothing for
every larger value, and returns the number of bytes written. -/
theorem C03_encode_rfc3629 (c : Char32) :
    (c.toNat ≤ 0x10FFFF → encodeUtf8 c = rfcEncode c.toNat ∧ encodeUtf8Ret c = (rfcEncode c.toNat).length) ∧
    (0x10FFFF < c.toNat → encodeUtf8 c = [] ∧ encodeUtf8Ret c = 0) := by
  refine ⟨fun h => ⟨encodeUtf8_rfc c h, ?_⟩, fun h => ⟨encodeUtf8_big c (by omega), ?_⟩⟩
  · rw [← encodeUtf8_rfc c h, encodeUtf8_length]; rfl
  · unfold encodeUtf8Ret; rw [← encodeUtf8_length, encodeUtf8_big c (by omega)]; rfl

example : encodeUtf8 0x20AC = [0xE2, 0x82, 0xAC] ∧ encodeUtf8 0x110000 = [] := by decide +kernel

/-! ### C01, C02 Round trips -/

/-- C01 -/
theorem C01_decode_encode_forwards (c : Char32) (h : c.toNat ≤ 0x10FFFF) (rest : Str) :
    decodeNext (encodeUtf8 c ++ rest) = .ok (c, rest) := decodeNext_seq (encodeUtf8_seq c h) rest

/-- C02: `before` are the bytes in front of the encoding. The iterator is represented by the reversed
bytes before it. -/
theorem C02_decode_encode_backwards (c : Char32) (h : c.toNat ≤ 0x10FFFF) (before : Str) :
    decodePrev (before ++ encodeUtf8 c).reverse = .ok (c, before.reverse) := by
  rw [List.reverse_append]
  exact decodePrev_seq (encodeUtf8_seq c h) before.reverse

example : (0x1F600 : Char32).toNat ≤ 0x10FFFF := by decide

/-! ### C04 Bounded encoder -/

/-- C04 -/
theorem C04_bounded_encode (c : Char32) (dstSize : Nat) :
    (encodeUtf8Buf c dstSize).1.length ≤ dstSize ∧
    (encodeUtf8Buf c dstSize).1.length = (encodeUtf8Buf c dstSize).2 ∧
    ((encodeUtf8 c).length ≤ dstSize → (encodeUtf8Buf c dstSize).1 = encodeUtf8 c) ∧
    (dstSize < (encodeUtf8 c).length → (encodeUtf8Buf c dstSize).1 = []) := by
  unfold encodeUtf8Buf
  rw [encodeUtf8_length]
  simp only
  by_cases h : getUtf8EncodedLength c > dstSize
  · rw [if_pos h]
    simp only [encodeDetail]
    simp
    omega
  · rw [if_neg h]
    have : (encodeDetail c (getUtf8EncodedLength c)).length = getUtf8EncodedLength c := encodeUtf8_length c
    refine ⟨by omega, this, fun _ => rfl, by omega⟩

example : encodeUtf8Buf 0x20AC 2 = ([], 0) ∧ encodeUtf8Buf 0x20AC 3 = ([0xE2, 0x82, 0xAC], 3) := by
  decide +kernel

/-! ### C05, C06 Decoding arbitrary bytes -/

/-- C05: on every byte string `decode_next` consumes exactly one sequence and returns its value, or
returns `INVALID_CHAR` (no value of a sequence) and does not move. There is no undefined outcome. -/
theorem C05_decode_next_total (s : Str) :
    (∃ u c t, s = u ++ t ∧ IsSeq u c ∧ c.toNat < 0x200000 ∧ decodeNext s = .ok (c, t)) ∨
    (¬ HasSeqPrefix s ∧ decodeNext s = .ok (INVALID_CHAR, s)) := by
  by_cases h : HasSeqPrefix s
  · obtain ⟨u, c, t, hu, rfl⟩ := h
    exact .inl ⟨u, c, t, rfl, hu, hu.lt, decodeNext_seq hu t⟩
  · exact .inr ⟨h, decodeNext_bad h⟩

/-- C05: `INVALID_CHAR` is never the value of a sequence, so the two outcomes are distinguishable. -/
theorem C05_invalid_is_no_value (u : Str) : ¬ IsSeq u INVALID_CHAR := fun h => h.ne_invalid rfl

/-- C06 fails: `decode_prev` executes an undefined shift exactly on the strings that end with seven or more
continuation bytes preceded by at least one byte. -/
theorem C06_decode_prev_ub_iff (s : Str) : decodePrev s.reverse = .error .ub ↔ LongContRun s := by
  constructor
  · intro h
    by_cases h1 : HasSeqSuffix s
    · obtain ⟨u, c, t, hu, rfl⟩ := h1
      rw [List.reverse_append, decodePrev_seq hu] at h; cases h
    · by_cases h2 : LongContRun s
      · exact h2
      · rw [decodePrev_bad h1 h2] at h; cases h
  · exact decodePrev_ub

/-- C06 negation: a string on which `decode_prev` has undefined behaviour. -/
theorem C06_false : ∃ s : Str, decodePrev s.reverse = .error .ub :=
  ⟨[0x41, 0x80, 0x80, 0x80, 0x80, 0x80, 0x80, 0x80], by decide +kernel⟩

/-- C06, except on strings with a long run of continuation bytes at the end. -/
theorem C06_decode_prev_partial (s : Str) (hs : ¬ LongContRun s) :
    (∃ u c t, s = t ++ u ∧ IsSeq u c ∧ c.toNat < 0x200000 ∧ decodePrev s.reverse = .ok (c, t.reverse)) ∨
    (¬ HasSeqSuffix s ∧ decodePrev s.reverse = .ok (INVALID_CHAR, s.reverse)) := by
  by_cases h : HasSeqSuffix s
  · obtain ⟨u, c, t, hu, rfl⟩ := h
    refine .inl ⟨u, c, t, rfl, hu, hu.lt, ?_⟩
    rw [List.reverse_append]; exact decodePrev_seq hu _
  · exact .inr ⟨h, decodePrev_bad h hs⟩

/-- every string with no more than seven bytes is outside the undefined case -/
example (s : Str) (h : s.length ≤ 7) : ¬ LongContRun s := by
  rintro ⟨t, w, rfl, ht, hw, _⟩
  have := List.length_pos_iff.mpr ht
  simp at h; omega

/-! ### C07 Forward and backward iteration agree -/

/-- The calls of `safe_decode_next` from a position with offset `o` to the end, none of which throws:
for each code point its byte range and value. -/
inductive FwdRun : (o : Nat) → (it : Str) → List (Nat × Nat × Char32) → Prop
  | done {o} : safeDecodeNext [] = .ok none → FwdRun o [] []
  | step {o it it' c rs} : safeDecodeNext it = .ok (some (c, it')) →
      FwdRun (o + (it.length - it'.length)) it' rs →
      FwdRun o it ((o, o + (it.length - it'.length), c) :: rs)

/-- The calls of `safe_decode_prev` from a position back to the start of the string. -/
inductive BwdRun : (it : Str) → List (Nat × Nat × Char32) → Prop
  | done : safeDecodePrev [] = .ok none → BwdRun [] []
  | step {it it' c rs} : safeDecodePrev it = .ok (some (c, it')) →
      BwdRun it' rs → BwdRun it ((it'.length, it.length, c) :: rs)

theorem safeDecodeNext_inv {it c it'} (h : safeDecodeNext it = .ok (some (c, it'))) :
    ∃ u, IsSeq u c ∧ it = u ++ it' := by
  by_cases h0 : it = []
  · subst h0; cases h
  by_cases h1 : HasSeqPrefix it
  · obtain ⟨u, d, t, hu, rfl⟩ := h1
    rw [safeDecodeNext_seq hu] at h
    injection h with h; injection h with h; injection h with h2 h3
    subst h2 h3; exact ⟨u, hu, rfl⟩
  · rw [safeDecodeNext_bad h0 h1] at h; cases h

theorem safeDecodePrev_inv {it c it'} (h : safeDecodePrev it = .ok (some (c, it'))) :
    ∃ u, IsSeq u c ∧ it = u.reverse ++ it' := by
  by_cases h0 : it = []
  · subst h0; cases h
  by_cases h1 : HasSeqSuffix it.reverse
  · obtain ⟨u, d, t, hu, e⟩ := h1
    have e : it = u.reverse ++ t.reverse := by simpa using congrArg List.reverse e
    subst e
    rw [safeDecodePrev_seq hu] at h
    injection h with h; injection h with h; injection h with h2 h3
    subst h2 h3; exact ⟨u, hu, rfl⟩
  · have e : safeDecodePrev it.reverse.reverse = .ok (some (c, it')) := by rw [List.reverse_reverse]; exact h
    by_cases h2 : LongContRun it.reverse
    · rw [safeDecodePrev_ub h2] at e; cases e
    · rw [safeDecodePrev_bad (by simpa using h0) h1 h2] at e; cases e

/-- byte ranges and values of a list of units starting at offset `o` -/
def rangesOf : Nat → List Unit8 → List (Nat × Nat × Char32)
  | _, [] => []
  | o, x :: us => (o, o + x.1.length, x.2) :: rangesOf (o + x.1.length) us

theorem rangesOf_append (o : Nat) (us vs : List Unit8) :
    rangesOf o (us ++ vs) = rangesOf o us ++ rangesOf (o + (bytesOf us).length) vs := by
  induction us generalizing o with
  | nil => simp [rangesOf]
  | cons x us ih => simp [rangesOf, ih, Nat.add_assoc]

theorem fwdRun_iff {o s rs} : FwdRun o s rs ↔ ∃ us, Units us ∧ bytesOf us = s ∧ rs = rangesOf o us := by
  constructor
  · intro h
    induction h with
    | done _ => exact ⟨[], by simp, rfl, rfl⟩
    | @step o it it' c rs h _ ih =>
      obtain ⟨us, h1, rfl, rfl⟩ := ih
      obtain ⟨u, hu, rfl⟩ := safeDecodeNext_inv h
      exact ⟨(u, c) :: us, by simp [hu, h1], rfl, by simp [rangesOf]⟩
  · rintro ⟨us, h1, rfl, rfl⟩
    induction us generalizing o with
    | nil => exact .done rfl
    | cons x us ih =>
      simp at h1
      have h2 := FwdRun.step (o := o) (safeDecodeNext_seq h1.1 (bytesOf us)) (ih h1.2)
      simpa [rangesOf] using h2

theorem bwdRun_iff {s rs} : BwdRun s.reverse rs ↔
    ∃ us, Units us ∧ bytesOf us = s ∧ rs = (rangesOf 0 us).reverse := by
  constructor
  · intro h
    generalize hr : s.reverse = r at h
    induction h generalizing s with
    | done _ => exact ⟨[], by simp, by simpa using hr.symm, rfl⟩
    | @step it it' c rs h _ ih =>
      obtain ⟨us, h1, h2, rfl⟩ := ih (s := it'.reverse) (by simp)
      obtain ⟨u, hu, rfl⟩ := safeDecodePrev_inv h
      have hs : s = it'.reverse ++ u := by simpa using congrArg List.reverse hr
      have hlen : (bytesOf us).length = it'.length := by rw [h2]; simp
      refine ⟨us ++ [(u, c)], by simp [hu, h1], by simp [hs, h2], ?_⟩
      simp [rangesOf_append, rangesOf, hlen]; omega
  · rintro ⟨us, h1, rfl, rfl⟩
    generalize hv : us.reverse = vs
    induction vs generalizing us with
    | nil => have : us = [] := by simpa using hv
             subst this; exact .done rfl
    | cons x vs ih =>
      have hv : us = vs.reverse ++ [x] := by simpa using congrArg List.reverse hv
      subst hv
      simp at h1
      have h2 := BwdRun.step (safeDecodePrev_seq h1.2 (bytesOf vs.reverse).reverse)
        (ih vs.reverse h1.1 (by simp))
      simp [rangesOf_append, rangesOf] at h2 ⊢
      rw [Nat.add_comm x.1.length] at h2
      exact h2

/-- C07: a complete forward run and a complete backward run exist for the same strings and visit the same
code points at the same byte ranges. -/
theorem C07_iteration_agrees (s : Str) (rs : List (Nat × Nat × Char32)) :
    FwdRun 0 s rs ↔ BwdRun s.reverse rs.reverse := by
  rw [fwdRun_iff, bwdRun_iff]
  simp

example : FwdRun 0 [0x41, 0xC3, 0xA6] [(0, 1, 0x41), (1, 3, 0xE6)] :=
  fwdRun_iff.mpr ⟨[([0x41], 0x41), ([0xC3, 0xA6], 0xE6)], by
    simp
    exact ⟨.one (by decide) (by decide), .two (by decide) (by decide) ⟨by decide, by decide⟩ (by decide)⟩,
    by decide, by decide⟩

/-! ### C09, C10 UTF-32 -/

theorem toUtf32Loop_units (us : List Unit8) (h : Units us) (fuel : Nat) (t : Str) (r : List Char32) :
    toUtf32Loop (us.length + fuel) (bytesOf us ++ t) r = toUtf32Loop fuel t (r ++ valsOf us) := by
  induction us generalizing r with
  | nil => simp
  | cons x us ih =>
    simp at h
    rw [List.length_cons, show us.length + 1 + fuel = (us.length + fuel) + 1 by omega, toUtf32Loop,
      bytesOf_cons, List.append_assoc, safeDecodeNext_seq h.1]
    simp only [bind, Except.bind]
    rw [ih h.2]; simp

theorem units_length_le {us : List Unit8} (h : Units us) : us.length ≤ (bytesOf us).length := by
  induction us with
  | nil => simp
  | cons x us ih =>
    simp at h ⊢
    have := ih h.2
    have := h.1.length_pos
    omega

/-- outcome of `to_utf32` in terms of the decomposition of the string -/
theorem toUtf32_units {us : List Unit8} {t : Str} (h : Units us) (ht : ¬ HasSeqPrefix t) :
    toUtf32 (bytesOf us ++ t) = if t = [] then .ok (valsOf us) else .error .ystring := by
  unfold toUtf32
  have := units_length_le h
  obtain ⟨k, hk⟩ : ∃ k, (bytesOf us ++ t).length + 1 = us.length + (k + 1) := ⟨(bytesOf us ++ t).length - us.length, by
    simp; omega⟩
  rw [hk, toUtf32Loop_units us h, toUtf32Loop]
  split
  · subst t; rfl
  · rw [safeDecodeNext_bad ‹_› ht]; rfl

/-- C09: `to_utf32` returns `cs` exactly for the strings that are the concatenation of the sequences of
`cs`; otherwise it throws `YstringException` (and nothing else). -/
theorem C09_to_utf32 (s : Str) :
    (∀ cs, toUtf32 s = .ok cs ↔ Decodes s cs) ∧
    (¬ Valid s → toUtf32 s = .error .ystring) := by
  obtain ⟨us, t, h, rfl, ht⟩ := splitUnits s
  rw [toUtf32_units h ht]
  constructor
  · intro cs
    split
    · subst t
      simp only [List.append_nil]
      constructor
      · intro e; injection e with e; subst e; exact h.decodes
      · intro e; rw [h.decodes.unique e]
    · constructor
      · intro e; cases e
      · intro e; exact absurd ((valid_bad_tail h ht).mp ⟨_, e⟩) ‹_›
  · intro hv
    rw [if_neg]
    rintro rfl; exact hv (by simpa using h.valid)

example : Valid [0x41, 0xC3, 0xA6] ∧ ¬ Valid [0x41, 0xC3] := by
  have h1 := C09_to_utf32 [0x41, 0xC3, 0xA6]
  have h2 := C09_to_utf32 [0x41, 0xC3]
  refine ⟨⟨[0x41, 0xE6], (h1.1 _).mp (by decide +kernel)⟩, ?_⟩
  rintro ⟨cs, h⟩
  have h3 := (h2.1 cs).mpr h
  rw [show toUtf32 [0x41, 0xC3] = .error .ystring by decide +kernel] at h3
  cases h3

theorem fromUtf32_eq (x : List Char32) : fromUtf32 x = x.flatMap encodeUtf8 := by
  unfold fromUtf32
  have : ∀ (x : List Char32) (a : Str), x.foldl (fun r c => r ++ encodeUtf8 c) a = a ++ x.flatMap encodeUtf8 := by
    intro x
    induction x with
    | nil => simp
    | cons c x ih => intro a; simp [ih]
  simpa using this x []

theorem decodes_encode (x : List Char32) :
    Decodes (x.flatMap encodeUtf8) (x.filter (fun c => c.toNat ≤ 0x10FFFF)) := by
  induction x with
  | nil => exact .nil
  | cons c x ih =>
    simp only [List.flatMap_cons, List.filter_cons]
    by_cases h : c.toNat ≤ 0x10FFFF
    · simp only [h, decide_true, if_true]; exact .cons (encodeUtf8_seq c h) ih
    · simp only [h, decide_false, encodeUtf8_big c h]; simpa using ih

/-- C10, first half: values above U+10FFFF are silently dropped, everything else is preserved. -/
theorem C10_to_from_utf32 (x : List Char32) :
    toUtf32 (fromUtf32 x) = .ok (x.filter (fun c => c.toNat ≤ 0x10FFFF)) := by
  rw [fromUtf32_eq]
  exact ((C09_to_utf32 _).1 _).mpr (decodes_encode x)

/-- C10, first half, for sequences of code points. -/
theorem C10_to_from_utf32_exact (x : List Char32) (h : ∀ c ∈ x, c.toNat ≤ 0x10FFFF) :
    toUtf32 (fromUtf32 x) = .ok x := by
  rw [C10_to_from_utf32, List.filter_eq_self.mpr]
  simpa using h

theorem wellFormed_list {s : Str} (h : WellFormed s) : ∃ x : List Char32,
    (∀ c ∈ x, c.toNat ≤ 0x10FFFF) ∧ s = x.flatMap encodeUtf8 := by
  obtain ⟨cs, h1, rfl⟩ := h
  induction cs with
  | nil => exact ⟨[], by simp, rfl⟩
  | cons c cs ih =>
    obtain ⟨x, h2, h3⟩ := ih (fun d hd => h1 d (by simp [hd]))
    have hc : c ≤ 0x10FFFF := by
      have := h1 c (by simp); unfold IsScalar at this; omega
    have hn : (UInt32.ofNat c).toNat = c := UInt32.toNat_ofNat_of_lt' (by show c < 4294967296; omega)
    refine ⟨UInt32.ofNat c :: x, ?_, ?_⟩
    · intro d hd
      rcases List.mem_cons.mp hd with rfl | hd
      · omega
      · exact h2 d hd
    · simp only [List.flatMap_cons, h3, encodeUtf8_rfc _ (show (UInt32.ofNat c).toNat ≤ _ by omega), hn]

/-- C10, second half: every well-formed string survives the round trip through UTF-32. -/
theorem C10_from_to_utf32 (s : Str) (h : WellFormed s) : ∃ cs, toUtf32 s = .ok cs ∧ fromUtf32 cs = s := by
  obtain ⟨x, h1, rfl⟩ := wellFormed_list h
  refine ⟨x, ?_, fromUtf32_eq x⟩
  rw [← fromUtf32_eq, C10_to_from_utf32_exact x h1]

example : WellFormed [0xC3, 0xA6] := ⟨[0xE6], by simp [IsScalar], by decide⟩

/-- C10: the condition cannot be dropped — `to_utf32` accepts overlong forms, which do not survive. -/
theorem C10_overlong_not_preserved : ∃ s cs, toUtf32 s = .ok cs ∧ fromUtf32 cs ≠ s :=
  ⟨[0xC1, 0x81], [0x41], by decide +kernel, by decide +kernel⟩

/-! ### C11 Skipping -/

/-- Positions visited by `skip_next_utf8_codepoint` from the start: `FwdVisits s b` if the bytes from the
position on are `b`. -/
inductive FwdVisits (s : Str) : Str → Prop
  | start : FwdVisits s s
  | step {b b'} : FwdVisits s b → skipNext b = (true, b') → FwdVisits s b'

/-- Positions visited by `skip_prev_utf8_codepoint` from the end: `BwdVisits s a` if the bytes before the
position are `a`. -/
inductive BwdVisits (s : Str) : Str → Prop
  | start : BwdVisits s s
  | step {a a'} : BwdVisits s a → skipPrev a.reverse = .ok (true, a'.reverse) → BwdVisits s a'

theorem flatten_length_le {us vs : List Str} : us.flatten.length ≤ (us ++ vs).flatten.length := by
  simp

theorem fwdVisits_seg {us : List Str} (h : Seg us) (hn : us.flatten.length < 4294967296) (b : Str) :
    FwdVisits us.flatten b ↔ ∃ vs ws, us = vs ++ ws ∧ b = ws.flatten := by
  constructor
  · intro hv
    induction hv with
    | start => exact ⟨[], us, rfl, rfl⟩
    | @step b b' _ hs ih =>
      obtain ⟨vs, ws, rfl, rfl⟩ := ih
      cases ws with
      | nil => simp [skipNext] at hs
      | cons w ws =>
        have hseg := h.split
        cases hseg with
        | cons h1 h2 h3 =>
          rw [List.flatten_cons, skipNext_block h1 h2 (by simp at hn; omega)] at hs
          injection hs with _ hs
          exact ⟨vs ++ [w], ws, by simp, hs.symm⟩
  · rintro ⟨vs, ws, rfl, rfl⟩
    generalize hv : vs.reverse = vr
    induction vr generalizing vs ws with
    | nil => have : vs = [] := by simpa using hv
             subst this; exact .start
    | cons v vr ih =>
      have hv : vs = vr.reverse ++ [v] := by simpa using congrArg List.reverse hv
      subst hv
      have hs : Seg (v :: ws) := by
        have : Seg (vr.reverse ++ (v :: ws)) := by simpa using h
        exact this.split
      have h1 := ih vr.reverse (v :: ws) (by simpa using h) (by simpa using hn) (by simp)
      have e : (vr.reverse ++ [v] ++ ws).flatten = (vr.reverse ++ v :: ws).flatten := by simp
      rw [e]
      refine .step h1 ?_
      cases hs with
      | cons h1 h2 h3 =>
        rw [List.flatten_cons]
        exact skipNext_block h1 h2 (by simp at hn; omega)

theorem bwdVisits_seg {us : List Str} (h : Seg us) (hn : us.flatten.length < 4294967296) (a : Str) :
    BwdVisits us.flatten a ↔ ∃ vs ws, us = vs ++ ws ∧ a = vs.flatten := by
  constructor
  · intro hv
    induction hv with
    | start => exact ⟨us, [], by simp, rfl⟩
    | @step a a' _ hs ih =>
      obtain ⟨vs, ws, rfl, rfl⟩ := ih
      generalize hv : vs.reverse = vr
      cases vr with
      | nil => have : vs = [] := by simpa using hv
               subst this; simp [skipPrev] at hs
      | cons v vr =>
        have hv : vs = vr.reverse ++ [v] := by simpa using congrArg List.reverse hv
        subst hv
        rw [skipPrev_seg (vs := ws) (by simpa using h) (by simp at hn ⊢; omega)] at hs
        injection hs with hs; injection hs with _ hs
        exact ⟨vr.reverse, v :: ws, by simp, by simpa using hs.symm⟩
  · rintro ⟨vs, ws, rfl, rfl⟩
    induction ws generalizing vs with
    | nil => simp; exact .start
    | cons w ws ih =>
      have h1 := ih (vs ++ [w]) (by simpa using h) (by simpa using hn)
      have e : (vs ++ [w] ++ ws).flatten = (vs ++ w :: ws).flatten := by simp
      rw [e] at h1
      refine .step h1 ?_
      exact skipPrev_seg h (by simp at hn ⊢; omega)

/-- C11: on every byte string shorter than 4 GiB, valid or not, skipping forwards from the start and
skipping backwards from the end visit the same boundaries. (What is missing: longer strings, where it is
false, see `C11_false_beyond_4GiB`.) -/
theorem C11_same_boundaries_partial (s : Str) (hn : s.length < 4294967296) (a b : Str) (e : s = a ++ b) :
    FwdVisits s b ↔ BwdVisits s a := by
  obtain ⟨us, h, rfl⟩ := seg_exists s
  rw [fwdVisits_seg h hn, bwdVisits_seg h hn]
  constructor
  · rintro ⟨vs, ws, rfl, rfl⟩
    refine ⟨vs, ws, rfl, ?_⟩
    simpa using e.symm
  · rintro ⟨vs, ws, rfl, rfl⟩
    refine ⟨vs, ws, rfl, ?_⟩
    simpa using e.symm

theorem skipCont_suffix (n : Nat) (s : Str) : skipCont n s <:+ s := by
  induction s generalizing n with
  | nil => cases n <;> simp [skipCont]
  | cons b s ih =>
    cases n with
    | zero => simp [skipCont]
    | succ n =>
      simp only [skipCont]
      split
      · exact (ih n).trans (List.suffix_cons b s)
      · simp

/-- C11: a forward skip of a non-empty string succeeds, stays inside the string and moves at least one
byte; on the empty string it reports `false`. -/
theorem C11_forward_progress (s : Str) :
    (s = [] → skipNext s = (false, [])) ∧
    (s ≠ [] → ∃ u t, u ≠ [] ∧ s = u ++ t ∧ skipNext s = (true, t)) := by
  refine ⟨by rintro rfl; rfl, fun h => ?_⟩
  cases s with
  | nil => exact absurd rfl h
  | cons l s =>
    rw [skipNext_cap]
    obtain ⟨u, hu⟩ := skipCont_suffix ((capOf l).getD 4294967295) s
    exact ⟨l :: u, _, by simp, by simp [hu], rfl⟩

theorem stepBack_ok (k : Nat) (p r : Str) (h : k ≤ p.length) :
    stepBack k p r = .ok ((p.take k).reverse ++ r) := by
  have h1 : (p.take k).length = k := by simp; omega
  have := stepBack_append (p.take k) (p.drop k) r
  rwa [List.take_append_drop, h1] at this

theorem skipPrevLoop_progress (rest : Str) : ∀ (n : Nat) (cur : UInt8) (p : Str),
    n = p.length % 4294967296 →
    ∃ u t, u ≠ [] ∧ (cur :: p).reverse ++ rest = u ++ t ∧ skipPrevLoop n cur (cur :: p) rest = .ok (true, t) := by
  induction rest with
  | nil =>
    intro n cur p hn
    rw [skipPrevLoop.eq_def]
    simp only [isC]
    by_cases hc : IsCont cur
    · rw [if_pos hc]
      exact ⟨(cur :: p).reverse, [], by simp, by simp, rfl⟩
    · rw [if_neg hc]
      generalize (if cur &&& 128 = 0 then 1 else _) = m
      by_cases hm : m ≥ (n + 1) % 4294967296
      · rw [if_pos hm]; exact ⟨(cur :: p).reverse, [], by simp, by simp, rfl⟩
      · rw [if_neg hm, stepBack_ok m _ _ (by simp; omega)]
        refine ⟨((cur :: p).drop m).reverse, _, ?_, ?_, rfl⟩
        · intro e
          have := congrArg List.length e
          simp at this; omega
        · rw [← List.append_assoc, ← List.reverse_append, List.take_append_drop]
  | cons b rest ih =>
    intro n cur p hn
    rw [skipPrevLoop.eq_def]
    simp only [isC]
    by_cases hc : IsCont cur
    · rw [if_pos hc]
      obtain ⟨u, t, h1, h2, h3⟩ := ih ((n + 1) % 4294967296) b (cur :: p) (by simp; omega)
      refine ⟨u, t, h1, ?_, h3⟩
      rw [← h2]; simp
    · rw [if_neg hc]
      generalize (if cur &&& 128 = 0 then 1 else _) = m
      by_cases hm : m ≥ (n + 1) % 4294967296
      · rw [if_pos hm]; exact ⟨(cur :: p).reverse, b :: rest, by simp, by simp, rfl⟩
      · rw [if_neg hm, stepBack_ok m _ _ (by simp; omega)]
        refine ⟨((cur :: p).drop m).reverse, _, ?_, ?_, rfl⟩
        · intro e
          have := congrArg List.length e
          simp at this; omega
        · rw [← List.append_assoc, ← List.reverse_append, List.take_append_drop]

/-- C11: a backward skip of a non-empty string never fails, stays inside the string and moves at least one
byte (strings of any length, the 32-bit counters may wrap); on the empty string it reports `false`. -/
theorem C11_backward_progress (s : Str) :
    (s = [] → skipPrev s.reverse = .ok (false, [])) ∧
    (s ≠ [] → ∃ u t, u ≠ [] ∧ s = t ++ u ∧ skipPrev s.reverse = .ok (true, t.reverse)) := by
  refine ⟨by rintro rfl; rfl, fun h => ?_⟩
  cases hr : s.reverse with
  | nil => simp at hr; exact absurd hr h
  | cons b rest =>
    obtain ⟨u, t, h1, h2, h3⟩ := skipPrevLoop_progress rest 0 b [] (by simp)
    refine ⟨u.reverse, t.reverse, by simpa using h1, ?_, by simpa [skipPrev] using h3⟩
    have : s.reverse = u ++ t := by rw [hr, ← h2]; simp
    simpa using congrArg List.reverse this

theorem skipCont_replicate (n m : Nat) : skipCont n (List.replicate m 0x80) = List.replicate (m - n) 0x80 := by
  induction m generalizing n with
  | zero => cases n <;> simp [skipCont]
  | succ m ih =>
    cases n with
    | zero => rfl
    | succ n =>
      rw [List.replicate_succ, skipCont, if_pos (by decide), ih]
      congr 1; omega

/-- C11 negation: in a string of 2^32 + 1 continuation bytes the forward direction stops after 2^32 bytes
(its counter is 32 bits wide), the backward direction does not. -/
theorem C11_false_beyond_4GiB : ∃ s a b, s = a ++ b ∧ FwdVisits s b ∧ ¬ BwdVisits s a := by
  obtain ⟨N, hN⟩ : ∃ N : Nat, N = 4294967296 := ⟨_, rfl⟩
  have hN0 : N ≠ 0 := by omega
  have hN1 : N - 4294967295 = 1 := by omega
  clear hN
  refine ⟨List.replicate (N + 1) 0x80, List.replicate N 0x80, [0x80], ?_, ?_, ?_⟩
  · exact List.replicate_succ'
  · refine .step .start ?_
    rw [List.replicate_succ, skipNext_cap, show capOf 0x80 = none by decide]
    simp only [Option.getD_none]
    rw [skipCont_replicate, hN1]
    rfl
  · have key : ∀ a, BwdVisits (List.replicate (N + 1) 0x80) a →
        a = List.replicate (N + 1) 0x80 ∨ a = [] := by
      intro a h
      induction h with
      | start => exact .inl rfl
      | @step a a' _ h ih =>
        rcases ih with rfl | rfl
        · rw [skipPrev_begin _ (by simp) (by
            intro b hb; rw [List.eq_of_mem_replicate hb]; exact ⟨by decide, by decide⟩)] at h
          injection h with h; injection h with _ h
          exact .inr (by simpa using h.symm)
        · simp [skipPrev] at h
    intro h
    rcases key _ h with h | h
    · have := congrArg List.length h
      simp only [List.length_replicate] at this
      omega
    · have := congrArg List.length h
      simp only [List.length_replicate, List.length_nil] at this
      omega

example : FwdVisits [0x41, 0xC3, 0xA6] [0xC3, 0xA6] := .step .start (by decide +kernel)

/-! ### C13 Popping code points from a view -/

/-- C13, `pop_utf8_codepoint`: on a non-empty view it returns the first code point and removes exactly its
bytes; a malformed view makes it throw (the view is written only on success, so it is unchanged then). -/
theorem C13_pop_front (s : Str) :
    popUtf8Codepoint [] = .ok (none, []) ∧
    (∀ u c, IsSeq u c → popUtf8Codepoint (u ++ s) = .ok (some c, s)) ∧
    (s ≠ [] → ¬ HasSeqPrefix s → popUtf8Codepoint s = .error .ystring) := by
  refine ⟨rfl, fun u c h => ?_, fun h0 h => ?_⟩
  · unfold popUtf8Codepoint
    rw [safeDecodeNext_seq h]
    simp [bind, Except.bind]
  · unfold popUtf8Codepoint
    rw [safeDecodeNext_bad h0 h]; rfl

/-- C13, `pop_last_utf8_codepoint` (what is missing: malformed views ending in seven or more continuation
bytes, where the behaviour is undefined, see `C13_false`). -/
theorem C13_pop_back_partial (s : Str) :
    popLastUtf8Codepoint [] = .ok (none, []) ∧
    (∀ u c, IsSeq u c → popLastUtf8Codepoint (s ++ u) = .ok (some c, s)) ∧
    (s ≠ [] → ¬ HasSeqSuffix s → ¬ LongContRun s → popLastUtf8Codepoint s = .error .ystring) := by
  refine ⟨rfl, fun u c h => ?_, fun h0 h h1 => ?_⟩
  · unfold popLastUtf8Codepoint
    rw [List.reverse_append, safeDecodePrev_seq h]
    simp [bind, Except.bind]
  · unfold popLastUtf8Codepoint
    rw [safeDecodePrev_bad h0 h h1]; rfl

/-- C13 negation: `pop_last_utf8_codepoint` has undefined behaviour on some malformed views. -/
theorem C13_false (s : Str) (h : LongContRun s) : popLastUtf8Codepoint s = .error .ub := by
  unfold popLastUtf8Codepoint
  rw [safeDecodePrev_ub h]; rfl

example : LongContRun [0x41, 0x80, 0x80, 0x80, 0x80, 0x80, 0x80, 0x80] :=
  ⟨[0x41], [0x80, 0x80, 0x80, 0x80, 0x80, 0x80, 0x80], rfl, by simp, rfl, by
    intro b hb; simp at hb; subst hb; exact ⟨by decide, by decide⟩⟩

/-- C13, `remove_utf8_codepoint`: `false` only for the empty view, otherwise a non-empty prefix is removed. -/
theorem C13_remove_front (s : Str) :
    removeUtf8Codepoint [] = (false, []) ∧
    (s ≠ [] → ∃ u t, u ≠ [] ∧ s = u ++ t ∧ removeUtf8Codepoint s = (true, t)) ∧
    (∀ u c, IsSeq u c → removeUtf8Codepoint (u ++ s) = (true, s)) := by
  refine ⟨rfl, fun h => ?_, fun u c h => ?_⟩
  · obtain ⟨u, t, h1, rfl, h3⟩ := (C11_forward_progress s).2 h
    refine ⟨u, t, h1, rfl, ?_⟩
    unfold removeUtf8Codepoint
    rw [h3]; simp
  · unfold removeUtf8Codepoint
    rw [skipNext_seq h]; simp

/-- C13, `remove_last_utf8_codepoint`. -/
theorem C13_remove_back (s : Str) :
    removeLastUtf8Codepoint [] = .ok (false, []) ∧
    (s ≠ [] → ∃ u t, u ≠ [] ∧ s = t ++ u ∧ removeLastUtf8Codepoint s = .ok (true, t)) ∧
    (∀ u c, IsSeq u c → removeLastUtf8Codepoint (s ++ u) = .ok (true, s)) := by
  refine ⟨rfl, fun h => ?_, fun u c h => ?_⟩
  · obtain ⟨u, t, h1, rfl, h3⟩ := (C11_backward_progress s).2 h
    refine ⟨u, t, h1, rfl, ?_⟩
    unfold removeLastUtf8Codepoint
    rw [h3]; simp [bind, Except.bind]
  · unfold removeLastUtf8Codepoint
    rw [List.reverse_append, skipPrev_seq h]; simp [bind, Except.bind]

end Ystring
