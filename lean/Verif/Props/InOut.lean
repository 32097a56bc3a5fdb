import Verif.Model.InOut
import Verif.Props.Codec
import Verif.Props.Case
import Verif.Props.Basics
/-
Property theorem C88: the arguments that a call changes, when it throws.
-/
namespace Ystring
open Spec

/-- C88: if `safe_decode_next` throws, the iterator is where it was; the code point is INVALID_CHAR. At the end of the string
neither is changed. Otherwise the iterator is behind the sequence and the code point is its value. -/
theorem C88_safe_decode_next (it : Str) (ch : Char32) :
    (it = [] → safeDecodeNextIO it ch = ⟨.ok false, it, ch⟩) ∧
    (∀ u c t, it = u ++ t → IsSeq u c → safeDecodeNextIO it ch = ⟨.ok true, t, c⟩) ∧
    (it ≠ [] → ¬ HasSeqPrefix it → safeDecodeNextIO it ch = ⟨.error .ystring, it, INVALID_CHAR⟩) := by
  unfold safeDecodeNextIO
  refine ⟨fun h => by rw [if_pos h], ?_, ?_⟩
  · rintro u c t rfl hs
    rw [if_neg (by simp [hs.ne_nil]), decodeNext_seq hs]
    simp only
    rw [if_neg hs.ne_invalid]
  · intro h1 h2
    rw [if_neg h1, decodeNext_bad h2]; rfl

/-- C88: the same for `safe_decode_prev`. The missing case is the one with undefined behaviour (C06). -/
theorem C88_safe_decode_prev (s : Str) (ch : Char32) :
    (s = [] → safeDecodePrevIO s.reverse ch = ⟨.ok false, s.reverse, ch⟩) ∧
    (∀ t u c, s = t ++ u → IsSeq u c → safeDecodePrevIO s.reverse ch = ⟨.ok true, t.reverse, c⟩) ∧
    (s ≠ [] → ¬ HasSeqSuffix s → ¬ LongContRun s →
      safeDecodePrevIO s.reverse ch = ⟨.error .ystring, s.reverse, INVALID_CHAR⟩) := by
  unfold safeDecodePrevIO
  refine ⟨fun h => by rw [if_pos (by simp [h])], ?_, ?_⟩
  · rintro t u c rfl hs
    rw [if_neg (by simp [hs.ne_nil]), List.reverse_append, decodePrev_seq hs]
    simp only
    rw [if_neg hs.ne_invalid]
  · intro h1 h2 h3
    rw [if_neg (by simpa using h1), decodePrev_bad h2 h3]; rfl

/-- C88: a call that throws an exception leaves the string or view or iterator that it is called with as it was, whatever that
contains. -/
theorem C88_unchanged (s : Str) (ch chr : Char32) :
    ((safeDecodeNextIO s ch).result = .error .ystring → (safeDecodeNextIO s ch).after.1 = s) ∧
    ((safeDecodePrevIO s ch).result = .error .ystring → (safeDecodePrevIO s ch).after.1 = s) ∧
    ((popUtf8CodepointIO s).result = .error .ystring → (popUtf8CodepointIO s).after = s) ∧
    ((popLastUtf8CodepointIO s).result = .error .ystring → (popLastUtf8CodepointIO s).after = s) ∧
    ((appendIO s chr).result = .error .ystring → (appendIO s chr).after = s) ∧
    (replaceInvalidUtf8IO s chr).result = .ok () := by
  refine ⟨?_, ?_, ?_, ?_, ?_, ?_⟩
  · intro h
    by_cases h0 : s = []
    · rw [(C88_safe_decode_next s ch).1 h0]
    · by_cases h1 : HasSeqPrefix s
      · obtain ⟨u, c, t, hs, e⟩ := h1
        rw [(C88_safe_decode_next s ch).2.1 u c t e hs] at h; cases h
      · rw [(C88_safe_decode_next s ch).2.2 h0 h1]
  · intro h
    obtain ⟨s, rfl⟩ : ∃ r, s = List.reverse r := ⟨s.reverse, by simp⟩
    by_cases h0 : s = []
    · rw [(C88_safe_decode_prev s ch).1 h0]
    · by_cases h1 : HasSeqSuffix s
      · obtain ⟨u, c, t, hs, e⟩ := h1
        rw [(C88_safe_decode_prev s ch).2.1 t u c e hs] at h; cases h
      · by_cases h2 : LongContRun s
        · unfold safeDecodePrevIO at h
          rw [if_neg (by simpa using h0), decodePrev_ub h2] at h; cases h
        · rw [(C88_safe_decode_prev s ch).2.2 h0 h1 h2]
  · unfold popUtf8CodepointIO
    rcases safeDecodeNextIO s 0 with ⟨(e | (_ | _)), it, c⟩ <;> intro h <;> first | rfl | cases h
  · unfold popLastUtf8CodepointIO
    rcases safeDecodePrevIO s.reverse 0 with ⟨(e | (_ | _)), it, c⟩ <;> intro h <;> first | rfl | cases h
  · unfold appendIO
    by_cases hc : encodeUtf8Ret chr ≠ 0
    · simp only [if_pos hc]; intro h; cases h
    · simp only [if_neg hc]
      intro _
      have : encodeUtf8 chr = [] := by
        unfold encodeUtf8Ret at hc
        unfold encodeUtf8 encodeDetail
        simp only [ne_eq, Decidable.not_not] at hc
        rw [hc]; rfl
      rw [this, List.append_nil]
  · obtain ⟨r, h1, h2, h3, h4, h5⟩ := C14_replace_invalid s chr
    unfold replaceInvalidUtf8IO
    unfold replaceInvalidUtf8InPlace at h5
    rcases hv : isValidUtf8 s with e | (_ | _)
    · rw [hv] at h5; cases h5
    · simp only [h1]
    · rfl

/-- C88: when they return, the functions do what the model of the other properties says. -/
theorem C88_same (s : Str) (ch chr : Char32) :
    (∀ c t, safeDecodeNextIO s ch = ⟨.ok true, t, c⟩ ↔ safeDecodeNext s = .ok (some (c, t))) ∧
    (∀ c t, safeDecodePrevIO s ch = ⟨.ok true, t, c⟩ ↔ safeDecodePrev s = .ok (some (c, t))) ∧
    (∀ c t, popUtf8CodepointIO s = ⟨.ok c, t⟩ ↔ popUtf8Codepoint s = .ok (c, t)) ∧
    (∀ c t, popLastUtf8CodepointIO s = ⟨.ok c, t⟩ ↔ popLastUtf8Codepoint s = .ok (c, t)) ∧
    (∀ t, appendIO s chr = ⟨.ok (), t⟩ ↔ append s chr = .ok t) ∧
    (∀ t, replaceInvalidUtf8IO s chr = ⟨.ok (), t⟩ ↔ replaceInvalidUtf8InPlace s chr = .ok t) := by
  refine ⟨?_, ?_, ?_, ?_, ?_, ?_⟩
  · intro c t
    unfold safeDecodeNextIO safeDecodeNext
    by_cases h : s = []
    · rw [if_pos h, if_pos h]; simp
    · rw [if_neg h, if_neg h]
      rcases decodeNext s with e | ⟨c', t'⟩
      · simp [bind, Except.bind]
      · simp only [bind, Except.bind]
        by_cases hc : c' = INVALID_CHAR
        · rw [if_pos hc, if_pos hc]; simp
        · rw [if_neg hc, if_neg hc]; simp [and_comm]
  · intro c t
    unfold safeDecodePrevIO safeDecodePrev
    by_cases h : s = []
    · rw [if_pos h, if_pos h]; simp
    · rw [if_neg h, if_neg h]
      rcases decodePrev s with e | ⟨c', t'⟩
      · simp [bind, Except.bind]
      · simp only [bind, Except.bind]
        by_cases hc : c' = INVALID_CHAR
        · rw [if_pos hc, if_pos hc]; simp
        · rw [if_neg hc, if_neg hc]; simp [and_comm]
  · intro c t
    unfold popUtf8CodepointIO popUtf8Codepoint safeDecodeNextIO safeDecodeNext
    by_cases h : s = []
    · rw [if_pos h, if_pos h]; simp [bind, Except.bind]
    · rw [if_neg h, if_neg h]
      rcases decodeNext s with e | ⟨c', t'⟩
      · simp [bind, Except.bind]
      · simp only [bind, Except.bind]
        by_cases hc : c' = INVALID_CHAR
        · rw [if_pos hc, if_pos hc]; simp
        · rw [if_neg hc, if_neg hc]; simp
  · intro c t
    unfold popLastUtf8CodepointIO popLastUtf8Codepoint safeDecodePrevIO safeDecodePrev
    by_cases h : s.reverse = []
    · rw [if_pos h, if_pos h]; simp [bind, Except.bind]
    · rw [if_neg h, if_neg h]
      rcases decodePrev s.reverse with e | ⟨c', t'⟩
      · simp [bind, Except.bind]
      · simp only [bind, Except.bind]
        by_cases hc : c' = INVALID_CHAR
        · rw [if_pos hc, if_pos hc]; simp
        · rw [if_neg hc, if_neg hc]; simp
  · intro t
    unfold appendIO append
    by_cases h : encodeUtf8Ret chr ≠ 0 <;> simp [h]
  · intro t
    unfold replaceInvalidUtf8IO replaceInvalidUtf8InPlace
    rcases isValidUtf8 s with e | (_ | _)
    · simp [bind, Except.bind]
    · rcases replaceInvalidUtf8 s chr with e | r <;> simp [bind, Except.bind]
    · simp [bind, Except.bind]

example : safeDecodeNextIO [0xC3, 0x41] 7 = ⟨.error .ystring, [0xC3, 0x41], INVALID_CHAR⟩ := by decide +kernel
example : safeDecodeNextIO [0xC3, 0x85, 0x41] 7 = ⟨.ok true, [0x41], 0xC5⟩ := by decide +kernel
example : popLastUtf8CodepointIO [0x41, 0x80] = ⟨.error .ystring, [0x41, 0x80]⟩ := by decide +kernel
example : appendIO [0x41] 0x110000 = ⟨.error .ystring, [0x41]⟩ := by decide +kernel
example : replaceInvalidUtf8IO [0x41, 0x80] 0x3F = ⟨.ok (), [0x41, 0x3F]⟩ := by decide +kernel

end Ystring
