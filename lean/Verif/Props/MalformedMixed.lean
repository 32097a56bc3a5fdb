import Verif.Props.Malformed
/-
C104 for the remaining pairs of indices of `get_char_substring`.
-/
namespace Ystring
open Spec

theorem getCappedCharPos_bad {s p m : Str} {gs : List Str} (e : s = p ++ m) (hp : Characters p gs) (h0 : m ≠ [])
    (hm : ¬ HasSeqPrefix m) (hl : s.length < npos) {k : Int} (hk : 0 ≤ k) : getCappedCharPos s k =
      if k = 0 ∨ k < gs.length then .ok (gs.take k.toNat).flatten.length else .error .ystring := by
  unfold getCappedCharPos
  rw [C104_get_char_pos_partial e hp h0 hm (by unfold npos at hl; unfold SIZE_MOD; omega) hk]
  by_cases hc : k = 0 ∨ k < gs.length
  · rw [if_pos hc]
    simp only [bind, Except.bind]
    have := flatten_take_le gs k.toNat
    rw [hp.1] at this
    have he := congrArg List.length e
    simp only [List.length_append] at he
    rw [if_pos (by omega)]
  · rw [if_neg hc]; rfl

theorem getCappedCharPos_bad_neg {s p m : Str} {gs : List Str} {n : Nat} (e : s = m ++ p) (hp : Characters p gs) (h0 : m ≠ [])
    (hm : ¬ HasSeqSuffix m) (hm2 : ¬ LongContRun m) (hn : CompleteChars gs n) (hl : s.length < npos) {k : Int} (hk : k < 0) :
    getCappedCharPos s k =
      if -k ≤ n then .ok (m.length + (gs.take (gs.length + k).toNat).flatten.length) else .error .ystring := by
  unfold getCappedCharPos
  rw [C104_get_char_pos_neg_partial e hp h0 hm hm2 hn (by unfold npos at hl; unfold SIZE_MOD; omega) hk]
  by_cases hc : -k ≤ n
  · rw [if_pos hc]
    simp only [bind, Except.bind]
    have := flatten_take_le gs (gs.length + k).toNat
    rw [hp.1] at this
    have he := congrArg List.length e
    simp only [List.length_append] at he
    rw [if_pos (by omega)]
  · rw [if_neg hc]; rfl

/-- C104: `get_char_substring` with a start from the right and an end from the left: it throws exactly if one of the two positions
cannot be found without looking at malformed bytes; otherwise it returns the bytes between them (none if the end is not behind the
start). The string consists of the characters `gs` and the malformed bytes `m`, read from the left, and of the malformed bytes
`m'` and the characters `gs'`, read from the right. -/
theorem C104_get_char_substring_right_left_partial {s p m p' m' : Str} {gs gs' : List Str} {n : Nat}
    (e : s = p ++ m) (hp : Characters p gs) (h0 : m ≠ []) (hm : ¬ HasSeqPrefix m)
    (e' : s = m' ++ p') (hp' : Characters p' gs') (h0' : m' ≠ []) (hm' : ¬ HasSeqSuffix m') (hm2 : ¬ LongContRun m')
    (hn : CompleteChars gs' n) (hl : s.length < npos) {i j : Int} (hi : i < 0) (hj : 0 ≤ j) :
    getCharSubstring s i j = if -i ≤ n ∧ (j = 0 ∨ j < gs.length) then
      .ok ((s.take (gs.take j.toNat).flatten.length).drop (m'.length + (gs'.take (gs'.length + i).toNat).flatten.length))
      else .error .ystring := by
  have hadj : adjustEnd i j = j := by unfold adjustEnd; rw [if_neg (by omega)]
  unfold getCharSubstring getCharSubstringRange
  simp only [hadj]
  rw [if_neg (by omega), if_neg (by omega), if_neg (by omega), getCappedCharPos_bad_neg e' hp' h0' hm' hm2 hn hl hi]
  have hA := flatten_take_le gs' (gs'.length + i).toNat
  rw [hp'.1] at hA
  have he' := congrArg List.length e'
  simp only [List.length_append] at he'
  by_cases hc : -i ≤ n
  · rw [if_pos hc]
    simp only [bind, Except.bind]
    rw [getCappedCharPos_bad e hp h0 hm hl hj]
    by_cases hc2 : j = 0 ∨ j < gs.length
    · rw [if_pos hc2, if_pos ⟨hc, hc2⟩]
      simp only
      rw [substr_safe (by omega), List.drop_take]
      split
      · rfl
      · next h => rw [show (gs.take j.toNat).flatten.length - (m'.length + (gs'.take (gs'.length + i).toNat).flatten.length) = 0 by omega]
    · rw [if_neg hc2, if_neg (by omega)]
  · rw [if_neg hc, if_neg (by omega)]
    rfl

/-- C104: `get_char_substring` with a start from the left and an end from the right: it throws exactly if one of the two positions
cannot be found without looking at malformed bytes. `gs` and `m` are as above; `m'` and `gs'` are what the part of the string behind the
start consists of, read from the right. What is returned begins at the start, but its length is the position of the end *in
the part behind the start* less the position of the start (to the end of the string if this is negative); see C30 for this. -/
theorem C104_get_char_substring_left_right_partial {s p m p' m' : Str} {gs gs' : List Str} {n : Nat} {i j : Int}
    (e : s = p ++ m) (hp : Characters p gs) (h0 : m ≠ []) (hm : ¬ HasSeqPrefix m)
    (e' : (gs.drop i.toNat).flatten ++ m = m' ++ p') (hp' : Characters p' gs') (h0' : m' ≠ []) (hm' : ¬ HasSeqSuffix m')
    (hm2 : ¬ LongContRun m') (hn : CompleteChars gs' n) (hl : s.length < npos) (hi : 0 ≤ i) (hj : j < 0) :
    getCharSubstring s i j = if (i = 0 ∨ i < gs.length) ∧ -j ≤ n then
      (let start := (gs.take i.toNat).flatten.length
       let stop := m'.length + (gs'.take (gs'.length + j).toNat).flatten.length
       .ok (if start ≤ stop then (s.drop start).take (stop - start) else s.drop start))
      else .error .ystring := by
  have hadj : adjustEnd i j = j := by
    unfold adjustEnd
    rw [if_neg]
    intro h
    simp at h
    omega
  unfold getCharSubstring getCharSubstringRange
  simp only [hadj]
  rw [if_neg (by omega), if_neg (by omega), if_pos ⟨hi, hj⟩, getCappedCharPos_bad e hp h0 hm hl hi]
  by_cases hc : i = 0 ∨ i < gs.length
  · rw [if_pos hc]
    simp only [bind, Except.bind]
    have hs : s = (gs.take i.toNat).flatten ++ ((gs.drop i.toNat).flatten ++ m) := by
      rw [← List.append_assoc, ← List.flatten_append, List.take_append_drop, hp.1, e]
    have hlen := congrArg List.length hs
    rw [List.length_append] at hlen
    have hd : substr s (gs.take i.toNat).flatten.length = .ok ((gs.drop i.toNat).flatten ++ m) := by
      rw [substr_from (by omega) hl]
      conv => lhs; rw [hs]
      rw [List.drop_left]
    rw [hd]
    simp only
    rw [getCappedCharPos_bad_neg e' hp' h0' hm' hm2 hn (by omega) hj]
    have hA := flatten_take_le gs' (gs'.length + j).toNat
    rw [hp'.1] at hA
    have he' := congrArg List.length e'
    rw [List.length_append (as := m')] at he'
    by_cases hc2 : -j ≤ n
    · rw [if_pos hc2, if_pos ⟨hc, hc2⟩]
      simp only
      rw [substr_safe (by omega)]
      congr 1
      unfold sizeSub
      split
      · next h =>
        rw [show ∀ a b : Nat, b ≤ a → a + SIZE_MOD - b = a - b + SIZE_MOD by intros; omega, Nat.add_mod_right,
          Nat.mod_eq_of_lt (by unfold npos at hl; unfold SIZE_MOD; omega)]
        exact h
      · next h =>
        have hl' : s.length < SIZE_MOD := by unfold npos at hl; unfold SIZE_MOD; omega
        rw [Nat.mod_eq_of_lt (by omega), List.take_of_length_le]
        rw [List.length_drop]
        omega
    · rw [if_neg hc2, if_neg (by omega)]
  · rw [if_neg hc, if_neg (by omega)]
    rfl

/-- C104: `get_char_substring` with two indices from the right that are in the wrong order or equal: what precedes the start is
returned (see C30), unless malformed bytes have to be looked at to find it. -/
theorem C104_get_char_substring_neg_empty_partial {s p m : Str} {gs : List Str} {n : Nat} (e : s = m ++ p) (hp : Characters p gs)
    (h0 : m ≠ []) (hm : ¬ HasSeqSuffix m) (hm2 : ¬ LongContRun m) (hn : CompleteChars gs n) (hl : s.length < npos) {i j : Int}
    (hij : j ≤ i) (hi : i < 0) :
    getCharSubstring s i j = if -i ≤ n then .ok (m ++ (gs.take (gs.length + i).toNat).flatten) else .error .ystring := by
  have hadj : adjustEnd i j = i := by
    unfold adjustEnd
    by_cases h : j < i
    · rw [if_pos ⟨h, by simp; omega⟩]
    · rw [if_neg (fun h' => h h'.1)]; omega
  unfold getCharSubstring getCharSubstringRange
  simp only [hadj]
  rw [if_neg (by omega), if_pos ⟨hi, hi⟩, getCappedCharPos_bad_neg e hp h0 hm hm2 hn hl hi]
  by_cases hc : -i ≤ n
  · rw [if_pos hc, if_pos hc]
    simp only [bind, Except.bind]
    have hA := flatten_take_le gs (gs.length + i).toNat
    rw [hp.1] at hA
    have he := congrArg List.length e
    simp only [List.length_append] at he
    rw [substr_safe (Nat.zero_le _)]
    simp only [Int.sub_self]
    have hz : ∀ t : Str, getCappedCharPos t 0 = .ok 0 := by
      intro t
      have hz' : getCharPos t 0 = .ok 0 := by
        unfold getCharPos
        rw [if_pos (by decide)]
        rfl
      unfold getCappedCharPos
      rw [hz']
      simp only [bind, Except.bind]
      rw [if_pos (by unfold npos; decide)]
    rw [hz]
    simp only
    rw [substr_safe (Nat.zero_le _)]
    have hs : s = (m ++ (gs.take (gs.length + i).toNat).flatten) ++ (gs.drop (gs.length + i).toNat).flatten := by
      rw [List.append_assoc, ← List.flatten_append, List.take_append_drop, hp.1, e]
    refine congrArg Except.ok ?_
    unfold sizeSub
    have hl' : s.length < SIZE_MOD := by unfold npos at hl; unfold SIZE_MOD; omega
    rw [Nat.sub_zero, Nat.add_mod_right, Nat.mod_eq_of_lt (by omega), List.drop_zero, ← List.length_append]
    conv => lhs; rw [hs]
    rw [List.take_left]
  · rw [if_neg hc, if_neg hc]
    rfl

/-- `get_char_substring(s, -2, 2)` finds both positions, the malformed bytes between them are returned; `get_char_substring(s, -3, 2)` and `get_char_substring(s, -2, 3)` do not -/
example : getCharSubstring [0x61, 0x62, 0x63, 0xFF, 0x64, 0x65] (-2) 2 = .ok [] ∧
    getCharSubstring [0x61, 0x62, 0x63, 0xFF, 0x64, 0x65] (-3) 2 = .error .ystring ∧
    getCharSubstring [0x61, 0x62, 0x63, 0xFF, 0x64, 0x65] (-2) 3 = .error .ystring ∧
    getCharSubstring [0x61, 0xFF, 0x64, 0x65] 0 (-1) = .ok [0x61, 0xFF, 0x64] ∧
    getCharSubstring [0x61, 0x62, 0xFF, 0x64, 0x65] 1 (-1) = .ok [0x62, 0xFF] ∧
    getCharSubstring [0x61, 0x62, 0xFF, 0x64, 0x65] 1 (-3) = .error .ystring ∧
    getCharSubstring [0x61, 0x62, 0xFF, 0x64, 0x65] (-1) (-1) = .ok [0x61, 0x62, 0xFF, 0x64] := by decide +kernel

end Ystring
