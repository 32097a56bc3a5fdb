import Verif.Proofs.Slice
/-
Property theorems C29 (get_codepoint_substring), C30 (get_char_substring), C31 (replace_codepoints,
replace_chars), C32 (insert_*), C33 (reverse).

`Spec.slice gs i j` are the pieces (code points or characters) from `i` up to `j`, with clamped indices.
-/
namespace Ystring
open Spec

theorem adjustEnd_sign (i j : Int) : adjustEnd i j ≥ 0 ↔ j ≥ 0 := by
  unfold adjustEnd
  split
  · rename_i h
    have := h.2
    simp at this
    omega
  · rfl

theorem codepointRange {s : Str} {gs : List Str} (h : CodePoints s gs) (hl : s.length < npos) (i j : Int)
    (hi : PTRDIFF_MIN < i) (hj : PTRDIFF_MIN < j) :
    getCodepointSubstringRange s i j =
      if 0 ≤ i then .ok ⟨off gs (clampIndex gs.length i), sliceLen gs i j⟩
      else if 0 ≤ j then
        .ok ⟨off gs (clampIndex gs.length i), max (off gs (clampIndex gs.length i)) (off gs (clampIndex gs.length j))⟩
      else if i < j then .ok ⟨off gs (clampIndex gs.length i), sliceLen gs i j⟩
      else .ok ⟨0, off gs (clampIndex gs.length i)⟩ := by
  have oki : i ≠ PTRDIFF_MIN := by omega
  have okj : j ≠ PTRDIFF_MIN := by omega
  have sg := adjustEnd_sign i j
  unfold getCodepointSubstringRange
  simp only
  by_cases h0 : 0 ≤ i
  · rw [if_pos h0]
    by_cases h1 : 0 ≤ j
    · rw [if_pos ⟨h0, sg.mpr h1⟩]
      exact codepointCap.range_pp h hl h0 h1 (fun k hk => by unfold PTRDIFF_MIN; omega)
    · rw [if_neg (by intro ⟨_, h2⟩; exact h1 (sg.mp h2)), if_neg (by omega), if_pos (by omega)]
      exact codepointCap.range_pn h hl h0 (by omega) oki okj Subrange.mk
  · rw [if_neg h0, if_neg (by omega)]
    by_cases h1 : 0 ≤ j
    · rw [if_pos h1, if_neg (by omega), if_neg (by omega)]
      exact codepointCap.range_np h hl (by omega) h1 oki okj (fun a b => ⟨a, max a b⟩)
    · rw [if_neg h1, if_pos (by omega)]
      exact codepointCap.range_nn h hl (by omega) (by omega) oki okj
        (by unfold adjustEnd PTRDIFF_MIN at *; split <;> omega)

theorem charRange {s : Str} {gs : List Str} (h : Characters s gs) (hl : s.length < npos) (i j : Int) :
    getCharSubstringRange s i j =
      if 0 ≤ i then
        if 0 ≤ j then .ok ⟨off gs (clampIndex gs.length i), sliceLen gs i j⟩
        else .ok ⟨off gs (clampIndex gs.length i), sizeSub (sliceLen gs i j) (off gs (clampIndex gs.length i))⟩
      else if 0 ≤ j then .ok ⟨off gs (clampIndex gs.length i), sliceLen gs i j⟩
      else if i < j then .ok ⟨off gs (clampIndex gs.length i), sliceLen gs i j⟩
      else .ok ⟨0, off gs (clampIndex gs.length i)⟩ := by
  have sg := adjustEnd_sign i j
  unfold getCharSubstringRange
  simp only
  by_cases h0 : 0 ≤ i
  · rw [if_pos h0]
    by_cases h1 : 0 ≤ j
    · rw [if_pos ⟨h0, sg.mpr h1⟩, if_pos h1]
      exact charCap.range_pp h hl h0 h1 (fun k hk => trivial)
    · rw [if_neg (by intro ⟨_, h2⟩; exact h1 (sg.mp h2)), if_neg (by omega), if_pos (by omega), if_neg h1]
      exact charCap.range_pn h hl h0 (by omega) trivial trivial (fun a b => ⟨a, sizeSub b a⟩)
  · rw [if_neg h0, if_neg (by omega)]
    by_cases h1 : 0 ≤ j
    · rw [if_pos h1, if_neg (by omega), if_neg (by omega), sliceLen_off]
      rw [charCap.range_np h hl (by omega) h1 trivial trivial (fun a b => ⟨a, if b > a then b - a else 0⟩)]
      congr 2
      split <;> omega
    · rw [if_neg h1, if_pos (by omega)]
      exact charCap.range_nn h hl (by omega) (by omega) trivial trivial trivial

/-! ### C29 -/

/-- The index pairs for which `get_codepoint_substring` is right on a string of `n` code points: a non-negative
start, or both negative with `i < j`, or a start at or before the first code point, or a non-negative end at or
behind the last one. -/
def GoodCodepointSlice (n : Nat) (i j : Int) : Prop :=
  0 ≤ i ∨ (n : Int) + i ≤ 0 ∨ (i < j ∧ j < 0) ∨ (n : Int) ≤ j

theorem clamp_zero {n : Nat} {i : Int} (h : i < 0) (h' : (n : Int) + i ≤ 0) : clampIndex n i = 0 := by
  unfold clampIndex; rw [if_neg (by omega)]; omega

theorem slice_zero_of {gs : List Str} {i j : Int} (h : i < 0) (h' : (gs.length : Int) + i ≤ 0) (hij : j ≤ i) :
    (slice gs i j).flatten = [] := by
  unfold slice
  rw [clamp_zero (i := j) (by omega) (by omega)]; simp

/-- C29, what holds: on valid strings `get_codepoint_substring(s, i, j)` is the concatenation of the code points in
the slice, for the index pairs described by `GoodCodepointSlice`. (Missing: the other index pairs, for which the
result is always wrong, see `C29_false`, and `PTRDIFF_MIN`, see `C27_false`.) -/
theorem C29_get_codepoint_substring_partial (s : Str) (gs : List Str) (h : CodePoints s gs) (hl : s.length < npos)
    (i j : Int) (hi : PTRDIFF_MIN < i) (hj : PTRDIFF_MIN < j) (hg : GoodCodepointSlice gs.length i j) :
    getCodepointSubstring s i j = .ok (slice gs i j).flatten := by
  unfold getCodepointSubstring
  rw [codepointRange h hl i j hi hj]
  by_cases h0 : 0 ≤ i
  · rw [if_pos h0]; exact substr_sliceLen h.1 i j
  · rw [if_neg h0]
    by_cases h1 : 0 ≤ j
    · rw [if_pos h1]
      simp only [bind, Except.bind]
      rw [← substr_sliceLen h.1 i j, sliceLen_off]
      rcases hg with hg | hg | hg | hg
      · omega
      · rw [clamp_zero (by omega) hg, off_zero]; congr 1 <;> omega
      · omega
      · have hJ : clampIndex gs.length j = gs.length := by unfold clampIndex; rw [if_pos h1]; omega
        have := off_le gs (clampIndex gs.length i)
        rw [hJ, off_of_ge gs _ (Nat.le_refl _)]
        unfold substr
        rw [h.1] at this ⊢
        rw [if_neg (by omega), if_neg (by omega), List.take_of_length_le (by simp; omega),
          List.take_of_length_le (by simp)]
    · rw [if_neg h1]
      by_cases h2 : i < j
      · rw [if_pos h2]; exact substr_sliceLen h.1 i j
      · rw [if_neg h2]
        rcases hg with hg | hg | hg | hg
        · omega
        · simp only [bind, Except.bind]
          rw [clamp_zero (by omega) hg, off_zero, slice_zero_of (by omega) hg (by omega)]
          simp [substr]
        · omega
        · omega

theorem codepoints_pos {s gs} (h : CodePoints s gs) : ∀ g ∈ gs, 0 < g.length := h.steps.pos

theorem take_flatten_length (gs : List Str) (k : Nat) : (gs.take k).flatten.length = off gs k := rfl

/-- C29 is false for exactly the other index pairs: with a negative start behind the beginning of the string, an
empty interval (`j ≤ i`) gives the text before `i` instead of the empty string, and a non-negative end before the
end of the string gives too much text. -/
theorem C29_false (s : Str) (gs : List Str) (h : CodePoints s gs) (hl : s.length < npos)
    (i j : Int) (hi : PTRDIFF_MIN < i) (hj : PTRDIFF_MIN < j) (hg : ¬ GoodCodepointSlice gs.length i j) :
    ∃ r, getCodepointSubstring s i j = .ok r ∧ (slice gs i j).flatten.length < r.length := by
  unfold GoodCodepointSlice at hg
  have hi0 : i < 0 := by omega
  have hI : clampIndex gs.length i = (gs.length + i).toNat := by unfold clampIndex; rw [if_neg (by omega)]
  have hIpos : 0 < clampIndex gs.length i := by omega
  have hIlt : clampIndex gs.length i < gs.length := by omega
  have o1 := off_lt (codepoints_pos h) hIpos (Nat.le_of_lt hIlt)
  have o2 := off_lt (codepoints_pos h) hIlt (Nat.le_refl _)
  rw [off_of_ge gs gs.length (Nat.le_refl _), h.1] at o2
  rw [off_zero] at o1
  unfold getCodepointSubstring
  rw [codepointRange h hl i j hi hj, if_neg (by omega)]
  by_cases h1 : 0 ≤ j
  · rw [if_pos h1]
    simp only [bind, Except.bind]
    unfold substr
    rw [if_neg (by omega)]
    refine ⟨_, rfl, ?_⟩
    have := sliceLen_off gs i j
    unfold sliceLen at this
    rw [this]
    simp only [List.length_take, List.length_drop]
    have hJ : clampIndex gs.length j < gs.length := by unfold clampIndex; rw [if_pos h1]; omega
    have o3 := off_lt (codepoints_pos h) hJ (Nat.le_refl _)
    rw [off_of_ge gs gs.length (Nat.le_refl _), h.1] at o3
    omega
  · rw [if_neg h1, if_neg (by omega)]
    simp only [bind, Except.bind]
    rw [substr_take h.1]
    refine ⟨_, rfl, ?_⟩
    rw [take_flatten_length]
    have := sliceLen_off gs i j
    unfold sliceLen at this
    rw [this]
    have := off_mono (gs := gs) (i := clampIndex gs.length j) (j := clampIndex gs.length i)
      (by unfold clampIndex; rw [if_neg (by omega), if_neg (by omega)]; omega)
    omega

example : getCodepointSubstring [0x41, 0x42, 0x43, 0x44] (-2) (-2) = .ok [0x41, 0x42] ∧
    getCodepointSubstring [0x41, 0x42, 0x43, 0x44] 1 (-1) = .ok [0x42, 0x43] ∧
    getCodepointSubstring [0x41, 0x42, 0x43, 0x44] (-3) 2 = .ok [0x42, 0x43] := by decide +kernel

/-! ### C30 -/

/-- The index pairs for which `get_char_substring` is right on a string of `n` characters. -/
def GoodCharSlice (n : Nat) (i j : Int) : Prop :=
  0 ≤ j ∨ (i < 0 ∧ (n : Int) + i ≤ 0) ∨ (i < 0 ∧ i < j) ∨ i = 0 ∨ (n : Int) ≤ i

/-- C30, what holds: on valid strings `get_char_substring(s, i, j)` is the concatenation of the characters in the
slice, for the index pairs described by `GoodCharSlice`. (Missing: the other index pairs, for which the result is
always wrong, see `C30_false`.) -/
theorem C30_get_char_substring_partial (s : Str) (gs : List Str) (h : Characters s gs) (hl : s.length < 2 ^ 63)
    (i j : Int) (hg : GoodCharSlice gs.length i j) :
    getCharSubstring s i j = .ok (slice gs i j).flatten := by
  have hl' : s.length < npos := by unfold npos; omega
  unfold getCharSubstring
  rw [charRange h hl' i j]
  by_cases h0 : 0 ≤ i
  · rw [if_pos h0]
    by_cases h1 : 0 ≤ j
    · rw [if_pos h1]; exact substr_sliceLen h.1 i j
    · rw [if_neg h1]
      simp only [bind, Except.bind]
      rw [← substr_sliceLen h.1 i j]
      have hs : sliceLen gs i j ≤ s.length := by
        rw [sliceLen_off]; have := off_le gs (clampIndex gs.length j); rw [h.1] at this; omega
      rcases hg with hg | hg | hg | hg | hg
      · omega
      · omega
      · omega
      · subst hg
        have : clampIndex gs.length 0 = 0 := by unfold clampIndex; simp
        rw [this, off_zero, sizeSub_eq (by omega) (by unfold SIZE_MOD; omega), Nat.sub_zero]
      · have : clampIndex gs.length i = gs.length := by unfold clampIndex; rw [if_pos h0]; omega
        rw [this, off_of_ge gs _ (Nat.le_refl _), h.1]
        unfold substr
        rw [if_neg (by omega), if_neg (by omega)]
        simp
  · rw [if_neg h0]
    by_cases h1 : 0 ≤ j
    · rw [if_pos h1]; exact substr_sliceLen h.1 i j
    · rw [if_neg h1]
      by_cases h2 : i < j
      · rw [if_pos h2]; exact substr_sliceLen h.1 i j
      · rw [if_neg h2]
        simp only [bind, Except.bind]
        have hg' : (gs.length : Int) + i ≤ 0 := by
          rcases hg with hg | hg | hg | hg | hg <;> omega
        rw [clamp_zero (by omega) hg', off_zero, slice_zero_of (by omega) hg' (by omega)]
        simp [substr]

theorem sizeSub_wrap {a b n : Nat} (h : a < b) (hb : b < 2 ^ 63) (hn : n < 2 ^ 63) : n ≤ sizeSub a b := by
  have e : sizeSub a b = a + SIZE_MOD - b := by
    unfold sizeSub
    have : 0 < SIZE_MOD := by decide
    exact Nat.mod_eq_of_lt (by omega)
  rw [e]
  clear e
  generalize hM : SIZE_MOD = M
  have : 2 ^ 63 + 2 ^ 63 ≤ M := by rw [← hM]; decide
  omega

theorem characters_pos {s gs} (h : Characters s gs) : ∀ g ∈ gs, 0 < g.length := fun _ hg => chars_length_pos h hg

/-- C30 is false for exactly the other index pairs: a positive start before the end of the string with a negative
end, and negative `j ≤ i` with text before `i`. -/
theorem C30_false (s : Str) (gs : List Str) (h : Characters s gs) (hl : s.length < 2 ^ 63)
    (i j : Int) (hg : ¬ GoodCharSlice gs.length i j) :
    ∃ r, getCharSubstring s i j = .ok r ∧ (slice gs i j).flatten.length ≠ r.length := by
  have hl' : s.length < npos := by unfold npos; omega
  have sl := sliceLen_off gs i j
  have hs : sliceLen gs i j ≤ s.length := by
    rw [sl]; have := off_le gs (clampIndex gs.length j); rw [h.1] at this; omega
  unfold GoodCharSlice at hg
  unfold getCharSubstring
  rw [charRange h hl' i j]
  by_cases h0 : 0 ≤ i
  · have hI : clampIndex gs.length i = i.toNat := by unfold clampIndex; rw [if_pos h0]; omega
    have hIpos : 0 < clampIndex gs.length i := by omega
    have hIlt : clampIndex gs.length i < gs.length := by omega
    have hJlt : clampIndex gs.length j < gs.length := by unfold clampIndex; rw [if_neg (by omega)]; omega
    have o1 := off_lt (characters_pos h) hIpos (Nat.le_of_lt hIlt)
    have o2 := off_lt (characters_pos h) hIlt (Nat.le_refl _)
    have o3 := off_lt (characters_pos h) hJlt (Nat.le_refl _)
    rw [off_of_ge gs gs.length (Nat.le_refl _), h.1] at o2 o3
    rw [off_zero] at o1
    rw [if_pos h0, if_neg (by omega)]
    simp only [bind, Except.bind]
    unfold substr
    rw [if_neg (by omega)]
    refine ⟨_, rfl, ?_⟩
    have : (slice gs i j).flatten.length = sliceLen gs i j := rfl
    rw [this]
    simp only [List.length_take, List.length_drop]
    by_cases hc : off gs (clampIndex gs.length i) ≤ sliceLen gs i j
    · rw [sizeSub_eq hc (by unfold SIZE_MOD; omega)]; omega
    · have := sizeSub_wrap (n := s.length) (Nat.lt_of_not_le hc) (by omega) hl
      rw [Nat.min_eq_right (by omega), sl]
      clear hg hs hc this sl
      omega
  · have hI : clampIndex gs.length i = (gs.length + i).toNat := by unfold clampIndex; rw [if_neg (by omega)]
    have hIpos : 0 < clampIndex gs.length i := by omega
    have hIlt : clampIndex gs.length i < gs.length := by omega
    have o1 := off_lt (characters_pos h) hIpos (Nat.le_of_lt hIlt)
    rw [off_zero] at o1
    rw [if_neg h0, if_neg (by omega), if_neg (by omega)]
    simp only [bind, Except.bind]
    rw [substr_take h.1]
    refine ⟨_, rfl, ?_⟩
    rw [take_flatten_length]
    have : (slice gs i j).flatten.length = sliceLen gs i j := rfl
    rw [this, sl]
    have := off_mono (gs := gs) (i := clampIndex gs.length j) (j := clampIndex gs.length i)
      (by unfold clampIndex; rw [if_neg (by omega), if_neg (by omega)]; omega)
    omega

example : getCharSubstring [0x41, 0x42, 0x43, 0x44] 1 (-1) = .ok [0x42] ∧
    getCharSubstring [0x41, 0x42, 0x43, 0x44] (-3) 3 = .ok [0x42, 0x43] ∧
    getCharSubstring [0x41, 0x42, 0x43, 0x44] (-3) (-3) = .ok [0x41] := by decide +kernel

/-! ### C31 -/

/-- The string with the pieces `[i, j)` replaced by `repl` (inserted before piece `i` if the interval is
empty). -/
def Spec.splice (gs : List Str) (i j : Int) (repl : Str) : Str :=
  (gs.take (clampIndex gs.length i)).flatten ++ repl ++
    (gs.drop (max (clampIndex gs.length i) (clampIndex gs.length j))).flatten

theorem bind_ok' {α β : Type} (x : α) (f : α → Res β) : ((Except.ok x : Res α) >>= f) = f x := rfl

theorem size_of_npos {n : Nat} (h : n < npos) : n < SIZE_MOD := by unfold npos at h; unfold SIZE_MOD; omega

theorem replaceSubrange_off {gs : List Str} {s : Str} (e : gs.flatten = s) (hl : s.length < npos) (a b : Nat)
    (repl : Str) {r : Subrange} (ha : r.offset = off gs a) (hb : r.stop = off gs b) :
    replaceSubrange s r repl = .ok ((gs.take a).flatten ++ repl ++ (gs.drop b).flatten) := by
  unfold replaceSubrange Subrange.start
  rw [ha, hb, substr_take e, substr_off e hl]; rfl

theorem stop_slice {gs : List Str} {s : Str} (e : gs.flatten = s) (hl : s.length < npos) (i j : Int) :
    Subrange.stop ⟨off gs (clampIndex gs.length i), sliceLen gs i j⟩ =
      off gs (max (clampIndex gs.length i) (clampIndex gs.length j)) := by
  rw [sliceLen_off]
  have h1 := off_le gs (clampIndex gs.length i)
  have h2 := off_le gs (clampIndex gs.length j)
  rw [e] at h1 h2
  rw [subrange_stop _ _ (by unfold npos at hl; unfold SIZE_MOD; omega)]
  by_cases h : clampIndex gs.length i ≤ clampIndex gs.length j
  · have := off_mono (gs := gs) h
    rw [Nat.max_eq_right h]; omega
  · have := off_mono (gs := gs) (i := clampIndex gs.length j) (j := clampIndex gs.length i) (by omega)
    rw [Nat.max_eq_left (by omega)]; omega

/-- The index pairs for which `replace_codepoints` is right on a string of `n` code points. -/
def GoodCodepointReplace (n : Nat) (i j : Int) : Prop := 0 ≤ i ∨ (n : Int) + i ≤ 0 ∨ (i < j ∧ j < 0)

/-- C31, what holds for `replace_codepoints`. (Missing: the other index pairs, see `C31_false_codepoints`.) -/
theorem C31_replace_codepoints_partial (s : Str) (gs : List Str) (h : CodePoints s gs) (hl : s.length < npos)
    (i j : Int) (hi : PTRDIFF_MIN < i) (hj : PTRDIFF_MIN < j) (hg : GoodCodepointReplace gs.length i j) (repl : Str) :
    replaceCodepoints s i j repl = .ok (splice gs i j repl) := by
  unfold replaceCodepoints
  rw [codepointRange h hl i j hi hj]
  by_cases h0 : 0 ≤ i
  · rw [if_pos h0]
    exact replaceSubrange_off h.1 hl _ _ _ rfl (stop_slice h.1 hl i j)
  · rw [if_neg h0]
    by_cases h1 : 0 ≤ j
    · rw [if_pos h1]
      have hz : clampIndex gs.length i = 0 := clamp_zero (by omega) (by rcases hg with hg | hg | hg <;> omega)
      have := off_le gs (clampIndex gs.length j)
      rw [h.1] at this
      refine replaceSubrange_off h.1 hl _ _ _ rfl ?_
      rw [hz, off_zero, Nat.zero_max, Nat.zero_max, subrange_stop _ _ (by unfold npos at hl; unfold SIZE_MOD; omega),
        Nat.zero_add]
    · rw [if_neg h1]
      by_cases h2 : i < j
      · rw [if_pos h2]
        exact replaceSubrange_off h.1 hl _ _ _ rfl (stop_slice h.1 hl i j)
      · rw [if_neg h2]
        have hz : clampIndex gs.length i = 0 := clamp_zero (by omega) (by rcases hg with hg | hg | hg <;> omega)
        have hzj : clampIndex gs.length j = 0 := clamp_zero (by omega) (by rcases hg with hg | hg | hg <;> omega)
        refine replaceSubrange_off h.1 hl _ _ _ ?_ ?_
        · simp [hz]
        · rw [hz, hzj, off_zero, Nat.max_self, off_zero]; rfl

theorem splice_length (gs : List Str) (i j : Int) (repl : Str) :
    (splice gs i j repl).length + sliceLen gs i j = gs.flatten.length + repl.length := by
  unfold splice
  rw [sliceLen_off]
  simp only [List.length_append]
  rw [take_flatten_length]
  have h1 := flatten_drop_length gs (max (clampIndex gs.length i) (clampIndex gs.length j))
  have h3 : (gs.drop (max (clampIndex gs.length i) (clampIndex gs.length j))).flatten.length ≤ gs.flatten.length := by
    rw [flatten_split gs (max (clampIndex gs.length i) (clampIndex gs.length j))]; simp
  rw [take_flatten_length] at h1
  by_cases h : clampIndex gs.length i ≤ clampIndex gs.length j
  · have := off_mono (gs := gs) h
    have := off_le gs (clampIndex gs.length j)
    rw [Nat.max_eq_right h] at *; omega
  · have := off_mono (gs := gs) (i := clampIndex gs.length j) (j := clampIndex gs.length i) (by omega)
    have := off_le gs (clampIndex gs.length i)
    rw [Nat.max_eq_left (by omega)] at *; omega

/-- C31 is false for exactly the other index pairs: `replace_codepoints` throws `std::out_of_range` or returns a
string of the wrong length. -/
theorem C31_false_codepoints (s : Str) (gs : List Str) (h : CodePoints s gs) (hl : s.length < 2 ^ 63)
    (i j : Int) (hi : PTRDIFF_MIN < i) (hj : PTRDIFF_MIN < j) (hg : ¬ GoodCodepointReplace gs.length i j) (repl : Str) :
    replaceCodepoints s i j repl = .error .outOfRange ∨
    ∃ r, replaceCodepoints s i j repl = .ok r ∧ r.length ≠ (splice gs i j repl).length := by
  have hl' : s.length < npos := by unfold npos; omega
  unfold GoodCodepointReplace at hg
  have hi0 : i < 0 := by omega
  have hI : clampIndex gs.length i = (gs.length + i).toNat := by unfold clampIndex; rw [if_neg (by omega)]
  have hIpos : 0 < clampIndex gs.length i := by omega
  have hIlt : clampIndex gs.length i < gs.length := by omega
  have o1 := off_lt (codepoints_pos h) hIpos (Nat.le_of_lt hIlt)
  have o2 := off_lt (codepoints_pos h) hIlt (Nat.le_refl _)
  have o4 := off_le gs (clampIndex gs.length j)
  rw [off_of_ge gs gs.length (Nat.le_refl _), h.1] at o2
  rw [h.1] at o4
  rw [off_zero] at o1
  have sp := splice_length gs i j repl
  have sl := sliceLen_off gs i j
  rw [h.1] at sp
  unfold replaceCodepoints
  rw [codepointRange h hl' i j hi hj, if_neg (by omega)]
  by_cases h1 : 0 ≤ j
  · rw [if_pos h1]
    simp only [bind, Except.bind]
    unfold replaceSubrange
    rw [subrange_stop _ _ (by unfold SIZE_MOD; omega)]
    unfold Subrange.start substr
    simp only
    rw [if_neg (by omega)]
    simp only [bind, Except.bind]
    by_cases h2 : off gs (clampIndex gs.length i) + max (off gs (clampIndex gs.length i)) (off gs (clampIndex gs.length j)) > s.length
    · left; rw [if_pos h2]
    · right
      rw [if_neg h2]
      refine ⟨_, rfl, ?_⟩
      simp only [List.length_append, List.length_take, List.length_drop, List.drop_zero]
      unfold npos
      omega
  · right
    rw [if_neg h1, if_neg (by omega)]
    simp only [bind, Except.bind]
    have := replaceSubrange_off (gs := gs) (s := s) (r := ⟨0, off gs (clampIndex gs.length i)⟩) h.1 hl' 0
      (clampIndex gs.length i) repl (by simp)
      (by rw [subrange_stop _ _ (by unfold SIZE_MOD; omega)]; omega)
    refine ⟨_, this, ?_⟩
    have h3 := flatten_drop_length gs (clampIndex gs.length i)
    rw [take_flatten_length, h.1] at h3
    have := off_mono (gs := gs) (i := clampIndex gs.length j) (j := clampIndex gs.length i)
      (by unfold clampIndex; rw [if_neg (by omega), if_neg (by omega)]; omega)
    have hz : sliceLen gs i j = 0 := by rw [sl]; clear sl sp hg h3; omega
    simp only [List.take_zero, List.flatten_nil, List.nil_append, List.length_append]
    rw [hz] at sp
    clear sl hz hg hI
    omega

/-- The index pairs for which `replace_chars` is right on a string of `n` characters. -/
def GoodCharReplace (n : Nat) (i j : Int) : Prop :=
  0 ≤ j ∨ (i < 0 ∧ (n : Int) + i ≤ 0) ∨ (i < 0 ∧ i < j) ∨ i = 0 ∨ n = 0

/-- C31, what holds for `replace_chars`. (Missing: the other index pairs, see `C31_false_chars`.) -/
theorem C31_replace_chars_partial (s : Str) (gs : List Str) (h : Characters s gs) (hl : s.length < npos)
    (i j : Int) (hg : GoodCharReplace gs.length i j) (repl : Str) :
    replaceChars s i j repl = .ok (splice gs i j repl) := by
  unfold replaceChars
  rw [charRange h hl i j]
  by_cases h0 : 0 ≤ i
  · rw [if_pos h0]
    by_cases h1 : 0 ≤ j
    · rw [if_pos h1]
      exact replaceSubrange_off h.1 hl _ _ _ rfl (stop_slice h.1 hl i j)
    · rw [if_neg h1]
      have hz : clampIndex gs.length i = 0 := by
        unfold clampIndex; rw [if_pos h0]
        rcases hg with hg | hg | hg | hg | hg <;> omega
      have hs : sliceLen gs i j = off gs (clampIndex gs.length j) := by
        rw [sliceLen_off, hz, off_zero, Nat.sub_zero]
      have o := off_le gs (clampIndex gs.length j)
      rw [h.1] at o
      rw [bind_ok']
      unfold splice
      refine replaceSubrange_off h.1 hl (clampIndex gs.length i) (max (clampIndex gs.length i) (clampIndex gs.length j))
        repl rfl ?_
      have hM := size_of_npos hl
      rw [hs, hz, off_zero, Nat.zero_max, sizeSub_eq (Nat.zero_le _) (Nat.lt_of_le_of_lt o hM),
        subrange_stop _ _ (by rw [Nat.zero_add, Nat.sub_zero]; exact Nat.lt_of_le_of_lt o hM), Nat.sub_zero, Nat.zero_add]
  · rw [if_neg h0]
    by_cases h1 : 0 ≤ j
    · rw [if_pos h1]
      exact replaceSubrange_off h.1 hl _ _ _ rfl (stop_slice h.1 hl i j)
    · rw [if_neg h1]
      by_cases h2 : i < j
      · rw [if_pos h2]
        exact replaceSubrange_off h.1 hl _ _ _ rfl (stop_slice h.1 hl i j)
      · rw [if_neg h2]
        have hz : clampIndex gs.length i = 0 := clamp_zero (by omega) (by rcases hg with hg | hg | hg | hg | hg <;> omega)
        have hzj : clampIndex gs.length j = 0 := clamp_zero (by omega) (by rcases hg with hg | hg | hg | hg | hg <;> omega)
        refine replaceSubrange_off h.1 hl _ _ _ ?_ ?_
        · simp [hz]
        · rw [hz, hzj, off_zero, Nat.max_self, off_zero]; rfl

/-- C31 is false for exactly the other index pairs: `replace_chars` returns a string of the wrong length. -/
theorem C31_false_chars (s : Str) (gs : List Str) (h : Characters s gs) (hl : s.length < 2 ^ 63)
    (i j : Int) (hg : ¬ GoodCharReplace gs.length i j) (repl : Str) :
    ∃ r, replaceChars s i j repl = .ok r ∧ r.length ≠ (splice gs i j repl).length := by
  have hl' : s.length < npos := by unfold npos; omega
  unfold GoodCharReplace at hg
  have o4 := off_le gs (clampIndex gs.length j)
  have o5 := off_le gs (clampIndex gs.length i)
  rw [h.1] at o4 o5
  have sp := splice_length gs i j repl
  have sl := sliceLen_off gs i j
  rw [h.1] at sp
  unfold replaceChars
  rw [charRange h hl' i j]
  by_cases h0 : 0 ≤ i
  · have hIpos : 0 < clampIndex gs.length i := by unfold clampIndex; rw [if_pos h0]; omega
    have o1 := off_lt (characters_pos h) hIpos (clampIndex_le _ _)
    rw [off_zero] at o1
    rw [if_pos h0, if_neg (by omega)]
    rw [bind_ok']
    have hstop : Subrange.stop ⟨off gs (clampIndex gs.length i), sizeSub (sliceLen gs i j) (off gs (clampIndex gs.length i))⟩
        = sliceLen gs i j := by
      unfold Subrange.stop sizeAdd sizeSub
      simp only
      rw [Nat.add_mod_mod, show off gs (clampIndex gs.length i) + (sliceLen gs i j + SIZE_MOD - off gs (clampIndex gs.length i)) =
        sliceLen gs i j + SIZE_MOD by unfold SIZE_MOD; omega, Nat.add_mod_right, Nat.mod_eq_of_lt (by unfold SIZE_MOD; omega)]
    unfold replaceSubrange
    rw [hstop]
    unfold Subrange.start substr
    simp only
    rw [if_neg (by omega), if_neg (by omega)]
    refine ⟨_, rfl, ?_⟩
    simp only [List.length_append, List.length_take, List.length_drop, List.drop_zero]
    unfold npos
    omega
  · have hI : clampIndex gs.length i = (gs.length + i).toNat := by unfold clampIndex; rw [if_neg (by omega)]
    have hIpos : 0 < clampIndex gs.length i := by omega
    have o1 := off_lt (characters_pos h) hIpos (clampIndex_le _ _)
    rw [off_zero] at o1
    rw [if_neg h0, if_neg (by omega), if_neg (by omega)]
    simp only [bind, Except.bind]
    have := replaceSubrange_off (gs := gs) (s := s) (r := ⟨0, off gs (clampIndex gs.length i)⟩) h.1 hl' 0
      (clampIndex gs.length i) repl (by simp)
      (by rw [subrange_stop _ _ (by unfold SIZE_MOD; omega)]; omega)
    refine ⟨_, this, ?_⟩
    have h3 := flatten_drop_length gs (clampIndex gs.length i)
    rw [take_flatten_length, h.1] at h3
    have := off_mono (gs := gs) (i := clampIndex gs.length j) (j := clampIndex gs.length i)
      (by unfold clampIndex; rw [if_neg (by omega), if_neg (by omega)]; omega)
    have hz : sliceLen gs i j = 0 := by rw [sl]; clear sl sp hg h3; omega
    simp only [List.take_zero, List.flatten_nil, List.nil_append, List.length_append]
    rw [hz] at sp
    clear sl hz hg hI
    omega

example : replaceChars [0x41, 0x42, 0x43, 0x44] 1 2 [0x78] = .ok [0x41, 0x78, 0x43, 0x44] ∧
    replaceChars [0x41, 0x42, 0x43, 0x44, 0x45, 0x46, 0x47] 4 (-1) [0x78] =
      .ok [0x41, 0x42, 0x43, 0x44, 0x78, 0x43, 0x44, 0x45, 0x46, 0x47] ∧
    replaceCodepoints [0x41, 0x42] (-1) 2 [0x78] = .error .outOfRange := by decide +kernel

/-! ### C32 insert_* -/

theorem insertAtOffset_boundary {gs : List Str} {s : Str} (e : gs.flatten = s) (hl : s.length < npos) (k : Int)
    (sub : Str) (h0 : sub ≠ []) :
    insertAtOffset s ((boundary gs k).getD npos) sub =
      match boundary gs k with
      | some o => .ok (s.take o ++ sub ++ s.drop o)
      | none => .error .ystring := by
  unfold insertAtOffset
  rw [if_neg h0]
  have key : ∀ i, off gs i ≠ npos := by intro i; have := off_le gs i; rw [e] at this; omega
  have main : ∀ i, (if off gs i = npos then .error .ystring
      else do
        let a ← substr s 0 (off gs i)
        let b ← substr s (off gs i)
        .ok (a ++ sub ++ b)) = (.ok (s.take (off gs i) ++ sub ++ s.drop (off gs i)) : Res Str) := by
    intro i
    rw [if_neg (key i), substr_take e, substr_off e hl]
    subst e
    rw [take_off, drop_off]; rfl
  by_cases h1 : (gs.length : Int) < k ∨ k < -(gs.length : Int)
  · rw [boundary_none h1]; simp
  · by_cases h2 : 0 ≤ k
    · rw [boundary_nonneg h2 (by omega)]; exact main _
    · rw [boundary_neg (by omega) (by omega)]; exact main _

theorem insertCodepointAtOffset_boundary {gs : List Str} {s : Str} (e : gs.flatten = s) (hl : s.length < npos) (k : Int)
    (c : Char32) :
    insertCodepointAtOffset s ((boundary gs k).getD npos) c =
      match boundary gs k with
      | some o => if c.toNat ≤ 0x10FFFF then .ok (s.take o ++ rfcEncode c.toNat ++ s.drop o) else .error .ystring
      | none => .error .ystring := by
  unfold insertCodepointAtOffset
  have key : ∀ i, off gs i ≠ npos := by intro i; have := off_le gs i; rw [e] at this; omega
  have main : ∀ i, (if off gs i = npos then .error .ystring
      else do
        let result ← substr s 0 (off gs i)
        let result ← append result c
        let b ← substr s (off gs i)
        .ok (result ++ b)) = (if c.toNat ≤ 0x10FFFF then .ok (s.take (off gs i) ++ rfcEncode c.toNat ++ s.drop (off gs i))
          else .error .ystring : Res Str) := by
    intro i
    rw [if_neg (key i), substr_take e]
    simp only [bind, Except.bind]
    by_cases hc : c.toNat ≤ 0x10FFFF
    · rw [if_pos hc, (C15_append _ c).1 hc, substr_off e hl]
      subst e
      rw [take_off, drop_off]
    · rw [if_neg hc, (C15_append _ c).2 (by omega)]
  by_cases h1 : (gs.length : Int) < k ∨ k < -(gs.length : Int)
  · rw [boundary_none h1]; simp
  · by_cases h2 : 0 ≤ k
    · rw [boundary_nonneg h2 (by omega)]; exact main _
    · rw [boundary_neg (by omega) (by omega)]; exact main _

/-- C32, characters: `insert_char(s)` inserts before character `k` (from the end if negative) and throws exactly if
there is no such position or the code point is above U+10FFFF. (Missing for `insert_chars`: with an empty argument it
never throws, see `C32_false`.) -/
theorem C32_insert_chars_partial (s : Str) (gs : List Str) (h : Characters s gs) (hl : s.length < npos) (k : Int) :
    (∀ c : Char32, insertChar s k c =
      match boundary gs k with
      | some o => if c.toNat ≤ 0x10FFFF then .ok (s.take o ++ rfcEncode c.toNat ++ s.drop o) else .error .ystring
      | none => .error .ystring) ∧
    (∀ sub, sub ≠ [] → insertChars s k sub =
      match boundary gs k with
      | some o => .ok (s.take o ++ sub ++ s.drop o)
      | none => .error .ystring) ∧
    insertChars s k [] = .ok s := by
  have hm : s.length < SIZE_MOD := by unfold npos at hl; unfold SIZE_MOD; omega
  refine ⟨fun c => ?_, fun sub h0 => ?_, ?_⟩
  · unfold insertChar
    rw [C25_get_char_pos s gs h hm]
    exact insertCodepointAtOffset_boundary h.1 hl k c
  · unfold insertChars
    rw [C25_get_char_pos s gs h hm]
    exact insertAtOffset_boundary h.1 hl k sub h0
  · unfold insertChars
    rw [C25_get_char_pos s gs h hm]
    simp [bind, Except.bind, insertAtOffset]

/-- C32, code points. -/
theorem C32_insert_codepoints_partial (s : Str) (gs : List Str) (h : CodePoints s gs) (hl : s.length < npos) (k : Int)
    (hk : k ≠ PTRDIFF_MIN) :
    (∀ c : Char32, insertCodepoint s k c =
      match boundary gs k with
      | some o => if c.toNat ≤ 0x10FFFF then .ok (s.take o ++ rfcEncode c.toNat ++ s.drop o) else .error .ystring
      | none => .error .ystring) ∧
    (∀ sub, sub ≠ [] → insertCodepoints s k sub =
      match boundary gs k with
      | some o => .ok (s.take o ++ sub ++ s.drop o)
      | none => .error .ystring) ∧
    insertCodepoints s k [] = .ok s := by
  refine ⟨fun c => ?_, fun sub h0 => ?_, ?_⟩
  · unfold insertCodepoint
    rw [C27_get_codepoint_pos_partial s gs h k hk]
    exact insertCodepointAtOffset_boundary h.1 hl k c
  · unfold insertCodepoints
    rw [C27_get_codepoint_pos_partial s gs h k hk]
    exact insertAtOffset_boundary h.1 hl k sub h0
  · unfold insertCodepoints
    rw [C27_get_codepoint_pos_partial s gs h k hk]
    simp [bind, Except.bind, insertAtOffset]

/-- C32 is false: inserting the empty string at a position that does not exist does not throw, and the position
`PTRDIFF_MIN` is undefined behaviour for code points. -/
theorem C32_false : insertChars [0x41] 5 [] = .ok [0x41] ∧ insertCodepoints [0x41] 5 [] = .ok [0x41] ∧
    insertCodepoints [0x41] PTRDIFF_MIN [0x42] = .error .ub ∧
    insertChars [0x41] 5 [0x42] = .error .ystring := by decide +kernel

example : insertChars [0x41, 0x65, 0xCC, 0x81, 0x42] (-1) [0x43] = .ok [0x41, 0x65, 0xCC, 0x81, 0x43, 0x42] := by
  decide +kernel

/-! ### C33 reverse -/

theorem reverseLoop_chars {s : Str} (hl : s.length < SIZE_MOD) (gs hs : List Str) (h : Characters s (gs ++ hs))
    (fuel : Nat) (result : Str) :
    reverseLoop s (gs.length + (fuel + 1)) gs.flatten.length result = .ok (result ++ gs.reverse.flatten) := by
  induction hn : gs.length generalizing gs hs result with
  | zero =>
    have := List.length_eq_zero_iff.mp hn
    subst this
    simp [reverseLoop]
  | succ n ih =>
    have h0 : gs ≠ [] := by rintro rfl; simp at hn
    obtain ⟨ks, g, rfl⟩ : ∃ ks g, gs = ks ++ [g] := ⟨gs.dropLast, gs.getLast h0, (List.dropLast_concat_getLast h0).symm⟩
    have h' : Characters s (ks ++ g :: hs) := by simpa using h
    have hg := chars_length_pos h' (g := g) (by simp)
    have he : s = ks.flatten ++ (g ++ hs.flatten) := by rw [← h'.1]; simp
    have hlen := congrArg List.length he
    simp only [List.length_append] at hlen
    have hb := charsBwd h' hl
    have hfl : (ks ++ [g]).flatten.length = ks.flatten.length + g.length := by
      rw [List.flatten_append, List.length_append, List.flatten_cons, List.flatten_nil, List.append_nil]
    rw [show n + 1 + (fuel + 1) = (n + (fuel + 1)) + 1 by omega, reverseLoop, hfl, if_pos (by omega), hb]
    simp only [bind, Except.bind]
    rw [subrange_stop _ _ (by omega)]
    unfold Subrange.start
    simp only
    rw [show (s.drop ks.flatten.length).take (ks.flatten.length + g.length - ks.flatten.length) = g by
      rw [he, List.drop_left, show ks.flatten.length + g.length - ks.flatten.length = g.length by omega, List.take_left]]
    rw [ih ks (g :: hs) h' _ (by simp at hn; omega)]
    simp

/-- C33: `reverse` of a valid string consists of its characters, each intact, in reverse order. -/
theorem C33_reverse (s : Str) (gs : List Str) (h : Characters s gs) (hl : s.length < SIZE_MOD) :
    reverse s = .ok gs.reverse.flatten ∧ gs.reverse.flatten.length = s.length := by
  have hle : gs.length ≤ s.length := by rw [← h.1]; exact flatten_length_ge (characters_pos h)
  constructor
  · have := reverseLoop_chars hl gs [] (by simpa using h) (s.length - gs.length) []
    rw [h.1] at this
    unfold reverse
    rw [show s.length + 1 = gs.length + (s.length - gs.length + 1) by omega, this]
    simp
  · rw [← h.1]
    simp [List.sum_reverse]

/-- C33: reversing twice gives the string back exactly if it does not begin with a combining mark or has at most one
character. (The English claim is without this condition: it is false.) -/
theorem C33_reverse_reverse_partial (s : Str) (gs : List Str) (h : Characters s gs) (hl : s.length < SIZE_MOD) :
    (do reverse (← reverse s)) = .ok s ↔ (¬ StartsWithMark s ∨ gs.length ≤ 1) := by
  obtain ⟨h1, h2⟩ := C33_reverse s gs h hl
  rw [h1]
  simp only [bind, Except.bind]
  have markEq : ∀ {g : Str} {t : Str}, IsCharacter g → Valid t → (StartsWithMark (g ++ t) ↔ StartsWithMark g) := by
    rintro g t ⟨c, ms, hc, hm⟩ ⟨ds, hd⟩
    have happ := hc.append hd
    constructor
    · rintro ⟨m, cs, e1, e2⟩
      have := e1.unique happ
      simp at this
      exact ⟨c, ms, hc, this.1 ▸ e2⟩
    · rintro ⟨m, cs, e1, e2⟩
      have := e1.unique hc
      simp at this
      exact ⟨c, ms ++ ds, happ, this.1 ▸ e2⟩
  have hvalid : ∀ hs : List Str, (∀ g ∈ hs, IsCharacter g) → Valid hs.flatten := by
    intro hs hh
    induction hs with
    | nil => exact ⟨[], .nil⟩
    | cons g hs ih =>
      obtain ⟨ds, hd⟩ := ih (fun g hg => hh g (by simp [hg]))
      obtain ⟨c, ms, hc, -⟩ := hh g (by simp)
      exact ⟨_, hc.append hd⟩
  cases gs with
  | nil =>
    have : s = [] := by rw [← h.1]; rfl
    subst this
    simp; decide
  | cons g gs =>
    have hg := h.2.1 g (by simp)
    have hgs : ∀ x ∈ gs, IsCharacter x := fun x hx => h.2.1 x (by simp [hx])
    have hsm : StartsWithMark s ↔ StartsWithMark g := by
      rw [← h.1, List.flatten_cons]; exact markEq hg (hvalid gs hgs)
    by_cases hone : gs = []
    · subst hone
      have e : s = g := by rw [← h.1]; simp
      simp only [List.reverse_cons, List.reverse_nil, List.nil_append, List.flatten_cons, List.flatten_nil, List.append_nil]
      rw [← e] at h1 ⊢
      simp at h1 ⊢
      exact h1
    · constructor
      · intro hr
        by_cases hm : StartsWithMark g
        · exfalso
          -- characters of the reversed string
          obtain ⟨k, ks, hks⟩ : ∃ k ks, gs = k :: ks := by
            cases gs with
            | nil => exact absurd rfl hone
            | cons k ks => exact ⟨k, ks, rfl⟩
          subst hks
          have hk := hgs k (by simp)
          have hkn : ¬ StartsWithMark k := h.2.2 k (by simp)
          -- r = ks.reverse ++ [k ++ g]
          have hc : Characters (g :: k :: ks).reverse.flatten (ks.reverse ++ [k ++ g]) := by
            refine ⟨by simp, ?_, ?_⟩
            · intro x hx
              simp at hx
              rcases hx with hx | rfl
              · exact hgs x (by simp [hx])
              · obtain ⟨c, ms, a1, a2⟩ := hk
                obtain ⟨d, ns, b1, b2⟩ := hg
                obtain ⟨m, cs, c1, c2⟩ := hm
                have := c1.unique b1
                simp at this
                refine ⟨c, ms ++ d :: ns, a1.append b1, ?_⟩
                intro x hx
                simp at hx
                rcases hx with hx | rfl | hx
                · exact a2 x hx
                · exact this.1 ▸ c2
                · exact b2 x hx
            · intro x hx
              have hx' := List.mem_of_mem_tail hx
              simp at hx'
              rcases hx' with hx' | rfl
              · exact h.2.2 x (by simp [hx'])
              · obtain ⟨ns, hns⟩ := hvalid [g] (by simpa using hg)
                rw [markEq hk ⟨ns, by simpa using hns⟩]
                exact hkn
          have hr2 := (C33_reverse _ _ hc (by rw [h2]; exact hl)).1
          rw [hr2] at hr
          injection hr with hr
          have : s = k ++ (g ++ ks.flatten) := by rw [← hr]; simp
          have hv : Valid (g ++ ks.flatten) := by
            have := hvalid (g :: ks) (by intro x hx; simp at hx; rcases hx with rfl | hx; exact hg; exact hgs x (by simp [hx]))
            simpa using this
          have h3 := hsm.mpr hm
          rw [this, markEq hk hv] at h3
          exact hkn h3
        · left; rw [hsm]; exact hm
      · intro hcond
        have hm : ¬ StartsWithMark g := by
          rcases hcond with hc | hc
          · rw [← hsm]; exact hc
          · simp only [List.length_cons] at hc; exact absurd (List.length_eq_zero_iff.mp (by omega)) hone
        have hc : Characters (g :: gs).reverse.flatten (g :: gs).reverse := by
          refine ⟨rfl, ?_, ?_⟩
          · intro x hx; exact h.2.1 x (List.mem_reverse.mp hx)
          · intro x hx
            have hx' := List.mem_of_mem_tail hx
            simp at hx'
            rcases hx' with hx' | rfl
            · exact h.2.2 x (by simp [hx'])
            · exact hm
        rw [(C33_reverse _ _ hc (by rw [h2]; exact hl)).1, List.reverse_reverse, h.1]

/-- C33 is false for a string that begins with a combining mark: U+0301 "a". -/
theorem C33_false : reverse [0xCC, 0x81, 0x61] = .ok [0x61, 0xCC, 0x81] ∧
    reverse [0x61, 0xCC, 0x81] = .ok [0x61, 0xCC, 0x81] := by decide +kernel

end Ystring
