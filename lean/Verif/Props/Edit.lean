import Verif.Props.Concat
import Verif.Props.Slice
/-
Property theorems C70 (what edits do to the list of code points), C71 (parts put together) and C72 (negative
indices).
-/
namespace Ystring
open Spec

/-- The pieces of a valid string and its code points correspond. -/
theorem pieces_of {s : Str} {cs : List Char32} (h : Decodes s cs) :
    ∃ gs, CodePoints s gs ∧ gs.length = cs.length ∧ (∀ k, Decodes (gs.take k).flatten (cs.take k)) ∧
      (∀ k, Decodes (gs.drop k).flatten (cs.drop k)) ∧ ∀ i, ∀ hi : i < gs.length, ∃ c, cs[i]? = some c ∧ IsSeq gs[i] c := by
  induction h with
  | nil => exact ⟨[], ⟨rfl, by simp⟩, rfl, by simp [Decodes.nil], by simp [Decodes.nil], by simp⟩
  | @cons u s c cs hu hs ih =>
    obtain ⟨gs, ⟨h1, h2⟩, h3, h4, h5, h6⟩ := ih
    refine ⟨u :: gs, ⟨by simp [h1], ?_⟩, by simp [h3], ?_, ?_, ?_⟩
    · intro g hg
      rcases List.mem_cons.mp hg with e | hg
      · exact ⟨c, e ▸ hu⟩
      · exact h2 g hg
    · intro k
      cases k with
      | zero => exact .nil
      | succ k => exact .cons hu (h4 k)
    · intro k
      cases k with
      | zero => simp only [List.drop_zero, List.flatten_cons, h1]; exact .cons hu hs
      | succ k => exact h5 k
    · intro i hi
      cases i with
      | zero => exact ⟨c, rfl, hu⟩
      | succ i => exact h6 i (by simpa using hi)

theorem boundary_at {gs : List Str} {k : Nat} (h : k ≤ gs.length) : boundary gs k = some (off gs k) := by
  unfold boundary
  rw [if_pos (by omega), if_pos (by omega)]
  rfl

theorem boundary_from_end {gs : List Str} {k : Nat} (h0 : 0 < k) (h : k ≤ gs.length) :
    boundary gs (-(k : Int)) = some (off gs (gs.length - k)) := by
  unfold boundary
  rw [if_neg (by omega), if_pos (by omega)]
  have : ((gs.length : Int) + -(k : Int)).toNat = gs.length - k := by omega
  rw [this]; rfl

/-- Indices that mean "before code point `i`" in a string of `n` code points. -/
def IndexOf (n : Nat) (i : Nat) (k : Int) : Prop := k = i ∨ (k < 0 ∧ k = (i : Int) - n)

theorem boundary_index {gs : List Str} {i : Nat} {k : Int} (hi : i ≤ gs.length) (h : IndexOf gs.length i k) :
    boundary gs k = some (off gs i) := by
  rcases h with rfl | ⟨h0, h⟩
  · exact boundary_at hi
  · have e : k = -((gs.length - i : Nat) : Int) := by omega
    rw [e, boundary_from_end (by omega) (by omega)]
    congr 2; omega

/-- C70: inserting. `ds` are the inserted code points; they are the code points `i`, `i + 1`, ... of the result, all
others are kept in order. -/
theorem C70_insert (s : Str) (cs : List Char32) (hs : toUtf32 s = .ok cs) (hl : s.length < npos) (i : Nat) (hi : i ≤ cs.length)
    (k : Int) (hk : IndexOf cs.length i k) (hm : k ≠ PTRDIFF_MIN) :
    (∀ c : Char32, c.toNat ≤ 0x10FFFF → ∃ r, insertCodepoint s k c = .ok r ∧
      toUtf32 r = .ok (cs.take i ++ [c] ++ cs.drop i) ∧ countCodepoints r = .ok (cs.length + 1) ∧
      ∃ sub, getCodepoint r i = .ok (sub, c)) ∧
    (∀ sub ds, toUtf32 sub = .ok ds → ∃ r, insertCodepoints s k sub = .ok r ∧
      toUtf32 r = .ok (cs.take i ++ ds ++ cs.drop i) ∧ countCodepoints r = .ok (cs.length + ds.length)) := by
  have hd := ((C09_to_utf32 _).1 _).mp hs
  obtain ⟨gs, hg, hn, ht, hdr, hc⟩ := pieces_of hd
  rw [← hn] at hi hk
  have hb := boundary_index hi hk
  obtain ⟨h1, h2, h3⟩ := C32_insert_codepoints_partial s gs hg hl k hm
  have len : ∀ ds : List Char32, (cs.take i ++ ds ++ cs.drop i).length = cs.length + ds.length := by
    intro ds; simp only [List.length_append, List.length_take, List.length_drop]; omega
  have e1 : s.take (off gs i) = (gs.take i).flatten := by rw [← hg.1]; exact take_off gs i
  have e2 : s.drop (off gs i) = (gs.drop i).flatten := by rw [← hg.1]; exact drop_off gs i
  constructor
  · intro c hcc
    have := h1 c
    rw [hb] at this
    simp only [hcc, if_true] at this
    have hr : Decodes (s.take (off gs i) ++ rfcEncode c.toNat ++ s.drop (off gs i)) (cs.take i ++ [c] ++ cs.drop i) := by
      rw [e1, e2]
      exact ((ht i).append (rfcEncode_seq c hcc).decodes).append (hdr i)
    refine ⟨_, this, ((C09_to_utf32 _).1 _).mpr hr, by rw [C12_count_valid _ _ hr, len]; rfl, ?_⟩
    obtain ⟨gs', hg', hn', _, _, hc'⟩ := pieces_of hr
    have hi' : i < gs'.length := by rw [hn', len]; simp; omega
    obtain ⟨c', hc1, hc2⟩ := hc' i hi'
    have : c' = c := by
      have hlt : (cs.take i).length = i := by rw [List.length_take]; omega
      rw [List.append_assoc, List.getElem?_append_right (by omega), hlt, Nat.sub_self] at hc1
      simpa using hc1.symm
    subst this
    exact ⟨_, (C28_get_codepoint _ _ hg' i).1 i hi' _ hc2 (.inl rfl)⟩
  · intro sub ds hsub
    have hsd := ((C09_to_utf32 _).1 _).mp hsub
    by_cases h0 : sub = []
    · subst h0
      have : ds = [] := hsd.unique .nil
      subst this
      refine ⟨s, h3, ?_, ?_⟩
      · rw [List.append_nil, List.take_append_drop]; exact hs
      · rw [C12_count_valid _ _ hd]; rfl
    · have := h2 sub h0
      rw [hb] at this
      have hr : Decodes (s.take (off gs i) ++ sub ++ s.drop (off gs i)) (cs.take i ++ ds ++ cs.drop i) := by
        rw [e1, e2]
        exact ((ht i).append hsd).append (hdr i)
      exact ⟨_, this, ((C09_to_utf32 _).1 _).mpr hr, by rw [C12_count_valid _ _ hr, len]⟩

theorem clampIndex_nonneg (n k : Nat) : clampIndex n k = min k n := by
  unfold clampIndex; rw [if_pos (by omega)]; simp

/-- C70: taking and replacing the code points from `i` up to `j`. -/
theorem C70_slice (s : Str) (cs : List Char32) (hs : toUtf32 s = .ok cs) (hl : s.length < npos) (i j : Nat) :
    (∃ r, getCodepointSubstring s i j = .ok r ∧ toUtf32 r = .ok ((cs.take j).drop i)) ∧
    (∀ sub ds, i ≤ j → toUtf32 sub = .ok ds → ∃ r, replaceCodepoints s i j sub = .ok r ∧
      toUtf32 r = .ok (cs.take i ++ ds ++ cs.drop j)) := by
  have hd := ((C09_to_utf32 _).1 _).mp hs
  obtain ⟨gs, hg, hn, ht, hdr, hc⟩ := pieces_of hd
  have hm : ∀ n : Nat, PTRDIFF_MIN < (n : Int) := by intro n; unfold PTRDIFF_MIN; omega
  constructor
  · refine ⟨_, C29_get_codepoint_substring_partial s gs hg hl i j (hm i) (hm j) (.inl (by omega)), ?_⟩
    apply ((C09_to_utf32 _).1 _).mpr
    unfold slice
    rw [clampIndex_nonneg, clampIndex_nonneg]
    have h1 := ht j
    obtain ⟨gs', hg', hn', _, hdr', _⟩ := pieces_of h1
    have hcp : CodePoints (gs.take j).flatten (gs.take j) := ⟨rfl, fun g h => hg.2 g (List.mem_of_mem_take h)⟩
    have := ((C27_codePoints _).2.1 _ _ hg' hcp)
    subst this
    have h2 := hdr' i
    have e1 : gs.take (min j gs.length) = gs.take j := by
      by_cases h : j ≤ gs.length
      · rw [Nat.min_eq_left h]
      · rw [Nat.min_eq_right (by omega), List.take_of_length_le (Nat.le_refl _), List.take_of_length_le (by omega)]
    have e2 : (gs.take j).drop (min i gs.length) = (gs.take j).drop i := by
      by_cases h : i ≤ gs.length
      · rw [Nat.min_eq_left h]
      · rw [Nat.min_eq_right (by omega), List.drop_of_length_le (by simp; omega), List.drop_of_length_le (by simp; omega)]
    rw [e1, e2]; exact h2
  · intro sub ds hij hsub
    have hsd := ((C09_to_utf32 _).1 _).mp hsub
    refine ⟨_, C31_replace_codepoints_partial s gs hg hl i j (hm i) (hm j) (.inl (by omega)) sub, ?_⟩
    apply ((C09_to_utf32 _).1 _).mpr
    unfold splice
    rw [clampIndex_nonneg, clampIndex_nonneg]
    have e1 : gs.take (min i gs.length) = gs.take i := by
      by_cases h : i ≤ gs.length
      · rw [Nat.min_eq_left h]
      · rw [Nat.min_eq_right (by omega), List.take_of_length_le (Nat.le_refl _), List.take_of_length_le (by omega)]
    have e2 : gs.drop (max (min i gs.length) (min j gs.length)) = gs.drop j := by
      by_cases h : j ≤ gs.length
      · congr 1; omega
      · rw [List.drop_of_length_le (by omega), List.drop_of_length_le (by omega)]
    rw [e1, e2]
    exact ((ht i).append hsd).append (hdr j)

/-- C70: appending. -/
theorem C70_append (s r : Str) (cs : List Char32) (c : Char32) (hs : toUtf32 s = .ok cs) (h : append s c = .ok r) :
    toUtf32 r = .ok (cs ++ [c]) ∧ popLastUtf8Codepoint r = .ok (some c, s) := by
  have hd := ((C09_to_utf32 _).1 _).mp hs
  refine ⟨((C09_to_utf32 _).1 _).mpr (C15_append_valid s cs c r hd h), ?_⟩
  rw [append_eq] at h
  split at h
  · rename_i hc
    cases h
    exact (C13_pop_back_partial s).2.1 _ c (rfcEncode_seq c hc)
  · cases h

example : toUtf32 [0x61, 0xC3, 0xA6, 0x62] = .ok [0x61, 0xE6, 0x62] ∧ IndexOf 3 1 (-2) ∧
    insertCodepoint [0x61, 0xC3, 0xA6, 0x62] (-2) 0x20AC = .ok [0x61, 0xE2, 0x82, 0xAC, 0xC3, 0xA6, 0x62] := by
  refine ⟨by decide +kernel, by unfold IndexOf; decide, by decide +kernel⟩

/-- C71: a string is put together again from the parts before and behind any index, in code points and in
characters. -/
theorem C71_parts (s : Str) (hs : Valid s) (hl : s.length < 2 ^ 63) (k : Nat) :
    (∃ a b, getCodepointSubstring s 0 k = .ok a ∧ getCodepointSubstring s k s.length = .ok b ∧ a ++ b = s) ∧
    (∃ a b, getCharSubstring s 0 k = .ok a ∧ getCharSubstring s k s.length = .ok b ∧ a ++ b = s) := by
  have hl' : s.length < npos := by unfold npos; omega
  have hm : ∀ n : Nat, PTRDIFF_MIN < (n : Int) := by intro n; unfold PTRDIFF_MIN; omega
  have lens : ∀ {gs : List Str}, (∀ g ∈ gs, g ≠ []) → gs.length ≤ gs.flatten.length := by
    intro gs
    induction gs with
    | nil => simp
    | cons g gs ih =>
      intro h
      have := ih (fun x hx => h x (List.mem_cons_of_mem _ hx))
      have h1 := List.length_pos_iff.mpr (h g List.mem_cons_self)
      simp only [List.length_cons, List.flatten_cons, List.length_append]
      omega
  have key : ∀ {gs : List Str}, gs.flatten = s → (∀ g ∈ gs, g ≠ []) →
      (slice gs 0 k).flatten ++ (slice gs k s.length).flatten = s := by
    intro gs h1 h2
    have h3 := lens h2
    rw [h1] at h3
    unfold slice
    have c0 : clampIndex gs.length 0 = 0 := clampIndex_nonneg _ 0 |>.trans (by omega)
    rw [c0, clampIndex_nonneg, clampIndex_nonneg, Nat.min_eq_right h3, List.take_of_length_le (Nat.le_refl _), List.drop_zero]
    rw [← List.flatten_append, List.take_append_drop, h1]
  constructor
  · obtain ⟨gs, hg⟩ := (C27_codePoints s).1.mp hs
    exact ⟨_, _, C29_get_codepoint_substring_partial s gs hg hl' 0 k (hm 0) (hm k) (.inl (by omega)),
      C29_get_codepoint_substring_partial s gs hg hl' k s.length (hm k) (hm _) (.inl (by omega)),
      key hg.1 (fun g h => by obtain ⟨c, hc⟩ := hg.2 g h; exact hc.ne_nil)⟩
  · obtain ⟨gs, hg⟩ := (C24_segmentation s).1.mp hs
    exact ⟨_, _, C30_get_char_substring_partial s gs hg hl 0 k (.inl (by omega)),
      C30_get_char_substring_partial s gs hg hl k s.length (.inl (by omega)),
      key hg.1 (fun g h => IsCharacter.ne_nil (hg.2.1 g h))⟩

/-- C71: one character (code point) is the substring of its index, and where its range is. -/
theorem C71_single (s : Str) (hs : Valid s) (hl : s.length < 2 ^ 63) (k : Nat) :
    (∃ o n c, getCodepoint s k = .ok (⟨o, n⟩, c) ∧ getCodepointSubstring s k (k + 1) = .ok ((s.drop o).take n)) ∧
    (∃ o n, getCharRange s k = .ok ⟨o, n⟩ ∧ getCharSubstring s k (k + 1) = .ok ((s.drop o).take n)) := by
  have hl' : s.length < npos := by unfold npos; omega
  have hm : ∀ n : Nat, PTRDIFF_MIN < (n : Int) := by intro n; unfold PTRDIFF_MIN; omega
  have one : ∀ {gs : List Str}, gs.flatten = s → ∀ hk : k < gs.length,
      (slice gs k (k + 1)).flatten = (s.drop (gs.take k).flatten.length).take gs[k].length := by
    intro gs e hk
    have c1 : clampIndex gs.length ((k : Int) + 1) = k + 1 := (clampIndex_nonneg _ (k + 1)).trans (by omega)
    unfold slice
    rw [c1, clampIndex_nonneg, Nat.min_eq_left (by omega)]
    have h1 : s.drop (gs.take k).flatten.length = (gs.drop k).flatten := by rw [← e]; exact drop_off gs k
    have h2 : (gs.take (k + 1)).drop k = [gs[k]] := by
      rw [List.drop_take, List.drop_eq_getElem_cons hk, Nat.add_sub_cancel_left]; rfl
    rw [h2, h1, List.drop_eq_getElem_cons hk, List.flatten_cons, List.flatten_cons, List.take_left' rfl]
    simp
  have over : ∀ {gs : List Str}, gs.length ≤ k → (slice gs k (k + 1)).flatten = [] := by
    intro gs h
    unfold slice
    have c1 : clampIndex gs.length ((k : Int) + 1) = gs.length := (clampIndex_nonneg _ (k + 1)).trans (by omega)
    rw [c1, clampIndex_nonneg, Nat.min_eq_right h, List.drop_of_length_le (by simp)]
    rfl
  have hm1 : PTRDIFF_MIN < (k : Int) + 1 := hm (k + 1)
  constructor
  · obtain ⟨gs, hg⟩ := (C27_codePoints s).1.mp hs
    have hsub := C29_get_codepoint_substring_partial s gs hg hl' k (k + 1) (hm k) hm1 (.inl (by omega))
    by_cases hk : k < gs.length
    · obtain ⟨c, hc⟩ := hg.2 gs[k] (List.getElem_mem hk)
      exact ⟨_, _, _, (C28_get_codepoint s gs hg k).1 k hk c hc (.inl rfl), by rw [hsub, one hg.1 hk]⟩
    · exact ⟨_, _, _, (C28_get_codepoint s gs hg k).2.1 (by omega), by rw [hsub, over (by omega)]; simp⟩
  · obtain ⟨gs, hg⟩ := (C24_segmentation s).1.mp hs
    have hsub := C30_get_char_substring_partial s gs hg hl k (k + 1) (.inl (by omega))
    by_cases hk : k < gs.length
    · exact ⟨_, _, (C26_get_char_range s gs hg hl' k).1 k hk (.inl rfl), by rw [hsub, one hg.1 hk]⟩
    · exact ⟨_, _, (C26_get_char_range s gs hg hl' k).2.1 (by omega), by rw [hsub, over (by omega)]; simp⟩

/-- C72: index `i - n` (counting from the end) means the same as index `i` in a string of `n` code points
(characters), in every function that takes one index. -/
theorem C72_negative_index (s : Str) (hs : Valid s) (hl : s.length < npos) :
    (∃ n, countCodepoints s = .ok n ∧ ∀ i : Nat, i < n → PTRDIFF_MIN < (i : Int) - n →
      getCodepointPos s (i - n) = getCodepointPos s i ∧ getCodepoint s (i - n) = getCodepoint s i ∧
      (∀ c, insertCodepoint s (i - n) c = insertCodepoint s i c) ∧
      (∀ sub, insertCodepoints s (i - n) sub = insertCodepoints s i sub)) ∧
    (∃ n, countChars s = .ok n ∧ ∀ i : Nat, i < n →
      getCharPos s (i - n) = getCharPos s i ∧ getCharRange s (i - n) = getCharRange s i ∧
      (∀ c, insertChar s (i - n) c = insertChar s i c) ∧
      (∀ sub, insertChars s (i - n) sub = insertChars s i sub)) := by
  have hl' : s.length < SIZE_MOD := by unfold npos at hl; unfold SIZE_MOD; omega
  have hm : ∀ n : Nat, (n : Int) ≠ PTRDIFF_MIN := by intro n; unfold PTRDIFF_MIN; omega
  constructor
  · obtain ⟨gs, hg⟩ := (C27_codePoints s).1.mp hs
    refine ⟨gs.length, (C27_codePoints s).2.2 gs hg, ?_⟩
    intro i hi hp
    have e : boundary gs ((i : Int) - gs.length) = boundary gs i :=
      (boundary_index (by omega) (.inr ⟨by omega, rfl⟩)).trans (boundary_index (by omega) (.inl rfl)).symm
    have hp' : (i : Int) - gs.length ≠ PTRDIFF_MIN := by omega
    obtain ⟨a1, a2, a3⟩ := C32_insert_codepoints_partial s gs hg hl _ hp'
    obtain ⟨b1, b2, b3⟩ := C32_insert_codepoints_partial s gs hg hl _ (hm i)
    obtain ⟨c, hc⟩ := hg.2 gs[i] (List.getElem_mem hi)
    refine ⟨?_, ?_, fun c => ?_, fun sub => ?_⟩
    · rw [C27_get_codepoint_pos_partial s gs hg _ hp', C27_get_codepoint_pos_partial s gs hg _ (hm i), e]
    · rw [(C28_get_codepoint s gs hg _).1 i hi c hc (.inr rfl), (C28_get_codepoint s gs hg _).1 i hi c hc (.inl rfl)]
    · rw [a1, b1, e]
    · by_cases h0 : sub = []
      · rw [h0, a3, b3]
      · rw [a2 sub h0, b2 sub h0, e]
  · obtain ⟨gs, hg⟩ := (C24_segmentation s).1.mp hs
    refine ⟨gs.length, C25_count_chars s gs hg hl', ?_⟩
    intro i hi
    have e : boundary gs ((i : Int) - gs.length) = boundary gs i :=
      (boundary_index (by omega) (.inr ⟨by omega, rfl⟩)).trans (boundary_index (by omega) (.inl rfl)).symm
    obtain ⟨a1, a2, a3⟩ := C32_insert_chars_partial s gs hg hl (i - gs.length)
    obtain ⟨b1, b2, b3⟩ := C32_insert_chars_partial s gs hg hl i
    refine ⟨?_, ?_, fun c => ?_, fun sub => ?_⟩
    · rw [C25_get_char_pos s gs hg hl', C25_get_char_pos s gs hg hl', e]
    · rw [(C26_get_char_range s gs hg hl _).1 i hi (.inr rfl), (C26_get_char_range s gs hg hl _).1 i hi (.inl rfl)]
    · rw [a1, b1, e]
    · by_cases h0 : sub = []
      · rw [h0, a3, b3]
      · rw [a2 sub h0, b2 sub h0, e]

/-- C72: the start of the range of a character (code point) is its position. -/
theorem C72_range_start (s : Str) (hs : Valid s) (hl : s.length < npos) :
    (∃ n, countCodepoints s = .ok n ∧ ∀ i : Nat, i ≤ n → ∃ o m c, getCodepointPos s i = .ok o ∧ getCodepoint s i = .ok (⟨o, m⟩, c) ∧
      (i < n → getCodepointPos s (i + 1) = .ok (o + m))) ∧
    (∃ n, countChars s = .ok n ∧ ∀ i : Nat, i ≤ n → ∃ o m, getCharPos s i = .ok o ∧ getCharRange s i = .ok ⟨o, m⟩ ∧
      (i < n → getCharPos s (i + 1) = .ok (o + m))) := by
  have hl' : s.length < SIZE_MOD := by unfold npos at hl; unfold SIZE_MOD; omega
  have hm : ∀ n : Nat, (n : Int) ≠ PTRDIFF_MIN := by intro n; unfold PTRDIFF_MIN; omega
  have next : ∀ (gs : List Str) (i : Nat) (hi : i < gs.length), off gs (i + 1) = (gs.take i).flatten.length + gs[i].length := by
    intro gs i hi
    rw [off_add, List.drop_eq_getElem_cons hi]
    show _ + ([gs[i]] : List Str).flatten.length = _
    simp [off]
  constructor
  · obtain ⟨gs, hg⟩ := (C27_codePoints s).1.mp hs
    refine ⟨gs.length, (C27_codePoints s).2.2 gs hg, ?_⟩
    intro i hi
    have e : getCodepointPos s i = .ok (off gs i) := by
      rw [C27_get_codepoint_pos_partial s gs hg _ (hm i), boundary_at hi]; rfl
    by_cases h : i < gs.length
    · obtain ⟨c, hc⟩ := hg.2 gs[i] (List.getElem_mem h)
      refine ⟨_, _, c, e, (C28_get_codepoint s gs hg _).1 i h c hc (.inl rfl), fun _ => ?_⟩
      have := C27_get_codepoint_pos_partial s gs hg _ (hm (i + 1))
      rw [boundary_at (by omega)] at this
      rw [show (i : Int) + 1 = ((i + 1 : Nat) : Int) from rfl, this]
      simp only [Option.getD_some]
      rw [next gs i h]; rfl
    · have : i = gs.length := by omega
      refine ⟨_, 0, INVALID_CHAR, e, ?_, fun h' => absurd h' h⟩
      rw [(C28_get_codepoint s gs hg _).2.1 (by omega), off_of_ge _ _ (by omega), hg.1]
  · obtain ⟨gs, hg⟩ := (C24_segmentation s).1.mp hs
    refine ⟨gs.length, C25_count_chars s gs hg hl', ?_⟩
    intro i hi
    have e : getCharPos s i = .ok (off gs i) := by
      rw [C25_get_char_pos s gs hg hl', boundary_at hi]; rfl
    by_cases h : i < gs.length
    · refine ⟨_, _, e, (C26_get_char_range s gs hg hl _).1 i h (.inl rfl), fun _ => ?_⟩
      have := C25_get_char_pos s gs hg hl' (i + 1 : Nat)
      rw [boundary_at (by omega)] at this
      rw [show (i : Int) + 1 = ((i + 1 : Nat) : Int) from rfl, this]
      simp only [Option.getD_some]
      rw [next gs i h]; rfl
    · refine ⟨_, 0, e, ?_, fun h' => absurd h' h⟩
      rw [(C26_get_char_range s gs hg hl _).2.1 (by omega), off_of_ge _ _ (by omega), hg.1]

end Ystring
