import Verif.Proofs.WidthDefault
import Verif.Spec.Width
/-
Property theorems C110: no result depends on the width of `size_t` and `ptrdiff_t`.
`Wd.f W` is the function `f` with `size_t` of `W` values; `f` is the function with 2^64 values.
-/
namespace Ystring

open Spec Wd

theorem Spec.Platform.toFits {W n : Nat} (h : Platform W n) : Wd.Fits W n :=
  ⟨h.wide, by have := h.most; unfold SIZE_MOD; omega, h.fits⟩

theorem posW_npos {W : Nat} : posW W npos = nposW W := by unfold posW npos nposW; simp

theorem posW_eq {W p : Nat} (h : p ≠ npos) : posW W p = p := by unfold posW; exact if_neg h

theorem posW_min {W n : Nat} (h : Platform W n) (o : Nat) : min o n = min (posW W o) n := by
  unfold posW
  have := h.fits; have := h.wide; have := h.most
  split <;> omega

theorem SameRange.eqW {W n : Nat} {r r' : Subrange} (hW : Platform W n) (h : SameRange W n r r') : r' = rangeW W r := by
  have h1 := (npos_enough hW.toFits).1
  unfold rangeW
  rcases h with ⟨rfl, rfl⟩ | ⟨rfl, h⟩
  · simp only [posW_npos]
  · rw [posW_eq (by omega)]

theorem SamePos.eqW {W n p p' : Nat} (hW : Platform W n) (h : SamePos W n p p') : p' = posW W p := by
  have h1 := (npos_enough hW.toFits).1
  rcases h with ⟨rfl, rfl⟩ | ⟨rfl, h⟩
  · rw [posW_npos]
  · rw [posW_eq (by omega)]

theorem Spec.Index.least {W : Nat} {k : Int} (h : Index W k) : ptrdiffMin W < k := h.1

theorem Spec.Limit.least {W : Nat} {k : Int} (h : Limit W k) (hW : 64 ≤ W) : ptrdiffMin W < diffW W k := by
  unfold ptrdiffMin diffW
  unfold Limit Index at h
  split <;> omega

/-! ### Searching -/

/-- C110: `find_first_where` and `find_last_where` (and so `find_first_of`, `find_last_of` and the case-insensitive variants, which call them with a
predicate) return the same range and code point, throw in the same cases and are undefined in the same cases. -/
theorem C110_find_where (W : Nat) (s : Str) (hW : Platform W s.length) (p : Char32 → Bool) (o : Nat) :
    Wd.findFirstWhere W s p o = (findFirstWhere s p o).map (fun r => (rangeW W r.1, r.2)) ∧
    Wd.findLastWhere W s p (posW W o) = (findLastWhere s p o).map (fun r => (rangeW W r.1, r.2)) := by
  constructor
  · exact Sim.map ((sim_findFirstWhere s p o).mono fun a b h => Prod.ext (SameRange.eqW hW h.1) h.2.1.symm)
  · exact Sim.map ((sim_findLastWhere s p o _ (posW_min hW o)).mono fun a b h => Prod.ext (SameRange.eqW hW h.1) h.2.1.symm)

theorem C110_find_of (W : Nat) (s : Str) (hW : Platform W s.length) (chars : List Char32) (o : Nat) :
    Wd.findFirstOf W s chars o = (findFirstOf s chars o).map (fun r => (rangeW W r.1, r.2)) ∧
    Wd.findLastOf W s chars (posW W o) = (findLastOf s chars o).map (fun r => (rangeW W r.1, r.2)) :=
  C110_find_where W s hW _ o

theorem C110_find_last (W : Nat) (s : Str) (hW : Platform W s.length) (cmp : Str) (o : Nat) :
    Wd.findLast W s cmp (posW W o) = findLast s cmp o := by
  unfold Wd.findLast findLast
  rw [posW_min hW o]

theorem C110_find_newline (W : Nat) (s : Str) (hW : Platform W s.length) (mem : List Char32) (o : Nat) :
    Wd.findFirstNewline W mem s o = (findFirstNewline mem s o).map (rangeW W) ∧
    Wd.findLastNewline W mem s (posW W o) = (findLastNewline mem s o).map (rangeW W) := by
  constructor
  · exact Sim.map ((sim_findFirstNewline mem s o hW.toFits).mono fun a b h => SameRange.eqW hW h)
  · exact Sim.map ((sim_findLastNewline mem s o _ (posW_min hW o) hW.toFits).mono fun a b h => SameRange.eqW hW h)

theorem C110_find_ignoring_case (W : Nat) (s : Str) (hW : Platform W s.length) (cmp : Str) (o : Nat) :
    Wd.ciFindFirst W s cmp o = (CI.findFirst s cmp o).map (rangeW W) ∧
    Wd.ciFindLast W s cmp (posW W o) = (CI.findLast s cmp o).map (rangeW W) := by
  constructor
  · exact Sim.map ((sim_ciFindFirst s cmp o).mono fun a b h => SameRange.eqW hW h)
  · exact Sim.map ((sim_ciFindLast s cmp o _ (posW_min hW o)).mono fun a b h => SameRange.eqW hW h)

/-! ### Characters and code points -/

theorem C110_count (W : Nat) (s : Str) (hW : Platform W s.length) :
    Wd.countChars W s = countChars s ∧ Wd.countCodepoints W s = countCodepoints s := by
  have h1 := hW.fits; have h2 := hW.wide
  exact ⟨(Sim.eq (sim_countCharsLoop s hW.toFits _ 0 0 (by omega))).symm, (sim_countCodepointsLoop _ s 0 (by omega)).symm⟩

theorem C110_char_range (W : Nat) (s : Str) (hW : Platform W s.length) (o : Nat) (k : Int) :
    Wd.getNextCharRange W s o = getNextCharRange s o ∧ Wd.getPrevCharRange W s o = getPrevCharRange s o ∧
    Wd.getCharRange W s k = getCharRange s k :=
  ⟨(Sim.eq ((sim_getNextCharRange s o hW.toFits).mono fun _ _ h => h.1)).symm,
    (Sim.eq ((sim_getPrevCharRange s o hW.toFits).mono fun _ _ h => h.1)).symm,
    (Sim.eq ((sim_getCharRange s hW.toFits k).mono fun _ _ h => h.1)).symm⟩

theorem C110_pos (W : Nat) (s : Str) (hW : Platform W s.length) (k : Int) (hk : Index W k) :
    Wd.getCharPos W s k = (getCharPos s k).map (posW W) ∧ Wd.getCodepointPos W s k = (getCodepointPos s k).map (posW W) :=
  ⟨Sim.map ((sim_getCharPos s hW.toFits k).mono fun _ _ h => SamePos.eqW hW h),
    Sim.map ((sim_getCodepointPos s hW.toFits k hk.least).mono fun _ _ h => SamePos.eqW hW h)⟩

/-! ### Substrings, insertion, replacement -/

/-- C110: substrings, with the default end `PTRDIFF_MAX` of either platform or another one. -/
theorem C110_substring (W : Nat) (s : Str) (hW : Platform W s.length) (i j : Int) (hi : Index W i) (hj : Limit W j) :
    Wd.getCharSubstring W s i (diffW W j) = getCharSubstring s i j ∧
    Wd.getCodepointSubstring W s i (diffW W j) = getCodepointSubstring s i j := by
  have h1 := hi.least
  have h2 := hj.least hW.wide
  rw [sim_getCharSubstring s hW.toFits, sim_getCodepointSubstring s hW.toFits i _ h1 h2]
  by_cases h : j = 2 ^ 63 - 1
  · subst h
    have h3 := (npos_enough hW.toFits).1
    have h4 := hW.most
    have h5 := hi.2
    have h6 := hW.fits
    have h7 : diffW W (2 ^ 63 - 1) = (W / 2 : Nat) - 1 := if_pos rfl
    rw [h7]
    exact ⟨charSubstring_default s (by omega) i _ _ (by omega) (by omega), codepointSubstring_default s (by omega) i _ _ (by omega) (by omega)⟩
  · rw [show diffW W j = j from if_neg h]
    exact ⟨rfl, rfl⟩

theorem C110_insert (W : Nat) (s : Str) (hW : Platform W s.length) (k : Int) (hk : Index W k) (t : Str) (c : Char32) :
    Wd.insertChar W s k c = insertChar s k c ∧ Wd.insertChars W s k t = insertChars s k t ∧
    Wd.insertCodepoint W s k c = insertCodepoint s k c ∧ Wd.insertCodepoints W s k t = insertCodepoints s k t :=
  sim_inserts s hW.toFits k t c hk.least

theorem C110_replace_range (W : Nat) (s : Str) (hW : Platform W s.length) (i j : Int) (hi : Index W i) (hj : Index W j) (t : Str) :
    Wd.replaceChars W s i j t = replaceChars s i j t ∧ Wd.replaceCodepoints W s i j t = replaceCodepoints s i j t :=
  ⟨sim_replaceChars s hW.toFits i j t, sim_replaceCodepoints s hW.toFits i j hi.least hj.least t⟩

/-- C110: `replace`, with the default number of replacements of either platform or another one. With an empty `from` the default number is the number
of copies of `to` that are inserted, so there it must be given. -/
theorem C110_replace (W : Nat) (s : Str) (hW : Platform W s.length) (f t : Str) (k : Int) (hk : Limit W k) (hf : f = [] → Index W k) :
    Wd.replace W s f t (diffW W k) = replace s f t k := by
  rw [sim_replace s f t hW.toFits _ (hk.least hW.wide)]
  by_cases h : k = 2 ^ 63 - 1
  · subst h
    by_cases h0 : f = []
    · have h1 := (hf h0).2
      have h2 := hW.most
      have h3 : W = 2 ^ 64 := by omega
      rw [h3]
      rfl
    rw [show diffW W (2 ^ 63 - 1) = ptrdiffMax W from if_pos rfl]
    exact replace_default s f t h0 hW.toFits
  · rw [show diffW W k = k from if_neg h]

theorem C110_replace_codepoint (W : Nat) (s : Str) (hW : Platform W s.length) (f t : Char32) (k : Int) (hk : Limit W k) :
    Wd.replaceCodepoint W s f t (diffW W k) = replaceCodepoint s f t k := by
  unfold Wd.replaceCodepoint replaceCodepoint
  simp only
  split
  · rfl
  · rename_i h0
    rw [C110_replace W s hW _ _ k hk]
    intro h
    exfalso
    apply h0
    have h1 := congrArg List.length h
    unfold encodeUtf8Buf at h1 ⊢
    have h2 := encodedLength_le f
    unfold encodeUtf8Ret at h2
    simp only [if_neg (show ¬ getUtf8EncodedLength f > 4 by omega)] at h1 ⊢
    exact (encodeUtf8_length f).symm.trans h1

theorem C110_replace_ignoring_case (W : Nat) (s : Str) (hW : Platform W s.length) (f t : Str) (k : Int) :
    Wd.ciReplace W s f t (diffW W k) = CI.replace s f t k := by
  rw [sim_ciReplace s f t hW.toFits]
  by_cases h : k = 2 ^ 63 - 1
  · subst h
    rw [show diffW W (2 ^ 63 - 1) = ptrdiffMax W from if_pos rfl]
    exact ciReplace_default s f t hW.toFits
  · rw [show diffW W k = k from if_neg h]

theorem C110_reverse (W : Nat) (s : Str) (hW : Platform W s.length) : Wd.reverse W s = reverse s :=
  (Sim.eq (sim_reverseLoop s hW.toFits _ _ _)).symm

/-! ### Splitting and trimming -/

theorem split_max {W n : Nat} (hW : Platform W n) (m : Nat) : m = posW W m ∨ (n + 2 ≤ m ∧ n + 2 ≤ posW W m) := by
  by_cases h : m = npos
  · right
    rw [h, posW_npos]
    exact npos_enough hW.toFits
  · left; rw [posW_eq h]

/-- C110: `split`, `split_lines` and `case_insensitive::split`, with the default limit `SIZE_MAX` of either platform or another one. -/
theorem C110_split (W : Nat) (s : Str) (hW : Platform W s.length) (params : SplitParams) :
    (∀ chars, Wd.splitChars W s chars (posW W params.maxSplits) params.ignoreEmpty = splitChars s chars params) ∧
    (∀ sep, Wd.split W s sep (posW W params.maxSplits) params.ignoreEmpty = split s sep params) ∧
    (∀ mem, Wd.splitLines W mem s (posW W params.maxSplits) params.ignoreEmpty = splitLines mem s params) ∧
    (∀ sep, Wd.ciSplit W s sep (posW W params.maxSplits) params.ignoreEmpty = CI.split s sep params) := by
  have hF := hW.toFits
  have hm := split_max hW params.maxSplits
  refine ⟨fun chars => ?_, fun sep => ?_, fun mem => ?_, fun sep => ?_⟩
  · exact sim_splitWhere s (fun u hu => Sim.bind (sim_findFirstWhere u (u32Contains chars) 0) fun a b h => Sim.ok (SameRange.token (W := W) h.1)) hF _ _ hm
  · exact sim_splitWhere s (fun u _ => sim_findFirst_token sep u) hF _ _ hm
  · exact sim_splitWhere s (fun u hu => (sim_findFirstNewline mem u 0 (hF.le hu)).mono fun a b h => h.token) hF _ _ hm
  · exact sim_splitWhere s (fun u hu => (sim_ciFindFirst (W := W) u sep 0).mono fun a b h => h.token) hF _ _ hm

/-- C110: `split_where` with a callback that returns, for every string, an empty range or the same range within the string on both platforms. -/
theorem C110_split_where (W : Nat) (s : Str) (hW : Platform W s.length) (params : SplitParams) (find : Str → Res Subrange)
    (hfind : ∀ u r, find u = .ok r → r.length = 0 ∨ r.offset + r.length ≤ u.length) :
    Wd.splitWhere W s find (posW W params.maxSplits) params.ignoreEmpty = splitWhere s find params :=
  sim_splitWhere s (fun u _ => Sim.same fun r hr => (hfind u r hr).elim (fun h => Or.inl ⟨h, h⟩) fun h => Or.inr ⟨rfl, h⟩)
    hW.toFits _ _ (split_max hW params.maxSplits)

theorem C110_trim (W : Nat) (s : Str) (hW : Platform W s.length) (p : Char32 → Bool) :
    Wd.trimStartWhere W s p = trimStartWhere s p ∧ Wd.trimEndWhere W s p = trimEndWhere s p ∧ Wd.trimWhere W s p = trimWhere s p :=
  ⟨sim_trimStartWhere s p, sim_trimEndWhere s hW.toFits p, sim_trimWhere s hW.toFits p⟩

/-! ### Escape sequences -/

theorem C110_escape (W : Nat) (s : Str) (hW : Platform W s.length) :
    Wd.escapeJson W s = escapeJson s ∧ Wd.unescape W s = unescape s :=
  ⟨sim_escapeJson s hW.toFits, sim_unescape s hW.toFits⟩

/-! ### The models with 2^64 values are the models of the other properties -/

/-- C110: for 64 bits nothing is translated, so that the theorems above say that `Wd.f (2 ^ 64)` is `f`. -/
theorem C110_same (r : Subrange) (k : Int) (n : Nat) :
    rangeW (2 ^ 64) r = r ∧ posW (2 ^ 64) n = n ∧ diffW (2 ^ 64) k = k := by
  have h1 : ∀ n, posW (2 ^ 64) n = n := by intro n; unfold posW; split <;> omega
  refine ⟨by unfold rangeW; rw [h1], h1 n, ?_⟩
  unfold diffW
  split
  · rename_i h; rw [h]; rfl
  · rfl

/-- C110: the restriction to `Index`: the least `ptrdiff_t` of a platform is undefined there as an index of a code point, and an ordinary index on
a platform with more bits. -/
theorem C110_least (s : Str) :
    Wd.getCodepointPos (2 ^ 32) s (-(2 ^ 31)) = .error .ub ∧
    (s.length < 2 ^ 31 → getCodepointPos s (-(2 ^ 31)) = .ok npos) := by
  constructor
  · unfold Wd.getCodepointPos
    rw [if_pos (by unfold ptrdiffMin; rfl)]
  · intro h
    unfold getCodepointPos
    rw [if_neg (by unfold PTRDIFF_MIN; omega), if_pos (by omega)]

/-! ### A 32-bit platform meets the hypotheses -/

example : Platform (2 ^ 32) [0xC3, 0xA6, 0x0D, 0x0A].length := ⟨by decide, by decide, by decide⟩
example : Index (2 ^ 32) (-2) ∧ Limit (2 ^ 32) (2 ^ 63 - 1) := ⟨by unfold Index; omega, Or.inl rfl⟩
example : Wd.findFirstWhere (2 ^ 32) [0x61] (· == 0x62) 0 = .ok (⟨2 ^ 32 - 1, 0⟩, INVALID_CHAR) ∧
    findFirstWhere [0x61] (· == 0x62) 0 = .ok (⟨2 ^ 64 - 1, 0⟩, INVALID_CHAR) := by decide +kernel
example : Wd.getCharSubstring (2 ^ 32) [0x61, 0x62, 0x63] (-2) = .ok [0x62, 0x63] ∧ Wd.getCharPos (2 ^ 32) [0x61] 2 = .ok (2 ^ 32 - 1) := by decide +kernel
example : Wd.split (2 ^ 32) [0x61, 0x2C, 0x62] [0x2C] = .ok [[0x61], [0x62]] ∧ Wd.unescape (2 ^ 32) [0x5C, 0x6E] = .ok [0x0A] := by decide +kernel

end Ystring
