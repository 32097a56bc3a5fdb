import Verif.Proofs.SafetyEdit
import Verif.Proofs.Boundary
import Verif.Spec.Escape
/-
Property theorems C63 and C64: on arbitrary bytes every call ends, without undefined behaviour, with a value or with
`YstringException`, and every range returned lies within the string.
-/
namespace Ystring
open Spec

theorem fits_npos {s : Str} (h : Fits s) : s.length < npos := by
  unfold Fits PTRDIFF_MAX at h; unfold npos; omega

theorem fits_mod {s : Str} (h : Fits s) : s.length < SIZE_MOD := Nat.lt_trans (fits_npos h) npos_lt

/-- A malformed string: a truncated sequence, stray continuation bytes, an invalid byte. -/
def malformed : Str := [0xC3, 0x41, 0x80, 0x80, 0xFF, 0xE2, 0x82]

example : Fits malformed := by unfold Fits; decide
example : toUtf32 malformed = .error .ystring := by decide +kernel
example : getCodepoint malformed (-1) = .error .ystring := by decide +kernel

/-- Strings of at most seven bytes qualify for C64, whatever their bytes. -/
theorem noLongRun_short {s : Str} (h : s.length ≤ 7) : NoLongRun s := by
  intro t w r e hw _
  have := congrArg List.length e
  simp at this
  exact List.eq_nil_of_length_eq_zero (by omega)

example : NoLongRun malformed := noLongRun_short (by decide)

/-- Every valid string qualifies for C64. -/
theorem noLongRun_valid {s : Str} (h : Valid s) : NoLongRun s := by
  obtain ⟨cs, h⟩ := h
  suffices ∀ t w r, s = t ++ w ++ r → w.length = 7 → (∀ b ∈ w, IsCont b) → False from
    fun t w r e hw hc => (this t w r e hw hc).elim
  induction h with
  | nil =>
    intro t w r e hw _
    have := congrArg List.length e
    simp at this; omega
  | @cons u s' c cs hu hd ih =>
    intro t w r e hw hc
    by_cases ht : u.length ≤ t.length
    · have e1 : t = u ++ t.drop u.length := by
        have : u = t.take u.length := by
          have := congrArg (List.take u.length) e
          rw [List.append_assoc, List.take_append_of_le_length ht, List.take_left] at this
          exact this
        conv => lhs; rw [← List.take_append_drop u.length t]
        rw [← this]
      refine ih (t.drop u.length) w r ?_ hw hc
      rw [e1] at e
      simp only [List.append_assoc] at e
      have := List.append_cancel_left e
      rw [this]; simp
    · have hu4 := hu.length_le
      have hlen := congrArg List.length e
      simp at hlen
      cases hd with
      | nil => simp at hlen; omega
      | @cons v s'' d cs' hv _ =>
        obtain ⟨b, v', rfl, hbc⟩ := hv.head_lead
        have hb : (u ++ (b :: v' ++ s''))[u.length]? = some b := by simp
        rw [e, List.append_assoc, List.getElem?_append_right (by omega), List.getElem?_append_left (by omega)] at hb
        exact hbc (hc b (List.mem_of_getElem? hb))

/-! ### C63: functions that only read forwards -/

/-- Decoding and whole-string queries. -/
theorem C63_to_utf32 (s : Str) : Safe (toUtf32 s) := toUtf32Loop_safe _ s [] (by omega)
theorem C63_contains (s : Str) (c : Char32) : Safe (contains s c) := containsLoop_safe c _ s (by omega)
theorem C63_count_chars (s : Str) (hs : Fits s) : Safe (countChars s) :=
  countCharsLoop_safe s (fits_mod hs) _ 0 0 (by omega) (by omega)
theorem C63_to_lower (s : Str) : Safe (toLower s) := toLowerLoop_safe _ s [] (by omega)
theorem C63_to_upper (s : Str) : Safe (toUpper s) := toUpperLoop_safe _ s [] (by omega)
theorem C63_to_title (s : Str) : Safe (toTitle s) := toTitleLoop_safe _ s [] _ (by omega)

/-- Searches: not found, or a range within the string. -/
theorem C63_find_first_where (s : Str) (p : Char32 → Bool) (o : Nat) (ho : o ≤ s.length) :
    SafeWith (fun r => r = (⟨npos, 0⟩, INVALID_CHAR) ∨ Within s.length r.1) (findFirstWhere s p o) :=
  findFirstWhere_within s p o ho
theorem C63_find_first_of (s : Str) (cs : List Char32) (o : Nat) (ho : o ≤ s.length) :
    SafeWith (fun r => r = (⟨npos, 0⟩, INVALID_CHAR) ∨ Within s.length r.1) (findFirstOf s cs o) :=
  findFirstWhere_within s _ o ho
theorem C63_find_first_of_set (s : Str) (cs : CodepointSet) (o : Nat) (ho : o ≤ s.length) :
    SafeWith (fun r => r = (⟨npos, 0⟩, INVALID_CHAR) ∨ Within s.length r.1) (findFirstOfSet s cs o) :=
  findFirstWhere_within s _ o ho
theorem C63_find_first_newline (mem : List Char32) (s : Str) (hs : Fits s) (o : Nat) (ho : o ≤ s.length) :
    SafeWith (fun r => r.length = 0 ∨ Within s.length r) (findFirstNewline mem s o) :=
  findFirstNewline_within mem s (fits_mod hs) o ho

/-- Characters and code points counted from the start. -/
theorem C63_get_char_pos (s : Str) (hs : Fits s) (k : Int) (hk : 0 ≤ k) :
    SafeWith (fun p => p = npos ∨ p ≤ s.length) (getCharPos s k) := getCharPos_fwd_safe s (fits_mod hs) k hk
theorem C63_get_char_range (s : Str) (hs : Fits s) (k : Int) (hk : 0 ≤ k) :
    SafeWith (Within s.length) (getCharRange s k) := getCharRange_fwd_safe s (fits_mod hs) k hk
theorem C63_get_next_char_range (s : Str) (hs : Fits s) (o : Nat) (ho : o ≤ s.length) :
    SafeWith (fun r => r.offset = o ∧ Within s.length r ∧ (o < s.length → 0 < r.length)) (getNextCharRange s o) :=
  (getNextCharRange_safe s o ho (fits_mod hs)).mono (by rintro r ⟨n, rfl, h1, h2⟩; exact ⟨rfl, h1, h2⟩)
theorem C63_get_codepoint (s : Str) (k : Int) (hk : 0 ≤ k) :
    SafeWith (fun r => Within s.length r.1) (getCodepoint s k) := getCodepoint_fwd_safe s k hk
/-- Skipping never fails, also backwards. -/
theorem C63_get_codepoint_pos (s : Str) (k : Int) (hk : k ≠ PTRDIFF_MIN) :
    ∃ p, (p = npos ∨ p ≤ s.length) ∧ getCodepointPos s k = .ok p := getCodepointPos_safe s k hk
theorem C63_get_codepoint_substring (s : Str) (hs : Fits s) (i j : Int) (hi : PTRDIFF_MIN < i) (hj : PTRDIFF_MIN < j) :
    Safe (getCodepointSubstring s i j) := getCodepointSubstring_safe s (fits_npos hs) i j hi hj
theorem C63_replace_codepoints (s : Str) (hs : Fits s) (i j : Int) (hi : PTRDIFF_MIN < i) (hj : PTRDIFF_MIN < j)
    (h : 0 ≤ i ∨ j < 0) (t : Str) : Safe (replaceCodepoints s i j t) := replaceCodepoints_safe s (fits_npos hs) i j hi hj h t

/-- Insertion. -/
theorem C63_insert_char (s : Str) (hs : Fits s) (k : Int) (hk : 0 ≤ k) (c : Char32) : Safe (insertChar s k c) :=
  (getCharPos_fwd_safe s (fits_mod hs) k hk).bindS fun _ h => insertCodepointAtOffset_safe (fits_npos hs) h c
theorem C63_insert_chars (s : Str) (hs : Fits s) (k : Int) (hk : 0 ≤ k) (t : Str) : Safe (insertChars s k t) :=
  (getCharPos_fwd_safe s (fits_mod hs) k hk).bindS fun _ h => insertAtOffset_safe (fits_npos hs) h t
theorem C63_insert_codepoint (s : Str) (hs : Fits s) (k : Int) (hk : k ≠ PTRDIFF_MIN) (c : Char32) :
    Safe (insertCodepoint s k c) := by
  obtain ⟨p, hp, h⟩ := getCodepointPos_safe s k hk
  unfold insertCodepoint; rw [h]
  exact insertCodepointAtOffset_safe (fits_npos hs) hp c
theorem C63_insert_codepoints (s : Str) (hs : Fits s) (k : Int) (hk : k ≠ PTRDIFF_MIN) (t : Str) :
    Safe (insertCodepoints s k t) := by
  obtain ⟨p, hp, h⟩ := getCodepointPos_safe s k hk
  unfold insertCodepoints; rw [h]
  exact insertAtOffset_safe (fits_npos hs) hp t

/-- Splitting and trimming the start. -/
theorem C63_split (s sep : Str) (params : SplitParams) (hs : Fits s) : Safe (split s sep params) :=
  split_safe s sep params (fits_npos hs)
theorem C63_split_chars (s : Str) (cs : List Char32) (params : SplitParams) (hs : Fits s) : Safe (splitChars s cs params) :=
  splitChars_safe s cs params (fits_npos hs)
theorem C63_split_lines (mem : List Char32) (s : Str) (params : SplitParams) (hs : Fits s) : Safe (splitLines mem s params) :=
  splitLines_safe mem s params (fits_npos hs)
theorem C63_trim_start (s : Str) (cs : List Char32) (hs : Fits s) :
    SafeWith (fun r => ∃ n, r = s.drop n) (trimStart s cs) := trimStartWhere_safe s _ (fits_npos hs)
theorem C63_trim_start_where (s : Str) (p : Char32 → Bool) (hs : Fits s) :
    SafeWith (fun r => ∃ n, r = s.drop n) (trimStartWhere s p) := trimStartWhere_safe s _ (fits_npos hs)

/-- Case-insensitive functions. -/
theorem C63_ci_compare (s t : Str) : Safe (CI.compare s t) := CI.compareLoop_safe _ s t (by omega)
theorem C63_ci_equal (s t : Str) : Safe (CI.equal s t) := CI.equalLoop_safe _ s t (by omega)
theorem C63_ci_less (s t : Str) : Safe (CI.less s t) := CI.lessLoop_safe _ s t (by omega)
theorem C63_ci_starts_with (s t : Str) : Safe (CI.startsWith s t) := CI.startsWith_safe s t
theorem C63_ci_find_first (s t : Str) (o : Nat) (ho : o ≤ s.length) :
    SafeWith (fun r => r = Subrange.default ∨ (0 < r.length ∧ Within s.length r)) (CI.findFirst s t o) :=
  CI.findFirst_safe s t o ho
theorem C63_ci_find_first_of (s : Str) (cs : List Char32) (o : Nat) (ho : o ≤ s.length) :
    SafeWith (fun r => r = (⟨npos, 0⟩, INVALID_CHAR) ∨ Within s.length r.1) (CI.findFirstOf s cs o) :=
  findFirstWhere_within s _ o ho
theorem C63_ci_find_first_of_set (s : Str) (cs : CodepointSet) (o : Nat) (ho : o ≤ s.length) :
    SafeWith (fun r => r = (⟨npos, 0⟩, INVALID_CHAR) ∨ Within s.length r.1) (CI.findFirstOfSet s cs o) :=
  findFirstWhere_within s _ o ho
theorem C63_ci_replace (s f t : Str) (hs : Fits s) (k : Int) (hk : 0 ≤ k) : Safe (CI.replace s f t k) :=
  CI.replace_safe s f t (fits_npos hs) k (.inl hk)
theorem C63_ci_split (s sep : Str) (params : SplitParams) (hs : Fits s) : Safe (CI.split s sep params) :=
  CI.split_safe s sep params (fits_npos hs)
theorem C63_ci_split_chars (s : Str) (cs : List Char32) (params : SplitParams) (hs : Fits s) :
    Safe (CI.splitChars s cs params) := CI.splitChars_safe s cs params (fits_npos hs)

/-! ### C64: functions that read backwards -/

theorem C64_find_last_where (s : Str) (p : Char32 → Bool) (o : Nat) (hn : NoLongRun s) :
    SafeWith (fun r => r = (⟨npos, 0⟩, INVALID_CHAR) ∨ Within s.length r.1) (findLastWhere s p o) :=
  findLastWhere_within s p o hn
theorem C64_find_last_of (s : Str) (cs : List Char32) (o : Nat) (hn : NoLongRun s) :
    SafeWith (fun r => r = (⟨npos, 0⟩, INVALID_CHAR) ∨ Within s.length r.1) (findLastOf s cs o) :=
  findLastWhere_within s _ o hn
theorem C64_find_last_of_set (s : Str) (cs : CodepointSet) (o : Nat) (hn : NoLongRun s) :
    SafeWith (fun r => r = (⟨npos, 0⟩, INVALID_CHAR) ∨ Within s.length r.1) (findLastOfSet s cs o) :=
  findLastWhere_within s _ o hn
theorem C64_find_last_newline (mem : List Char32) (s : Str) (hs : Fits s) (o : Nat) (hn : NoLongRun s) :
    SafeWith (fun r => r.length = 0 ∨ Within s.length r) (findLastNewline mem s o) :=
  findLastNewline_within mem s (fits_mod hs) o hn
theorem C64_get_char_pos (s : Str) (hs : Fits s) (k : Int) (hn : NoLongRun s) :
    SafeWith (fun p => p = npos ∨ p ≤ s.length) (getCharPos s k) := getCharPos_safe s (fits_mod hs) hn k
theorem C64_get_char_range (s : Str) (hs : Fits s) (k : Int) (hn : NoLongRun s) :
    SafeWith (Within s.length) (getCharRange s k) := getCharRange_safe s (fits_mod hs) hn k
theorem C64_get_prev_char_range (s : Str) (hs : Fits s) (o : Nat) (ho : o ≤ s.length) (hn : NoLongRun s) :
    SafeWith (fun r => r.offset + r.length = o ∧ (0 < o → 0 < r.length)) (getPrevCharRange s o) :=
  (getPrevCharRange_safe s o ho (fits_mod hs) hn).mono (by
    rintro r ⟨i, h1, rfl, h2⟩
    exact ⟨by show i + (o - i) = o; omega, fun h => by have := h2 h; show 0 < o - i; omega⟩)
theorem C64_get_codepoint (s : Str) (k : Int) (hn : NoLongRun s) :
    SafeWith (fun r => Within s.length r.1) (getCodepoint s k) := getCodepoint_safe s hn k
theorem C64_get_char_substring (s : Str) (hs : Fits s) (i j : Int) (hn : NoLongRun s) : Safe (getCharSubstring s i j) :=
  getCharSubstring_safe s (fits_npos hs) hn i j
theorem C64_replace_chars (s : Str) (hs : Fits s) (i j : Int) (t : Str) (hn : NoLongRun s) : Safe (replaceChars s i j t) :=
  replaceChars_safe s (fits_npos hs) hn i j t
theorem C64_insert_char (s : Str) (hs : Fits s) (k : Int) (c : Char32) (hn : NoLongRun s) : Safe (insertChar s k c) :=
  (getCharPos_safe s (fits_mod hs) hn k).bindS fun _ h => insertCodepointAtOffset_safe (fits_npos hs) h c
theorem C64_insert_chars (s : Str) (hs : Fits s) (k : Int) (t : Str) (hn : NoLongRun s) : Safe (insertChars s k t) :=
  (getCharPos_safe s (fits_mod hs) hn k).bindS fun _ h => insertAtOffset_safe (fits_npos hs) h t
theorem C64_reverse (s : Str) (hs : Fits s) (hn : NoLongRun s) : Safe (reverse s) :=
  reverseLoop_safe s (fits_npos hs) hn _ _ _ (Nat.le_refl _) (by omega)
theorem C64_trim_end (s : Str) (cs : List Char32) (hn : NoLongRun s) :
    SafeWith (fun r => ∃ n, r = s.take n) (trimEnd s cs) := trimEndWhere_safe s _ hn
theorem C64_trim_end_where (s : Str) (p : Char32 → Bool) (hn : NoLongRun s) :
    SafeWith (fun r => ∃ n, r = s.take n) (trimEndWhere s p) := trimEndWhere_safe s _ hn
theorem C64_trim (s : Str) (cs : List Char32) (hs : Fits s) (hn : NoLongRun s) :
    SafeWith (fun r => ∃ m n, r = (s.drop m).take n) (trim s cs) :=
  (trimStartWhere_safe s _ (fits_npos hs)).bind (by
    rintro r ⟨m, rfl⟩
    exact (trimEndWhere_safe _ _ (hn.drop m)).mono (by rintro r ⟨n, rfl⟩; exact ⟨m, n, rfl⟩))
theorem C64_trim_where (s : Str) (p : Char32 → Bool) (hs : Fits s) (hn : NoLongRun s) :
    SafeWith (fun r => ∃ m n, r = (s.drop m).take n) (trimWhere s p) :=
  (trimStartWhere_safe s _ (fits_npos hs)).bind (by
    rintro r ⟨m, rfl⟩
    exact (trimEndWhere_safe _ _ (hn.drop m)).mono (by rintro r ⟨n, rfl⟩; exact ⟨m, n, rfl⟩))
theorem C64_ci_ends_with (s t : Str) (hs : NoLongRun s) (ht : NoLongRun t) : Safe (CI.endsWith s t) :=
  CI.endsWith_safe s t hs ht
theorem C64_ci_find_last (s t : Str) (o : Nat) (hs : NoLongRun s) (ht : NoLongRun t) :
    SafeWith (fun r => r = Subrange.default ∨ (0 < r.length ∧ Within s.length r)) (CI.findLast s t o) :=
  CI.findLast_safe s t o hs ht
theorem C64_ci_find_last_of (s : Str) (cs : List Char32) (o : Nat) (hn : NoLongRun s) :
    SafeWith (fun r => r = (⟨npos, 0⟩, INVALID_CHAR) ∨ Within s.length r.1) (CI.findLastOf s cs o) :=
  findLastWhere_within s _ o hn
theorem C64_ci_find_last_of_set (s : Str) (cs : CodepointSet) (o : Nat) (hn : NoLongRun s) :
    SafeWith (fun r => r = (⟨npos, 0⟩, INVALID_CHAR) ∨ Within s.length r.1) (CI.findLastOfSet s cs o) :=
  findLastWhere_within s _ o hn
theorem C64_ci_replace (s f t : Str) (hs : Fits s) (k : Int) (h1 : NoLongRun s) (h2 : NoLongRun f) :
    Safe (CI.replace s f t k) := CI.replace_safe s f t (fits_npos hs) k (.inr ⟨h1, h2⟩)

/-- The hypothesis `NoLongRun` is needed: seven stray continuation bytes are undefined behaviour. -/
theorem C64_false_for_long_runs :
    getCodepoint [0x41, 0x80, 0x80, 0x80, 0x80, 0x80, 0x80, 0x80] (-1) = .error .ub := by decide +kernel

end Ystring
