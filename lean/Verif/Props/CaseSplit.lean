import Verif.Props.CaseTrim
/-
Property theorems C120: case conversion and decomposition, before or after trimming and splitting.
-/
namespace Ystring
open Spec

theorem case_keeps {conv : Str → Res Str} (hconv : conv ∈ [toLower, toUpper, toTitle]) {p : Char32 → Bool}
    (hp : ∀ c, c.toNat ≤ 0x10FFFF → p c = true → Caseless c) : Keeps conv p := by
  simp only [List.mem_cons, List.not_mem_nil, or_false] at hconv
  rcases hconv with rfl | rfl | rfl
  · exact (lower_keepsL hp).keeps lower_converts
  · exact (upper_keepsL hp).keeps upper_converts
  · exact (title_keepsL hp).keeps title_converts

/-- C120: trimming caseless code points and case conversion can be done in either order. -/
theorem C120_trim (conv : Str → Res Str) (hconv : conv ∈ [toLower, toUpper, toTitle]) (p : Char32 → Bool)
    (hp : ∀ c, c.toNat ≤ 0x10FFFF → p c = true → Caseless c) (s t : Str) (h : conv s = .ok t) (hl : s.length < SIZE_MOD) (hl' : t.length < SIZE_MOD) :
    (∃ a b, trimStartWhere s p = .ok a ∧ trimStartWhere t p = .ok b ∧ conv a = .ok b) ∧
    (∃ a b, trimEndWhere s p = .ok a ∧ trimEndWhere t p = .ok b ∧ conv a = .ok b) ∧
    (∃ a b, trimWhere s p = .ok a ∧ trimWhere t p = .ok b ∧ conv a = .ok b) :=
  (case_keeps hconv hp).trim h hl hl'

/-- C120: the same for the functions that take a list of code points. -/
theorem C120_trim_chars (conv : Str → Res Str) (hconv : conv ∈ [toLower, toUpper, toTitle]) (chars : List Char32)
    (hc : ∀ c ∈ chars, Caseless c) (s t : Str) (h : conv s = .ok t) (hl : s.length < SIZE_MOD) (hl' : t.length < SIZE_MOD) :
    (∃ a b, trimStart s chars = .ok a ∧ trimStart t chars = .ok b ∧ conv a = .ok b) ∧
    (∃ a b, trimEnd s chars = .ok a ∧ trimEnd t chars = .ok b ∧ conv a = .ok b) ∧
    (∃ a b, trim s chars = .ok a ∧ trim t chars = .ok b ∧ conv a = .ok b) :=
  C120_trim conv hconv (u32Contains chars) (fun c _ h => hc c ((u32Contains_iff chars c).mp h)) s t h hl hl'

/-- C120: splitting at caseless code points and case conversion can be done in either order, whatever the limit is and whether empty pieces are
ignored or not. -/
theorem C120_split_chars (conv : Str → Res Str) (hconv : conv ∈ [toLower, toUpper, toTitle]) (chars : List Char32)
    (hc : ∀ c ∈ chars, Caseless c) (s t : Str) (h : conv s = .ok t) (hl : s.length < SIZE_MOD) (hl' : t.length < SIZE_MOD) (n : Nat) (hn : 0 < n)
    (ig : Bool) : ∃ ps qs, splitChars s chars ⟨n, ig⟩ = .ok ps ∧ splitChars t chars ⟨n, ig⟩ = .ok qs ∧ ps.mapM conv = .ok qs :=
  (case_keeps hconv fun c _ h => hc c ((u32Contains_iff chars c).mp h)).splitChars h hl hl' n hn ig

/-- C120: the white space characters, the newlines among them, have no case and occur in no decompositions; no ASCII character that is not a
letter has a case. -/
theorem C120_caseless (c : Char32) :
    (c.toNat ≤ 0x1FFFFF → isWhitespace c = true ∨ isNewline c = true → Caseless c ∧ Unpaired c) ∧
    (c.toNat < 128 → (Caseless c ↔ isLetter c = false)) := by
  have key : c.toNat ∈ spaces → Caseless c ∧ Unpaired c := by
    intro h
    constructor
    · have := List.all_eq_true.mp spaces_caseless _ h
      rw [UInt32.ofNat_toNat] at this
      exact of_decide_eq_true this
    · intro d b m hd
      have := List.all_eq_true.mp spaces_unpaired _ (pairOf_mem hd)
      simp only [Bool.and_eq_true, Bool.not_eq_true', ← Bool.not_eq_true, List.elem_iff] at this
      refine ⟨?_, ?_, ?_⟩ <;> intro e <;> simp_all
  refine ⟨?_, ?_⟩
  · intro h1 h2
    have hw : isWhitespace c = true := h2.elim id fun h => (C51_whitespace c).mpr (.inr (.inl h))
    exact key (whitespace_spaces c (by omega) hw)
  · intro h
    have : ∀ n : Fin 128, Caseless (UInt32.ofNat n.val) ↔ isLetter (UInt32.ofNat n.val) = false := by decide +kernel
    have := this ⟨c.toNat, h⟩
    simpa using this

theorem newline_caseless (c : Char32) (h : newline c = true) : Caseless c ∧ Unpaired c := by
  have h1 := (newline_iff c).mp h
  refine (C120_caseless c).1 ?_ (.inr ((C51_newline c).1.mpr ?_))
  · unfold IsNewlineChar at h1
    rcases h1 with rfl | rfl | rfl | rfl | rfl | rfl | rfl <;> decide
  · unfold IsNewlineChar at h1
    simpa using h1

/-- C120: the lines of a converted text are the converted lines (`mem` are the values that lie in memory behind an array of the library, see
C22). -/
theorem C120_lines (conv : Str → Res Str) (hconv : conv ∈ [toLower, toUpper, toTitle]) (mem : List Char32) (s t : Str) (h : conv s = .ok t)
    (hm : Harmless mem IsNewlineChar s) (hm' : Harmless mem IsNewlineChar t) (hl : s.length < SIZE_MOD) (hl' : t.length < SIZE_MOD) (n : Nat)
    (hn : 0 < n) (ig : Bool) :
    ∃ ps qs, splitLines mem s ⟨n, ig⟩ = .ok ps ∧ splitLines mem t ⟨n, ig⟩ = .ok qs ∧ ps.mapM conv = .ok qs := by
  rw [C40_memory_behind_array mem s hm, C40_memory_behind_array mem t hm']
  exact (case_keeps hconv fun c _ h => (newline_caseless c h).1).splitLines h hl hl' n hn ig

/-- C120: trimming code points that occur in no decompositions, and to_decomposed, can be done in either order. -/
theorem C120_decomposed_trim (p : Char32 → Bool) (hp : ∀ c, c.toNat ≤ 0x1FFFFF → p c = true → Unpaired c) (s t : Str) (g : Nat)
    (h : toDecomposed s (g + 1) = .ok t) (hl : s.length < SIZE_MOD) (hl' : t.length < SIZE_MOD) :
    (∃ a b, trimStartWhere s p = .ok a ∧ trimStartWhere t p = .ok b ∧ toDecomposed a (g + 1) = .ok b) ∧
    (∃ a b, trimEndWhere s p = .ok a ∧ trimEndWhere t p = .ok b ∧ toDecomposed a (g + 1) = .ok b) ∧
    (∃ a b, trimWhere s p = .ok a ∧ trimWhere t p = .ok b ∧ toDecomposed a (g + 1) = .ok b) :=
  (decomposed_keeps g fun c hc h => hp c (by omega) h).trim h hl hl'

/-- C120: splitting at such code points and to_decomposed. -/
theorem C120_decomposed_split_chars (chars : List Char32) (hc : ∀ c ∈ chars, Unpaired c) (s t : Str) (g : Nat)
    (h : toDecomposed s (g + 1) = .ok t) (hl : s.length < SIZE_MOD) (hl' : t.length < SIZE_MOD) (n : Nat) (hn : 0 < n) (ig : Bool) :
    ∃ ps qs, splitChars s chars ⟨n, ig⟩ = .ok ps ∧ splitChars t chars ⟨n, ig⟩ = .ok qs ∧ ps.mapM (toDecomposed · (g + 1)) = .ok qs :=
  (decomposed_keeps g (p := u32Contains chars) fun c _ h => hc c ((u32Contains_iff chars c).mp h)).splitChars h hl hl' n hn ig

/-- C120: the lines of a decomposed text are the decomposed lines. -/
theorem C120_decomposed_lines (mem : List Char32) (s t : Str) (g : Nat) (h : toDecomposed s (g + 1) = .ok t)
    (hm : Harmless mem IsNewlineChar s) (hm' : Harmless mem IsNewlineChar t) (hl : s.length < SIZE_MOD) (hl' : t.length < SIZE_MOD) (n : Nat)
    (hn : 0 < n) (ig : Bool) :
    ∃ ps qs, splitLines mem s ⟨n, ig⟩ = .ok ps ∧ splitLines mem t ⟨n, ig⟩ = .ok qs ∧ ps.mapM (toDecomposed · (g + 1)) = .ok qs := by
  rw [C40_memory_behind_array mem s hm, C40_memory_behind_array mem t hm']
  exact (decomposed_keeps g fun c _ h => (newline_caseless c h).2).splitLines h hl hl' n hn ig

-- " \t aß\u2003\r\nb ": trimmed, and cut into lines
example : toUpper [0x20, 0x61, 0xC3, 0x9F, 0xE2, 0x80, 0x83, 0x0D, 0x0A, 0x62, 0x20] = .ok [0x20, 0x41, 0x53, 0x53, 0xE2, 0x80, 0x83, 0x0D, 0x0A, 0x42, 0x20] ∧
    trimWhere [0x20, 0x61, 0xC3, 0x9F, 0xE2, 0x80, 0x83, 0x0D, 0x0A, 0x62, 0x20] isWhitespace = .ok [0x61, 0xC3, 0x9F, 0xE2, 0x80, 0x83, 0x0D, 0x0A, 0x62] ∧
    splitLines [] [0x20, 0x41, 0x53, 0x53, 0xE2, 0x80, 0x83, 0x0D, 0x0A, 0x42, 0x20] = .ok [[0x20, 0x41, 0x53, 0x53, 0xE2, 0x80, 0x83], [0x42, 0x20]] := by
  decide +kernel

-- "é, b" split at the comma and the space, and decomposed
example : toDecomposed [0xC3, 0xA9, 0x2C, 0x20, 0x62] = .ok [0x65, 0xCC, 0x81, 0x2C, 0x20, 0x62] ∧
    splitChars [0xC3, 0xA9, 0x2C, 0x20, 0x62] [0x2C, 0x20] ⟨5, true⟩ = .ok [[0xC3, 0xA9], [0x62]] := by decide +kernel

/-- C120: letters must not be trimmed or be separators: "xax" without x, "aXb" split at X, and "é" split at the acute accent, before and after
conversion. -/
theorem C120_false :
    trim [0x78, 0x61, 0x78] [0x78] = .ok [0x61] ∧ toUpper [0x78, 0x61, 0x78] = .ok [0x58, 0x41, 0x58] ∧
    trim [0x58, 0x41, 0x58] [0x78] = .ok [0x58, 0x41, 0x58] ∧
    splitChars [0x61, 0x58, 0x62] [0x58] ⟨5, false⟩ = .ok [[0x61], [0x62]] ∧ toTitle [0x61, 0x58, 0x62] = .ok [0x41, 0x78, 0x62] ∧
    splitChars [0x41, 0x78, 0x62] [0x58] ⟨5, false⟩ = .ok [[0x41, 0x78, 0x62]] ∧
    splitChars [0xC3, 0xA9] [0x301] ⟨5, false⟩ = .ok [[0xC3, 0xA9]] ∧ toDecomposed [0xC3, 0xA9] = .ok [0x65, 0xCC, 0x81] ∧
    splitChars [0x65, 0xCC, 0x81] [0x301] ⟨5, false⟩ = .ok [[0x65], []] := by decide +kernel

end Ystring
