import Verif.Props.Replace
import Verif.Props.Basics
import Verif.Props.Codec
import Verif.Props.Chars
import Verif.Props.Slice
import Verif.Props.FindWhere
import Verif.Props.Find
import Verif.Props.Codepoints
import Verif.Props.Case
import Verif.Props.Escape
import Verif.Props.Lines
import Verif.Props.CaseInsensitive
import Verif.Props.CaseInsensitiveFind
/-
C124: after `replace_invalid_utf8` a string can be passed on.
-/
namespace Ystring
open Spec

/-- The call returns: it neither throws nor has undefined behaviour nor runs for ever. -/
def Spec.Returns {α : Type} (x : Res α) : Prop := ∃ v, x = .ok v

theorem repaired_valid {s r : Str} {chr : Char32} (h : replaceInvalidUtf8 s chr = .ok r) : Valid r := by
  obtain ⟨r', h1, h2, _⟩ := C14_replace_invalid s chr
  rw [h] at h1; cases h1
  exact (C08_is_valid_partial r).1.mp h2

theorem decodes_first (p : Char32 → Bool) {s : Str} {cs : List Char32} (h : Decodes s cs) : (∀ x ∈ cs, p x = false) ∨
    ∃ u v t ds c, s = u ++ v ++ t ∧ Decodes u ds ∧ (∀ x ∈ ds, p x = false) ∧ IsSeq v c ∧ p c = true := by
  induction h with
  | nil => exact .inl (by simp)
  | @cons u s c cs hu hs ih =>
    cases hp : p c with
    | true => exact .inr ⟨[], u, s, [], c, by simp, .nil, by simp, hu, hp⟩
    | false =>
      rcases ih with h | ⟨a, v, t, ds, d, rfl, h2, h3, h4, h5⟩
      · exact .inl fun x hx => by
          rcases List.mem_cons.mp hx with rfl | hx
          · exact hp
          · exact h x hx
      · exact .inr ⟨u ++ a, v, t, c :: ds, d, by simp, .cons hu h2, fun x hx => by
          rcases List.mem_cons.mp hx with rfl | hx
          · exact hp
          · exact h3 x hx, h4, h5⟩

theorem decodes_last (p : Char32 → Bool) {s : Str} {cs : List Char32} (h : Decodes s cs) : (∀ x ∈ cs, p x = false) ∨
    ∃ t v w ds c, s = t ++ v ++ w ∧ Decodes w ds ∧ (∀ x ∈ ds, p x = false) ∧ IsSeq v c ∧ p c = true := by
  induction h with
  | nil => exact .inl (by simp)
  | @cons u s c cs hu hs ih =>
    rcases ih with h | ⟨t, v, w, ds, d, rfl, h2, h3, h4, h5⟩
    · cases hp : p c with
      | true => exact .inr ⟨[], u, s, cs, c, by simp, hs, h, hu, hp⟩
      | false =>
        refine .inl fun x hx => ?_
        rcases List.mem_cons.mp hx with rfl | hx
        · exact hp
        · exact h x hx
    · exact .inr ⟨u ++ t, v, w, ds, d, by simp, h2, h3, h4, h5⟩

/-- C124, reading: whatever the bytes, the functions that read a string return when it has been repaired. -/
theorem C124_reading (s r : Str) (chr : Char32) (hr : replaceInvalidUtf8 s chr = .ok r) (hl : Fits r) (p : Char32 → Bool)
    (c : Char32) (k : Int) :
    isValidUtf8 r = .ok true ∧ Returns (toUtf32 r) ∧ Returns (contains r c) ∧ Returns (countCodepoints r) ∧
    Returns (countChars r) ∧ Returns (getCharPos r k) ∧ Returns (getCharRange r k) ∧ Returns (getCodepoint r k) ∧
    (k ≠ PTRDIFF_MIN → Returns (getCodepointPos r k)) ∧ Returns (findFirstWhere r p 0) ∧ Returns (findLastWhere r p npos) := by
  have hv := repaired_valid hr
  have hm : r.length < npos := by unfold Fits PTRDIFF_MAX at hl; unfold npos; omega
  have hs : r.length < SIZE_MOD := by unfold Fits PTRDIFF_MAX at hl; unfold SIZE_MOD; omega
  obtain ⟨cs, hd⟩ := hv
  obtain ⟨gs, hg⟩ := (C24_segmentation r).1.mp ⟨cs, hd⟩
  obtain ⟨ps, hp⟩ := (C27_codePoints r).1.mp ⟨cs, hd⟩
  refine ⟨(C08_is_valid_partial r).1.mpr ⟨cs, hd⟩, ⟨cs, ((C09_to_utf32 r).1 cs).mpr hd⟩, ⟨_, C16_contains_valid r cs hd c⟩,
    ⟨_, C12_count_valid r cs hd⟩, ⟨_, C25_count_chars r gs hg hs⟩, ⟨_, C25_get_char_pos r gs hg hs k⟩, ?_, ?_,
    fun hk => ⟨_, C27_get_codepoint_pos_partial r ps hp k hk⟩, ?_, ?_⟩
  · exact (C26_empty_iff r gs hg hm k).imp fun _ h => h.1
  · have a := C28_get_codepoint r ps hp k
    by_cases h1 : (ps.length : Int) ≤ k
    · exact ⟨_, a.2.1 h1⟩
    by_cases h2 : k < -(ps.length : Int)
    · exact ⟨_, a.2.2 h2⟩
    have hi : (if 0 ≤ k then k.toNat else (ps.length + k).toNat) < ps.length := by split <;> omega
    obtain ⟨c, hc⟩ := hp.2 _ (List.getElem_mem hi)
    exact ⟨_, a.1 _ hi c hc (by split <;> omega)⟩
  · have a := C20_find_first_where [] r p
    rcases decodes_first p hd with h | ⟨u, v, t, cs, c, h1, h2, h3, h4, h5⟩
    · exact ⟨_, a.2.1 cs hd h⟩
    · exact ⟨_, a.1 u v t cs c h1 h2 h3 h4 h5⟩
  · have a := C21_find_last_where r [] p npos (by rw [List.append_nil]; omega)
    rw [List.append_nil] at a
    rcases decodes_last p hd with h | ⟨u, v, t, cs, c, h1, h2, h3, h4, h5⟩
    · exact ⟨_, a.2.1 cs hd h⟩
    · exact ⟨_, a.1 u v t cs c h1 h2 h3 h4 h5⟩

/-- C124, results: so do those that cut it into parts, return a changed string, or escape it. (`split_lines` and the default
`trim` read past an array of constants, C22 and C42; what they read there must be harmless.) -/
theorem C124_writing (s r : Str) (chr : Char32) (hr : replaceInvalidUtf8 s chr = .ok r) (hl : Fits r) (p : Char32 → Bool)
    (chars mem : List Char32) (hm : Harmless mem IsNewlineChar r) (n : Nat) (hn : 0 < n) (ig : Bool) (i j : Nat) (sub : Str) :
    Returns (reverse r) ∧ Returns (trimStartWhere r p) ∧ Returns (trimEndWhere r p) ∧ Returns (trimWhere r p) ∧
    Returns (splitChars r chars ⟨n, ig⟩) ∧ Returns (splitLines mem r ⟨n, ig⟩) ∧ Returns (CI.splitChars r chars ⟨n, ig⟩) ∧
    Returns (getCharSubstring r i j) ∧ Returns (getCodepointSubstring r i j) ∧ Returns (replaceChars r i j sub) ∧
    Returns (replaceCodepoints r i j sub) ∧ Returns (escapeJson r) := by
  have hv := repaired_valid hr
  have h1 : r.length < npos := by unfold Fits PTRDIFF_MAX at hl; unfold npos; omega
  have h2 : r.length < SIZE_MOD := by unfold Fits PTRDIFF_MAX at hl; unfold SIZE_MOD; omega
  have h3 : r.length < 2 ^ 63 := by unfold Fits PTRDIFF_MAX at hl; omega
  have mi : PTRDIFF_MIN < (i : Int) := by unfold PTRDIFF_MIN; omega
  have mj : PTRDIFF_MIN < (j : Int) := by unfold PTRDIFF_MIN; omega
  obtain ⟨cs, hd⟩ := hv
  obtain ⟨gs, hg⟩ := (C24_segmentation r).1.mp ⟨cs, hd⟩
  obtain ⟨ps, hp⟩ := (C27_codePoints r).1.mp ⟨cs, hd⟩
  have hu := ((C09_to_utf32 r).1 cs).mpr hd
  obtain ⟨⟨t1, a1, _⟩, ⟨t2, a2, _⟩, ⟨t3, a3, _⟩⟩ := C89_trim r cs hu hl p
  exact ⟨⟨_, (C33_reverse r gs hg h2).1⟩, ⟨_, a1⟩, ⟨_, a2⟩, ⟨_, a3⟩,
    (C89_split_chars r cs hu hl chars n hn ig).imp fun _ h => h.1, (C89_split_lines mem r cs hu hl hm n hn ig).imp fun _ h => h.1,
    (C89_split_chars_case r cs hu hl chars n hn ig).imp fun _ h => h.1,
    ⟨_, C30_get_char_substring_partial r gs hg h3 i j (.inl (by omega))⟩,
    ⟨_, C29_get_codepoint_substring_partial r ps hp h1 i j mi mj (.inl (by omega))⟩,
    ⟨_, C31_replace_chars_partial r gs hg h1 i j (.inl (by omega)) sub⟩,
    ⟨_, C31_replace_codepoints_partial r ps hp h1 i j mi mj (.inl (by omega)) sub⟩, ⟨_, C56_exact r hl⟩⟩

/-- C124, two strings: so do the case-insensitive functions, with any two repaired strings. -/
theorem C124_case_insensitive (s r s' r' to : Str) (chr chr' : Char32) (hr : replaceInvalidUtf8 s chr = .ok r)
    (hr' : replaceInvalidUtf8 s' chr' = .ok r') (hl : Fits r) (n : Nat) (hn : 0 < n) (ig : Bool) (k : Int) :
    Returns (CI.equal r r') ∧ Returns (CI.compare r r') ∧ Returns (CI.less r r') ∧ Returns (CI.startsWith r r') ∧
    Returns (CI.endsWith r r') ∧ Returns (CI.findFirst r r' 0) ∧ (r' ≠ [] → Returns (CI.findLast r r' npos)) ∧
    Returns (CI.split r r' ⟨n, ig⟩) ∧ Returns (CI.replace r r' to k) := by
  have hv := repaired_valid hr
  have hv' := repaired_valid hr'
  have h1 : r.length < npos := by unfold Fits PTRDIFF_MAX at hl; unfold npos; omega
  have h2 : r.length < SIZE_MOD := by unfold Fits PTRDIFF_MAX at hl; unfold SIZE_MOD; omega
  obtain ⟨cs, hd⟩ := hv
  obtain ⟨ds, hd'⟩ := hv'
  obtain ⟨c, hc, _, _, _, _, _, hless⟩ := CI.C44_compare hd hd'
  refine ⟨⟨_, CI.C43_equal hd hd'⟩, ⟨c, hc⟩, ⟨_, hless⟩, (CI.C46_starts_with ⟨cs, hd⟩ ⟨ds, hd'⟩).imp fun _ h => h.1,
    (CI.C46_ends_with ⟨cs, hd⟩ ⟨ds, hd'⟩).imp fun _ h => h.1, ?_, fun h0 => ?_, ?_, ?_⟩
  · by_cases h0 : r' = []
    · subst h0; exact ⟨_, (CI.C45_find_first_corner r [] 0).1⟩
    · rcases CI.C45_find_first [] r r' ⟨cs, hd⟩ ⟨ds, hd'⟩ h0 with ⟨_, e⟩ | ⟨_, _, _, _, _, e⟩
      · exact ⟨_, e⟩
      · exact ⟨_, e⟩
  · have := CI.C45_find_last r [] r' ⟨cs, hd⟩ ⟨ds, hd'⟩ h0 npos (by rw [List.append_nil]; omega)
    rw [List.append_nil] at this
    rcases this with ⟨_, e⟩ | ⟨_, _, _, _, _, e⟩
    · exact ⟨_, e⟩
    · exact ⟨_, e⟩
  · by_cases h0 : r' = []
    · subst h0; exact ⟨_, CI.C47_split_empty r n hn ig h2⟩
    · obtain ⟨_, _, _, e⟩ := CI.C47_split r r' ⟨cs, hd⟩ ⟨ds, hd'⟩ h0 n hn ig h2
      exact ⟨_, e⟩
  · by_cases h0 : r' = []
    · subst h0; exact ⟨_, CI.C47_replace_empty r to k h2⟩
    · by_cases hk : 0 ≤ k
      · obtain ⟨_, _, _, e⟩ := CI.C47_replace_left r r' to ⟨cs, hd⟩ ⟨ds, hd'⟩ h0 k hk h2
        exact ⟨_, e⟩
      · obtain ⟨_, _, _, _, e⟩ := CI.C47_replace_right r r' to ⟨cs, hd⟩ ⟨ds, hd'⟩ h0 k (by omega) h2
        exact ⟨_, e⟩

/-- C124, what does not hold for all: the conversions of case of a repaired string return exactly if it has no code point above
U+10FFFF. `replace_invalid_utf8` leaves those in (`C124_false`). -/
theorem C124_case_partial (s r : Str) (chr : Char32) (hr : replaceInvalidUtf8 s chr = .ok r) :
    ∃ cs, toUtf32 r = .ok cs ∧
    (Returns (toLower r) ↔ ∀ c ∈ cs, c.toNat ≤ 0x10FFFF) ∧ (Returns (toUpper r) ↔ ∀ c ∈ cs, c.toNat ≤ 0x10FFFF) ∧
    (Returns (toTitle r) ↔ ∀ c ∈ cs, c.toNat ≤ 0x10FFFF) := by
  obtain ⟨cs, hd⟩ := repaired_valid hr
  have hc := ((C09_to_utf32 r).1 cs).mpr hd
  refine ⟨cs, hc, ?_⟩
  have key : ∀ {f : Str → Res Str} {g : List Char32 → Str}, (∀ cs, Decodes r cs → InUnicode cs → f r = .ok (g cs)) →
      ((¬ ∃ cs, Decodes r cs ∧ InUnicode cs) → f r = .error .ystring) → (Returns (f r) ↔ InUnicode cs) := by
    intro f g h1 h2
    refine ⟨fun ⟨v, hv⟩ => ?_, fun h => ⟨_, h1 cs hd h⟩⟩
    by_cases h : ∃ cs, Decodes r cs ∧ InUnicode cs
    · obtain ⟨ds, h3, h4⟩ := h
      have := ((C09_to_utf32 r).1 ds).mpr h3
      rw [hc] at this; cases this
      exact h4
    · rw [h2 h] at hv; cases hv
  exact ⟨key (C53_to_lower r).1 (C53_to_lower r).2, key (C53_to_upper r).1 (C53_to_upper r).2,
    key (C53_to_title r).1 (C53_to_title r).2⟩

/-- A repaired string that `to_lower` does not take. -/
theorem C124_false : replaceInvalidUtf8 [0x61, 0xF5, 0x80, 0x80, 0x80, 0xFF] 0xFFFD = .ok [0x61, 0xF5, 0x80, 0x80, 0x80, 0xEF, 0xBF, 0xBD] ∧
    toLower [0x61, 0xF5, 0x80, 0x80, 0x80, 0xEF, 0xBF, 0xBD] = .error .ystring := by decide +kernel

/-! Cases that meet the hypotheses: garbage, repaired. -/
example : replaceInvalidUtf8 [0x80, 0x61, 0xC3, 0xFF, 0x0A, 0xE2, 0x82] 0x3F = .ok [0x3F, 0x61, 0x3F, 0x3F, 0x0A, 0x3F] ∧
    Fits [0x3F, 0x61, 0x3F, 0x3F, 0x0A, 0x3F] ∧
    countChars [0x80, 0x61, 0xC3, 0xFF, 0x0A, 0xE2, 0x82] = .error .ystring ∧ countChars [0x3F, 0x61, 0x3F, 0x3F, 0x0A, 0x3F] = .ok 6 ∧
    toLower [0x3F, 0x61, 0x3F, 0x3F, 0x0A, 0x3F] = .ok [0x3F, 0x61, 0x3F, 0x3F, 0x0A, 0x3F] := by unfold Fits; decide +kernel
example : Harmless [] IsNewlineChar [0x3F, 0x61, 0x3F, 0x3F, 0x0A, 0x3F] := by
  intro c hc; simp at hc

end Ystring
