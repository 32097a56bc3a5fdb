import Verif.Spec.Trim
import Verif.Props.FindWhere
/-
Property theorem C42 (trim).
-/
namespace Ystring
open Spec

theorem npos_ok {r : Str} (h : r.length < SIZE_MOD) : r.length ≤ npos := by unfold SIZE_MOD at h; unfold npos; omega

theorem NotFirst.nil (p : Char32 → Bool) : NotFirst p [] := by
  intro v c t' e h
  have := h.ne_nil
  simp at e; exact absurd e.1 this

theorem NotLast.nil (p : Char32 → Bool) : NotLast p [] := by
  intro v c t' e h
  have := h.ne_nil
  simp at e; exact absurd e.2 this

/-- C42: `trim_start_where` removes exactly the longest prefix of code points satisfying the predicate: what is removed
consists of such code points, what remains does not start with one. -/
theorem C42_trim_start_where (s : Str) (hs : Valid s) (hl : s.length < SIZE_MOD) (p : Char32 → Bool) :
    ∃ a t, s = a ++ t ∧ trimStartWhere s p = .ok t ∧ AllChars p a ∧ NotFirst p t ∧ Valid t := by
  have h0 := C20_find_first_where [] s (fun c => !p c)
  simp only [List.nil_append, List.length_nil, Nat.zero_add] at h0
  rcases C20_cases s (fun c => !p c) with ⟨u, v, t, cs, c, e, h1, h2, h3, h4⟩ | ⟨cs, h1, h2⟩ | ⟨u, t, cs, e, h1, h2, h3, h4⟩
  · have hf := h0.1 u v t cs c e h1 h2 h3 h4
    have ht : Valid t := (valid_cut (e ▸ hs) ⟨_, h3.decodes⟩ h3.ne_nil).2
    refine ⟨u, v ++ t, by simp [e], ?_, ⟨cs, h1, fun x hx => by simpa using h2 x hx⟩, ?_, ?_⟩
    · unfold trimStartWhere
      have hne : Subrange.nonempty ⟨u.length, v.length⟩ = true := by
        simp [Subrange.nonempty, h3.ne_nil]
      rw [hf]
      simp only [bind, Except.bind]
      rw [if_neg (by simp [hne])]
      unfold substr Subrange.start
      simp only
      rw [e] at hl ⊢
      rw [if_neg (by simp), List.append_assoc, List.drop_left, List.take_of_length_le (npos_ok (by simp at hl ⊢; omega))]
    · intro v' c' t' e' h'
      have := h3.append_inj h' e'
      simp only [Bool.not_eq_true'] at h4
      rw [← this.2.1]; exact h4
    · obtain ⟨ds, hd⟩ := ht; exact ⟨_, h3.decodes.append hd⟩
  · refine ⟨s, [], by simp, ?_, ⟨cs, h1, fun x hx => by simpa using h2 x hx⟩, NotFirst.nil p, ⟨[], .nil⟩⟩
    unfold trimStartWhere
    rw [h0.2.1 cs h1 h2]
    simp [bind, Except.bind, Subrange.nonempty]
  · exfalso
    obtain ⟨us, hu, rfl, rfl⟩ := h1.units
    subst e
    exact h3 ((valid_bad_tail hu h4).mp hs)

/-- C42: `trim_end_where` removes exactly the longest suffix of code points satisfying the predicate. -/
theorem C42_trim_end_where (s : Str) (hs : Valid s) (hl : s.length < SIZE_MOD) (p : Char32 → Bool) :
    ∃ a t, s = t ++ a ∧ trimEndWhere s p = .ok t ∧ AllChars p a ∧ NotLast p t ∧ Valid t := by
  have h0 := C21_find_last_where s [] (fun c => !p c) npos (by have := npos_ok hl; simp; omega)
  simp only [List.append_nil] at h0
  rcases C21_cases s (fun c => !p c) with ⟨t, v, w, cs, c, e, h1, h2, h3, h4⟩ | ⟨cs, h1, h2⟩ | ⟨t, w, cs, e, h1, h2, h3, h4⟩
  · have hf := h0.1 t v w cs c e h1 h2 h3 h4
    have ht : Valid t := (valid_cut (e ▸ hs) ⟨_, h3.decodes⟩ h3.ne_nil).1
    refine ⟨w, t ++ v, by simp [e], ?_, ⟨cs, h1, fun x hx => by simpa using h2 x hx⟩, ?_, ?_⟩
    · unfold trimEndWhere
      have hne : Subrange.nonempty ⟨t.length, v.length⟩ = true := by
        simp [Subrange.nonempty, h3.ne_nil]
      rw [hf]
      simp only [bind, Except.bind]
      rw [if_neg (by simp [hne])]
      have hstop : Subrange.stop ⟨t.length, v.length⟩ = (t ++ v).length := by
        unfold Subrange.stop sizeAdd
        rw [e] at hl
        simp only [List.length_append] at hl ⊢
        exact Nat.mod_eq_of_lt (by omega)
      rw [hstop]
      unfold substr
      rw [if_neg (by omega), List.drop_zero, e, List.take_left]
    · intro v' c' t' e' h'
      have := h3.append_inj' h' e'
      simp only [Bool.not_eq_true'] at h4
      rw [← this.2.1]; exact h4
    · obtain ⟨ds, hd⟩ := ht; exact ⟨_, hd.append h3.decodes⟩
  · refine ⟨s, [], by simp, ?_, ⟨cs, h1, fun x hx => by simpa using h2 x hx⟩, NotLast.nil p, ⟨[], .nil⟩⟩
    unfold trimEndWhere
    rw [h0.2.1 cs h1 h2]
    simp [bind, Except.bind, Subrange.nonempty]
  · exfalso
    obtain ⟨us, hu, rfl⟩ := hs.units
    obtain ⟨ws, hw, rfl, rfl⟩ := h1.units
    obtain ⟨zs, hz, rfl, rfl⟩ := valid_prefix hu hw e
    by_cases hz0 : zs = []
    · subst hz0; exact h3 rfl
    · obtain ⟨vs, x, rfl⟩ := units_snoc hz0
      simp at hz
      exact h4 ⟨x.1, x.2, bytesOf vs, hz.2, by simp⟩

/-- C42: `trim_where` removes exactly both. -/
theorem C42_trim_where (s : Str) (hs : Valid s) (hl : s.length < SIZE_MOD) (p : Char32 → Bool) :
    ∃ a t b, s = a ++ t ++ b ∧ trimWhere s p = .ok t ∧ AllChars p a ∧ AllChars p b ∧ NotFirst p t ∧ NotLast p t ∧ Valid t := by
  obtain ⟨a, t, e, h1, h2, h3, h4⟩ := C42_trim_start_where s hs hl p
  obtain ⟨b, t', e', h1', h2', h3', h4'⟩ := C42_trim_end_where t h4 (by rw [e] at hl; simp at hl; omega) p
  refine ⟨a, t', b, by rw [e, e']; simp, ?_, h2, h2', ?_, h3', h4'⟩
  · unfold trimWhere; rw [h1]; exact h1'
  · intro v c t'' ev hv
    exact h3 v c (t'' ++ b) (by rw [e', ev]; simp) hv

theorem allChars_nil {p : Char32 → Bool} {a t : Str} (h : AllChars p a) (hn : NotFirst p (a ++ t)) : a = [] := by
  obtain ⟨cs, hd, hc⟩ := h
  rcases hd.nil_or with ⟨h, -⟩ | ⟨u, c, t', ds, hu, -, rfl, rfl⟩
  · exact h
  · have := hn u c (t' ++ t) (by simp) hu
    rw [hc c (by simp)] at this; simp at this

theorem allChars_nil' {p : Char32 → Bool} {a t : Str} (h : AllChars p a) (hn : NotLast p (t ++ a)) : a = [] := by
  obtain ⟨cs, hd, hc⟩ := h
  obtain ⟨us, hu, rfl, rfl⟩ := hd.units
  by_cases h0 : us = []
  · subst h0; rfl
  · obtain ⟨vs, x, rfl⟩ := units_snoc h0
    simp at hu
    have := hn x.1 x.2 (t ++ bytesOf vs) (by simp) hu.2
    rw [hc x.2 (by simp [valsOf])] at this; simp at this

/-- C42: trimming twice is the same as trimming once. -/
theorem C42_idempotent (s t : Str) (hs : Valid s) (hl : s.length < SIZE_MOD) (p : Char32 → Bool) :
    (trimStartWhere s p = .ok t → trimStartWhere t p = .ok t) ∧
    (trimEndWhere s p = .ok t → trimEndWhere t p = .ok t) ∧
    (trimWhere s p = .ok t → trimWhere t p = .ok t) := by
  refine ⟨?_, ?_, ?_⟩
  · intro h
    obtain ⟨a, t', e, h1, h2, h3, h4⟩ := C42_trim_start_where s hs hl p
    rw [h] at h1; injection h1 with h1; subst h1
    obtain ⟨b, u, e', g1, g2, g3, g4⟩ := C42_trim_start_where t h4 (by rw [e] at hl; simp at hl; omega) p
    have := allChars_nil g2 (e' ▸ h3)
    subst this
    rw [List.nil_append] at e'; rw [g1, ← e']
  · intro h
    obtain ⟨a, t', e, h1, h2, h3, h4⟩ := C42_trim_end_where s hs hl p
    rw [h] at h1; injection h1 with h1; subst h1
    obtain ⟨b, u, e', g1, g2, g3, g4⟩ := C42_trim_end_where t h4 (by rw [e] at hl; simp at hl; omega) p
    have := allChars_nil' g2 (e' ▸ h3)
    subst this
    rw [List.append_nil] at e'; rw [g1, ← e']
  · intro h
    obtain ⟨a, t', c, e, h1, h2, -, h3, h3', h4⟩ := C42_trim_where s hs hl p
    rw [h] at h1; injection h1 with h1; subst h1
    obtain ⟨b, u, d, e', g1, g2, g2', g3, g3', g4⟩ := C42_trim_where t h4 (by rw [e] at hl; simp at hl; omega) p
    have := allChars_nil g2 (t := u ++ d) (by rw [← List.append_assoc]; exact e' ▸ h3)
    subst this
    have := allChars_nil' g2' (t := u) (by simpa using e' ▸ h3')
    subst this
    rw [List.nil_append, List.append_nil] at e'; rw [g1, ← e']

/-- C42: the versions with a list of characters trim the characters of the list. -/
theorem C42_trim_chars (s : Str) (chars : List Char32) (p : Char32 → Bool) (hp : ∀ c, p c = true ↔ c ∈ chars) :
    trimStart s chars = trimStartWhere s p ∧ trimEnd s chars = trimEndWhere s p ∧ trim s chars = trimWhere s p := by
  have : u32Contains chars = p := by
    funext c; rw [Bool.eq_iff_iff, u32Contains_iff, hp]
  unfold trim trimStart trimEnd trimWhere
  rw [this]
  exact ⟨rfl, rfl, rfl⟩

example : trim [0x20, 0xC3, 0xA6, 0x20, 0x42, 0x20] [0x20] = .ok [0xC3, 0xA6, 0x20, 0x42] ∧
    trimDefault [] [0x09, 0x61, 0x0A] = .ok [0x61] := by decide +kernel

/-- The default argument is converted from an array without a terminating zero: what follows the array in memory is
trimmed as well. -/
theorem C42_default_reads_past_array : trimDefault [0x61] [0x20, 0x61, 0x62] = .ok [0x62] := by decide +kernel

end Ystring
