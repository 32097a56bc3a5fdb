import Verif.Model.Constants
import Verif.Props.Memory
import Verif.Props.Predicates
/-
Property theorems C42 for `trim(str, array)` with a `char32_t` array that is not terminated, among them the public array
ASCII_WHITESPACE.
-/
namespace Ystring
open Spec

/-- C42: with any `char32_t` array as second argument the functions trim exactly the members of the array, as long as none
of the values that lie in memory behind the array, up to the first zero, occurs in the string (other than these members). -/
theorem C42_trim_array (array mem : List Char32) (s : Str) (hs : Valid s) (hl : s.length < SIZE_MOD)
    (h : Harmless mem (· ∈ array) s) (p : Char32 → Bool) (hp : ∀ c, p c = true ↔ c ∈ array) :
    (∃ a t, s = a ++ t ∧ trimStartArray array mem s = .ok t ∧ AllChars p a ∧ NotFirst p t) ∧
    (∃ a t, s = t ++ a ∧ trimEndArray array mem s = .ok t ∧ AllChars p a ∧ NotLast p t) ∧
    (∃ a t b, s = a ++ t ++ b ∧ trimArray array mem s = .ok t ∧ AllChars p a ∧ AllChars p b ∧ NotFirst p t ∧ NotLast p t) := by
  have hc : ∀ t, t <:+: s → ∀ c, Contains t c → u32Contains (pointerView array mem) c = p c := by
    intro t ht c hc
    rw [u32Contains_mem _ _ _ fun hm => h.infix ht c hm hc, Bool.eq_iff_iff, u32Contains_iff, hp]
    simp [pointerView]
  have h1 : ∀ t, t <:+: s → trimStartArray array mem t = trimStartWhere t p := by
    intro t ht
    unfold trimStartArray trimStart trimStartWhere
    rw [findFirstWhere_congr t _ _ 0 fun c hx => by rw [hc t ht c hx]]
  have h2 : ∀ t, t <:+: s → trimEndArray array mem t = trimEndWhere t p := by
    intro t ht
    unfold trimEndArray trimEnd trimEndWhere
    rw [findLastWhere_congr t _ _ npos fun c hx => by rw [hc t ht c hx]]
  obtain ⟨a, t, e1, e2, e3, e4, _⟩ := C42_trim_start_where s hs hl p
  obtain ⟨a', t', e1', e2', e3', e4', _⟩ := C42_trim_end_where s hs hl p
  obtain ⟨a3, t3, b3, f1, f2, f3, f4, f5, f6, _⟩ := C42_trim_where s hs hl p
  refine ⟨⟨a, t, e1, by rw [h1 s (List.infix_refl _), e2], e3, e4⟩, ⟨a', t', e1', by rw [h2 s (List.infix_refl _), e2'], e3', e4'⟩,
    ⟨a3, t3, b3, f1, ?_, f3, f4, f5, f6⟩⟩
  rw [← f2]
  have h1s := h1 s (List.infix_refl _)
  unfold trimArray trim trimWhere
  unfold trimStartArray at h1s
  rw [h1s, e2]
  simp only [bind, Except.bind]
  have ht : t <:+: s := ⟨a, [], by simp [e1]⟩
  exact h2 t ht

/-- C42: the public array ASCII_WHITESPACE has exactly the ASCII characters that `is_whitespace` accepts. -/
theorem C42_ascii_whitespace (c : Char32) : c ∈ ASCII_WHITESPACE ↔ c < 128 ∧ isWhitespace c = true := by
  have h : ∀ n : Fin 128, (UInt32.ofNat n ∈ ASCII_WHITESPACE ↔ isWhitespace (UInt32.ofNat n) = true) := by decide +kernel
  constructor
  · intro hc
    have hlt : c < 128 := by
      unfold ASCII_WHITESPACE at hc
      simp only [List.mem_cons, List.not_mem_nil, or_false] at hc
      rcases hc with rfl | rfl | rfl | rfl | rfl | rfl <;> decide
    refine ⟨hlt, ?_⟩
    have := (h ⟨c.toNat, hlt⟩).mp
    simp only [UInt32.ofNat_toNat] at this
    exact this hc
  · rintro ⟨hlt, hw⟩
    have := (h ⟨c.toNat, hlt⟩).mpr
    simp only [UInt32.ofNat_toNat] at this
    exact this hw

/-- The hypotheses are met: a vertical tab and a form feed around non-ASCII text, and a letter behind the array. -/
example : Harmless [0x41] (· ∈ ASCII_WHITESPACE) [0x0B, 0xC3, 0xA6, 0x0C] ∧
    trimArray ASCII_WHITESPACE [0x41] [0x0B, 0xC3, 0xA6, 0x0C] = .ok [0xC3, 0xA6] ∧
    trimDefault [0x41] [0x0B, 0xC3, 0xA6, 0x0C] = .ok [0x0B, 0xC3, 0xA6, 0x0C] := by
  refine ⟨?_, by decide +kernel, by decide +kernel⟩
  intro c hc h
  rw [contains_decodes (cs := [0x0B, 0xE6, 0x0C]) ?_] at h
  · simp only [List.mem_singleton] at hc
    subst hc
    simp at h
  · exact .cons (u := [0x0B]) (.one (by decide) (by decide)) (.cons (u := [0xC3, 0xA6])
      (.two (by decide) (by decide) ⟨by decide, by decide⟩ (by decide)) (.cons (u := [0x0C]) (.one (by decide) (by decide)) .nil))

end Ystring
