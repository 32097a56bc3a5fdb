import Verif.Proofs.UnescapeLoop
import Verif.Props.Escape
/-
Property theorems C57 (round trip), C58 (safety) and C59 (meaning) of `unescape`.

`Spec.Reads E s o t`: reading `s` from the front, and replacing the escape sequences `E`, gives `o` and leaves `t`.
-/
namespace Ystring
open Spec

theorem Spec.Fits.lt12 {s : Str} (h : Fits s) : s.length + 12 < SIZE_MOD := by
  unfold Fits PTRDIFF_MAX at h; unfold SIZE_MOD; omega

/-! ### C58 -/

/-- The complete behaviour of `unescape`: the string is read up to its end, a malformed or an undefined place; in the
first case the result is what was read, in the second an exception is thrown. -/
theorem C58_exact (s : Str) (h : Fits s) : ∃ o t, Reads Escape s o t ∧
    ((t = [] ∧ unescape s = .ok o ∧ o.length ≤ s.length) ∨
      (Malformed t ∧ unescape s = .error .ystring) ∨
      (Undefined t ∧ unescape s = .error .ub)) := by
  obtain ⟨o, t, hr, rfl | hm | hu⟩ := reads_cases s.length s (Nat.le_refl _)
  · obtain ⟨junk, hb, hl⟩ := unescapeBuf_ok hr h.lt12
    exact ⟨o, [], hr, .inl ⟨rfl, unescape_of_buf_ok hb, by omega⟩⟩
  · exact ⟨o, t, hr, .inr (.inl ⟨hm, by unfold unescape; rw [unescapeBuf_bad hr hm h.lt12, bind_err]⟩)⟩
  · exact ⟨o, t, hr, .inr (.inr ⟨hu, by unfold unescape; rw [unescapeBuf_ub hr hu h.lt12, bind_err]⟩)⟩

/-- Whatever way the string is read up to a malformed place, an exception is thrown. -/
theorem C58_throws (s o t : Str) (h : Fits s) (hr : Reads Escape s o t) (ht : Malformed t) :
    unescape s = .error .ystring := by
  unfold unescape; rw [unescapeBuf_bad hr ht h.lt12, bind_err]

/-- Whatever way the string is read up to an undefined place, the behaviour is undefined. -/
theorem C58_undefined (s o t : Str) (h : Fits s) (hr : Reads Escape s o t) (ht : Undefined t) :
    unescape s = .error .ub := by
  unfold unescape; rw [unescapeBuf_ub hr ht h.lt12, bind_err]

/-- What is missing for C58: the inputs that run into one of the four undefined places. All others throw
`YstringException` or give a string that is no longer than the input. -/
theorem C58_partial (s : Str) (h : Fits s) (hu : ∀ o t, Reads Escape s o t → ¬ Undefined t) :
    unescape s = .error .ystring ∨ ∃ o, unescape s = .ok o ∧ o.length ≤ s.length := by
  obtain ⟨o, t, hr, ⟨_, h1, h2⟩ | ⟨_, h1⟩ | ⟨h1, _⟩⟩ := C58_exact s h
  · exact .inr ⟨o, h1, h2⟩
  · exact .inl h1
  · exact absurd h1 (hu o t hr)

theorem Spec.Reads.suffix {E : Str → Str → Str → Prop} {s o t : Str} (h : Reads E s o t) : ∃ p, s = p ++ t := by
  induction h with
  | stop => exact ⟨[], rfl⟩
  | @plain b s o t _ _ ih => obtain ⟨p, rfl⟩ := ih; exact ⟨b :: p, rfl⟩
  | @escape e s out o t _ _ ih => obtain ⟨p, rfl⟩ := ih; exact ⟨e ++ p, by simp⟩

theorem lastOf {p ds : Str} (h0 : 1 ≤ ds.length) : ∃ d ∈ ds, (p ++ ds).getLast? = some d := by
  have hne : ds ≠ [] := by intro e; simp [e] at h0
  refine ⟨ds.getLast hne, List.getLast_mem hne, ?_⟩
  rw [List.getLast?_append, List.getLast?_eq_some_getLast hne]
  simp

/-- A condition a caller can check: a string that does not end with a hexadecimal digit, and has no nine consecutive
hexadecimal digits, is unescaped without undefined behaviour. -/
theorem C58_safe_partial (s : Str) (h : Fits s)
    (hlast : ∀ b, s.getLast? = some b → ¬ IsHex b)
    (hrun : ∀ p ds t, s = p ++ ds ++ t → (∀ d ∈ ds, IsHex d) → ds.length < 9) :
    unescape s = .error .ystring ∨ ∃ o, unescape s = .ok o ∧ o.length ≤ s.length := by
  apply C58_partial s h
  intro o t hr hu
  obtain ⟨p, rfl⟩ := hr.suffix
  cases hu with
  | @oct ds h1 h3 hd =>
    obtain ⟨d, hm, he⟩ := lastOf (p := p ++ [0x5C]) h1
    exact hlast d (by simpa using he) (Spec.IsOct.hex (hd d hm))
  | @short ds h1 h3 hd =>
    obtain ⟨d, hm, he⟩ := lastOf (p := p ++ [0x5C, 0x75]) h1
    exact hlast d (by simpa using he) (hd d hm)
  | @long ds h1 h3 hd =>
    obtain ⟨d, hm, he⟩ := lastOf (p := p ++ [0x5C, 0x55]) h1
    exact hlast d (by simpa using he) (hd d hm)
  | @hex l ds t hl hd ht hv =>
    have := hrun (p ++ [0x5C, l]) ds t (by simp) hd
    have := hex_lt32 hd (by omega)
    omega

/-- The in-place variant: the buffer keeps its length, and its first bytes are the unescaped string. -/
theorem C58_buffer (s o : Str) (h : Fits s) : unescape s = .ok o → ∃ junk, unescapeBuf s = .ok (o ++ junk, o.length) ∧
    (o ++ junk).length = s.length := by
  intro hu
  obtain ⟨o', t, hr, ⟨rfl, h1, h2⟩ | ⟨_, h1⟩ | ⟨_, h1⟩⟩ := C58_exact s h
  · rw [hu] at h1
    cases h1
    obtain ⟨junk, hb, hl⟩ := unescapeBuf_ok hr h.lt12
    exact ⟨junk, hb, by simpa using hl⟩
  · rw [hu] at h1; cases h1
  · rw [hu] at h1; cases h1

/-- A string without a backslash is unchanged. -/
theorem C58_no_backslash (s : Str) (h : Fits s) (hb : 0x5C ∉ s) : unescape s = .ok s := by
  have : Reads Escape s s [] := by
    clear h
    induction s with
    | nil => exact .stop
    | cons b s ih =>
      simp at hb
      exact .plain (fun e => hb.1 e.symm) (ih hb.2)
  obtain ⟨junk, hb, hl⟩ := unescapeBuf_ok this h.lt12
  exact unescape_of_buf_ok hb

/-- C58 as stated is false: `\1`, `\u1` and `\U1` at the end of the string, and a `\x` sequence with a value
above 32 bits. -/
theorem C58_false :
    (unescape [0x5C, 0x31] = .error .ub) ∧
    (unescape [0x61, 0x5C, 0x75, 0x31] = .error .ub) ∧
    (unescape [0x61, 0x5C, 0x55, 0x31] = .error .ub) ∧
    (unescape [0x5C, 0x78, 0x31, 0x30, 0x30, 0x30, 0x30, 0x30, 0x30, 0x30, 0x30, 0x21] = .error .ub) := by
  decide +kernel

-- non-vacuity: each of the three outcomes
example : Reads Escape [0x61, 0x5C, 0x6E] [0x61, 0x0A] [] :=
  .plain (by decide) (.escape (e := [0x5C, 0x6E]) (out := [0x0A]) (.letter (by decide)) .stop)
example : Malformed [0x5C] ∧ unescape [0x61, 0x5C] = .error .ystring := ⟨.bad .alone, by decide +kernel⟩
example : Undefined [0x5C, 0x37] := .oct (by simp) (by simp) (by decide)
example : (unescape [0x5C, 0x78, 0x34, 0x31, 0x21]) = .ok [0x41, 0x21] := by decide +kernel

/-! ### C59 -/

theorem plainEscape {e s out : Str} (h : PlainEscape e s out) : Escape e s out := by
  cases h with
  | letter h => exact .letter h
  | other h1 h2 => exact .other h1 h2
  | oct h1 h2 h3 h4 => exact .oct h1 h2 h3 h4
  | hex h1 h2 h3 h4 h5 =>
    have := Escape.hex h1 h2 h3 h4 (by omega)
    unfold utf8OrNothing at this
    rwa [if_pos h5] at this
  | long h1 h2 h3 =>
    have := Escape.long (t := s) h1 h2
    unfold utf8OrNothing at this
    rwa [if_pos h3] at this
  | short h1 h2 h3 => exact .short h1 h2 h3
  | pair h1 h2 h3 h4 h5 h6 => exact .pair h1 h2 h3 h4 h5 h6

theorem Spec.Reads.mono {E E' : Str → Str → Str → Prop} (hE : ∀ e s o, E e s o → E' e s o) {s o t : Str}
    (h : Reads E s o t) : Reads E' s o t := by
  induction h with
  | stop => exact .stop
  | plain hb _ ih => exact .plain hb ih
  | escape he _ ih => exact .escape (hE _ _ _ he) ih

/-- A string made of plain bytes and well-formed escape sequences is unescaped to what it denotes. What is missing
for C59: octal sequences of one or two digits that end the string. -/
theorem C59_partial (s o : Str) (h : Fits s) (hr : Reads PlainEscape s o []) : unescape s = .ok o := by
  obtain ⟨junk, hb, hl⟩ := unescapeBuf_ok (hr.mono fun _ _ _ => plainEscape) h.lt12
  exact unescape_of_buf_ok hb

/-- The same for all sequences `unescape` accepts, including unpaired surrogates and values above U+10FFFF, which
give nothing. -/
theorem C59_exact (s o : Str) (h : Fits s) : unescape s = .ok o ↔ Reads Escape s o [] := by
  constructor
  · intro hu
    obtain ⟨o', t, hr, ⟨rfl, h1, _⟩ | ⟨_, h1⟩ | ⟨_, h1⟩⟩ := C58_exact s h
    · rw [hu] at h1; cases h1; exact hr
    · rw [hu] at h1; cases h1
    · rw [hu] at h1; cases h1
  · intro hr
    obtain ⟨junk, hb, hl⟩ := unescapeBuf_ok hr h.lt12
    exact unescape_of_buf_ok hb

/-- C59 as stated is false: `\7` at the end of a string; and U+D800 in front of `abcde\n` cannot be read although it
can in front of `abcdef\n`. -/
theorem C59_false :
    unescape [0x61, 0x5C, 0x37] = .error .ub ∧ unescape [0x61, 0x5C, 0x37, 0x62] = .ok [0x61, 0x07, 0x62] ∧
    unescape [0x5C, 0x75, 0x44, 0x38, 0x30, 0x30, 0x61, 0x62, 0x63, 0x64, 0x65, 0x5C, 0x6E] = .error .ystring ∧
    unescape [0x5C, 0x75, 0x44, 0x38, 0x30, 0x30, 0x61, 0x62, 0x63, 0x64, 0x65, 0x66, 0x5C, 0x6E] =
      .ok [0xED, 0xA0, 0x80, 0x61, 0x62, 0x63, 0x64, 0x65, 0x66, 0x0A] ∧
    unescape [0x61, 0x5C, 0x78, 0x31, 0x31, 0x30, 0x30, 0x30, 0x30, 0x2E] = .ok [0x61, 0x2E] := by
  decide +kernel

-- non-vacuity: é in three ways and a surrogate pair
example : Reads PlainEscape [0x5C, 0x78, 0x65, 0x39, 0x2E] (rfcEncode 0xE9 ++ [0x2E]) [] :=
  .escape (e := [0x5C, 0x78, 0x65, 0x39]) (out := rfcEncode 0xE9)
    (.hex (ds := [0x65, 0x39]) (.inl rfl) (by decide) (by decide) (by intro b t e; cases e; decide) (by decide))
    (.plain (by decide) .stop)
example : unescape [0x5C, 0x75, 0x44, 0x38, 0x33, 0x44, 0x5C, 0x75, 0x44, 0x45, 0x30, 0x30] =
    .ok (rfcEncode 0x1F600) := by decide +kernel

/-! ### C57 -/

theorem jsonByte_reads (b : UInt8) {r v t : Str} (h : Reads PlainEscape r v t) :
    Reads PlainEscape (jsonByte b ++ r) (b :: v) t := by
  have key : ∀ n : Nat, n < 256 → b.toNat = n → b = UInt8.ofNat n := by
    intro n _ e; rw [← e, UInt8.ofNat_toNat]
  unfold jsonByte
  split
  · rename_i e
    rw [key _ (by omega) e]
    exact .escape (e := [0x5C, 0x22]) (out := [0x22]) (.other (by decide) (by decide)) h
  split
  · rename_i e
    rw [key _ (by omega) e]
    exact .escape (e := [0x5C, 0x5C]) (out := [0x5C]) (.other (by decide) (by decide)) h
  split
  · rename_i e
    rw [key _ (by omega) e]
    exact .escape (e := [0x5C, 0x62]) (out := [0x08]) (.letter (by decide)) h
  split
  · rename_i e
    rw [key _ (by omega) e]
    exact .escape (e := [0x5C, 0x66]) (out := [0x0C]) (.letter (by decide)) h
  split
  · rename_i e
    rw [key _ (by omega) e]
    exact .escape (e := [0x5C, 0x6E]) (out := [0x0A]) (.letter (by decide)) h
  split
  · rename_i e
    rw [key _ (by omega) e]
    exact .escape (e := [0x5C, 0x72]) (out := [0x0D]) (.letter (by decide)) h
  split
  · rename_i e
    rw [key _ (by omega) e]
    exact .escape (e := [0x5C, 0x74]) (out := [0x09]) (.letter (by decide)) h
  split
  · rename_i e
    obtain ⟨h1, h2, h3⟩ := upperHex_number b.toNat e
    have := PlainEscape.short (ds := [0x30, 0x30, upperHex (b.toNat / 16), upperHex (b.toNat % 16)]) (t := r) rfl h1
      (by rw [h2]; unfold HighSurrogate; omega)
    rw [h2, h3, UInt8.ofNat_toNat] at this
    exact .escape this h
  · exact .plain (by intro e; simp_all) h

theorem jsonEscaped_reads (s : Str) : Reads PlainEscape (jsonEscaped s) s [] := by
  induction s with
  | nil => exact .stop
  | cons b s ih => exact jsonByte_reads b ih

/-- `unescape` restores what `escape_json` escaped, for every byte string. -/
theorem C57_roundtrip (s r : Str) (hs : Fits s) (hr : Fits r) (h : escapeJson s = .ok r) : unescape r = .ok s := by
  rw [C56_exact s hs] at h
  cases h
  exact C59_partial _ _ hr (jsonEscaped_reads s)

/-- `escape_json` is total and injective. -/
theorem C57_injective (s s' r : Str) (hs : Fits s) (hs' : Fits s') (hr : Fits r) (h : escapeJson s = .ok r)
    (h' : escapeJson s' = .ok r) : s = s' := by
  have h1 := C57_roundtrip s r hs hr h
  rw [C57_roundtrip s' r hs' hr h'] at h1
  cases h1; rfl

-- non-vacuity: a string with all kinds of bytes
example : escapeJson [0x00, 0x08, 0x0A, 0x22, 0x5C, 0x1F, 0x41, 0xC3, 0xFF] =
    .ok [0x5C, 0x75, 0x30, 0x30, 0x30, 0x30, 0x5C, 0x62, 0x5C, 0x6E, 0x5C, 0x22, 0x5C, 0x5C,
      0x5C, 0x75, 0x30, 0x30, 0x31, 0x46, 0x41, 0xC3, 0xFF] := by decide +kernel

end Ystring
