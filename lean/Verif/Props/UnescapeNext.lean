import Verif.Proofs.UnescapeNext
import Verif.Props.Unescape
/-
Property theorems C60, C61 (unescape_next) and C62 (find_first_escaped_char, has_escaped_chars).

`unescapeNext s` gives the result or exception, the view afterwards and what was stored through `did_unescape`.
`Spec.DropsNewlines s r`: `r` is `s` without its leading escaped newlines.
-/
namespace Ystring
open Spec

/-! ### C60 -/

/-- Only escaped newlines (or nothing) remain: nullopt, and they are consumed. -/
theorem C60_end (s : Str) (h : DropsNewlines s []) : unescapeNext s = ⟨.ok none, [], some false⟩ := by
  unfold unescapeNext
  rw [skip_spec h]

/-- The next character is not escaped: it is returned and consumed. -/
theorem C60_plain (s u t : Str) (c : Char32) (h : DropsNewlines s (u ++ t)) (hu : IsSeq u c) (hb : u ≠ [0x5C]) :
    unescapeNext s = ⟨.ok (some c), t, some false⟩ := by
  unfold unescapeNext
  rw [skip_spec h]
  have hpop := pop_seq hu t
  cases u with
  | nil => exact absurd rfl hu.ne_nil
  | cons b u =>
    have hb' : b ≠ 0x5C := by
      rintro rfl
      cases hu with
      | one => exact hb rfl
      | two h1 => exact absurd h1 (by decide)
      | three h1 => exact absurd h1 (by decide)
      | four h1 => exact absurd h1 (by decide)
    rw [List.cons_append] at hpop ⊢
    simp only
    rw [if_pos hb', hpop]

/-- An escape sequence comes next: the character it denotes is returned, and exactly it is consumed. -/
theorem C60_escape (s e t : Str) (c : Nat) (h : DropsNewlines s (e ++ t)) (he : NextEscape e t c) :
    unescapeNext s = ⟨.ok (some (UInt32.ofNat c)), t, some true⟩ := by
  unfold unescapeNext
  rw [skip_spec h]
  obtain ⟨type, rest, e1, e2⟩ := switch_ok he
  rw [e1]
  simp only
  rw [if_neg (by simp), e2]

/-- Bytes that are neither UTF-8 nor a backslash: an exception. -/
theorem C60_bad_plain (s r : Str) (h : DropsNewlines s r) (h0 : r ≠ []) (hb : r.head? ≠ some 0x5C)
    (hn : ¬ HasSeqPrefix r) : unescapeNext s = ⟨.error .ystring, r, some false⟩ := by
  unfold unescapeNext
  rw [skip_spec h]
  cases r with
  | nil => exact absurd rfl h0
  | cons b t =>
    simp only
    rw [if_pos (by simpa using hb), pop_bad h0 hn]

/-- A backslash without an escape sequence: an exception. -/
theorem C60_bad_escape (s r : Str) (h : DropsNewlines s r) (hb : BadNext r) :
    unescapeNext s = ⟨.error .ystring, r, if r = [0x5C] then none else some true⟩ := by
  unfold unescapeNext
  rw [skip_spec h]
  rcases switch_bad hb with rfl | ⟨type, rest, rfl, e2⟩
  · rfl
  · simp only
    rw [if_neg (by simp), e2, if_neg (by simp)]

/-- One of the five cases applies to every string. -/
theorem C60_cases (s : Str) : ∃ r, DropsNewlines s r ∧
    (r = [] ∨ (∃ u t c, r = u ++ t ∧ IsSeq u c ∧ u ≠ [0x5C]) ∨ (∃ e t c, r = e ++ t ∧ NextEscape e t c) ∨
      (r ≠ [] ∧ r.head? ≠ some 0x5C ∧ ¬ HasSeqPrefix r) ∨ BadNext r) := by
  obtain ⟨r, hr⟩ := drops_exists s.length s (Nat.le_refl _)
  refine ⟨r, hr, ?_⟩
  cases r with
  | nil => exact .inl rfl
  | cons b t =>
    right
    by_cases hb : b = 0x5C
    · subst hb
      rcases next_cases t with h | h
      · exact .inr (.inl h)
      · exact .inr (.inr (.inr h))
    · by_cases hp : HasSeqPrefix (b :: t)
      · obtain ⟨u, c, t', hu, e⟩ := hp
        refine .inl ⟨u, t', c, e, hu, ?_⟩
        rintro rfl
        injection e with e1 e2
        exact hb e1
      · exact .inr (.inr (.inl ⟨by simp, by simpa using hb, hp⟩))

theorem drops_length {s r : Str} (h : DropsNewlines s r) : r.length ≤ s.length := by
  induction h with
  | done => exact Nat.le_refl _
  | drop _ ih => simp; omega

theorem nextEscape_pos {e t : Str} {c : Nat} (h : NextEscape e t c) : 0 < e.length := by
  cases h <;> simp

/-- nullopt is returned exactly when only escaped newlines remain. -/
theorem C60_none (s : Str) : (unescapeNext s).result = .ok none ↔ DropsNewlines s [] := by
  constructor
  · intro h
    obtain ⟨r, hr, rfl | ⟨u, t, c, rfl, hu, hb⟩ | ⟨e, t, c, rfl, he⟩ | ⟨h0, hb, hn⟩ | hb⟩ := C60_cases s
    · exact hr
    · rw [C60_plain s u t c hr hu hb] at h; cases h
    · rw [C60_escape s e t c hr he] at h; cases h
    · rw [C60_bad_plain s r hr h0 hb hn] at h; cases h
    · rw [C60_bad_escape s r hr hb] at h; cases h
  · intro h; rw [C60_end s h]

/-- No undefined behaviour, and no exception other than `YstringException`; a returned character has consumed at
least one byte. -/
theorem C60_progress (s : Str) :
    (unescapeNext s).result = .error .ystring ∨ (unescapeNext s).result = .ok none ∨
      ∃ c, (unescapeNext s).result = .ok (some c) ∧ (unescapeNext s).str.length < s.length := by
  obtain ⟨r, hr, rfl | ⟨u, t, c, rfl, hu, hb⟩ | ⟨e, t, c, rfl, he⟩ | ⟨h0, hb, hn⟩ | hb⟩ := C60_cases s
  · rw [C60_end s hr]; exact .inr (.inl rfl)
  · rw [C60_plain s u t c hr hu hb]
    have := drops_length hr
    have := hu.length_pos
    exact .inr (.inr ⟨c, rfl, by simp at *; omega⟩)
  · rw [C60_escape s e t c hr he]
    have := drops_length hr
    have := nextEscape_pos he
    exact .inr (.inr ⟨_, rfl, by simp at *; omega⟩)
  · rw [C60_bad_plain s r hr h0 hb hn]; exact .inl rfl
  · rw [C60_bad_escape s r hr hb]; exact .inl rfl

/-- The view is always moved forward: it stays a suffix of the input. -/
theorem C60_suffix (s : Str) : ∃ p, s = p ++ (unescapeNext s).str := by
  have hd : ∀ {s r : Str}, DropsNewlines s r → ∃ p, s = p ++ r := by
    intro s r h
    induction h with
    | done => exact ⟨[], rfl⟩
    | drop _ ih => obtain ⟨p, rfl⟩ := ih; exact ⟨0x5C :: 0x0A :: p, rfl⟩
  obtain ⟨r, hr, rfl | ⟨u, t, c, rfl, hu, hb⟩ | ⟨e, t, c, rfl, he⟩ | ⟨h0, hb, hn⟩ | hb⟩ := C60_cases s
  · rw [C60_end s hr]; exact hd hr
  · rw [C60_plain s u t c hr hu hb]
    obtain ⟨p, hp⟩ := hd hr
    exact ⟨p ++ u, by rw [List.append_assoc]; exact hp⟩
  · rw [C60_escape s e t c hr he]
    obtain ⟨p, hp⟩ := hd hr
    exact ⟨p ++ e, by rw [List.append_assoc]; exact hp⟩
  · rw [C60_bad_plain s r hr h0 hb hn]; exact hd hr
  · rw [C60_bad_escape s r hr hb]; exact hd hr

/-- When an exception is thrown, the view is unchanged apart from leading escaped newlines. What is missing for C60:
the newlines are not restored. -/
theorem C60_rollback_partial (s : Str) (e : Err) (h : (unescapeNext s).result = .error e) :
    DropsNewlines s (unescapeNext s).str ∧ ((∀ t, s ≠ 0x5C :: 0x0A :: t) → (unescapeNext s).str = s) := by
  have key : DropsNewlines s (unescapeNext s).str := by
    obtain ⟨r, hr, rfl | ⟨u, t, c, rfl, hu, hb⟩ | ⟨e', t, c, rfl, he⟩ | ⟨h0, hb, hn⟩ | hb⟩ := C60_cases s
    · rw [C60_end s hr] at h; cases h
    · rw [C60_plain s u t c hr hu hb] at h; cases h
    · rw [C60_escape s e' t c hr he] at h; cases h
    · rw [C60_bad_plain s r hr h0 hb hn]; exact hr
    · rw [C60_bad_escape s r hr hb]; exact hr
  refine ⟨key, fun hn => ?_⟩
  generalize (unescapeNext s).str = r at key
  cases key with
  | done => rfl
  | drop _ => exact absurd rfl (hn _)

/-- C60 as stated is false: after an escaped newline, a failed call changes the view; and U+D800 in front of
`\uZZZZ` throws although it is returned in front of `\u006` or `\nabcd`. -/
theorem C60_false :
    unescapeNext [0x5C, 0x0A, 0x5C, 0x78] = ⟨.error .ystring, [0x5C, 0x78], some true⟩ ∧
    (unescapeNext [0x5C, 0x75, 0x44, 0x38, 0x30, 0x30, 0x5C, 0x75, 0x5A, 0x5A, 0x5A, 0x5A]).result = .error .ystring ∧
    unescapeNext [0x5C, 0x75, 0x44, 0x38, 0x30, 0x30, 0x5C, 0x75, 0x30, 0x30, 0x36] =
      ⟨.ok (some 0xD800), [0x5C, 0x75, 0x30, 0x30, 0x36], some true⟩ ∧
    unescapeNext [0x5C, 0x75, 0x44, 0x38, 0x30, 0x30, 0x5C, 0x6E, 0x61, 0x62, 0x63, 0x64] =
      ⟨.ok (some 0xD800), [0x5C, 0x6E, 0x61, 0x62, 0x63, 0x64], some true⟩ := by
  decide +kernel

-- non-vacuity
example : DropsNewlines [0x5C, 0x0A, 0x5C, 0x78, 0x34, 0x31, 0x67] ([0x5C, 0x78, 0x34, 0x31] ++ [0x67]) ∧
    NextEscape [0x5C, 0x78, 0x34, 0x31] [0x67] 0x41 :=
  ⟨.drop (.done (by simp)), .hex (ds := [0x34, 0x31]) (.inl rfl) (by simp) (by simp) (by decide)
    (fun _ => by intro b t e; cases e; decide)⟩
example : BadNext [0x5C, 0x75, 0x30, 0x67] :=
  .short (ds := [0x30]) (t := [0x67]) (by simp) (by decide) (by intro b t e; cases e; decide)
example : unescapeNext [0x5C, 0x0A, 0xC3, 0xA9, 0x21] = ⟨.ok (some 0xE9), [0x21], some false⟩ := by decide +kernel

/-! ### C61 -/

/-- `NextAll s cs`: calling `unescape_next` again and again on `s` yields the characters `cs`, then nullopt. -/
inductive NextAll : Str → List Char32 → Prop
  | done {s : Str} : (unescapeNext s).result = .ok none → NextAll s []
  | next {s : Str} {c : Char32} {cs : List Char32} : (unescapeNext s).result = .ok (some c) →
      NextAll (unescapeNext s).str cs → NextAll s (c :: cs)

theorem jsonByte_next (b : UInt8) (hb : b.toNat < 0x80) (r : Str) :
    unescapeNext (jsonByte b ++ r) = ⟨.ok (some b.toUInt32), r, some (decide (MustEscape b))⟩ := by
  have hc : b.toUInt32 = UInt32.ofNat b.toNat := u32_of b
  have hseq : IsSeq [b] b.toUInt32 := .one hb (by simp)
  by_cases hm : MustEscape b
  · rw [decide_eq_true hm]
    by_cases h22 : b.toNat = 0x22
    · have : b = 0x22 := UInt8.toNat_inj.mp h22
      subst this
      have e : jsonByte 0x22 = [0x5C, 0x22] := by decide
      rw [e]
      exact C60_escape _ [0x5C, 0x22] r 0x22 (.done (by simp)) (.char (by decide) hseq)
    by_cases h5c : b.toNat = 0x5C
    · have : b = 0x5C := UInt8.toNat_inj.mp h5c
      subst this
      have e : jsonByte 0x5C = [0x5C, 0x5C] := by decide
      rw [e]
      exact C60_escape _ [0x5C, 0x5C] r 0x5C (.done (by simp)) (.char (by decide) hseq)
    rw [hc]
    unfold jsonByte
    rw [if_neg h22, if_neg h5c]
    split
    · rename_i e; rw [e]
      exact C60_escape _ [0x5C, 0x62] r 0x08 (.done (by simp)) (.letter (c := 0x08) (by decide))
    split
    · rename_i e; rw [e]
      exact C60_escape _ [0x5C, 0x66] r 0x0C (.done (by simp)) (.letter (c := 0x0C) (by decide))
    split
    · rename_i e; rw [e]
      exact C60_escape _ [0x5C, 0x6E] r 0x0A (.done (by simp)) (.letter (c := 0x0A) (by decide))
    split
    · rename_i e; rw [e]
      exact C60_escape _ [0x5C, 0x72] r 0x0D (.done (by simp)) (.letter (c := 0x0D) (by decide))
    split
    · rename_i e; rw [e]
      exact C60_escape _ [0x5C, 0x74] r 0x09 (.done (by simp)) (.letter (c := 0x09) (by decide))
    split
    · rename_i e
      obtain ⟨h1, h2, h3⟩ := upperHex_number b.toNat e
      have := NextEscape.short (ds := [0x30, 0x30, upperHex (b.toNat / 16), upperHex (b.toNat % 16)]) (t := r) rfl h1
        (by rw [h2]; unfold HighSurrogate; omega)
      rw [h2] at this
      exact C60_escape _ _ r _ (.done (by simp)) this
    · rename_i e
      exfalso
      rcases hm with h | rfl | rfl
      · exact e h
      · exact h22 rfl
      · exact h5c rfl
  · rw [decide_eq_false hm, jsonByte_plain b hm]
    have hne : b ≠ 0x5C := fun e => hm (.inr (.inr e))
    exact C60_plain _ [b] r _ (.done (by intro t e; injection e with e _; exact hne e)) hseq (by simpa using hne)

theorem nextAll_escaped {s t : Str} {cs ds : List Char32} (hd : Decodes s cs) (ht : NextAll t ds) :
    NextAll (jsonEscaped s ++ t) (cs ++ ds) := by
  induction hd with
  | nil => exact ht
  | @cons u s c cs hu _ ih =>
    rw [jsonEscaped_append, List.append_assoc]
    rcases seq_ascii_or hu with ⟨b, rfl, hb⟩ | hh
    · have hc : c = b.toUInt32 := hu.unique (.one hb (by simp))
      have := jsonByte_next b hb (jsonEscaped s ++ t)
      have e : jsonEscaped [b] = jsonByte b := by simp [jsonEscaped]
      rw [e]
      exact .next (by rw [this, hc]) (by rw [this]; exact ih)
    · rw [jsonEscaped_high hh]
      have hne : ∀ v, u ++ (jsonEscaped s ++ t) ≠ 0x5C :: 0x0A :: v := by
        intro v e
        cases u with
        | nil => exact hu.ne_nil rfl
        | cons b u =>
          injection e with e _
          have := hh b (by simp)
          rw [e] at this
          exact absurd this (by decide)
      have := C60_plain _ u (jsonEscaped s ++ t) c (.done hne) hu (by
        rintro rfl
        have := hh 0x5C (by simp)
        exact absurd this (by decide))
      exact .next (by rw [this]) (by rw [this]; exact ih)

/-- Reading `escape_json(s)` with `unescape_next` yields exactly the code points of `s`. -/
theorem C61_readback (s r : Str) (cs : List Char32) (hs : Fits s) (hd : Decodes s cs) (h : escapeJson s = .ok r) :
    NextAll r cs := by
  rw [C56_exact s hs] at h
  cases h
  have := nextAll_escaped hd (.done (s := []) rfl)
  simpa using this

-- non-vacuity: é and a newline
example : Decodes [0xC3, 0xA9, 0x0A] [0xE9, 0x0A] ∧ Fits [0xC3, 0xA9, 0x0A] := by
  refine ⟨.cons (u := [0xC3, 0xA9]) (.two (by decide) (by decide) ⟨by decide, by decide⟩ (by decide))
    (.cons (u := [0x0A]) (.one (by decide) (by decide)) .nil), ?_⟩
  unfold Fits PTRDIFF_MAX; decide

/-! ### C62 -/

/-- Without a backslash from `off` on, the result is the empty range at the end. -/
theorem C62_none (w p : Str) (hp : 0x5C ∉ p) :
    findFirstEscapedChar (w ++ p) w.length = .ok ⟨(w ++ p).length, 0⟩ := by
  rw [find_none hp, List.length_append]

/-- With a backslash that starts no escape sequence, an exception is thrown. -/
theorem C62_throws (w p t : Str) (hp : 0x5C ∉ p) (hb : BadStart t) :
    findFirstEscapedChar (w ++ (p ++ t)) w.length = .error .ystring := by
  have : ∃ v, t = 0x5C :: v := by cases hb <;> exact ⟨_, rfl⟩
  obtain ⟨v, rfl⟩ := this
  rw [find_start hp, after_bad hb]

/-- The string ends in an escape sequence with digits missing: less than three octal digits, four after `\u` or eight
after `\U`. -/
inductive Truncated : Str → Prop
  | oct {ds : Str} : 1 ≤ ds.length → ds.length < 3 → (∀ d ∈ ds, IsOct d) → Truncated (0x5C :: ds)
  | short {ds : Str} : ds.length < 4 → (∀ d ∈ ds, IsHex d) → Truncated (0x5C :: 0x75 :: ds)
  | long {ds : Str} : ds.length < 8 → (∀ d ∈ ds, IsHex d) → Truncated (0x5C :: 0x55 :: ds)

/-- Otherwise the range starts at the first backslash, is not empty, and lies within the string unless the string is
truncated there. What is missing for C62: the truncated strings. -/
theorem C62_found_partial (w p v : Str) (hp : 0x5C ∉ p) (hb : ¬ BadStart (0x5C :: v)) :
    ∃ k, findFirstEscapedChar (w ++ (p ++ 0x5C :: v)) w.length = .ok ⟨w.length + p.length, k⟩ ∧ 2 ≤ k ∧
      (¬ Truncated (0x5C :: v) → w.length + p.length + k ≤ (w ++ (p ++ 0x5C :: v)).length) := by
  rw [find_start hp]
  have main : ∃ k, afterBackslash (w ++ p) v = .ok ⟨(w ++ p).length, k⟩ ∧ 2 ≤ k ∧
      (¬ Truncated (0x5C :: v) → k ≤ v.length + 1) := by
    cases shape v with
    | bad h => exact absurd h hb
    | hex hl h2 hd ht =>
      refine ⟨_, by rw [after_x hl hd ht, if_neg (by omega)], by omega, fun _ => by simp; omega⟩
    | @short ds t hd hl =>
      refine ⟨6, after_u hd (le_or hl), by omega, fun hn => ?_⟩
      rcases hl with h | ⟨h, rfl⟩
      · simp; omega
      · exact absurd (Truncated.short h hd) (by simpa using hn)
    | @long ds t hd hl =>
      refine ⟨10, after_U hd (le_or hl), by omega, fun hn => ?_⟩
      rcases hl with h | ⟨h, rfl⟩
      · simp; omega
      · exact absurd (Truncated.long h hd) (by simpa using hn)
    | @oct ds t hd h1 h3 ht =>
      by_cases h : ds.length = 3
      · exact ⟨4, after_oct_end hd h1 (.inl h), by omega, fun _ => by simp; omega⟩
      · cases t with
        | nil =>
          exact ⟨4, after_oct_end hd h1 (.inr ⟨h3, rfl⟩), by omega, fun hn =>
            absurd (Truncated.oct h1 (by omega) hd) (by simpa using hn)⟩
        | cons b t =>
          exact ⟨_, after_oct_found hd h1 (ht (by omega) b t rfl) (by omega), by omega, fun _ => by simp; omega⟩
    | other ha hx hu hU ho =>
      exact ⟨2, by rw [after_other (by rwa [Or.comm]) hu hU ho, if_pos ha], by omega, fun _ => by simp⟩
  obtain ⟨k, h1, h2, h3⟩ := main
  refine ⟨k, by rw [h1, List.length_append], h2, fun hn => ?_⟩
  have := h3 hn
  simp; omega

/-- `SequenceAt e t`: in `e ++ t` the first escape sequence is the text `e`: `\x` with all the hexadecimal digits that follow
(at least two), `\u` with four and `\U` with eight hexadecimal digits, one to three octal digits (as many as there are), or a
backslash before any other ASCII character. -/
inductive SequenceAt : (e t : Str) → Prop
  | hex {l : UInt8} {ds t : Str} : l = 0x78 ∨ l = 0x58 → 2 ≤ ds.length → (∀ d ∈ ds, IsHex d) → NoHexAhead t →
      SequenceAt (0x5C :: l :: ds) t
  | short {ds t : Str} : ds.length = 4 → (∀ d ∈ ds, IsHex d) → SequenceAt (0x5C :: 0x75 :: ds) t
  | long {ds t : Str} : ds.length = 8 → (∀ d ∈ ds, IsHex d) → SequenceAt (0x5C :: 0x55 :: ds) t
  | oct {ds t : Str} : 1 ≤ ds.length → ds.length ≤ 3 → (∀ d ∈ ds, IsOct d) → (ds.length < 3 → NoOctAhead t) →
      SequenceAt (0x5C :: ds) t
  | other {c : UInt8} {t : Str} : c.toNat < 0x80 → c ≠ 0x78 → c ≠ 0x58 → c ≠ 0x75 → c ≠ 0x55 → ¬ IsOct c →
      SequenceAt [0x5C, c] t

/-- C62: the exact range: unless the string is truncated there, it is exactly the first escape sequence; for a truncated one
the range ends behind the end of the string. -/
theorem C62_exact (w p v : Str) (hp : 0x5C ∉ p) (hb : ¬ BadStart (0x5C :: v)) :
    (¬ Truncated (0x5C :: v) → ∃ e t, 0x5C :: v = e ++ t ∧ SequenceAt e t ∧
      findFirstEscapedChar (w ++ (p ++ 0x5C :: v)) w.length = .ok ⟨w.length + p.length, e.length⟩) ∧
    (Truncated (0x5C :: v) → ∃ k, findFirstEscapedChar (w ++ (p ++ 0x5C :: v)) w.length = .ok ⟨w.length + p.length, k⟩ ∧
      (w ++ (p ++ 0x5C :: v)).length < w.length + p.length + k) := by
  rw [find_start hp]
  have main : (¬ Truncated (0x5C :: v) → ∃ e t, 0x5C :: v = e ++ t ∧ SequenceAt e t ∧
        afterBackslash (w ++ p) v = .ok ⟨(w ++ p).length, e.length⟩) ∧
      (Truncated (0x5C :: v) → ∃ k, afterBackslash (w ++ p) v = .ok ⟨(w ++ p).length, k⟩ ∧ v.length + 1 < k) := by
    constructor
    · intro hn
      cases shape v with
      | bad h => exact absurd h hb
      | @hex l ds t hl h2 hd ht =>
        refine ⟨0x5C :: l :: ds, t, rfl, .hex hl h2 hd ht, ?_⟩
        rw [after_x hl hd ht, if_neg (by omega), Nat.add_comm 2]
        rfl
      | @short ds t hd hl =>
        rcases hl with h | ⟨h, rfl⟩
        · refine ⟨0x5C :: 0x75 :: ds, t, rfl, .short h hd, ?_⟩
          rw [after_u hd (.inl h)]
          simp only [List.length_cons, h]
        · exact absurd (Truncated.short h hd) (by simpa using hn)
      | @long ds t hd hl =>
        rcases hl with h | ⟨h, rfl⟩
        · refine ⟨0x5C :: 0x55 :: ds, t, rfl, .long h hd, ?_⟩
          rw [after_U hd (.inl h)]
          simp only [List.length_cons, h]
        · exact absurd (Truncated.long h hd) (by simpa using hn)
      | @oct ds t hd h1 h3 ht =>
        by_cases h : ds.length = 3
        · refine ⟨0x5C :: ds, t, rfl, .oct h1 h3 hd ht, ?_⟩
          rw [after_oct_end hd h1 (.inl h)]
          simp only [List.length_cons, h]
        · cases t with
          | nil => exact absurd (Truncated.oct h1 (by omega) hd) (by simpa using hn)
          | cons b t =>
            refine ⟨0x5C :: ds, b :: t, rfl, .oct h1 h3 hd ht, ?_⟩
            rw [after_oct_found hd h1 (ht (by omega) b t rfl) (by omega)]
            simp only [List.length_cons, Nat.add_comm]
      | @other c t ha hx hu hU ho =>
        exact ⟨[0x5C, c], t, rfl, .other ha (fun e => hx (.inl e)) (fun e => hx (.inr e)) hu hU ho,
          by rw [after_other (by rwa [Or.comm]) hu hU ho, if_pos ha]; rfl⟩
    · intro ht
      generalize hq : 0x5C :: v = q at ht
      cases ht with
      | @oct ds h1 h2 hd =>
        injection hq with _ hq
        subst hq
        have := after_oct_end (q := w ++ p) (t := []) hd h1 (.inr ⟨by omega, rfl⟩)
        rw [List.append_nil] at this
        exact ⟨4, this, by omega⟩
      | @short ds h1 hd =>
        injection hq with _ hq
        subst hq
        have := after_u (q := w ++ p) (t := []) hd (.inr ⟨by omega, rfl⟩)
        rw [List.append_nil] at this
        exact ⟨6, this, by simp only [List.length_cons]; omega⟩
      | @long ds h1 hd =>
        injection hq with _ hq
        subst hq
        have := after_U (q := w ++ p) (t := []) hd (.inr ⟨by omega, rfl⟩)
        rw [List.append_nil] at this
        exact ⟨10, this, by simp only [List.length_cons]; omega⟩
  obtain ⟨h1, h2⟩ := main
  constructor
  · intro hn
    obtain ⟨e, t, he, hs, h⟩ := h1 hn
    exact ⟨e, t, he, hs, by rw [h, List.length_append]⟩
  · intro ht
    obtain ⟨k, h, hk⟩ := h2 ht
    exact ⟨k, by rw [h, List.length_append], by simp only [List.length_append, List.length_cons]; omega⟩

/-- both cases of C62_exact occur: `\101` is not truncated, `\10` is -/
example : SequenceAt [0x5C, 0x31, 0x30, 0x31] [0x32] ∧ Truncated [0x5C, 0x31, 0x30] :=
  ⟨.oct (by decide) (by decide) (by decide) (by intro h; exact absurd h (by decide)),
   .oct (ds := [0x31, 0x30]) (by decide) (by decide) (by decide)⟩

/-- Every string and offset inside it is covered by the three theorems above; an offset outside the string is undefined
behaviour. -/
theorem C62_cases (s : Str) (off : Nat) :
    (s.length < off ∧ findFirstEscapedChar s off = .error .ub) ∨
    ∃ w p t, s = w ++ (p ++ t) ∧ off = w.length ∧ 0x5C ∉ p ∧ (t = [] ∨ ∃ v, t = 0x5C :: v) := by
  by_cases h : s.length < off
  · exact .inl ⟨h, find_beyond h⟩
  · right
    rcases find_split (fun b => b == 0x5C) (s.drop off) with hp | ⟨p, b, v, e, hp, hb⟩
    · exact ⟨s.take off, s.drop off, [], by simp, by simp; omega, by
        intro hm; have := hp _ hm; simp at this, .inl rfl⟩
    · have : b = 0x5C := by simpa using hb
      subst this
      exact ⟨s.take off, p, _, by rw [← e, List.take_append_drop], by simp; omega, by
        intro hm; have := hp _ hm; simp at this, .inr ⟨v, rfl⟩⟩

/-- `has_escaped_chars` is true iff there is a backslash, unless the first one starts no escape sequence. -/
theorem C62_has (s : Str) : hasEscapedChars s = .ok (decide (0x5C ∈ s)) ∨
    ((∃ p t, s = p ++ t ∧ 0x5C ∉ p ∧ BadStart t) ∧ hasEscapedChars s = .error .ystring) := by
  unfold hasEscapedChars
  obtain ⟨h, _⟩ | ⟨w, p, t, rfl, hw, hp, rfl | ⟨v, rfl⟩⟩ := C62_cases s 0
  · omega
  · have : w = [] := List.length_eq_zero_iff.mp hw.symm
    subst this
    left
    have := C62_none [] p hp
    simp only [List.nil_append, List.length_nil, List.append_nil] at this ⊢
    rw [this, bind_ok, decide_eq_false hp]
    rfl
  · have : w = [] := List.length_eq_zero_iff.mp hw.symm
    subst this
    by_cases hb : BadStart (0x5C :: v)
    · right
      have := C62_throws [] p _ hp hb
      simp only [List.nil_append, List.length_nil] at this ⊢
      exact ⟨⟨p, _, rfl, hp, hb⟩, by rw [this, bind_err]⟩
    · left
      obtain ⟨k, h1, h2, _⟩ := C62_found_partial [] p v hp hb
      simp only [List.nil_append, List.length_nil] at h1 ⊢
      rw [h1, bind_ok, decide_eq_true (by simp)]
      have : Subrange.nonempty ⟨0 + p.length, k⟩ = true := by
        unfold Subrange.nonempty; simp; omega
      rw [this]

/-- C62 as stated is false: `\1`, `\u` and `\U` at the end of the string. -/
theorem C62_false :
    findFirstEscapedChar [0x5C, 0x31] 0 = .ok ⟨0, 4⟩ ∧ findFirstEscapedChar [0x61, 0x5C, 0x75] 0 = .ok ⟨1, 6⟩ ∧
    findFirstEscapedChar [0x5C, 0x55, 0x30] 0 = .ok ⟨0, 10⟩ := by decide +kernel

-- non-vacuity
example : ¬ BadStart [0x5C, 0x6E, 0x31] := by
  intro h
  have := C62_throws [] [] _ (by simp) h
  simp only [List.nil_append, List.length_nil] at this
  revert this
  decide +kernel

end Ystring
