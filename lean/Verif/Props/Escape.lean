import Verif.Proofs.Escape
import Verif.Proofs.Boundary
/-
Property theorems C56 (escape_json, has_escapable_chars, find_first_escapable_char).

`Spec.JsonText r s` (RFC 8259): the JSON string `"r"` has the value `s`.
-/
namespace Ystring
open Spec

theorem Spec.Fits.lt {s : Str} (h : Fits s) : s.length < SIZE_MOD := by
  unfold Fits PTRDIFF_MAX at h; unfold SIZE_MOD; omega

/-- `escape_json` replaces each byte by its escaped form. -/
theorem C56_exact (s : Str) (h : Fits s) : escapeJson s = .ok (jsonEscaped s) := by
  have := escapeJsonLoop_spec (s.length + 1) [] s [] (by omega) (by simpa using h.lt)
  simpa [escapeJson] using this

theorem jsonByte_printable (b : UInt8) : ∀ x ∈ jsonByte b, 0x20 ≤ x.toNat := by
  revert b; apply forall_u8; decide +kernel

theorem upperHex_number : ∀ n, n < 0x20 →
    (∀ d ∈ [0x30, 0x30, upperHex (n / 16), upperHex (n % 16)], IsHex d) ∧
      number 16 [0x30, 0x30, upperHex (n / 16), upperHex (n % 16)] = n ∧
      rfcEncode n = [UInt8.ofNat n] := by decide +kernel

theorem jsonByte_text (b : UInt8) {r v : Str} (h : JsonText r v) : JsonText (jsonByte b ++ r) (b :: v) := by
  unfold jsonByte
  have key : ∀ n : Nat, n < 256 → b.toNat = n → b = UInt8.ofNat n := by
    intro n _ e; rw [← e, UInt8.ofNat_toNat]
  split
  · rename_i e
    rw [key _ (by omega) e]
    exact .letter (l := 0x22) (c := 0x22) (by decide) h
  split
  · rename_i e
    rw [key _ (by omega) e]
    exact .letter (l := 0x5C) (c := 0x5C) (by decide) h
  split
  · rename_i e
    rw [key _ (by omega) e]
    exact .letter (l := 0x62) (c := 0x08) (by decide) h
  split
  · rename_i e
    rw [key _ (by omega) e]
    exact .letter (l := 0x66) (c := 0x0C) (by decide) h
  split
  · rename_i e
    rw [key _ (by omega) e]
    exact .letter (l := 0x6E) (c := 0x0A) (by decide) h
  split
  · rename_i e
    rw [key _ (by omega) e]
    exact .letter (l := 0x72) (c := 0x0D) (by decide) h
  split
  · rename_i e
    rw [key _ (by omega) e]
    exact .letter (l := 0x74) (c := 0x09) (by decide) h
  split
  · rename_i e
    obtain ⟨h1, h2, h3⟩ := upperHex_number b.toNat e
    have := JsonText.hex (ds := [0x30, 0x30, upperHex (b.toNat / 16), upperHex (b.toNat % 16)]) rfl h1
      (by rw [h2]; unfold HighSurrogate; omega) (by rw [h2]; unfold LowSurrogate; omega) h
    rw [h2, h3, UInt8.ofNat_toNat] at this
    exact this
  · exact .unescaped (by omega) (by intro e; simp_all) (by intro e; simp_all) h

/-- The output is the text of a JSON string with value `s`, and holds no control character. -/
theorem C56_json (s : Str) (h : Fits s) :
    ∃ r, escapeJson s = .ok r ∧ JsonText r s ∧ ∀ b ∈ r, 0x20 ≤ b.toNat := by
  refine ⟨_, C56_exact s h, ?_, ?_⟩
  · clear h
    induction s with
    | nil => exact .nil
    | cons b s ih => exact jsonByte_text b ih
  · intro b hb
    unfold jsonEscaped at hb
    rw [List.mem_flatMap] at hb
    obtain ⟨x, _, hx⟩ := hb
    exact jsonByte_printable x b hx

/-- Escaping works byte by byte: a concatenation is escaped piece by piece, and a byte from 0x20 up other than quote
and backslash is kept where it is. -/
theorem C56_kept (s t : Str) (b : UInt8) (h : Fits (s ++ b :: t)) (h1 : 0x20 ≤ b.toNat) (h2 : b ≠ 0x22) (h3 : b ≠ 0x5C) :
    ∃ x y, escapeJson s = .ok x ∧ escapeJson t = .ok y ∧ escapeJson (s ++ b :: t) = .ok (x ++ b :: y) := by
  unfold Fits at h
  simp at h
  refine ⟨_, _, C56_exact s (by unfold Fits; omega), C56_exact t (by unfold Fits; omega), ?_⟩
  rw [C56_exact _ (by unfold Fits; simp; omega), jsonEscaped_append]
  have : jsonByte b = [b] := jsonByte_plain b (by unfold MustEscape; simp [h2, h3]; omega)
  simp [jsonEscaped, this]

theorem jsonByte_ascii (b : UInt8) (h : b.toNat < 0x80) : ∀ x ∈ jsonByte b, x.toNat < 0x80 := by
  revert b; apply forall_u8; decide +kernel

theorem ascii_valid : ∀ {s : Str}, (∀ x ∈ s, x.toNat < 0x80) → ∃ cs, Decodes s cs
  | [], _ => ⟨[], .nil⟩
  | b :: s, h => by
    obtain ⟨cs, hc⟩ := ascii_valid (s := s) (fun x hx => h x (by simp [hx]))
    exact ⟨b.toUInt32 :: cs, Decodes.cons (u := [b]) (.one (h b (by simp)) (by simp)) hc⟩

theorem jsonByte_high (b : UInt8) (h : 0x80 ≤ b.toNat) : jsonByte b = [b] := by
  revert b; apply forall_u8; decide +kernel

theorem jsonEscaped_high : ∀ {u : Str}, (∀ x ∈ u, 0x80 ≤ x.toNat) → jsonEscaped u = u
  | [], _ => rfl
  | b :: u, h => by
    have := jsonEscaped_high (u := u) (fun x hx => h x (by simp [hx]))
    unfold jsonEscaped at *
    rw [List.flatMap_cons, this, jsonByte_high b (h b (by simp))]; rfl

/-- A sequence is a single ASCII byte, or all its bytes are above ASCII. -/
theorem seq_ascii_or {u : Str} {c : Char32} (h : IsSeq u c) :
    (∃ b, u = [b] ∧ b.toNat < 0x80) ∨ ∀ x ∈ u, 0x80 ≤ x.toNat := by
  cases h with
  | one h1 _ => exact .inl ⟨_, rfl, h1⟩
  | two => right; simp [IsCont] at *; omega
  | three => right; simp [IsCont] at *; omega
  | four => right; simp [IsCont] at *; omega

theorem jsonByte_ne_nil (b : UInt8) : jsonByte b ≠ [] := by
  revert b; apply forall_u8; decide +kernel

theorem jsonByte_head (b : UInt8) : ∃ x t, jsonByte b = x :: t ∧ (0x80 ≤ x.toNat → x = b ∧ t = []) := by
  by_cases h : 0x80 ≤ b.toNat
  · exact ⟨b, [], jsonByte_high b h, fun _ => ⟨rfl, rfl⟩⟩
  · cases hj : jsonByte b with
    | nil => exact absurd hj (jsonByte_ne_nil b)
    | cons x t =>
      refine ⟨x, t, rfl, fun hx => ?_⟩
      have := jsonByte_ascii b (by omega) x (by simp [hj])
      omega

theorem jsonEscaped_peel : ∀ {u s r : Str}, (∀ x ∈ u, 0x80 ≤ x.toNat) → jsonEscaped s = u ++ r →
    ∃ s', s = u ++ s' ∧ jsonEscaped s' = r
  | [], s, r, _, h => ⟨s, rfl, h⟩
  | x :: u, [], r, _, h => by simp [jsonEscaped] at h
  | x :: u, b :: s, r, hu, h => by
    obtain ⟨y, t, e, hy⟩ := jsonByte_head b
    have h' : jsonByte b ++ jsonEscaped s = x :: u ++ r := h
    rw [e] at h'
    simp at h'
    obtain ⟨rfl, h'⟩ := h'
    obtain ⟨rfl, rfl⟩ := hy (hu y (by simp))
    obtain ⟨s', rfl, h2⟩ := jsonEscaped_peel (u := u) (fun x hx => hu x (by simp [hx])) (by simpa using h')
    exact ⟨s', rfl, h2⟩

theorem valid_escaped {s : Str} (h : Valid s) : Valid (jsonEscaped s) := by
  obtain ⟨cs, h⟩ := h
  induction h with
  | nil => exact ⟨[], .nil⟩
  | cons hu _ ih =>
    obtain ⟨ds, ih⟩ := ih
    rw [jsonEscaped_append]
    rcases seq_ascii_or hu with ⟨b, rfl, hb⟩ | hh
    · obtain ⟨es, he⟩ := ascii_valid (jsonByte_ascii b hb)
      exact ⟨_, Decodes.append (by simpa [jsonEscaped] using he) ih⟩
    · rw [jsonEscaped_high hh]
      exact ⟨_, .cons hu ih⟩

theorem valid_unescaped : ∀ (n : Nat) {s : Str}, s.length ≤ n → Valid (jsonEscaped s) → Valid s
  | _, [], _, _ => ⟨[], .nil⟩
  | 0, b :: s, hn, _ => by simp at hn
  | n + 1, b :: s, hn, h => by
    by_cases hb : b.toNat < 0x80
    · have ht : Valid (jsonEscaped s) := by
        have : jsonEscaped (b :: s) = [] ++ jsonByte b ++ jsonEscaped s := by simp [jsonEscaped]
        rw [this] at h
        exact (valid_cut h (ascii_valid (jsonByte_ascii b hb)) (jsonByte_ne_nil b)).2
      obtain ⟨cs, hc⟩ := valid_unescaped n (by simpa using hn) ht
      exact ⟨b.toUInt32 :: cs, Decodes.cons (u := [b]) (.one hb (by simp)) hc⟩
    · obtain ⟨cs, hc⟩ := h
      rcases hc.nil_or with ⟨e, _⟩ | ⟨u, t, c, ds, hu, ht, e, _⟩
      · have : jsonEscaped (b :: s) = jsonByte b ++ jsonEscaped s := rfl
        rw [this] at e
        exact absurd (List.append_eq_nil_iff.mp e).1 (jsonByte_ne_nil b)
      · have e' : jsonEscaped (b :: s) = b :: jsonEscaped s := by
          show jsonByte b ++ jsonEscaped s = _
          rw [jsonByte_high b (by omega)]; rfl
        rcases seq_ascii_or hu with ⟨x, rfl, hx⟩ | hh
        · rw [e'] at e; simp at e; rw [← e.1] at hx; omega
        · obtain ⟨s', rfl', h2⟩ := jsonEscaped_peel hh e
          have hl := congrArg List.length rfl'
          have := hu.length_pos
          simp at hl hn
          obtain ⟨es, he⟩ := valid_unescaped n (s := s') (by omega) ⟨_, h2 ▸ ht⟩
          rw [rfl']
          exact ⟨_, .cons hu he⟩

/-- The output is valid UTF-8 exactly when the input is. -/
theorem C56_valid (s : Str) (h : Fits s) : ∃ r, escapeJson s = .ok r ∧ (Valid r ↔ Valid s) :=
  ⟨_, C56_exact s h, valid_unescaped s.length (Nat.le_refl _), valid_escaped⟩

theorem wellFormed_append {s t : Str} (h : WellFormed s) (h' : WellFormed t) : WellFormed (s ++ t) := by
  obtain ⟨cs, h1, rfl⟩ := h
  obtain ⟨ds, h2, rfl⟩ := h'
  exact ⟨cs ++ ds, fun c hc => (List.mem_append.mp hc).elim (h1 c) (h2 c), by simp⟩

theorem wellFormed_ascii : ∀ {s : Str}, (∀ x ∈ s, x.toNat < 0x80) → WellFormed s
  | [], _ => ⟨[], by simp, rfl⟩
  | b :: s, h => by
    have hb : WellFormed [b] := ⟨[b.toNat], by intro c hc; simp at hc; subst hc; left; have := h b (by simp); omega, by
      simp [rfcEncode, h b (by simp)]⟩
    exact wellFormed_append (s := [b]) hb (wellFormed_ascii (fun x hx => h x (by simp [hx])))

/-- Well-formed UTF-8 (RFC 3629) stays well-formed. -/
theorem C56_wellformed (s : Str) (h : Fits s) (hw : WellFormed s) : ∃ r, escapeJson s = .ok r ∧ WellFormed r := by
  refine ⟨_, C56_exact s h, ?_⟩
  clear h
  obtain ⟨cs, hc, rfl⟩ := hw
  induction cs with
  | nil => exact ⟨[], by simp, rfl⟩
  | cons c cs ih =>
    rw [List.flatMap_cons, jsonEscaped_append]
    refine wellFormed_append ?_ (ih (fun x hx => hc x (by simp [hx])))
    have hs := hc c (by simp)
    have hle : c ≤ 0x10FFFF := by unfold IsScalar at hs; omega
    have e : (UInt32.ofNat c).toNat = c := by simp; omega
    have hq := rfcEncode_seq (UInt32.ofNat c) (by rw [e]; exact hle)
    rw [e] at hq
    rcases seq_ascii_or hq with ⟨b, hb, hb'⟩ | hh
    · rw [hb]
      simp only [jsonEscaped, List.flatMap_cons, List.flatMap_nil, List.append_nil]
      exact wellFormed_ascii (jsonByte_ascii b hb')
    · rw [jsonEscaped_high hh]
      exact ⟨[c], by simpa using hs, by simp⟩

/-- `has_escapable_chars` tells whether a byte must be escaped. -/
theorem C56_has (s : Str) : hasEscapableChars s = .ok (decide (∃ b ∈ s, MustEscape b)) := by
  unfold hasEscapableChars
  rcases find_split (fun b => decide (MustEscape b)) s with h | ⟨p, b, t, rfl, h1, h2⟩
  · have h : ∀ b ∈ s, ¬ MustEscape b := by simpa using h
    have := findFirstEscapableChar_none (w := []) h
    simp at this
    rw [this, decide_eq_false (by intro ⟨b, hb, hm⟩; exact h b hb hm)]
    rfl
  · have h1 : ∀ b ∈ p, ¬ MustEscape b := by simpa using h1
    have h2 : MustEscape b := by simpa using h2
    have := findFirstEscapableChar_some (w := []) (t := t) h1 h2
    simp at this
    rw [this, decide_eq_true ⟨b, by simp, h2⟩]
    rfl

theorem jsonByte_length (b : UInt8) : (jsonByte b).length = 1 ↔ ¬ MustEscape b := by
  revert b; apply forall_u8; decide +kernel

theorem jsonEscaped_length_ge : ∀ s : Str, s.length ≤ (jsonEscaped s).length
  | [] => by simp
  | b :: s => by
    have := jsonEscaped_length_ge s
    have h2 := List.length_pos_iff.mpr (jsonByte_ne_nil b)
    show _ ≤ (jsonByte b ++ jsonEscaped s).length
    simp; omega

theorem jsonEscaped_fix : ∀ {s : Str}, jsonEscaped s = s → ∀ b ∈ s, ¬ MustEscape b
  | [], _ => by simp
  | b :: s, h => by
    have h' : jsonByte b ++ jsonEscaped s = b :: s := h
    have hl := congrArg List.length h'
    have := jsonEscaped_length_ge s
    have h2 := List.length_pos_iff.mpr (jsonByte_ne_nil b)
    simp at hl
    have hb := (jsonByte_length b).mp (by omega)
    rw [jsonByte_plain b hb] at h'
    simp at h'
    have := jsonEscaped_fix h'
    simpa [hb] using this

/-- The string is changed iff `has_escapable_chars` says so. -/
theorem C56_unchanged (s : Str) (h : Fits s) : escapeJson s = .ok s ↔ hasEscapableChars s = .ok false := by
  rw [C56_exact s h, C56_has]
  constructor
  · intro e
    injection e with e
    rw [decide_eq_false]
    intro ⟨b, hb, hm⟩
    exact jsonEscaped_fix e b hb hm
  · intro e
    injection e with e
    have e := of_decide_eq_false e
    rw [jsonEscaped_plain (fun b hb hm => e ⟨b, hb, hm⟩)]

/-- `find_first_escapable_char(s, offset)` with `offset` in the string: the first byte to escape from `offset` on. -/
theorem C56_find (s : Str) (off : Nat) (h : off ≤ s.length) :
    (∃ i b, off ≤ i ∧ s[i]? = some b ∧ MustEscape b ∧
      (∀ j x, off ≤ j → j < i → s[j]? = some x → ¬ MustEscape x) ∧
      findFirstEscapableChar s off = .ok ⟨i, 1⟩) ∨
    ((∀ j x, off ≤ j → s[j]? = some x → ¬ MustEscape x) ∧
      findFirstEscapableChar s off = .ok ⟨s.length, 0⟩) := by
  obtain ⟨w, v, rfl, rfl⟩ : ∃ w v, s = w ++ v ∧ off = w.length :=
    ⟨s.take off, s.drop off, by simp, by simp; omega⟩
  rcases find_split (fun b => decide (MustEscape b)) v with h | ⟨p, b, t, rfl, h1, h2⟩
  · have h : ∀ b ∈ v, ¬ MustEscape b := by simpa using h
    refine .inr ⟨?_, by rw [findFirstEscapableChar_none h]; simp⟩
    intro j x hj hx
    rw [List.getElem?_append_right hj] at hx
    exact h x (List.mem_of_getElem? hx)
  · have h1 : ∀ b ∈ p, ¬ MustEscape b := by simpa using h1
    have h2 : MustEscape b := by simpa using h2
    refine .inl ⟨w.length + p.length, b, by omega, ?_, h2, ?_, findFirstEscapableChar_some h1 h2⟩
    · rw [List.getElem?_append_right (by omega), List.getElem?_append_right (by omega)]
      simp
    · intro j x hj hj' hx
      rw [List.getElem?_append_right hj, List.getElem?_append_left (by omega)] at hx
      exact h1 x (List.mem_of_getElem? hx)

-- non-vacuity: a"\n<0x01>é
example : Fits [0x61, 0x22, 0x0A, 0x01, 0xC3, 0xA9] ∧
    escapeJson [0x61, 0x22, 0x0A, 0x01, 0xC3, 0xA9] =
      .ok [0x61, 0x5C, 0x22, 0x5C, 0x6E, 0x5C, 0x75, 0x30, 0x30, 0x30, 0x31, 0xC3, 0xA9] := by
  constructor
  · unfold Fits PTRDIFF_MAX; decide
  · decide +kernel

end Ystring
