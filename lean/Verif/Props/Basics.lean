import Verif.Model.Algorithms
import Verif.Spec.Repair
import Verif.Props.Case
/-
Property theorems C08 (is_valid_utf8), C12 (count_codepoints), C14 (replace_invalid_utf8), C16 (contains),
C23 (starts_with, ends_with).
-/
namespace Ystring
open Spec

/-! ### C08 is_valid_utf8 -/

theorem isValidUtf8Loop_units (us : List Unit8) (h : Units us) (fuel : Nat) (t : Str) :
    isValidUtf8Loop (us.length + fuel) (bytesOf us ++ t) = isValidUtf8Loop fuel t := by
  induction us with
  | nil => simp
  | cons x us ih =>
    rw [Units_cons] at h
    rw [List.length_cons, show us.length + 1 + fuel = (us.length + fuel) + 1 by omega, isValidUtf8Loop,
      bytesOf_cons, List.append_assoc, if_pos (by have := h.1.ne_nil; simp [this]), decodeNext_seq h.1]
    simp only [bind, Except.bind]
    rw [if_neg h.1.ne_invalid, ih h.2]

theorem isValidUtf8_units {us : List Unit8} {t : Str} (h : Units us) (ht : ¬ HasSeqPrefix t) :
    isValidUtf8 (bytesOf us ++ t) = .ok (decide (t = [])) := by
  obtain ⟨k, hk⟩ := fuel_split (t := t) h
  rw [isValidUtf8, hk, isValidUtf8Loop_units us h, isValidUtf8Loop]
  by_cases h0 : t = []
  · subst h0; rfl
  · rw [if_pos h0, decodeNext_bad ht]
    simp [bind, Except.bind, h0]

/-- C08, what holds: `is_valid_utf8` never fails and is true exactly for the concatenations of a lead byte with
the number of continuation bytes it announces; in particular it accepts every well-formed string. (Missing:
it also accepts overlong forms, surrogates and values up to 0x1FFFFF, see `C08_false`.) -/
theorem C08_is_valid_partial (s : Str) :
    (isValidUtf8 s = .ok true ↔ Valid s) ∧ (isValidUtf8 s = .ok false ↔ ¬ Valid s) ∧
    (WellFormed s → isValidUtf8 s = .ok true) := by
  have key : (isValidUtf8 s = .ok true ↔ Valid s) ∧ (isValidUtf8 s = .ok false ↔ ¬ Valid s) := by
    obtain ⟨us, t, h, rfl, ht⟩ := splitUnits s
    rw [isValidUtf8_units h ht, valid_bad_tail h ht]
    by_cases h0 : t = [] <;> simp [h0]
  refine ⟨key.1, key.2, fun hw => key.1.mpr ?_⟩
  obtain ⟨x, h1, rfl⟩ := wellFormed_list hw
  exact ⟨_, decodes_encode x⟩

/-- C08 is false: the overlong form C0 80, the surrogate ED A0 80 and F7 BF BF BF (0x1FFFFF) are accepted,
though none of them is well-formed. -/
theorem C08_false : ∀ s ∈ ([[0xC0, 0x80], [0xED, 0xA0, 0x80], [0xF7, 0xBF, 0xBF, 0xBF]] : List Str),
    isValidUtf8 s = .ok true ∧ ¬ WellFormed s := by
  intro s hs
  refine ⟨by revert s; decide +kernel, ?_⟩
  rintro ⟨ns, h1, rfl⟩
  obtain ⟨ds, h2, rfl⟩ := decodes_wellFormed ns h1
  have h3 := ((C09_to_utf32 _).1 _).mpr h2
  simp only [List.mem_cons, List.not_mem_nil, or_false] at hs
  rcases hs with hs | hs | hs
  · rw [hs, show toUtf32 [0xC0, 0x80] = .ok [0] by decide +kernel] at h3
    injection h3 with h3
    subst h3
    exact absurd hs (by decide)
  · rw [hs, show toUtf32 [0xED, 0xA0, 0x80] = .ok [0xD800] by decide +kernel] at h3
    injection h3 with h3
    subst h3
    have := h1 0xD800 (by simp)
    unfold IsScalar at this; omega
  · rw [hs, show toUtf32 [0xF7, 0xBF, 0xBF, 0xBF] = .ok [0x1FFFFF] by decide +kernel] at h3
    injection h3 with h3
    subst h3
    have := h1 0x1FFFFF (by simp)
    unfold IsScalar at this; omega

/-- C08: a string is well-formed exactly if it is accepted, and decodes to scalar values in shortest form,
i.e. if re-encoding its code points (all of them scalar values) gives it back. -/
theorem C08_wellFormed_check (s : Str) :
    WellFormed s ↔ ∃ cs, toUtf32 s = .ok cs ∧ (∀ c ∈ cs, IsScalar c.toNat) ∧ fromUtf32 cs = s := by
  constructor
  · intro hw
    obtain ⟨cs, h1, h2⟩ := C10_from_to_utf32 s hw
    refine ⟨cs, h1, ?_, h2⟩
    obtain ⟨ns, h3, rfl⟩ := hw
    obtain ⟨ds, h4, rfl⟩ := decodes_wellFormed ns h3
    rw [((C09_to_utf32 _).1 _).mpr h4] at h1
    injection h1 with h1
    subst h1
    intro c hc
    exact h3 _ (List.mem_map_of_mem hc)
  · rintro ⟨cs, h1, h2, rfl⟩
    refine ⟨cs.map UInt32.toNat, ?_, ?_⟩
    · intro n hn
      obtain ⟨c, hc, rfl⟩ := List.mem_map.mp hn
      exact h2 c hc
    · rw [fromUtf32_eq, List.flatMap_map]
      clear h1
      induction cs with
      | nil => rfl
      | cons c cs ih =>
        simp only [List.flatMap_cons]
        have : c.toNat ≤ 0x10FFFF := by have := h2 c (by simp); unfold IsScalar at this; omega
        rw [encodeUtf8_rfc c this, ih (fun d hd => h2 d (by simp [hd]))]

/-! ### C12 count_codepoints -/

theorem countCodepointsLoop_units (us : List Unit8) (h : Units us) (fuel : Nat) (t : Str) (r : Nat) :
    countCodepointsLoop (us.length + fuel) (bytesOf us ++ t) r = countCodepointsLoop fuel t (r + us.length) := by
  induction us generalizing r with
  | nil => simp
  | cons x us ih =>
    rw [Units_cons] at h
    rw [List.length_cons, show us.length + 1 + fuel = (us.length + fuel) + 1 by omega, countCodepointsLoop,
      bytesOf_cons, List.append_assoc, skipNext_seq h.1]
    simp only
    rw [ih h.2]; congr 1; omega

/-- C12: the number of code points of a valid string. -/
theorem C12_count_valid (s : Str) (cs : List Char32) (h : Decodes s cs) : countCodepoints s = .ok cs.length := by
  obtain ⟨us, hu, rfl, rfl⟩ := h.units
  obtain ⟨k, hk⟩ := fuel_split (t := []) hu
  rw [List.append_nil] at hk
  have := countCodepointsLoop_units us hu (k + 1) [] 0
  rw [List.append_nil] at this
  rw [countCodepoints, hk, this]
  simp [countCodepointsLoop, skipNext, valsOf]

theorem countCodepointsLoop_total (fuel : Nat) : ∀ (it : Str) (r : Nat), it.length < fuel →
    ∃ n, n ≤ it.length ∧ countCodepointsLoop fuel it r = .ok (r + n) := by
  induction fuel with
  | zero => intro it r h; omega
  | succ fuel ih =>
    intro it r h
    by_cases h0 : it = []
    · subst h0; exact ⟨0, by simp, rfl⟩
    · obtain ⟨u, t, h1, h2, h3⟩ := (C11_forward_progress it).2 h0
      have hl : it.length = u.length + t.length := by rw [h2]; simp
      have hu : 0 < u.length := List.length_pos_iff.mpr h1
      obtain ⟨n, hn, e⟩ := ih t (r + 1) (by omega)
      refine ⟨n + 1, by omega, ?_⟩
      rw [countCodepointsLoop, h3]
      simp only
      rw [e]; congr 1; omega

/-- C12: on every byte string the count terminates, is at most the size of the string and no exception is
thrown. -/
theorem C12_count_total (s : Str) : ∃ n, n ≤ s.length ∧ countCodepoints s = .ok n := by
  obtain ⟨n, h1, h2⟩ := countCodepointsLoop_total (s.length + 1) s 0 (by omega)
  exact ⟨n, h1, by rw [countCodepoints, h2]; congr 1; omega⟩

/-- C12 is false as documented: malformed strings are counted, not rejected. -/
theorem C12_false : ∃ s, ¬ Valid s ∧ countCodepoints s = .ok 2 :=
  ⟨[0x41, 0xC3], by
    rw [← (C08_is_valid_partial _).2.1]; decide +kernel, by decide +kernel⟩

example : Decodes [0xC3, 0xA6, 0x41] [0xE6, 0x41] := ((C09_to_utf32 _).1 _).mp (by decide +kernel)

/-! ### C14 replace_invalid_utf8 -/

theorem capOf_announced (b : UInt8) : capOf b = announced b := by
  unfold capOf announced
  repeat' split
  all_goals first | rfl | omega

theorem skipNext_bad (l : UInt8) (t : Str) : ∃ cs s, t = cs ++ s ∧ (∀ x ∈ cs, IsCont x) ∧
    (∀ n, announced l = some n → cs.length ≤ n) ∧ skipNext (l :: t) = (true, s) := by
  rw [skipNext_cap, capOf_announced]
  have key : ∀ (n : Nat) (t : Str), ∃ cs, t = cs ++ skipCont n t ∧ (∀ x ∈ cs, IsCont x) ∧ cs.length ≤ n := by
    intro n t
    induction t generalizing n with
    | nil => exact ⟨[], by simp [skipCont], by simp, by simp⟩
    | cons b t ih =>
      cases n with
      | zero => exact ⟨[], by simp [skipCont], by simp, by simp⟩
      | succ n =>
        simp only [skipCont]
        split
        · rename_i hb
          obtain ⟨cs, h1, h2, h3⟩ := ih n
          refine ⟨b :: cs, by rw [List.cons_append, ← h1], ?_, by simp; omega⟩
          intro x hx
          rcases List.mem_cons.mp hx with rfl | hx
          · exact (isC _).mp hb
          · exact h2 x hx
        · exact ⟨[], by simp, by simp, by simp⟩
  obtain ⟨cs, h1, h2, h3⟩ := key ((announced l).getD 4294967295) t
  exact ⟨cs, _, h1, h2, fun n hn => by simpa [hn] using h3, rfl⟩

theorem replaceInvalidLoop_spec (repl : Str) (fuel : Nat) : ∀ (us : List Unit8) (it res : Str), Units us →
    it.length < fuel →
    ∃ r, Repaired repl it r ∧ replaceInvalidLoop repl fuel it (bytesOf us ++ it) res = .ok (res ++ bytesOf us ++ r) := by
  induction fuel with
  | zero => intro _ it _ _ h; omega
  | succ fuel ih =>
    intro us it res hus hf
    rw [replaceInvalidLoop]
    by_cases h0 : it = []
    · subst h0
      exact ⟨[], .nil, by simp⟩
    · rw [if_pos h0]
      by_cases hp : HasSeqPrefix it
      · obtain ⟨u, c, t, hu, rfl⟩ := hp
        rw [decodeNext_seq hu]
        simp only [bind, Except.bind]
        rw [if_pos hu.ne_invalid]
        have hl := hu.length_pos
        obtain ⟨r, h1, h2⟩ := ih (us ++ [(u, c)]) t res (by simp [hus, hu]) (by simp at hf; omega)
        refine ⟨u ++ r, .keep hu h1, ?_⟩
        simp at h2 ⊢
        exact h2
      · rw [decodeNext_bad hp]
        simp only [bind, Except.bind]
        rw [if_neg (by simp)]
        cases it with
        | nil => exact absurd rfl h0
        | cons l t =>
          obtain ⟨cs, s, rfl, h2, h3, h4⟩ := skipNext_bad l t
          rw [h4]
          obtain ⟨r, h5, h6⟩ := ih [] s (res ++ (bytesOf us ++ l :: (cs ++ s)).take
            ((bytesOf us ++ l :: (cs ++ s)).length - (l :: (cs ++ s)).length) ++ repl) Units.nil (by simp at hf; omega)
          refine ⟨repl ++ r, .bad hp h2 h3 h5, ?_⟩
          simp only [bytesOf_nil, List.nil_append] at h6
          rw [h6]
          have : (bytesOf us ++ l :: (cs ++ s)).length - (l :: (cs ++ s)).length = (bytesOf us).length := by
            simp
          rw [this, List.take_left']
          · simp
          · rfl

theorem encodeUtf8Buf_4 (c : Char32) : (encodeUtf8Buf c 4).1 = encodeUtf8 c := by
  unfold encodeUtf8Buf encodeUtf8
  have := encodedLength_eq c
  simp only
  rw [if_neg]
  rw [this]; repeat' split
  all_goals omega

theorem encodeUtf8_valid (c : Char32) : Valid (encodeUtf8 c) := by
  have := decodes_encode [c]
  exact ⟨_, by simpa using this⟩

theorem Spec.Repaired.valid {repl s r : Str} (h : Repaired repl s r) (hr : Valid repl) : Valid r := by
  induction h with
  | nil => exact ⟨[], .nil⟩
  | keep hu _ ih => obtain ⟨cs, hcs⟩ := ih; exact ⟨_, .cons hu hcs⟩
  | bad _ _ _ _ ih =>
    obtain ⟨cs, hcs⟩ := ih
    obtain ⟨ds, hds⟩ := hr
    exact ⟨_, hds.append hcs⟩

theorem Spec.Repaired.of_units {repl : Str} {us : List Unit8} (h : Units us) {s r : Str}
    (hr : Repaired repl s r) (e : s = bytesOf us) : r = s := by
  induction hr generalizing us with
  | nil => rfl
  | keep hu _ ih =>
    cases us with
    | nil => have := hu.ne_nil; simp at e; exact absurd e.1 this
    | cons x us =>
      rw [Units_cons] at h
      obtain ⟨_, _, e3⟩ := hu.append_inj h.1 e
      rw [ih h.2 e3]
  | bad hb _ _ _ _ =>
    exfalso
    cases us with
    | nil => simp at e
    | cons x us =>
      rw [Units_cons] at h
      exact hb (by rw [e]; exact h.1.hasPrefix _)

/-- C14: `replace_invalid_utf8` always returns; in the result the sequences of the string are kept and every
malformed piece is replaced by the encoding of `chr`. -/
theorem C14_repairs (s : Str) (chr : Char32) :
    ∃ r, replaceInvalidUtf8 s chr = .ok r ∧ Repaired (encodeUtf8 chr) s r := by
  obtain ⟨r, h1, h2⟩ := replaceInvalidLoop_spec (encodeUtf8 chr) (s.length + 1) [] s [] Units.nil (by omega)
  refine ⟨r, ?_, h1⟩
  rw [replaceInvalidUtf8, encodeUtf8Buf_4]
  simpa using h2

/-- C14: the result is accepted by `is_valid_utf8`; valid strings are returned unchanged; the function is
idempotent; the in-place version does the same. -/
theorem C14_replace_invalid (s : Str) (chr : Char32) :
    ∃ r, replaceInvalidUtf8 s chr = .ok r ∧ isValidUtf8 r = .ok true ∧
      (isValidUtf8 s = .ok true → r = s) ∧
      replaceInvalidUtf8 r chr = .ok r ∧
      replaceInvalidUtf8InPlace s chr = .ok r := by
  obtain ⟨r, h1, h2⟩ := C14_repairs s chr
  have hv : Valid r := h2.valid (encodeUtf8_valid chr)
  have same : ∀ s r, replaceInvalidUtf8 s chr = .ok r → Repaired (encodeUtf8 chr) s r → Valid s → r = s := by
    intro s r _ h hs
    obtain ⟨us, hu, e⟩ := hs.units
    exact h.of_units hu e.symm
  refine ⟨r, h1, (C08_is_valid_partial r).1.mpr hv, ?_, ?_, ?_⟩
  · intro hs
    exact same s r h1 h2 ((C08_is_valid_partial s).1.mp hs)
  · obtain ⟨r', h3, h4⟩ := C14_repairs r chr
    rw [h3, same r r' h3 h4 hv]
  · unfold replaceInvalidUtf8InPlace
    by_cases hs : Valid s
    · rw [(C08_is_valid_partial s).1.mpr hs]
      simp [bind, Except.bind, same s r h1 h2 hs]
    · rw [(C08_is_valid_partial s).2.1.mpr hs]
      simpa [bind, Except.bind] using h1

/-- C14: without an explicit character the malformed pieces are replaced by U+FFFD, in both versions. -/
theorem C14_default (s : Str) :
    ∃ r, replaceInvalidUtf8 s = .ok r ∧ replaceInvalidUtf8InPlace s = .ok r ∧ Repaired [0xEF, 0xBF, 0xBD] s r := by
  obtain ⟨r, h1, h2⟩ := C14_repairs s REPLACEMENT_CHARACTER
  obtain ⟨r', h3, -, -, -, h4⟩ := C14_replace_invalid s REPLACEMENT_CHARACTER
  rw [h1] at h3
  injection h3 with e
  subst e
  have e : encodeUtf8 REPLACEMENT_CHARACTER = [0xEF, 0xBF, 0xBD] := by decide +kernel
  rw [e] at h2
  exact ⟨r, h1, h4, h2⟩

example : replaceInvalidUtf8 [0x41, 0xC3, 0x42, 0x80, 0x80, 0xE2, 0x82] = .ok
    [0x41, 0xEF, 0xBF, 0xBD, 0x42, 0xEF, 0xBF, 0xBD, 0xEF, 0xBF, 0xBD] := by decide +kernel

/-! ### C16 contains -/

theorem containsLoop_units (c : Char32) (us : List Unit8) (h : Units us) (fuel : Nat) (t : Str) :
    containsLoop c (us.length + fuel) (bytesOf us ++ t) =
      if c ∈ valsOf us then .ok true else containsLoop c fuel t := by
  induction us with
  | nil => simp
  | cons x us ih =>
    rw [Units_cons] at h
    rw [List.length_cons, show us.length + 1 + fuel = (us.length + fuel) + 1 by omega, containsLoop,
      bytesOf_cons, List.append_assoc, safeDecodeNext_seq h.1]
    simp only [bind, Except.bind]
    rw [ih h.2]
    by_cases hx : x.2 = c
    · rw [if_pos hx, if_pos (by simp [hx])]
    · rw [if_neg hx]
      have : c ∈ valsOf (x :: us) ↔ c ∈ valsOf us := by simp; exact fun h => absurd h.symm hx
      simp only [this]

/-- C16: on a valid string `contains` tells whether the code point is one of the code points of the string. -/
theorem C16_contains_valid (s : Str) (cs : List Char32) (h : Decodes s cs) (c : Char32) :
    contains s c = .ok (decide (c ∈ cs)) := by
  obtain ⟨us, hu, rfl, rfl⟩ := h.units
  obtain ⟨k, hk⟩ := fuel_split (t := []) hu
  have := containsLoop_units c us hu (k + 1) []
  rw [List.append_nil] at hk this
  rw [contains, hk, this]
  split <;> simp_all [containsLoop, bind, Except.bind]

/-- C16: on a malformed string it throws unless the code point occurs before the first malformed byte. -/
theorem C16_contains_malformed (p t : Str) (cs : List Char32) (hp : Decodes p cs) (ht : ¬ HasSeqPrefix t)
    (h0 : t ≠ []) (c : Char32) :
    contains (p ++ t) c = if c ∈ cs then .ok true else .error .ystring := by
  obtain ⟨us, h, rfl, rfl⟩ := hp.units
  obtain ⟨k, hk⟩ := fuel_split (t := t) h
  rw [contains, hk, containsLoop_units c us h, containsLoop, safeDecodeNext_bad h0 ht]
  rfl

/-- every byte string is covered by one of the two theorems -/
theorem C16_cases (s : Str) : Valid s ∨ ∃ p t cs, s = p ++ t ∧ Decodes p cs ∧ ¬ HasSeqPrefix t ∧ t ≠ [] := by
  obtain ⟨us, t, h, rfl, ht⟩ := splitUnits s
  by_cases h0 : t = []
  · left; subst h0; simpa using h.valid
  · right; exact ⟨_, t, _, rfl, h.decodes, ht, h0⟩

example : contains [0x41, 0xC3, 0xA6, 0xFF] 0xE6 = .ok true ∧
    contains [0x41, 0xC3, 0xA6, 0xFF] 0x42 = .error .ystring := by decide +kernel

/-! ### C23 starts_with, ends_with -/

/-- C23: `starts_with` never throws and is true iff the string is `p` followed by something. -/
theorem C23_starts_with (s p : Str) :
    (startsWith s p = .ok true ↔ ∃ t, s = p ++ t) ∧ (startsWith s p = .ok false ↔ ¬ ∃ t, s = p ++ t) := by
  have key : startsWith s p = .ok (decide (p <+: s)) := by
    unfold startsWith substr
    by_cases h : p.length ≤ s.length
    · rw [if_pos h, if_neg (by omega)]
      simp only [bind, Except.bind, List.drop_zero]
      congr 1
      rw [Bool.eq_iff_iff]
      simp only [beq_iff_eq, decide_eq_true_eq]
      constructor
      · intro e; rw [← e]; exact List.take_prefix _ _
      · rintro ⟨t, rfl⟩; simp
    · rw [if_neg h]
      congr 1
      symm
      rw [decide_eq_false_iff_not]
      intro hp; exact h hp.length_le
  rw [key]
  have : p <+: s ↔ ∃ t, s = p ++ t := ⟨fun ⟨t, h⟩ => ⟨t, h.symm⟩, fun ⟨t, h⟩ => ⟨t, h.symm⟩⟩
  rw [← this]
  by_cases h : p <+: s <;> simp [h]

/-- C23: `ends_with` never throws and is true iff the string is something followed by `p`. -/
theorem C23_ends_with (s p : Str) (hs : s.length < SIZE_MOD) :
    (endsWith s p = .ok true ↔ ∃ t, s = t ++ p) ∧ (endsWith s p = .ok false ↔ ¬ ∃ t, s = t ++ p) := by
  have key : endsWith s p = .ok (decide (p <:+ s)) := by
    unfold endsWith substr
    by_cases h : s.length ≥ p.length
    · rw [if_pos h, if_neg (by omega)]
      simp only [bind, Except.bind]
      congr 1
      rw [Bool.eq_iff_iff]
      simp only [beq_iff_eq, decide_eq_true_eq]
      rw [List.take_of_length_le (by simp [npos]; unfold SIZE_MOD at hs; omega)]
      constructor
      · intro e; rw [← e]; exact List.drop_suffix _ _
      · rintro ⟨t, rfl⟩; simp
    · rw [if_neg h]
      congr 1
      symm
      rw [decide_eq_false_iff_not]
      intro hp; exact h hp.length_le
  rw [key]
  have : p <:+ s ↔ ∃ t, s = t ++ p := ⟨fun ⟨t, h⟩ => ⟨t, h.symm⟩, fun ⟨t, h⟩ => ⟨t, h.symm⟩⟩
  rw [← this]
  by_cases h : p <:+ s <;> simp [h]

/-- units of a valid suffix -/
theorem valid_prefix {us vs : List Unit8} {t : Str} (h : Units us) (h' : Units vs)
    (e : bytesOf us = t ++ bytesOf vs) : ∃ ws, Units ws ∧ us = ws ++ vs ∧ t = bytesOf ws := by
  induction hn : vs.length generalizing us vs with
  | zero =>
    have : vs = [] := List.length_eq_zero_iff.mp hn
    subst this
    exact ⟨us, h, by simp, by simpa using e.symm⟩
  | succ n ih =>
    obtain ⟨vs, v, rfl⟩ := units_snoc (us := vs) (by rintro rfl; simp at hn)
    rw [Units_append] at h'
    simp only [bytesOf_append, bytesOf_cons, bytesOf_nil, List.append_nil, ← List.append_assoc] at e
    by_cases h0 : us = []
    · subst h0
      have := (Units_cons.mp h'.2).1.ne_nil
      simp at e
      exact absurd e.2.2 this
    · obtain ⟨us, u, rfl⟩ := units_snoc h0
      rw [Units_append] at h
      simp only [bytesOf_append, bytesOf_cons, bytesOf_nil, List.append_nil] at e
      obtain ⟨e1, e2, e3⟩ := (Units_cons.mp h.2).1.append_inj' (Units_cons.mp h'.2).1 e
      obtain ⟨ws, h1, h2, h3⟩ := ih h.1 h'.1 e3 (by simpa using hn)
      refine ⟨ws, h1, ?_, h3⟩
      rw [h2, List.append_assoc]
      congr 2
      rw [← Prod.eta u, ← Prod.eta v, e1, e2]

/-- C23: for valid strings a byte prefix (suffix) is a code point prefix (suffix), and what is left is valid. -/
theorem C23_codepoints (s p t : Str) (cs ds : List Char32) (hs : Decodes s cs) (hp : Decodes p ds) :
    (s = p ++ t → ∃ es, Decodes t es ∧ cs = ds ++ es) ∧ (s = t ++ p → ∃ es, Decodes t es ∧ cs = es ++ ds) := by
  obtain ⟨us, h1, rfl, rfl⟩ := hs.units
  obtain ⟨vs, h2, rfl, rfl⟩ := hp.units
  constructor
  · intro e
    obtain ⟨ws, h3, rfl, rfl⟩ := valid_suffix h2 h1 e.symm
    exact ⟨_, h3.decodes, by simp⟩
  · intro e
    obtain ⟨ws, h3, rfl, rfl⟩ := valid_prefix h1 h2 e
    exact ⟨_, h3.decodes, by simp⟩

/-- C23: for well-formed strings the converse holds as well: `starts_with` (`ends_with`) is the prefix (suffix)
relation of the code point sequences. -/
theorem C23_wellFormed (s p : Str) (cs ds : List Char32) (hs : WellFormed s) (hp : WellFormed p)
    (hc : Decodes s cs) (hd : Decodes p ds) (hl : s.length < SIZE_MOD) :
    (startsWith s p = .ok true ↔ ds <+: cs) ∧ (endsWith s p = .ok true ↔ ds <:+ cs) := by
  have ex : ∀ s cs, WellFormed s → Decodes s cs → s = cs.flatMap encodeUtf8 := by
    intro s cs hw hd
    obtain ⟨x, h1, h2⟩ := C10_from_to_utf32 s hw
    rw [((C09_to_utf32 _).1 _).mpr hd] at h1
    injection h1 with h1
    subst h1
    rw [← fromUtf32_eq, h2]
  have es := ex s cs hs hc
  have ep := ex p ds hp hd
  rw [(C23_starts_with s p).1, (C23_ends_with s p hl).1]
  constructor
  · constructor
    · rintro ⟨t, e⟩
      obtain ⟨es, _, rfl⟩ := (C23_codepoints s p t cs ds hc hd).1 e
      exact List.prefix_append _ _
    · rintro ⟨es', rfl⟩
      exact ⟨es'.flatMap encodeUtf8, by rw [es, ep, List.flatMap_append]⟩
  · constructor
    · rintro ⟨t, e⟩
      obtain ⟨es, _, rfl⟩ := (C23_codepoints s p t cs ds hc hd).2 e
      exact List.suffix_append _ _
    · rintro ⟨es', rfl⟩
      exact ⟨es'.flatMap encodeUtf8, by rw [es, ep, List.flatMap_append]⟩

example : startsWith [0xC3, 0xA6, 0x41] [0xC3, 0xA6] = .ok true ∧ endsWith [0xC3, 0xA6, 0x41] [0x41] = .ok true ∧
    startsWith [0x41] [0x41, 0x42] = .ok false := by decide +kernel

end Ystring
