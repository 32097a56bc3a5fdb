import Verif.Spec.Ascii
import Verif.Props.Basics
import Verif.Props.Codec
import Verif.Props.Chars
import Verif.Props.Slice
import Verif.Props.FindWhere
import Verif.Props.Find
import Verif.Props.Codepoints
import Verif.Props.Case
import Verif.Props.CaseInsensitive
import Verif.Props.CaseInsensitiveFind
import Verif.Props.Composition
/-
C123: on ASCII strings the functions on text are the functions on bytes.
-/
namespace Ystring
open Spec

/-! ### ASCII strings, their code points and characters -/

theorem ascii_cons {b : UInt8} {s : Str} : Ascii (b :: s) ↔ b.toNat < 0x80 ∧ Ascii s := by
  simp [Ascii]

theorem ascii_append {s t : Str} : Ascii (s ++ t) ↔ Ascii s ∧ Ascii t := by
  simp only [Ascii, List.mem_append]
  exact ⟨fun h => ⟨fun b hb => h b (.inl hb), fun b hb => h b (.inr hb)⟩, fun h b hb => hb.elim (h.1 b) (h.2 b)⟩

theorem wide_toNat (b : UInt8) : (wide b).toNat = b.toNat := by
  have := b.toNat_lt
  exact UInt32.toNat_ofNat_of_lt' (by show _ < 4294967296; omega)

theorem ascii_seq {b : UInt8} (h : b.toNat < 0x80) : IsSeq [b] (wide b) := .one h (wide_toNat b)

theorem ascii_decodes {s : Str} (h : Ascii s) : Decodes s (s.map wide) := by
  induction s with
  | nil => exact .nil
  | cons b s ih => exact .cons (ascii_seq (ascii_cons.mp h).1) (ih (ascii_cons.mp h).2)

theorem asciiText_valid {s : Str} (h : Ascii s) : Valid s := ⟨_, ascii_decodes h⟩

theorem ascii_utf32 {s : Str} (h : Ascii s) : toUtf32 s = .ok (s.map wide) := ((C09_to_utf32 s).1 _).mpr (ascii_decodes h)

theorem ascii_decodes_eq {s : Str} {cs : List Char32} (h : Ascii s) (hd : Decodes s cs) : cs = s.map wide := by
  have := ((C09_to_utf32 s).1 _).mpr hd
  rw [ascii_utf32 h] at this
  exact (Except.ok.inj this).symm

theorem ascii_wellFormed {s : Str} (h : Ascii s) : WellFormed s := by
  refine ⟨s.map UInt8.toNat, fun c hc => ?_, ?_⟩
  · obtain ⟨b, hb, rfl⟩ := List.mem_map.mp hc
    exact .inl (by have := h b hb; omega)
  · induction s with
    | nil => rfl
    | cons b s ih =>
      rw [List.map_cons, List.flatMap_cons, ← ih (ascii_cons.mp h).2]
      unfold rfcEncode
      rw [if_pos (ascii_cons.mp h).1, UInt8.ofNat_toNat]
      rfl

theorem ascii_not_mark {b : UInt8} (h : b.toNat < 0x80) : isMark (wide b) = false := by
  revert b; apply forall_u8; decide +kernel

/-- the bytes, each as a string of its own -/
def singles (s : Str) : List Str := s.map fun b => [b]

theorem singles_flatten (s : Str) : (singles s).flatten = s := by
  induction s with
  | nil => rfl
  | cons b s ih => simp only [singles, List.map_cons, List.flatten_cons] at *; rw [ih]; rfl

theorem singles_length (s : Str) : (singles s).length = s.length := by simp [singles]

theorem singles_take (s : Str) (n : Nat) : (singles s).take n = singles (s.take n) := by simp [singles]

theorem singles_drop (s : Str) (n : Nat) : (singles s).drop n = singles (s.drop n) := by simp [singles]

theorem singles_codePoints {s : Str} (h : Ascii s) : CodePoints s (singles s) :=
  ⟨singles_flatten s, fun g hg => by
    obtain ⟨b, hb, rfl⟩ := List.mem_map.mp hg
    exact ⟨_, ascii_seq (h b hb)⟩⟩

theorem singles_characters {s : Str} (h : Ascii s) : Characters s (singles s) := by
  refine ⟨singles_flatten s, fun g hg => ?_, fun g hg => ?_⟩
  · obtain ⟨b, hb, rfl⟩ := List.mem_map.mp hg
    exact ⟨wide b, [], .cons (u := [b]) (ascii_seq (h b hb)) .nil, by simp⟩
  · obtain ⟨b, hb, rfl⟩ := List.mem_map.mp (List.mem_of_mem_tail hg)
    rintro ⟨m, cs, hd, hm⟩
    have hb' : Ascii [b] := fun x hx => by rw [List.mem_singleton] at hx; subst hx; exact h x hb
    have := ascii_decodes_eq hb' hd
    cases this
    rw [ascii_not_mark (h b hb)] at hm
    exact absurd hm (by decide)

theorem singles_boundary (s : Str) (k : Int) : boundary (singles s) k = byteOffset s.length k := by
  unfold boundary byteOffset
  simp only [singles_length, singles_take, singles_flatten, List.length_take]
  split
  · split
    · rw [Nat.min_eq_left (by omega)]
    · rfl
  · split
    · rw [Nat.min_eq_left (by omega)]
    · rfl

theorem singles_slice (s : Str) (i j : Int) : (slice (singles s) i j).flatten = byteSlice s i j := by
  unfold slice byteSlice
  rw [singles_length, singles_take, singles_drop, singles_flatten]

theorem singles_splice (s : Str) (i j : Int) (repl : Str) : splice (singles s) i j repl =
    s.take (clampIndex s.length i) ++ repl ++ s.drop (max (clampIndex s.length i) (clampIndex s.length j)) := by
  unfold splice
  rw [singles_length, singles_take, singles_drop, singles_flatten, singles_flatten]

/-! ### C123 -/

/-- C123: an ASCII string is valid, its code points are its bytes, and a byte is a code point and a character. -/
theorem C123_text (s : Str) (h : Ascii s) (hl : s.length < SIZE_MOD) :
    isValidUtf8 s = .ok true ∧ toUtf32 s = .ok (s.map wide) ∧ fromUtf32 (s.map wide) = s ∧
    countCodepoints s = .ok s.length ∧ countChars s = .ok s.length ∧
    (∀ c, contains s c = .ok (decide (∃ b ∈ s, b.toNat = c.toNat))) ∧ reverse s = .ok s.reverse := by
  have hd := ascii_decodes h
  have hc := singles_characters h
  refine ⟨(C08_is_valid_partial s).1.mpr ⟨_, hd⟩, ascii_utf32 h, ?_, ?_, ?_, fun c => ?_, ?_⟩
  · have hw := ascii_wellFormed h
    obtain ⟨cs, h1, h2⟩ := C10_from_to_utf32 s hw
    rw [ascii_utf32 h] at h1
    cases h1
    exact h2
  · rw [C12_count_valid s _ hd, List.length_map]
  · rw [C25_count_chars s _ hc hl, singles_length]
  · rw [C16_contains_valid s _ hd c]
    congr 2
    simp only [List.mem_map, eq_iff_iff]
    refine ⟨fun ⟨b, hb, e⟩ => ⟨b, hb, by rw [← e, wide_toNat]⟩, fun ⟨b, hb, e⟩ => ⟨b, hb, ?_⟩⟩
    rw [← UInt32.toNat_inj, wide_toNat, e]
  · rw [(C33_reverse s _ hc hl).1]
    congr 1
    unfold singles
    rw [← List.map_reverse]
    exact singles_flatten s.reverse

/-- C123: indices are byte offsets. -/
theorem C123_positions (s : Str) (h : Ascii s) (hl : s.length < npos) (k : Int) :
    (k ≠ PTRDIFF_MIN → getCodepointPos s k = .ok ((byteOffset s.length k).getD npos)) ∧
    getCharPos s k = .ok ((byteOffset s.length k).getD npos) ∧
    (∀ i : Nat, ∀ hi : i < s.length, k = i ∨ k = (i : Int) - s.length →
      getCodepoint s k = .ok (⟨i, 1⟩, wide s[i]) ∧ getCharRange s k = .ok ⟨i, 1⟩) ∧
    ((s.length : Int) ≤ k → getCodepoint s k = .ok (⟨s.length, 0⟩, INVALID_CHAR) ∧ getCharRange s k = .ok ⟨s.length, 0⟩) ∧
    (k < -(s.length : Int) → getCodepoint s k = .ok (⟨0, 0⟩, INVALID_CHAR) ∧ getCharRange s k = .ok ⟨0, 0⟩) := by
  have hc := singles_characters h
  have hp := singles_codePoints h
  have hm : s.length < SIZE_MOD := by unfold npos at hl; unfold SIZE_MOD; omega
  have a := C28_get_codepoint s _ hp k
  have b := C26_get_char_range s _ hc hl k
  have sl := singles_length s
  refine ⟨fun hk => ?_, ?_, fun i hi hk => ?_, fun hk => ⟨a.2.1 (by omega), b.2.1 (by omega)⟩,
    fun hk => ⟨a.2.2 (by omega), b.2.2 (by omega)⟩⟩
  · rw [C27_get_codepoint_pos_partial s _ hp k hk, singles_boundary]
  · rw [C25_get_char_pos s _ hc hm k, singles_boundary]
  · have e : (singles s)[i]'(by rw [singles_length]; exact hi) = [s[i]] := by simp [singles]
    have f : ((singles s).take i).flatten.length = i := by
      rw [singles_take, singles_flatten, List.length_take]; omega
    have a1 := a.1 i (by omega) (wide s[i]) (by rw [e]; exact ascii_seq (h _ (List.getElem_mem hi))) (by omega)
    have b1 := b.1 i (by omega) (by omega)
    rw [f] at a1 b1
    simp only [e, List.length_singleton] at a1 b1
    exact ⟨a1, b1⟩

theorem clampIndex_nat (n i : Nat) : clampIndex n i = min i n := by
  unfold clampIndex; rw [if_pos (by omega)]; rfl

/-- C123: substrings, replacement and insertion by index are those of the bytes (indices counted from the beginning). -/
theorem C123_edit (s : Str) (h : Ascii s) (hl : s.length < 2 ^ 63) (i j : Nat) (r : Str) :
    getCodepointSubstring s i j = .ok ((s.take j).drop i) ∧ getCharSubstring s i j = .ok ((s.take j).drop i) ∧
    replaceCodepoints s i j r = .ok (s.take i ++ r ++ s.drop (max i j)) ∧
    replaceChars s i j r = .ok (s.take i ++ r ++ s.drop (max i j)) ∧
    (i ≤ s.length → insertCodepoints s i r = .ok (s.take i ++ r ++ s.drop i) ∧
      insertChars s i r = .ok (s.take i ++ r ++ s.drop i)) ∧
    (s.length < i → r ≠ [] → insertCodepoints s i r = .error .ystring ∧ insertChars s i r = .error .ystring) := by
  have hc := singles_characters h
  have hp := singles_codePoints h
  have hn : s.length < npos := by unfold npos; omega
  have mi : PTRDIFF_MIN < (i : Int) := by unfold PTRDIFF_MIN; omega
  have mj : PTRDIFF_MIN < (j : Int) := by unfold PTRDIFF_MIN; omega
  have tk : ∀ n : Nat, s.take (min n s.length) = s.take n := fun n => by
    rcases Nat.le_total n s.length with h | h
    · rw [Nat.min_eq_left h]
    · rw [Nat.min_eq_right h, List.take_of_length_le h, List.take_of_length_le (Nat.le_refl _)]
  have dr : ∀ n : Nat, s.drop (min n s.length) = s.drop n := fun n => by
    rcases Nat.le_total n s.length with h | h
    · rw [Nat.min_eq_left h]
    · rw [Nat.min_eq_right h, List.drop_of_length_le h, List.drop_of_length_le (Nat.le_refl _)]
  have es : (slice (singles s) i j).flatten = (s.take j).drop i := by
    rw [singles_slice]
    unfold byteSlice
    rw [clampIndex_nat, clampIndex_nat, tk]
    rcases Nat.le_total i s.length with h | h
    · rw [Nat.min_eq_left h]
    · rw [Nat.min_eq_right h, List.drop_of_length_le (by rw [List.length_take]; omega),
        List.drop_of_length_le (by rw [List.length_take]; omega)]
  have ep : splice (singles s) i j r = s.take i ++ r ++ s.drop (max i j) := by
    rw [singles_splice, clampIndex_nat, clampIndex_nat, tk, ← dr (max i j)]
    congr 2
    omega
  have b1 : i ≤ s.length → boundary (singles s) i = some i := fun hi => by
    rw [singles_boundary]; unfold byteOffset; rw [if_pos (by omega), if_pos (by omega)]; rfl
  have b2 : s.length < i → boundary (singles s) i = none := fun hi => by
    rw [singles_boundary]; unfold byteOffset; rw [if_pos (by omega), if_neg (by omega)]
  have ic := (C32_insert_chars_partial s _ hc hn i).2
  have ip := (C32_insert_codepoints_partial s _ hp hn i (by omega)).2
  refine ⟨?_, ?_, ?_, ?_, fun hi => ?_, fun hi hr => ?_⟩
  · rw [C29_get_codepoint_substring_partial s _ hp hn i j mi mj (.inl (by omega)), es]
  · rw [C30_get_char_substring_partial s _ hc hl i j (.inl (by omega)), es]
  · rw [C31_replace_codepoints_partial s _ hp hn i j mi mj (.inl (by omega)), ep]
  · rw [C31_replace_chars_partial s _ hc hn i j (.inl (by omega)), ep]
  · by_cases hr : r = []
    · subst hr
      rw [ip.2, ic.2, List.append_nil, List.take_append_drop]
      exact ⟨rfl, rfl⟩
    · rw [ip.1 r hr, ic.1 r hr, b1 hi]
      exact ⟨rfl, rfl⟩
  · rw [ip.1 r hr, ic.1 r hr, b2 hi]
    exact ⟨rfl, rfl⟩

theorem split_at {s : Str} {i : Nat} (hi : i < s.length) : s = s.take i ++ [s[i]] ++ s.drop (i + 1) := by
  rw [List.append_assoc, List.singleton_append, List.getElem_cons_drop, List.take_append_drop]

theorem ascii_take {s : Str} (h : Ascii s) (n : Nat) : Ascii (s.take n) := fun b hb => h b (List.mem_of_mem_take hb)

theorem ascii_drop {s : Str} (h : Ascii s) (n : Nat) : Ascii (s.drop n) := fun b hb => h b (List.mem_of_mem_drop hb)

/-- C123: the searches for code points find bytes. -/
theorem C123_find_where (s : Str) (h : Ascii s) (p : Char32 → Bool) (offset : Nat) (ho : offset ≤ s.length) :
    (∀ i, ∀ hi : i < s.length, offset ≤ i → p (wide s[i]) = true → (∀ j, ∀ hj : j < i, offset ≤ j → p (wide s[j]) = false) →
      findFirstWhere s p offset = .ok (⟨i, 1⟩, wide s[i])) ∧
    ((∀ j, ∀ hj : j < s.length, offset ≤ j → p (wide s[j]) = false) →
      findFirstWhere s p offset = .ok (⟨npos, 0⟩, INVALID_CHAR)) ∧
    (∀ i, ∀ hi : i < offset, p (wide s[i]) = true → (∀ j, ∀ hj : j < offset, i < j → p (wide s[j]) = false) →
      findLastWhere s p offset = .ok (⟨i, 1⟩, wide s[i])) ∧
    ((∀ j, ∀ hj : j < offset, p (wide s[j]) = false) → findLastWhere s p offset = .ok (⟨npos, 0⟩, INVALID_CHAR)) := by
  have ft : s.take offset ++ s.drop offset = s := List.take_append_drop _ _
  have fl : (s.take offset).length = offset := by rw [List.length_take]; omega
  have F := C20_find_first_where (s.take offset) (s.drop offset) p
  have L := C21_find_last_where (s.take offset) (s.drop offset) p offset (by rw [ft, fl]; omega)
  rw [ft, fl] at F
  rw [ft] at L
  refine ⟨fun i hi hoi hp hb => ?_, fun hb => ?_, fun i hi hp hb => ?_, fun hb => ?_⟩
  · have hi' : i - offset < (s.drop offset).length := by rw [List.length_drop]; omega
    have e : (s.drop offset)[i - offset] = s[i] := by
      rw [List.getElem_drop]; congr 1; omega
    have := F.1 ((s.drop offset).take (i - offset)) [(s.drop offset)[i - offset]] ((s.drop offset).drop (i - offset + 1)) _
      (wide (s.drop offset)[i - offset]) (split_at hi') (ascii_decodes (ascii_take (ascii_drop h _) _)) (fun x hx => ?_)
      (ascii_seq (ascii_drop h offset _ (List.getElem_mem hi'))) (by rw [e]; exact hp)
    · rw [this, e, List.length_take, List.length_drop]
      congr 3
      · omega
    · obtain ⟨b, hb', rfl⟩ := List.mem_map.mp hx
      obtain ⟨j, hj, rfl⟩ := List.getElem_of_mem hb'
      simp only [List.length_take, List.length_drop] at hj
      rw [List.getElem_take, List.getElem_drop]
      exact hb _ (by omega) (by omega)
  · refine F.2.1 _ (ascii_decodes (ascii_drop h _)) fun x hx => ?_
    obtain ⟨b, hb', rfl⟩ := List.mem_map.mp hx
    obtain ⟨j, hj, rfl⟩ := List.getElem_of_mem hb'
    simp only [List.length_drop] at hj
    rw [List.getElem_drop]
    exact hb _ (by omega) (by omega)
  · have hi' : i < (s.take offset).length := by omega
    have e : (s.take offset)[i] = s[i] := List.getElem_take
    have := L.1 ((s.take offset).take i) [(s.take offset)[i]] ((s.take offset).drop (i + 1)) _
      (wide (s.take offset)[i]) (split_at hi') (ascii_decodes (ascii_drop (ascii_take h _) _)) (fun x hx => ?_)
      (ascii_seq (ascii_take h offset _ (List.getElem_mem hi'))) (by rw [e]; exact hp)
    · rw [this, e, List.length_take, List.length_take]
      congr 3
      · omega
    · obtain ⟨b, hb', rfl⟩ := List.mem_map.mp hx
      obtain ⟨j, hj, rfl⟩ := List.getElem_of_mem hb'
      simp only [List.length_drop, List.length_take] at hj
      rw [List.getElem_drop, List.getElem_take]
      exact hb _ (by omega) (by omega)
  · refine L.2.1 _ (ascii_decodes (ascii_take h _)) fun x hx => ?_
    obtain ⟨b, hb', rfl⟩ := List.mem_map.mp hx
    obtain ⟨j, hj, rfl⟩ := List.getElem_of_mem hb'
    simp only [List.length_take] at hj
    rw [List.getElem_take]
    exact hb _ (by omega)

theorem wide_inj {s t : Str} (h : s.map wide = t.map wide) : s = t := by
  refine List.map_inj_right (fun a b e => ?_) |>.mp h
  rw [← UInt8.toNat_inj, ← wide_toNat, ← wide_toNat, e]

/-- C123: trimming removes bytes from the ends. -/
theorem C123_trim (s : Str) (h : Ascii s) (hl : Fits s) (p : Char32 → Bool) :
    let q := fun b => p (wide b)
    trimStartWhere s p = .ok (s.dropWhile q) ∧ trimEndWhere s p = .ok (s.reverse.dropWhile q).reverse ∧
    trimWhere s p = .ok ((s.dropWhile q).reverse.dropWhile q).reverse := by
  intro q
  have hm : s.length < SIZE_MOD := by unfold Fits PTRDIFF_MAX at hl; unfold SIZE_MOD; omega
  have dm : ∀ t : Str, (t.map wide).dropWhile p = (t.dropWhile q).map wide := fun t => by
    rw [List.dropWhile_map]; rfl
  obtain ⟨⟨t1, a1, b1⟩, ⟨t2, a2, b2⟩, ⟨t3, a3, b3⟩⟩ := C89_trim s _ (ascii_utf32 h) hl p
  obtain ⟨x1, y1, e1, f1, _⟩ := C42_trim_start_where s (asciiText_valid h) hm p
  obtain ⟨x2, y2, e2, f2, _⟩ := C42_trim_end_where s (asciiText_valid h) hm p
  obtain ⟨x3, y3, z3, e3, f3, _⟩ := C42_trim_where s (asciiText_valid h) hm p
  rw [a1] at f1; cases f1
  rw [a2] at f2; cases f2
  rw [a3] at f3; cases f3
  have g1 : Ascii t1 := (ascii_append.mp (e1 ▸ h)).2
  have g2 : Ascii t2 := (ascii_append.mp (e2 ▸ h)).1
  have g3 : Ascii t3 := (ascii_append.mp (ascii_append.mp (e3 ▸ h)).1).2
  rw [ascii_utf32 g1, dm] at b1
  rw [ascii_utf32 g2, ← List.map_reverse, dm, ← List.map_reverse] at b2
  rw [ascii_utf32 g3, dm, ← List.map_reverse, dm, ← List.map_reverse] at b3
  rw [a1, a2, a3, wide_inj (Except.ok.inj b1), wide_inj (Except.ok.inj b2), wide_inj (Except.ok.inj b3)]
  exact ⟨rfl, rfl, rfl⟩

/-! ### Case -/

theorem ascii_simple {b : UInt8} (h : b.toNat < 0x80) : simpleLower b.toNat = (asciiLower b).toNat ∧
    simpleUpper b.toNat = (asciiUpper b).toNat ∧ simpleTitle b.toNat = (asciiUpper b).toNat ∧
    isLetter (wide b) = asciiLetter b ∧ (asciiLetter b = false → asciiLower b = b ∧ asciiUpper b = b) ∧
    (asciiLower b).toNat < 0x80 ∧ (asciiUpper b).toNat < 0x80 := by
  revert b; apply forall_u8; decide +kernel

theorem rfc_ascii {b : UInt8} (h : b.toNat < 0x80) : rfcEncode b.toNat = [b] := by
  unfold rfcEncode; rw [if_pos h, UInt8.ofNat_toNat]

theorem ascii_fold {s : Str} (h : Ascii s) : fold (s.map wide) = (s.map asciiUpper).map UInt8.toNat := by
  unfold fold
  rw [List.map_map, List.map_map]
  refine List.map_congr_left fun b hb => ?_
  show simpleUpper (wide b).toNat = _
  rw [wide_toNat, (ascii_simple (h b hb)).2.1]
  rfl

theorem toNats_inj {s t : Str} : s.map UInt8.toNat = t.map UInt8.toNat ↔ s = t :=
  List.map_inj_right fun _ _ e => UInt8.toNat_inj.mp e

theorem ascii_inUnicode {s : Str} (h : Ascii s) : InUnicode (s.map wide) := fun c hc => by
  obtain ⟨b, hb, rfl⟩ := List.mem_map.mp hc
  rw [wide_toNat]; have := h b hb; omega

/-- C123: case conversion is that of the letters `A`-`Z` and `a`-`z`. -/
theorem C123_case (s : Str) (h : Ascii s) :
    toLower s = .ok (s.map asciiLower) ∧ toUpper s = .ok (s.map asciiUpper) ∧ toTitle s = .ok (asciiTitle false s) := by
  have hd := ascii_decodes h
  have hu := ascii_inUnicode h
  rw [(C53_to_lower s).1 _ hd hu, (C53_to_upper s).1 _ hd hu, (C53_to_title s).1 _ hd hu]
  refine ⟨congrArg _ ?_, congrArg _ ?_, congrArg _ ?_⟩
  · clear hd hu
    induction s with
    | nil => rfl
    | cons b s ih =>
      have hb := ascii_simple (ascii_cons.mp h).1
      unfold lowerText at *
      rw [List.map_cons, List.flatMap_cons, ih (ascii_cons.mp h).2, wide_toNat, hb.1, rfc_ascii hb.2.2.2.2.2.1]
      rfl
  · clear hd hu
    induction s with
    | nil => rfl
    | cons b s ih =>
      have hb := ascii_simple (ascii_cons.mp h).1
      have := (ascii_cons.mp h).1
      unfold upperText at *
      rw [List.map_cons, List.flatMap_cons, ih (ascii_cons.mp h).2, wide_toNat, if_neg (by omega), hb.2.1,
        rfc_ascii hb.2.2.2.2.2.2]
      rfl
  · clear hd hu
    generalize false = pre
    induction s generalizing pre with
    | nil => rfl
    | cons b s ih =>
      have hb := ascii_simple (ascii_cons.mp h).1
      have h8 := (ascii_cons.mp h).1
      rw [List.map_cons]
      unfold titleText asciiTitle
      rw [hb.2.2.2.1, wide_toNat, ih (ascii_cons.mp h).2, ih (ascii_cons.mp h).2]
      cases hl : asciiLetter b with
      | true =>
        rw [if_pos rfl, if_neg (by omega : ¬ b.toNat = 0xDF), hb.1, hb.2.2.1, rfc_ascii hb.2.2.2.2.2.1,
          rfc_ascii hb.2.2.2.2.2.2]
        cases pre <;> rfl
      | false =>
        rw [if_neg (by decide), rfc_ascii h8, (hb.2.2.2.2.1 hl).1, (hb.2.2.2.2.1 hl).2, ite_self]
        rfl

/-- C123: comparison without regard to case is comparison of the bytes in upper case. -/
theorem C123_compare (s t : Str) (hs : Ascii s) (ht : Ascii t) :
    let u := s.map asciiUpper
    let v := t.map asciiUpper
    CI.equal s t = .ok (decide (u = v)) ∧
    ∃ r, CI.compare s t = .ok r ∧ (r < 0 ↔ BytesLess u v) ∧ (r = 0 ↔ u = v) ∧ (0 < r ↔ BytesLess v u) ∧
      (CI.less s t = .ok true ↔ BytesLess u v) ∧ (CI.less s t = .ok false ↔ ¬ BytesLess u v) := by
  intro u v
  refine ⟨?_, ?_⟩
  · rw [CI.C43_equal (ascii_decodes hs) (ascii_decodes ht), ascii_fold hs, ascii_fold ht]
    congr 2
    exact propext toNats_inj
  · obtain ⟨r, h1, h2, h3, h4, _, _, h5⟩ := CI.C44_compare (ascii_decodes hs) (ascii_decodes ht)
    rw [ascii_fold hs, ascii_fold ht] at h2 h3 h4 h5
    refine ⟨r, h1, h2, h3.trans toNats_inj, h4, ?_, ?_⟩
    · rw [h5]; simp [BytesLess, u, v]
    · rw [h5]; simp [BytesLess, u, v]

theorem ascii_sameFold {m cmp : Str} (hm : Ascii m) (hc : Ascii cmp) :
    SameFold m cmp ↔ m.map asciiUpper = cmp.map asciiUpper := by
  refine ⟨fun ⟨cs, ds, h1, h2, h3⟩ => ?_, fun e => ⟨_, _, ascii_decodes hm, ascii_decodes hc, ?_⟩⟩
  · rw [ascii_decodes_eq hm h1, ascii_decodes_eq hc h2, ascii_fold hm, ascii_fold hc] at h3
    exact toNats_inj.mp h3
  · rw [ascii_fold hm, ascii_fold hc, e]

theorem ascii_foldAt {s cmp : Str} (hs : Ascii s) (hc : Ascii cmp) (i n : Nat) :
    FoldAt s cmp i n ↔ AsciiAt s cmp i ∧ n = cmp.length := by
  constructor
  · rintro ⟨a, m, b, rfl, h1, h2, _, _, h3⟩
    have hm := (ascii_append.mp (ascii_append.mp hs).1).2
    have := (ascii_sameFold hm hc).mp h3
    refine ⟨⟨a, m, b, rfl, h1, this⟩, ?_⟩
    have := congrArg List.length this
    simp only [List.length_map] at this
    omega
  · rintro ⟨⟨a, m, b, rfl, h1, h2⟩, h3⟩
    have ha := (ascii_append.mp (ascii_append.mp hs).1)
    have := congrArg List.length h2
    simp only [List.length_map] at this
    exact ⟨a, m, b, rfl, h1, by omega, asciiText_valid ha.1, asciiText_valid (ascii_append.mp hs).2, (ascii_sameFold ha.2 hc).mpr h2⟩

/-- C123: searching without regard to case is searching for bytes in upper case. -/
theorem C123_search (s cmp : Str) (hs : Ascii s) (hc : Ascii cmp) (h0 : cmp ≠ []) (offset : Nat) (ho : offset ≤ s.length) :
    ((∃ i, CI.findFirst s cmp offset = .ok ⟨i, cmp.length⟩ ∧ offset ≤ i ∧ AsciiAt s cmp i ∧
        ∀ j, offset ≤ j → AsciiAt s cmp j → i ≤ j) ∨
      (CI.findFirst s cmp offset = .ok ⟨npos, 0⟩ ∧ ∀ j, offset ≤ j → ¬ AsciiAt s cmp j)) ∧
    ((∃ i, CI.findLast s cmp offset = .ok ⟨i, cmp.length⟩ ∧ i + cmp.length ≤ offset ∧ AsciiAt s cmp i ∧
        ∀ j, j + cmp.length ≤ offset → AsciiAt s cmp j → j ≤ i) ∨
      (CI.findLast s cmp offset = .ok ⟨npos, 0⟩ ∧ ∀ j, j + cmp.length ≤ offset → ¬ AsciiAt s cmp j)) := by
  have ft : s.take offset ++ s.drop offset = s := List.take_append_drop _ _
  have fl : (s.take offset).length = offset := by rw [List.length_take]; omega
  have hd := ascii_drop hs offset
  have ht := ascii_take hs offset
  have up : ∀ j, AsciiAt (s.drop offset) cmp j ↔ AsciiAt s cmp (offset + j) := fun j => by
    constructor
    · rintro ⟨a, m, b, e, h1, h2⟩
      exact ⟨s.take offset ++ a, m, b, by rw [List.append_assoc, List.append_assoc, ← List.append_assoc a, ← e, ft],
        by rw [List.length_append]; omega, h2⟩
    · rintro ⟨a, m, b, e, h1, h2⟩
      refine ⟨a.drop offset, m, b, ?_, by rw [List.length_drop]; omega, h2⟩
      rw [e, List.append_assoc, List.append_assoc, List.drop_append_of_le_length (by omega)]
  have lo : ∀ j, AsciiAt (s.take offset) cmp j ↔ AsciiAt s cmp j ∧ j + cmp.length ≤ offset := fun j => by
    constructor
    · rintro ⟨a, m, b, e, h1, h2⟩
      have l2 := congrArg List.length h2
      have l1 := congrArg List.length e
      simp only [List.length_map] at l2
      rw [fl] at l1
      simp only [List.length_append] at l1
      exact ⟨⟨a, m, b ++ s.drop offset, by rw [← List.append_assoc, ← e, ft], h1, h2⟩, by omega⟩
    · rintro ⟨⟨a, m, b, e, h1, h2⟩, h3⟩
      have l2 := congrArg List.length h2
      simp only [List.length_map] at l2
      refine ⟨a, m, b.take (offset - (a ++ m).length), ?_, h1, h2⟩
      rw [e, List.take_append, List.take_of_length_le (by rw [List.length_append]; omega)]
  have F := CI.C45_find_first (s.take offset) (s.drop offset) cmp (asciiText_valid hd) (asciiText_valid hc) h0
  have L := CI.C45_find_last (s.take offset) (s.drop offset) cmp (asciiText_valid ht) (asciiText_valid hc) h0 offset
    (by rw [ft, fl]; omega)
  rw [ft, fl] at F
  rw [ft] at L
  refine ⟨?_, ?_⟩
  · rcases F with ⟨hn, e⟩ | ⟨i, n, hf, _, hm, e⟩
    · refine .inr ⟨e, fun j hj ha => hn (j - offset) cmp.length ((ascii_foldAt hd hc _ _).mpr ⟨(up _).mpr ?_, rfl⟩)⟩
      rwa [show offset + (j - offset) = j by omega]
    · obtain ⟨h1, rfl⟩ := (ascii_foldAt hd hc _ _).mp hf
      refine .inl ⟨offset + i, e, by omega, (up i).mp h1, fun j hj ha => ?_⟩
      have := hm (j - offset) cmp.length ((ascii_foldAt hd hc _ _).mpr ⟨(up _).mpr ?_, rfl⟩)
      · omega
      · rwa [show offset + (j - offset) = j by omega]
  · rcases L with ⟨hn, e⟩ | ⟨i, n, hf, _, hm, e⟩
    · exact .inr ⟨e, fun j hj ha => hn j cmp.length ((ascii_foldAt ht hc _ _).mpr ⟨(lo _).mpr ⟨ha, hj⟩, rfl⟩)⟩
    · obtain ⟨h1, rfl⟩ := (ascii_foldAt ht hc _ _).mp hf
      refine .inl ⟨i, e, ((lo i).mp h1).2, ((lo i).mp h1).1, fun j hj ha => ?_⟩
      exact (hm j cmp.length ((ascii_foldAt ht hc _ _).mpr ⟨(lo _).mpr ⟨ha, hj⟩, rfl⟩)).1

/-- C123: `starts_with` and `ends_with` without regard to case compare bytes in upper case. -/
theorem C123_ends (s cmp : Str) (hs : Ascii s) (hc : Ascii cmp) :
    CI.startsWith s cmp = .ok (decide (cmp.map asciiUpper <+: s.map asciiUpper)) ∧
    CI.endsWith s cmp = .ok (decide (cmp.map asciiUpper <:+ s.map asciiUpper)) := by
  obtain ⟨a, h1, h2⟩ := CI.C46_starts_with (asciiText_valid hs) (asciiText_valid hc)
  obtain ⟨b, h3, h4⟩ := CI.C46_ends_with (asciiText_valid hs) (asciiText_valid hc)
  rw [h1, h3]
  refine ⟨congrArg _ ?_, congrArg _ ?_⟩
  · rw [Bool.eq_iff_iff, h2, decide_eq_true_iff]
    constructor
    · rintro ⟨m, r, rfl, _, h⟩
      exact ⟨r.map asciiUpper, by rw [← (ascii_sameFold (ascii_append.mp hs).1 hc).mp h, ← List.map_append]⟩
    · rintro ⟨r, e⟩
      have l := congrArg List.length e
      simp only [List.length_append, List.length_map] at l
      refine ⟨s.take cmp.length, s.drop cmp.length, (List.take_append_drop _ _).symm, asciiText_valid (ascii_drop hs _),
        (ascii_sameFold (ascii_take hs _) hc).mpr ?_⟩
      rw [List.map_take, ← e, List.take_left' (by rw [List.length_map])]
  · rw [Bool.eq_iff_iff, h4, decide_eq_true_iff]
    constructor
    · rintro ⟨r, m, rfl, _, h⟩
      exact ⟨r.map asciiUpper, by rw [← (ascii_sameFold (ascii_append.mp hs).2 hc).mp h, ← List.map_append]⟩
    · rintro ⟨r, e⟩
      have l := congrArg List.length e
      simp only [List.length_append, List.length_map] at l
      refine ⟨s.take (s.length - cmp.length), s.drop (s.length - cmp.length), (List.take_append_drop _ _).symm,
        asciiText_valid (ascii_take hs _), (ascii_sameFold (ascii_drop hs _) hc).mpr ?_⟩
      rw [List.map_drop, ← e, List.drop_left' (by omega)]

theorem decodes_bytes {s : Str} {cs : List Char32} (h : Decodes s cs) :
    cs.length ≤ s.length ∧ (cs.length = s.length → Ascii s) := by
  induction h with
  | nil => exact ⟨Nat.le_refl _, fun _ => by intro b hb; simp at hb⟩
  | cons hu _ ih =>
    obtain ⟨h1, h2⟩ := ih
    cases hu with
    | one hb _ =>
      refine ⟨by simp only [List.length_append, List.length_cons, List.length_nil]; omega, fun e => ?_⟩
      simp only [List.length_append, List.length_cons, List.length_nil] at e
      exact ascii_cons.mpr ⟨hb, h2 (by omega)⟩
    | two | three | four =>
      refine ⟨by simp only [List.length_append, List.length_cons, List.length_nil]; omega, fun e => ?_⟩
      simp only [List.length_append, List.length_cons, List.length_nil] at e
      omega

/-- C123: the valid strings with as many code points as bytes are the ASCII strings. -/
theorem C123_ascii_iff (s : Str) (hs : Valid s) : countCodepoints s = .ok s.length ↔ Ascii s := by
  obtain ⟨cs, hd⟩ := hs
  rw [C12_count_valid s cs hd]
  refine ⟨fun e => (decodes_bytes hd).2 (Except.ok.inj e), fun h => ?_⟩
  rw [ascii_decodes_eq h hd, List.length_map]

/-- C123: ASCII strings are composed and decomposed. -/
theorem C123_normal (s : Str) (h : Ascii s) (g : Nat) : toComposed s = .ok s ∧ toDecomposed s (g + 1) = .ok s := by
  have e : utf8 (s.map UInt8.toNat) = s := by
    unfold utf8
    induction s with
    | nil => rfl
    | cons b s ih => rw [List.map_cons, List.flatMap_cons, ih (ascii_cons.mp h).2, rfc_ascii (ascii_cons.mp h).1]; rfl
  have e' : encodeAll (s.map wide) = s := by
    unfold encodeAll
    rw [List.flatMap_map]
    simp only [wide_toNat]
    rw [← List.flatMap_map]
    exact e
  have atom : ∀ n, n < 128 → pairOf n = none ∧ singleOf n = none := by decide +kernel
  have l : LibText (s.map wide) (s.map wide) := by
    clear e e'
    induction s with
    | nil => exact .nil
    | cons b s ih =>
      have hb := (ascii_cons.mp h).1
      have ha := atom _ hb
      have hg : ¬ IsHangul b.toNat := fun hg => by have := hg.1; omega
      have := LibText.cons (c := wide b) (l := [b.toNat]) (by rw [wide_toNat]; exact ha.2) (by rw [wide_toNat]; exact hg)
        (by rw [wide_toNat]; exact .atom ha.1 ha.2 hg) (by simp) (ih (ascii_cons.mp h).2)
      exact this
  refine ⟨?_, ?_⟩
  · have := C55_identity_partial (s.map UInt8.toNat) (fun c hc => by
      obtain ⟨b, hb, rfl⟩ := List.mem_map.mp hc
      have := h b hb; omega)
    rwa [e] at this
  · have := C54_to_decomposed_partial _ _ (fun c hc => by exact ascii_inUnicode h c hc) l g
    rwa [e'] at this

/-! Cases that meet the hypotheses. -/
def asciiExample : Str := [0x48, 0x65, 0x6C, 0x6C, 0x6F, 0x2C, 0x20, 0x77, 0x4F, 0x72, 0x4C, 0x64, 0x21]
example : Ascii asciiExample := by unfold Ascii; decide +kernel
/-- "Hello, wOrLd!" -/
example : toLower asciiExample = .ok [0x68, 0x65, 0x6C, 0x6C, 0x6F, 0x2C, 0x20, 0x77, 0x6F, 0x72, 0x6C, 0x64, 0x21] ∧
    toTitle asciiExample = .ok [0x48, 0x65, 0x6C, 0x6C, 0x6F, 0x2C, 0x20, 0x57, 0x6F, 0x72, 0x6C, 0x64, 0x21] ∧
    asciiTitle false asciiExample = [0x48, 0x65, 0x6C, 0x6C, 0x6F, 0x2C, 0x20, 0x57, 0x6F, 0x72, 0x6C, 0x64, 0x21] := by
  decide +kernel
example : CI.findFirst asciiExample [0x57, 0x6F, 0x52] 0 = .ok ⟨7, 3⟩ ∧ AsciiAt asciiExample [0x57, 0x6F, 0x52] 7 :=
  ⟨by decide +kernel, [0x48, 0x65, 0x6C, 0x6C, 0x6F, 0x2C, 0x20], [0x77, 0x4F, 0x72], [0x4C, 0x64, 0x21], by decide +kernel⟩
example : byteOffset 13 (-3) = some 10 ∧ getCharPos asciiExample (-3) = .ok 10 ∧ byteOffset 13 14 = none := by decide +kernel
/-- "Été" is valid but not ASCII: it has two bytes more than code points -/
example : countCodepoints [0xC3, 0x89, 0x74, 0xC3, 0xA9] = .ok 3 ∧ ¬ Ascii [0xC3, 0x89, 0x74, 0xC3, 0xA9] := by
  unfold Ascii; decide +kernel

end Ystring
