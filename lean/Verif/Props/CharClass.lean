import Verif.Proofs.CharClass
/-
Property theorems C50 (general category) and C51 (code point predicates).
-/
namespace Ystring
open Spec

/-! ### C50 get_char_class -/

/-- C50: for every 32-bit value exactly one class is returned and the shift that computes it is defined
(shift count below 30). -/
theorem C50_one_class (c : Char32) : ∃ k : Nat, k < 30 ∧ getCharClass c = 1 <<< UInt32.ofNat k ∧
    (charClassShift c).toNat = k := by
  refine ⟨(charClassShift c).toNat, charClassShift_lt c, ?_, rfl⟩
  unfold getCharClass
  rw [UInt32.ofNat_toNat]

/-- C50 for every code point that is not strictly inside an ideograph block (what is missing: those code
points, see `C50_false_ideographs`, and the values above U+1FFFFF, see `C50_false_large`). Values from
U+110000 to U+1FFFFF are included; they are unassigned. -/
theorem C50_general_category_partial (c : Char32) (h : c.toNat ≤ 0x1FFFFF)
    (hi : ¬ InsideIdeographBlock c.toNat) :
    getCharClass c = 1 <<< UInt32.ofNat (generalCategory c.toNat) := by
  unfold getCharClass
  rw [← own_eq_general hi, ← charClassShift_own c h, UInt32.ofNat_toNat]

/-- C50 is false for every code point strictly inside an ideograph block: its general category is `Lo` (4)
but the class returned is `UNASSIGNED`. -/
theorem C50_false_ideographs (c : Char32) (h : InsideIdeographBlock c.toNat) :
    generalCategory c.toNat = 4 ∧ getCharClass c = CharClass.UNASSIGNED := by
  obtain ⟨h1, h2⟩ := own_inside h
  refine ⟨h2, ?_⟩
  have hc : c.toNat ≤ 0x1FFFFF := by
    obtain ⟨r, hr, _, h4⟩ := h
    have : ∀ r ∈ ideographBlocks, r.2 ≤ 0x1FFFFF := by decide
    have := this r hr
    omega
  unfold getCharClass
  have : charClassShift c = 29 := by
    apply UInt32.toNat_inj.mp
    rw [charClassShift_own c hc, h1]; rfl
  rw [this]; rfl

/-- the character 中 (U+4E2D) is such a code point: it is not classified as a letter -/
theorem C50_false : InsideIdeographBlock 0x4E2D ∧ generalCategory 0x4E2D = 4 ∧
    getCharClass 0x4E2D = CharClass.UNASSIGNED ∧ isLetter 0x4E2D = false := by
  have h : InsideIdeographBlock 0x4E2D := ⟨(0x4E00, 0x9FFF), by decide, by decide, by decide⟩
  have := C50_false_ideographs 0x4E2D h
  exact ⟨h, this.1, this.2, by unfold isLetter; rw [this.2]; decide⟩

/-- C50 is false above U+1FFFFF: the 32-bit shift drops the high bits of the value. -/
theorem C50_false_large : getCharClass 0x200061 ≠ CharClass.UNASSIGNED := by decide +kernel

/-- the hypotheses of the partial theorem hold e.g. for U+1F600 and for the Hangul syllable U+AC01 -/
example : ¬ InsideIdeographBlock 0x1F600 ∧ generalCategory 0x1F600 = 21 ∧
    ¬ InsideIdeographBlock 0xAC01 ∧ generalCategory 0xAC01 = 4 := by
  refine ⟨?_, by decide +kernel, ?_, by decide +kernel⟩ <;>
  · unfold InsideIdeographBlock; decide

/-- C50: there are no other values where the two differ: below 2^21 the class is wrong exactly inside the
ideograph blocks. -/
theorem C50_exact (c : Char32) (h : c.toNat ≤ 0x1FFFFF) :
    getCharClass c = 1 <<< UInt32.ofNat (generalCategory c.toNat) ↔ ¬ InsideIdeographBlock c.toNat := by
  constructor
  · intro e hi
    obtain ⟨h1, h2⟩ := C50_false_ideographs c hi
    rw [h1, h2] at e
    exact absurd e (by decide)
  · exact C50_general_category_partial c h

/-! ### C51 predicates -/

/-- `c` has general category class bit `k` -/
theorem class_cases (c : Char32) (p : CharClassT → Bool)
    (h : (List.range 30).all (fun k => p (1 <<< UInt32.ofNat k)) = true) : p (getCharClass c) = true := by
  obtain ⟨k, hk, e, _⟩ := C50_one_class c
  rw [e]
  exact List.all_eq_true.mp h k (by simpa using hk)

/-- C51: alphanumeric iff letter or number. -/
theorem C51_alpha_numeric (c : Char32) : isAlphaNumeric c = (isLetter c || isNumber c) := by
  have := class_cases c (fun x => decide ((decide (x &&& (CharClass.LETTER ||| CharClass.NUMBER) ≠ 0)) =
    ((decide (x &&& CharClass.LETTER ≠ 0)) || (decide (x &&& CharClass.NUMBER ≠ 0))))) (by decide +kernel)
  exact of_decide_eq_true this

/-- C51: graphical iff letter, mark, number, punctuation or symbol. -/
theorem C51_graphical (c : Char32) :
    isGraphical c = (isLetter c || isMark c || isNumber c || isPunctuation c || isSymbol c) := by
  have := class_cases c (fun x => decide ((decide (x &&& (CharClass.LETTER ||| CharClass.MARK |||
      CharClass.NUMBER ||| CharClass.PUNCTUATION ||| CharClass.SYMBOL) ≠ 0)) =
    ((decide (x &&& CharClass.LETTER ≠ 0)) || (decide (x &&& CharClass.MARK ≠ 0)) ||
     (decide (x &&& CharClass.NUMBER ≠ 0)) || (decide (x &&& CharClass.PUNCTUATION ≠ 0)) ||
     (decide (x &&& CharClass.SYMBOL ≠ 0))))) (by decide +kernel)
  exact of_decide_eq_true this

/-- C51: visible iff graphical or separator. -/
theorem C51_visible (c : Char32) : isVisible c = (isGraphical c || isSeparator c) := by
  have := class_cases c (fun x => decide ((decide (x &&& (CharClass.LETTER ||| CharClass.MARK |||
      CharClass.NUMBER ||| CharClass.PUNCTUATION ||| CharClass.SYMBOL ||| CharClass.SEPARATOR) ≠ 0)) =
    ((decide (x &&& (CharClass.LETTER ||| CharClass.MARK |||
      CharClass.NUMBER ||| CharClass.PUNCTUATION ||| CharClass.SYMBOL) ≠ 0)) ||
     (decide (x &&& CharClass.SEPARATOR ≠ 0))))) (by decide +kernel)
  exact of_decide_eq_true this

/-- C51: cased iff upper, lower or title case; and every cased letter is a letter. -/
theorem C51_cased (c : Char32) :
    isCasedLetter c = (isUpper c || isLower c || decide (getCharClass c = CharClass.TITLECASE_LETTER)) ∧
    (isCasedLetter c = true → isLetter c = true) := by
  have := class_cases c (fun x => decide ((decide (x &&& CharClass.CASED_LETTER ≠ 0)) =
    ((decide (x &&& CharClass.UPPERCASE_LETTER ≠ 0)) || (decide (x &&& CharClass.LOWERCASE_LETTER ≠ 0)) ||
     (decide (x = CharClass.TITLECASE_LETTER)))) && (!(decide (x &&& CharClass.CASED_LETTER ≠ 0)) ||
      (decide (x &&& CharClass.LETTER ≠ 0)))) (by decide +kernel)
  simp only [Bool.and_eq_true, decide_eq_true_eq, Bool.or_eq_true, Bool.not_eq_true', decide_eq_false_iff_not] at this
  refine ⟨this.1, fun h => ?_⟩
  unfold isCasedLetter at h
  unfold isLetter
  simp only [decide_eq_true_eq] at h ⊢
  exact this.2.resolve_left (fun h' => h' h)

/-- C51: no value is in two of the seven major classes, and every value is in one of them (the class
"other" is `Cc Cf Cs Co Cn`). -/
theorem C51_partition (c : Char32) :
    ([isLetter c, isMark c, isNumber c, isPunctuation c, isSymbol c, isSeparator c,
      decide (getCharClass c &&& CharClass.OTHER ≠ 0)].count true) = 1 := by
  have := class_cases c (fun x => decide (([(decide (x &&& CharClass.LETTER ≠ 0)),
    (decide (x &&& CharClass.MARK ≠ 0)), (decide (x &&& CharClass.NUMBER ≠ 0)),
    (decide (x &&& CharClass.PUNCTUATION ≠ 0)), (decide (x &&& CharClass.SYMBOL ≠ 0)),
    (decide (x &&& CharClass.SEPARATOR ≠ 0)), (decide (x &&& CharClass.OTHER ≠ 0))].count true) = 1))
    (by decide +kernel)
  exact of_decide_eq_true this

/-- C51: control, format and surrogate code points are "other" and hence in no other major class. -/
theorem C51_control_format_surrogate (c : Char32) (h : isControl c = true ∨ isFormat c = true ∨ isSurrogate c = true) :
    isVisible c = false := by
  have := class_cases c (fun x => (!(decide (x &&& CharClass.CONTROL ≠ 0)) && !(decide (x &&& CharClass.FORMAT ≠ 0)) &&
    !(decide (x &&& CharClass.SURROGATE ≠ 0))) || !decide (x &&& (CharClass.LETTER ||| CharClass.MARK |||
      CharClass.NUMBER ||| CharClass.PUNCTUATION ||| CharClass.SYMBOL ||| CharClass.SEPARATOR) ≠ 0))
      (by decide +kernel)
  unfold isControl isFormat isSurrogate at h
  unfold isVisible
  simp only [Bool.or_eq_true, Bool.and_eq_true, Bool.not_eq_true'] at this
  rcases this with ⟨⟨h1, h2⟩, h3⟩ | h4
  · rcases h with h | h | h
    · rw [h] at h1; cases h1
    · rw [h] at h2; cases h2
    · rw [h] at h3; cases h3
  · exact h4

/-- C51: surrogates are recognised exactly. -/
theorem C51_surrogate (c : Char32) (h : c.toNat ≤ 0x1FFFFF) :
    isSurrogate c = true ↔ generalCategory c.toNat = 27 := by
  unfold isSurrogate
  by_cases hi : InsideIdeographBlock c.toNat
  · have := C50_false_ideographs c hi
    rw [this.2]; simp only [this.1]; decide
  · rw [C50_general_category_partial c h hi]
    have hlt : generalCategory c.toNat < 30 := by
      rw [← own_eq_general hi, ← charClassShift_own c h]; exact charClassShift_lt c
    generalize generalCategory c.toNat = k at hlt
    have : ∀ k, k < 30 → (decide ((1 : UInt32) <<< UInt32.ofNat k &&& CharClass.SURROGATE ≠ 0) = true ↔ k = 27) := by
      decide +kernel
    exact this k hlt

theorem small_separator : (List.range 129).all (fun n =>
    decide (isSeparator (UInt32.ofNat n) = decide (n = 32))) = true := by decide +kernel

/-- C51: whitespace iff tab, newline character or separator. -/
theorem C51_whitespace (c : Char32) :
    isWhitespace c = true ↔ c = 0x09 ∨ isNewline c = true ∨ isSeparator c = true := by
  have hsep : isSeparator c = decide (getCharClass c &&& CharClass.SEPARATOR ≠ 0) := rfl
  unfold isWhitespace
  simp only [decide_eq_true_eq]
  by_cases hc : c > 128
  · simp only [hc, true_and, hsep, decide_eq_true_eq]
    have : c ≠ 0x20 := by rintro rfl; exact absurd hc (by decide)
    simp [this]
  · have hn : c.toNat ≤ 128 := by
      rw [gt_iff_lt, UInt32.lt_iff_toNat_lt] at hc
      have : UInt32.toNat 128 = 128 := rfl
      omega
    have := List.all_eq_true.mp small_separator c.toNat (by simp; omega)
    simp only [decide_eq_true_eq] at this
    rw [UInt32.ofNat_toNat] at this
    rw [this]
    simp only [hc, false_and, or_false, decide_eq_true_eq]
    have e : c = 0x20 ↔ c.toNat = 32 := by rw [← UInt32.toNat_inj]; rfl
    rw [← e]
    constructor
    · rintro (h | h | h)
      · exact .inl h
      · exact .inr (.inr h)
      · exact .inr (.inl h)
    · rintro (h | h | h)
      · exact .inl h
      · exact .inr (.inr h)
      · exact .inr (.inl h)

/-- C51: every newline character is whitespace; the newline characters are exactly these seven. -/
theorem C51_newline (c : Char32) :
    (isNewline c = true ↔ c ∈ [(0x0A : Char32), 0x0B, 0x0C, 0x0D, 0x85, 0x2028, 0x2029]) ∧
    (isNewline c = true → isWhitespace c = true) := by
  refine ⟨?_, fun h => (C51_whitespace c).mpr (.inr (.inl h))⟩
  unfold isNewline NEXT_LINE LINE_SEPARATOR PARAGRAPH_SEPARATOR
  simp

/-- C51: the hexadecimal digits are exactly `0-9A-Fa-f`. -/
theorem C51_hex_digit (c : Char32) : isHexDigit c = true ↔
    c ∈ ("0123456789ABCDEFabcdef".toList.map (fun ch => ch.val)) := by
  have hl : "0123456789ABCDEFabcdef".toList.map (fun ch => ch.val) =
    [0x30, 0x31, 0x32, 0x33, 0x34, 0x35, 0x36, 0x37, 0x38, 0x39, 0x41, 0x42, 0x43, 0x44, 0x45, 0x46,
     0x61, 0x62, 0x63, 0x64, 0x65, 0x66] := by decide
  rw [hl]
  unfold isHexDigit
  simp only [decide_eq_true_eq, UInt32.le_iff_toNat_le, List.mem_cons, List.not_mem_nil, or_false,
    ← UInt32.toNat_inj]
  have e : ∀ n : Nat, n < 256 → (UInt32.toNat (OfNat.ofNat n)) = n := by decide +kernel
  rw [e 0x30 (by omega), e 0x31 (by omega), e 0x32 (by omega), e 0x33 (by omega), e 0x34 (by omega),
    e 0x35 (by omega), e 0x36 (by omega), e 0x37 (by omega), e 0x38 (by omega), e 0x39 (by omega),
    e 0x41 (by omega), e 0x42 (by omega), e 0x43 (by omega), e 0x44 (by omega), e 0x45 (by omega),
    e 0x46 (by omega), e 0x61 (by omega), e 0x62 (by omega), e 0x63 (by omega), e 0x64 (by omega),
    e 0x65 (by omega), e 0x66 (by omega)]
  omega

example : isLetter 0x41 = true ∧ isNumber 0x37 = true ∧ isMark 0x301 = true ∧ isSeparator 0x2028 = true ∧
    isSurrogate 0xD801 = true := by decide +kernel

end Ystring
