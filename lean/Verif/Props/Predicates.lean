import Verif.Props.CharClass
/-
Property theorems C66: the predicates and the enumerators of CharClass are the groups of general categories they are
documented to be.
-/
namespace Ystring
open Spec

/-- The enumerators in the order of `generalCategory`: Lu Ll Lt Lm Lo Mn Mc Me Nd Nl No Pc Pd Ps Pe Pi Pf Po Sm Sc Sk So Zs
Zl Zp Cc Cf Cs Co Cn, with the names documented in include/Ystring/CharClass.hpp. -/
def enumerators : List CharClassT := [
  CharClass.UPPERCASE_LETTER, CharClass.LOWERCASE_LETTER, CharClass.TITLECASE_LETTER, CharClass.MODIFIER_LETTER,
  CharClass.OTHER_LETTER, CharClass.NONSPACING_MARK, CharClass.SPACING_MARK, CharClass.ENCLOSING_MARK,
  CharClass.DECIMAL_NUMBER, CharClass.LETTER_NUMBER, CharClass.OTHER_NUMBER, CharClass.CONNECTOR_PUNCTUATION,
  CharClass.DASH_PUNCTUATION, CharClass.OPEN_PUNCTUATION, CharClass.CLOSE_PUNCTUATION, CharClass.INITIAL_PUNCTUATION,
  CharClass.FINAL_PUNCTUATION, CharClass.OTHER_PUNCTUATION, CharClass.MATH_SYMBOL, CharClass.CURRENCY_SYMBOL,
  CharClass.MODIFIER_SYMBOL, CharClass.OTHER_SYMBOL, CharClass.SPACE_SEPARATOR, CharClass.LINE_SEPARATOR,
  CharClass.PARAGRAPH_SEPARATOR, CharClass.CONTROL, CharClass.FORMAT, CharClass.SURROGATE, CharClass.PRIVATE_USE,
  CharClass.UNASSIGNED]

theorem generalCategory_lt (c : Char32) (h : c.toNat ≤ 0x1FFFFF) (hi : ¬ InsideIdeographBlock c.toNat) :
    generalCategory c.toNat < 30 := by
  rw [← own_eq_general hi, ← charClassShift_own c h]; exact charClassShift_lt c

/-- C66: `get_char_class` returns the enumerator named after the general category (except inside ideograph blocks and
from 2^21 on, see C50). -/
theorem C66_enumerators_partial (c : Char32) (h : c.toNat ≤ 0x1FFFFF) (hi : ¬ InsideIdeographBlock c.toNat) :
    enumerators[generalCategory c.toNat]? = some (getCharClass c) := by
  rw [C50_general_category_partial c h hi]
  have hk := generalCategory_lt c h hi
  generalize generalCategory c.toNat = k at hk
  have : ∀ k, k < 30 → enumerators[k]? = some (1 <<< UInt32.ofNat k) := by decide +kernel
  exact this k hk

/-- C66: the groups of classes are the unions they are documented to be. -/
theorem C66_groups :
    CharClass.CASED_LETTER = CharClass.UPPERCASE_LETTER ||| CharClass.LOWERCASE_LETTER ||| CharClass.TITLECASE_LETTER ∧
    CharClass.LETTER = CharClass.CASED_LETTER ||| CharClass.MODIFIER_LETTER ||| CharClass.OTHER_LETTER ∧
    CharClass.MARK = CharClass.NONSPACING_MARK ||| CharClass.SPACING_MARK ||| CharClass.ENCLOSING_MARK ∧
    CharClass.NUMBER = CharClass.DECIMAL_NUMBER ||| CharClass.LETTER_NUMBER ||| CharClass.OTHER_NUMBER ∧
    CharClass.PUNCTUATION = CharClass.CONNECTOR_PUNCTUATION ||| CharClass.DASH_PUNCTUATION ||| CharClass.OPEN_PUNCTUATION |||
      CharClass.CLOSE_PUNCTUATION ||| CharClass.INITIAL_PUNCTUATION ||| CharClass.FINAL_PUNCTUATION |||
      CharClass.OTHER_PUNCTUATION ∧
    CharClass.SYMBOL = CharClass.MATH_SYMBOL ||| CharClass.CURRENCY_SYMBOL ||| CharClass.MODIFIER_SYMBOL ||| CharClass.OTHER_SYMBOL ∧
    CharClass.SEPARATOR = CharClass.SPACE_SEPARATOR ||| CharClass.LINE_SEPARATOR ||| CharClass.PARAGRAPH_SEPARATOR ∧
    CharClass.OTHER = CharClass.CONTROL ||| CharClass.FORMAT ||| CharClass.SURROGATE ||| CharClass.PRIVATE_USE |||
      CharClass.UNASSIGNED := by decide

/-- The predicates together with the general categories (by their usual two-letter names) they are documented to
accept. -/
def categoryNames : List String := ["Lu", "Ll", "Lt", "Lm", "Lo", "Mn", "Mc", "Me", "Nd", "Nl", "No", "Pc", "Pd", "Ps", "Pe",
  "Pi", "Pf", "Po", "Sm", "Sc", "Sk", "So", "Zs", "Zl", "Zp", "Cc", "Cf", "Cs", "Co", "Cn"]

/-- The two-letter name of the general category of a code point. -/
def categoryName (c : Nat) : String := categoryNames.getD (generalCategory c) ""

/-- C66: every predicate that is documented by general categories holds exactly for these (except inside ideograph
blocks and from 2^21 on, see C50). -/
theorem C66_predicates_partial (c : Char32) (h : c.toNat ≤ 0x1FFFFF) (hi : ¬ InsideIdeographBlock c.toNat) :
    isUpper c = decide (categoryName c.toNat = "Lu") ∧
    isLower c = decide (categoryName c.toNat = "Ll") ∧
    isCasedLetter c = decide (categoryName c.toNat ∈ ["Lu", "Ll", "Lt"]) ∧
    isLetter c = decide (categoryName c.toNat ∈ ["Lu", "Ll", "Lt", "Lm", "Lo"]) ∧
    isMark c = decide (categoryName c.toNat ∈ ["Mn", "Mc", "Me"]) ∧
    isNumber c = decide (categoryName c.toNat ∈ ["Nd", "Nl", "No"]) ∧
    isAlphaNumeric c = decide (categoryName c.toNat ∈ ["Lu", "Ll", "Lt", "Lm", "Lo", "Nd", "Nl", "No"]) ∧
    isPunctuation c = decide (categoryName c.toNat ∈ ["Pc", "Pd", "Ps", "Pe", "Pi", "Pf", "Po"]) ∧
    isSymbol c = decide (categoryName c.toNat ∈ ["Sm", "Sc", "Sk", "So"]) ∧
    isSeparator c = decide (categoryName c.toNat ∈ ["Zs", "Zl", "Zp"]) ∧
    isControl c = decide (categoryName c.toNat = "Cc") ∧
    isFormat c = decide (categoryName c.toNat = "Cf") ∧
    isSurrogate c = decide (categoryName c.toNat = "Cs") ∧
    isGraphical c = decide (categoryName c.toNat ∉ ["Zs", "Zl", "Zp", "Cc", "Cf", "Cs", "Co", "Cn"]) ∧
    isVisible c = decide (categoryName c.toNat ∉ ["Cc", "Cf", "Cs", "Co", "Cn"]) := by
  unfold categoryName isUpper isLower isCasedLetter isLetter isMark isNumber isAlphaNumeric isPunctuation isSymbol isSeparator
    isControl isFormat isSurrogate isGraphical isVisible
  rw [C50_general_category_partial c h hi]
  have hk := generalCategory_lt c h hi
  generalize generalCategory c.toNat = k at hk
  revert k
  decide +kernel

/-- C66 is false inside ideograph blocks: U+4E2D is a letter (Lo) but `is_letter` denies it. -/
theorem C66_false : categoryName 0x4E2D = "Lo" ∧ isLetter 0x4E2D = false :=
  ⟨by unfold categoryName; rw [C50_false.2.1]; decide, C50_false.2.2.2⟩

/-- C66: the exact failures of `is_letter` below 2^21. -/
theorem C66_letter_exact (c : Char32) (h : c.toNat ≤ 0x1FFFFF) :
    isLetter c = decide (categoryName c.toNat ∈ ["Lu", "Ll", "Lt", "Lm", "Lo"]) ↔ ¬ InsideIdeographBlock c.toNat := by
  refine ⟨fun e hi => ?_, fun hi => (C66_predicates_partial c h hi).2.2.2.1⟩
  obtain ⟨h1, h2⟩ := C50_false_ideographs c hi
  unfold isLetter categoryName at e
  rw [h1, h2] at e
  exact absurd e (by decide)

/-- C66: the predicates other than these four are right for every code point below 2^21, inside the ideograph blocks too; the
four that include the category Lo are right exactly outside the blocks. -/
theorem C66_predicates_exact (c : Char32) (h : c.toNat ≤ 0x1FFFFF) :
    (isUpper c = decide (categoryName c.toNat = "Lu") ∧
     isLower c = decide (categoryName c.toNat = "Ll") ∧
     isCasedLetter c = decide (categoryName c.toNat ∈ ["Lu", "Ll", "Lt"]) ∧
     isMark c = decide (categoryName c.toNat ∈ ["Mn", "Mc", "Me"]) ∧
     isNumber c = decide (categoryName c.toNat ∈ ["Nd", "Nl", "No"]) ∧
     isPunctuation c = decide (categoryName c.toNat ∈ ["Pc", "Pd", "Ps", "Pe", "Pi", "Pf", "Po"]) ∧
     isSymbol c = decide (categoryName c.toNat ∈ ["Sm", "Sc", "Sk", "So"]) ∧
     isSeparator c = decide (categoryName c.toNat ∈ ["Zs", "Zl", "Zp"]) ∧
     isControl c = decide (categoryName c.toNat = "Cc") ∧
     isFormat c = decide (categoryName c.toNat = "Cf") ∧
     isSurrogate c = decide (categoryName c.toNat = "Cs") ∧
     isWhitespace c = decide (c ∈ [0x09, 0x0A, 0x0B, 0x0C, 0x0D, 0x85] ∨ categoryName c.toNat ∈ ["Zs", "Zl", "Zp"])) ∧
    (isLetter c = decide (categoryName c.toNat ∈ ["Lu", "Ll", "Lt", "Lm", "Lo"]) ↔ ¬ InsideIdeographBlock c.toNat) ∧
    (isAlphaNumeric c = decide (categoryName c.toNat ∈ ["Lu", "Ll", "Lt", "Lm", "Lo", "Nd", "Nl", "No"]) ↔
      ¬ InsideIdeographBlock c.toNat) ∧
    (isGraphical c = decide (categoryName c.toNat ∉ ["Zs", "Zl", "Zp", "Cc", "Cf", "Cs", "Co", "Cn"]) ↔
      ¬ InsideIdeographBlock c.toNat) ∧
    (isVisible c = decide (categoryName c.toNat ∉ ["Cc", "Cf", "Cs", "Co", "Cn"]) ↔ ¬ InsideIdeographBlock c.toNat) := by
  have hw : isSeparator c = decide (categoryName c.toNat ∈ ["Zs", "Zl", "Zp"]) →
      isWhitespace c = decide (c ∈ [0x09, 0x0A, 0x0B, 0x0C, 0x0D, 0x85] ∨ categoryName c.toNat ∈ ["Zs", "Zl", "Zp"]) := by
    intro hs
    have h1 := C51_whitespace c
    have h2 := (C51_newline c).1
    rw [Bool.eq_iff_iff, h1, h2, hs, decide_eq_true_iff, decide_eq_true_iff]
    have k1 : c = 0x2028 → categoryName c.toNat ∈ ["Zs", "Zl", "Zp"] := by
      rintro rfl; decide +kernel
    have k2 : c = 0x2029 → categoryName c.toNat ∈ ["Zs", "Zl", "Zp"] := by
      rintro rfl; decide +kernel
    generalize (categoryName c.toNat ∈ ["Zs", "Zl", "Zp"]) = P at k1 k2 ⊢
    simp only [List.mem_cons, List.not_mem_nil, or_false]
    constructor
    · rintro (h | (h | h | h | h | h | h | h) | h)
      all_goals first | exact .inr (k1 h) | exact .inr (k2 h) | exact .inr h | exact .inl (by simp [h])
    · rintro ((h | h | h | h | h | h) | h)
      all_goals simp [h]
  by_cases hi : InsideIdeographBlock c.toNat
  · obtain ⟨h1, h2⟩ := C50_false_ideographs c hi
    have hn : categoryName c.toNat = "Lo" := by unfold categoryName; rw [h1]; decide
    have hsep : isSeparator c = decide (categoryName c.toNat ∈ ["Zs", "Zl", "Zp"]) := by
      unfold isSeparator; rw [h2, hn]; decide
    have hw := hw hsep
    refine ⟨⟨?_, ?_, ?_, ?_, ?_, ?_, ?_, hsep, ?_, ?_, ?_, hw⟩, ?_, ?_, ?_, ?_⟩
    all_goals simp only [hi, not_true_eq_false, iff_false, hn, isUpper, isLower, isCasedLetter, isMark, isNumber, isPunctuation,
      isSymbol, isControl, isFormat, isSurrogate, isLetter, isAlphaNumeric, isGraphical, isVisible, h2]
    all_goals decide
  · obtain ⟨a1, a2, a3, a4, a5, a6, a7, a8, a9, a10, a11, a12, a13, a14, a15⟩ := C66_predicates_partial c h hi
    simp only [hi, not_false_eq_true, iff_true]
    exact ⟨⟨a1, a2, a3, a5, a6, a8, a9, a10, a11, a12, a13, hw a10⟩, a4, a7, a14, a15⟩

example : categoryName 0x41 = "Lu" ∧ categoryName 0x1F600 = "So" ∧ ¬ InsideIdeographBlock 0x1F600 := by
  refine ⟨by decide +kernel, by decide +kernel, ?_⟩
  unfold InsideIdeographBlock; decide

end Ystring
