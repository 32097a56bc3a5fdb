import Verif.Spec.UnescapeNext
/-
The texts of the exceptions of `unescape` and `unescape_next`, independent of the model.
-/
namespace Ystring.Spec

/-- The text for a backslash at offset `n` that starts no escape sequence, where `v` are the bytes behind it. -/
def badBackslash (n : Nat) (v : Str) : String :=
  (if v = [] then "Incomplete" else "Invalid") ++ " escape sequence at offset " ++ toString n

/-- `UnescapeText n t m`: the text `m` when `unescape` stops at the bytes `t`, which start with a backslash at offset `n` of
the string passed by the caller. -/
inductive UnescapeText : Nat → Str → String → Prop
  /-- the offset is that of the backslash -/
  | start {n : Nat} {v : Str} : BadStart (0x5C :: v) → UnescapeText n (0x5C :: v) (badBackslash n v)
  | short {n : Nat} : UnescapeText n [0x5C, 0x75] "Cannot parse escaped char: \\u"
  | long {n : Nat} : UnescapeText n [0x5C, 0x55] "Cannot parse escaped char: \\U"
  /-- the offset is counted from the end of the escape sequence of the high surrogate, and what the text says is based on
  the six bytes there -/
  | second {n : Nat} {ds t p v : Str} : ds.length = 4 → (∀ d ∈ ds, IsHex d) → HighSurrogate (number 16 ds) →
      t.take 6 = p ++ 0x5C :: v → 0x5C ∉ p → BadStart (0x5C :: v) →
      UnescapeText n (0x5C :: 0x75 :: (ds ++ t)) (badBackslash p.length v)
  | secondShort {n : Nat} {ds : Str} : ds.length = 4 → (∀ d ∈ ds, IsHex d) → HighSurrogate (number 16 ds) →
      UnescapeText n (0x5C :: 0x75 :: (ds ++ [0x5C, 0x75])) "Cannot parse escaped char: \\u"

/-- The text when `m` hexadecimal digits are needed and there are only `n`. -/
def tooFewDigits (m n : Nat) : String :=
  "Too few hex digits in escape sequence. Expected at least " ++ toString m ++ ", got " ++ toString n

/-- `NextText r m`: the text `m` when `unescape_next` finds the bytes `r` (escaped newlines in front of them dropped). -/
inductive NextText : Str → String → Prop
  | alone : NextText [0x5C] "Incomplete escape sequence."
  | hex {l : UInt8} {t : Str} : l = 0x78 ∨ l = 0x58 → NoHexAhead t → NextText (0x5C :: l :: t) (tooFewDigits 1 0)
  | short {ds t : Str} : ds.length < 4 → (∀ d ∈ ds, IsHex d) → NoHexAhead t →
      NextText (0x5C :: 0x75 :: (ds ++ t)) (tooFewDigits 4 ds.length)
  | long {ds t : Str} : ds.length < 8 → (∀ d ∈ ds, IsHex d) → NoHexAhead t →
      NextText (0x5C :: 0x55 :: (ds ++ t)) (tooFewDigits 8 ds.length)
  /-- a high surrogate, and a `\u` with less than four digits, but with four bytes, after it: the text is about the latter -/
  | second {ds es w t : Str} {b : UInt8} : ds.length = 4 → (∀ d ∈ ds, IsHex d) → HighSurrogate (number 16 ds) →
      (∀ d ∈ es, IsHex d) → ¬ IsHex b → es.length + 1 + w.length = 4 →
      NextText (0x5C :: 0x75 :: (ds ++ 0x5C :: 0x75 :: (es ++ b :: (w ++ t)))) (tooFewDigits 4 es.length)
  | char {b : UInt8} {t : Str} : b ∉ reserved → ¬ HasSeqPrefix (b :: t) → NextText (0x5C :: b :: t) "Invalid UTF-8 string."
  | plain {b : UInt8} {t : Str} : b ≠ 0x5C → ¬ HasSeqPrefix (b :: t) → NextText (b :: t) "Invalid UTF-8 string."

end Ystring.Spec
