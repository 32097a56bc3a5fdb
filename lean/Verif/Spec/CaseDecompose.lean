import Verif.Spec.Case
import Verif.Spec.Normalize
/-
Case mappings and canonical decomposition (C126).
-/
namespace Ystring.Spec

/-- Precomposed lower case letters without a precomposed upper case letter (as in ǰ and ẖ), and Greek letters with iota subscript (which
becomes a capital iota): with these, it matters whether a text is converted to upper case before or after decomposition. -/
def UpperSplits : List Nat := [
  0x1F0, 0x390, 0x3B0, 0x1E96, 0x1E97, 0x1E98, 0x1E99, 0x1F50, 0x1F52, 0x1F54, 0x1F56, 0x1F80, 0x1F81, 0x1F88, 0x1F89, 0x1F90,
  0x1F91, 0x1F98, 0x1F99, 0x1FA0, 0x1FA1, 0x1FA8, 0x1FA9, 0x1FB2, 0x1FB3, 0x1FB4, 0x1FB6, 0x1FB7, 0x1FBC, 0x1FC2, 0x1FC3, 0x1FC4,
  0x1FC6, 0x1FC7, 0x1FCC, 0x1FD2, 0x1FD6, 0x1FD7, 0x1FE2, 0x1FE4, 0x1FE6, 0x1FE7, 0x1FF2, 0x1FF3, 0x1FF4, 0x1FF6, 0x1FF7, 0x1FFC]

/-- Precomposed small letters without a precomposed capital. -/
def TitleSplits : List Nat := [
  0x1F0, 0x390, 0x3B0, 0x1E96, 0x1E97, 0x1E98, 0x1E99, 0x1F50, 0x1F52, 0x1F54, 0x1F56, 0x1FB2, 0x1FB4, 0x1FB6, 0x1FB7, 0x1FC2, 0x1FC4,
  0x1FC6, 0x1FC7, 0x1FD2, 0x1FD6, 0x1FD7, 0x1FE2, 0x1FE4, 0x1FE6, 0x1FE7, 0x1FF2, 0x1FF4, 0x1FF6, 0x1FF7]

/-- `c` is written with a mark at its end when decomposed: its canonical decomposition ends in something that is no letter. -/
def Accented (letter : Char32 → Bool) (c : Nat) : Prop := ∃ b m, pairOf c = some (b, m) ∧ letter (UInt32.ofNat m) = false

/-- What has to hold of the letters of a text for title case and decomposition to commute; `prev` is the code point before the text.
In a word (behind a letter) there is neither İ (U+0130) nor the Angstrom sign (U+212B); a word does not begin with one of `TitleSplits`; and
behind an accented letter there is no letter that has a title case of its own when it is alone. -/
def TitleOrder (letter : Char32 → Bool) : (prev : Option Char32) → List Char32 → Prop
  | _, [] => True
  | prev, c :: cs =>
    (letter c = true →
      ((∃ p, prev = some p ∧ letter p = true) → c.toNat ≠ 0x130 ∧ c.toNat ≠ 0x212B) ∧
      ((¬ ∃ p, prev = some p ∧ letter p = true) → c.toNat ∉ TitleSplits) ∧
      ((∃ p, prev = some p ∧ letter p = true ∧ Accented letter p.toNat) →
        c.toNat ≠ 0xDF ∧ c.toNat ∉ TitleSplits ∧ simpleLower c.toNat = simpleTitle c.toNat)) ∧
    TitleOrder letter (some c) cs

end Ystring.Spec
