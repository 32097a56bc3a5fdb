import Verif.Model.Basic
/-
Words of a text, for the laws of case conversion: a word is a run of letters.
-/
namespace Ystring.Spec

/-- The letters that begin a word, in order. `pre` tells whether the code point before the list is a letter. -/
def wordStarts (letter : Char32 → Bool) : Bool → List Char32 → List Char32
  | _, [] => []
  | pre, c :: cs => (if letter c && !pre then [c] else []) ++ wordStarts letter (letter c) cs

/-- The other letters. -/
def wordRests (letter : Char32 → Bool) : Bool → List Char32 → List Char32
  | _, [] => []
  | pre, c :: cs => (if letter c && pre then [c] else []) ++ wordRests letter (letter c) cs

/-- The six code points whose lower case has another upper case than they have themselves: İ ϴ ẞ and the ohm, kelvin and
angstrom signs. -/
def NoWayBackFromLower : List Nat := [0x130, 0x3F4, 0x1E9E, 0x2126, 0x212A, 0x212B]

/-- The 23 code points whose upper case has another lower case than they have themselves: the micro sign, dotless ı, long s,
the combining iota, final sigma, the Greek letter variants ϐ ϑ ϕ ϖ ϰ ϱ ϵ, nine Cyrillic letter variants, ẛ and the
Greek prosgegrammeni. -/
def NoWayBackFromUpper : List Nat :=
  [0xB5, 0x131, 0x17F, 0x345, 0x3C2, 0x3D0, 0x3D1, 0x3D5, 0x3D6, 0x3F0, 0x3F1, 0x3F5, 0x1C80, 0x1C81, 0x1C82, 0x1C83,
   0x1C84, 0x1C85, 0x1C86, 0x1C87, 0x1C88, 0x1E9B, 0x1FBE]

/-- The Georgian letters with an upper case (Mkhedruli): they are their own title case. -/
def Mkhedruli (c : Nat) : Prop := 0x10D0 ≤ c ∧ c ≤ 0x10FF ∧ c ≠ 0x10FB ∧ c ≠ 0x10FC
/-- Their upper case (Mtavruli). -/
def Mtavruli (c : Nat) : Prop := 0x1C90 ≤ c ∧ c ≤ 0x1CBF ∧ c ≠ 0x1CBB ∧ c ≠ 0x1CBC

instance (c : Nat) : Decidable (Mkhedruli c) := inferInstanceAs (Decidable (_ ∧ _))
instance (c : Nat) : Decidable (Mtavruli c) := inferInstanceAs (Decidable (_ ∧ _))

end Ystring.Spec
