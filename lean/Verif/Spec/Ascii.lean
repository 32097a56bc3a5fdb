import Verif.Spec.Characters
/-
ASCII strings and the functions on bytes to which the functions on text come down for them (C123). Only lists of bytes and
numbers: no code points, no characters, no tables.
-/
namespace Ystring.Spec

/-- All bytes are below 128. -/
def Ascii (s : Str) : Prop := ∀ b ∈ s, b.toNat < 0x80

/-- The code point a byte stands for. -/
def wide (b : UInt8) : Char32 := UInt32.ofNat b.toNat

/-- `a`-`z` to `A`-`Z` (what `toupper` does in the "C" locale) -/
def asciiUpper (b : UInt8) : UInt8 := if 0x61 ≤ b.toNat ∧ b.toNat ≤ 0x7A then UInt8.ofNat (b.toNat - 0x20) else b

/-- `A`-`Z` to `a`-`z` (what `tolower` does in the "C" locale) -/
def asciiLower (b : UInt8) : UInt8 := if 0x41 ≤ b.toNat ∧ b.toNat ≤ 0x5A then UInt8.ofNat (b.toNat + 0x20) else b

/-- `A`-`Z` and `a`-`z` -/
def asciiLetter (b : UInt8) : Bool := (0x41 ≤ b.toNat && b.toNat ≤ 0x5A) || (0x61 ≤ b.toNat && b.toNat ≤ 0x7A)

/-- The first letter of every run of letters in upper case, the others in lower case (`inWord`: a letter precedes). -/
def asciiTitle : (inWord : Bool) → Str → Str
  | _, [] => []
  | inWord, b :: s => (if inWord then asciiLower b else asciiUpper b) :: asciiTitle (asciiLetter b) s

/-- The byte offset that index `k` stands for in a string of `n` bytes: `k` itself, or `n + k` if it is negative; `none` outside
`-n .. n`. -/
def byteOffset (n : Nat) (k : Int) : Option Nat :=
  if 0 ≤ k then if k ≤ n then some k.toNat else none else if -k ≤ n then some (n + k).toNat else none

/-- The bytes from index `i` up to index `j` (clamped, negative from the end). -/
def byteSlice (s : Str) (i j : Int) : Str := (s.take (clampIndex s.length j)).drop (clampIndex s.length i)

/-- The byte string `cmp` is found in `s` at offset `i` if the case of ASCII letters is ignored. -/
def AsciiAt (s cmp : Str) (i : Nat) : Prop :=
  ∃ a m b, s = a ++ m ++ b ∧ a.length = i ∧ m.map asciiUpper = cmp.map asciiUpper

/-- Lexicographic order of byte strings. -/
def BytesLess (s t : Str) : Prop := s.map UInt8.toNat < t.map UInt8.toNat

end Ystring.Spec
