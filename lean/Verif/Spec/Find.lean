import Verif.Spec.Utf8
namespace Ystring.Spec

/-- `cmp` occurs in `s` at byte offset `i`. -/
def OccursAt (s cmp : Str) (i : Nat) : Prop := ∃ a b, s = a ++ cmp ++ b ∧ a.length = i

/-- `[i, i + n)` is a range of `s` that starts and ends on code point boundaries of `s`. -/
def Aligned (s : Str) (i n : Nat) : Prop :=
  ∃ a m b, s = a ++ m ++ b ∧ a.length = i ∧ m.length = n ∧ Valid a ∧ Valid m ∧ Valid b

/-- The newline code points: line feed, vertical tab, form feed, carriage return, next line (U+0085), line
separator and paragraph separator. -/
def IsNewlineChar (c : Char32) : Prop :=
  c = 0x0A ∨ c = 0x0B ∨ c = 0x0C ∨ c = 0x0D ∨ c = 0x85 ∨ c = 0x2028 ∨ c = 0x2029

/-- The encodings of newlines: those of the newline characters, and CR LF. -/
def IsNewline (nl : Str) : Prop :=
  (∃ u v, nl = u ++ v ∧ IsSeq u 0x0D ∧ IsSeq v 0x0A) ∨ ∃ c, IsNewlineChar c ∧ IsSeq nl c

end Ystring.Spec
