import Verif.Spec.Find
/-
Specification for the functions that read behind a constant array that is not terminated (C22, C40, C42).
-/
namespace Ystring.Spec

/-- The bytes of some encoding of `c` occur in `s`. -/
def Contains (s : Str) (c : Char32) : Prop := ∃ a u b, s = a ++ u ++ b ∧ IsSeq u c

/-- Of the values in `mem` only those that satisfy `p` occur in `s`. -/
def Harmless (mem : List Char32) (p : Char32 → Prop) (s : Str) : Prop := ∀ c ∈ mem, Contains s c → p c

/-- Space, tab, line feed and carriage return. -/
def IsCommonSpace (c : Char32) : Prop := c = 0x20 ∨ c = 0x09 ∨ c = 0x0A ∨ c = 0x0D

end Ystring.Spec
