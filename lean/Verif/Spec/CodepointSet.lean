import Verif.Model.Basic
/-
Specification of a set of code points built by a history of operations. (No reference to the model's functions.)
-/
namespace Ystring.Spec

/-- The operations that add to a set. -/
inductive SetOp
  | range (first last : Char32)
  | codepoint (c : Char32)
  | codepoints (cs : List Char32)

/-- `c` is one of the code points the operation adds. -/
def SetOp.adds : SetOp → Char32 → Prop
  | range first last, c => first ≤ c ∧ c ≤ last
  | codepoint d, c => c = d
  | codepoints ds, c => c ∈ ds

/-- The operation mentions ordered ranges only, and not the value 0xFFFFFFFF. -/
def SetOp.Proper : SetOp → Prop
  | range first last => first ≤ last ∧ last < 0xFFFFFFFF
  | codepoint d => d < 0xFFFFFFFF
  | codepoints ds => ∀ d ∈ ds, d < 0xFFFFFFFF

end Ystring.Spec
