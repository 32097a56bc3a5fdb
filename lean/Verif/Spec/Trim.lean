import Verif.Spec.Utf8
namespace Ystring.Spec

/-- All code points of `a` satisfy `p`. -/
def AllChars (p : Char32 → Bool) (a : Str) : Prop := ∃ cs, Decodes a cs ∧ ∀ c ∈ cs, p c = true

/-- `t` does not start with a code point satisfying `p`. -/
def NotFirst (p : Char32 → Bool) (t : Str) : Prop := ∀ v c t', t = v ++ t' → IsSeq v c → p c = false

/-- `t` does not end with a code point satisfying `p`. -/
def NotLast (p : Char32 → Bool) (t : Str) : Prop := ∀ v c t', t = t' ++ v → IsSeq v c → p c = false

end Ystring.Spec
