import Verif.Model.Basic
/-
Independent specification of UTF-8, by plain arithmetic on natural numbers.
Nothing here refers to the model's functions.
-/
namespace Ystring.Spec

/-- A continuation byte `10xxxxxx`. -/
def IsCont (b : UInt8) : Prop := 0x80 ≤ b.toNat ∧ b.toNat < 0xC0

/-- `IsSeq u c`: `u` is a lead byte followed by exactly the number of continuation bytes the lead byte
announces (a *sequence*), and `c` is the number it denotes. No check for shortest form, surrogates or the
Unicode maximum is made. -/
inductive IsSeq : Str → Char32 → Prop
  | one {b : UInt8} {c : Char32} : b.toNat < 0x80 → c.toNat = b.toNat → IsSeq [b] c
  | two {b x : UInt8} {c : Char32} : 0xC0 ≤ b.toNat → b.toNat < 0xE0 → IsCont x →
      c.toNat = (b.toNat - 0xC0) * 64 + (x.toNat - 0x80) → IsSeq [b, x] c
  | three {b x y : UInt8} {c : Char32} : 0xE0 ≤ b.toNat → b.toNat < 0xF0 → IsCont x → IsCont y →
      c.toNat = (b.toNat - 0xE0) * 4096 + (x.toNat - 0x80) * 64 + (y.toNat - 0x80) →
      IsSeq [b, x, y] c
  | four {b x y z : UInt8} {c : Char32} : 0xF0 ≤ b.toNat → b.toNat < 0xF8 →
      IsCont x → IsCont y → IsCont z →
      c.toNat = (b.toNat - 0xF0) * 262144 + (x.toNat - 0x80) * 4096 + (y.toNat - 0x80) * 64
        + (z.toNat - 0x80) →
      IsSeq [b, x, y, z] c

/-- `Decodes s cs`: `s` is a concatenation of sequences denoting the code points `cs`. -/
inductive Decodes : Str → List Char32 → Prop
  | nil : Decodes [] []
  | cons {u s : Str} {c : Char32} {cs : List Char32} :
      IsSeq u c → Decodes s cs → Decodes (u ++ s) (c :: cs)

/-- `s` is a concatenation of sequences (what the library treats as valid). -/
def Valid (s : Str) : Prop := ∃ cs, Decodes s cs

/-- `s` starts with a sequence. -/
def HasSeqPrefix (s : Str) : Prop := ∃ u c t, IsSeq u c ∧ s = u ++ t

/-- `s` ends with a sequence. -/
def HasSeqSuffix (s : Str) : Prop := ∃ u c t, IsSeq u c ∧ s = t ++ u

/-- `s` ends with seven continuation bytes that are preceded by at least one more byte. -/
def LongContRun (s : Str) : Prop :=
  ∃ t w, s = t ++ w ∧ t ≠ [] ∧ w.length = 7 ∧ ∀ b ∈ w, IsCont b

/-- RFC 3629, section 3: the (shortest form) UTF-8 encoding of the number `c`, for `c ≤ 0x10FFFF`. -/
def rfcEncode (c : Nat) : Str :=
  if c < 0x80 then [UInt8.ofNat c]
  else if c < 0x800 then [UInt8.ofNat (0xC0 + c / 64), UInt8.ofNat (0x80 + c % 64)]
  else if c < 0x10000 then
    [UInt8.ofNat (0xE0 + c / 4096), UInt8.ofNat (0x80 + c / 64 % 64), UInt8.ofNat (0x80 + c % 64)]
  else
    [UInt8.ofNat (0xF0 + c / 262144), UInt8.ofNat (0x80 + c / 4096 % 64),
      UInt8.ofNat (0x80 + c / 64 % 64), UInt8.ofNat (0x80 + c % 64)]

/-- Unicode scalar values: code points that are not surrogates. -/
def IsScalar (c : Nat) : Prop := c < 0xD800 ∨ (0xDFFF < c ∧ c ≤ 0x10FFFF)

/-- Well-formed UTF-8 in the sense of RFC 3629 / Unicode. -/
def WellFormed (s : Str) : Prop :=
  ∃ cs : List Nat, (∀ c ∈ cs, IsScalar c) ∧ s = cs.flatMap rfcEncode

end Ystring.Spec
