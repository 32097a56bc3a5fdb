import Verif.Spec.UnicodeData.Categories
/-
Specification of the general category: read off UnicodeData16.0.0.txt.
-/
namespace Ystring.Spec

/-- General category of a code point, as a position in the list
`Lu Ll Lt Lm Lo Mn Mc Me Nd Nl No Pc Pd Ps Pe Pi Pf Po Sm Sc Sk So Zs Zl Zp Cc Cf Cs Co Cn`:
the category given in UnicodeData16.0.0.txt, `Cn` (29) for a code point the file does not mention. -/
def generalCategory (c : Nat) : Nat :=
  match UD_RANGES.find? (fun r => r.1 ≤ c ∧ c ≤ r.2.1) with
  | some r => r.2.2.1
  | none => 29

/-- Eleven of the nineteen ranges that the file gives only by their first and last code point: the CJK
ideographs (URO and extensions A, B, C, E, F, G, H, I) and the Tangut ideographs. -/
def ideographBlocks : List (Nat × Nat) := [
  (0x3400, 0x4DBF), (0x4E00, 0x9FFF), (0x17000, 0x187F7), (0x18D00, 0x18D08), (0x20000, 0x2A6DF),
  (0x2A700, 0x2B739), (0x2B820, 0x2CEA1), (0x2CEB0, 0x2EBE0), (0x2EBF0, 0x2EE5D), (0x30000, 0x3134A),
  (0x31350, 0x323AF)]

/-- `c` lies strictly inside one of these ranges. -/
def InsideIdeographBlock (c : Nat) : Prop := ∃ r ∈ ideographBlocks, r.1 < c ∧ c < r.2

/-- The lines of UnicodeData16.0.0.txt: (code point, number of the category, counted from 1). A range of kind 1 has only two
lines. -/
def UD_LINES : List (Nat × Nat) :=
  UD_RANGES.flatMap fun r =>
    if r.2.2.2 = 0 then (List.range' r.1 (r.2.1 + 1 - r.1)).map (fun c => (c, r.2.2.1 + 1))
    else [(r.1, r.2.2.1 + 1), (r.2.1, r.2.2.1 + 1)]

/-- The last code points of the ranges that have only two lines. -/
def UD_LAST : List Nat := (UD_RANGES.filter (fun r => r.2.2.2 ≠ 0)).map (fun r => r.2.1)

end Ystring.Spec
