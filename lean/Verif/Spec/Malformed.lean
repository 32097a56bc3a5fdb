import Verif.Spec.Characters
import Verif.Spec.CaseInsensitive
/-
What a malformed string begins and ends with.
-/
namespace Ystring.Spec

/-- Read from the left, `s` consists of the code points `cs` followed by the bytes `m`, which begin with no UTF-8
sequence. `m` is empty iff `s` is valid (`C104_readable`). -/
def ReadsTo (s : Str) (cs : List Char32) (m : Str) : Prop := ∃ p, s = p ++ m ∧ Decodes p cs ∧ ¬ HasSeqPrefix m

/-- Read from the right, `s` consists of the code points `cs` preceded by the bytes `m`, which end with no UTF-8
sequence. -/
def ReadsBackTo (s : Str) (m : Str) (cs : List Char32) : Prop := ∃ p, s = m ++ p ∧ Decodes p cs ∧ ¬ HasSeqSuffix m

/-- Of the characters `gs`, `n` do not begin with a combining mark; the first one is the only one that can. -/
def CompleteChars (gs : List Str) (n : Nat) : Prop :=
  ((∀ g hs, gs = g :: hs → ¬ StartsWithMark g) ∧ n = gs.length) ∨ (∃ g hs, gs = g :: hs ∧ StartsWithMark g ∧ n = hs.length)

/-- Comparing the code points `cs` followed by the malformed bytes `m` with the code points `ds` followed by the malformed bytes
`n`, one code point at a time and always the next one of the first text first, until they differ or one text ends, meets the
malformed bytes. -/
def Stuck (cs : List Char32) (m : Str) (ds : List Char32) (n : Str) : Prop :=
  (m ≠ [] ∧ fold cs <+: fold ds) ∨ (n ≠ [] ∧ fold ds <+: fold cs ∧ ds.length < cs.length)

/-- The same from the right, for texts that begin with the malformed bytes. -/
def StuckBack (cs : List Char32) (m : Str) (ds : List Char32) (n : Str) : Prop :=
  (m ≠ [] ∧ fold cs <:+ fold ds) ∨ (n ≠ [] ∧ fold ds <:+ fold cs ∧ ds.length < cs.length)

end Ystring.Spec
