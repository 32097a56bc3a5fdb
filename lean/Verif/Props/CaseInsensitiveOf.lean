import Verif.Props.CaseInsensitiveReplace
import Verif.Props.CodepointSet
/-
Property theorems C67: case_insensitive::find_first_of / find_last_of with characters and with sets.
-/
namespace Ystring.CI
open Spec

/-- What the case-insensitive search for one of `chars` looks for: a code point that is the same as one of them up to
case. -/
def Listed (chars : List Char32) (c : Char32) : Prop := ∃ d ∈ chars, simpleUpper c.toNat = simpleUpper d.toNat

/-- What the case-insensitive search with a set looks for (C49_exact): a code point whose upper case lies between the
upper cases of the ends of a range, or, if the set is negated, one for which there is no such range. -/
def InFoldedRange (set : CodepointSet) (c : Char32) : Prop :=
  (∃ r ∈ set.ranges, simpleUpper r.1.toNat ≤ simpleUpper c.toNat ∧ simpleUpper c.toNat ≤ simpleUpper r.2.toNat) ↔
    set.negated = false

/-- C67: the searches with characters and with a set, from offset `|a|` on in `a ++ b`: the first code point looked for;
nothing, if `b` is valid and has none; an exception, if `b` is malformed before the first one. -/
theorem C67_find_first_of (a b : Str) (P : Char32 → Prop) (f : Str → Nat → Res (Subrange × Char32))
    (hf : (∃ chars, P = Listed chars ∧ f = fun s o => findFirstOf s chars o) ∨
      ∃ set, P = InFoldedRange set ∧ f = fun s o => findFirstOfSet s set o) :
    (∀ u v t cs c, b = u ++ v ++ t → Decodes u cs → (∀ x ∈ cs, ¬ P x) → IsSeq v c → P c →
      f (a ++ b) a.length = .ok (⟨a.length + u.length, v.length⟩, c)) ∧
    (∀ cs, Decodes b cs → (∀ x ∈ cs, ¬ P x) → f (a ++ b) a.length = .ok (⟨npos, 0⟩, INVALID_CHAR)) ∧
    (∀ u t cs, b = u ++ t → Decodes u cs → (∀ x ∈ cs, ¬ P x) → t ≠ [] → ¬ HasSeqPrefix t →
      f (a ++ b) a.length = .error .ystring) := by
  have key : ∃ p : Char32 → Bool, (∀ c, p c = true ↔ P c) ∧ f = fun s o => findFirstWhere s p o := by
    rcases hf with ⟨chars, rfl, rfl⟩ | ⟨set, rfl, rfl⟩
    · exact ⟨u32CaseInsensitiveContains chars, C49_span chars, rfl⟩
    · exact ⟨set.caseInsensitiveContains, C49_exact set, rfl⟩
  obtain ⟨p, hp, rfl⟩ := key
  simp only [← hp]
  simpa only [Bool.not_eq_true] using C20_find_first_where a b p

/-- C67: the searches from the end. `a` is the part of the string before the offset. -/
theorem C67_find_last_of (a b : Str) (offset : Nat) (ho : min offset (a ++ b).length = a.length) (P : Char32 → Prop)
    (f : Str → Nat → Res (Subrange × Char32))
    (hf : (∃ chars, P = Listed chars ∧ f = fun s o => findLastOf s chars o) ∨
      ∃ set, P = InFoldedRange set ∧ f = fun s o => findLastOfSet s set o) :
    (∀ t v w cs c, a = t ++ v ++ w → Decodes w cs → (∀ x ∈ cs, ¬ P x) → IsSeq v c → P c →
      f (a ++ b) offset = .ok (⟨t.length, v.length⟩, c)) ∧
    (∀ cs, Decodes a cs → (∀ x ∈ cs, ¬ P x) → f (a ++ b) offset = .ok (⟨npos, 0⟩, INVALID_CHAR)) ∧
    (∀ t w cs, a = t ++ w → Decodes w cs → (∀ x ∈ cs, ¬ P x) → t ≠ [] → ¬ HasSeqSuffix t →
      (¬ LongContRun t → f (a ++ b) offset = .error .ystring) ∧ (LongContRun t → f (a ++ b) offset = .error .ub)) := by
  have key : ∃ p : Char32 → Bool, (∀ c, p c = true ↔ P c) ∧ f = fun s o => findLastWhere s p o := by
    rcases hf with ⟨chars, rfl, rfl⟩ | ⟨set, rfl, rfl⟩
    · exact ⟨u32CaseInsensitiveContains chars, C49_span chars, rfl⟩
    · exact ⟨set.caseInsensitiveContains, C49_exact set, rfl⟩
  obtain ⟨p, hp, rfl⟩ := key
  simp only [← hp]
  simpa only [Bool.not_eq_true] using C21_find_last_where a b p offset ho

/-- "xÆy": æ is found, case-insensitively, in both directions; the set a-z contains both letters. -/
example : findFirstOf [0x78, 0xC3, 0x86, 0x79] [0xE6] 0 = .ok (⟨1, 2⟩, 0xC6) ∧
    findLastOf [0x78, 0xC3, 0x86, 0x79] [0xE6] npos = .ok (⟨1, 2⟩, 0xC6) ∧
    findFirstOfSet [0x78, 0xC3, 0x86, 0x79] { ranges := [(0x41, 0x5A)] } 1 = .ok (⟨3, 1⟩, 0x79) ∧
    findLastOfSet [0x78, 0xC3, 0x86, 0x79] { ranges := [(0x41, 0x5A)], negated := true } npos = .ok (⟨1, 2⟩, 0xC6) := by
  decide +kernel
example : Listed [0xE6] 0xC6 := ⟨0xE6, by decide, by decide +kernel⟩

end Ystring.CI
