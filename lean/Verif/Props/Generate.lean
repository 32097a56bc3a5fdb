import Verif.Proofs.GenerateCase
import Verif.Props.CaseChar
/-
C81: the generator of the case tables. For every Unicode database the conversion with the generated tables is the mapping
of the database; and the tables in src/Ystring are the ones generated from the database in data/unicode.
-/
namespace Ystring
open Spec

/-- C81. `lines` are the code points with a mapping, ascending, with their mappings. The conversion of ConvertCase.cpp with
the tables generated by make_case_convert_file.py maps a code point to its mapping if it has one, and to itself otherwise. -/
theorem C81_case_tables (lines : List (Nat × Nat)) (ha : lines.Pairwise (fun a b => a.1 < b.1))
    (hb : ∀ p ∈ lines, p.1 < 2 ^ 32 ∧ p.2 < 2 ^ 32) (c : Char32) :
    (∀ w, (c.toNat, w) ∈ lines → (convert (Gen.caseTables lines).1 (Gen.caseTables lines).2 c).toNat = w) ∧
    ((∀ w, (c.toNat, w) ∉ lines) → convert (Gen.caseTables lines).1 (Gen.caseTables lines).2 c = c) := by
  have := Gen.caseTables_convert lines ha hb c
  refine ⟨fun w hw => by rw [this, Gen.lookup_mem ha hw], fun hno => UInt32.toNat_inj.mp ?_⟩
  rw [this, Gen.lookup_not_mem hno]

/-- the tables without the sorting, for a dictionary that is sorted already -/
theorem Gen.caseTables_sorted {lines : List (Nat × Nat)} (h : isSortedBy (·.1) (lines.foldl Gen.addChar []) = true) :
    Gen.caseTables lines =
      (((lines.foldl Gen.addChar []).foldl Gen.caseStep ([], [])).1.map Gen.compactRow,
        ((lines.foldl Gen.addChar []).foldl Gen.caseStep ([], [])).2) := by
  unfold Gen.caseTables
  simp only
  rw [List.mergeSort_of_pairwise]
  exact (pairwise_of_isSortedBy h).imp fun h => by simpa using h

/-- C81. The tables of src/Ystring are those that are generated from UnicodeData16.0.0.txt. -/
theorem C81_generated :
    Gen.caseTables UD_UPPER = (COMPACT_UPPER_CASE, UPPER_CASE) ∧
    Gen.caseTables UD_LOWER = (COMPACT_LOWER_CASE, LOWER_CASE) ∧
    Gen.caseTables UD_TITLE = (COMPACT_TITLE_CASE, TITLE_CASE) := by
  refine ⟨?_, ?_, ?_⟩
  · rw [Gen.caseTables_sorted (by decide +kernel)]; decide +kernel
  · rw [Gen.caseTables_sorted (by decide +kernel)]; decide +kernel
  · rw [Gen.caseTables_sorted (by decide +kernel)]; decide +kernel

/-- A small database: three code points with the same difference, one with another, one in another block. -/
example : Gen.caseTables [(0x41, 0x61), (0x42, 0x62), (0x43, 0x63), (0x44, 0x1F0), (0x80, 0x20)] =
    ([(0x40, 0x20, 0xE, 0xFFFFFFE1)], [(0x44, 0x1F0), (0x80, 0x20)]) := by
  rw [Gen.caseTables_sorted (by decide +kernel)]; decide +kernel

end Ystring
