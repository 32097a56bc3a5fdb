import Verif.Proofs.MarkPairs
import Verif.Spec.Case
/- Case mappings and combining marks: only U+0345 is a mark with a mapping to something that is no mark. -/
namespace Ystring
open Spec

/-- pieces of the code space without marks that contain all code points with case mappings but U+0345, and their images -/
def caseMarkPieces : List (Nat × Nat × Bool) := [
  (65, 670, false), (880, 1153, false), (1162, 1414, false), (4256, 4351, false), (5024, 5117, false), (7296, 7359, false), (7545, 7566,
  false), (7680, 8188, false), (8486, 11502, false), (11506, 11565, false), (42560, 42605, false), (42624, 42651, false), (42786, 42998,
  false), (43859, 43967, false), (65313, 65370, false), (66560, 67004, false), (68736, 68850, false), (68944, 68965, false), (68976, 68997,
  false), (71840, 71903, false), (93760, 93823, false), (125184, 125251, false)]

theorem caseMarkPieces_ok : piecesSorted caseMarkPieces = true ∧
    piecesOK (fun g => Nat.ble 5 g && Nat.ble g 7) (coverOf 0 UD_RANGES) caseMarkPieces = true := by decide +kernel

/-- no mark, by the pieces -/
def noMark (c : Nat) : Bool := pieceOf caseMarkPieces c == some false

theorem noMark_correct {c : Nat} (h : noMark c = true) : isMark (UInt32.ofNat c) = false := by
  rw [isMark_shift]
  exact piecesOK_correct caseMarkPieces_ok.1 caseMarkPieces_ok.2 (beq_iff_eq.mp h)

theorem lower_marks_fast : UD_LOWER.all (fun p => noMark p.1 && noMark p.2) = true := by decide +kernel

theorem upper_marks_fast : UD_UPPER.all (fun p => (p.1 == 0x345) || (noMark p.1 && noMark p.2)) = true := by decide +kernel

theorem title_marks_fast : UD_TITLE.all (fun p => (p.1 == 0x345) || (noMark p.1 && noMark p.2)) = true := by decide +kernel

theorem lookup_cases (l : List (Nat × Nat)) (c : Nat) : (c, lookup l c) ∈ l ∨ lookup l c = c := by
  unfold lookup
  cases h : l.find? (fun p => p.1 == c) with
  | none => exact .inr rfl
  | some p =>
    have h1 := List.mem_of_find?_eq_some h
    have h2 := List.find?_some h
    simp only [beq_iff_eq] at h2
    subst h2
    exact .inl h1

theorem isMark_lower (c : Nat) : isMark (UInt32.ofNat (simpleLower c)) = isMark (UInt32.ofNat c) := by
  rcases lookup_cases UD_LOWER c with h | h
  · have := List.all_eq_true.mp lower_marks_fast _ h
    simp only [Bool.and_eq_true] at this
    exact (noMark_correct this.2).trans (noMark_correct this.1).symm
  · unfold simpleLower; rw [h]

theorem isMark_upper (c : Nat) (hc : c ≠ 0x345) : isMark (UInt32.ofNat (simpleUpper c)) = isMark (UInt32.ofNat c) := by
  rcases lookup_cases UD_UPPER c with h | h
  · have := List.all_eq_true.mp upper_marks_fast _ h
    simp only [Bool.and_eq_true, Bool.or_eq_true, beq_iff_eq] at this
    have := this.resolve_left hc
    exact (noMark_correct this.2).trans (noMark_correct this.1).symm
  · unfold simpleUpper; rw [h]

theorem isMark_title (c : Nat) (hc : c ≠ 0x345) : isMark (UInt32.ofNat (simpleTitle c)) = isMark (UInt32.ofNat c) := by
  rcases lookup_cases UD_TITLE c with h | h
  · have := List.all_eq_true.mp title_marks_fast _ h
    simp only [Bool.and_eq_true, Bool.or_eq_true, beq_iff_eq] at this
    have := this.resolve_left hc
    exact (noMark_correct this.2).trans (noMark_correct this.1).symm
  · unfold simpleTitle; rw [h]

theorem mark_345 : isMark 0x345 = true ∧ simpleUpper 0x345 = 0x399 ∧ isMark 0x399 = false ∧ isMark 0xDF = false ∧ isMark 0x53 = false ∧
    isMark 0x73 = false := by decide +kernel

end Ystring
