import Verif.Spec.Normalize
import Verif.Proofs.ClassPieces
/- Which components of canonical decompositions are combining marks. -/
namespace Ystring
open Spec

/-- the decompositions of Kirat Rai vowels, whose second component is a letter -/
def kiratRai : List Nat := [0x16D68, 0x16D69, 0x16D6A]

/-- the same, with the pieces of the code space -/
def markAs (c : Nat) (v : Bool) : Bool := pieceOf markPieces c == some v

theorem markAs_correct {c : Nat} {v : Bool} (h : markAs c v = true) : isMark (UInt32.ofNat c) = v :=
  markPieces_correct (beq_iff_eq.mp h)

theorem pairs_marks_fast : UD_PAIRS.all (fun p => ((markAs p.1 true && markAs p.2.1 true) || (markAs p.1 false && markAs p.2.1 false)) &&
    (kiratRai.contains p.1 || (markAs p.2.2 true && !kiratRai.contains p.2.1))) = true := by decide +kernel

theorem pairs_marks : UD_PAIRS.all (fun p => (isMark (UInt32.ofNat p.1) == isMark (UInt32.ofNat p.2.1)) &&
    (kiratRai.contains p.1 || (isMark (UInt32.ofNat p.2.2) && !kiratRai.contains p.2.1))) = true := by
  rw [List.all_eq_true]
  intro p hp
  have := List.all_eq_true.mp pairs_marks_fast p hp
  simp only [Bool.and_eq_true, Bool.or_eq_true, beq_iff_eq] at this ⊢
  refine ⟨?_, ?_⟩
  · rcases this.1 with ⟨h1, h2⟩ | ⟨h1, h2⟩ <;> rw [markAs_correct h1, markAs_correct h2]
  · rcases this.2 with h | ⟨h1, h2⟩
    · exact .inl h
    · exact .inr ⟨markAs_correct h1, h2⟩

end Ystring
