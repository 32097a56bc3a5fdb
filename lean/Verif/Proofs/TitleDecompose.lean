import Verif.Proofs.CaseDecompose
import Verif.Proofs.ClassPieces
/- Title case and table decompositions: facts about the tables. -/
namespace Ystring
open Spec

/-- pieces of the code space on which it is constant whether a code point is a letter, around all code points of the decomposition table -/
def titlePieces : List (Nat × Nat × Bool) := [
  (0x3c, 0x3e, false), (0x41, 0x5a, true), (0x61, 0x7a, true), (0xa8, 0xa8, false), (0xc0, 0xd6, true), (0xd8, 0xf6, true),
  (0xf8, 0x292, true), (0x300, 0x345, false), (0x385, 0x385, false), (0x386, 0x386, true), (0x388, 0x38a, true), (0x38c, 0x38c, true),
  (0x38e, 0x3a1, true), (0x3a5, 0x3d4, true), (0x400, 0x477, true), (0x4c1, 0x4f9, true), (0x5b4, 0x5c2, false), (0x5d0, 0x5ea, true),
  (0x5f2, 0x5f2, true), (0x622, 0x64a, true), (0x653, 0x655, false), (0x6c0, 0x6d3, true), (0x6d5, 0x6d5, true), (0x915, 0x934, true),
  (0x93c, 0x93c, false), (0x958, 0x95f, true), (0x9a1, 0x9a2, true), (0x9af, 0x9af, true), (0x9bc, 0x9bc, false),
  (0x9be, 0x9cc, false), (0x9d7, 0x9d7, false), (0x9dc, 0x9dd, true), (0x9df, 0x9df, true), (0xa16, 0xa1c, true), (0xa2b, 0xa2b, true),
  (0xa32, 0xa33, true), (0xa36, 0xa36, true), (0xa38, 0xa38, true), (0xa3c, 0xa3c, false), (0xa59, 0xa5b, true), (0xa5e, 0xa5e, true),
  (0xb21, 0xb22, true), (0xb3c, 0xb3c, false), (0xb3e, 0xb57, false), (0xb5c, 0xb5d, true), (0xb92, 0xb94, true),
  (0xbbe, 0xbcc, false), (0xbd7, 0xbd7, false), (0xc46, 0xc56, false), (0xcbf, 0xcd6, false), (0xd3e, 0xd4c, false),
  (0xd57, 0xd57, false), (0xdca, 0xddf, false), (0xf40, 0xf43, true), (0xf4c, 0xf69, true), (0xf71, 0xf81, false),
  (0xf90, 0xfb9, false), (0x1025, 0x1026, true), (0x102e, 0x102e, false), (0x1b05, 0x1b12, true), (0x1b35, 0x1b43, false),
  (0x1e00, 0x1f15, true), (0x1f18, 0x1f1d, true), (0x1f20, 0x1f45, true), (0x1f48, 0x1f4d, true), (0x1f50, 0x1f57, true),
  (0x1f59, 0x1f59, true), (0x1f5b, 0x1f5b, true), (0x1f5d, 0x1f5d, true), (0x1f5f, 0x1f7c, true), (0x1f80, 0x1fb4, true),
  (0x1fb6, 0x1fbc, true), (0x1fbf, 0x1fc1, false), (0x1fc2, 0x1fc4, true), (0x1fc6, 0x1fcc, true), (0x1fcd, 0x1fcf, false),
  (0x1fd0, 0x1fd2, true), (0x1fd6, 0x1fda, true), (0x1fdd, 0x1fdf, false), (0x1fe0, 0x1fec, true), (0x1fed, 0x1fed, false),
  (0x1ff2, 0x1ff4, true), (0x1ff6, 0x1ffc, true), (0x1ffe, 0x1ffe, false), (0x212b, 0x212b, true), (0x2190, 0x2add, false),
  (0x3046, 0x3094, true), (0x3099, 0x309a, false), (0x309d, 0x309e, true), (0x30a6, 0x30fa, true), (0x30fd, 0x30fe, true),
  (0xfb1d, 0xfb1d, true), (0xfb1f, 0xfb1f, true), (0xfb2a, 0xfb36, true), (0xfb38, 0xfb3c, true), (0xfb3e, 0xfb3e, true),
  (0xfb40, 0xfb41, true), (0xfb43, 0xfb44, true), (0xfb46, 0xfb4e, true), (0x105c9, 0x105e4, true), (0x11099, 0x110ab, true),
  (0x110ba, 0x110ba, false), (0x11127, 0x11132, false), (0x1133e, 0x1134c, false), (0x11357, 0x11357, false), (0x11382, 0x11385, true),
  (0x1138b, 0x1138b, true), (0x1138e, 0x1138e, true), (0x11390, 0x11391, true), (0x113b8, 0x113c9, false), (0x114b0, 0x114be, false),
  (0x115af, 0x115bb, false), (0x11930, 0x11938, false), (0x1611e, 0x16129, false), (0x16d63, 0x16d6a, true), (0x1d157, 0x1d1c0, false)]

theorem titlePieces_ok : piecesSorted titlePieces = true ∧
    piecesOK (fun g => Nat.blt g 5) (coverOf 0 UD_RANGES) titlePieces = true := by decide +kernel

theorem titlePieces_correct {c : Nat} {v : Bool} (h : pieceOf titlePieces c = some v) : isLetter (UInt32.ofNat c) = v := by
  rw [isLetter_shift]
  exact piecesOK_correct titlePieces_ok.1 titlePieces_ok.2 h

/-- `x` is known and the same as `y` -/
def samePiece : Option Bool → Option Bool → Bool
  | some v, some w => v == w
  | _, _ => false

def isPiece (x : Option Bool) (v : Bool) : Bool := match x with
  | some w => v == w
  | none => false

theorem pairs_letters : UD_PAIRS.all (fun p => samePiece (pieceOf titlePieces p.1) (pieceOf titlePieces p.2.1) &&
    (isPiece (pieceOf titlePieces p.2.2) false || (Nat.beq p.2.2 0x16D67 && isPiece (pieceOf titlePieces p.1) true)) &&
    Nat.beq (caseGroupOf lowerGroups p.2.2) p.2.2) = true := by decide +kernel

theorem pairs_title : (let m := maskOf TitleSplits
    UD_PAIRS.all (fun p => inMask m p.1 || (!inMask m p.2.1 &&
      isPair (pairOf (caseGroupOf titleGroups p.1)) (caseGroupOf titleGroups p.2.1) p.2.2))) = true := by decide +kernel

theorem atoms_title : (let m := pairMask; UD_TITLE.all (fun p => inMask m p.1 || !inMask m p.2)) = true := by decide +kernel

theorem pairs_same : (let m := maskOf TitleSplits
    UD_PAIRS.all (fun p => inMask m p.1 || !Nat.beq (caseGroupOf lowerGroups p.2.1) (caseGroupOf titleGroups p.2.1) ||
      Nat.beq (caseGroupOf lowerGroups p.1) (caseGroupOf titleGroups p.1))) = true := by decide +kernel

/-- the head of a list, or 0 -/
def chainHead : List Nat → Nat
  | [] => 0
  | x :: _ => x

theorem titleSplits_facts : TitleSplits.all (fun c => Nat.beq (simpleTitle c) c && Nat.beq (simpleLower c) c &&
    !Nat.beq (simpleTitle (chainHead (chainOf c))) (chainHead (chainOf c))) = true := by decide +kernel

theorem lower_212B : UD_LOWER.all (fun p => !Nat.beq p.2 0x212B) = true := by decide +kernel

theorem pairs_212B : UD_PAIRS.all (fun p => !Nat.beq p.1 0x212B && !Nat.beq p.2.1 0x212B && !Nat.beq p.2.2 0x212B) = true := by decide +kernel

end Ystring
