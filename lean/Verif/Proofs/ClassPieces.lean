import Verif.Proofs.CharClass
/-
Evaluation of `isLetter` and `isMark` on many code points: pieces of the code space on which they are constant, checked
against UnicodeData16.0.0.txt. (Kernel evaluation of the library's binary search itself takes too much memory.)
-/
namespace Ystring
open Spec

/-- the value on a code point, according to a list of pieces (first, last, value) -/
def pieceOf : List (Nat × Nat × Bool) → Nat → Option Bool
  | [], _ => none
  | (lo, hi, v) :: ps, c => if Nat.ble lo c && Nat.ble c hi then some v else pieceOf ps c

/-- the pieces that reach beyond `e`, if those that begin at or before `e` have the value of `g` -/
def stepPieces (P : Nat → Bool) (e g : Nat) : List (Nat × Nat × Bool) → Option (List (Nat × Nat × Bool))
  | [] => some []
  | (lo, hi, v) :: ps =>
    if Nat.blt e lo then some ((lo, hi, v) :: ps)
    else if P g == v then if Nat.ble hi e then stepPieces P e g ps else some ((lo, hi, v) :: ps)
    else none

/-- the pieces agree with a cover of the code points by segments (last, class) -/
def piecesOK (P : Nat → Bool) : List (Nat × Nat) → List (Nat × Nat × Bool) → Bool
  | [], _ => true
  | (e, g) :: cov, ps =>
    match stepPieces P e g ps with
    | none => false
    | some ps => piecesOK P cov ps

/-- pieces from left to right, below 2^21 -/
def piecesSorted : List (Nat × Nat × Bool) → Bool
  | [] => true
  | (lo, hi, _) :: ps => Nat.ble lo hi && Nat.ble hi 0x1FFFFF && ps.all (fun q => Nat.blt hi q.1) && piecesSorted ps

theorem stepPieces_some {P e g} {ps ps' : List (Nat × Nat × Bool)} (hs : piecesSorted ps = true)
    (h : stepPieces P e g ps = some ps') :
    piecesSorted ps' = true ∧ ∀ p ∈ ps, (p.1 ≤ e → P g = p.2.2) ∧ (e < p.2.1 → p ∈ ps') := by
  induction ps with
  | nil => cases h; exact ⟨rfl, fun p hp => by cases hp⟩
  | cons q ps ih =>
    obtain ⟨lo, hi, v⟩ := q
    rw [stepPieces] at h
    have hs' := hs
    simp only [piecesSorted, Bool.and_eq_true, List.all_eq_true, Nat.blt_eq] at hs'
    obtain ⟨⟨⟨h1, -⟩, h2⟩, h3⟩ := hs'
    have h1 := Nat.le_of_ble_eq_true h1
    split at h
    · rename_i he
      rw [Nat.blt_eq] at he
      cases h
      refine ⟨hs, fun p hp => ⟨fun hle => ?_, fun _ => hp⟩⟩
      rcases List.mem_cons.mp hp with rfl | hp
      · simp only at hle; omega
      · have := h2 p hp; omega
    · split at h
      · rename_i hv
        rw [beq_iff_eq] at hv
        split at h
        · rename_i hle
          have hle := Nat.le_of_ble_eq_true hle
          obtain ⟨h4, h5⟩ := ih h3 h
          refine ⟨h4, fun p hp => ?_⟩
          rcases List.mem_cons.mp hp with rfl | hp
          · exact ⟨fun _ => hv, fun h => by simp only at h; omega⟩
          · exact h5 p hp
        · rename_i hle
          rw [Nat.ble_eq] at hle
          cases h
          refine ⟨hs, fun p hp => ⟨fun h => ?_, fun _ => hp⟩⟩
          rcases List.mem_cons.mp hp with rfl | hp
          · exact hv
          · have := h2 p hp; omega
      · cases h

theorem piecesOK_find {P} {cov : List (Nat × Nat)} {ps : List (Nat × Nat × Bool)} (hs : piecesSorted ps = true)
    (h : piecesOK P cov ps = true) {p : Nat × Nat × Bool} (hp : p ∈ ps) {c : Nat} (h1 : p.1 ≤ c) (h2 : c ≤ p.2.1)
    {b g : Nat} (hf : cov.find? (fun r => decide (c ≤ r.1)) = some (b, g)) : P g = p.2.2 := by
  induction cov generalizing ps with
  | nil => cases hf
  | cons x cov ih =>
    obtain ⟨e, g'⟩ := x
    rw [piecesOK] at h
    rw [List.find?_cons] at hf
    split at h
    · cases h
    · rename_i ps' hst
      obtain ⟨h3, h4⟩ := stepPieces_some hs hst
      by_cases hc : c ≤ e
      · rw [decide_eq_true hc] at hf
        cases hf
        exact (h4 p hp).1 (by omega)
      · rw [decide_eq_false hc] at hf
        exact ih h3 h ((h4 p hp).2 (by omega)) hf

theorem pieceOf_mem {ps : List (Nat × Nat × Bool)} (hs : piecesSorted ps = true) {c : Nat} {v : Bool}
    (hp : pieceOf ps c = some v) : ∃ p ∈ ps, p.1 ≤ c ∧ c ≤ p.2.1 ∧ p.2.2 = v ∧ c ≤ 0x1FFFFF := by
  induction ps with
  | nil => cases hp
  | cons p ps ih =>
    obtain ⟨lo, hi, w⟩ := p
    simp only [piecesSorted, Bool.and_eq_true] at hs
    obtain ⟨⟨⟨-, h1⟩, -⟩, h3⟩ := hs
    have h1 := Nat.le_of_ble_eq_true h1
    rw [pieceOf] at hp
    split at hp
    · rename_i hc
      cases hp
      rw [Bool.and_eq_true] at hc
      have h4 := Nat.le_of_ble_eq_true hc.1
      have h5 := Nat.le_of_ble_eq_true hc.2
      exact ⟨_, List.mem_cons_self, h4, h5, rfl, by omega⟩
    · obtain ⟨p, hp, h⟩ := ih h3 hp
      exact ⟨p, List.mem_cons_of_mem _ hp, h⟩

theorem piecesOK_correct {P ps} (hs : piecesSorted ps = true) (h : piecesOK P (coverOf 0 UD_RANGES) ps = true) {c : Nat}
    {v : Bool} (hp : pieceOf ps c = some v) : P (charClassShift (UInt32.ofNat c)).toNat = v := by
  obtain ⟨p, hm, h1, h2, rfl, hle⟩ := pieceOf_mem hs hp
  have ht : (UInt32.ofNat c).toNat = c := UInt32.toNat_ofNat_of_lt' (by show c < 4294967296; omega)
  obtain ⟨b, hb⟩ := cover_correct UD_RANGES 0 c rows_ok (by omega) hle
  rw [charClassShift_own _ (by rw [ht]; exact hle), ht]
  exact piecesOK_find hs h hm h1 h2 hb

theorem shift_eq (c : Char32) : charClassShift c = UInt32.ofNat (charClassShift c).toNat := by rw [UInt32.ofNat_toNat]

theorem isLetter_shift (c : Char32) : isLetter c = Nat.blt (charClassShift c).toNat 5 := by
  have h : ∀ k : Fin 30, (decide ((1 : UInt32) <<< UInt32.ofNat k.val &&& CharClass.LETTER ≠ 0)) = Nat.blt k.val 5 := by
    decide +kernel
  have := h ⟨_, charClassShift_lt c⟩
  unfold isLetter getCharClass
  rw [shift_eq]
  simpa using this

theorem isMark_shift (c : Char32) :
    isMark c = (Nat.ble 5 (charClassShift c).toNat && Nat.ble (charClassShift c).toNat 7) := by
  have h : ∀ k : Fin 30, (decide ((1 : UInt32) <<< UInt32.ofNat k.val &&& CharClass.MARK ≠ 0)) =
      (Nat.ble 5 k.val && Nat.ble k.val 7) := by decide +kernel
  have := h ⟨_, charClassShift_lt c⟩
  unfold isMark getCharClass
  rw [shift_eq]
  simpa using this

/-- pieces that contain all code points with an upper case, and these upper cases; value: letter or not -/
def letterPieces : List (Nat × Nat × Bool) := [
  (0x41, 0x5a, true), (0x61, 0x7a, true), (0xb5, 0xb5, true), (0xc0, 0xd6, true), (0xd8, 0xf6, true),
  (0xf8, 0x29e, true), (0x345, 0x345, false), (0x370, 0x373, true), (0x376, 0x377, true), (0x37b, 0x37d, true),
  (0x37f, 0x37f, true), (0x386, 0x386, true), (0x388, 0x38a, true), (0x38c, 0x38c, true), (0x38e, 0x3a1, true),
  (0x3a3, 0x3f5, true), (0x3f7, 0x481, true), (0x48a, 0x52f, true), (0x531, 0x556, true), (0x561, 0x586, true),
  (0x10a0, 0x10c5, true), (0x10c7, 0x10c7, true), (0x10cd, 0x10cd, true), (0x10d0, 0x10fa, true),
  (0x10fd, 0x10ff, true), (0x13a0, 0x13f5, true), (0x13f8, 0x13fd, true), (0x1c80, 0x1c8a, true),
  (0x1c90, 0x1cba, true), (0x1cbd, 0x1cbf, true), (0x1d79, 0x1d8e, true), (0x1e00, 0x1f15, true),
  (0x1f18, 0x1f1d, true), (0x1f20, 0x1f45, true), (0x1f48, 0x1f4d, true), (0x1f51, 0x1f57, true),
  (0x1f59, 0x1f59, true), (0x1f5b, 0x1f5b, true), (0x1f5d, 0x1f5d, true), (0x1f5f, 0x1f7d, true),
  (0x1f80, 0x1fb3, true), (0x1fb8, 0x1fbc, true), (0x1fbe, 0x1fbe, true), (0x1fc3, 0x1fc3, true),
  (0x1fc8, 0x1fcc, true), (0x1fd0, 0x1fd1, true), (0x1fd8, 0x1fdb, true), (0x1fe0, 0x1fec, true),
  (0x1ff3, 0x1ff3, true), (0x1ff8, 0x1ffc, true), (0x2132, 0x2132, true), (0x214e, 0x214e, true),
  (0x2160, 0x217f, false), (0x2183, 0x2184, true), (0x24b6, 0x24e9, false), (0x2c00, 0x2ce3, true),
  (0x2ceb, 0x2cee, true), (0x2cf2, 0x2cf3, true), (0x2d00, 0x2d25, true), (0x2d27, 0x2d27, true),
  (0x2d2d, 0x2d2d, true), (0xa640, 0xa66d, true), (0xa680, 0xa69b, true), (0xa722, 0xa787, true),
  (0xa78b, 0xa7cd, true), (0xa7d0, 0xa7d1, true), (0xa7d6, 0xa7dc, true), (0xa7f5, 0xa7f6, true),
  (0xab53, 0xab53, true), (0xab70, 0xabbf, true), (0xff21, 0xff3a, true), (0xff41, 0xff5a, true),
  (0x10400, 0x1044f, true), (0x104b0, 0x104d3, true), (0x104d8, 0x104fb, true), (0x10570, 0x1057a, true),
  (0x1057c, 0x1058a, true), (0x1058c, 0x10592, true), (0x10594, 0x10595, true), (0x10597, 0x105a1, true),
  (0x105a3, 0x105b1, true), (0x105b3, 0x105b9, true), (0x105bb, 0x105bc, true), (0x10c80, 0x10cb2, true),
  (0x10cc0, 0x10cf2, true), (0x10d50, 0x10d65, true), (0x10d70, 0x10d85, true), (0x118a0, 0x118df, true),
  (0x16e40, 0x16e7f, true), (0x1e900, 0x1e943, true)]

/-- pieces that contain all code points that have a canonical decomposition into two, and its components; value: mark or
not -/
def markPieces : List (Nat × Nat × Bool) := [
  (0x3c, 0x292, false), (0x300, 0x345, true), (0x385, 0x477, false), (0x4c1, 0x4f9, false), (0x5b4, 0x5bc, true),
  (0x5bf, 0x5bf, true), (0x5c1, 0x5c2, true), (0x5d0, 0x5f2, false), (0x622, 0x64a, false), (0x653, 0x655, true),
  (0x6c0, 0x6d5, false), (0x915, 0x934, false), (0x93c, 0x93c, true), (0x958, 0x95f, false), (0x9a1, 0x9af, false),
  (0x9bc, 0x9bc, true), (0x9be, 0x9be, true), (0x9c7, 0x9c7, true), (0x9cb, 0x9cc, true), (0x9d7, 0x9d7, true),
  (0x9dc, 0x9df, false), (0xa16, 0xa38, false), (0xa3c, 0xa3c, true), (0xa59, 0xa5e, false), (0xb21, 0xb22, false),
  (0xb3c, 0xb3c, true), (0xb3e, 0xb3e, true), (0xb47, 0xb48, true), (0xb4b, 0xb4c, true), (0xb56, 0xb57, true),
  (0xb5c, 0xb5d, false), (0xb92, 0xb94, false), (0xbbe, 0xbbe, true), (0xbc6, 0xbc7, true), (0xbca, 0xbcc, true),
  (0xbd7, 0xbd7, true), (0xc46, 0xc48, true), (0xc56, 0xc56, true), (0xcbf, 0xcc2, true), (0xcc6, 0xcc8, true),
  (0xcca, 0xccb, true), (0xcd5, 0xcd6, true), (0xd3e, 0xd3e, true), (0xd46, 0xd47, true), (0xd4a, 0xd4c, true),
  (0xd57, 0xd57, true), (0xdca, 0xdca, true), (0xdcf, 0xdcf, true), (0xdd9, 0xddf, true), (0xf40, 0xf69, false),
  (0xf71, 0xf81, true), (0xf90, 0xf93, true), (0xf9c, 0xfb9, true), (0x1025, 0x1026, false), (0x102e, 0x102e, true),
  (0x1b05, 0x1b12, false), (0x1b35, 0x1b43, true), (0x1e00, 0x1ffe, false), (0x2190, 0x2add, false),
  (0x3046, 0x3094, false), (0x3099, 0x309a, true), (0x309d, 0x30fe, false), (0xfb1d, 0xfb1d, false),
  (0xfb1f, 0xfb4e, false), (0x105c9, 0x105e4, false), (0x11099, 0x110ab, false), (0x110ba, 0x110ba, true),
  (0x11127, 0x11132, true), (0x1133e, 0x1133e, true), (0x11347, 0x11347, true), (0x1134b, 0x1134c, true),
  (0x11357, 0x11357, true), (0x11382, 0x11391, false), (0x113b8, 0x113bb, true), (0x113c2, 0x113c2, true),
  (0x113c5, 0x113c5, true), (0x113c7, 0x113c9, true), (0x114b0, 0x114be, true), (0x115af, 0x115af, true),
  (0x115b8, 0x115bb, true), (0x11930, 0x11935, true), (0x11938, 0x11938, true), (0x1611e, 0x16129, true),
  (0x16d63, 0x16d6a, false), (0x1d157, 0x1d164, false), (0x1d165, 0x1d165, true), (0x1d16e, 0x1d172, true),
  (0x1d1b9, 0x1d1c0, false)]

theorem letterPieces_ok : piecesSorted letterPieces = true ∧
    piecesOK (fun g => Nat.blt g 5) (coverOf 0 UD_RANGES) letterPieces = true := by decide +kernel
theorem markPieces_ok : piecesSorted markPieces = true ∧
    piecesOK (fun g => Nat.ble 5 g && Nat.ble g 7) (coverOf 0 UD_RANGES) markPieces = true := by decide +kernel

theorem letterPieces_correct {c : Nat} {v : Bool} (h : pieceOf letterPieces c = some v) : isLetter (UInt32.ofNat c) = v := by
  rw [isLetter_shift]
  exact piecesOK_correct letterPieces_ok.1 letterPieces_ok.2 h
theorem markPieces_correct {c : Nat} {v : Bool} (h : pieceOf markPieces c = some v) : isMark (UInt32.ofNat c) = v := by
  rw [isMark_shift]
  exact piecesOK_correct markPieces_ok.1 markPieces_ok.2 h

end Ystring
