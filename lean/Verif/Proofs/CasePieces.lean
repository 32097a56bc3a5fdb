import Verif.Spec.Case
/-
Evaluation of the simple case mappings on many code points: the mappings as lists of blocks of code points that are all
shifted by the same distance, checked against the mappings of UnicodeData16.0.0.txt.
-/
namespace Ystring
open Spec

/-- `count` code points from `first` on (every second one if `two`), shifted by `up - down` -/
structure CasePiece where
  first : Nat
  count : Nat
  two : Bool
  up : Nat
  down : Nat

def CasePiece.step (p : CasePiece) : Nat := cond p.two 2 1

/-- the rows of a block -/
def blockRows (step up down : Nat) : Nat → Nat → List (Nat × Nat)
  | 0, _ => []
  | n + 1, c => (c, c + up - down) :: blockRows step up down n (c + step)

def casePiecesRows : List CasePiece → List (Nat × Nat)
  | [] => []
  | p :: ps => blockRows p.step p.up p.down p.count p.first ++ casePiecesRows ps

/-- the mapping, for evaluation -/
def casePieceOf : List CasePiece → Nat → Nat
  | [], c => c
  | p :: ps, c =>
    cond (Nat.ble p.first c)
      (cond (Nat.blt c (p.first + p.count * p.step)) (cond (Nat.beq ((c - p.first) % p.step) 0) (c + p.up - p.down) (casePieceOf ps c))
        (casePieceOf ps c))
      (casePieceOf ps c)

theorem blockRows_find (two : Bool) (up down n first c : Nat) :
    (blockRows (cond two 2 1) up down n first).find? (fun p => p.1 == c) =
      if first ≤ c ∧ c < first + n * (cond two 2 1) ∧ (c - first) % (cond two 2 1) = 0 then some (c, c + up - down) else none := by
  induction n generalizing first with
  | zero =>
    rw [if_neg (by omega)]
    rfl
  | succ n ih =>
    rw [blockRows, List.find?_cons]
    by_cases h : first = c
    · subst h
      have : (first == first) = true := by simp
      simp only [this]
      rw [if_pos ⟨by omega, by cases two <;> simp <;> omega, by simp⟩]
    · have : (first == c) = false := by simpa using h
      simp only [this, ih]
      congr 1
      apply propext
      cases two <;> simp only [cond_true, cond_false] <;> omega

theorem casePieceOf_lookup (ps : List CasePiece) (c : Nat) : lookup (casePiecesRows ps) c = casePieceOf ps c := by
  induction ps with
  | nil => rfl
  | cons p ps ih =>
    unfold lookup at ih ⊢
    rw [casePiecesRows, List.find?_append, CasePiece.step, blockRows_find, casePieceOf]
    by_cases h : p.first ≤ c ∧ c < p.first + p.count * (cond p.two 2 1) ∧ (c - p.first) % (cond p.two 2 1) = 0
    · rw [if_pos h, show Nat.ble p.first c = true from Nat.ble_eq.mpr h.1,
        show Nat.blt c (p.first + p.count * p.step) = true from Nat.blt_eq.mpr h.2.1,
        show Nat.beq ((c - p.first) % p.step) 0 = true from (Nat.beq_eq ▸ h.2.2 : _)]
      rfl
    · rw [if_neg h, Option.none_or, ih]
      cases h1 : Nat.ble p.first c
      · rfl
      · cases h2 : Nat.blt c (p.first + p.count * p.step)
        · rfl
        · cases h3 : Nat.beq ((c - p.first) % p.step) 0
          · rfl
          · exact absurd ⟨Nat.ble_eq.mp h1, Nat.blt_eq.mp h2, Nat.eq_of_beq_eq_true h3⟩ h

/-- a code point outside a block is not shifted by it -/
theorem casePieceOf_skip (p : CasePiece) (ps : List CasePiece) (c : Nat) (h : c < p.first ∨ p.first + p.count * p.step ≤ c + (p.step - 1)) :
    casePieceOf (p :: ps) c = casePieceOf ps c := by
  rw [casePieceOf]
  cases h1 : Nat.ble p.first c
  · rfl
  · cases h2 : Nat.blt c (p.first + p.count * p.step)
    · rfl
    · cases h3 : Nat.beq ((c - p.first) % p.step) 0
      · rfl
      · have h1 := Nat.ble_eq.mp h1
        have h2 := Nat.blt_eq.mp h2
        have h3 := Nat.eq_of_beq_eq_true h3
        exfalso
        obtain ⟨first, count, two, up, down⟩ := p
        cases two <;> simp only [CasePiece.step, cond_true, cond_false] at h h1 h2 h3 <;> omega

theorem casePieceOf_before (a b : List CasePiece) (c : Nat) (h : ∀ p ∈ b, c < p.first) :
    casePieceOf (a ++ b) c = casePieceOf a c := by
  induction a with
  | nil =>
    induction b with
    | nil => rfl
    | cons p b ih =>
      rw [List.nil_append, casePieceOf_skip p b c (.inl (h p List.mem_cons_self))]
      exact ih (fun q hq => h q (List.mem_cons_of_mem _ hq))
  | cons p a ih => rw [List.cons_append, casePieceOf, casePieceOf, ih]

theorem casePieceOf_behind (a b : List CasePiece) (c : Nat) (h : ∀ p ∈ a, p.first + p.count * p.step ≤ c + (p.step - 1)) :
    casePieceOf (a ++ b) c = casePieceOf b c := by
  induction a with
  | nil => rfl
  | cons p a ih =>
    rw [List.cons_append, casePieceOf_skip p _ c (.inr (h p List.mem_cons_self))]
    exact ih (fun q hq => h q (List.mem_cons_of_mem _ hq))

/-- the mapping in groups, for evaluation -/
def caseGroupOf : List (Nat × List CasePiece) → Nat → Nat
  | [], c => c
  | (b, g) :: gs, c => cond (Nat.blt c b) (casePieceOf g c) (caseGroupOf gs c)

def groupsOK : List (Nat × List CasePiece) → Bool
  | [] => true
  | (b, g) :: gs =>
    g.all (fun p => Nat.ble (p.first + p.count * p.step) (b + (p.step - 1))) &&
    (gs.flatMap (·.2)).all (fun p => Nat.ble b p.first) && groupsOK gs

theorem caseGroupOf_eq (gs : List (Nat × List CasePiece)) (h : groupsOK gs = true) (c : Nat) :
    casePieceOf (gs.flatMap (·.2)) c = caseGroupOf gs c := by
  induction gs with
  | nil => rfl
  | cons x gs ih =>
    obtain ⟨b, g⟩ := x
    simp only [groupsOK, Bool.and_eq_true, List.all_eq_true] at h
    obtain ⟨⟨h1, h2⟩, h3⟩ := h
    rw [caseGroupOf, List.flatMap_cons]
    cases hc : Nat.blt c b
    · rw [cond_false, ← ih h3]
      refine casePieceOf_behind _ _ c (fun p hp => ?_)
      have := Nat.le_of_ble_eq_true (h1 p hp)
      have hc : ¬ c < b := fun e => by rw [Nat.blt_eq.mpr e] at hc; cases hc
      omega
    · rw [cond_true]
      refine casePieceOf_before _ _ c (fun p hp => ?_)
      have := Nat.le_of_ble_eq_true (h2 p hp)
      have := Nat.blt_eq.mp hc
      omega

/-- Simple_Lowercase_Mapping in blocks, in groups: all code points of a group are below its number, those of the later groups not -/
def lowerGroups : List (Nat × List CasePiece) := [
  (0x189, [⟨0x41, 26, false, 32, 0⟩, ⟨0xc0, 23, false, 32, 0⟩, ⟨0xd8, 7, false, 32, 0⟩, ⟨0x100, 24, true, 1, 0⟩,
    ⟨0x130, 1, false, 0, 199⟩, ⟨0x132, 3, true, 1, 0⟩, ⟨0x139, 8, true, 1, 0⟩, ⟨0x14a, 23, true, 1, 0⟩,
    ⟨0x178, 1, false, 0, 121⟩, ⟨0x179, 3, true, 1, 0⟩, ⟨0x181, 1, false, 210, 0⟩, ⟨0x182, 2, true, 1, 0⟩,
    ⟨0x186, 1, false, 206, 0⟩, ⟨0x187, 1, false, 1, 0⟩]),
  (0x1a0, [⟨0x189, 2, false, 205, 0⟩, ⟨0x18b, 1, false, 1, 0⟩, ⟨0x18e, 1, false, 79, 0⟩, ⟨0x18f, 1, false, 202, 0⟩,
    ⟨0x190, 1, false, 203, 0⟩, ⟨0x191, 1, false, 1, 0⟩, ⟨0x193, 1, false, 205, 0⟩, ⟨0x194, 1, false, 207, 0⟩,
    ⟨0x196, 1, false, 211, 0⟩, ⟨0x197, 1, false, 209, 0⟩, ⟨0x198, 1, false, 1, 0⟩, ⟨0x19c, 1, false, 211, 0⟩,
    ⟨0x19d, 1, false, 213, 0⟩, ⟨0x19f, 1, false, 214, 0⟩]),
  (0x1c7, [⟨0x1a0, 3, true, 1, 0⟩, ⟨0x1a6, 1, false, 218, 0⟩, ⟨0x1a7, 1, false, 1, 0⟩, ⟨0x1a9, 1, false, 218, 0⟩,
    ⟨0x1ac, 1, false, 1, 0⟩, ⟨0x1ae, 1, false, 218, 0⟩, ⟨0x1af, 1, false, 1, 0⟩, ⟨0x1b1, 2, false, 217, 0⟩,
    ⟨0x1b3, 2, true, 1, 0⟩, ⟨0x1b7, 1, false, 219, 0⟩, ⟨0x1b8, 1, false, 1, 0⟩, ⟨0x1bc, 1, false, 1, 0⟩,
    ⟨0x1c4, 1, false, 2, 0⟩, ⟨0x1c5, 1, false, 1, 0⟩]),
  (0x23d, [⟨0x1c7, 1, false, 2, 0⟩, ⟨0x1c8, 1, false, 1, 0⟩, ⟨0x1ca, 1, false, 2, 0⟩, ⟨0x1cb, 9, true, 1, 0⟩,
    ⟨0x1de, 9, true, 1, 0⟩, ⟨0x1f1, 1, false, 2, 0⟩, ⟨0x1f2, 2, true, 1, 0⟩, ⟨0x1f6, 1, false, 0, 97⟩,
    ⟨0x1f7, 1, false, 0, 56⟩, ⟨0x1f8, 20, true, 1, 0⟩, ⟨0x220, 1, false, 0, 130⟩, ⟨0x222, 9, true, 1, 0⟩,
    ⟨0x23a, 1, false, 10795, 0⟩, ⟨0x23b, 1, false, 1, 0⟩]),
  (0x391, [⟨0x23d, 1, false, 0, 163⟩, ⟨0x23e, 1, false, 10792, 0⟩, ⟨0x241, 1, false, 1, 0⟩,
    ⟨0x243, 1, false, 0, 195⟩, ⟨0x244, 1, false, 69, 0⟩, ⟨0x245, 1, false, 71, 0⟩, ⟨0x246, 5, true, 1, 0⟩,
    ⟨0x370, 2, true, 1, 0⟩, ⟨0x376, 1, false, 1, 0⟩, ⟨0x37f, 1, false, 116, 0⟩, ⟨0x386, 1, false, 38, 0⟩,
    ⟨0x388, 3, false, 37, 0⟩, ⟨0x38c, 1, false, 64, 0⟩, ⟨0x38e, 2, false, 63, 0⟩]),
  (0x4c1, [⟨0x391, 17, false, 32, 0⟩, ⟨0x3a3, 9, false, 32, 0⟩, ⟨0x3cf, 1, false, 8, 0⟩, ⟨0x3d8, 12, true, 1, 0⟩,
    ⟨0x3f4, 1, false, 0, 60⟩, ⟨0x3f7, 1, false, 1, 0⟩, ⟨0x3f9, 1, false, 0, 7⟩, ⟨0x3fa, 1, false, 1, 0⟩,
    ⟨0x3fd, 3, false, 0, 130⟩, ⟨0x400, 16, false, 80, 0⟩, ⟨0x410, 32, false, 32, 0⟩, ⟨0x460, 17, true, 1, 0⟩,
    ⟨0x48a, 27, true, 1, 0⟩, ⟨0x4c0, 1, false, 15, 0⟩]),
  (0x1f08, [⟨0x4c1, 7, true, 1, 0⟩, ⟨0x4d0, 48, true, 1, 0⟩, ⟨0x531, 38, false, 48, 0⟩, ⟨0x10a0, 38, false, 7264, 0⟩,
    ⟨0x10c7, 1, false, 7264, 0⟩, ⟨0x10cd, 1, false, 7264, 0⟩, ⟨0x13a0, 80, false, 38864, 0⟩,
    ⟨0x13f0, 6, false, 8, 0⟩, ⟨0x1c89, 1, false, 1, 0⟩, ⟨0x1c90, 43, false, 0, 3008⟩, ⟨0x1cbd, 3, false, 0, 3008⟩,
    ⟨0x1e00, 75, true, 1, 0⟩, ⟨0x1e9e, 1, false, 0, 7615⟩, ⟨0x1ea0, 48, true, 1, 0⟩]),
  (0x1fcc, [⟨0x1f08, 8, false, 0, 8⟩, ⟨0x1f18, 6, false, 0, 8⟩, ⟨0x1f28, 8, false, 0, 8⟩, ⟨0x1f38, 8, false, 0, 8⟩,
    ⟨0x1f48, 6, false, 0, 8⟩, ⟨0x1f59, 4, true, 0, 8⟩, ⟨0x1f68, 8, false, 0, 8⟩, ⟨0x1f88, 8, false, 0, 8⟩,
    ⟨0x1f98, 8, false, 0, 8⟩, ⟨0x1fa8, 8, false, 0, 8⟩, ⟨0x1fb8, 2, false, 0, 8⟩, ⟨0x1fba, 2, false, 0, 74⟩,
    ⟨0x1fbc, 1, false, 0, 9⟩, ⟨0x1fc8, 4, false, 0, 86⟩]),
  (0x2183, [⟨0x1fcc, 1, false, 0, 9⟩, ⟨0x1fd8, 2, false, 0, 8⟩, ⟨0x1fda, 2, false, 0, 100⟩, ⟨0x1fe8, 2, false, 0, 8⟩,
    ⟨0x1fea, 2, false, 0, 112⟩, ⟨0x1fec, 1, false, 0, 7⟩, ⟨0x1ff8, 2, false, 0, 128⟩, ⟨0x1ffa, 2, false, 0, 126⟩,
    ⟨0x1ffc, 1, false, 0, 9⟩, ⟨0x2126, 1, false, 0, 7517⟩, ⟨0x212a, 1, false, 0, 8383⟩, ⟨0x212b, 1, false, 0, 8262⟩,
    ⟨0x2132, 1, false, 28, 0⟩, ⟨0x2160, 16, false, 16, 0⟩]),
  (0x2c7e, [⟨0x2183, 1, false, 1, 0⟩, ⟨0x24b6, 26, false, 26, 0⟩, ⟨0x2c00, 48, false, 48, 0⟩,
    ⟨0x2c60, 1, false, 1, 0⟩, ⟨0x2c62, 1, false, 0, 10743⟩, ⟨0x2c63, 1, false, 0, 3814⟩,
    ⟨0x2c64, 1, false, 0, 10727⟩, ⟨0x2c67, 3, true, 1, 0⟩, ⟨0x2c6d, 1, false, 0, 10780⟩,
    ⟨0x2c6e, 1, false, 0, 10749⟩, ⟨0x2c6f, 1, false, 0, 10783⟩, ⟨0x2c70, 1, false, 0, 10782⟩,
    ⟨0x2c72, 1, false, 1, 0⟩, ⟨0x2c75, 1, false, 1, 0⟩]),
  (0xa796, [⟨0x2c7e, 2, false, 0, 10815⟩, ⟨0x2c80, 50, true, 1, 0⟩, ⟨0x2ceb, 2, true, 1, 0⟩,
    ⟨0x2cf2, 1, false, 1, 0⟩, ⟨0xa640, 23, true, 1, 0⟩, ⟨0xa680, 14, true, 1, 0⟩, ⟨0xa722, 7, true, 1, 0⟩,
    ⟨0xa732, 31, true, 1, 0⟩, ⟨0xa779, 2, true, 1, 0⟩, ⟨0xa77d, 1, false, 0, 35332⟩, ⟨0xa77e, 5, true, 1, 0⟩,
    ⟨0xa78b, 1, false, 1, 0⟩, ⟨0xa78d, 1, false, 0, 42280⟩, ⟨0xa790, 2, true, 1, 0⟩]),
  (0xa7c7, [⟨0xa796, 10, true, 1, 0⟩, ⟨0xa7aa, 1, false, 0, 42308⟩, ⟨0xa7ab, 1, false, 0, 42319⟩,
    ⟨0xa7ac, 1, false, 0, 42315⟩, ⟨0xa7ad, 1, false, 0, 42305⟩, ⟨0xa7ae, 1, false, 0, 42308⟩,
    ⟨0xa7b0, 1, false, 0, 42258⟩, ⟨0xa7b1, 1, false, 0, 42282⟩, ⟨0xa7b2, 1, false, 0, 42261⟩,
    ⟨0xa7b3, 1, false, 928, 0⟩, ⟨0xa7b4, 8, true, 1, 0⟩, ⟨0xa7c4, 1, false, 0, 48⟩, ⟨0xa7c5, 1, false, 0, 42307⟩,
    ⟨0xa7c6, 1, false, 0, 35384⟩]),
  (0x10c80, [⟨0xa7c7, 2, true, 1, 0⟩, ⟨0xa7cb, 1, false, 0, 42343⟩, ⟨0xa7cc, 1, false, 1, 0⟩,
    ⟨0xa7d0, 1, false, 1, 0⟩, ⟨0xa7d6, 3, true, 1, 0⟩, ⟨0xa7dc, 1, false, 0, 42561⟩, ⟨0xa7f5, 1, false, 1, 0⟩,
    ⟨0xff21, 26, false, 32, 0⟩, ⟨0x10400, 40, false, 40, 0⟩, ⟨0x104b0, 36, false, 40, 0⟩,
    ⟨0x10570, 11, false, 39, 0⟩, ⟨0x1057c, 15, false, 39, 0⟩, ⟨0x1058c, 7, false, 39, 0⟩, ⟨0x10594, 2, false, 39, 0⟩]),
  (0x110000, [⟨0x10c80, 51, false, 64, 0⟩, ⟨0x10d50, 22, false, 32, 0⟩, ⟨0x118a0, 32, false, 32, 0⟩,
    ⟨0x16e40, 32, false, 32, 0⟩, ⟨0x1e900, 34, false, 34, 0⟩])]

/-- Simple_Uppercase_Mapping in blocks, in groups: all code points of a group are below its number, those of the later groups not -/
def upperGroups : List (Nat × List CasePiece) := [
  (0x188, [⟨0x61, 26, false, 0, 32⟩, ⟨0xb5, 1, false, 743, 0⟩, ⟨0xe0, 23, false, 0, 32⟩, ⟨0xf8, 7, false, 0, 32⟩,
    ⟨0xff, 1, false, 121, 0⟩, ⟨0x101, 24, true, 0, 1⟩, ⟨0x131, 1, false, 0, 232⟩, ⟨0x133, 3, true, 0, 1⟩,
    ⟨0x13a, 8, true, 0, 1⟩, ⟨0x14b, 23, true, 0, 1⟩, ⟨0x17a, 3, true, 0, 1⟩, ⟨0x17f, 1, false, 0, 300⟩,
    ⟨0x180, 1, false, 195, 0⟩, ⟨0x183, 2, true, 0, 1⟩]),
  (0x1bd, [⟨0x188, 1, false, 0, 1⟩, ⟨0x18c, 1, false, 0, 1⟩, ⟨0x192, 1, false, 0, 1⟩, ⟨0x195, 1, false, 97, 0⟩,
    ⟨0x199, 1, false, 0, 1⟩, ⟨0x19a, 1, false, 163, 0⟩, ⟨0x19b, 1, false, 42561, 0⟩, ⟨0x19e, 1, false, 130, 0⟩,
    ⟨0x1a1, 3, true, 0, 1⟩, ⟨0x1a8, 1, false, 0, 1⟩, ⟨0x1ad, 1, false, 0, 1⟩, ⟨0x1b0, 1, false, 0, 1⟩,
    ⟨0x1b4, 2, true, 0, 1⟩, ⟨0x1b9, 1, false, 0, 1⟩]),
  (0x1f9, [⟨0x1bd, 1, false, 0, 1⟩, ⟨0x1bf, 1, false, 56, 0⟩, ⟨0x1c5, 1, false, 0, 1⟩, ⟨0x1c6, 1, false, 0, 2⟩,
    ⟨0x1c8, 1, false, 0, 1⟩, ⟨0x1c9, 1, false, 0, 2⟩, ⟨0x1cb, 1, false, 0, 1⟩, ⟨0x1cc, 1, false, 0, 2⟩,
    ⟨0x1ce, 8, true, 0, 1⟩, ⟨0x1dd, 1, false, 0, 79⟩, ⟨0x1df, 9, true, 0, 1⟩, ⟨0x1f2, 1, false, 0, 1⟩,
    ⟨0x1f3, 1, false, 0, 2⟩, ⟨0x1f5, 1, false, 0, 1⟩]),
  (0x25c, [⟨0x1f9, 20, true, 0, 1⟩, ⟨0x223, 9, true, 0, 1⟩, ⟨0x23c, 1, false, 0, 1⟩, ⟨0x23f, 2, false, 10815, 0⟩,
    ⟨0x242, 1, false, 0, 1⟩, ⟨0x247, 5, true, 0, 1⟩, ⟨0x250, 1, false, 10783, 0⟩, ⟨0x251, 1, false, 10780, 0⟩,
    ⟨0x252, 1, false, 10782, 0⟩, ⟨0x253, 1, false, 0, 210⟩, ⟨0x254, 1, false, 0, 206⟩, ⟨0x256, 2, false, 0, 205⟩,
    ⟨0x259, 1, false, 0, 202⟩, ⟨0x25b, 1, false, 0, 203⟩]),
  (0x272, [⟨0x25c, 1, false, 42319, 0⟩, ⟨0x260, 1, false, 0, 205⟩, ⟨0x261, 1, false, 42315, 0⟩,
    ⟨0x263, 1, false, 0, 207⟩, ⟨0x264, 1, false, 42343, 0⟩, ⟨0x265, 1, false, 42280, 0⟩, ⟨0x266, 1, false, 42308, 0⟩,
    ⟨0x268, 1, false, 0, 209⟩, ⟨0x269, 1, false, 0, 211⟩, ⟨0x26a, 1, false, 42308, 0⟩, ⟨0x26b, 1, false, 10743, 0⟩,
    ⟨0x26c, 1, false, 42305, 0⟩, ⟨0x26f, 1, false, 0, 211⟩, ⟨0x271, 1, false, 10749, 0⟩]),
  (0x345, [⟨0x272, 1, false, 0, 213⟩, ⟨0x275, 1, false, 0, 214⟩, ⟨0x27d, 1, false, 10727, 0⟩,
    ⟨0x280, 1, false, 0, 218⟩, ⟨0x282, 1, false, 42307, 0⟩, ⟨0x283, 1, false, 0, 218⟩, ⟨0x287, 1, false, 42282, 0⟩,
    ⟨0x288, 1, false, 0, 218⟩, ⟨0x289, 1, false, 0, 69⟩, ⟨0x28a, 2, false, 0, 217⟩, ⟨0x28c, 1, false, 0, 71⟩,
    ⟨0x292, 1, false, 0, 219⟩, ⟨0x29d, 1, false, 42261, 0⟩, ⟨0x29e, 1, false, 42258, 0⟩]),
  (0x3d6, [⟨0x345, 1, false, 84, 0⟩, ⟨0x371, 2, true, 0, 1⟩, ⟨0x377, 1, false, 0, 1⟩, ⟨0x37b, 3, false, 130, 0⟩,
    ⟨0x3ac, 1, false, 0, 38⟩, ⟨0x3ad, 3, false, 0, 37⟩, ⟨0x3b1, 17, false, 0, 32⟩, ⟨0x3c2, 1, false, 0, 31⟩,
    ⟨0x3c3, 9, false, 0, 32⟩, ⟨0x3cc, 1, false, 0, 64⟩, ⟨0x3cd, 2, false, 0, 63⟩, ⟨0x3d0, 1, false, 0, 62⟩,
    ⟨0x3d1, 1, false, 0, 57⟩, ⟨0x3d5, 1, false, 0, 47⟩]),
  (0x4c2, [⟨0x3d6, 1, false, 0, 54⟩, ⟨0x3d7, 1, false, 0, 8⟩, ⟨0x3d9, 12, true, 0, 1⟩, ⟨0x3f0, 1, false, 0, 86⟩,
    ⟨0x3f1, 1, false, 0, 80⟩, ⟨0x3f2, 1, false, 7, 0⟩, ⟨0x3f3, 1, false, 0, 116⟩, ⟨0x3f5, 1, false, 0, 96⟩,
    ⟨0x3f8, 1, false, 0, 1⟩, ⟨0x3fb, 1, false, 0, 1⟩, ⟨0x430, 32, false, 0, 32⟩, ⟨0x450, 16, false, 0, 80⟩,
    ⟨0x461, 17, true, 0, 1⟩, ⟨0x48b, 27, true, 0, 1⟩]),
  (0x1c88, [⟨0x4c2, 7, true, 0, 1⟩, ⟨0x4cf, 1, false, 0, 15⟩, ⟨0x4d1, 48, true, 0, 1⟩, ⟨0x561, 38, false, 0, 48⟩,
    ⟨0x10d0, 43, false, 3008, 0⟩, ⟨0x10fd, 3, false, 3008, 0⟩, ⟨0x13f8, 6, false, 0, 8⟩, ⟨0x1c80, 1, false, 0, 6254⟩,
    ⟨0x1c81, 1, false, 0, 6253⟩, ⟨0x1c82, 1, false, 0, 6244⟩, ⟨0x1c83, 2, false, 0, 6242⟩,
    ⟨0x1c85, 1, false, 0, 6243⟩, ⟨0x1c86, 1, false, 0, 6236⟩, ⟨0x1c87, 1, false, 0, 6181⟩]),
  (0x1f60, [⟨0x1c88, 1, false, 35266, 0⟩, ⟨0x1c8a, 1, false, 0, 1⟩, ⟨0x1d79, 1, false, 35332, 0⟩,
    ⟨0x1d7d, 1, false, 3814, 0⟩, ⟨0x1d8e, 1, false, 35384, 0⟩, ⟨0x1e01, 75, true, 0, 1⟩, ⟨0x1e9b, 1, false, 0, 59⟩,
    ⟨0x1ea1, 48, true, 0, 1⟩, ⟨0x1f00, 8, false, 8, 0⟩, ⟨0x1f10, 6, false, 8, 0⟩, ⟨0x1f20, 8, false, 8, 0⟩,
    ⟨0x1f30, 8, false, 8, 0⟩, ⟨0x1f40, 6, false, 8, 0⟩, ⟨0x1f51, 4, true, 8, 0⟩]),
  (0x1fd0, [⟨0x1f60, 8, false, 8, 0⟩, ⟨0x1f70, 2, false, 74, 0⟩, ⟨0x1f72, 4, false, 86, 0⟩,
    ⟨0x1f76, 2, false, 100, 0⟩, ⟨0x1f78, 2, false, 128, 0⟩, ⟨0x1f7a, 2, false, 112, 0⟩, ⟨0x1f7c, 2, false, 126, 0⟩,
    ⟨0x1f80, 8, false, 8, 0⟩, ⟨0x1f90, 8, false, 8, 0⟩, ⟨0x1fa0, 8, false, 8, 0⟩, ⟨0x1fb0, 2, false, 8, 0⟩,
    ⟨0x1fb3, 1, false, 9, 0⟩, ⟨0x1fbe, 1, false, 0, 7205⟩, ⟨0x1fc3, 1, false, 9, 0⟩]),
  (0x2c76, [⟨0x1fd0, 2, false, 8, 0⟩, ⟨0x1fe0, 2, false, 8, 0⟩, ⟨0x1fe5, 1, false, 7, 0⟩, ⟨0x1ff3, 1, false, 9, 0⟩,
    ⟨0x214e, 1, false, 0, 28⟩, ⟨0x2170, 16, false, 0, 16⟩, ⟨0x2184, 1, false, 0, 1⟩, ⟨0x24d0, 26, false, 0, 26⟩,
    ⟨0x2c30, 48, false, 0, 48⟩, ⟨0x2c61, 1, false, 0, 1⟩, ⟨0x2c65, 1, false, 0, 10795⟩, ⟨0x2c66, 1, false, 0, 10792⟩,
    ⟨0x2c68, 3, true, 0, 1⟩, ⟨0x2c73, 1, false, 0, 1⟩]),
  (0xa791, [⟨0x2c76, 1, false, 0, 1⟩, ⟨0x2c81, 50, true, 0, 1⟩, ⟨0x2cec, 2, true, 0, 1⟩, ⟨0x2cf3, 1, false, 0, 1⟩,
    ⟨0x2d00, 38, false, 0, 7264⟩, ⟨0x2d27, 1, false, 0, 7264⟩, ⟨0x2d2d, 1, false, 0, 7264⟩, ⟨0xa641, 23, true, 0, 1⟩,
    ⟨0xa681, 14, true, 0, 1⟩, ⟨0xa723, 7, true, 0, 1⟩, ⟨0xa733, 31, true, 0, 1⟩, ⟨0xa77a, 2, true, 0, 1⟩,
    ⟨0xa77f, 5, true, 0, 1⟩, ⟨0xa78c, 1, false, 0, 1⟩]),
  (0x10597, [⟨0xa791, 2, true, 0, 1⟩, ⟨0xa794, 1, false, 48, 0⟩, ⟨0xa797, 10, true, 0, 1⟩, ⟨0xa7b5, 8, true, 0, 1⟩,
    ⟨0xa7c8, 2, true, 0, 1⟩, ⟨0xa7cd, 1, false, 0, 1⟩, ⟨0xa7d1, 1, false, 0, 1⟩, ⟨0xa7d7, 3, true, 0, 1⟩,
    ⟨0xa7f6, 1, false, 0, 1⟩, ⟨0xab53, 1, false, 0, 928⟩, ⟨0xab70, 80, false, 0, 38864⟩, ⟨0xff41, 26, false, 0, 32⟩,
    ⟨0x10428, 40, false, 0, 40⟩, ⟨0x104d8, 36, false, 0, 40⟩]),
  (0x110000, [⟨0x10597, 11, false, 0, 39⟩, ⟨0x105a3, 15, false, 0, 39⟩, ⟨0x105b3, 7, false, 0, 39⟩,
    ⟨0x105bb, 2, false, 0, 39⟩, ⟨0x10cc0, 51, false, 0, 64⟩, ⟨0x10d70, 22, false, 0, 32⟩,
    ⟨0x118c0, 32, false, 0, 32⟩, ⟨0x16e60, 32, false, 0, 32⟩, ⟨0x1e922, 34, false, 0, 34⟩])]

/-- Simple_Titlecase_Mapping in blocks, in groups: all code points of a group are below its number, those of the later groups not -/
def titleGroups : List (Nat × List CasePiece) := [
  (0x188, [⟨0x61, 26, false, 0, 32⟩, ⟨0xb5, 1, false, 743, 0⟩, ⟨0xe0, 23, false, 0, 32⟩, ⟨0xf8, 7, false, 0, 32⟩,
    ⟨0xff, 1, false, 121, 0⟩, ⟨0x101, 24, true, 0, 1⟩, ⟨0x131, 1, false, 0, 232⟩, ⟨0x133, 3, true, 0, 1⟩,
    ⟨0x13a, 8, true, 0, 1⟩, ⟨0x14b, 23, true, 0, 1⟩, ⟨0x17a, 3, true, 0, 1⟩, ⟨0x17f, 1, false, 0, 300⟩,
    ⟨0x180, 1, false, 195, 0⟩, ⟨0x183, 2, true, 0, 1⟩]),
  (0x1bd, [⟨0x188, 1, false, 0, 1⟩, ⟨0x18c, 1, false, 0, 1⟩, ⟨0x192, 1, false, 0, 1⟩, ⟨0x195, 1, false, 97, 0⟩,
    ⟨0x199, 1, false, 0, 1⟩, ⟨0x19a, 1, false, 163, 0⟩, ⟨0x19b, 1, false, 42561, 0⟩, ⟨0x19e, 1, false, 130, 0⟩,
    ⟨0x1a1, 3, true, 0, 1⟩, ⟨0x1a8, 1, false, 0, 1⟩, ⟨0x1ad, 1, false, 0, 1⟩, ⟨0x1b0, 1, false, 0, 1⟩,
    ⟨0x1b4, 2, true, 0, 1⟩, ⟨0x1b9, 1, false, 0, 1⟩]),
  (0x1f2, [⟨0x1bd, 1, false, 0, 1⟩, ⟨0x1bf, 1, false, 56, 0⟩, ⟨0x1c4, 1, false, 1, 0⟩, ⟨0x1c5, 1, false, 0, 0⟩,
    ⟨0x1c6, 1, false, 0, 1⟩, ⟨0x1c7, 1, false, 1, 0⟩, ⟨0x1c8, 1, false, 0, 0⟩, ⟨0x1c9, 1, false, 0, 1⟩,
    ⟨0x1ca, 1, false, 1, 0⟩, ⟨0x1cb, 1, false, 0, 0⟩, ⟨0x1cc, 9, true, 0, 1⟩, ⟨0x1dd, 1, false, 0, 79⟩,
    ⟨0x1df, 9, true, 0, 1⟩, ⟨0x1f1, 1, false, 1, 0⟩]),
  (0x259, [⟨0x1f2, 1, false, 0, 0⟩, ⟨0x1f3, 2, true, 0, 1⟩, ⟨0x1f9, 20, true, 0, 1⟩, ⟨0x223, 9, true, 0, 1⟩,
    ⟨0x23c, 1, false, 0, 1⟩, ⟨0x23f, 2, false, 10815, 0⟩, ⟨0x242, 1, false, 0, 1⟩, ⟨0x247, 5, true, 0, 1⟩,
    ⟨0x250, 1, false, 10783, 0⟩, ⟨0x251, 1, false, 10780, 0⟩, ⟨0x252, 1, false, 10782, 0⟩, ⟨0x253, 1, false, 0, 210⟩,
    ⟨0x254, 1, false, 0, 206⟩, ⟨0x256, 2, false, 0, 205⟩]),
  (0x26f, [⟨0x259, 1, false, 0, 202⟩, ⟨0x25b, 1, false, 0, 203⟩, ⟨0x25c, 1, false, 42319, 0⟩,
    ⟨0x260, 1, false, 0, 205⟩, ⟨0x261, 1, false, 42315, 0⟩, ⟨0x263, 1, false, 0, 207⟩, ⟨0x264, 1, false, 42343, 0⟩,
    ⟨0x265, 1, false, 42280, 0⟩, ⟨0x266, 1, false, 42308, 0⟩, ⟨0x268, 1, false, 0, 209⟩, ⟨0x269, 1, false, 0, 211⟩,
    ⟨0x26a, 1, false, 42308, 0⟩, ⟨0x26b, 1, false, 10743, 0⟩, ⟨0x26c, 1, false, 42305, 0⟩]),
  (0x29d, [⟨0x26f, 1, false, 0, 211⟩, ⟨0x271, 1, false, 10749, 0⟩, ⟨0x272, 1, false, 0, 213⟩,
    ⟨0x275, 1, false, 0, 214⟩, ⟨0x27d, 1, false, 10727, 0⟩, ⟨0x280, 1, false, 0, 218⟩, ⟨0x282, 1, false, 42307, 0⟩,
    ⟨0x283, 1, false, 0, 218⟩, ⟨0x287, 1, false, 42282, 0⟩, ⟨0x288, 1, false, 0, 218⟩, ⟨0x289, 1, false, 0, 69⟩,
    ⟨0x28a, 2, false, 0, 217⟩, ⟨0x28c, 1, false, 0, 71⟩, ⟨0x292, 1, false, 0, 219⟩]),
  (0x3d1, [⟨0x29d, 1, false, 42261, 0⟩, ⟨0x29e, 1, false, 42258, 0⟩, ⟨0x345, 1, false, 84, 0⟩,
    ⟨0x371, 2, true, 0, 1⟩, ⟨0x377, 1, false, 0, 1⟩, ⟨0x37b, 3, false, 130, 0⟩, ⟨0x3ac, 1, false, 0, 38⟩,
    ⟨0x3ad, 3, false, 0, 37⟩, ⟨0x3b1, 17, false, 0, 32⟩, ⟨0x3c2, 1, false, 0, 31⟩, ⟨0x3c3, 9, false, 0, 32⟩,
    ⟨0x3cc, 1, false, 0, 64⟩, ⟨0x3cd, 2, false, 0, 63⟩, ⟨0x3d0, 1, false, 0, 62⟩]),
  (0x461, [⟨0x3d1, 1, false, 0, 57⟩, ⟨0x3d5, 1, false, 0, 47⟩, ⟨0x3d6, 1, false, 0, 54⟩, ⟨0x3d7, 1, false, 0, 8⟩,
    ⟨0x3d9, 12, true, 0, 1⟩, ⟨0x3f0, 1, false, 0, 86⟩, ⟨0x3f1, 1, false, 0, 80⟩, ⟨0x3f2, 1, false, 7, 0⟩,
    ⟨0x3f3, 1, false, 0, 116⟩, ⟨0x3f5, 1, false, 0, 96⟩, ⟨0x3f8, 1, false, 0, 1⟩, ⟨0x3fb, 1, false, 0, 1⟩,
    ⟨0x430, 32, false, 0, 32⟩, ⟨0x450, 16, false, 0, 80⟩]),
  (0x1c86, [⟨0x461, 17, true, 0, 1⟩, ⟨0x48b, 27, true, 0, 1⟩, ⟨0x4c2, 7, true, 0, 1⟩, ⟨0x4cf, 1, false, 0, 15⟩,
    ⟨0x4d1, 48, true, 0, 1⟩, ⟨0x561, 38, false, 0, 48⟩, ⟨0x10d0, 43, false, 0, 0⟩, ⟨0x10fd, 3, false, 0, 0⟩,
    ⟨0x13f8, 6, false, 0, 8⟩, ⟨0x1c80, 1, false, 0, 6254⟩, ⟨0x1c81, 1, false, 0, 6253⟩, ⟨0x1c82, 1, false, 0, 6244⟩,
    ⟨0x1c83, 2, false, 0, 6242⟩, ⟨0x1c85, 1, false, 0, 6243⟩]),
  (0x1f40, [⟨0x1c86, 1, false, 0, 6236⟩, ⟨0x1c87, 1, false, 0, 6181⟩, ⟨0x1c88, 1, false, 35266, 0⟩,
    ⟨0x1c8a, 1, false, 0, 1⟩, ⟨0x1d79, 1, false, 35332, 0⟩, ⟨0x1d7d, 1, false, 3814, 0⟩,
    ⟨0x1d8e, 1, false, 35384, 0⟩, ⟨0x1e01, 75, true, 0, 1⟩, ⟨0x1e9b, 1, false, 0, 59⟩, ⟨0x1ea1, 48, true, 0, 1⟩,
    ⟨0x1f00, 8, false, 8, 0⟩, ⟨0x1f10, 6, false, 8, 0⟩, ⟨0x1f20, 8, false, 8, 0⟩, ⟨0x1f30, 8, false, 8, 0⟩]),
  (0x1fbe, [⟨0x1f40, 6, false, 8, 0⟩, ⟨0x1f51, 4, true, 8, 0⟩, ⟨0x1f60, 8, false, 8, 0⟩, ⟨0x1f70, 2, false, 74, 0⟩,
    ⟨0x1f72, 4, false, 86, 0⟩, ⟨0x1f76, 2, false, 100, 0⟩, ⟨0x1f78, 2, false, 128, 0⟩, ⟨0x1f7a, 2, false, 112, 0⟩,
    ⟨0x1f7c, 2, false, 126, 0⟩, ⟨0x1f80, 8, false, 8, 0⟩, ⟨0x1f90, 8, false, 8, 0⟩, ⟨0x1fa0, 8, false, 8, 0⟩,
    ⟨0x1fb0, 2, false, 8, 0⟩, ⟨0x1fb3, 1, false, 9, 0⟩]),
  (0x2c68, [⟨0x1fbe, 1, false, 0, 7205⟩, ⟨0x1fc3, 1, false, 9, 0⟩, ⟨0x1fd0, 2, false, 8, 0⟩,
    ⟨0x1fe0, 2, false, 8, 0⟩, ⟨0x1fe5, 1, false, 7, 0⟩, ⟨0x1ff3, 1, false, 9, 0⟩, ⟨0x214e, 1, false, 0, 28⟩,
    ⟨0x2170, 16, false, 0, 16⟩, ⟨0x2184, 1, false, 0, 1⟩, ⟨0x24d0, 26, false, 0, 26⟩, ⟨0x2c30, 48, false, 0, 48⟩,
    ⟨0x2c61, 1, false, 0, 1⟩, ⟨0x2c65, 1, false, 0, 10795⟩, ⟨0x2c66, 1, false, 0, 10792⟩]),
  (0xa77f, [⟨0x2c68, 3, true, 0, 1⟩, ⟨0x2c73, 1, false, 0, 1⟩, ⟨0x2c76, 1, false, 0, 1⟩, ⟨0x2c81, 50, true, 0, 1⟩,
    ⟨0x2cec, 2, true, 0, 1⟩, ⟨0x2cf3, 1, false, 0, 1⟩, ⟨0x2d00, 38, false, 0, 7264⟩, ⟨0x2d27, 1, false, 0, 7264⟩,
    ⟨0x2d2d, 1, false, 0, 7264⟩, ⟨0xa641, 23, true, 0, 1⟩, ⟨0xa681, 14, true, 0, 1⟩, ⟨0xa723, 7, true, 0, 1⟩,
    ⟨0xa733, 31, true, 0, 1⟩, ⟨0xa77a, 2, true, 0, 1⟩]),
  (0x10428, [⟨0xa77f, 5, true, 0, 1⟩, ⟨0xa78c, 1, false, 0, 1⟩, ⟨0xa791, 2, true, 0, 1⟩, ⟨0xa794, 1, false, 48, 0⟩,
    ⟨0xa797, 10, true, 0, 1⟩, ⟨0xa7b5, 8, true, 0, 1⟩, ⟨0xa7c8, 2, true, 0, 1⟩, ⟨0xa7cd, 1, false, 0, 1⟩,
    ⟨0xa7d1, 1, false, 0, 1⟩, ⟨0xa7d7, 3, true, 0, 1⟩, ⟨0xa7f6, 1, false, 0, 1⟩, ⟨0xab53, 1, false, 0, 928⟩,
    ⟨0xab70, 80, false, 0, 38864⟩, ⟨0xff41, 26, false, 0, 32⟩]),
  (0x110000, [⟨0x10428, 40, false, 0, 40⟩, ⟨0x104d8, 36, false, 0, 40⟩, ⟨0x10597, 11, false, 0, 39⟩,
    ⟨0x105a3, 15, false, 0, 39⟩, ⟨0x105b3, 7, false, 0, 39⟩, ⟨0x105bb, 2, false, 0, 39⟩, ⟨0x10cc0, 51, false, 0, 64⟩,
    ⟨0x10d70, 22, false, 0, 32⟩, ⟨0x118c0, 32, false, 0, 32⟩, ⟨0x16e60, 32, false, 0, 32⟩,
    ⟨0x1e922, 34, false, 0, 34⟩])]

theorem lowerGroups_ok : groupsOK lowerGroups = true := by decide +kernel
theorem lowerGroups_rows : UD_LOWER = casePiecesRows (lowerGroups.flatMap (·.2)) := by decide +kernel
theorem lowerGroups_eq (c : Nat) : simpleLower c = caseGroupOf lowerGroups c := by
  rw [simpleLower, lowerGroups_rows, casePieceOf_lookup, caseGroupOf_eq _ lowerGroups_ok]
theorem upperGroups_ok : groupsOK upperGroups = true := by decide +kernel
theorem upperGroups_rows : UD_UPPER = casePiecesRows (upperGroups.flatMap (·.2)) := by decide +kernel
theorem upperGroups_eq (c : Nat) : simpleUpper c = caseGroupOf upperGroups c := by
  rw [simpleUpper, upperGroups_rows, casePieceOf_lookup, caseGroupOf_eq _ upperGroups_ok]
theorem titleGroups_ok : groupsOK titleGroups = true := by decide +kernel
theorem titleGroups_rows : UD_TITLE = casePiecesRows (titleGroups.flatMap (·.2)) := by decide +kernel
theorem titleGroups_eq (c : Nat) : simpleTitle c = caseGroupOf titleGroups c := by
  rw [simpleTitle, titleGroups_rows, casePieceOf_lookup, caseGroupOf_eq _ titleGroups_ok]

/-- a check of a long list in four parts (each needs less memory) -/
theorem all_parts {α : Type} (l : List α) (f : α → Bool) (n : Nat) (h1 : (l.take n).all f = true)
    (h2 : ((l.drop n).take n).all f = true) (h3 : (((l.drop n).drop n).take n).all f = true)
    (h4 : (((l.drop n).drop n).drop n).all f = true) : l.all f = true := by
  rw [← List.take_append_drop n l, List.all_append, h1, ← List.take_append_drop n (l.drop n), List.all_append, h2,
    ← List.take_append_drop n ((l.drop n).drop n), List.all_append, h3, h4]
  rfl

end Ystring
