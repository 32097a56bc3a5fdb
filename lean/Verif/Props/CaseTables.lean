import Verif.Props.CaseLaws
import Verif.Spec.Words
import Verif.Proofs.ClassPieces
import Verif.Proofs.CasePieces
/-
Facts about Unicode's case mappings, checked on the tables (for C103).
-/
namespace Ystring
open Spec

/-! ### Facts about the mappings, checked on the tables -/

/-- a law of two functions of a code point, from its check on a table and on the exceptions -/
theorem tbl_law (l : List (Nat × Nat)) (f : Nat → Nat → Bool) (E : List Nat)
    (h1 : l.all (fun p => f p.1 p.2 || E.elem p.1) = true) (h0 : ∀ c, f c c = true)
    (h2 : E.all (fun c => !f c (lookup l c)) = true) (c : Nat) : f c (lookup l c) = true ↔ c ∉ E := by
  constructor
  · intro h hm
    have := List.all_eq_true.mp h2 c hm
    rw [h] at this
    exact absurd this (by decide)
  · intro hn
    refine lookup_prop l (fun c v => c ∉ E → f c v = true) ?_ c (fun _ => h0 c) hn
    intro p hp hn
    have := List.all_eq_true.mp h1 p hp
    rw [Bool.or_eq_true] at this
    exact this.elim id (fun h => absurd (List.elem_iff.mp h) hn)

def mkhedruliList : List Nat := (List.range' 0x10D0 43) ++ [0x10FD, 0x10FE, 0x10FF]
def mtavruliList : List Nat := (List.range' 0x1C90 43) ++ [0x1CBD, 0x1CBE, 0x1CBF]

theorem mem_mkhedruli (c : Nat) : c ∈ mkhedruliList ↔ Mkhedruli c := by
  simp only [mkhedruliList, Mkhedruli, List.mem_append, List.mem_range'_1, List.mem_cons, List.not_mem_nil, or_false]
  omega
theorem mem_mtavruli (c : Nat) : c ∈ mtavruliList ↔ Mtavruli c := by
  simp only [mtavruliList, Mtavruli, List.mem_append, List.mem_range'_1, List.mem_cons, List.not_mem_nil, or_false]
  omega

/-- the check of `lower_upper_iff` on a row -/
def luRow (p : Nat × Nat) : Bool :=
  Nat.beq (caseGroupOf lowerGroups p.2) (caseGroupOf lowerGroups p.1) || NoWayBackFromUpper.elem p.1
theorem lu_tbl1 : (UD_UPPER.take 370).all luRow = true := by decide +kernel
theorem lu_tbl2 : ((UD_UPPER.drop 370).take 370).all luRow = true := by decide +kernel
theorem lu_tbl3 : (((UD_UPPER.drop 370).drop 370).take 370).all luRow = true := by decide +kernel
theorem lu_tbl4 : (((UD_UPPER.drop 370).drop 370).drop 370).all luRow = true := by decide +kernel
theorem lu_tbl : UD_UPPER.all luRow = true := all_parts _ _ 370 lu_tbl1 lu_tbl2 lu_tbl3 lu_tbl4

theorem exc_tbl : NoWayBackFromUpper.all (fun c => !Nat.beq (caseGroupOf lowerGroups (caseGroupOf upperGroups c)) (caseGroupOf lowerGroups c)) = true := by
  decide +kernel

theorem beq_iff (a b : Nat) : Nat.beq a b = true ↔ a = b :=
  ⟨Nat.eq_of_beq_eq_true, fun h => by rw [h, Nat.beq_refl]⟩

theorem lower_upper_iff (c : Nat) : simpleLower (simpleUpper c) = simpleLower c ↔ c ∉ NoWayBackFromUpper := by
  have := tbl_law UD_UPPER (fun c v => Nat.beq (caseGroupOf lowerGroups v) (caseGroupOf lowerGroups c)) _ lu_tbl (fun c => Nat.beq_refl _)
    (by have := exc_tbl; simp only [← upperGroups_eq] at this; exact this) c
  rwa [beq_iff, ← lowerGroups_eq, ← lowerGroups_eq] at this

/-- no title case is one of these code points, except their own -/
theorem title_nwb_tbl : NoWayBackFromUpper.all (fun c => UD_TITLE.all (fun p => !Nat.beq p.2 c)) = true := by decide +kernel

theorem title_nwb {c : Nat} (h : simpleTitle c ∈ NoWayBackFromUpper) : simpleTitle c = c := by
  have h1 := List.all_eq_true.mp title_nwb_tbl _ h
  unfold simpleTitle lookup at h1 ⊢
  split
  · rename_i p hp
    simp only [hp] at h1
    have := List.all_eq_true.mp h1 p (List.mem_of_find?_eq_some hp)
    rw [Nat.beq_refl] at this
    exact absurd this (by decide)
  · rfl

theorem nwb_title : NoWayBackFromUpper.all (fun c => Nat.beq (caseGroupOf titleGroups c) (caseGroupOf upperGroups c)) = true := by
  decide +kernel

theorem lower_title_iff (c : Nat) : simpleLower (simpleTitle c) = simpleLower c ↔ c ∉ NoWayBackFromUpper := by
  by_cases h : c ∈ NoWayBackFromUpper
  · have := List.all_eq_true.mp nwb_title c h
    rw [beq_iff, ← titleGroups_eq, ← upperGroups_eq] at this
    rw [this]
    exact lower_upper_iff c
  · refine ⟨fun _ => h, fun _ => ?_⟩
    by_cases ht : simpleTitle c ∈ NoWayBackFromUpper
    · rw [title_nwb ht]
    · rw [← (lower_upper_iff _).mpr ht, simpleUpper_simpleTitle]
      exact (lower_upper_iff c).mpr h

/-- code points whose title case may differ from their upper case: the digraphs Ǆ Ǉ Ǌ Ǳ and Georgian -/
def titleApart (c : Nat) : Bool := Nat.ble 0x1C4 c && (Nat.ble c 0x1CC || (Nat.ble 0x1F1 c && (Nat.ble c 0x1F3 ||
  (Nat.ble 0x10D0 c && Nat.ble c 0x10FF))))

theorem title_rows : (UD_TITLE.filter fun p => !titleApart p.1) = (UD_UPPER.filter fun p => !titleApart p.1) := by decide +kernel

theorem find_filter (l : List (Nat × Nat)) (c : Nat) (h : titleApart c = false) :
    (l.filter fun p => !titleApart p.1).find? (fun p => p.1 == c) = l.find? (fun p => p.1 == c) := by
  rw [List.find?_filter]
  congr 1
  funext p
  by_cases hp : p.1 = c
  · simp [hp, h]
  · simp [hp]

theorem title_eq_upper {c : Nat} (h : titleApart c = false) : simpleTitle c = simpleUpper c := by
  unfold simpleTitle simpleUpper lookup
  rw [← find_filter UD_TITLE c h, title_rows, find_filter UD_UPPER c h]

/-- all of them -/
def apartList : List Nat := List.range' 0x1C4 9 ++ List.range' 0x1F1 3 ++ List.range' 0x10D0 48

theorem mem_apart (c : Nat) : titleApart c = true ↔ c ∈ apartList := by
  simp only [titleApart, apartList, Bool.and_eq_true, Bool.or_eq_true, Nat.ble_eq, List.mem_append, List.mem_range'_1]
  omega

/-- what remains to be checked one by one: these and the code points that have one of them as lower or upper case -/
theorem apart_preimages : UD_LOWER.all (fun p => !titleApart p.2 || titleApart p.1 || mtavruliList.elem p.1) = true ∧
    UD_UPPER.all (fun p => !titleApart p.2 || titleApart p.1) = true := by decide +kernel

theorem apart_checks :
    (apartList ++ mtavruliList ++ NoWayBackFromLower).all (fun c =>
      Nat.beq (caseGroupOf titleGroups (caseGroupOf lowerGroups c)) (caseGroupOf titleGroups c) ==
        !(NoWayBackFromLower ++ mtavruliList).elem c) = true ∧
    apartList.all (fun c => Nat.beq (caseGroupOf titleGroups (caseGroupOf upperGroups c)) (caseGroupOf titleGroups c) ==
        !mkhedruliList.elem c) = true ∧
    mkhedruliList.all titleApart = true := by decide +kernel

theorem title_lower_iff (c : Nat) :
    simpleTitle (simpleLower c) = simpleTitle c ↔ c ∉ NoWayBackFromLower ∧ ¬ Mtavruli c := by
  rw [← mem_mtavruli, ← not_or, ← List.mem_append]
  by_cases h : c ∈ apartList ++ mtavruliList ++ NoWayBackFromLower
  · have := List.all_eq_true.mp apart_checks.1 c h
    rw [← lowerGroups_eq, ← titleGroups_eq, ← titleGroups_eq, beq_iff_eq] at this
    rw [← beq_iff, this, Bool.not_eq_true', ← Bool.not_eq_true, List.elem_iff]
  · simp only [List.mem_append, not_or] at h
    obtain ⟨⟨h1, h2⟩, h3⟩ := h
    have ha : titleApart c = false := by
      rw [← Bool.not_eq_true, mem_apart]; exact h1
    refine ⟨fun _ => by simp [h2, h3], fun _ => ?_⟩
    have hl : titleApart (simpleLower c) = false := by
      refine lookup_prop UD_LOWER (fun c v => titleApart c = false → c ∉ mtavruliList → titleApart v = false) ?_ c
        (fun h _ => h) ha h2
      intro p hp e1 e2
      have := List.all_eq_true.mp apart_preimages.1 p hp
      rw [e1] at this
      simp only [Bool.or_false, Bool.or_eq_true, Bool.not_eq_true', List.elem_iff] at this
      exact this.resolve_right e2
    rw [title_eq_upper hl, title_eq_upper ha]
    exact (simpleUpper_simpleLower c).mpr h3

theorem title_upper_iff (c : Nat) : simpleTitle (simpleUpper c) = simpleTitle c ↔ ¬ Mkhedruli c := by
  rw [← mem_mkhedruli]
  cases ha : titleApart c
  · have hn : c ∉ mkhedruliList := by
      intro h
      rw [List.all_eq_true.mp apart_checks.2.2 c h] at ha
      cases ha
    refine ⟨fun _ => hn, fun _ => ?_⟩
    have hl : titleApart (simpleUpper c) = false := by
      refine lookup_prop UD_UPPER (fun c v => titleApart c = false → titleApart v = false) ?_ c (fun h => h) ha
      intro p hp e1
      have := List.all_eq_true.mp apart_preimages.2 p hp
      rw [e1] at this
      simpa using this
    rw [title_eq_upper hl, title_eq_upper ha, simpleUpper_idem]
  · have := List.all_eq_true.mp apart_checks.2.1 c ((mem_apart c).mp ha)
    rw [← upperGroups_eq, ← titleGroups_eq, ← titleGroups_eq, beq_iff_eq] at this
    rw [← beq_iff, this, Bool.not_eq_true', ← Bool.not_eq_true, List.elem_iff]

/-! ### Letters stay letters -/

/-- both letters or both not, according to the pieces -/
def sameLetter (a b : Nat) : Bool :=
  match pieceOf letterPieces a, pieceOf letterPieces b with
  | some true, some true => true
  | some false, some false => true
  | _, _ => false

theorem sameLetter_correct {a b : Nat} (h : sameLetter a b = true) : isLetter (UInt32.ofNat a) = isLetter (UInt32.ofNat b) := by
  unfold sameLetter at h
  split at h
  · rename_i h1 h2; rw [letterPieces_correct h1, letterPieces_correct h2]
  · rename_i h1 h2; rw [letterPieces_correct h1, letterPieces_correct h2]
  · cases h

/-- the check of `letter_upper_tbl` on a row -/
def letterRow (p : Nat × Nat) : Bool := sameLetter p.1 p.2 || Nat.beq p.1 0x345
theorem letter_upper1 : (UD_UPPER.take 370).all letterRow = true := by decide +kernel
theorem letter_upper2 : ((UD_UPPER.drop 370).take 370).all letterRow = true := by decide +kernel
theorem letter_upper3 : (((UD_UPPER.drop 370).drop 370).take 370).all letterRow = true := by decide +kernel
theorem letter_upper4 : (((UD_UPPER.drop 370).drop 370).drop 370).all letterRow = true := by decide +kernel
theorem letter_upper_fast : UD_UPPER.all letterRow = true :=
  all_parts _ _ 370 letter_upper1 letter_upper2 letter_upper3 letter_upper4

/-- a letter has a letter as its upper case, and only U+0345 becomes one -/
theorem letter_upper_tbl : UD_UPPER.all (fun p => (isLetter (UInt32.ofNat p.1) == isLetter (UInt32.ofNat p.2)) || [0x345].elem p.1) = true := by
  rw [List.all_eq_true]
  intro p hp
  have := List.all_eq_true.mp letter_upper_fast p hp
  simp only [letterRow, Bool.or_eq_true, beq_iff_eq] at this ⊢
  rcases this with h | h
  · exact .inl (sameLetter_correct h)
  · exact .inr (by rw [Nat.eq_of_beq_eq_true h]; rfl)
theorem letter_exc : [0x345].all (fun c => !(isLetter (UInt32.ofNat c) == isLetter (UInt32.ofNat (caseGroupOf upperGroups c)))) = true := by
  decide +kernel
theorem iota_tbls : UD_TITLE.all (fun p => !Nat.beq p.2 0x345) = true ∧ UD_LOWER.all (fun p => !Nat.beq p.2 0x345) = true := by
  decide +kernel
theorem letter_low6 : NoWayBackFromLower.all (fun c => isLetter (UInt32.ofNat (caseGroupOf lowerGroups c)) == isLetter (UInt32.ofNat c)) = true := by
  decide +kernel

theorem letterN_upper (c : Nat) :
    isLetter (UInt32.ofNat c) = isLetter (UInt32.ofNat (simpleUpper c)) ↔ c ∉ [0x345] := by
  have := tbl_law UD_UPPER (fun c v => isLetter (UInt32.ofNat c) == isLetter (UInt32.ofNat v)) _ letter_upper_tbl
    (fun c => beq_self_eq_true _) (by have := letter_exc; simp only [← upperGroups_eq] at this; exact this) c
  rwa [beq_iff_eq] at this

theorem iota_title {c : Nat} (h : c ≠ 0x345) : simpleTitle c ≠ 0x345 := by
  refine lookup_prop UD_TITLE (fun c v => c ≠ 0x345 → v ≠ 0x345) ?_ c (fun h => h) h
  intro p hp _ e
  have := List.all_eq_true.mp iota_tbls.1 p hp
  rw [e] at this
  exact absurd this (by decide)
theorem iota_lower {c : Nat} (h : c ≠ 0x345) : simpleLower c ≠ 0x345 := by
  refine lookup_prop UD_LOWER (fun c v => c ≠ 0x345 → v ≠ 0x345) ?_ c (fun h => h) h
  intro p hp _ e
  have := List.all_eq_true.mp iota_tbls.2 p hp
  rw [e] at this
  exact absurd this (by decide)

theorem ofNat_eq {d : Char32} {n : Nat} (h : d.toNat = n) : UInt32.ofNat n = d := by rw [← h, UInt32.ofNat_toNat]

theorem letter_upper (c : Char32) (h : c.toNat ≠ 0x345) : isLetter (toUpperChar c) = isLetter c := by
  have := (letterN_upper c.toNat).mpr (by simpa using h)
  rw [ofNat_eq (C52_to_upper c), UInt32.ofNat_toNat] at this
  exact this.symm

theorem letter_iota : isLetter 0x345 = false ∧ toTitleChar 0x345 = 0x399 ∧ toLowerChar 0x345 = 0x345 ∧
    toUpperChar 0x345 = 0x399 ∧ toLowerChar 0x399 = 0x3B9 ∧ toTitleChar 0x399 = 0x399 ∧ isLetter 0x399 = true := by decide +kernel

theorem eq_iota (c : Char32) : c.toNat = 0x345 ↔ c = 0x345 := by
  rw [← UInt32.toNat_inj]; rfl

/-- the title case of a letter is a letter -/
theorem letter_title (c : Char32) (h : isLetter c = true) : isLetter (toTitleChar c) = true := by
  have h0 : c.toNat ≠ 0x345 := by
    intro e
    rw [(eq_iota c).mp e, letter_iota.1] at h
    exact absurd h (by decide)
  have e : toUpperChar (toTitleChar c) = toUpperChar c := by
    apply UInt32.toNat_inj.mp
    rw [C52_to_upper, C52_to_title, C52_to_upper, simpleUpper_simpleTitle]
  have h1 := letter_upper (toTitleChar c) (by rw [C52_to_title]; exact iota_title h0)
  rw [e, letter_upper c h0, h] at h1
  exact h1.symm

/-- the lower case of a code point is a letter iff the code point is -/
theorem letter_lower (c : Char32) : isLetter (toLowerChar c) = isLetter c := by
  by_cases h6 : c.toNat ∈ NoWayBackFromLower
  · have := List.all_eq_true.mp letter_low6 _ h6
    rw [← lowerGroups_eq, ofNat_eq (C52_to_lower c), UInt32.ofNat_toNat, beq_iff_eq] at this
    exact this
  · by_cases h0 : c.toNat = 0x345
    · rw [(eq_iota c).mp h0, letter_iota.2.2.1]
    · have e : toUpperChar (toLowerChar c) = toUpperChar c := by
        apply UInt32.toNat_inj.mp
        rw [C52_to_upper, C52_to_lower, C52_to_upper]
        exact (simpleUpper_simpleLower _).mpr h6
      have h1 := letter_upper (toLowerChar c) (by rw [C52_to_lower]; exact iota_lower h0)
      rw [e, letter_upper c h0] at h1
      exact h1.symm

end Ystring
