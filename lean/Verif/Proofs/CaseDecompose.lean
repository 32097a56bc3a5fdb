import Verif.Spec.CaseDecompose
import Verif.Proofs.Normalize
import Verif.Proofs.CasePieces
import Verif.Proofs.CaseMarks
/- Case mappings and table decompositions. -/
namespace Ystring
open Spec

/-- the code points with four components whose upper case mapping, taken before or after decomposition, differs -/
def upperSplits4 : List Nat := [
  0x1F82, 0x1F83, 0x1F84, 0x1F85, 0x1F86, 0x1F87, 0x1F8A, 0x1F8B, 0x1F8C, 0x1F8D, 0x1F8E, 0x1F8F, 0x1F92, 0x1F93, 0x1F94, 0x1F95,
  0x1F96, 0x1F97, 0x1F9A, 0x1F9B, 0x1F9C, 0x1F9D, 0x1F9E, 0x1F9F, 0x1FA2, 0x1FA3, 0x1FA4, 0x1FA5, 0x1FA6, 0x1FA7, 0x1FAA, 0x1FAB,
  0x1FAC, 0x1FAD, 0x1FAE, 0x1FAF]

/-- two code points and a pair of them -/
def isPair (q : Option (Nat × Nat)) (b m : Nat) : Bool := match q with
  | some (x, y) => Nat.beq x b && Nat.beq y m
  | none => false

/-- the mapping `f` of the pair `c`, `b`, `m` is a pair again -/
def pairKept (f : Nat → Nat) (p : Nat × Nat × Nat) : Bool :=
  (Nat.beq (f p.1) p.1 && (Nat.beq (f p.2.1) p.2.1 && Nat.beq (f p.2.2) p.2.2)) || isPair (pairOf (f p.1)) (f p.2.1) (f p.2.2)

theorem pairs_lower : (let m := maskOf [0x130]
    UD_PAIRS.all (fun p => inMask m p.1 || (!inMask m p.2.1 && pairKept (caseGroupOf lowerGroups) p))) = true := by decide +kernel

theorem pairs_upper : (let m := maskOf (UpperSplits ++ upperSplits4)
    UD_PAIRS.all (fun p => inMask m p.1 || (!inMask m p.2.1 && pairKept (caseGroupOf upperGroups) p))) = true := by decide +kernel

theorem atoms_lower : (let m := pairMask; UD_LOWER.all (fun p => Nat.beq p.1 0x212B || inMask m p.1 || !inMask m p.2)) = true := by
  decide +kernel

theorem atoms_upper : (let m := pairMask; UD_UPPER.all (fun p => inMask m p.1 || !inMask m p.2)) = true := by
  decide +kernel

theorem pairs_no_DF : UD_PAIRS.all (fun p => !Nat.beq p.1 0xDF && !Nat.beq p.2.1 0xDF && !Nat.beq p.2.2 0xDF) = true := by decide +kernel

theorem upperSplits_differ : UpperSplits.all (fun c => !eqNats (chainOf (caseGroupOf upperGroups c)) ((chainOf c).map (caseGroupOf upperGroups)) &&
    Nat.beq (chainOf (caseGroupOf upperGroups c)).length (chainOf c).length) = true := by decide +kernel

theorem upperSplits4_four : upperSplits4.all (fun c => Nat.beq (chainOf c).length 4) = true := by decide +kernel

/-! ### The mappings and the chains -/

theorem chain_atom {c : Nat} (h : pairOf c = none) : chainOf c = [c] := ((Chain4.d0 h).unique).symm

theorem isPair_eq {q : Option (Nat × Nat)} {b m : Nat} (h : isPair q b m = true) : q = some (b, m) := by
  cases q with
  | none => cases h
  | some p =>
    obtain ⟨x, y⟩ := p
    simp only [isPair, Bool.and_eq_true, Nat.beq_eq] at h
    rw [h.1, h.2]

theorem pairKept_eq {f : Nat → Nat} {c b m : Nat} (hp : pairOf c = some (b, m)) (h : pairKept f (c, b, m) = true) :
    pairOf (f c) = some (f b, f m) := by
  rw [pairKept, Bool.or_eq_true] at h
  cases h with
  | inl h =>
    simp only [Bool.and_eq_true, Nat.beq_eq] at h
    rw [h.1, h.2.1, h.2.2, hp]
  | inr h => exact isPair_eq h

/-- a mapping that keeps pairs and atoms maps chains -/
theorem chain_map {f : Nat → Nat} {P : Nat → Prop}
    (hp : ∀ c b m, pairOf c = some (b, m) → P c → P b ∧ pairOf (f c) = some (f b, f m))
    (ha : ∀ c, pairOf c = none → P c → pairOf (f c) = none) {c : Nat} (h : P c) : chainOf (f c) = (chainOf c).map f := by
  generalize hl : chainOf c = l
  have hs := chainOf_spec c
  rw [hl] at hs
  cases hs with
  | d0 h0 => exact chain_atom (ha _ h0 h)
  | d1 h1 h0 =>
    obtain ⟨a1, a2⟩ := hp _ _ _ h1 h
    exact ((Chain4.d1 a2 (ha _ h0 a1)).unique).symm
  | d2 h1 h2 h0 =>
    obtain ⟨a1, a2⟩ := hp _ _ _ h1 h
    obtain ⟨b1, b2⟩ := hp _ _ _ h2 a1
    exact ((Chain4.d2 a2 b2 (ha _ h0 b1)).unique).symm
  | d3 h1 h2 h3 h0 =>
    obtain ⟨a1, a2⟩ := hp _ _ _ h1 h
    obtain ⟨b1, b2⟩ := hp _ _ _ h2 a1
    obtain ⟨c1, c2⟩ := hp _ _ _ h3 b1
    exact ((Chain4.d3 a2 b2 c2 (ha _ h0 c1)).unique).symm

theorem single_212B : singleOf 0x212B ≠ none := by decide +kernel

theorem chain_lower {c : Nat} (h : c ≠ 0x130 ∧ c ≠ 0x212B) : chainOf (simpleLower c) = (chainOf c).map simpleLower := by
  have e : simpleLower = caseGroupOf lowerGroups := funext lowerGroups_eq
  refine chain_map (P := fun c => c ≠ 0x130 ∧ c ≠ 0x212B) ?_ ?_ h
  · intro c b m hq hc
    have := List.all_eq_true.mp pairs_lower _ (pairOf_mem hq)
    simp only [Bool.or_eq_true, inMask_iff, Bool.and_eq_true, Bool.not_eq_true', List.mem_singleton] at this
    have := this.resolve_left hc.1
    refine ⟨⟨?_, ?_⟩, ?_⟩
    · intro hb
      have h1 := this.1
      rw [(inMask_iff [0x130] b).mpr (by simp [hb])] at h1
      cases h1
    · intro hb
      have := (pairOf_facts hq).bsingle
      rw [hb] at this
      exact single_212B this
    · rw [e]; exact pairKept_eq hq this.2
  · intro c hq hc
    cases lookup_cases UD_LOWER c with
    | inr hl => show pairOf (lookup UD_LOWER c) = none; rw [hl, hq]
    | inl hl =>
      have := List.all_eq_true.mp atoms_lower _ hl
      simp only [Bool.or_eq_true, Nat.beq_eq, Bool.not_eq_true', (pairMask_iff c).mpr hq] at this
      exact (pairMask_iff _).mp ((this.resolve_left (by simp [hc.2])))

theorem chain_upper' {c : Nat} (h : c ∉ UpperSplits ++ upperSplits4) : chainOf (simpleUpper c) = (chainOf c).map simpleUpper := by
  have e : simpleUpper = caseGroupOf upperGroups := funext upperGroups_eq
  refine chain_map (P := fun c => c ∉ UpperSplits ++ upperSplits4) ?_ ?_ h
  · intro c b m hq hc
    have := List.all_eq_true.mp pairs_upper _ (pairOf_mem hq)
    simp only [Bool.or_eq_true, inMask_iff, Bool.and_eq_true, Bool.not_eq_true'] at this
    have := this.resolve_left hc
    refine ⟨?_, ?_⟩
    · intro hb
      have h1 := this.1
      rw [(inMask_iff _ b).mpr hb] at h1
      cases h1
    · rw [e]; exact pairKept_eq hq this.2
  · intro c hq hc
    cases lookup_cases UD_UPPER c with
    | inr hl => show pairOf (lookup UD_UPPER c) = none; rw [hl, hq]
    | inl hl =>
      have := List.all_eq_true.mp atoms_upper _ hl
      simp only [Bool.or_eq_true, Bool.not_eq_true', (pairMask_iff c).mpr hq] at this
      exact (pairMask_iff _).mp (this.resolve_left (by simp))

theorem chain_upper {c : Nat} (h : c ∉ UpperSplits) (h4 : (chainOf c).length ≤ 3) :
    chainOf (simpleUpper c) = (chainOf c).map simpleUpper := by
  refine chain_upper' ?_
  · intro hc
    cases List.mem_append.mp hc with
    | inl hc => exact h hc
    | inr hc =>
      have := List.all_eq_true.mp upperSplits4_four _ hc
      rw [Nat.beq_eq] at this
      omega

/-- the mapped pieces of the exceptional letters -/
theorem upper_folds : (UpperSplits ++ upperSplits4).all (fun c => eqNats ((chainOf (caseGroupOf upperGroups c)).map (caseGroupOf upperGroups))
    ((chainOf c).map (caseGroupOf upperGroups))) = true := by decide +kernel

theorem eqNats_refl (l : List Nat) : eqNats l l = true := by
  induction l with
  | nil => rfl
  | cons a l ih => simp [eqNats, ih]

theorem chain_upper_length {c : Nat} (h4 : (chainOf c).length ≤ 3) : (chainOf (simpleUpper c)).length = (chainOf c).length := by
  by_cases h : c ∈ UpperSplits
  · have := List.all_eq_true.mp upperSplits_differ _ h
    rw [Bool.and_eq_true, Nat.beq_eq, ← upperGroups_eq] at this
    exact this.2
  · rw [chain_upper h h4, List.length_map]

theorem chain_upper_iff {c : Nat} (h4 : (chainOf c).length ≤ 3) :
    chainOf (simpleUpper c) = (chainOf c).map simpleUpper ↔ c ∉ UpperSplits := by
  refine ⟨fun e h => ?_, fun h => chain_upper h h4⟩
  have := List.all_eq_true.mp upperSplits_differ _ h
  have e2 : simpleUpper = caseGroupOf upperGroups := funext upperGroups_eq
  rw [e2] at e
  rw [e, eqNats_refl] at this
  cases this

theorem chain_130 : chainOf 0x130 = [0x49, 0x307] ∧ simpleLower 0x130 = 0x69 ∧ simpleLower 0x49 = 0x69 ∧ simpleLower 0x307 = 0x307 ∧
    chainOf 0x69 = [0x69] := by decide +kernel
theorem chain_212B : chainOf 0x212B = [0x212B] ∧ simpleLower 0x212B = 0xE5 ∧ chainOf 0xE5 = [0x61, 0x30A] := by decide +kernel

end Ystring
