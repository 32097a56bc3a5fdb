import Verif.Spec.Normalize
import Verif.Model.Normalize
import Verif.Proofs.Search
/-
Facts about the normalization tables, checked by the kernel.
-/
namespace Ystring
open Spec

/-- equality of lists of numbers, for evaluation by the kernel -/
def eqNats : List Nat → List Nat → Bool
  | [], [] => true
  | a :: l, b :: m => Nat.beq a b && eqNats l m
  | _, _ => false

theorem eq_of_eqNats {l m : List Nat} (h : eqNats l m = true) : l = m := by
  induction l generalizing m with
  | nil => cases m with
    | nil => rfl
    | cons b m => simp [eqNats] at h
  | cons a l ih => cases m with
    | nil => simp [eqNats] at h
    | cons b m => simp [eqNats] at h; rw [h.1, ih h.2]

/-- strictly increasing -/
def incr : List Nat → Bool
  | a :: b :: l => Nat.blt a b && incr (b :: l)
  | _ => true

theorem pairwise_of_incr {l : List Nat} (h : incr l = true) : l.Pairwise (· < ·) := by
  induction l with
  | nil => exact .nil
  | cons a l ih =>
    cases l with
    | nil => simp
    | cons b l =>
      simp only [incr, Bool.and_eq_true, Nat.blt_eq] at h
      have := ih h.2
      rw [List.pairwise_cons] at this ⊢
      refine ⟨?_, this.1 |> fun h' => by rw [List.pairwise_cons]; exact this⟩
      intro c hc
      rw [List.mem_cons] at hc
      rcases hc with rfl | hc
      · exact h.1
      · exact Nat.lt_trans h.1 (this.1 c hc)

theorem decomposed_eq' : eqNats TO_DECOMPOSED (UD_PAIRS.map (fun p => p.1 * 2 ^ 40 + p.2.1 * 2 ^ 20 + p.2.2)) = true := by
  decide +kernel
theorem decomposed_incr : incr TO_DECOMPOSED = true := by decide +kernel
theorem composed_incr : incr (TO_COMPOSED.map (fun x => x / 2 ^ 20)) = true := by decide +kernel

/-! ### TO_COMPOSED has the same elements as the pairs: a merge sort that the kernel can run -/

def mergeN : Nat → List Nat → List Nat → List Nat
  | 0, l, m => l ++ m
  | fuel + 1, l, m => match l, m with
    | [], m => m
    | l, [] => l
    | a :: l, b :: m => if Nat.ble a b then a :: mergeN fuel l (b :: m) else b :: mergeN fuel (a :: l) m

theorem mem_mergeN (fuel : Nat) (l m : List Nat) (x : Nat) : x ∈ mergeN fuel l m ↔ x ∈ l ∨ x ∈ m := by
  induction fuel generalizing l m with
  | zero => simp [mergeN]
  | succ fuel ih =>
    cases l with
    | nil => simp [mergeN]
    | cons a l =>
      cases m with
      | nil => simp [mergeN]
      | cons b m =>
        simp only [mergeN]
        split
        · simp only [List.mem_cons, ih, or_assoc]
        · simp only [List.mem_cons, ih, or_assoc]
          constructor
          · rintro (h | h | h | h) <;> simp [h]
          · rintro (h | h | h | h) <;> simp [h]

def mergePass (fuel : Nat) : List (List Nat) → List (List Nat)
  | l :: m :: ls => mergeN fuel l m :: mergePass fuel ls
  | ls => ls

theorem mem_mergePass (fuel : Nat) : ∀ (ls : List (List Nat)) (x : Nat), x ∈ (mergePass fuel ls).flatten ↔ x ∈ ls.flatten
  | [], x => by simp [mergePass]
  | [l], x => by simp [mergePass]
  | l :: m :: ls, x => by
    simp only [mergePass, List.flatten_cons, List.mem_append, mem_mergeN, mem_mergePass fuel ls x, or_assoc]

def mergePasses (fuel : Nat) : Nat → List (List Nat) → List (List Nat)
  | 0, ls => ls
  | k + 1, ls => mergePasses fuel k (mergePass fuel ls)

theorem mem_mergePasses (fuel k : Nat) (ls : List (List Nat)) (x : Nat) :
    x ∈ (mergePasses fuel k ls).flatten ↔ x ∈ ls.flatten := by
  induction k generalizing ls with
  | zero => rfl
  | succ k ih => rw [mergePasses, ih, mem_mergePass]

theorem composed_sort : eqNats TO_COMPOSED (mergePasses 2000 11
    (UD_PAIRS.map (fun p => [p.2.1 * 2 ^ 40 + p.2.2 * 2 ^ 20 + p.1]))).flatten = true := by decide +kernel

theorem mem_composed (x : Nat) : x ∈ TO_COMPOSED ↔ ∃ p ∈ UD_PAIRS, x = p.2.1 * 2 ^ 40 + p.2.2 * 2 ^ 20 + p.1 := by
  rw [eq_of_eqNats composed_sort, mem_mergePasses]
  simp only [List.mem_flatten, List.mem_map]
  constructor
  · rintro ⟨l, ⟨p, hp, rfl⟩, hx⟩; simp at hx; exact ⟨p, hp, hx⟩
  · rintro ⟨p, hp, rfl⟩; exact ⟨_, ⟨p, hp, rfl⟩, by simp⟩

/-- the entries around the first one that does not fit in 52 bits, and the last one -/
theorem composed_739 : TO_COMPOSED.length = 1046 ∧ TO_COMPOSED.getD 739 0 / 2 ^ 20 = 0x10250102E ∧
    TO_COMPOSED.getD 738 0 / 2 ^ 20 = 0xFB300F80 ∧ TO_COMPOSED.getD 1045 0 / 2 ^ 20 = 0x1D1BC1D16F := by decide +kernel

/-! ### Sets of numbers as bit masks -/

/-- the set of the numbers in a list -/
def maskOf : List Nat → Nat
  | [] => 0
  | c :: l => Nat.lor (Nat.shiftLeft 1 c) (maskOf l)

/-- membership -/
def inMask (m c : Nat) : Bool := Nat.beq (Nat.land 1 (Nat.shiftRight m c)) 1

theorem inMask_iff (l : List Nat) (c : Nat) : inMask (maskOf l) c = true ↔ c ∈ l := by
  have h : ∀ m c, inMask m c = Nat.testBit m c := by
    intro m c
    rw [Bool.eq_iff_iff]
    unfold inMask Nat.testBit
    simp only [Nat.beq_eq]
    show 1 &&& (m >>> c) = 1 ↔ ((1 &&& (m >>> c)) != 0) = true
    rw [Nat.one_and_eq_mod_two]
    simp
  rw [h]
  induction l with
  | nil => simp [maskOf]
  | cons a l ih =>
    show ((1 <<< a) ||| maskOf l).testBit c = true ↔ _
    rw [Nat.testBit_or, Bool.or_eq_true, show (maskOf l).testBit c = true ↔ _ from ih, List.mem_cons, Nat.shiftLeft_eq, Nat.one_mul, Nat.testBit_two_pow]
    simp [eq_comm]

theorem find_none_iff {α : Type} (l : List (Nat × α)) (c : Nat) :
    (l.find? (fun p => Nat.beq p.1 c)) = none ↔ c ∉ l.map (·.1) := by
  rw [List.find?_eq_none]
  simp only [Nat.beq_eq, List.mem_map, not_exists, not_and]

/-- mask of the code points with a pair -/
def pairMask : Nat := maskOf (UD_PAIRS.map (·.1))
/-- mask of the code points with a singleton -/
def singleMask : Nat := maskOf (UD_SINGLETONS.map (·.1))

theorem pairMask_iff (c : Nat) : inMask pairMask c = false ↔ pairOf c = none := by
  unfold pairMask pairOf
  rw [Option.map_eq_none_iff, find_none_iff, ← inMask_iff, Bool.not_eq_true]

theorem singleMask_iff (c : Nat) : inMask singleMask c = false ↔ singleOf c = none := by
  unfold singleMask singleOf
  rw [Option.map_eq_none_iff, find_none_iff, ← inMask_iff, Bool.not_eq_true]

def hangulB (c : Nat) : Bool := Nat.ble 0xAC00 c && Nat.ble c 0xD7A3

theorem hangulB_iff (c : Nat) : hangulB c = true ↔ IsHangul c := by
  simp [hangulB, IsHangul]

/-- shape of the pairs: small components, the second one final, the first neither a singleton nor Hangul -/
theorem pairs_shape1 : UD_PAIRS.all (fun p => Nat.blt p.1 0x1D1C1 && Nat.ble 0xC0 p.1 && Nat.blt p.2.1 0x1D1BD &&
    Nat.blt p.2.2 0x1D173 && Nat.ble 0x300 p.2.2 && !hangulB p.1 && !hangulB p.2.1 && !hangulB p.2.2) = true := by
  decide +kernel
theorem pairs_shape2 : (let m := pairMask; UD_PAIRS.all (fun p => !inMask m p.2.2)) = true := by
  decide +kernel
theorem pairs_shape3 : (let m := singleMask; UD_PAIRS.all (fun p => !inMask m p.2.2 && !inMask m p.2.1 && !inMask m p.1)) = true := by
  decide +kernel

/-- the pairs whose first component is the first element of a pair -/
def deepPairs : List (Nat × Nat × Nat) := let m := pairMask; UD_PAIRS.filter (fun p => inMask m p.2.1)

theorem pairs_deep : deepPairs.all (fun p => match pairOf p.2.1 with
    | none => true
    | some q => match pairOf q.1 with
      | none => true
      | some r => (pairOf r.1).isNone) = true := by decide +kernel

/-- no pair or singleton is a jamo -/
theorem pairs_jamo : UD_PAIRS.all (fun p => Nat.blt p.1 0x1100 || Nat.blt 0x11FF p.1) = true := by decide +kernel
theorem singles_shape : (let m := singleMask; UD_SINGLETONS.all (fun p => (Nat.blt p.1 0x1100 || Nat.blt 0x11FF p.1) &&
    !hangulB p.1 && !hangulB p.2 && !inMask m p.2 && Nat.blt p.1 0x2FA1E && Nat.blt p.2 0x2A6D7 && Nat.blt 0 p.2)) = true := by
  decide +kernel

/-- composites of a first component below U+1000 are small -/
theorem pairs_small : UD_PAIRS.all (fun p => Nat.ble 0x1000 p.2.1 || Nat.blt p.1 0x10000) = true := by decide +kernel
/-- the pairs are sorted by the composite -/
theorem pairs_incr : incr (UD_PAIRS.map (·.1)) = true := by decide +kernel

end Ystring
