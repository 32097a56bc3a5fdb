import Verif.Model.ConvertCase
import Verif.Spec.Case
import Verif.Proofs.Search
namespace Ystring
open Spec

/-- `lower_bound` followed by the equality test is a search for an equal key -/
theorem lowerBound_eq {α : Type} (l : List α) (d : α) (k : α → Nat) (key : Nat)
    (hs : l.Pairwise (fun a b => k a ≤ k b)) :
    (let i := lowerBound (fun i => decide (k (l.getD i d) < key)) l.length
     (if i = l.length then none else if k (l.getD i d) ≠ key then none else some (l.getD i d))) =
      l.find? (fun a => k a == key) := by
  have hf := lowerBound_find l d k key hs
  have mono : ∀ i j, i < j → j < l.length → decide (k (l.getD j d) < key) = true →
      decide (k (l.getD i d) < key) = true := by
    intro i j hij hj h
    have h1 := List.pairwise_iff_getElem.mp hs i j (by omega) hj hij
    simp only [decide_eq_true_eq] at h ⊢
    rw [getD_getElem _ _ (by omega)] at h ⊢
    omega
  obtain ⟨h1, h2, h3⟩ := lowerBound_spec _ _ mono
  generalize lowerBound (fun i => decide (k (l.getD i d) < key)) l.length = n at hf h1 h2 h3
  simp only
  by_cases hn : n = l.length
  · rw [if_pos hn]
    symm
    rw [List.find?_eq_none]
    intro x hx
    obtain ⟨i, hi, rfl⟩ := List.mem_iff_getElem.mp hx
    have := h2 i (by omega)
    rw [getD_getElem _ _ hi] at this
    simp only [decide_eq_true_eq] at this
    simp only [beq_iff_eq]; omega
  · have hlt : n < l.length := by omega
    rw [if_neg hn, getD_getElem _ _ hlt]
    have hge := h3 n (Nat.le_refl _) hlt
    rw [getD_getElem _ _ hlt] at hge
    simp only [decide_eq_false_iff_not] at hge
    by_cases he : k l[n] = key
    · rw [if_neg (by simpa using he)]
      symm
      rw [List.find?_eq_some_iff_getElem]
      refine ⟨by simpa using he, n, hlt, rfl, ?_⟩
      intro j hj
      have := h2 j hj
      rw [getD_getElem _ _ (by omega)] at this
      simp only [decide_eq_true_eq] at this
      simp only [Bool.not_eq_true', beq_eq_false_iff_ne, ne_eq]; omega
    · rw [if_pos he]
      symm
      rw [List.find?_eq_none]
      intro x hx
      obtain ⟨i, hi, rfl⟩ := List.mem_iff_getElem.mp hx
      simp only [beq_iff_eq]
      by_cases hin : i < n
      · have := h2 i hin
        rw [getD_getElem _ _ hi] at this
        simp only [decide_eq_true_eq] at this
        omega
      · by_cases hin2 : i = n
        · subst hin2; exact he
        · have := List.pairwise_iff_getElem.mp hs n i hlt hi (by omega)
          omega

/-- a row of a compact table is well formed -/
def wfRow (r : CompactRow) : Bool :=
  r.1 % 32 == 0 && Nat.ble (r.1 + 32) 4294967296 && Nat.ble (r.2.1 + 1) 4294967296 &&
  Nat.ble (r.2.2.1 + 1) 4294967296 && Nat.ble (r.2.2.2 + 1) 4294967296

/-- `CompactRow.get` on natural numbers -/
def getN (r : CompactRow) (c : Nat) : Option Nat :=
  if r.2.2.1 / 2 ^ (c % 32) % 2 = 1 then some ((c + r.2.1) % 4294967296)
  else if r.2.2.2 / 2 ^ (c % 32) % 2 = 1 then some c
  else none

theorem mask_and (k : UInt32) (hk : k.toNat < 32) (m : Nat) (hm : m < 4294967296) :
    (((1 : UInt32) <<< k) &&& UInt32.ofNat m ≠ 0) ↔ m / 2 ^ k.toNat % 2 = 1 := by
  have hmm : (UInt32.ofNat m).toNat = m := UInt32.toNat_ofNat_of_lt' hm
  have h1 : ((1 : UInt32) <<< k).toNat = 2 ^ k.toNat := by
    rw [UInt32.toNat_shiftLeft]
    have h1 : UInt32.toNat 1 = 1 := rfl
    rw [h1, Nat.mod_eq_of_lt hk, Nat.shiftLeft_eq, Nat.one_mul]
    exact Nat.mod_eq_of_lt (Nat.pow_lt_pow_right (by omega) hk)
  rw [ne_eq, ← UInt32.toNat_inj, UInt32.toNat_and, h1, hmm]
  have h0 : UInt32.toNat 0 = 0 := rfl
  rw [h0]
  have ht : m / 2 ^ k.toNat % 2 = 1 ↔ m.testBit k.toNat = true := by
    rw [Nat.testBit, Nat.shiftRight_eq_div_pow, Nat.and_comm, Nat.and_one_is_mod]
    rcases Nat.mod_two_eq_zero_or_one (m / 2 ^ k.toNat) with h | h <;> simp [h]
  rw [ht]
  constructor
  · intro h
    cases hb : m.testBit k.toNat with
    | true => rfl
    | false =>
      exfalso; apply h
      apply Nat.eq_of_testBit_eq
      intro i
      rw [Nat.testBit_and, Nat.testBit_two_pow, Nat.zero_testBit]
      by_cases hi : k.toNat = i
      · subst hi; simp [hb]
      · simp [hi]
  · intro h h2
    have := congrArg (·.testBit k.toNat) h2
    simp [Nat.testBit_and, h] at this

theorem seg_lo : ∀ j : Fin 5, (0xFFFFFFE0#32)[j.val] = false := by decide
theorem seg_hi : ∀ j : Fin 32, 5 ≤ j.val → (0xFFFFFFE0#32)[j.val] = true := by decide

theorem seg_mask (c : Char32) : (c &&& SEGMENT_MASK).toNat = c.toNat / 32 * 32 := by
  have h : ∀ x : Char32, x &&& SEGMENT_MASK = (x >>> 5) <<< 5 := by
    intro x
    apply UInt32.toBitVec_inj.mp
    have : ∀ v : BitVec 32, v &&& 0xFFFFFFE0#32 = (v >>> 5) <<< 5 := by
      intro v
      ext i hi
      simp only [BitVec.getElem_and, BitVec.getElem_shiftLeft]
      by_cases h : i < 5
      · have : (0xFFFFFFE0#32)[i] = false := by
          exact seg_lo ⟨i, h⟩
        simp [h, this]
      · have : (0xFFFFFFE0#32)[i] = true := by
          exact seg_hi ⟨i, hi⟩ (by simpa using h)
        have h2 : 5 + (i - 5) = i := by omega
        simp [h, this, h2, BitVec.getLsbD_eq_getElem hi]
    exact this x.toBitVec
  rw [h, UInt32.toNat_shiftLeft, UInt32.toNat_shiftRight]
  have h5 : UInt32.toNat 5 % 32 = 5 := rfl
  have := c.toNat_lt
  rw [h5, Nat.shiftRight_eq_div_pow, Nat.shiftLeft_eq]
  simp only [Nat.reducePow]
  simp only [Nat.reducePow] at this
  omega

theorem get_getN (r : CompactRow) (c : Char32) (hw : wfRow r = true) (hs : r.1 = c.toNat / 32 * 32) :
    (CompactRow.get r c).map UInt32.toNat = getN r c.toNat := by
  simp only [wfRow, Bool.and_eq_true, beq_iff_eq, Nat.ble_eq] at hw
  obtain ⟨⟨⟨⟨h1, h2⟩, h3⟩, h4⟩, h5⟩ := hw
  have hseg : (UInt32.ofNat r.1).toNat = r.1 := UInt32.toNat_ofNat_of_lt' (by show _ < 4294967296; omega)
  have hoff : (UInt32.ofNat r.2.1).toNat = r.2.1 := UInt32.toNat_ofNat_of_lt' (by show _ < 4294967296; omega)
  have hk : (c - UInt32.ofNat r.1).toNat = c.toNat % 32 := by
    rw [UInt32.toNat_sub_of_le _ _ (by rw [UInt32.le_iff_toNat_le, hseg]; omega), hseg]; omega
  unfold CompactRow.get getN
  simp only
  have m1 := mask_and (c - UInt32.ofNat r.1) (by omega) r.2.2.1 (by omega)
  have m2 := mask_and (c - UInt32.ofNat r.1) (by omega) r.2.2.2 (by omega)
  rw [hk] at m1 m2
  by_cases c1 : r.2.2.1 / 2 ^ (c.toNat % 32) % 2 = 1
  · rw [if_pos (m1.mpr c1), if_pos c1]
    simp only [Option.map_some, UInt32.toNat_add, hoff, Nat.reducePow]
  · rw [if_neg (fun h => c1 (m1.mp h)), if_neg c1]
    by_cases c2 : r.2.2.2 / 2 ^ (c.toNat % 32) % 2 = 1
    · rw [if_pos (m2.mpr c2), if_pos c2]; rfl
    · rw [if_neg (fun h => c2 (m2.mp h)), if_neg c2]; rfl

/-- the table part of the conversion on natural numbers -/
def convN (compact : List CompactRow) (mapping : List (Nat × Nat)) (c : Nat) : Nat :=
  match (compact.find? (fun r => r.1 == c / 32 * 32)).bind (getN · c) with
  | some v => v
  | none => lookup mapping c

theorem convert_convN (compact : List CompactRow) (mapping : List (Nat × Nat)) (c : Char32)
    (hcw : compact.all wfRow = true) (hcs : isSortedBy (·.1) compact = true)
    (hms : isSortedBy (·.1) mapping = true)
    (hmw : mapping.all (fun p => Nat.ble (p.2 + 1) 4294967296) = true) :
    (convert compact mapping c).toNat = convN compact mapping c.toNat := by
  have e1 := lowerBound_eq compact (0,0,0,0) (·.1) (c &&& SEGMENT_MASK).toNat (pairwise_of_isSortedBy hcs)
  have e2 := lowerBound_eq mapping (0,0) (·.1) c.toNat (pairwise_of_isSortedBy hms)
  have f1 : (findInCompactMapping compact c).map UInt32.toNat =
      (compact.find? (fun r => r.1 == c.toNat / 32 * 32)).bind (getN · c.toNat) := by
    rw [← seg_mask, ← e1]
    unfold findInCompactMapping
    simp only
    generalize lowerBound _ _ = n at e1 ⊢
    by_cases hn : n = compact.length
    · simp [hn]
    · rw [if_neg hn, if_neg hn]
      by_cases hk : (compact.getD n (0,0,0,0)).1 = (c &&& SEGMENT_MASK).toNat
      · rw [if_neg (by simpa using hk), if_neg (by simpa using hk)]
        rw [Option.bind_some]
        apply get_getN
        · simp only at e1
          rw [if_neg hn, if_neg (by simpa using hk)] at e1
          exact List.all_eq_true.mp hcw _ (List.mem_of_find?_eq_some e1.symm)
        · rw [hk, seg_mask]
      · rw [if_pos hk, if_pos hk]; rfl
  have f2 : (findInMapping mapping c).map UInt32.toNat =
      (mapping.find? (fun p => p.1 == c.toNat)).map (·.2) := by
    rw [← e2]
    unfold findInMapping
    simp only
    generalize lowerBound _ _ = n at e2 ⊢
    by_cases hn : n = mapping.length
    · simp [hn]
    · rw [if_neg hn, if_neg hn]
      by_cases hk : (mapping.getD n (0,0)).1 = c.toNat
      · rw [if_neg (by simpa using hk), if_neg (by simpa using hk)]
        simp only at e2
        rw [if_neg hn, if_neg (by simpa using hk)] at e2
        have := List.all_eq_true.mp hmw _ (List.mem_of_find?_eq_some e2.symm)
        rw [Nat.ble_eq] at this
        simp only [Option.map_some]
        congr 1
        exact UInt32.toNat_ofNat_of_lt' (by show _ < 4294967296; omega)
      · rw [if_pos hk, if_pos hk]; rfl
  unfold convert convN
  rw [← f1]
  cases findInCompactMapping compact c with
  | some v => rfl
  | none =>
    simp only [Option.map_none, lookup]
    revert f2
    cases findInMapping mapping c with
    | some v =>
      intro f2
      cases h : mapping.find? (fun p => p.1 == c.toNat) with
      | none => rw [h] at f2; cases f2
      | some p => rw [h] at f2; simpa using f2
    | none =>
      intro f2
      cases h : mapping.find? (fun p => p.1 == c.toNat) with
      | none => rfl
      | some p => rw [h] at f2; cases f2

/-- the pairs `(c, f c)` with `f c ≠ c` of one row, for `32 - n ≤ c % 32` -/
def rowPairs (r : CompactRow) : Nat → List (Nat × Nat)
  | 0 => []
  | n + 1 =>
    let c := r.1 + (31 - n)
    match getN r c with
    | some v => if v == c then rowPairs r n else (c, v) :: rowPairs r n
    | none => rowPairs r n

theorem mem_rowPairs (r : CompactRow) (c v : Nat) (hg : getN r c = some v) (hv : v ≠ c) :
    ∀ n, n ≤ 32 → r.1 + (32 - n) ≤ c → c < r.1 + 32 → (c, v) ∈ rowPairs r n := by
  intro n
  induction n with
  | zero => intro _ h1 h2; omega
  | succ n ih =>
    intro hn h1 h2
    by_cases hc : c = r.1 + (31 - n)
    · simp only [rowPairs]
      rw [← hc, hg]
      simp [hv]
    · have := ih (by omega) (by omega) h2
      simp only [rowPairs]
      split
      · split
        · exact this
        · exact List.mem_cons_of_mem _ this
      · exact this

/-- sublist test, linear, cheap for the kernel -/
def subl : List (Nat × Nat) → List (Nat × Nat) → Bool
  | [], _ => true
  | _ :: _, [] => false
  | a :: as, b :: bs => if Nat.beq a.1 b.1 && Nat.beq a.2 b.2 then subl as bs else subl (a :: as) bs

theorem mem_of_subl {l m : List (Nat × Nat)} (h : subl l m = true) : ∀ p ∈ l, p ∈ m := by
  induction m generalizing l with
  | nil => cases l with
    | nil => intro p hp; cases hp
    | cons a as => simp [subl] at h
  | cons b bs ih =>
    cases l with
    | nil => intro p hp; cases hp
    | cons a as =>
      simp only [subl] at h
      split at h
      · rename_i hab
        simp only [Bool.and_eq_true, Nat.beq_eq] at hab
        have : a = b := Prod.ext hab.1 hab.2
        intro p hp
        rcases List.mem_cons.mp hp with rfl | hp
        · rw [this]; exact List.mem_cons_self
        · exact List.mem_cons_of_mem _ (ih h p hp)
      · intro p hp
        exact List.mem_cons_of_mem _ (ih h p hp)

/-- agreement of the table part of a conversion with an association list -/
theorem convN_lookup (compact : List CompactRow) (mapping ud : List (Nat × Nat))
    (h1 : ud.all (fun p => Nat.ble p.1 127 || Nat.beq (convN compact mapping p.1) p.2) = true)
    (h2 : subl (compact.flatMap (rowPairs · 32)) ud = true)
    (h3 : subl mapping ud = true)
    (c : Nat) (hc : 128 ≤ c) : convN compact mapping c = lookup ud c := by
  cases hf : ud.find? (fun p => p.1 == c) with
  | some p =>
    have hm := List.mem_of_find?_eq_some hf
    have hk := List.find?_some hf
    simp only [beq_iff_eq] at hk
    have := List.all_eq_true.mp h1 p hm
    simp only [Bool.or_eq_true, Nat.ble_eq, Nat.beq_eq] at this
    rw [← hk, Or.resolve_left this (by omega)]
    simp only [lookup, hk, hf]
  | none =>
    have hno := List.find?_eq_none.mp hf
    have hl : lookup ud c = c := by simp only [lookup, hf]
    rw [hl]
    unfold convN
    split
    · rename_i v hv
      rw [Option.bind_eq_some_iff] at hv
      obtain ⟨r, hr, hg⟩ := hv
      by_cases hvc : v = c
      · exact hvc
      · exfalso
        have hk := List.find?_some hr
        simp only [beq_iff_eq] at hk
        have hin := mem_rowPairs r c v hg hvc 32 (by omega) (by omega) (by omega)
        have := mem_of_subl h2 (c, v) (List.mem_flatMap.mpr ⟨r, List.mem_of_find?_eq_some hr, hin⟩)
        exact hno _ this (by simp)
    · unfold lookup
      split
      · rename_i p hp
        exfalso
        have hk := List.find?_some hp
        exact hno _ (mem_of_subl h3 p (List.mem_of_find?_eq_some hp)) (by simpa using hk)
      · rfl

theorem lower_wf : COMPACT_LOWER_CASE.all wfRow = true ∧ isSortedBy (·.1) COMPACT_LOWER_CASE = true ∧
    isSortedBy (·.1) LOWER_CASE = true ∧ LOWER_CASE.all (fun p => Nat.ble (p.2 + 1) 4294967296) = true := by
  decide +kernel
theorem upper_wf : COMPACT_UPPER_CASE.all wfRow = true ∧ isSortedBy (·.1) COMPACT_UPPER_CASE = true ∧
    isSortedBy (·.1) UPPER_CASE = true ∧ UPPER_CASE.all (fun p => Nat.ble (p.2 + 1) 4294967296) = true := by
  decide +kernel
theorem title_wf : COMPACT_TITLE_CASE.all wfRow = true ∧ isSortedBy (·.1) COMPACT_TITLE_CASE = true ∧
    isSortedBy (·.1) TITLE_CASE = true ∧ TITLE_CASE.all (fun p => Nat.ble (p.2 + 1) 4294967296) = true := by
  decide +kernel
theorem lower_1 : UD_LOWER.all (fun p => Nat.ble p.1 127 ||
    Nat.beq (convN COMPACT_LOWER_CASE LOWER_CASE p.1) p.2) = true := by decide +kernel
theorem upper_1 : UD_UPPER.all (fun p => Nat.ble p.1 127 ||
    Nat.beq (convN COMPACT_UPPER_CASE UPPER_CASE p.1) p.2) = true := by decide +kernel
theorem title_1 : UD_TITLE.all (fun p => Nat.ble p.1 127 ||
    Nat.beq (convN COMPACT_TITLE_CASE TITLE_CASE p.1) p.2) = true := by decide +kernel
theorem lower_2 : subl (COMPACT_LOWER_CASE.flatMap (rowPairs · 32)) UD_LOWER = true := by decide +kernel
theorem upper_2 : subl (COMPACT_UPPER_CASE.flatMap (rowPairs · 32)) UD_UPPER = true := by decide +kernel
theorem title_2 : subl (COMPACT_TITLE_CASE.flatMap (rowPairs · 32)) UD_TITLE = true := by decide +kernel
theorem lower_3 : subl LOWER_CASE UD_LOWER = true := by decide +kernel
theorem upper_3 : subl UPPER_CASE UD_UPPER = true := by decide +kernel
theorem title_3 : subl TITLE_CASE UD_TITLE = true := by decide +kernel

end Ystring
