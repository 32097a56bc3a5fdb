import Verif.Model.Generate
import Verif.Proofs.Compose
/-
Proofs about make_normalization_file.py.
-/
namespace Ystring.Gen
open Spec

/-- a rule that fits the encoding -/
structure RuleFits (r : Nat × Nat × Nat) : Prop where
  id : r.1 < 2 ^ 20
  fst : r.2.1 < 2 ^ 20
  snd : r.2.2 < 2 ^ 20

theorem or_shift (x y i : Nat) (h : y < 2 ^ i) : (x <<< i) ||| y = x * 2 ^ i + y := by
  rw [Nat.shiftLeft_eq, Nat.mul_comm, Nat.two_pow_add_eq_or_of_lt h]

theorem encode3 (a b c : Nat) (hb : b < 2 ^ 20) (hc : c < 2 ^ 20) :
    (a <<< 40) ||| (b <<< 20) ||| c = a * 2 ^ 40 + b * 2 ^ 20 + c := by
  rw [Nat.or_assoc, or_shift b c 20 hc, or_shift a _ 40 (by omega), Nat.add_assoc]

theorem encodeDecomposed_eq {r : Nat × Nat × Nat} (h : RuleFits r) :
    encodeDecomposed r = r.1 * 2 ^ 40 + r.2.1 * 2 ^ 20 + r.2.2 := encode3 _ _ _ h.fst h.snd

theorem encodeComposed_eq {r : Nat × Nat × Nat} (h : RuleFits r) :
    encodeComposed r = r.2.1 * 2 ^ 40 + r.2.2 * 2 ^ 20 + r.1 := encode3 _ _ _ h.snd h.id

theorem field2 (a b m : Nat) (hb : b < 2 ^ 20) (hm : m < 2 ^ 20) : (a * 2 ^ 40 + b * 2 ^ 20 + m) / 2 ^ 20 % 2 ^ 20 = b := by omega
theorem field3 (a b m : Nat) (hm : m < 2 ^ 20) : (a * 2 ^ 40 + b * 2 ^ 20 + m) % 2 ^ 20 = m := by omega

/-! ### Decomposition -/

theorem decomposedTable_sorted {rules : List (Nat × Nat × Nat)} (ha : rules.Pairwise (fun p q => p.1 < q.1))
    (hf : ∀ r ∈ rules, RuleFits r) : (decomposedTable rules).Pairwise (· < ·) := by
  unfold decomposedTable
  rw [List.pairwise_map]
  refine List.Pairwise.imp_of_mem ?_ ha
  intro p q hp hq h
  have h1 := hf p hp; have h2 := hf q hq
  rw [encodeDecomposed_eq h1, encodeDecomposed_eq h2]
  have := h1.fst; have := h1.snd; have := h2.fst; have := h2.snd
  omega

theorem find_decomposed {rules : List (Nat × Nat × Nat)} (hf : ∀ r ∈ rules, RuleFits r) (c : Nat) :
    (decomposedTable rules).find? (fun x => x / 2 ^ 40 == c) = (rules.find? (fun r => r.1 == c)).map encodeDecomposed := by
  refine find_map_congr rfl ?_
  intro p hp
  have h := hf p hp
  have := h.fst; have := h.snd
  rw [encodeDecomposed_eq h]
  have : (p.1 * 2 ^ 40 + p.2.1 * 2 ^ 20 + p.2.2) / 2 ^ 40 = p.1 := by omega
  rw [this]

theorem findDecomposedIn_eq {rules : List (Nat × Nat × Nat)} (ha : rules.Pairwise (fun p q => p.1 < q.1))
    (hf : ∀ r ∈ rules, RuleFits r) (hC0 : ∀ r ∈ rules, 0xC0 ≤ r.1) (c : Char32) :
    findDecomposedIn (decomposedTable rules) c = match rules.find? (fun r => r.1 == c.toNat) with
      | some r => (UInt32.ofNat r.2.1, UInt32.ofNat r.2.2)
      | none => (c, 0) := by
  have hlt : ∀ i, (decomposedTable rules).getD i 0 < 2 ^ 60 := by
    intro i
    by_cases h : i < (decomposedTable rules).length
    · rw [getD_getElem _ _ h]
      have hm := List.getElem_mem h
      obtain ⟨r, hr, e⟩ := List.mem_map.mp hm
      have h := hf r hr
      rw [← e, encodeDecomposed_eq h]
      have := h.fst; have := h.snd; have := h.id
      omega
    · rw [getD_big _ _ _ (by omega)]; decide
  unfold findDecomposedIn
  by_cases h0 : c < 0xC0
  · rw [if_pos h0]
    rw [UInt32.lt_iff_toNat_lt] at h0
    have h0 : c.toNat < 0xC0 := h0
    rw [List.find?_eq_none.mpr]
    intro r hr
    have := hC0 r hr
    simp only [beq_iff_eq]; omega
  · rw [if_neg h0]
    simp only
    by_cases hbig : c.toNat < 2 ^ 24
    · have e1 : c.toNat * 2 ^ 40 % 2 ^ 64 = c.toNat * 2 ^ 40 := Nat.mod_eq_of_lt (by omega)
      rw [e1]
      generalize hi : lowerBound (fun i => decide ((decomposedTable rules).getD i 0 < c.toNat * 2 ^ 40)) (decomposedTable rules).length = i
      have hl := lower_div (decomposedTable rules) (2 ^ 40) (Nat.two_pow_pos 40) c.toNat (decomposedTable_sorted ha hf) i hi
      rw [find_decomposed hf] at hl
      have hq := hlt i
      have e2 : (decomposedTable rules).getD i 0 / 2 ^ 40 % 2 ^ 32 = (decomposedTable rules).getD i 0 / 2 ^ 40 :=
        Nat.mod_eq_of_lt (by omega)
      rw [e2]
      by_cases hi : i = (decomposedTable rules).length
      · rw [if_pos hi] at hl
        rw [if_pos (.inl hi), Option.map_eq_none_iff.mp hl.symm]
      · rw [if_neg hi] at hl
        by_cases hne : (decomposedTable rules).getD i 0 / 2 ^ 40 ≠ c.toNat
        · rw [if_pos hne] at hl
          rw [if_pos (.inr hne), Option.map_eq_none_iff.mp hl.symm]
        · rw [if_neg hne] at hl
          obtain ⟨r, h1, h2⟩ := Option.map_eq_some_iff.mp hl.symm
          have hr := hf r (List.mem_of_find?_eq_some h1)
          have f1 := hr.fst; have f2 := hr.snd
          rw [if_neg (by rintro (h | h); exact hi h; exact hne h), h1]
          rw [encodeDecomposed_eq hr] at h2
          generalize (decomposedTable rules).getD i 0 = x at h2
          subst h2
          simp only
          rw [field2 r.1 _ _ f1 f2, field3 r.1 r.2.1 _ f2]
    · rw [List.find?_eq_none.mpr]
      · simp only
        rw [if_pos]
        right
        generalize lowerBound _ _ = i
        have := hlt i
        omega
      · intro r hr
        have := (hf r hr).id
        simp only [beq_iff_eq]; omega

/-! ### Composition -/

theorem ruleLE_iff (p q : Nat × Nat × Nat) : ruleLE p q = true ↔ p.2.1 < q.2.1 ∨ (p.2.1 = q.2.1 ∧ p.2.2 ≤ q.2.2) := by
  unfold ruleLE; simp

theorem sorted_rules {rules : List (Nat × Nat × Nat)} (hd : rules.Pairwise (fun p q => p.2 ≠ q.2)) :
    (rules.mergeSort ruleLE).Pairwise (fun p q => p.2.1 < q.2.1 ∨ (p.2.1 = q.2.1 ∧ p.2.2 < q.2.2)) := by
  have h1 : (rules.mergeSort ruleLE).Pairwise (fun p q => ruleLE p q = true) := by
    refine List.pairwise_mergeSort ?_ ?_ rules
    · intro a b c h1 h2
      rw [ruleLE_iff] at *; omega
    · intro a b
      rw [Bool.or_eq_true, ruleLE_iff, ruleLE_iff]; omega
  have h2 : (rules.mergeSort ruleLE).Pairwise (fun p q => p.2 ≠ q.2) :=
    ((List.mergeSort_perm rules ruleLE).pairwise_iff (fun h => fun e => h e.symm)).mpr hd
  refine (h1.and h2).imp ?_
  rintro p q ⟨a, b⟩
  rw [ruleLE_iff] at a
  rcases a with a | a
  · exact .inl a
  · refine .inr ⟨a.1, ?_⟩
    rcases Nat.lt_or_eq_of_le a.2 with h | h
    · exact h
    · exact absurd (Prod.ext a.1 h) b

theorem mem_composedTable {rules : List (Nat × Nat × Nat)} {x : Nat} :
    x ∈ composedTable rules ↔ ∃ r ∈ rules, encodeComposed r = x := by
  unfold composedTable
  rw [List.mem_map]
  constructor
  · rintro ⟨r, hr, e⟩; exact ⟨r, (List.mergeSort_perm rules ruleLE).mem_iff.mp hr, e⟩
  · rintro ⟨r, hr, e⟩; exact ⟨r, (List.mergeSort_perm rules ruleLE).mem_iff.mpr hr, e⟩

theorem composedTable_sorted {rules : List (Nat × Nat × Nat)} (hd : rules.Pairwise (fun p q => p.2 ≠ q.2))
    (hf : ∀ r ∈ rules, RuleFits r) : (composedTable rules).Pairwise (fun x y => x / 2 ^ 20 < y / 2 ^ 20) := by
  unfold composedTable
  rw [List.pairwise_map]
  refine List.Pairwise.imp_of_mem ?_ (sorted_rules hd)
  intro p q hp hq h
  have h1 := hf p ((List.mergeSort_perm rules ruleLE).mem_iff.mp hp)
  have h2 := hf q ((List.mergeSort_perm rules ruleLE).mem_iff.mp hq)
  rw [encodeComposed_eq h1, encodeComposed_eq h2]
  have := h1.id; have := h1.snd; have := h2.id; have := h2.snd
  omega

/-- strictly ascending lists with the same elements are equal -/
theorem eq_of_sorted {l k : List Nat} (hl : l.Pairwise (· < ·)) (hk : k.Pairwise (· < ·)) (h : ∀ x, x ∈ l ↔ x ∈ k) : l = k := by
  induction l generalizing k with
  | nil =>
    cases k with
    | nil => rfl
    | cons y k => exact absurd ((h y).mpr (.head _)) (by simp)
  | cons x l ih =>
    cases k with
    | nil => exact absurd ((h x).mp (.head _)) (by simp)
    | cons y k =>
      rw [List.pairwise_cons] at hl hk
      have e : x = y := by
        have a := (h x).mp (.head _)
        have b := (h y).mpr (.head _)
        rcases List.mem_cons.mp a with a | a
        · exact a
        · rcases List.mem_cons.mp b with b | b
          · exact b.symm
          · have := hl.1 y b; have := hk.1 x a; omega
      subst e
      rw [ih hl.2 hk.2]
      intro z
      constructor
      · intro hz
        rcases List.mem_cons.mp ((h z).mp (.tail _ hz)) with e | e
        · have := hl.1 z hz; omega
        · exact e
      · intro hz
        rcases List.mem_cons.mp ((h z).mpr (.tail _ hz)) with e | e
        · have := hk.1 z hz; omega
        · exact e

theorem findComposedIn_cases {rules : List (Nat × Nat × Nat)} (hd : rules.Pairwise (fun p q => p.2 ≠ q.2))
    (hf : ∀ r ∈ rules, RuleFits r) (ch mark : Char32) (hc : ch.toNat < 2 ^ 24) (hm : mark.toNat < 2 ^ 20) (hm2 : 0x300 ≤ mark.toNat) :
    (findComposedIn (composedTable rules) ch mark = .error .ub ∧
      ∀ r ∈ rules, r.2.1 * 2 ^ 20 + r.2.2 < ch.toNat * 2 ^ 20 + mark.toNat) ∨
    ∃ r ∈ rules, ch.toNat * 2 ^ 20 + mark.toNat ≤ r.2.1 * 2 ^ 20 + r.2.2 ∧
      (∀ q ∈ rules, ch.toNat * 2 ^ 20 + mark.toNat ≤ q.2.1 * 2 ^ 20 + q.2.2 → r.2.1 * 2 ^ 20 + r.2.2 ≤ q.2.1 * 2 ^ 20 + q.2.2) ∧
      findComposedIn (composedTable rules) ch mark =
        if (r.2.1 * 2 ^ 20 + r.2.2) % 2 ^ 32 = ch.toNat * 2 ^ 20 + mark.toNat then .ok (UInt32.ofNat r.1) else .ok 0 := by
  have hs := composedTable_sorted hd hf
  have hs' : (composedTable rules).Pairwise (· < ·) := hs.imp (fun {a b} h =>
    Nat.lt_of_not_le (fun h' => absurd (Nat.div_le_div_right (c := 2 ^ 20) h') (by omega)))
  have hkey : (ch.toNat * 2 ^ 20 % 2 ^ 64) ||| mark.toNat = ch.toNat * 2 ^ 20 + mark.toNat := by
    rw [Nat.mod_eq_of_lt (by omega)]
    have := or_shift ch.toNat _ 20 hm
    rwa [Nat.shiftLeft_eq] at this
  unfold findComposedIn
  rw [if_neg (by rw [UInt32.lt_iff_toNat_lt]; simpa using hm2)]
  simp only
  rw [hkey]
  generalize hkk : ch.toNat * 2 ^ 20 + mark.toNat = key
  have hk : key * 2 ^ 20 % 2 ^ 64 = key * 2 ^ 20 := Nat.mod_eq_of_lt (by omega)
  rw [hk]
  generalize hi : lowerBound (fun i => decide ((composedTable rules).getD i 0 < key * 2 ^ 20)) (composedTable rules).length = i
  obtain ⟨b1, b2, b3⟩ := lower_bounds (composedTable rules) (2 ^ 20) (Nat.two_pow_pos 20) key hs' i hi
  have hquot : ∀ r ∈ rules, encodeComposed r / 2 ^ 20 = r.2.1 * 2 ^ 20 + r.2.2 ∧ encodeComposed r % 2 ^ 20 = r.1 := by
    intro r hr
    have h := hf r hr
    have := h.id; have := h.snd
    rw [encodeComposed_eq h]; omega
  have hidx : ∀ q ∈ rules, ∃ j, j < (composedTable rules).length ∧ (composedTable rules).getD j 0 = encodeComposed q := by
    intro q hq
    obtain ⟨j, hj, e⟩ := List.getElem_of_mem (mem_composedTable.mpr ⟨q, hq, rfl⟩)
    exact ⟨j, hj, by rw [getD_getElem _ _ hj, e]⟩
  by_cases hl : i = (composedTable rules).length
  · left
    refine ⟨by rw [if_pos hl], ?_⟩
    intro r hr
    obtain ⟨j, hj, e⟩ := hidx r hr
    have := b2 j (by omega)
    rw [e, (hquot r hr).1] at this
    exact this
  · right
    have hlt : i < (composedTable rules).length := by omega
    have hmem := List.getElem_mem hlt
    obtain ⟨r, hr, e⟩ := mem_composedTable.mp hmem
    have hg : (composedTable rules).getD i 0 = encodeComposed r := by rw [getD_getElem _ _ hlt, e]
    refine ⟨r, hr, ?_, ?_, ?_⟩
    · have := b3 i (Nat.le_refl _) hlt
      rw [hg, (hquot r hr).1] at this; exact this
    · intro q hq hle
      obtain ⟨j, hj, e⟩ := hidx q hq
      have hij : i ≤ j := by
        rcases Nat.lt_or_ge j i with h | h
        · have := b2 j h
          rw [e, (hquot q hq).1] at this; omega
        · exact h
      rcases Nat.lt_or_eq_of_le hij with h | h
      · have := List.pairwise_iff_getElem.mp hs i j hlt hj h
        rw [← getD_getElem _ _ hlt, ← getD_getElem _ _ hj, hg, e, (hquot r hr).1, (hquot q hq).1] at this
        omega
      · subst h
        rw [hg] at e
        have h1 := (hquot r hr).1
        rw [e, (hquot q hq).1] at h1
        omega
    · rw [if_neg hl, hg, (hquot r hr).1, (hquot r hr).2]
      by_cases hh : (r.2.1 * 2 ^ 20 + r.2.2) % 2 ^ 32 = key
      · rw [if_neg (by simpa using hh), if_pos hh]
      · rw [if_pos hh, if_neg hh]

end Ystring.Gen
