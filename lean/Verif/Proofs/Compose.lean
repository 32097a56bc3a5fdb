import Verif.Proofs.Canon
/-
`find_composed` in terms of UnicodeData.
-/
namespace Ystring
open Spec
attribute [local irreducible] TO_DECOMPOSED TO_COMPOSED UD_PAIRS UD_SINGLETONS

theorem composite_mem {b m c : Nat} (h : composite b m = some c) : (c, b, m) ∈ UD_PAIRS := by
  unfold composite at h
  rw [Option.map_eq_some_iff] at h
  obtain ⟨p, h1, h2⟩ := h
  have := List.find?_some h1
  simp only [Nat.beq_eq, Bool.and_eq_true] at this
  have hm := List.mem_of_find?_eq_some h1
  rw [← this.1, ← this.2, ← h2]; exact hm

theorem composite_none {b m : Nat} (h : composite b m = none) (c : Nat) : (c, b, m) ∉ UD_PAIRS := by
  unfold composite at h
  rw [Option.map_eq_none_iff, List.find?_eq_none] at h
  intro hm
  have := h _ hm
  simp at this

theorem keys_lt : TO_COMPOSED.Pairwise (fun a b => a / 2 ^ 20 < b / 2 ^ 20) := by
  have := pairwise_of_incr composed_incr
  rw [List.pairwise_map] at this
  exact this

theorem composed_sorted : TO_COMPOSED.Pairwise (· < ·) := by
  refine keys_lt.imp ?_
  intro a b h
  exact Nat.lt_of_not_le (fun h' => absurd (Nat.div_le_div_right (c := 2 ^ 20) h') (by omega))

/-- two elements with the same key are equal -/
theorem key_inj {K : Nat} {l : List Nat} (h : l.Pairwise (fun a b => a / K < b / K)) {x y : Nat} (hx : x ∈ l) (hy : y ∈ l)
    (e : x / K = y / K) : x = y := by
  induction l with
  | nil => cases hx
  | cons a l ih =>
    rw [List.pairwise_cons] at h
    rcases List.mem_cons.mp hx with rfl | hx'
    · rcases List.mem_cons.mp hy with rfl | hy
      · rfl
      · have := h.1 y hy; omega
    · rcases List.mem_cons.mp hy with e2 | hy'
      · have := h.1 x hx'; rw [e2] at e; omega
      · exact ih h.2 hx' hy'

theorem entry_key (b m c : Nat) (hc : c < 0x1D1C1) : (b * 2 ^ 40 + m * 2 ^ 20 + c) / 2 ^ 20 = b * 2 ^ 20 + m ∧
    (b * 2 ^ 40 + m * 2 ^ 20 + c) % 2 ^ 20 = c := by omega

theorem key_parts (b m : Nat) (hm : m < 2 ^ 20) : (b * 2 ^ 20 + m) / 2 ^ 20 = b ∧ (b * 2 ^ 20 + m) % 2 ^ 20 = m := by omega

theorem entry_mem {c b m : Nat} (h : (c, b, m) ∈ UD_PAIRS) : b * 2 ^ 40 + m * 2 ^ 20 + c ∈ TO_COMPOSED :=
  (mem_composed _).mpr ⟨_, h, rfl⟩

/-- a search by key in TO_COMPOSED -/
theorem find_composite (b m : Nat) (hm : m < 2 ^ 20) :
    (TO_COMPOSED.find? (fun x => x / 2 ^ 20 == b * 2 ^ 20 + m)).map (· % 2 ^ 20) = composite b m := by
  cases hf : TO_COMPOSED.find? (fun x => x / 2 ^ 20 == b * 2 ^ 20 + m) with
  | none =>
    cases hc : composite b m with
    | none => rfl
    | some c =>
      exfalso
      have hp := composite_mem hc
      have f := pair_facts hp
      rw [List.find?_eq_none] at hf
      have := hf _ (entry_mem hp)
      apply this
      show ((b * 2 ^ 40 + m * 2 ^ 20 + c) / 2 ^ 20 == b * 2 ^ 20 + m) = true
      rw [(entry_key b m c f.hc.2).1, beq_self_eq_true]
  | some x =>
    have hx := List.mem_of_find?_eq_some hf
    have hk := List.find?_some hf
    simp only [beq_iff_eq] at hk
    obtain ⟨⟨c, b', m'⟩, hp, e⟩ := (mem_composed _).mp hx
    simp only at e
    have f := pair_facts hp
    rw [e, (entry_key b' m' c f.hc.2).1] at hk
    have k1 := key_parts b' m' (by have := f.hm; omega)
    have k2 := key_parts b m hm
    rw [hk, k2.1, k2.2] at k1
    obtain ⟨rfl, rfl⟩ := k1
    rw [Option.map_some, e, (entry_key b m c f.hc.2).2]
    cases hc : composite b m with
    | none => exact absurd hp (composite_none hc c)
    | some c' =>
      have hp' := composite_mem hc
      have f' := pair_facts hp'
      have e' := key_inj keys_lt (entry_mem hp) (entry_mem hp')
        (by rw [(entry_key b m c f.hc.2).1, (entry_key b m c' f'.hc.2).1])
      congr 1
      omega

/-- the bounds found by lower_bound -/
theorem lower_bounds (l : List Nat) (K : Nat) (hK : 0 < K) (c : Nat) (hs : l.Pairwise (· < ·)) (i : Nat)
    (hi : lowerBound (fun i => decide (l.getD i 0 < c * K)) l.length = i) :
    i ≤ l.length ∧ (∀ j, j < i → l.getD j 0 / K < c) ∧ ∀ j, i ≤ j → j < l.length → c ≤ l.getD j 0 / K := by
  have mono : ∀ i j, i < j → j < l.length → decide (l.getD j 0 < c * K) = true →
      decide (l.getD i 0 < c * K) = true := by
    intro i j hij hj h
    have h1 := List.pairwise_iff_getElem.mp hs i j (by omega) hj hij
    simp only [decide_eq_true_eq] at h ⊢
    rw [getD_getElem _ _ (by omega)] at h ⊢
    omega
  obtain ⟨h1, h2, h3⟩ := lowerBound_spec _ _ mono
  rw [hi] at h1 h2 h3
  refine ⟨h1, ?_, ?_⟩
  · intro j hj
    have := h2 j hj
    simp only [decide_eq_true_eq] at this
    exact (Nat.div_lt_iff_lt_mul hK).mpr this
  · intro j hj hl
    have := h3 j hj hl
    simp only [decide_eq_false_iff_not] at this
    exact Nat.le_of_not_lt (fun h => this ((Nat.div_lt_iff_lt_mul hK).mp h))

/-- `find_composed`, by the key it looks for -/
def composedByKey (key : Nat) : Res Char32 :=
  if 0x1D1BC1D16F < key then .error .ub
  else if 2 ^ 32 ≤ key then .ok 0
  else .ok (UInt32.ofNat ((composite (key / 2 ^ 20) (key % 2 ^ 20)).getD 0))

theorem ok_zero : (Except.ok 0 : Res Char32) = .ok (UInt32.ofNat 0) := rfl

theorem lookup_eq (key : Nat) (hk : key < 2 ^ 44) :
    (let it := lowerBound (fun i => TO_COMPOSED.getD i 0 < key * 2 ^ 20 % 2 ^ 64) TO_COMPOSED.length
     if it = TO_COMPOSED.length then .error .ub
     else if TO_COMPOSED.getD it 0 / 2 ^ 20 % 2 ^ 32 ≠ key then .ok 0
     else .ok (UInt32.ofNat (TO_COMPOSED.getD it 0 % 2 ^ 20)) : Res Char32) = composedByKey key := by
  have e1 : key * 2 ^ 20 % 2 ^ 64 = key * 2 ^ 20 := Nat.mod_eq_of_lt (by omega)
  rw [e1]
  generalize hi : lowerBound (fun i => decide (TO_COMPOSED.getD i 0 < key * 2 ^ 20)) TO_COMPOSED.length = it
  have hl := lower_div TO_COMPOSED (2 ^ 20) (Nat.two_pow_pos 20) key composed_sorted it hi
  obtain ⟨b1, b2, b3⟩ := lower_bounds TO_COMPOSED (2 ^ 20) (Nat.two_pow_pos 20) key composed_sorted it hi
  clear hi e1
  obtain ⟨c0, c1, c2, c3⟩ := composed_739
  have hfc := find_composite (key / 2 ^ 20) (key % 2 ^ 20) (Nat.mod_lt _ (Nat.two_pow_pos 20))
  have hkk : key / 2 ^ 20 * 2 ^ 20 + key % 2 ^ 20 = key := Nat.div_add_mod' key (2 ^ 20)
  rw [hkk] at hfc
  rw [← hl] at hfc
  rw [c0] at b1 b3 hfc ⊢
  simp only
  unfold composedByKey
  clear hl hkk
  by_cases h1 : it = 1046
  · rw [if_pos h1, if_pos]
    have := b2 1045 (by omega)
    omega
  · rw [if_neg h1] at hfc ⊢
    have hb : ¬ 0x1D1BC1D16F < key := by
      have := b3 1045 (by omega) (by omega)
      omega
    rw [if_neg hb]
    by_cases h2 : 2 ^ 32 ≤ key
    · rw [if_pos h2, if_pos]
      intro e
      have := Nat.mod_lt (TO_COMPOSED.getD it 0 / 2 ^ 20) (Nat.two_pow_pos 32)
      omega
    · rw [if_neg h2]
      have h739 : it ≤ 739 := by
        apply Nat.le_of_not_lt
        intro h
        have := b2 739 h
        omega
      by_cases h3 : it = 739
      · subst h3
        have h4 := b2 738 (by omega)
        rw [c2] at h4
        rw [c1] at hfc ⊢
        rw [if_pos (by omega)] at hfc ⊢
        rw [← hfc, Option.map_none, Option.getD_none]
        exact ok_zero
      · have h4 : TO_COMPOSED.getD it 0 / 2 ^ 20 ≤ TO_COMPOSED.getD 738 0 / 2 ^ 20 := by
          by_cases h5 : it = 738
          · rw [h5]; exact Nat.le_refl _
          · have := List.pairwise_iff_getElem.mp keys_lt it 738 (by omega) (by omega) (by omega)
            rw [getD_getElem _ _ (by omega), getD_getElem _ _ (by omega)]
            omega
        rw [c2] at h4
        have h5 : TO_COMPOSED.getD it 0 / 2 ^ 20 % 2 ^ 32 = TO_COMPOSED.getD it 0 / 2 ^ 20 := Nat.mod_eq_of_lt (by omega)
        rw [h5]
        by_cases h6 : TO_COMPOSED.getD it 0 / 2 ^ 20 ≠ key
        · rw [if_pos h6] at hfc ⊢
          rw [← hfc, Option.map_none, Option.getD_none]
          exact ok_zero
        · rw [if_neg h6] at hfc ⊢
          rw [← hfc, Option.map_some, Option.getD_some]

/-- `find_composed` for numbers that UTF-8 can express and marks below U+100000 -/
theorem findComposed_eq (ch mark : Char32) (hc : ch.toNat < 2 ^ 21) (hm : mark.toNat < 2 ^ 20) :
    findComposed ch mark = if mark.toNat < 0x300 then .ok 0 else composedByKey (ch.toNat * 2 ^ 20 + mark.toNat) := by
  unfold findComposed findComposedIn
  have e1 : mark < 0x300 ↔ mark.toNat < 0x300 := by rw [UInt32.lt_iff_toNat_lt]; rfl
  by_cases h : mark.toNat < 0x300
  · rw [if_pos (e1.mpr h), if_pos h]
  · rw [if_neg (fun h' => h (e1.mp h')), if_neg h]
    have e2 : ch.toNat * 2 ^ 20 % 2 ^ 64 ||| mark.toNat = ch.toNat * 2 ^ 20 + mark.toNat := by
      rw [Nat.mod_eq_of_lt (by omega), Nat.mul_comm, Nat.two_pow_add_eq_or_of_lt hm]
    simp only
    rw [e2]
    exact lookup_eq _ (by omega)

end Ystring
