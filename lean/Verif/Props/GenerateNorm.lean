import Verif.Proofs.GenerateNorm
/-
C83: the generator of the normalization tables.
-/
namespace Ystring
open Spec

/-- the line gives a canonical decomposition into two code points -/
def Spec.IsPair (l : Gen.DecompLine) (c a b : Nat) : Prop := l.id = c ∧ l.tagged = false ∧ l.values = [a, b]

theorem Gen.mem_getRules {lines : List Gen.DecompLine} {r : Nat × Nat × Nat} :
    r ∈ Gen.getRules lines ↔ ∃ l ∈ lines, IsPair l r.1 r.2.1 r.2.2 := by
  unfold Gen.getRules
  rw [List.mem_filterMap]
  constructor
  · rintro ⟨l, hl, h⟩
    refine ⟨l, hl, ?_⟩
    split at h
    · cases h
    · rename_i hc
      split at h
      · rename_i a b e
        cases h
        refine ⟨rfl, ?_, e⟩
        cases ht : l.tagged
        · rfl
        · exact absurd (.inr ht) hc
      · cases h
  · rintro ⟨l, hl, h1, h2, h3⟩
    refine ⟨l, hl, ?_⟩
    rw [if_neg (by rw [h2, h3]; simp), h3]
    simp only [Option.some.injEq]
    rw [h1]

theorem Gen.getRules_ascending {lines : List Gen.DecompLine} (ha : lines.Pairwise (fun p q => p.id < q.id)) :
    (Gen.getRules lines).Pairwise (fun p q => p.1 < q.1) := by
  unfold Gen.getRules
  rw [List.pairwise_filterMap]
  refine ha.imp ?_
  intro p q hpq r hr s hs
  have hid : ∀ (l : Gen.DecompLine) (r : Nat × Nat × Nat), (if l.values = [] ∨ l.tagged then none
      else match l.values with
        | [a, b] => some (l.id, a, b)
        | _ => none) = some r → r.1 = l.id := by
    intro l r h
    split at h
    · cases h
    · split at h
      · cases h; rfl
      · cases h
  rw [hid p r hr, hid q s hs]
  exact hpq

/-- C83. For every database with ascending code points whose canonical pairs lie below 2^20 (and whose code points with a pair
are at least U+00C0), looking up a code point in the table that make_normalization_file.py generates gives the pair of the
database, and "no decomposition" for every other 32-bit value. -/
theorem C83_decomposition (lines : List Gen.DecompLine) (ha : lines.Pairwise (fun p q => p.id < q.id))
    (hb : ∀ l ∈ lines, ∀ c a b, IsPair l c a b → 0xC0 ≤ c ∧ c < 2 ^ 20 ∧ a < 2 ^ 20 ∧ b < 2 ^ 20) (c : Char32) :
    let result := findDecomposedIn (Gen.decomposedTable (Gen.getRules lines)) c
    (∀ l ∈ lines, ∀ a b, IsPair l c.toNat a b → result = (UInt32.ofNat a, UInt32.ofNat b)) ∧
    ((∀ l ∈ lines, ∀ a b, ¬ IsPair l c.toNat a b) → result = (c, 0)) := by
  have hasc := Gen.getRules_ascending ha
  have hf : ∀ r ∈ Gen.getRules lines, Gen.RuleFits r := by
    intro r hr
    obtain ⟨l, hl, h⟩ := Gen.mem_getRules.mp hr
    have := hb l hl _ _ _ h
    exact ⟨this.2.1, this.2.2.1, this.2.2.2⟩
  have hC0 : ∀ r ∈ Gen.getRules lines, 0xC0 ≤ r.1 := by
    intro r hr
    obtain ⟨l, hl, h⟩ := Gen.mem_getRules.mp hr
    exact (hb l hl _ _ _ h).1
  have heq := Gen.findDecomposedIn_eq hasc hf hC0 c
  simp only
  rw [heq]
  refine ⟨?_, ?_⟩
  · intro l hl a b h
    have hm : (c.toNat, a, b) ∈ Gen.getRules lines := Gen.mem_getRules.mpr ⟨l, hl, h⟩
    cases hfind : (Gen.getRules lines).find? (fun r => r.1 == c.toNat) with
    | none =>
      rw [List.find?_eq_none] at hfind
      exact absurd (hfind _ hm) (by simp)
    | some r =>
      have h1 := List.mem_of_find?_eq_some hfind
      have h2 := List.find?_some hfind
      simp only [beq_iff_eq] at h2
      have : r = (c.toNat, a, b) := by
        have key : ∀ (rs : List (Nat × Nat × Nat)), rs.Pairwise (fun p q => p.1 < q.1) → ∀ x ∈ rs, ∀ y ∈ rs, x.1 = y.1 → x = y := by
          intro rs
          induction rs with
          | nil => intro _ x hx; cases hx
          | cons z rs ih =>
            intro hp x hx y hy e
            rw [List.pairwise_cons] at hp
            rcases List.mem_cons.mp hx with hx1 | hx1 <;> rcases List.mem_cons.mp hy with hy1 | hy1
            · rw [hx1, hy1]
            · have := hp.1 y hy1; rw [hx1] at e; omega
            · have := hp.1 x hx1; rw [hy1] at e; omega
            · exact ih hp.2 x hx1 y hy1 e
        exact key _ hasc r h1 _ hm h2
      rw [this]
  · intro hno
    rw [List.find?_eq_none.mpr]
    intro r hr
    obtain ⟨l, hl, h⟩ := Gen.mem_getRules.mp hr
    simp only [beq_iff_eq]
    intro e
    rw [e] at h
    exact hno l hl _ _ h

/-- C83 (partial): composition with the table generated for any database without two equal canonical pairs. A pair whose
first code point is below U+1000 is composed; no pair whose first code point is U+1000 or above is. If all pairs begin below
U+1000, two code points that are not a pair are not composed, or, if no pair comes after them, the end of the table is read
(undefined behaviour). Missing: composition of pairs above U+1000 and two code points after the last pair (the code is
wrong, C55), and see `C83_false_composition`. -/
theorem C83_composition_partial (lines : List Gen.DecompLine) (ha : lines.Pairwise (fun p q => p.id < q.id))
    (hd : ∀ l ∈ lines, ∀ m ∈ lines, ∀ c d a b, IsPair l c a b → IsPair m d a b → c = d)
    (hb : ∀ l ∈ lines, ∀ c a b, IsPair l c a b → c < 2 ^ 20 ∧ a < 2 ^ 20 ∧ b < 2 ^ 20)
    (ch mark : Char32) (hc : ch.toNat < 2 ^ 21) (hm : 0x300 ≤ mark.toNat) (hm2 : mark.toNat < 2 ^ 20) :
    let result := findComposedIn (Gen.composedTable (Gen.getRules lines)) ch mark
    (∀ l ∈ lines, ∀ c, IsPair l c ch.toNat mark.toNat → ch.toNat < 0x1000 → result = .ok (UInt32.ofNat c)) ∧
    (0x1000 ≤ ch.toNat → result = .ok 0 ∨ result = .error .ub) ∧
    ((∀ l ∈ lines, ∀ c, ¬ IsPair l c ch.toNat mark.toNat) → (∀ l ∈ lines, ∀ c a b, IsPair l c a b → a < 0x1000) →
      ((∃ l ∈ lines, ∃ c a b, IsPair l c a b ∧ (ch.toNat < a ∨ (ch.toNat = a ∧ mark.toNat < b))) → result = .ok 0) ∧
      ((¬ ∃ l ∈ lines, ∃ c a b, IsPair l c a b ∧ (ch.toNat < a ∨ (ch.toNat = a ∧ mark.toNat < b))) → result = .error .ub)) := by
  have hf : ∀ r ∈ Gen.getRules lines, Gen.RuleFits r := by
    intro r hr
    obtain ⟨l, hl, h⟩ := Gen.mem_getRules.mp hr
    have := hb l hl _ _ _ h
    exact ⟨this.1, this.2.1, this.2.2⟩
  have hdr : (Gen.getRules lines).Pairwise (fun p q => p.2 ≠ q.2) := by
    refine List.Pairwise.imp_of_mem ?_ (Gen.getRules_ascending ha)
    intro p q hp hq hlt e
    obtain ⟨l, hl, h⟩ := Gen.mem_getRules.mp hp
    obtain ⟨m, hm, h'⟩ := Gen.mem_getRules.mp hq
    rw [← e] at h'
    have := hd l hl m hm _ _ _ _ h h'
    omega
  have hcases := Gen.findComposedIn_cases hdr hf ch mark (by omega) hm2 hm
  simp only
  refine ⟨?_, ?_, ?_⟩
  · intro l hl c hp hlt
    have hmem : (c, ch.toNat, mark.toNat) ∈ Gen.getRules lines := Gen.mem_getRules.mpr ⟨l, hl, hp⟩
    rcases hcases with ⟨_, h⟩ | ⟨r, hr, h1, h2, h3⟩
    · have := h _ hmem; simp only at this; omega
    · have h4 := h2 _ hmem (Nat.le_refl _)
      simp only at h4
      have hrb := hf r hr
      have b1 := hrb.snd
      have e1 : r.2.1 = ch.toNat := by omega
      have e2 : r.2.2 = mark.toNat := by omega
      rw [h3, if_pos (by rw [e1, e2]; exact Nat.mod_eq_of_lt (by omega))]
      obtain ⟨l', hl', hp'⟩ := Gen.mem_getRules.mp hr
      rw [e1, e2] at hp'
      rw [hd l' hl' l hl _ _ _ _ hp' hp]
  · intro hge
    rcases hcases with ⟨h, _⟩ | ⟨r, hr, h1, h2, h3⟩
    · exact .inr h
    · rw [if_neg] at h3
      · exact .inl h3
      · have := Nat.mod_lt (r.2.1 * 2 ^ 20 + r.2.2) (Nat.two_pow_pos 32)
        omega
  · intro hno hsm
    rcases hcases with ⟨h, hall⟩ | ⟨r, hr, h1, h2, h3⟩
    · refine ⟨?_, fun _ => h⟩
      rintro ⟨l, hl, c, a, b, hp, hlex⟩
      have := hall _ ((Gen.mem_getRules (r := (c, a, b))).mpr ⟨l, hl, hp⟩)
      have := (hb l hl _ _ _ hp)
      simp only at *
      omega
    · obtain ⟨l, hl, hp⟩ := Gen.mem_getRules.mp hr
      have hb' := hb l hl _ _ _ hp
      have hs' := hsm l hl _ _ _ hp
      have hne : r.2.1 * 2 ^ 20 + r.2.2 ≠ ch.toNat * 2 ^ 20 + mark.toNat := by
        intro e
        have e1 : r.2.1 = ch.toNat := by omega
        have e2 : r.2.2 = mark.toNat := by omega
        rw [e1, e2] at hp
        exact hno l hl _ hp
      refine ⟨fun _ => ?_, fun h => absurd ⟨l, hl, _, _, _, hp, by omega⟩ h⟩
      rw [h3, if_neg]
      rw [Nat.mod_eq_of_lt (by omega)]
      exact hne

/-- a database with two pairs and a compatibility decomposition -/
def pairLines : List Gen.DecompLine := [⟨0xC0, false, [0x41, 0x300]⟩, ⟨0xC1, false, [0x41, 0x301]⟩, ⟨0x132, true, [0x49, 0x4A]⟩]

/-- The hypotheses hold for it. -/
example : pairLines.Pairwise (fun p q => p.id < q.id) ∧
    (∀ l ∈ pairLines, ∀ c a b, IsPair l c a b → 0xC0 ≤ c ∧ c < 2 ^ 20 ∧ a < 2 ^ 20 ∧ b < 2 ^ 20) ∧
    (∀ l ∈ pairLines, ∀ m ∈ pairLines, ∀ c d a b, IsPair l c a b → IsPair m d a b → c = d) ∧
    IsPair ⟨0xC0, false, [0x41, 0x300]⟩ 0xC0 0x41 0x300 := by
  refine ⟨by decide, ?_, ?_, by unfold IsPair; decide⟩
  · intro l hl c a b h
    simp only [pairLines, List.mem_cons, List.not_mem_nil, or_false] at hl
    rcases hl with rfl | rfl | rfl <;> simp [IsPair] at h <;> omega
  · intro l hl m hm c d a b h h'
    simp only [pairLines, List.mem_cons, List.not_mem_nil, or_false] at hl hm
    rcases hl with rfl | rfl | rfl <;> rcases hm with rfl | rfl | rfl <;> simp [IsPair] at h h' <;> omega

/-- C83: what composition would do for every database is false: the comparison of truncated keys composes 'A' with U+0301 if
the database has a pair U+1041, U+0301. -/
theorem C83_false_composition : findComposedIn (Gen.composedTable (Gen.getRules [⟨0x500, false, [0x1041, 0x301]⟩])) 0x41 0x301 =
    .ok 0x500 := by
  have h : Gen.composedTable (Gen.getRules [⟨0x500, false, [0x1041, 0x301]⟩]) = [0x1041 * 2 ^ 40 + 0x301 * 2 ^ 20 + 0x500] := by
    unfold Gen.composedTable
    have : Gen.getRules [⟨0x500, false, [0x1041, 0x301]⟩] = [(0x500, 0x1041, 0x301)] := rfl
    rw [this, List.mergeSort_singleton]
    rfl
  rw [h]; decide +kernel

theorem pairs_fit : ∀ r ∈ UD_PAIRS, Gen.RuleFits r := by
  intro r hr
  have f := pair_facts (c := r.1) (b := r.2.1) (m := r.2.2) hr
  have := f.hc; have := f.hb; have := f.hm
  exact ⟨by omega, by omega, by omega⟩

/-- C83. The tables of src/Ystring are those that are generated from UnicodeData16.0.0.txt (`UD_PAIRS` are the canonical
decompositions into two code points, in file order). -/
theorem C83_generated : Gen.decomposedTable UD_PAIRS = TO_DECOMPOSED ∧ Gen.composedTable UD_PAIRS = TO_COMPOSED := by
  refine ⟨?_, ?_⟩
  · rw [decomposed_eq]
    exact List.map_congr_left fun r hr => Gen.encodeDecomposed_eq (pairs_fit r hr)
  · have hd : UD_PAIRS.Pairwise (fun p q => p.2 ≠ q.2) := by
      have hasc : UD_PAIRS.Pairwise (fun p q => p.1 < q.1) := by
        have := pairwise_of_incr pairs_incr
        rw [List.pairwise_map] at this
        exact this
      refine List.Pairwise.imp_of_mem ?_ hasc
      intro p q hp hq hlt e
      have f1 := (pair_facts (c := p.1) (b := p.2.1) (m := p.2.2) hp).hc.2
      have f2 := (pair_facts (c := q.1) (b := q.2.1) (m := q.2.2) hq).hc.2
      have h1 := entry_mem (c := p.1) (b := p.2.1) (m := p.2.2) hp
      have h2 := entry_mem (c := q.1) (b := q.2.1) (m := q.2.2) hq
      have h3 := key_inj keys_lt h1 h2 (by rw [(entry_key _ _ _ f1).1, (entry_key _ _ _ f2).1, e])
      rw [e] at h3
      omega
    refine Gen.eq_of_sorted ?_ composed_sorted ?_
    · exact (Gen.composedTable_sorted hd pairs_fit).imp (fun {a b} h =>
        Nat.lt_of_not_le (fun h' => absurd (Nat.div_le_div_right (c := 2 ^ 20) h') (by omega)))
    · intro x
      rw [Gen.mem_composedTable, mem_composed]
      constructor
      · rintro ⟨r, hr, e⟩
        exact ⟨r, hr, by rw [← e, Gen.encodeComposed_eq (pairs_fit r hr)]⟩
      · rintro ⟨r, hr, e⟩
        exact ⟨r, hr, by rw [e, Gen.encodeComposed_eq (pairs_fit r hr)]⟩

end Ystring
