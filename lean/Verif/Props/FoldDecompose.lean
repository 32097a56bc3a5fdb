import Verif.Props.CaseDecompose
import Verif.Props.CaseInsensitiveFind
import Verif.Props.CaseChar
import Verif.Props.FoldCongruence
/-
Property theorems C127: case-insensitive comparison and search after decomposition.
-/
namespace Ystring
open Spec

/-- the folded decomposition depends only on the upper case -/
theorem chain_fold (c : Nat) : (chainOf (simpleUpper c)).map simpleUpper = (chainOf c).map simpleUpper := by
  by_cases h : c ∈ UpperSplits ++ upperSplits4
  · have := eq_of_eqNats (List.all_eq_true.mp upper_folds _ h)
    have e : simpleUpper = caseGroupOf upperGroups := funext upperGroups_eq
    rw [e]; exact this
  · rw [chain_upper' h, List.map_map]
    apply List.map_congr_left
    intro x _
    exact simpleUpper_idem x

theorem chain_fold_same {c d : Nat} (h : simpleUpper c = simpleUpper d) : (chainOf c).map simpleUpper = (chainOf d).map simpleUpper := by
  rw [← chain_fold c, h, chain_fold d]

/-- the folded text of a decomposition -/
theorem fold_dec (us : List Unit8) :
    fold (valsOf (us.flatMap decUnits)) = (fold (valsOf us)).flatMap (fun u => (chainOf u).map simpleUpper) := by
  have h1 : ∀ vs : List Unit8, fold (valsOf vs) = (vs.map (fun v => v.2.toNat)).map simpleUpper := by
    intro vs; simp [fold, valsOf, Function.comp_def]
  rw [h1, dec_nats, h1, List.map_flatMap, List.flatMap_map, List.flatMap_map, List.flatMap_map]
  apply flatMap_congr'
  intro c _
  exact (chain_fold _).symm

/-- decomposition keeps sameness up to case -/
theorem sameFold_dec {s t d : Str} {g : Nat} (h : SameFold s t) (hd : toDecomposed s (g + 1) = .ok d) :
    ∃ e, toDecomposed t (g + 1) = .ok e ∧ SameFold d e := by
  obtain ⟨cs, ds, h1, h2, hf⟩ := h
  obtain ⟨us, hu, rfl, h3, rfl⟩ := toDecomposed_ok hd
  have := hu.decodes.unique h1
  subst this
  obtain ⟨vs, hv, rfl, rfl⟩ := h2.units
  have hv3 : ∀ v ∈ vs, (chainOf v.2.toNat).length ≤ 3 := by
    intro v hv'
    have : simpleUpper v.2.toNat ∈ fold (valsOf us) := by
      rw [hf]
      exact List.mem_map_of_mem (f := fun c : Char32 => simpleUpper c.toNat) (valsOf_mem hv')
    obtain ⟨x, hx, e⟩ := List.mem_map.mp this
    obtain ⟨u, hu', rfl⟩ := List.mem_map.mp hx
    have := congrArg List.length (chain_fold_same e)
    rw [List.length_map, List.length_map] at this
    rw [← this]
    exact h3 u hu'
  refine ⟨_, toDecomposed_of_units hv hv3 g, _, _, (decUnits_all us hu).1.decodes, (decUnits_all vs hv).1.decodes, ?_⟩
  rw [fold_dec, fold_dec, hf]

theorem SameFold.symm {a b : Str} (h : SameFold a b) : SameFold b a := by
  obtain ⟨cs, ds, h1, h2, h3⟩ := h
  exact ⟨ds, cs, h2, h1, h3.symm⟩

theorem dec_valid {s d : Str} {g : Nat} (h : toDecomposed s (g + 1) = .ok d) : Valid s ∧ Valid d := by
  obtain ⟨us, hu, rfl, _, rfl⟩ := toDecomposed_ok h
  exact ⟨⟨_, hu.decodes⟩, ⟨_, (decUnits_all us hu).1.decodes⟩⟩

theorem dec_nonempty {s d : Str} {g : Nat} (h : toDecomposed s (g + 1) = .ok d) (h0 : s ≠ []) : d ≠ [] := by
  obtain ⟨us, hu, rfl, _, rfl⟩ := toDecomposed_ok h
  intro e
  cases us with
  | nil => exact h0 rfl
  | cons u us =>
    have hn := dec_nats (u :: us)
    have hd := (decUnits_all (u :: us) hu).1.decodes
    rw [e] at hd
    have : valsOf ((u :: us).flatMap decUnits) = [] := hd.unique .nil
    have h2 : ((u :: us).flatMap decUnits) = [] := by simpa [valsOf] using this
    rw [h2] at hn
    have hl : chainOf u.2.toNat = [] := by
      simp only [List.map_nil, List.map_cons, List.flatMap_cons] at hn
      exact (List.append_eq_nil_iff.mp hn.symm).1
    have := chainOf_spec u.2.toNat
    rw [hl] at this
    cases this

/-- decomposition keeps occurrences -/
theorem foldAt_dec {s p d q : Str} {g i n : Nat} (h : FoldAt s p i n) (hd : toDecomposed s (g + 1) = .ok d)
    (hq : toDecomposed p (g + 1) = .ok q) : ∃ a m b a' m' b', s = a ++ m ++ b ∧ d = a' ++ m' ++ b' ∧ a.length = i ∧ m.length = n ∧
      toDecomposed a (g + 1) = .ok a' ∧ toDecomposed m (g + 1) = .ok m' ∧ toDecomposed b (g + 1) = .ok b' ∧
      FoldAt d q a'.length m'.length := by
  obtain ⟨a, m, b, rfl, h1, h2, ha, hb, hf⟩ := h
  have hm : Valid m := by obtain ⟨cs, _, h, _⟩ := hf; exact ⟨cs, h⟩
  rw [List.append_assoc] at hd
  obtain ⟨a', v, e1, e2, rfl⟩ := (C101_concat a (m ++ b) ha g _).mp hd
  obtain ⟨m', b', e3, e4, rfl⟩ := (C101_concat m b hm g _).mp e2
  obtain ⟨e, he, hf'⟩ := sameFold_dec hf e3
  rw [hq] at he
  cases he
  exact ⟨a, m, b, a', m', b', rfl, by simp, h1, h2, e1, e3, e4, a', m', b', by simp, rfl, rfl, (dec_valid e1).2, (dec_valid e4).2, hf'⟩

namespace CI

/-- C127: strings that are equal up to case still are after decomposition (and one can be decomposed if the other can). -/
theorem C127_equal (s t d : Str) (g : Nat) (h : equal s t = .ok true) (hd : toDecomposed s (g + 1) = .ok d) :
    ∃ e, toDecomposed t (g + 1) = .ok e ∧ equal d e = .ok true := by
  obtain ⟨e, he, hf⟩ := sameFold_dec ((C100_equal_true s t).mp h) hd
  exact ⟨e, he, (C100_equal_true d e).mpr hf⟩

/-- C127: a string that starts with another one up to case still does after decomposition. -/
theorem C127_starts_with (s p d q : Str) (g : Nat) (h : startsWith s p = .ok true) (hd : toDecomposed s (g + 1) = .ok d)
    (hq : toDecomposed p (g + 1) = .ok q) : startsWith d q = .ok true := by
  obtain ⟨hs, hd'⟩ := dec_valid hd
  obtain ⟨hp, hq'⟩ := dec_valid hq
  obtain ⟨b, hb, hi⟩ := C46_starts_with hs hp
  rw [h] at hb
  cases hb
  obtain ⟨m, r, rfl, hr, hf⟩ := hi.mp rfl
  have hm : Valid m := by obtain ⟨cs, _, h, _⟩ := hf; exact ⟨cs, h⟩
  obtain ⟨m', r', e1, e2, rfl⟩ := (C101_concat m r hm g _).mp hd
  obtain ⟨e, he, hf'⟩ := sameFold_dec hf e1
  rw [hq] at he
  cases he
  obtain ⟨b, hb, hi'⟩ := C46_starts_with hd' hq'
  rw [hb, hi'.mpr ⟨m', r', rfl, (dec_valid e2).2, hf'⟩]

/-- C127: a string that ends with another one up to case still does after decomposition. -/
theorem C127_ends_with (s p d q : Str) (g : Nat) (h : endsWith s p = .ok true) (hd : toDecomposed s (g + 1) = .ok d)
    (hq : toDecomposed p (g + 1) = .ok q) : endsWith d q = .ok true := by
  obtain ⟨hs, hd'⟩ := dec_valid hd
  obtain ⟨hp, hq'⟩ := dec_valid hq
  obtain ⟨b, hb, hi⟩ := C46_ends_with hs hp
  rw [h] at hb
  cases hb
  obtain ⟨l, m, rfl, hl, hf⟩ := hi.mp rfl
  obtain ⟨l', m', e1, e2, rfl⟩ := (C101_concat l m hl g _).mp hd
  obtain ⟨e, he, hf'⟩ := sameFold_dec hf e2
  rw [hq] at he
  cases he
  obtain ⟨b, hb, hi'⟩ := C46_ends_with hd' hq'
  rw [hb, hi'.mpr ⟨l', m', rfl, (dec_valid e1).2, hf'⟩]

/-- C127: what find_first finds is still found after decomposition: at, or before, the place where it was. -/
theorem C127_find_first (s p d q : Str) (g i n : Nat) (h : findFirst s p = .ok ⟨i, n⟩) (hi : i < npos)
    (hd : toDecomposed s (g + 1) = .ok d) (hq : toDecomposed p (g + 1) = .ok q) :
    ∃ a a' j k, toDecomposed (s.take i) (g + 1) = .ok a ∧ toDecomposed ((s.drop i).take n) (g + 1) = .ok a' ∧ equal a' q = .ok true ∧
      findFirst d q = .ok ⟨j, k⟩ ∧ j ≤ a.length ∧ 0 < k := by
  obtain ⟨hs, hd'⟩ := dec_valid hd
  obtain ⟨hp, hq'⟩ := dec_valid hq
  have h0 : p ≠ [] := by
    intro e
    rw [e, (C45_find_first_corner s [] 0).1] at h
    cases h
    exact Nat.lt_irrefl _ hi
  have hres := C45_find_first [] s p hs hp h0
  simp only [List.nil_append, List.length_nil, Nat.zero_add] at hres
  cases hres with
  | inl h1 => rw [h1.2] at h; cases h; exact absurd hi (Nat.lt_irrefl _)
  | inr h1 =>
    obtain ⟨i', n', hf, _, _, e⟩ := h1
    rw [h] at e
    cases e
    obtain ⟨a, m, b, a', m', b', rfl, rfl, rfl, rfl, e1, e2, e3, hf'⟩ := foldAt_dec hf hd hq
    have hres := C45_find_first [] _ q hd' hq' (dec_nonempty hq h0)
    simp only [List.nil_append, List.length_nil, Nat.zero_add] at hres
    cases hres with
    | inl h2 => exact absurd hf' (h2.1 _ _)
    | inr h2 =>
      obtain ⟨j, k, _, hk, hmin, e⟩ := h2
      refine ⟨a', m', j, k, by simpa using e1, by simpa using e2, ?_, e, hmin _ _ hf', hk⟩
      obtain ⟨x, y, z, ex, l1, l2, _, _, hxy⟩ := hf'
      have := List.append_inj (List.append_assoc _ _ _ ▸ List.append_assoc _ _ _ ▸ ex : a' ++ (m' ++ b') = x ++ (y ++ z)) l1.symm
      have := List.append_inj this.2 l2.symm
      rw [this.1]
      exact (C100_equal_true _ _).mpr hxy

/-- C127: what find_last finds is still found after decomposition: at, or after, the place where it was. -/
theorem C127_find_last (s p d q : Str) (g i n : Nat) (h : findLast s p = .ok ⟨i, n⟩) (hi : i < npos) (hl : s.length ≤ npos)
    (hl' : d.length ≤ npos) (hd : toDecomposed s (g + 1) = .ok d) (hq : toDecomposed p (g + 1) = .ok q) :
    ∃ a a' j k, toDecomposed (s.take i) (g + 1) = .ok a ∧ toDecomposed ((s.drop i).take n) (g + 1) = .ok a' ∧ equal a' q = .ok true ∧
      findLast d q = .ok ⟨j, k⟩ ∧ a.length ≤ j ∧ j < npos ∧ 0 < k := by
  obtain ⟨hs, hd'⟩ := dec_valid hd
  obtain ⟨hp, hq'⟩ := dec_valid hq
  have h0 : p ≠ [] := by
    intro e
    rw [e] at h
    have : findLast s [] = .ok ⟨npos, 0⟩ := by simp only [findLast, List.reverse_nil]; rfl
    rw [this] at h
    cases h
    exact Nat.lt_irrefl _ hi
  have hres := C45_find_last s [] p hs hp h0 npos (by rw [List.append_nil]; omega)
  rw [List.append_nil] at hres
  cases hres with
  | inl h1 => rw [h1.2] at h; cases h; exact absurd hi (Nat.lt_irrefl _)
  | inr h1 =>
    obtain ⟨i', n', hf, _, _, e⟩ := h1
    rw [h] at e
    cases e
    obtain ⟨a, m, b, a', m', b', rfl, rfl, rfl, rfl, e1, e2, e3, hf'⟩ := foldAt_dec hf hd hq
    have hres := C45_find_last (a' ++ m' ++ b') [] q hd' hq' (dec_nonempty hq h0) npos (by rw [List.append_nil]; omega)
    rw [List.append_nil] at hres
    cases hres with
    | inl h2 => exact absurd hf' (h2.1 _ _)
    | inr h2 =>
      obtain ⟨j, k, hjk, hk, hmax, e⟩ := h2
      refine ⟨a', m', j, k, by simpa using e1, by simpa using e2, ?_, e, (hmax _ _ hf').1, ?_, hk⟩
      · obtain ⟨x, y, z, ex, l1, l2, _, _, hxy⟩ := hf'
        have := List.append_inj (List.append_assoc _ _ _ ▸ List.append_assoc _ _ _ ▸ ex : a' ++ (m' ++ b') = x ++ (y ++ z)) l1.symm
        have := List.append_inj this.2 l2.symm
        rw [this.1]
        exact (C100_equal_true _ _).mpr hxy
      · obtain ⟨x, y, z, ex, l1, l2, _⟩ := hjk
        have := congrArg List.length ex
        simp only [List.length_append] at this hl'
        omega

/-- the other direction does not hold: é, and e with a combining acute accent -/
theorem C127_false_converse : equal [0xC3, 0xA9] [0x65, 0xCC, 0x81] = .ok false ∧
    toDecomposed [0xC3, 0xA9] 1 = .ok [0x65, 0xCC, 0x81] ∧ toDecomposed [0x65, 0xCC, 0x81] 1 = .ok [0x65, 0xCC, 0x81] ∧
    equal [0x65, 0xCC, 0x81] [0x65, 0xCC, 0x81] = .ok true := by decide +kernel

/-- composition, unlike decomposition, does not keep case-insensitive equality: j with a caron composes, J with a caron has no composed form -/
theorem C127_false_composed : equal [0x6A, 0xCC, 0x8C] [0x4A, 0xCC, 0x8C] = .ok true ∧
    toComposed [0x6A, 0xCC, 0x8C] = .ok [0xC7, 0xB0] ∧ toComposed [0x4A, 0xCC, 0x8C] = .ok [0x4A, 0xCC, 0x8C] ∧
    equal [0xC7, 0xB0] [0x4A, 0xCC, 0x8C] = .ok false := by decide +kernel

/-- "é" and "É" -/
example : equal [0xC3, 0xA9] [0xC3, 0x89] = .ok true ∧ toDecomposed [0xC3, 0xA9] 1 = .ok [0x65, 0xCC, 0x81] ∧
    toDecomposed [0xC3, 0x89] 1 = .ok [0x45, 0xCC, 0x81] := by decide +kernel

example : startsWith [0xC3, 0xA9, 0x61] [0xC3, 0x89] = .ok true ∧ endsWith [0x61, 0xC3, 0xA9] [0xC3, 0x89] = .ok true ∧
    findFirst [0x61, 0xC3, 0xA9] [0xC3, 0x89] = .ok ⟨1, 2⟩ ∧ findLast [0x61, 0xC3, 0xA9] [0xC3, 0x89] = .ok ⟨1, 2⟩ ∧
    toDecomposed [0x61, 0xC3, 0xA9] 1 = .ok [0x61, 0x65, 0xCC, 0x81] := by decide +kernel

end CI
end Ystring
