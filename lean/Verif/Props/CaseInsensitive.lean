import Verif.Proofs.CaseInsensitive
import Verif.Props.Case
import Verif.Props.Split
/-
Property theorems C43 (equal), C44 (compare, less), C45 (find_first, find_last), C46 (starts_with, ends_with),
C47 (replace, split) of namespace case_insensitive.
-/
namespace Ystring
open Spec

namespace CI

/-! ### C43 -/

theorem equalLoop_units {us : List Unit8} : ∀ {vs : List Unit8} {fuel : Nat}, Units us → Units vs → us.length < fuel →
    equalLoop fuel (bytesOf us) (bytesOf vs) = .ok (decide (fu us = fu vs)) := by
  induction us with
  | nil =>
    intro vs fuel _ hv hf
    obtain ⟨fuel, rfl⟩ : ∃ f, fuel = f + 1 := ⟨fuel - 1, by simp at hf; omega⟩
    cases vs with
    | nil => simp [equalLoop, bind, Except.bind]
    | cons v vs =>
      simp only [Units_cons] at hv
      rw [equalLoop, bytesOf_cons, safeDecodeNext_seq hv.1]
      simp [bind, Except.bind]
  | cons x us ih =>
    intro vs fuel hu hv hf
    obtain ⟨fuel, rfl⟩ : ∃ f, fuel = f + 1 := ⟨fuel - 1, by simp at hf; omega⟩
    simp only [Units_cons] at hu
    simp only [List.length_cons] at hf
    rw [equalLoop, bytesOf_cons, safeDecodeNext_seq hu.1]
    cases vs with
    | nil => simp [bind, Except.bind]
    | cons v vs =>
      simp only [Units_cons] at hv
      rw [bytesOf_cons, safeDecodeNext_seq hv.1]
      simp only [bind, Except.bind]
      by_cases he : caseInsensitiveEqual x.2 v.2 = true
      · rw [he]
        have e := (ciEqual_iff _ _).mp he
        simp only [Bool.not_true, Bool.false_eq_true, if_false]
        rw [ih hu.2 hv.2 (by omega)]
        simp [e]
      · have e : ¬ _ := fun e => he ((ciEqual_iff x.2 v.2).mpr e)
        simp [he, e]

/-- C43: on valid strings `equal` compares the simple upper case mappings of the code points. -/
theorem C43_equal {s t : Str} {cs ds : List Char32} (hs : Decodes s cs) (ht : Decodes t ds) :
    equal s t = .ok (decide (fold cs = fold ds)) := by
  obtain ⟨us, hu, rfl, rfl⟩ := hs.units
  obtain ⟨vs, hv, rfl, rfl⟩ := ht.units
  exact equalLoop_units hu hv (by have := units_length hu; omega)

theorem C43_equal_iff {s t : Str} (hs : Valid s) (ht : Valid t) :
    (equal s t = .ok true ↔ SameFold s t) ∧ (equal s t = .ok false ↔ ¬ SameFold s t) := by
  obtain ⟨cs, hs⟩ := hs
  obtain ⟨ds, ht⟩ := ht
  rw [C43_equal hs ht]
  have : SameFold s t ↔ fold cs = fold ds := by
    constructor
    · rintro ⟨cs', ds', h1, h2, h3⟩
      rw [hs.unique h1, ht.unique h2, h3]
    · intro h; exact ⟨cs, ds, hs, ht, h⟩
  rw [this]
  simp

-- "straße" and "STRAßE"
example : equal [0x73, 0x74, 0x72, 0x61, 0xC3, 0x9F, 0x65] [0x53, 0x54, 0x52, 0x41, 0xC3, 0x9F, 0x45] = .ok true := by
  decide +kernel

/-- C43: on valid strings `equal` is an equivalence relation. -/
theorem C43_equivalence {s t u : Str} (hs : Valid s) (ht : Valid t) (hu : Valid u) :
    equal s s = .ok true ∧ equal s t = equal t s ∧
    (equal s t = .ok true → equal t u = .ok true → equal s u = .ok true) := by
  obtain ⟨cs, hs⟩ := hs
  obtain ⟨ds, ht⟩ := ht
  obtain ⟨es, hu⟩ := hu
  rw [C43_equal hs hs, C43_equal hs ht, C43_equal ht hs, C43_equal ht hu, C43_equal hs hu]
  refine ⟨by simp, by simp [eq_comm], ?_⟩
  intro h1 h2
  simp at h1 h2 ⊢
  rw [h1, h2]

/-- one step of a loop over two strings: what `safeDecodeNext` can return -/
theorem safeDecodeNext_cases (s : Str) : (s = [] ∧ safeDecodeNext s = .ok none) ∨
    (∃ u c t, IsSeq u c ∧ s = u ++ t ∧ safeDecodeNext s = .ok (some (c, t))) ∨ safeDecodeNext s = .error .ystring := by
  by_cases h0 : s = []
  · subst h0; exact .inl ⟨rfl, rfl⟩
  · by_cases hp : HasSeqPrefix s
    · obtain ⟨u, c, t, hu, rfl⟩ := hp
      exact .inr (.inl ⟨u, c, t, hu, rfl, safeDecodeNext_seq hu t⟩)
    · exact .inr (.inr (safeDecodeNext_bad h0 hp))

/-- C43: on any two strings `equal` returns or throws YstringException; it throws only if one of them is not valid. -/
theorem C43_total (s t : Str) : (∃ b, equal s t = .ok b) ∨ (equal s t = .error .ystring ∧ ¬ (Valid s ∧ Valid t)) := by
  have key : ∀ (fuel : Nat) (s t : Str), s.length < fuel → (∃ b, equalLoop fuel s t = .ok b) ∨ equalLoop fuel s t = .error .ystring := by
    intro fuel
    induction fuel with
    | zero => intro s t h; omega
    | succ fuel ih =>
      intro s t h
      rw [equalLoop]
      rcases safeDecodeNext_cases s with ⟨rfl, h1⟩ | ⟨u, c, s', hu, rfl, h1⟩ | h1
      · rw [h1]
        rcases safeDecodeNext_cases t with ⟨rfl, h2⟩ | ⟨v, d, t', hv, rfl, h2⟩ | h2 <;> rw [h2] <;> simp [bind, Except.bind]
      · rw [h1]
        rcases safeDecodeNext_cases t with ⟨rfl, h2⟩ | ⟨v, d, t', hv, rfl, h2⟩ | h2 <;> rw [h2] <;> simp only [bind, Except.bind]
        · simp
        · split
          · simp
          · have := hu.length_pos
            exact ih s' t' (by simp at h; omega)
        · simp
      · rw [h1]; simp [bind, Except.bind]
  rcases key (s.length + 1) s t (by omega) with ⟨b, h⟩ | h
  · exact .inl ⟨b, h⟩
  · right
    refine ⟨h, ?_⟩
    rintro ⟨⟨cs, hs⟩, ds, ht⟩
    have := C43_equal hs ht
    unfold equal at this
    rw [h] at this; simp at this

/-- C43 as stated is false: "ß" and "SS" have the same upper case version but are not equal. -/
theorem C43_false : ∃ s t u, Valid s ∧ Valid t ∧ toUpper s = .ok u ∧ toUpper t = .ok u ∧ equal s t = .ok false := by
  refine ⟨[0xC3, 0x9F], [0x53, 0x53], [0x53, 0x53], ⟨[0xDF], ?_⟩, ⟨[0x53, 0x53], ?_⟩, ?_⟩
  · exact Decodes.cons (u := [0xC3, 0x9F]) (s := []) (.two (by decide) (by decide) (by decide) (by decide)) .nil
  · exact Decodes.cons (u := [0x53]) (s := [0x53]) (.one (by decide) (by decide))
      (Decodes.cons (u := [0x53]) (s := []) (.one (by decide) (by decide)) .nil)
  · decide +kernel

theorem ss_of_upper (c : Char32) (h : simpleUpper c.toNat = 0xDF) : c.toNat = 0xDF := by
  by_cases hc : c.toNat = 0xDF
  · exact hc
  · exact absurd h (simpleUpper_ne_ss _ hc)

theorem upper_ss (n : Nat) (h : n = 0xDF) : simpleUpper n = 0xDF := by subst h; decide +kernel

theorem upper_inj (c d : Char32) (h : simpleUpper c.toNat = simpleUpper d.toNat) : upperChars c = upperChars d := by
  unfold upperChars
  by_cases hc : c.toNat = 0xDF
  · rw [if_pos hc, if_pos (ss_of_upper d (h.symm.trans (upper_ss _ hc)))]
  · have hd : d.toNat ≠ 0xDF := by
      intro hd; exact hc (ss_of_upper c (h.trans (upper_ss _ hd)))
    rw [if_neg hc, if_neg hd]
    congr 1
    apply UInt32.toNat_inj.mp
    rw [C52_to_upper, C52_to_upper, h]

theorem fold_flatMap (cs : List Char32) : ∀ ds : List Char32, fold cs = fold ds →
    cs.flatMap upperChars = ds.flatMap upperChars := by
  induction cs with
  | nil => intro ds h; cases ds with
    | nil => rfl
    | cons d ds => simp [fold] at h
  | cons c cs ih => intro ds h; cases ds with
    | nil => simp [fold] at h
    | cons d ds =>
      simp only [fold, List.map_cons, List.cons.injEq] at h
      simp only [List.flatMap_cons]
      rw [upper_inj c d h.1, ih ds h.2]

/-- C43, the true part of the second half: equal strings have equal upper case versions, and strings without ß whose
upper case versions are equal are equal. -/
theorem C43_upper_partial {s t u v : Str} (hs : toUpper s = .ok u) (ht : toUpper t = .ok v) :
    (equal s t = .ok true → u = v) ∧
    ((∀ cs, Decodes s cs ∨ Decodes t cs → ∀ c ∈ cs, c.toNat ≠ 0xDF) → u = v → equal s t = .ok true) := by
  obtain ⟨cs, h1, h2, rfl⟩ := conv_ok C53_to_upper hs
  obtain ⟨ds, h3, h4, rfl⟩ := conv_ok C53_to_upper ht
  rw [C43_equal h1 h3]
  constructor
  · intro h
    simp at h
    rw [upperText_eq, upperText_eq, ← List.flatMap_assoc, ← List.flatMap_assoc, fold_flatMap cs ds h]
  · intro hn h
    have h5 := (upperText_decodes cs h2).1
    have h6 := (upperText_decodes ds h4).1
    rw [h] at h5
    have h7 := h5.unique h6
    have key : ∀ l : List Char32, (∀ c ∈ l, c.toNat ≠ 0xDF) → l.flatMap upperChars = l.map toUpperChar := by
      intro l hl
      rw [List.map_eq_flatMap]
      induction l with
      | nil => rfl
      | cons c l ih =>
        simp only [List.flatMap_cons]
        rw [ih (fun d hd => hl d (by simp [hd])), upperChars, if_neg (hl c (by simp))]
    rw [key cs (hn cs (.inl h1)), key ds (hn ds (.inr h3))] at h7
    have h8 := congrArg (List.map UInt32.toNat) h7
    simp only [List.map_map] at h8
    simp only [fold]
    have : (UInt32.toNat ∘ toUpperChar) = fun c : Char32 => simpleUpper c.toNat := by funext c; exact C52_to_upper c
    rw [this] at h8
    simp [h8]

example : toUpper [0xC3, 0xA4] = .ok [0xC3, 0x84] ∧ toUpper [0xC3, 0x84] = .ok [0xC3, 0x84] ∧
    equal [0xC3, 0xA4] [0xC3, 0x84] = .ok true := by decide +kernel

/-! ### C44 -/

theorem ciCompare_units {x v : Unit8} (hx : IsSeq x.1 x.2) (hv : IsSeq v.1 v.2) :
    caseInsensitiveCompare x.2 v.2 = (simpleUpper x.2.toNat : Int) - simpleUpper v.2.toNat :=
  ciCompare_eq _ _ hx.lt hv.lt

theorem compareLoop_units {us : List Unit8} : ∀ {vs : List Unit8} {fuel : Nat}, Units us → Units vs → us.length < fuel →
    ∃ r, compareLoop fuel (bytesOf us) (bytesOf vs) = .ok r ∧ (r < 0 ↔ fu us < fu vs) ∧ (r = 0 ↔ fu us = fu vs) ∧
      lessLoop fuel (bytesOf us) (bytesOf vs) = .ok (decide (r < 0)) ∧ -0x200000 < r ∧ r < 0x200000 := by
  induction us with
  | nil =>
    intro vs fuel _ hv hf
    obtain ⟨fuel, rfl⟩ : ∃ f, fuel = f + 1 := ⟨fuel - 1, by simp at hf; omega⟩
    cases vs with
    | nil => exact ⟨0, by simp [compareLoop, lessLoop, bind, Except.bind]⟩
    | cons v vs =>
      simp only [Units_cons] at hv
      refine ⟨-1, ?_⟩
      rw [compareLoop, lessLoop, bytesOf_cons, safeDecodeNext_seq hv.1]
      simp [bind, Except.bind]
  | cons x us ih =>
    intro vs fuel hu hv hf
    obtain ⟨fuel, rfl⟩ : ∃ f, fuel = f + 1 := ⟨fuel - 1, by simp at hf; omega⟩
    simp only [Units_cons] at hu
    simp only [List.length_cons] at hf
    rw [compareLoop, lessLoop, bytesOf_cons, safeDecodeNext_seq hu.1]
    cases vs with
    | nil => exact ⟨1, by simp [bind, Except.bind]⟩
    | cons v vs =>
      simp only [Units_cons] at hv
      rw [bytesOf_cons, safeDecodeNext_seq hv.1]
      simp only [bind, Except.bind]
      rw [ciCompare_units hu.1 hv.1]
      have b1 := simpleUpper_lt _ hu.1.lt
      have b2 := simpleUpper_lt _ hv.1.lt
      simp only [fu_cons, List.cons_lt_cons_iff, List.cons.injEq]
      generalize simpleUpper x.2.toNat = a at *
      generalize simpleUpper v.2.toNat = b at *
      by_cases h : (a : Int) - b = 0
      · obtain rfl : a = b := by omega
        simp only [ne_eq, h, not_true_eq_false, if_false]
        obtain ⟨r, h1, h2, h3, h4, h5, h6⟩ := ih hu.2 hv.2 (by omega : us.length < fuel)
        exact ⟨r, h1, by simpa using h2, by simpa using h3, h4, h5, h6⟩
      · refine ⟨(a : Int) - b, by simp [h], ?_, ?_, by simp [h], by omega, by omega⟩
        · constructor
          · intro; left; omega
          · rintro (h' | ⟨h', _⟩) <;> omega
        · constructor
          · intro; omega
          · rintro ⟨h', _⟩; omega

/-- C44: `compare` and `less` order valid strings lexicographically by the upper case mappings of their code points
(`<` is the lexicographic order of lists of numbers). The result fits easily in `int32_t`. -/
theorem C44_compare {s t : Str} {cs ds : List Char32} (hs : Decodes s cs) (ht : Decodes t ds) :
    ∃ r, compare s t = .ok r ∧ (r < 0 ↔ fold cs < fold ds) ∧ (r = 0 ↔ fold cs = fold ds) ∧ (0 < r ↔ fold ds < fold cs) ∧
      -2 ^ 21 < r ∧ r < 2 ^ 21 ∧ less s t = .ok (decide (fold cs < fold ds)) := by
  obtain ⟨us, hu, rfl, rfl⟩ := hs.units
  obtain ⟨vs, hv, rfl, rfl⟩ := ht.units
  obtain ⟨r, h1, h2, h3, h4, h5, h6⟩ := compareLoop_units hu hv (by have := units_length hu; omega : _ < (bytesOf us).length + 1)
  refine ⟨r, h1, h2, h3, ?_, by omega, by omega, ?_⟩
  · have h7 : r < 0 ∨ r = 0 ∨ 0 < r := by omega
    constructor
    · intro h
      by_cases hh : fu us < fu vs
      · have := h2.mpr hh; omega
      · by_cases hh' : fu vs < fu us
        · exact hh'
        · have := h3.mpr (List.le_antisymm (List.not_lt.mp hh') (List.not_lt.mp hh)); omega
    · intro h
      rcases h7 with hh | hh | hh
      · exact absurd (List.lt_trans (h2.mp hh) h) (List.lt_irrefl _)
      · have e := h3.mp hh
        have h' : fu vs < fu us := h
        rw [e] at h'; exact absurd h' (List.lt_irrefl _)
      · exact hh
  · unfold less
    rw [h4]
    congr 1
    exact decide_eq_decide.mpr h2

/-- C44: `compare`, `less` and `equal` agree and form a total preorder of the valid strings. -/
theorem C44_order {s t u : Str} (hs : Valid s) (ht : Valid t) (hu : Valid u) :
    (∃ r r', compare s t = .ok r ∧ compare t s = .ok r' ∧ (r < 0 ↔ 0 < r') ∧ (r = 0 ↔ r' = 0) ∧
      equal s t = .ok (decide (r = 0)) ∧ less s t = .ok (decide (r < 0)) ∧ less t s = .ok (decide (0 < r))) ∧
    less s s = .ok false ∧
    (less s t = .ok true → less t u = .ok true → less s u = .ok true) ∧
    (less s t = .ok false → less t u = .ok false → less s u = .ok false) := by
  obtain ⟨cs, hs⟩ := hs
  obtain ⟨ds, ht⟩ := ht
  obtain ⟨es, hu⟩ := hu
  have lt (a b : Str) (x y : List Char32) (ha : Decodes a x) (hb : Decodes b y) :
      less a b = .ok (decide (fold x < fold y)) := by
    obtain ⟨r, _, _, _, _, _, _, h⟩ := C44_compare ha hb; exact h
  refine ⟨?_, ?_, ?_, ?_⟩
  · obtain ⟨r, a1, a2, a3, a4, _, _, a5⟩ := C44_compare hs ht
    obtain ⟨r', b1, b2, b3, b4, _, _, b5⟩ := C44_compare ht hs
    refine ⟨r, r', a1, b1, by rw [a2, b4], by rw [a3, b3, eq_comm], ?_, ?_, ?_⟩
    · rw [C43_equal hs ht]; congr 1; exact decide_eq_decide.mpr a3.symm
    · rw [a5]; congr 1; exact decide_eq_decide.mpr a2.symm
    · rw [b5]; congr 1; exact decide_eq_decide.mpr a4.symm
  · rw [lt _ _ _ _ hs hs]; simp [List.lt_irrefl]
  · rw [lt _ _ _ _ hs ht, lt _ _ _ _ ht hu, lt _ _ _ _ hs hu]
    simp only [Except.ok.injEq, decide_eq_true_eq]
    exact List.lt_trans
  · rw [lt _ _ _ _ hs ht, lt _ _ _ _ ht hu, lt _ _ _ _ hs hu]
    simp only [Except.ok.injEq, decide_eq_false_iff_not, List.not_lt]
    intro h1 h2
    exact List.le_trans h2 h1

-- "Äb" < "äC", "a" < "ab"
example : compare [0xC3, 0x84, 0x62] [0xC3, 0xA4, 0x43] = .ok (-1) ∧ less [0x41] [0x61, 0x62] = .ok true ∧
    compare [0x61] [0x5A] = .ok (-25) := by decide +kernel

end CI
end Ystring
