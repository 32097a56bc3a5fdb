import Verif.Proofs.NormalizeTables
import Verif.Proofs.ConvertCase
import Verif.Proofs.Decompose
import Verif.Props.Slice
import Verif.Props.Case
/-
The table lookups of Normalize.cpp, in terms of UnicodeData.
-/
namespace Ystring
open Spec

theorem pairOf_mem {c b m : Nat} (h : pairOf c = some (b, m)) : (c, b, m) ∈ UD_PAIRS := by
  unfold pairOf at h
  rw [Option.map_eq_some_iff] at h
  obtain ⟨p, h1, h2⟩ := h
  have := List.find?_some h1
  simp only [Nat.beq_eq] at this
  have hm := List.mem_of_find?_eq_some h1
  rw [← this, ← h2]; exact hm

/-- facts about a pair -/
structure PairFacts (c b m : Nat) : Prop where
  hc : 0xC0 ≤ c ∧ c < 0x1D1C1
  hb : b < 0x1D1BD
  hm : 0x300 ≤ m ∧ m < 0x1D173
  mpair : pairOf m = none
  msingle : singleOf m = none
  bsingle : singleOf b = none
  csingle : singleOf c = none
  chan : ¬ IsHangul c
  bhan : ¬ IsHangul b
  mhan : ¬ IsHangul m

theorem pair_facts {c b m : Nat} (h : (c, b, m) ∈ UD_PAIRS) : PairFacts c b m := by
  have h1 := List.all_eq_true.mp pairs_shape1 _ h
  have h2 := List.all_eq_true.mp pairs_shape2 _ h
  have h3 := List.all_eq_true.mp pairs_shape3 _ h
  simp only [Bool.and_eq_true, Bool.not_eq_true', Nat.blt_eq, Nat.ble_eq, pairMask_iff, singleMask_iff] at h1 h2 h3
  have hh : ∀ c, hangulB c = false ↔ ¬ IsHangul c := by intro c; rw [← hangulB_iff, Bool.not_eq_true]
  simp only [hh] at h1
  obtain ⟨⟨⟨⟨⟨⟨⟨a1, a2⟩, a3⟩, a4⟩, a5⟩, a6⟩, a7⟩, a8⟩ := h1
  exact ⟨⟨a2, a1⟩, a3, ⟨a5, a4⟩, h2, h3.1.1, h3.1.2, h3.2, a6, a7, a8⟩

theorem pairOf_facts {c b m : Nat} (h : pairOf c = some (b, m)) : PairFacts c b m := pair_facts (pairOf_mem h)

theorem pairOf_small {c : Nat} (h : c < 0xC0) : pairOf c = none := by
  cases hp : pairOf c with
  | none => rfl
  | some q => have := (pairOf_facts (b := q.1) (m := q.2) hp).hc; omega

/-- no more than four components -/
theorem pair_depth {c b m b2 m2 b3 m3 : Nat} (h : pairOf c = some (b, m)) (h2 : pairOf b = some (b2, m2))
    (h3 : pairOf b2 = some (b3, m3)) : pairOf b3 = none := by
  have hd : (c, b, m) ∈ deepPairs := by
    unfold deepPairs
    simp only [List.mem_filter]
    refine ⟨pairOf_mem h, ?_⟩
    cases hb : inMask pairMask b with
    | true => rfl
    | false => rw [pairMask_iff] at hb; rw [hb] at h2; simp at h2
  have := List.all_eq_true.mp pairs_deep _ hd
  simp only [h2, h3, Option.isNone_iff_eq_none] at this
  exact this

theorem decomposed_eq : TO_DECOMPOSED = UD_PAIRS.map (fun p => p.1 * 2 ^ 40 + p.2.1 * 2 ^ 20 + p.2.2) :=
  eq_of_eqNats decomposed_eq'

attribute [local irreducible] TO_DECOMPOSED TO_COMPOSED UD_PAIRS UD_SINGLETONS

theorem getD_big {α : Type} (l : List α) (i : Nat) (d : α) (h : l.length ≤ i) : l.getD i d = d := by
  rw [List.getD_eq_getElem?_getD, List.getElem?_eq_none h]; rfl

theorem decide_div_lt (K : Nat) (hK : 0 < K) (x c : Nat) : decide (x / K < c) = decide (x < c * K) := by
  rw [decide_eq_decide, Nat.div_lt_iff_lt_mul hK]

/-- lower_bound of `c * K` in a list sorted by the quotients -/
theorem lower_div (l : List Nat) (K : Nat) (hK : 0 < K) (c : Nat) (hs : l.Pairwise (· < ·)) (i : Nat)
    (hi : lowerBound (fun i => decide (l.getD i 0 < c * K)) l.length = i) :
    (if i = l.length then none else if l.getD i 0 / K ≠ c then none else some (l.getD i 0)) =
      l.find? (fun a => a / K == c) := by
  have hs' : l.Pairwise (fun a b => a / K ≤ b / K) := hs.imp (fun h => Nat.div_le_div_right (Nat.le_of_lt h))
  have hl := lowerBound_eq l 0 (fun x => x / K) c hs'
  simp only [decide_div_lt K hK] at hl
  rw [hi] at hl
  exact hl

theorem quotA (a b m : Nat) (hb : b < 0x1D1BD) (hm : m < 0x1D173) : (a * 2 ^ 40 + b * 2 ^ 20 + m) / 2 ^ 40 = a := by omega
theorem quotB (a b m : Nat) (hb : b < 0x1D1BD) (hm : m < 0x1D173) : (a * 2 ^ 40 + b * 2 ^ 20 + m) / 2 ^ 20 % 2 ^ 20 = b := by omega
theorem quotC (a b m : Nat) (hm : m < 0x1D173) : (a * 2 ^ 40 + b * 2 ^ 20 + m) % 2 ^ 20 = m := by omega
theorem find_map_congr {T : List Nat} {P : List (Nat × Nat × Nat)} {g : Nat × Nat × Nat → Nat} {f : Nat → Bool}
    {h : Nat × Nat × Nat → Bool} (e : T = P.map g) (he : ∀ p ∈ P, f (g p) = h p) :
    T.find? f = (P.find? h).map g := by
  rw [e, List.find?_map]
  congr 1
  clear e
  induction P with
  | nil => rfl
  | cons p l ih =>
    rw [List.find?_cons, List.find?_cons, Function.comp_apply, he p (by simp), ih (fun q hq => he q (by simp [hq]))]

theorem find_pairs (c : Nat) : TO_DECOMPOSED.find? (fun a => a / 2 ^ 40 == c) =
    (UD_PAIRS.find? (fun p => Nat.beq p.1 c)).map (fun p => p.1 * 2 ^ 40 + p.2.1 * 2 ^ 20 + p.2.2) := by
  refine find_map_congr decomposed_eq ?_
  intro p hp
  have f := pair_facts (c := p.1) (b := p.2.1) (m := p.2.2) hp
  show ((p.1 * 2 ^ 40 + p.2.1 * 2 ^ 20 + p.2.2) / 2 ^ 40 == c) = Nat.beq p.1 c
  rw [quotA _ _ _ f.hb f.hm.2, Bool.eq_iff_iff, Nat.beq_eq, beq_iff_eq]

theorem decomposed_bound {x : Nat} (hx : x ∈ TO_DECOMPOSED) : x < 0x1D1C1 * 2 ^ 40 := by
  rw [decomposed_eq] at hx
  obtain ⟨p, hp, rfl⟩ := List.mem_map.mp hx
  have f := pair_facts (c := p.1) (b := p.2.1) (m := p.2.2) hp
  have := f.hc; have := f.hb; have := f.hm
  omega

theorem decomposed_getD (i : Nat) : TO_DECOMPOSED.getD i 0 < 0x1D1C1 * 2 ^ 40 := by
  by_cases hlt : i < TO_DECOMPOSED.length
  · rw [getD_getElem _ _ hlt]; exact decomposed_bound (List.getElem_mem hlt)
  · rw [getD_big _ _ _ (by omega)]; omega

theorem quot_small {x : Nat} (h : x < 0x1D1C1 * 2 ^ 40) : x / 2 ^ 40 % 2 ^ 32 = x / 2 ^ 40 ∧ x / 2 ^ 40 < 0x1D1C1 := by
  omega

theorem findDecomposed_eq (c : Char32) : findDecomposed c = match pairOf c.toNat with
    | none => (c, 0)
    | some (b, m) => (UInt32.ofNat b, UInt32.ofNat m) := by
  unfold findDecomposed findDecomposedIn
  by_cases h0 : c < 0xC0
  · rw [if_pos h0, pairOf_small (by rw [UInt32.lt_iff_toNat_lt] at h0; simpa using h0)]
  · rw [if_neg h0]
    simp only
    by_cases hbig : c.toNat < 2 ^ 24
    · have e1 : c.toNat * 2 ^ 40 % 2 ^ 64 = c.toNat * 2 ^ 40 := Nat.mod_eq_of_lt (by omega)
      rw [e1]
      generalize hi : lowerBound (fun i => decide (TO_DECOMPOSED.getD i 0 < c.toNat * 2 ^ 40)) TO_DECOMPOSED.length = i
      have hl := lower_div TO_DECOMPOSED (2 ^ 40) (Nat.two_pow_pos 40) c.toNat (pairwise_of_incr decomposed_incr) i hi
      clear hi
      rw [find_pairs] at hl
      have hq := quot_small (decomposed_getD i)
      rw [hq.1]
      unfold pairOf
      by_cases hi : i = TO_DECOMPOSED.length
      · rw [if_pos hi] at hl
        rw [if_pos (.inl hi)]
        have := Option.map_eq_none_iff.mp hl.symm
        rw [this]; rfl
      · rw [if_neg hi] at hl
        by_cases hne : TO_DECOMPOSED.getD i 0 / 2 ^ 40 ≠ c.toNat
        · rw [if_pos hne] at hl
          have := Option.map_eq_none_iff.mp hl.symm
          rw [this, if_pos (.inr hne)]
          rfl
        · rw [if_neg hne] at hl
          obtain ⟨⟨a, b, m⟩, h1, h2⟩ := Option.map_eq_some_iff.mp hl.symm
          have hp := List.mem_of_find?_eq_some h1
          have f := pair_facts hp
          have f1 := f.hb; have f2 := f.hm; have f3 := f.hc
          rw [if_neg (by rintro (h | h); exact hi h; exact hne h), h1]
          simp only at h2
          rw [← h2]
          rw [quotB a b m f1 f2.2, quotC a b m f2.2]
          rfl
    · have hn : pairOf c.toNat = none := by
        cases hp : pairOf c.toNat with
        | none => rfl
        | some q => have := (pairOf_facts (b := q.1) (m := q.2) hp).hc; omega
      rw [hn]
      simp only
      rw [if_pos]
      right
      generalize lowerBound _ _ = i
      have hq := quot_small (decomposed_getD i)
      rw [hq.1]
      omega

/-! ### Decomposition of one code point -/

theorem toNat_ofNat32 {n : Nat} (h : n < 2 ^ 32) : (UInt32.ofNat n).toNat = n := by
  rw [UInt32.toNat_ofNat_of_lt' h]

theorem findDecomposed_none {c : Char32} (h : pairOf c.toNat = none) : findDecomposed c = (c, 0) := by
  rw [findDecomposed_eq, h]

theorem findDecomposed_some {c : Char32} {b m : Nat} (h : pairOf c.toNat = some (b, m)) :
    findDecomposed c = (UInt32.ofNat b, UInt32.ofNat m) := by
  rw [findDecomposed_eq, h]

theorem mark_ne {c b m : Nat} (h : pairOf c = some (b, m)) : UInt32.ofNat m ≠ 0 := by
  have := (pairOf_facts h).hm
  intro e
  have := congrArg UInt32.toNat e
  rw [toNat_ofNat32 (by omega)] at this
  simp at this; omega

theorem base_toNat {c b m : Nat} (h : pairOf c = some (b, m)) : (UInt32.ofNat b).toNat = b := by
  have := (pairOf_facts h).hb
  exact toNat_ofNat32 (by omega)

theorem mark_toNat {c b m : Nat} (h : pairOf c = some (b, m)) : (UInt32.ofNat m).toNat = m := by
  have := (pairOf_facts h).hm
  exact toNat_ofNat32 (by omega)

/-- the number of components of the table decomposition -/
inductive Chain4 (c : Nat) : List Nat → Prop
  | d0 : pairOf c = none → Chain4 c [c]
  | d1 {b m : Nat} : pairOf c = some (b, m) → pairOf b = none → Chain4 c [b, m]
  | d2 {b m b2 m2 : Nat} : pairOf c = some (b, m) → pairOf b = some (b2, m2) → pairOf b2 = none → Chain4 c [b2, m2, m]
  | d3 {b m b2 m2 b3 m3 : Nat} : pairOf c = some (b, m) → pairOf b = some (b2, m2) → pairOf b2 = some (b3, m3) →
      pairOf b3 = none → Chain4 c [b3, m3, m2, m]

/-- the table decomposition -/
def chainOf (c : Nat) : List Nat :=
  match pairOf c with
  | none => [c]
  | some (b, m) => match pairOf b with
    | none => [b, m]
    | some (b2, m2) => match pairOf b2 with
      | none => [b2, m2, m]
      | some (b3, m3) => [b3, m3, m2, m]

theorem chainOf_spec (c : Nat) : Chain4 c (chainOf c) := by
  unfold chainOf
  cases h : pairOf c with
  | none => exact .d0 h
  | some q =>
    obtain ⟨b, m⟩ := q
    simp only
    cases h2 : pairOf b with
    | none => exact .d1 h h2
    | some q =>
      obtain ⟨b2, m2⟩ := q
      simp only
      cases h3 : pairOf b2 with
      | none => exact .d2 h h2 h3
      | some q =>
        obtain ⟨b3, m3⟩ := q
        exact .d3 h h2 h3 (pair_depth h h2 h3)

theorem chain4_total (c : Nat) : ∃ l, Chain4 c l := ⟨_, chainOf_spec c⟩

theorem Chain4.unique {c : Nat} {l : List Nat} (h : Chain4 c l) : l = chainOf c := by
  unfold chainOf
  cases h with
  | d0 h => rw [h]
  | d1 h h2 => simp only [h, h2]
  | d2 h h2 h3 => simp only [h, h2, h3]
  | d3 h h2 h3 h4 => simp only [h, h2, h3]

theorem decomposed_len : TO_DECOMPOSED.length = 1046 := by decide +kernel

theorem getDecomposedSize_pair {c : Char32} {b m : Nat} (h : pairOf c.toNat = some (b, m)) : getDecomposedSize c = .ok 2 := by
  unfold getDecomposedSize
  rw [findDecomposed_some h, decomposed_len]
  have hm := mark_ne h
  have hn : (findDecomposed (UInt32.ofNat m)).2 = 0 := by
    rw [findDecomposed_none]
    rw [mark_toNat h]; exact (pairOf_facts h).mpair
  rw [decomposedSizeLoop, if_neg hm, hn, decomposedSizeLoop, if_pos rfl]

/-- `decompose_char` with room for three -/
theorem decomposeChar3 (c x y z : Char32) {l : List Nat} (h : Chain4 c.toNat l) :
    decomposeChar c [x, y, z] = .ok
      (match l with
       | [_] => ⟨true, 1, [c, y, z]⟩
       | [b, m] => ⟨true, 2, [UInt32.ofNat b, UInt32.ofNat m, z]⟩
       | [b2, m2, m] => ⟨true, 3, [UInt32.ofNat b2, UInt32.ofNat m2, UInt32.ofNat m]⟩
       | [_, _, m2, m] => ⟨false, 2, [UInt32.ofNat m, UInt32.ofNat m2, z]⟩
       | _ => ⟨false, 0, []⟩) := by
  unfold decomposeChar
  rw [if_neg (by simp)]
  cases h with
  | d0 h => rw [findDecomposed_none h]; simp [bufSet, bind, Except.bind]
  | d1 h h2 =>
    rw [findDecomposed_some h]
    simp only [mark_ne h, if_false]
    rw [if_neg (by simp), findDecomposed_none (by rw [base_toNat h]; exact h2)]
    simp [bufSet, bind, Except.bind]
  | d2 h h2 h3 =>
    rw [findDecomposed_some h]
    simp only [mark_ne h, if_false]
    rw [if_neg (by simp), findDecomposed_some (by rw [base_toNat h]; exact h2)]
    simp only [mark_ne h2, if_false]
    simp [bufSet, bind, Except.bind, decomposeLoop, mark_ne h2, findDecomposed_none (c := UInt32.ofNat _) (by rw [base_toNat h2]; exact h3)]
  | d3 h h2 h3 h4 =>
    rw [findDecomposed_some h]
    simp only [mark_ne h, if_false]
    rw [if_neg (by simp), findDecomposed_some (by rw [base_toNat h]; exact h2)]
    simp only [mark_ne h2, if_false]
    simp [bufSet, bind, Except.bind, decomposeLoop, mark_ne h2, mark_ne h3, findDecomposed_some (c := UInt32.ofNat _) (by rw [base_toNat h2]; exact h3), getDecomposedSize_pair h]

/-- `decompose_char` with room for two, for a code point with at least three components -/
theorem decomposeChar2 (c x y : Char32) {b m b2 m2 : Nat} (h : pairOf c.toNat = some (b, m)) (h2 : pairOf b = some (b2, m2)) :
    decomposeChar c [x, y] = .ok ⟨false, 2, [UInt32.ofNat m, y]⟩ := by
  unfold decomposeChar
  rw [if_neg (by simp)]
  rw [findDecomposed_some h]
  simp only [mark_ne h, if_false]
  rw [if_neg (by simp), findDecomposed_some (by rw [base_toNat h]; exact h2)]
  simp only [mark_ne h2, if_false]
  simp [bufSet, bind, Except.bind, decomposeLoop, mark_ne h2, getDecomposedSize_pair h]

/-- `decompose` in one line -/
theorem decompose_eq (c : Char32) {l : List Nat} (h : Chain4 c.toNat l) :
    decompose c = .ok (match l with
       | [_] => [c]
       | [_, _, m2, m] => [UInt32.ofNat m, UInt32.ofNat m2]
       | l => l.map UInt32.ofNat) := by
  unfold decompose
  rw [decomposeChar3 c 0 0 0 h]
  cases h with
  | d0 h => simp [bind, Except.bind, resize32]
  | d1 h h2 => simp [bind, Except.bind, resize32]
  | d2 h h2 h3 => simp [bind, Except.bind, resize32]
  | d3 h h2 h3 h4 =>
    simp only [bind, Except.bind, resize32]
    simp [decomposeChar2 c _ _ h h2]

/-- the growing buffer never suffices for four components -/
theorem growLoop_diverge (c : Char32) {b m b2 m2 : Nat} (h : pairOf c.toNat = some (b, m)) (h2 : pairOf b = some (b2, m2))
    (fuel : Nat) : ∀ x y, growLoop c fuel [x, y] false 2 = .error .diverge := by
  induction fuel with
  | zero => intros; rfl
  | succ fuel ih =>
    intro x y
    simp only [growLoop, Bool.not_false, if_true]
    have : resize32 [x, y] 2 = [x, y] := rfl
    rw [this, decomposeChar2 c x y h h2]
    exact ih _ _

theorem growLoop_diverge3 (c : Char32) {b m b2 m2 : Nat} (h : pairOf c.toNat = some (b, m)) (h2 : pairOf b = some (b2, m2))
    (fuel : Nat) (x y z) : growLoop c fuel [x, y, z] false 2 = .error .diverge := by
  cases fuel with
  | zero => rfl
  | succ fuel =>
    simp only [growLoop, Bool.not_false, if_true]
    have : resize32 [x, y, z] 2 = [x, y] := rfl
    rw [this, decomposeChar2 c x y h h2]
    exact growLoop_diverge c h h2 fuel _ _

/-! ### Strings -/

theorem between_append (p s : Str) : between (p ++ s) s = .ok p := by
  unfold between
  rw [if_pos (by simp)]
  simp

theorem encode_ofNat {n : Nat} (h : n ≤ 0x10FFFF) : encodeUtf8 (UInt32.ofNat n) = rfcEncode n := by
  rw [encodeUtf8_rfc _ (by rw [toNat_ofNat32 (by omega)]; exact h), toNat_ofNat32 (by omega)]

/-- what becomes of a unit -/
def decPiece (u : Unit8) : Str :=
  if (chainOf u.2.toNat).length = 1 then u.1 else (chainOf u.2.toNat).flatMap rfcEncode

theorem chain_bound {c : Nat} {l : List Nat} (h : Chain4 c l) (hl : l.length ≠ 1) : ∀ x ∈ l, x ≤ 0x10FFFF := by
  cases h with
  | d0 h => simp at hl
  | d1 h h2 => have f := pairOf_facts h; have := f.hb; have := f.hm; simp; omega
  | d2 h h2 h3 =>
    have f := pairOf_facts h; have := f.hm; have f2 := pairOf_facts h2; have := f2.hb; have := f2.hm; simp; omega
  | d3 h h2 h3 h4 =>
    have f := pairOf_facts h; have := f.hm; have f2 := pairOf_facts h2; have := f2.hm
    have f3 := pairOf_facts h3; have := f3.hm; have := f3.hb; simp; omega

/-- one step of the loop -/
theorem toDecomposedLoop_step (g fuel : Nat) (x y z : Char32) (result p u t : Str) (c : Char32) (hu : IsSeq u c)
    (h3 : (chainOf c.toNat).length ≤ 3) : ∃ x' y' z' result' p',
    toDecomposedLoop (g + 1) (fuel + 1) [x, y, z] result (p ++ (u ++ t)) (u ++ t) (u ++ t) =
      toDecomposedLoop (g + 1) fuel [x', y', z'] result' (p' ++ t) t t ∧
    result' ++ p' = result ++ p ++ decPiece (u, c) := by
  have hc := chainOf_spec c.toNat
  have hb := chain_bound hc
  unfold decPiece
  rw [toDecomposedLoop, safeDecodeNext_seq hu]
  simp only [bind_ok']
  rw [decomposeChar3 c x y z hc]
  generalize chainOf c.toNat = l at *
  cases hc with
  | d0 h =>
    refine ⟨c, y, z, result, p ++ u, ?_, by simp⟩
    simp [bind_ok', growLoop]
  | d1 h h2 =>
    rename_i b m
    refine ⟨UInt32.ofNat b, UInt32.ofNat m, z, result ++ p ++ (rfcEncode b ++ rfcEncode m), [], ?_, by simp⟩
    simp only [bind_ok', growLoop, between_append]
    simp [bind_ok', encode_ofNat (hb (by simp) b (by simp)), encode_ofNat (hb (by simp) m (by simp))]
  | d2 h h2 h3' =>
    rename_i b m b2 m2
    refine ⟨UInt32.ofNat b2, UInt32.ofNat m2, UInt32.ofNat m, result ++ p ++ (rfcEncode b2 ++ (rfcEncode m2 ++ rfcEncode m)), [], ?_, by simp⟩
    simp only [bind_ok', growLoop, between_append]
    simp [bind_ok', encode_ofNat (hb (by simp) b2 (by simp)), encode_ofNat (hb (by simp) m2 (by simp)), encode_ofNat (hb (by simp) m (by simp))]
  | d3 => simp at h3

theorem toDecomposedLoop_four (g fuel : Nat) (x y z : Char32) (result p u t : Str) (c : Char32) (hu : IsSeq u c)
    (h3 : ¬ (chainOf c.toNat).length ≤ 3) :
    toDecomposedLoop g (fuel + 1) [x, y, z] result (p ++ (u ++ t)) (u ++ t) (u ++ t) = .error .diverge := by
  have hc := chainOf_spec c.toNat
  rw [toDecomposedLoop, safeDecodeNext_seq hu]
  simp only [bind_ok']
  rw [decomposeChar3 c x y z hc]
  generalize chainOf c.toNat = l at *
  cases hc with
  | d0 h => simp at h3
  | d1 h h2 => simp at h3
  | d2 h h2 h3' => simp at h3
  | d3 h h2 h3' h4 =>
    simp only [bind_ok', growLoop_diverge3 c h h2]
    rfl

theorem toDecomposedLoop_units (g : Nat) (us : List Unit8) (h : Units us)
    (h3 : ∀ u ∈ us, (chainOf u.2.toNat).length ≤ 3) : ∀ (fuel : Nat) (x y z : Char32) (result p t : Str),
    ∃ x' y' z' result' p',
    toDecomposedLoop (g + 1) (us.length + fuel) [x, y, z] result (p ++ (bytesOf us ++ t)) (bytesOf us ++ t) (bytesOf us ++ t) =
      toDecomposedLoop (g + 1) fuel [x', y', z'] result' (p' ++ t) t t ∧
    result' ++ p' = result ++ p ++ us.flatMap decPiece := by
  induction us with
  | nil => intro fuel x y z result p t; exact ⟨x, y, z, result, p, by simp, by simp⟩
  | cons u us ih =>
    intro fuel x y z result p t
    rw [Units_cons] at h
    obtain ⟨x1, y1, z1, r1, p1, e1, e2⟩ := toDecomposedLoop_step g (us.length + fuel) x y z result p u.1 (bytesOf us ++ t) u.2 h.1
      (h3 u (by simp))
    obtain ⟨x2, y2, z2, r2, p2, e3, e4⟩ := ih h.2 (fun v hv => h3 v (by simp [hv])) fuel x1 y1 z1 r1 p1 t
    refine ⟨x2, y2, z2, r2, p2, ?_, ?_⟩
    · rw [← e3, ← e1]
      simp [Nat.add_right_comm]
    · rw [e4, e2]; simp

/-- `to_decomposed` on a valid prefix and a tail -/
theorem toDecomposed_units (g : Nat) (us : List Unit8) (t : Str) (h : Units us)
    (h3 : ∀ u ∈ us, (chainOf u.2.toNat).length ≤ 3) (ht : ¬ HasSeqPrefix t) :
    toDecomposed (bytesOf us ++ t) (g + 1) = if t = [] then .ok (us.flatMap decPiece) else .error .ystring := by
  unfold toDecomposed
  obtain ⟨n, hn⟩ := fuel_split (t := t) h
  rw [hn]
  obtain ⟨x', y', z', r', p', e1, e2⟩ := toDecomposedLoop_units g us h h3 (n + 1) 0 0 0 [] [] t
  rw [List.nil_append] at e1
  rw [e1, toDecomposedLoop]
  by_cases h0 : t = []
  · subst h0
    rw [if_pos rfl, safeDecodeNext_nil]
    have := between_append p' []
    simp only [bind_ok', this]
    rw [e2]; rfl
  · rw [if_neg h0, safeDecodeNext_bad h0 ht]
    rfl

/-- the first code point with four components stops everything -/
theorem toDecomposed_diverge (g : Nat) (us : List Unit8) (u : Unit8) (t : Str) (h : Units us) (hu : IsSeq u.1 u.2)
    (h3 : ∀ u ∈ us, (chainOf u.2.toNat).length ≤ 3) (h4 : ¬ (chainOf u.2.toNat).length ≤ 3) :
    toDecomposed (bytesOf us ++ (u.1 ++ t)) (g + 1) = .error .diverge := by
  unfold toDecomposed
  obtain ⟨n, hn⟩ := fuel_split (t := u.1 ++ t) h
  rw [hn]
  obtain ⟨x', y', z', r', p', e1, e2⟩ := toDecomposedLoop_units g us h h3 (n + 1) 0 0 0 [] [] (u.1 ++ t)
  rw [List.nil_append] at e1
  rw [e1, toDecomposedLoop_four _ _ _ _ _ _ _ _ _ _ hu h4]
  rfl

end Ystring
