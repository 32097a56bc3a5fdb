import Verif.Proofs.MarkPairs
import Verif.Props.Decomposition
import Verif.Props.Chars
import Verif.Props.Slice
import Verif.Props.ReverseLaws
/-
Property theorems C101: to_decomposed and the characters of a string.
-/
namespace Ystring
open Spec

/-! ### Marks in decompositions -/

theorem pair_marks {c b m : Nat} (h : pairOf c = some (b, m)) :
    isMark (UInt32.ofNat c) = isMark (UInt32.ofNat b) ∧
    (c ∉ kiratRai → isMark (UInt32.ofNat m) = true ∧ b ∉ kiratRai) := by
  have := List.all_eq_true.mp pairs_marks _ (pairOf_mem h)
  simp only [Bool.and_eq_true, beq_iff_eq, Bool.or_eq_true, List.contains_eq_mem, decide_eq_true_eq,
    Bool.not_eq_true', decide_eq_false_iff_not] at this
  exact ⟨this.1, fun hc => this.2.resolve_left hc⟩

theorem chain_marks {c : Nat} (hc : c ∉ kiratRai) : ∃ x ms, chainOf c = x :: ms ∧
    isMark (UInt32.ofNat x) = isMark (UInt32.ofNat c) ∧ ∀ m ∈ ms, isMark (UInt32.ofNat m) = true := by
  have h := chainOf_spec c
  generalize chainOf c = l at h
  cases h with
  | d0 h => exact ⟨_, _, rfl, rfl, by simp⟩
  | d1 h h2 =>
    have a := pair_marks h
    exact ⟨_, _, rfl, a.1.symm, by simp [(a.2 hc).1]⟩
  | d2 h h2 h3 =>
    have a := pair_marks h
    have b := pair_marks h2
    exact ⟨_, _, rfl, by rw [← b.1, ← a.1], by simp [(a.2 hc).1, (b.2 (a.2 hc).2).1]⟩
  | d3 h h2 h3 h4 =>
    have a := pair_marks h
    have b := pair_marks h2
    have d := pair_marks h3
    exact ⟨_, _, rfl, by rw [← d.1, ← b.1, ← a.1],
      by simp [(a.2 hc).1, (b.2 (a.2 hc).2).1, (d.2 (b.2 (a.2 hc).2).2).1]⟩

theorem decUnits_marks {u : Unit8} (hc : u.2.toNat ∉ kiratRai) : ∃ x ms, decUnits u = x :: ms ∧
    isMark x.2 = isMark u.2 ∧ ∀ m ∈ ms, isMark m.2 = true := by
  unfold decUnits
  by_cases hl : (chainOf u.2.toNat).length = 1
  · rw [if_pos hl]; exact ⟨u, [], rfl, rfl, by simp⟩
  · rw [if_neg hl]
    obtain ⟨x, ms, h1, h2, h3⟩ := chain_marks hc
    rw [h1]
    refine ⟨_, _, rfl, by simpa using h2, ?_⟩
    intro m hm
    obtain ⟨n, hn, rfl⟩ := List.mem_map.mp hm
    exact h3 n hn

/-! ### Results and parts -/

/-- when there is a result, and which one -/
theorem toDecomposed_ok {s t : Str} {g : Nat} (h : toDecomposed s (g + 1) = .ok t) :
    ∃ us, Units us ∧ bytesOf us = s ∧ (∀ u ∈ us, (chainOf u.2.toNat).length ≤ 3) ∧ t = bytesOf (us.flatMap decUnits) := by
  obtain ⟨us, r, hu, rfl, ht⟩ := splitUnits s
  by_cases h3 : ∀ u ∈ us, (chainOf u.2.toNat).length ≤ 3
  · rw [toDecomposed_units g us r hu h3 ht] at h
    by_cases h0 : r = []
    · rw [if_pos h0] at h
      cases h
      exact ⟨us, hu, by simp [h0], h3, (decUnits_all us hu).2.1.symm⟩
    · rw [if_neg h0] at h; cases h
  · rw [toDecomposed_diverge' us hu r (by simpa using h3)] at h
    cases h

theorem toDecomposed_of_units {us : List Unit8} (hu : Units us) (h3 : ∀ u ∈ us, (chainOf u.2.toNat).length ≤ 3) (g : Nat) :
    toDecomposed (bytesOf us) (g + 1) = .ok (bytesOf (us.flatMap decUnits)) := by
  have := toDecomposed_units g us [] hu h3 not_hasSeqPrefix_nil
  rw [List.append_nil, if_pos rfl, ← (decUnits_all us hu).2.1] at this
  exact this

/-- C101: to_decomposed(s + t) = to_decomposed(s) + to_decomposed(t). -/
theorem C101_concat (s t : Str) (hs : Valid s) (g : Nat) (r : Str) :
    toDecomposed (s ++ t) (g + 1) = .ok r ↔
    ∃ u v, toDecomposed s (g + 1) = .ok u ∧ toDecomposed t (g + 1) = .ok v ∧ r = u ++ v := by
  constructor
  · intro h
    obtain ⟨us, hu, hb, h3, rfl⟩ := toDecomposed_ok h
    obtain ⟨vs, hv, rfl⟩ := hs.units
    obtain ⟨ws, r, hw, rfl, hr⟩ := splitUnits t
    have hw' : Units (vs ++ ws) := Units_append.mpr ⟨hv, hw⟩
    have hr0 : r = [] := by
      refine (valid_bad_tail hw' hr).mp ?_
      rw [bytesOf_append, List.append_assoc, ← hb]
      exact hu.valid
    subst hr0
    obtain rfl : us = vs ++ ws := units_unique hu hw' (by rw [hb]; simp)
    rw [List.append_nil] at *
    rw [Units_append] at hu
    exact ⟨_, _, toDecomposed_of_units hu.1 (fun u h => h3 u (by simp [h])) g,
      toDecomposed_of_units hu.2 (fun u h => h3 u (by simp [h])) g, by simp⟩
  · rintro ⟨u, v, h1, h2, rfl⟩
    obtain ⟨us, hu, rfl, h3, rfl⟩ := toDecomposed_ok h1
    obtain ⟨vs, hv, rfl, h4, rfl⟩ := toDecomposed_ok h2
    rw [← bytesOf_append, toDecomposed_of_units (Units_append.mpr ⟨hu, hv⟩) (by
      intro w hw
      rcases List.mem_append.mp hw with hw | hw
      · exact h3 w hw
      · exact h4 w hw)]
    simp

/-! ### Characters -/

/-- the string contains none of the three Kirat Rai vowels U+16D68, U+16D69 and U+16D6A -/
def Spec.NoKiratRai (s : Str) : Prop :=
  ∀ cs, Decodes s cs → ∀ c ∈ cs, ¬ (0x16D68 ≤ c.toNat ∧ c.toNat ≤ 0x16D6A)

/-- units of the decomposition of a list of units -/
def decGroup (g : List Unit8) : List Unit8 := g.flatMap decUnits

theorem flatten_decGroup (ugs : List (List Unit8)) : (ugs.map decGroup).flatten = ugs.flatten.flatMap decUnits := by
  induction ugs with
  | nil => rfl
  | cons g ugs ih => simp [ih, decGroup]

theorem decGroup_cons {x : Unit8} {ms : List Unit8} (hx : x.2.toNat ∉ kiratRai) (hk : ∀ m ∈ ms, m.2.toNat ∉ kiratRai)
    (hm : ∀ m ∈ ms, isMark m.2 = true) : ∃ y ns, decGroup (x :: ms) = y :: ns ∧ isMark y.2 = isMark x.2 ∧
    ∀ m ∈ ns, isMark m.2 = true := by
  obtain ⟨y, ns, e, h1, h2⟩ := decUnits_marks hx
  refine ⟨y, ns ++ decGroup ms, by simp [decGroup, e], h1, ?_⟩
  intro m h
  rcases List.mem_append.mp h with h | h
  · exact h2 m h
  · obtain ⟨u, hu, h⟩ := List.mem_flatMap.mp h
    obtain ⟨z, ks, e', h3, h4⟩ := decUnits_marks (hk u hu)
    rw [e'] at h
    rcases List.mem_cons.mp h with rfl | h
    · rw [h3]; exact hm u hu
    · exact h4 m h

theorem decGroup_marks {g : List Unit8} (hk : ∀ u ∈ g, u.2.toNat ∉ kiratRai) (h : CharUnits g) :
    CharUnits (decGroup g) ∧ (MarkUnits (decGroup g) → MarkUnits g) := by
  obtain ⟨x, ms, rfl, hm⟩ := h
  obtain ⟨y, ns, e, h1, h2⟩ := decGroup_cons (hk x (by simp)) (fun m h => hk m (by simp [h])) hm
  rw [e]
  refine ⟨⟨y, ns, rfl, h2⟩, ?_⟩
  rintro ⟨y', ns', e', hy⟩
  obtain ⟨rfl, rfl⟩ := List.cons.inj e'
  exact ⟨x, ms, rfl, by rw [← h1]; exact hy⟩

theorem groups_dec {ugs : List (List Unit8)} (h : Groups ugs) (hk : ∀ g ∈ ugs, ∀ u ∈ g, u.2.toNat ∉ kiratRai) :
    Groups (ugs.map decGroup) := by
  refine ⟨?_, ?_, ?_⟩
  · intro g' hg'
    obtain ⟨g, hg, rfl⟩ := List.mem_map.mp hg'
    exact (decUnits_all g (h.units g hg)).1
  · intro g' hg'
    obtain ⟨g, hg, rfl⟩ := List.mem_map.mp hg'
    exact (decGroup_marks (hk g hg) (h.chars g hg)).1
  · intro g' hg' hm
    rw [← List.map_tail] at hg'
    obtain ⟨g, hg, rfl⟩ := List.mem_map.mp hg'
    have hg2 := List.mem_of_mem_tail hg
    exact h.heads g hg ((decGroup_marks (hk g hg2) (h.chars g hg2)).2 hm)

/-- everything about the characters of a string and of its decomposition -/
theorem dec_core {s t : Str} {gs : List Str} {n : Nat} (h : Characters s gs) (hk : NoKiratRai s)
    (ht : toDecomposed s (n + 1) = .ok t) :
    ∃ ugs, Groups ugs ∧ ugs.map bytesOf = gs ∧ (∀ g ∈ ugs, ∀ u ∈ g, (chainOf u.2.toNat).length ≤ 3) ∧
      Groups (ugs.map decGroup) ∧ t = ((ugs.map decGroup).map bytesOf).flatten := by
  obtain ⟨ugs, hg, rfl⟩ := characters_groups h
  obtain ⟨us, hu, hb, h3, rfl⟩ := toDecomposed_ok ht
  have hf := units_flatten hg.units
  have hs : bytesOf ugs.flatten = s := by rw [bytesOf_flatten]; exact h.1
  obtain rfl : us = ugs.flatten := units_unique hu hf (by rw [hb, hs])
  refine ⟨ugs, hg, rfl, fun g h1 u h2 => h3 u (List.mem_flatten.mpr ⟨g, h1, h2⟩), groups_dec hg ?_, ?_⟩
  · intro g h1 u h2
    have hmem : u ∈ ugs.flatten := List.mem_flatten.mpr ⟨g, h1, h2⟩
    have := hk _ (hs ▸ hf.decodes) u.2 (List.mem_map_of_mem hmem)
    simp only [kiratRai, List.mem_cons, List.not_mem_nil, or_false]
    omega
  · rw [← bytesOf_flatten, flatten_decGroup]

theorem dec_part {ugs : List (List Unit8)} (hg : ∀ g ∈ ugs, Units g) (h3 : ∀ g ∈ ugs, ∀ u ∈ g, (chainOf u.2.toNat).length ≤ 3)
    (n : Nat) : toDecomposed (ugs.map bytesOf).flatten (n + 1) = .ok ((ugs.map decGroup).map bytesOf).flatten := by
  rw [← bytesOf_flatten, ← bytesOf_flatten, flatten_decGroup]
  refine toDecomposed_of_units (units_flatten hg) ?_ n
  intro u hu
  obtain ⟨g, h1, h2⟩ := List.mem_flatten.mp hu
  exact h3 g h1 u h2

theorem dec_mapM {ugs : List (List Unit8)} (hg : ∀ g ∈ ugs, Units g) (h3 : ∀ g ∈ ugs, ∀ u ∈ g, (chainOf u.2.toNat).length ≤ 3)
    (n : Nat) : (ugs.map bytesOf).mapM (toDecomposed · (n + 1)) = .ok ((ugs.map decGroup).map bytesOf) := by
  induction ugs with
  | nil => rfl
  | cons g ugs ih =>
    rw [List.map_cons, List.mapM_cons, toDecomposed_of_units (hg g (by simp)) (h3 g (by simp)),
      ih (fun g h => hg g (by simp [h])) (fun g h => h3 g (by simp [h]))]
    rfl

/-- C101: the characters of to_decomposed(s) are the decompositions of the characters of s, in the same order.
(For strings with U+16D68, U+16D69 or U+16D6A see C101_count_exact.) -/
theorem C101_characters (s t : Str) (gs : List Str) (n : Nat) (h : Characters s gs) (hk : NoKiratRai s)
    (ht : toDecomposed s (n + 1) = .ok t) :
    ∃ hs, gs.mapM (toDecomposed · (n + 1)) = .ok hs ∧ Characters t hs ∧ hs.length = gs.length := by
  obtain ⟨ugs, hg, rfl, h3, hg', rfl⟩ := dec_core h hk ht
  refine ⟨_, dec_mapM hg.units h3 n, ?_, by simp⟩
  have := groups_characters hg'
  rwa [bytesOf_flatten] at this

/-- C101: count_chars(to_decomposed(s)) = count_chars(s). -/
theorem C101_count (s t : Str) (n : Nat) (hk : NoKiratRai s) (ht : toDecomposed s (n + 1) = .ok t)
    (hl : s.length < SIZE_MOD) (hl' : t.length < SIZE_MOD) : countChars t = countChars s := by
  have hv : Valid s := ((C54_outcomes s n).1 t ht).1
  obtain ⟨gs, h⟩ := (C24_segmentation s).1.mp hv
  obtain ⟨hs, -, h1, h2⟩ := C101_characters s t gs n h hk ht
  rw [C25_count_chars t hs h1 hl', C25_count_chars s gs h hl, h2]

theorem slice_map {α : Type} (f : α → Str) (l : List α) (i j : Int) :
    slice (l.map f) i j = ((l.take (clampIndex l.length j)).drop (clampIndex l.length i)).map f := by
  unfold slice
  rw [List.length_map, ← List.map_take, ← List.map_drop]

theorem splice_map {α : Type} (f : α → Str) (l : List α) (i j : Int) (r : Str) :
    splice (l.map f) i j r = ((l.take (clampIndex l.length i)).map f).flatten ++ r ++
      ((l.drop (max (clampIndex l.length i) (clampIndex l.length j))).map f).flatten := by
  unfold splice
  rw [List.length_map, ← List.map_take, ← List.map_drop]

/-- C101: get_char_substring commutes with to_decomposed. -/
theorem C101_substring (s t : Str) (gs : List Str) (n : Nat) (h : Characters s gs) (hk : NoKiratRai s)
    (ht : toDecomposed s (n + 1) = .ok t) (hl : s.length < 2 ^ 63) (hl' : t.length < 2 ^ 63) (i j : Int)
    (hg : GoodCharSlice gs.length i j) :
    ∃ a b, getCharSubstring s i j = .ok a ∧ getCharSubstring t i j = .ok b ∧ toDecomposed a (n + 1) = .ok b := by
  obtain ⟨ugs, hgs, rfl, h3, hg', rfl⟩ := dec_core h hk ht
  have hc := groups_characters hg'
  rw [bytesOf_flatten] at hc
  refine ⟨_, _, C30_get_char_substring_partial s _ h hl i j hg,
    C30_get_char_substring_partial _ _ hc hl' i j (by simpa using hg), ?_⟩
  rw [slice_map, List.map_map, slice_map]
  have e : ∀ l : List (List Unit8), l.map (bytesOf ∘ decGroup) = (l.map decGroup).map bytesOf := by simp
  rw [e]
  refine dec_part (fun g hm => hgs.units g ?_) (fun g hm => h3 g ?_) n <;>
    exact List.mem_of_mem_take (List.mem_of_mem_drop hm)

/-- C101: replace_chars commutes with to_decomposed. -/
theorem C101_replace_chars (s t r q : Str) (gs : List Str) (n : Nat) (h : Characters s gs) (hk : NoKiratRai s)
    (ht : toDecomposed s (n + 1) = .ok t) (hr : toDecomposed r (n + 1) = .ok q) (hl : s.length < npos) (hl' : t.length < npos)
    (i j : Int) (hg : GoodCharReplace gs.length i j) :
    ∃ a b, replaceChars s i j r = .ok a ∧ replaceChars t i j q = .ok b ∧ toDecomposed a (n + 1) = .ok b := by
  obtain ⟨ugs, hgs, rfl, h3, hg', rfl⟩ := dec_core h hk ht
  have hc := groups_characters hg'
  rw [bytesOf_flatten] at hc
  refine ⟨_, _, C31_replace_chars_partial s _ h hl i j hg r,
    C31_replace_chars_partial _ _ hc hl' i j (by simpa using hg) q, ?_⟩
  have e : ∀ l : List (List Unit8), l.map (bytesOf ∘ decGroup) = (l.map decGroup).map bytesOf := by simp
  rw [splice_map, List.map_map, splice_map, e, e]
  have p1 := dec_part (ugs := ugs.take (clampIndex ugs.length i)) (fun g hm => hgs.units g (List.mem_of_mem_take hm))
    (fun g hm => h3 g (List.mem_of_mem_take hm)) n
  have p2 := dec_part (ugs := ugs.drop (max (clampIndex ugs.length i) (clampIndex ugs.length j)))
    (fun g hm => hgs.units g (List.mem_of_mem_drop hm)) (fun g hm => h3 g (List.mem_of_mem_drop hm)) n
  have v1 := ((C54_outcomes _ n).1 _ p1).1
  have vr := ((C54_outcomes _ n).1 _ hr).1
  have pr := (C101_concat _ r v1 n _).mpr ⟨_, _, p1, hr, rfl⟩
  exact (C101_concat _ _ ((C54_outcomes _ n).1 _ pr).1 n _).mpr ⟨_, _, pr, p2, rfl⟩

/-- C101: reverse commutes with to_decomposed. -/
theorem C101_reverse (s t : Str) (n : Nat) (hk : NoKiratRai s) (ht : toDecomposed s (n + 1) = .ok t)
    (hl : s.length < SIZE_MOD) (hl' : t.length < SIZE_MOD) :
    ∃ a b, reverse s = .ok a ∧ reverse t = .ok b ∧ toDecomposed a (n + 1) = .ok b := by
  have hv : Valid s := ((C54_outcomes s n).1 t ht).1
  obtain ⟨gs, h⟩ := (C24_segmentation s).1.mp hv
  obtain ⟨ugs, hgs, rfl, h3, hg', rfl⟩ := dec_core h hk ht
  have hc := groups_characters hg'
  rw [bytesOf_flatten] at hc
  refine ⟨_, _, (C33_reverse s _ h hl).1, (C33_reverse _ _ hc hl').1, ?_⟩
  rw [← List.map_reverse, ← List.map_reverse, ← List.map_reverse]
  exact dec_part (fun g hm => hgs.units g (by simpa using hm)) (fun g hm => h3 g (by simpa using hm)) n

/-! ### The exact number of characters -/

/-- number of code points that are no marks -/
def bases (us : List Unit8) : Nat := us.countP (fun u => !isMark u.2)

/-- the list begins with a mark -/
def headMark : List Unit8 → Nat
  | [] => 0
  | u :: _ => if isMark u.2 then 1 else 0

theorem bases_marks {ms : List Unit8} (h : ∀ m ∈ ms, isMark m.2 = true) : bases ms = 0 := by
  unfold bases
  rw [List.countP_eq_zero]
  intro m hm
  simp [h m hm]

theorem bases_append (us vs : List Unit8) : bases (us ++ vs) = bases us + bases vs := List.countP_append ..

theorem bases_groups {gs : List (List Unit8)} (h1 : ∀ g ∈ gs, CharUnits g) (h2 : ∀ g ∈ gs, ¬ MarkUnits g) :
    bases gs.flatten = gs.length := by
  induction gs with
  | nil => rfl
  | cons g gs ih =>
    obtain ⟨x, ms, rfl, hm⟩ := h1 g (by simp)
    have hx : isMark x.2 = false := by
      have := h2 _ (List.mem_cons_self ..)
      cases h : isMark x.2 with
      | false => rfl
      | true => exact absurd ⟨x, ms, rfl, h⟩ this
    rw [List.flatten_cons, bases_append, ih (fun g h => h1 g (by simp [h])) (fun g h => h2 g (by simp [h]))]
    have : bases (x :: ms) = 1 + bases ms := by
      unfold bases; rw [List.countP_cons]; simp [hx, Nat.add_comm]
    rw [this, bases_marks hm]; simp; omega

theorem groups_count {gs : List (List Unit8)} (h : Groups gs) : gs.length = bases gs.flatten + headMark gs.flatten := by
  cases gs with
  | nil => rfl
  | cons g gs =>
    obtain ⟨x, ms, rfl, hm⟩ := h.chars g (by simp)
    rw [List.flatten_cons, bases_append, bases_groups (gs := gs) (fun g hg => h.chars g (by simp [hg])) (fun g hg => h.heads g hg)]
    have e : bases (x :: ms) + headMark (x :: ms ++ gs.flatten) = 1 := by
      have : bases (x :: ms) = bases ms + if !isMark x.2 then 1 else 0 := by unfold bases; rw [List.countP_cons]
      rw [this, bases_marks hm]
      simp only [List.cons_append, headMark]
      cases isMark x.2 <;> rfl
    simp only [List.length_cons]
    omega

/-- additional characters in the decomposition of a code point -/
def extraBases (c : Char32) : Nat := if c = 0x16D68 ∨ c = 0x16D69 then 1 else if c = 0x16D6A then 2 else 0

theorem chain_16D68 : chainOf 0x16D68 = [0x16D67, 0x16D67] ∧ chainOf 0x16D69 = [0x16D63, 0x16D67] ∧
    chainOf 0x16D6A = [0x16D63, 0x16D67, 0x16D67] := by decide +kernel

theorem kirat_marks : isMark 0x16D67 = false ∧ isMark 0x16D63 = false ∧ isMark 0x16D68 = false ∧ isMark 0x16D69 = false ∧
    isMark 0x16D6A = false := by decide +kernel

theorem decUnits_bases (u : Unit8) : bases (decUnits u) = bases [u] + extraBases u.2 ∧
    ∀ us vs, headMark (decUnits u ++ us) = headMark (u :: vs) := by
  obtain ⟨k1, k2, k3, k4, k5⟩ := kirat_marks
  obtain ⟨c1, c2, c3⟩ := chain_16D68
  obtain ⟨b, c⟩ := u
  by_cases h1 : c = 0x16D68
  · subst h1
    have e : (0x16D68 : UInt32).toNat = 0x16D68 := rfl
    simp only [decUnits, e, c1]
    simp [bases, headMark, extraBases, k1, k3]
  by_cases h2 : c = 0x16D69
  · subst h2
    have e : (0x16D69 : UInt32).toNat = 0x16D69 := rfl
    simp only [decUnits, e, c2]
    simp [bases, headMark, extraBases, k1, k2, k4]
  by_cases h3 : c = 0x16D6A
  · subst h3
    have e : (0x16D6A : UInt32).toNat = 0x16D6A := rfl
    simp only [decUnits, e, c3]
    simp [bases, headMark, extraBases, k1, k2, k5]
  · have hk : c.toNat ∉ kiratRai := by
      simp only [kiratRai, List.mem_cons, List.not_mem_nil, or_false, not_or]
      refine ⟨fun h => h1 (UInt32.toNat_inj.mp h), fun h => h2 (UInt32.toNat_inj.mp h), fun h => h3 (UInt32.toNat_inj.mp h)⟩
    obtain ⟨x, ms, e, hx, hm⟩ := decUnits_marks (u := (b, c)) hk
    rw [e]
    have : bases (x :: ms) = bases ms + if !isMark x.2 then 1 else 0 := by unfold bases; rw [List.countP_cons]
    rw [this, bases_marks hm]
    simp [bases, extraBases, h1, h2, h3, headMark, hx, List.countP_cons]

theorem decGroup_bases (us : List Unit8) : bases (us.flatMap decUnits) = bases us + ((valsOf us).map extraBases).sum ∧
    headMark (us.flatMap decUnits) = headMark us := by
  constructor
  · induction us with
    | nil => rfl
    | cons u us ih =>
      rw [List.flatMap_cons, bases_append, (decUnits_bases u).1, ih]
      have : bases (u :: us) = bases [u] + bases us := bases_append [u] us
      rw [this]; simp; omega
  · cases us with
    | nil => rfl
    | cons u us => rw [List.flatMap_cons]; exact (decUnits_bases u).2 _ _

theorem sum_extra (cs : List Char32) :
    (cs.map extraBases).sum = cs.count 0x16D68 + cs.count 0x16D69 + 2 * cs.count 0x16D6A := by
  induction cs with
  | nil => rfl
  | cons c cs ih =>
    rw [List.map_cons, List.sum_cons, ih, List.count_cons, List.count_cons, List.count_cons]
    by_cases h1 : c = 0x16D68
    · subst h1; simp [extraBases]; omega
    by_cases h2 : c = 0x16D69
    · subst h2; simp [extraBases]; omega
    by_cases h3 : c = 0x16D6A
    · subst h3; simp [extraBases]; omega
    · simp [extraBases, h1, h2, h3]

/-- C101: the exact number of characters of to_decomposed(s): the one of s, plus one for every U+16D68 and U+16D69 and two
for every U+16D6A in s. -/
theorem C101_count_exact (s t : Str) (cs : List Char32) (n : Nat) (hd : Decodes s cs) (ht : toDecomposed s (n + 1) = .ok t)
    (hl : s.length < SIZE_MOD) (hl' : t.length < SIZE_MOD) :
    ∃ k, countChars s = .ok k ∧ countChars t = .ok (k + cs.count 0x16D68 + cs.count 0x16D69 + 2 * cs.count 0x16D6A) := by
  obtain ⟨us, hu, rfl, h3, rfl⟩ := toDecomposed_ok ht
  have hcs : cs = valsOf us := hd.unique hu.decodes
  subst hcs
  obtain ⟨gs, hg, e⟩ := groups_exist us hu
  obtain ⟨hs, hh, e'⟩ := groups_exist _ (decUnits_all us hu).1
  have c1 := groups_characters hg
  have c2 := groups_characters hh
  rw [e] at c1
  rw [e'] at c2
  refine ⟨gs.length, by rw [C25_count_chars _ _ c1 hl]; simp, ?_⟩
  rw [C25_count_chars _ _ c2 hl', List.length_map, groups_count hh, groups_count hg, e, e', (decGroup_bases us).1,
    (decGroup_bases us).2, sum_extra]
  congr 1; omega

/-- C101: so the full claim fails: U+16D6A is one character, its decomposition U+16D63 U+16D67 U+16D67 has three. -/
theorem C101_kirat_rai (n : Nat) : countChars (encodeAll [0x16D6A]) = .ok 1 ∧
    toDecomposed (encodeAll [0x16D6A]) (n + 1) = .ok (encodeAll [0x16D63, 0x16D67, 0x16D67]) ∧
    countChars (encodeAll [0x16D63, 0x16D67, 0x16D67]) = .ok 3 := by
  have hu : Units [(rfcEncode 0x16D6A, (0x16D6A : Char32))] := by
    simpa using rfcEncode_seq 0x16D6A (by decide)
  have h2 := toDecomposed_of_units hu (by
    intro u h
    simp only [List.mem_cons, List.not_mem_nil, or_false] at h
    subst h
    rw [show ((rfcEncode 0x16D6A, (0x16D6A : Char32)) : Unit8).2.toNat = 0x16D6A from rfl, chain_16D68.2.2]; decide) n
  refine ⟨by decide +kernel, ?_, by decide +kernel⟩
  have e1 : bytesOf [(rfcEncode 0x16D6A, (0x16D6A : Char32))] = encodeAll [0x16D6A] := by decide +kernel
  have e2 : bytesOf ([((rfcEncode 0x16D6A, (0x16D6A : Char32)) : Unit8)].flatMap decUnits) =
    encodeAll [0x16D63, 0x16D67, 0x16D67] := by decide +kernel
  rw [e1, e2] at h2
  exact h2

/- "é" followed by U+1E69: two characters before and after. -/
example : toDecomposed [0xC3, 0xA9, 0xE1, 0xB9, 0xA9] 1 = .ok [0x65, 0xCC, 0x81, 0x73, 0xCC, 0xA3, 0xCC, 0x87] ∧
    countChars [0xC3, 0xA9, 0xE1, 0xB9, 0xA9] = .ok 2 ∧
    countChars [0x65, 0xCC, 0x81, 0x73, 0xCC, 0xA3, 0xCC, 0x87] = .ok 2 := by decide +kernel

example : GoodCharSlice 2 0 1 ∧ GoodCharReplace 2 0 1 := by unfold GoodCharSlice GoodCharReplace; decide

example : NoKiratRai [0xC3, 0xA9] := by
  intro cs h c hc
  have : cs = [0xE9] := h.unique (.cons (u := [0xC3, 0xA9]) (.two (by decide) (by decide) ⟨by decide, by decide⟩ rfl) .nil)
  subst this
  simp only [List.mem_cons, List.not_mem_nil, or_false] at hc
  subst hc
  decide

end Ystring
