import Verif.Proofs.Canon
import Verif.Props.Replace
/-
Property theorems C54 (canonical decomposition).
-/
namespace Ystring
open Spec

/-! ### The specification is a function -/

/-- C54: every number has exactly one full canonical decomposition, and its components have none. -/
theorem C54_spec (c : Nat) : ∃ l, Canon c l ∧ (∀ k, Canon c k → k = l) ∧ ∀ x ∈ l, Canon x [x] := by
  obtain ⟨l, h⟩ := canon_total c
  exact ⟨l, h, fun k hk => hk.unique h, fun x hx => let a := h.atoms x hx; .atom a.1 a.2.1 a.2.2⟩

/-! ### decompose -/

theorem canon_chain {c : Nat} {l : List Nat} (h : Canon c l) (h1 : singleOf c = none) (h2 : ¬ IsHangul c) :
    Chain4 c l := by
  obtain ⟨k, hk⟩ := chain4_total c
  rw [h.unique (hk.canon h1 h2)]
  exact hk

theorem map_ofNat_single (c : Char32) : [c.toNat].map UInt32.ofNat = [c] := by simp

/-- C54 (partial): decompose returns the full canonical decomposition of every code point that is not a singleton, not a
Hangul syllable and has at most three components. Missing: the other code points, see C54_decompose_exact. -/
theorem C54_decompose_partial (c : Char32) (l : List Nat) (h : Canon c.toNat l) (h1 : singleOf c.toNat = none)
    (h2 : ¬ IsHangul c.toNat) (h3 : l.length ≤ 3) : decompose c = .ok (l.map UInt32.ofNat) := by
  have hc := canon_chain h h1 h2
  rw [decompose_eq c hc]
  cases hc with
  | d0 h => simp
  | d1 h h' => rfl
  | d2 h h' h'' => rfl
  | d3 h h' h'' h''' => simp at h3

/-- C54: decompose returns the full canonical decomposition *exactly* for these code points. -/
theorem C54_decompose_exact (c : Char32) (l : List Nat) (h : Canon c.toNat l) :
    decompose c = .ok (l.map UInt32.ofNat) ↔ singleOf c.toNat = none ∧ ¬ IsHangul c.toNat ∧ l.length ≤ 3 := by
  constructor
  · intro hd
    by_cases hs : singleOf c.toNat = none ∧ ¬ IsHangul c.toNat
    · refine ⟨hs.1, hs.2, ?_⟩
      have hc := canon_chain h hs.1 hs.2
      rw [decompose_eq c hc] at hd
      cases hc with
      | d0 h => simp
      | d1 h h' => simp
      | d2 h h' h'' => simp
      | d3 h h' h'' h''' => simp at hd
    · have hs' : singleOf c.toNat ≠ none ∨ IsHangul c.toNat := by
        by_cases h1 : singleOf c.toNat = none
        · exact .inr (Classical.not_not.mp (fun h2 => hs ⟨h1, h2⟩))
        · exact .inl h1
      rw [decompose_eq c (chain4_single hs')] at hd
      simp only [Except.ok.injEq] at hd
      exfalso
      cases l with
      | nil => simp at hd
      | cons x l =>
        simp only [List.map_cons, List.cons.injEq] at hd
        have hx := h.atoms x (by simp)
        have hx0 := h.lt (UInt32.toNat_lt c) x (by simp)
        have e : c.toNat = x := by rw [hd.1, toNat_ofNat32 hx0]
        rw [← e] at hx
        rcases hs' with hs' | hs'
        · exact hs' hx.2.1
        · exact hx.2.2 hs'
  · rintro ⟨h1, h2, h3⟩
    exact C54_decompose_partial c l h h1 h2 h3

/-- C54: singletons and Hangul syllables are returned unchanged. -/
theorem C54_unsupported (c : Char32) (h : singleOf c.toNat ≠ none ∨ IsHangul c.toNat) : decompose c = .ok [c] :=
  decompose_eq c (chain4_single h)

/-- C54: of four components only the last two are returned, in reverse order. -/
theorem C54_four (c : Char32) (a b m n : Nat) (h : Canon c.toNat [a, b, m, n]) (h1 : singleOf c.toNat = none)
    (h2 : ¬ IsHangul c.toNat) : decompose c = .ok [UInt32.ofNat n, UInt32.ofNat m] := by
  have hc := canon_chain h h1 h2
  rw [decompose_eq c hc]

/-- C54: there are never more than four components, and decompose always returns. -/
theorem C54_total (c : Char32) : (∃ r, decompose c = .ok r) ∧
    ∀ l, Canon c.toNat l → singleOf c.toNat = none → ¬ IsHangul c.toNat → l.length ≤ 4 := by
  constructor
  · obtain ⟨l, h⟩ := chain4_total c.toNat
    exact ⟨_, decompose_eq c h⟩
  · intro l h h1 h2
    cases canon_chain h h1 h2 <;> simp

theorem canon_1F82 : Canon 0x1F82 [0x3B1, 0x313, 0x300, 0x345] := by
  have hp : pairOf 0x1F82 = some (0x1F02, 0x345) := by decide +kernel
  have hp2 : pairOf 0x1F02 = some (0x1F00, 0x300) := by decide +kernel
  have hp3 : pairOf 0x1F00 = some (0x3B1, 0x313) := by decide +kernel
  exact (Chain4.d3 hp hp2 hp3 (by decide +kernel)).canon (by decide +kernel) (by unfold IsHangul; decide)

theorem canon_212B : Canon 0x212B [0x41, 0x30A] := by
  refine .single (d := 0xC5) (by decide +kernel) ?_
  have hp : pairOf 0xC5 = some (0x41, 0x30A) := by decide +kernel
  exact (Chain4.d1 hp (by decide +kernel)).canon (by decide +kernel) (by unfold IsHangul; decide)

theorem canon_AC01 : Canon 0xAC01 [0x1100, 0x1161, 0x11A8] := .lvt (by unfold IsHangul; decide) (by decide)

theorem canon_1E69 : Canon 0x1E69 [0x73, 0x323, 0x307] := by
  have hp : pairOf 0x1E69 = some (0x1E63, 0x307) := by decide +kernel
  have hp2 : pairOf 0x1E63 = some (0x73, 0x323) := by decide +kernel
  exact (Chain4.d2 hp hp2 (by decide +kernel)).canon (by decide +kernel) (by unfold IsHangul; decide)

/-- C54: the full claim fails: for U+1F82 (four components), U+212B (a singleton) and U+AC01 (a Hangul syllable). -/
theorem C54_false : ¬ (∀ (c : Char32) (l : List Nat), Canon c.toNat l → decompose c = .ok (l.map UInt32.ofNat)) ∧
    decompose 0x1F82 = .ok [0x345, 0x300] ∧ decompose 0x212B = .ok [0x212B] ∧ decompose 0xAC01 = .ok [0xAC01] := by
  have h1 : decompose 0x1F82 = .ok [0x345, 0x300] :=
    C54_four 0x1F82 _ _ _ _ canon_1F82 (by decide +kernel) (by show ¬ IsHangul 0x1F82; unfold IsHangul; decide)
  refine ⟨?_, h1, C54_unsupported _ (.inl (by decide +kernel)),
    C54_unsupported _ (.inr (by show IsHangul 0xAC01; unfold IsHangul; decide))⟩
  intro h
  have := h 0x1F82 _ canon_1F82
  rw [h1] at this
  simp at this

/- U+1E69 meets the hypotheses of C54_decompose_partial. -/
example : decompose 0x1E69 = .ok [0x73, 0x323, 0x307] :=
  C54_decompose_partial 0x1E69 _ canon_1E69 (by decide +kernel)
    (by show ¬ IsHangul 0x1E69; unfold IsHangul; decide) (by simp)

/-! ### to_decomposed -/

theorem lib_chain {cs ds : List Char32} (h : LibText cs ds) :
    (∀ c ∈ cs, (chainOf c.toNat).length ≤ 3) ∧ ds = cs.flatMap (fun c => (chainOf c.toNat).map UInt32.ofNat) := by
  induction h with
  | nil => simp
  | @keep c cs ds h _ ih =>
    have := (chain4_single h).unique
    constructor
    · intro d hd
      rcases List.mem_cons.mp hd with rfl | hd
      · rw [← this]; simp
      · exact ih.1 d hd
    · rw [List.flatMap_cons, ← this, ← ih.2]; simp
  | @cons c l cs ds h1 h2 h3 h4 _ ih =>
    have := (canon_chain h3 h1 h2).unique
    constructor
    · intro d hd
      rcases List.mem_cons.mp hd with rfl | hd
      · rw [← this]; exact h4
      · exact ih.1 d hd
    · rw [List.flatMap_cons, ← this, ← ih.2]

theorem decPiece_encode (c : Char32) : decPiece (rfcEncode c.toNat, c) = encodeAll ((chainOf c.toNat).map UInt32.ofNat) := by
  unfold decPiece encodeAll
  have hc := chainOf_spec c.toNat
  have hb := chain_bound hc
  simp only
  generalize chainOf c.toNat = l at *
  by_cases hl : l.length = 1
  · rw [if_pos hl]
    cases hc <;> simp at *
  · rw [if_neg hl, List.flatMap_map]
    have := hb hl
    apply flatMap_congr'
    intro x hx
    have := this x hx
    rw [toNat_ofNat32 (by omega)]

theorem flatMap_encode (cs : List Char32) :
    (cs.map (fun c => (rfcEncode c.toNat, c))).flatMap decPiece =
      encodeAll (cs.flatMap (fun c => (chainOf c.toNat).map UInt32.ofNat)) := by
  induction cs with
  | nil => rfl
  | cons c cs ih => rw [List.map_cons, List.flatMap_cons, List.flatMap_cons, encodeAll_append, ih, decPiece_encode]

/-- C54 (partial): to_decomposed returns the concatenation of the decompositions, where singletons and Hangul syllables
are kept, for text in which no code point has more than three components. Missing: texts with code points of four
components (C54_false_diverges), singletons and Hangul syllables (kept here). -/
theorem C54_to_decomposed_partial (cs ds : List Char32) (hcs : ∀ c ∈ cs, c.toNat ≤ 0x10FFFF) (h : LibText cs ds) (g : Nat) :
    toDecomposed (encodeAll cs) (g + 1) = .ok (encodeAll ds) := by
  obtain ⟨h1, rfl⟩ := lib_chain h
  obtain ⟨hu, he⟩ := encodeAll_units cs hcs
  have := toDecomposed_units g _ [] hu (by
    intro u hm
    obtain ⟨c, hc, rfl⟩ := List.mem_map.mp hm
    exact h1 c hc) not_hasSeqPrefix_nil
  rw [List.append_nil, he, if_pos rfl, flatMap_encode] at this
  exact this

/-- C54 (partial): the full claim for texts without singletons, Hangul syllables and code points of four components. -/
theorem C54_to_decomposed_canon_partial (cs ds : List Char32) (hcs : ∀ c ∈ cs, c.toNat ≤ 0x10FFFF) (h : CanonText cs ds)
    (h1 : ∀ c ∈ cs, singleOf c.toNat = none ∧ ¬ IsHangul c.toNat ∧ ∀ l, Canon c.toNat l → l.length ≤ 3) (g : Nat) :
    toDecomposed (encodeAll cs) (g + 1) = .ok (encodeAll ds) := by
  apply C54_to_decomposed_partial cs ds hcs
  clear hcs g
  induction h with
  | nil => exact .nil
  | @cons c l cs ds h _ ih =>
    have := h1 c (by simp)
    exact .cons this.1 this.2.1 h (this.2.2 l h) (ih (fun d hd => h1 d (by simp [hd])))

theorem split_four (us : List Unit8) : (∀ u ∈ us, (chainOf u.2.toNat).length ≤ 3) ∨
    ∃ vs u ws, us = vs ++ u :: ws ∧ (∀ v ∈ vs, (chainOf v.2.toNat).length ≤ 3) ∧ ¬ (chainOf u.2.toNat).length ≤ 3 := by
  induction us with
  | nil => left; simp
  | cons u us ih =>
    by_cases hu : (chainOf u.2.toNat).length ≤ 3
    · rcases ih with ih | ⟨vs, v, ws, rfl, h1, h2⟩
      · left; simpa [hu] using ih
      · right; exact ⟨u :: vs, v, ws, rfl, by simpa [hu] using h1, h2⟩
    · right; exact ⟨[], u, us, rfl, by simp, hu⟩

theorem toDecomposed_zero (us : List Unit8) (h : Units us) (h0 : us ≠ []) (t : Str) :
    toDecomposed (bytesOf us ++ t) 0 = .error .diverge := by
  cases us with
  | nil => exact absurd rfl h0
  | cons u us =>
    rw [Units_cons] at h
    rw [bytesOf_cons, List.append_assoc]
    unfold toDecomposed
    rw [toDecomposedLoop, safeDecodeNext_seq h.1]
    simp only [bind_ok']
    rw [decomposeChar3 u.2 0 0 0 (chainOf_spec _)]
    rfl

/-- four components somewhere -/
theorem toDecomposed_diverge' (us : List Unit8) (h : Units us) (t : Str) (h4 : ∃ u ∈ us, ¬ (chainOf u.2.toNat).length ≤ 3) (g : Nat) :
    toDecomposed (bytesOf us ++ t) g = .error .diverge := by
  obtain ⟨u, hu, h4⟩ := h4
  rcases split_four us with h3 | ⟨vs, v, ws, rfl, h1, h2⟩
  · exact absurd (h3 u hu) h4
  · cases g with
    | zero => exact toDecomposed_zero _ h (by simp) t
    | succ g =>
      rw [Units_append, Units_cons] at h
      have := toDecomposed_diverge g vs v (bytesOf ws ++ t) h.1 h.2.1 h1 h2
      simpa using this

/-- C54: on every text that contains a code point with four components to_decomposed does not terminate: however many
times the inner loop is run, it does not come to an end. -/
theorem C54_false_diverges (cs : List Char32) (hcs : ∀ c ∈ cs, c.toNat ≤ 0x10FFFF) (c : Char32) (hc : c ∈ cs) (l : List Nat)
    (h : Canon c.toNat l) (h1 : singleOf c.toNat = none) (h2 : ¬ IsHangul c.toNat) (h3 : 3 < l.length) (g : Nat) :
    toDecomposed (encodeAll cs) g = .error .diverge := by
  obtain ⟨hu, he⟩ := encodeAll_units cs hcs
  rw [← he, ← List.append_nil (bytesOf _)]
  apply toDecomposed_diverge' _ hu
  refine ⟨(rfcEncode c.toNat, c), List.mem_map.mpr ⟨c, hc, rfl⟩, ?_⟩
  rw [← (canon_chain h h1 h2).unique]
  omega

/-- C54: the two cases cover every text. -/
theorem C54_cases (cs : List Char32) : (∃ ds, LibText cs ds) ∨
    ∃ c ∈ cs, ∃ l, Canon c.toNat l ∧ singleOf c.toNat = none ∧ ¬ IsHangul c.toNat ∧ 3 < l.length := by
  induction cs with
  | nil => exact .inl ⟨_, .nil⟩
  | cons c cs ih =>
    rcases ih with ⟨ds, ih⟩ | ⟨d, hd, ih⟩
    · by_cases h1 : singleOf c.toNat = none
      · by_cases h2 : IsHangul c.toNat
        · exact .inl ⟨_, .keep (.inr h2) ih⟩
        · obtain ⟨l, hl⟩ := canon_total c.toNat
          by_cases h3 : l.length ≤ 3
          · exact .inl ⟨_, .cons h1 h2 hl h3 ih⟩
          · exact .inr ⟨c, by simp, l, hl, h1, h2, by omega⟩
      · exact .inl ⟨_, .keep (.inl h1) ih⟩
    · exact .inr ⟨d, by simp [hd], ih⟩

/-- the units of the result -/
def decUnits (u : Unit8) : List Unit8 :=
  if (chainOf u.2.toNat).length = 1 then [u] else (chainOf u.2.toNat).map (fun n => (rfcEncode n, UInt32.ofNat n))

theorem chain_final {c : Nat} {l : List Nat} (h : Chain4 c l) : ∀ x ∈ l, chainOf x = [x] := by
  have base : ∀ {x}, pairOf x = none → chainOf x = [x] := fun h => ((Chain4.d0 h).unique).symm
  cases h with
  | d0 h => simp [base h]
  | d1 h h2 => simp [base h2, base (pairOf_facts h).mpair]
  | d2 h h2 h3 => simp [base h3, base (pairOf_facts h).mpair, base (pairOf_facts h2).mpair]
  | d3 h h2 h3 h4 =>
    simp [base h4, base (pairOf_facts h).mpair, base (pairOf_facts h2).mpair, base (pairOf_facts h3).mpair]

theorem decUnits_spec (u : Unit8) (h : IsSeq u.1 u.2) : Units (decUnits u) ∧ bytesOf (decUnits u) = decPiece u ∧
    ∀ v ∈ decUnits u, (chainOf v.2.toNat).length = 1 := by
  unfold decUnits decPiece
  have hc := chainOf_spec u.2.toNat
  by_cases hl : (chainOf u.2.toNat).length = 1
  · rw [if_pos hl, if_pos hl]
    exact ⟨by simpa using h, by simp, by simpa using hl⟩
  · rw [if_neg hl, if_neg hl]
    have hb := chain_bound hc hl
    refine ⟨?_, by simp [bytesOf, List.flatMap_map], ?_⟩
    · intro v hv
      obtain ⟨n, hn, rfl⟩ := List.mem_map.mp hv
      have := hb n hn
      have := rfcEncode_seq (UInt32.ofNat n) (by rw [toNat_ofNat32 (by omega)]; exact this)
      rw [toNat_ofNat32 (by omega)] at this
      exact this
    · intro v hv
      obtain ⟨n, hn, rfl⟩ := List.mem_map.mp hv
      have := hb n hn
      rw [toNat_ofNat32 (by omega), chain_final hc n hn]
      rfl

theorem decUnits_all (us : List Unit8) (h : Units us) : Units (us.flatMap decUnits) ∧
    bytesOf (us.flatMap decUnits) = us.flatMap decPiece ∧ ∀ v ∈ us.flatMap decUnits, (chainOf v.2.toNat).length = 1 := by
  induction us with
  | nil => simp
  | cons u us ih =>
    rw [Units_cons] at h
    obtain ⟨a1, a2, a3⟩ := decUnits_spec u h.1
    obtain ⟨b1, b2, b3⟩ := ih h.2
    rw [List.flatMap_cons, List.flatMap_cons]
    refine ⟨Units_append.mpr ⟨a1, b1⟩, by rw [bytesOf_append, a2, b2], ?_⟩
    intro v hv
    rcases List.mem_append.mp hv with hv | hv
    · exact a3 v hv
    · exact b3 v hv

theorem flatMap_id {us : List Unit8} (h : ∀ v ∈ us, (chainOf v.2.toNat).length = 1) : us.flatMap decPiece = bytesOf us := by
  unfold bytesOf
  apply flatMap_congr'
  intro v hv
  unfold decPiece
  rw [if_pos (h v hv)]

/-- C54: for every byte string: a result is valid and decomposing it again changes nothing; there is a result, or no
termination, if the string is valid, and YstringException, or no termination, if it is not. -/
theorem C54_outcomes (s : Str) (g : Nat) :
    (∀ t, toDecomposed s (g + 1) = .ok t → Valid s ∧ Valid t ∧ ∀ g', toDecomposed t (g' + 1) = .ok t) ∧
    ((∃ t, toDecomposed s (g + 1) = .ok t) ∨ toDecomposed s (g + 1) = .error .ystring ∨
      ∀ g', toDecomposed s g' = .error .diverge) ∧
    (Valid s → toDecomposed s (g + 1) ≠ .error .ystring) := by
  obtain ⟨us, t, h, rfl, ht⟩ := splitUnits s
  by_cases h3 : ∀ u ∈ us, (chainOf u.2.toNat).length ≤ 3
  · have e := toDecomposed_units g us t h h3 ht
    rw [e]
    by_cases h0 : t = []
    · subst h0
      simp only [if_true]
      refine ⟨?_, .inl ⟨_, rfl⟩, by simp⟩
      rintro r ⟨⟩
      obtain ⟨b1, b2, b3⟩ := decUnits_all us h
      refine ⟨by simpa using h.valid, b2 ▸ b1.valid, ?_⟩
      intro g'
      have := toDecomposed_units g' _ [] b1 (fun u hu => by rw [b3 u hu]; omega) not_hasSeqPrefix_nil
      rw [List.append_nil, if_pos rfl, flatMap_id b3, b2] at this
      exact this
    · rw [if_neg h0]
      refine ⟨by simp, .inr (.inl rfl), ?_⟩
      intro hv
      exact absurd ((valid_bad_tail h ht).mp hv) h0
  · have h4 : ∃ u ∈ us, ¬ (chainOf u.2.toNat).length ≤ 3 := by
      simpa using h3
    have e := toDecomposed_diverge' us h t h4
    rw [e]
    exact ⟨by simp, .inr (.inr e), by simp⟩

example : LibText [0x1E69, 0xAC01, 0x62] [0x73, 0x323, 0x307, 0xAC01, 0x62] :=
  .cons (c := 0x1E69) (by decide +kernel) (by show ¬ IsHangul 0x1E69; unfold IsHangul; decide) canon_1E69 (by simp)
    (.keep (.inr (by show IsHangul 0xAC01; unfold IsHangul; decide))
      (.cons (c := 0x62) (by decide +kernel) (by show ¬ IsHangul 0x62; unfold IsHangul; decide)
        (.atom (by decide +kernel) (by decide +kernel) (by show ¬ IsHangul 0x62; unfold IsHangul; decide)) (by simp) .nil))

example (g : Nat) : toDecomposed (encodeAll [0x61, 0x1F82]) g = .error .diverge :=
  C54_false_diverges [0x61, 0x1F82] (by decide) 0x1F82 (by simp) _ canon_1F82 (by decide +kernel)
    (by show ¬ IsHangul 0x1F82; unfold IsHangul; decide) (by simp) g

end Ystring
