import Verif.Props.Concat
import Verif.Props.Edit
import Verif.Props.Order
import Verif.Props.Find
import Verif.Props.FindWhere
import Verif.Props.Replace
import Verif.Props.Split
import Verif.Props.CaseInsensitiveReplace
/-
Property theorems C73 (the search functions agree with each other) and C74 (replace is split and join).
-/
namespace Ystring
open Spec

/-- C73: a string starts (ends) with non-empty `p` iff the first (last) occurrence of `p` is at its start (end);
`find_first` and `find_last` find nothing for the same strings, and otherwise the first occurrence is not behind the
last one. -/
theorem C73_find (s p : Str) (h0 : p ≠ []) (hl : s.length < npos) :
    (startsWith s p = .ok true ↔ findFirst s p 0 = .ok ⟨0, p.length⟩) ∧
    (endsWith s p = .ok true ↔ (findLast s p npos).length ≠ 0 ∧ (findLast s p npos).offset + p.length = s.length) ∧
    ∃ r, findFirst s p 0 = .ok r ∧ (r.length = 0 ↔ (findLast s p npos).length = 0) ∧
      (r.length ≠ 0 → r.length = p.length ∧ r.length = (findLast s p npos).length ∧ r.offset ≤ (findLast s p npos).offset) := by
  have hp : 0 < p.length := List.length_pos_iff.mpr h0
  have occ : ∀ j, OccursAt s p j → j + p.length ≤ s.length := by
    rintro j ⟨a, b, e, hj⟩
    rw [e]; simp only [List.length_append]; omega
  have hF := C17_find_first s p h0 0 (Nat.zero_le _)
  have hL := C18_find_last s p h0 npos
  have hS := (C23_starts_with s p).1
  have hE := (C23_ends_with s p (by unfold npos at hl; unfold SIZE_MOD; omega)).1
  have hS' : (∃ t, s = p ++ t) ↔ OccursAt s p 0 := by
    constructor
    · rintro ⟨t, e⟩; exact ⟨[], t, by rw [e]; rfl, rfl⟩
    · rintro ⟨a, b, e, ha⟩
      rw [List.length_eq_zero_iff.mp ha] at e
      exact ⟨b, e⟩
  have hE' : (∃ t, s = t ++ p) ↔ ∃ j, OccursAt s p j ∧ j + p.length = s.length := by
    constructor
    · rintro ⟨t, e⟩; exact ⟨t.length, ⟨t, [], by rw [e]; simp, rfl⟩, by rw [e]; simp⟩
    · rintro ⟨j, ⟨a, b, e, ha⟩, hj⟩
      have : b = [] := by
        rw [e] at hj
        simp only [List.length_append] at hj
        exact List.length_eq_zero_iff.mp (by omega)
      subst this
      exact ⟨a, by rw [e]; simp⟩
  refine ⟨?_, ?_, ?_⟩
  · rw [hS, hS']
    rcases hF with ⟨i, h1, _, h3, h4⟩ | ⟨h1, h2⟩
    · rw [h1]
      constructor
      · intro h
        have := h4 0 (Nat.le_refl _) h
        have : i = 0 := by omega
        rw [this]
      · intro h
        injection h with h
        injection h with h _
        rw [h] at h3; exact h3
    · rw [h1]
      constructor
      · intro h; exact absurd h (h2 0 (Nat.le_refl _))
      · intro h
        injection h with h
        injection h with _ h
        omega
  · rw [hE, hE']
    rcases hL with ⟨i, h1, _, h3, h4⟩ | ⟨h1, h2⟩
    · rw [h1]
      constructor
      · rintro ⟨j, hj, e⟩
        have := h4 j (by omega) hj
        have := occ i h3
        simp only
        omega
      · rintro ⟨_, h⟩
        exact ⟨i, h3, h⟩
    · rw [h1]
      constructor
      · rintro ⟨j, hj, e⟩
        exact absurd hj (h2 j (by omega))
      · rintro ⟨h, _⟩
        exact absurd rfl h
  · rcases hF with ⟨i, h1, _, h3, h4⟩ | ⟨h1, h2⟩
    · have := occ i h3
      rcases hL with ⟨k, g1, _, g3, g4⟩ | ⟨g1, g2⟩
      · refine ⟨_, h1, ?_, fun _ => ?_⟩
        · rw [g1]
        · rw [g1]; exact ⟨rfl, rfl, h4 k (Nat.zero_le _) g3⟩
      · exact absurd h3 (g2 i (by omega))
    · refine ⟨_, h1, ?_, fun h => absurd rfl h⟩
      rcases hL with ⟨k, g1, _, g3, g4⟩ | ⟨g1, g2⟩
      · exact absurd g3 (h2 k (Nat.zero_le _))
      · rw [g1]

/-- Where a cut between code points is. -/
theorem cut_at {s a b : Str} {gs : List Str} {es : List Char32} (hg : CodePoints s gs) (e : s = a ++ b) (ha : Decodes a es)
    (hb : Valid b) : a.length = off gs es.length := by
  obtain ⟨ds, hb⟩ := hb
  obtain ⟨ga, ga1, ga2, _⟩ := pieces_of ha
  obtain ⟨gb, gb1, gb2, _⟩ := pieces_of hb
  have h : CodePoints s (ga ++ gb) := ⟨by rw [List.flatten_append, ga1.1, gb1.1, e], fun g hg => by
    rcases List.mem_append.mp hg with h | h
    · exact ga1.2 g h
    · exact gb1.2 g h⟩
  rw [(C27_codePoints s).2.1 _ _ hg h, ← ga2]
  unfold off
  rw [List.take_left' rfl, ga1.1]

/-- C73: in a well-formed string, `contains` finds a code point iff `find_first` finds its encoding, iff `find_first_of`
finds one of a list with just this code point, iff it is among the results of `to_utf32`; and the two searches find the
same. -/
theorem C73_contains (s : Str) (hs : WellFormed s) (c : Char32) (hc : c.toNat ≤ 0x10FFFF) :
    ∃ b cs r r' x, contains s c = .ok b ∧ toUtf32 s = .ok cs ∧ findFirst s (fromUtf32 [c]) 0 = .ok r ∧
      findFirstOf s [c] 0 = .ok (r', x) ∧
      (b = true ↔ c ∈ cs) ∧ (b = true ↔ r.length ≠ 0) ∧ (b = true ↔ r'.length ≠ 0) ∧
      (b = true → r = r' ∧ x = c) := by
  obtain ⟨cs, hu, _⟩ := C10_from_to_utf32 s hs
  have hd := ((C09_to_utf32 _).1 _).mp hu
  obtain ⟨hfs, hcs⟩ := wellFormed_decodes hs hd
  have he : fromUtf32 [c] = rfcEncode c.toNat := by
    rw [fromUtf32_eq]; simp [encodeUtf8_rfc c hc]
  have hseq := rfcEncode_seq c hc
  have hne : rfcEncode c.toNat ≠ [] := hseq.ne_nil
  have cut : ∀ i, OccursAt s (rfcEncode c.toNat) i → ∃ es ds, cs = es ++ c :: ds ∧ ∀ gs, CodePoints s gs → i = off gs es.length := by
    rintro i ⟨a, b, e, rfl⟩
    obtain ⟨⟨es, h1⟩, ⟨ds, h2⟩⟩ := valid_cut (a := a) (m := rfcEncode c.toNat) (b := b) (e ▸ ⟨cs, hd⟩) ⟨_, hseq.decodes⟩ hne
    have hst := (h1.append hseq.decodes).append h2
    rw [← e] at hst
    refine ⟨es, ds, by rw [hd.unique hst]; simp, fun gs hg => ?_⟩
    exact cut_at hg (by rw [e, List.append_assoc]) h1 ⟨_, hseq.decodes.append h2⟩
  have hfo : findFirstOf s [c] 0 = findFirstWhere s (fun d => decide (d = c)) 0 :=
    (C20_find_first_of s [c] {} 0).1 _ (by simp)
  have hF := C17_find_first s (rfcEncode c.toNat) hne 0 (Nat.zero_le _)
  refine ⟨decide (c ∈ cs), cs, ?_⟩
  by_cases hm : c ∈ cs
  · obtain ⟨xs, ys, e, hx⟩ := List.append_of_mem hm |> fun ⟨_, _, e⟩ => (show ∃ xs ys, cs = xs ++ c :: ys ∧ c ∉ xs by
      obtain ⟨i, hi⟩ : ∃ i, cs.findIdx? (· == c) = some i := by
        cases h : cs.findIdx? (· == c) with
        | some i => exact ⟨i, rfl⟩
        | none =>
          rw [List.findIdx?_eq_none_iff] at h
          have := h c hm
          simp at this
      rw [List.findIdx?_eq_some_iff_getElem] at hi
      obtain ⟨h, h1, h2⟩ := hi
      refine ⟨cs.take i, cs.drop (i + 1), ?_, ?_⟩
      · have : cs[i] = c := by simpa using h1
        rw [← this, ← List.drop_eq_getElem_cons h, List.take_append_drop]
      · intro hx
        obtain ⟨j, hj, e⟩ := List.mem_iff_getElem.mp hx
        rw [List.getElem_take] at e
        have hj' : j < i := by rw [List.length_take] at hj; omega
        have := h2 j hj'
        simp [e] at this)
    have hsx : s = fromUtf32 xs ++ rfcEncode c.toNat ++ fromUtf32 ys := by
      rw [← he, ← C69_from_utf32, ← C69_from_utf32, ← hfs, e]; simp
    have hdx : Decodes (fromUtf32 xs) xs := ((C09_to_utf32 _).1 _).mp (C10_to_from_utf32_exact xs (fun d h => hcs d (by rw [e]; simp [h])))
    have hdy : Decodes (fromUtf32 ys) ys := ((C09_to_utf32 _).1 _).mp (C10_to_from_utf32_exact ys (fun d h => hcs d (by rw [e]; simp [h])))
    have hw := (C20_find_first_where [] s (fun d => decide (d = c))).1 _ _ _ xs c hsx hdx (by
      intro x hx'; simp only [decide_eq_false_iff_not]; rintro rfl; exact hx hx') hseq (by simp)
    simp only [List.nil_append, List.length_nil, Nat.zero_add] at hw
    rcases hF with ⟨i, h1, _, h3, h4⟩ | ⟨h1, h2⟩
    · have hi : i = (fromUtf32 xs).length := by
        have hle := h4 _ (Nat.zero_le _) ⟨_, _, hsx, rfl⟩
        obtain ⟨es, ds, e2, hoff⟩ := cut i h3
        obtain ⟨gs, hg⟩ := (C27_codePoints s).1.mp ⟨_, hd⟩
        have hx2 := cut_at hg (by rw [hsx, List.append_assoc]) hdx ⟨_, hseq.decodes.append hdy⟩
        have hlen : xs.length ≤ es.length := by
          rcases Nat.lt_or_ge es.length xs.length with h | h
          · exfalso
            rw [e] at e2
            have : xs[es.length]? = some c := by
              rw [← List.getElem?_append_left (l₂ := c :: ys) h, e2]; simp
            exact hx (List.mem_of_getElem? this)
          · exact h
        have := off_mono (gs := gs) hlen
        have := hoff gs hg
        omega
      refine ⟨_, _, _, C16_contains_valid s cs hd c, hu, by rw [he]; exact h1, hfo.trans hw, ?_⟩
      have : (rfcEncode c.toNat).length ≠ 0 := fun h => hne (List.length_eq_zero_iff.mp h)
      simp [hm, this, hi]
    · exact absurd ⟨_, _, hsx, rfl⟩ (h2 (fromUtf32 xs).length (Nat.zero_le _))
  · have hw := (C20_find_first_where [] s (fun d => decide (d = c))).2.1 cs hd (by
      intro x hx'; simp only [decide_eq_false_iff_not]; rintro rfl; exact hm hx')
    simp only [List.nil_append, List.length_nil] at hw
    rcases hF with ⟨i, h1, _, h3, h4⟩ | ⟨h1, h2⟩
    · obtain ⟨es, ds, e2, _⟩ := cut i h3
      exact absurd (by rw [e2]; simp) hm
    · exact ⟨_, _, _, C16_contains_valid s cs hd c, hu, by rw [he]; exact h1, hfo.trans hw, by simp [hm]⟩

example : WellFormed [0x61, 0xC3, 0xA6] := ⟨[0x61, 0xE6], by unfold IsScalar; decide, by decide⟩

/-- C73: on strings that are only valid, not well-formed, they differ (overlong encoding of `a`). -/
theorem C73_overlong : contains [0xC1, 0xA1] 0x61 = .ok true ∧ findFirst [0xC1, 0xA1] (fromUtf32 [0x61]) 0 = .ok ⟨2, 0⟩ := by
  decide +kernel

/-- C74: `replace` puts the pieces `split` produces together with the replacement between them. -/
theorem C74_replace_split (s f to : Str) (h0 : f ≠ []) (n : Nat) (hn : 0 < n) (hs : s.length < SIZE_MOD) :
    ∃ ps, split s f ⟨n, false⟩ = .ok ps ∧ replace s f to n = .ok (join ps to) := by
  obtain ⟨ps, h1, h2, h3⟩ := C38_split_join s f h0 n hn hs
  obtain ⟨qs, _, _, h5, h6⟩ := C34_replace_left s f to h0 n (by omega)
  have := h6 ps (by simpa using h2)
  subst this
  exact ⟨ps, h1, by rw [h5, join_eq]⟩

/-- C74: the same for the case-insensitive functions. -/
theorem C74_ci (s f to : Str) (hs : Valid s) (hf : Valid f) (h0 : f ≠ []) (n : Nat) (hn : 0 < n) (hl : s.length < SIZE_MOD) :
    ∃ ps, CI.split s f ⟨n, false⟩ = .ok ps ∧ CI.replace s f to n = .ok (join ps to) := by
  obtain ⟨ps, last, h1, h2⟩ := CI.C47_split s f hs hf h0 n hn false hl
  obtain ⟨qs, last', h3, h4⟩ := CI.C47_replace_left s f to hs hf h0 n (by omega) hl
  obtain ⟨rfl, rfl⟩ := CI.C47_cuts_unique (by simpa using h3) h1
  refine ⟨_, h2, ?_⟩
  rw [h4, join_eq]
  congr 1
  unfold keep
  simp only [Bool.false_eq_true, if_false]
  clear h1 h2 h3 h4
  induction qs with
  | nil => rfl
  | cons q qs ih =>
    rw [List.map_cons, List.cons_append, joinWith_cons _ _ (by simp), ← ih]
    simp

/-- C74: the number of pieces is one more than the number of replacements: the length of the result. -/
theorem C74_length (s f to : Str) (h0 : f ≠ []) (n : Nat) (hn : 0 < n) (hs : s.length < SIZE_MOD) :
    ∃ ps r, split s f ⟨n, false⟩ = .ok ps ∧ replace s f to n = .ok r ∧ 1 ≤ ps.length ∧
      r.length + (ps.length - 1) * f.length = s.length + (ps.length - 1) * to.length := by
  obtain ⟨ps, h1, h2, h3⟩ := C38_split_join s f h0 n hn hs
  obtain ⟨ps', h1', h4⟩ := C74_replace_split s f to h0 n hn hs
  rw [h1] at h1'; injection h1' with e; subst e
  have hne : ps ≠ [] := by
    cases h2 <;> simp
  have hlen : ∀ sep : Str, ∀ ps : List Str, ps ≠ [] → (joinWith sep ps).length = ps.flatten.length + (ps.length - 1) * sep.length := by
    intro sep ps
    induction ps with
    | nil => simp
    | cons p ps ih =>
      intro _
      by_cases hp : ps = []
      · subst hp; simp [joinWith]
      · rw [joinWith_cons _ _ hp]
        simp only [List.length_append, ih hp, List.flatten_cons, List.length_cons, Nat.add_sub_cancel]
        have : 0 < ps.length := List.length_pos_iff.mpr hp
        obtain ⟨m, hm⟩ : ∃ m, ps.length = m + 1 := ⟨ps.length - 1, by omega⟩
        rw [hm, Nat.add_sub_cancel, Nat.succ_mul]
        omega
  refine ⟨ps, _, h1, h4, List.length_pos_iff.mpr hne, ?_⟩
  have e1 := hlen f ps hne
  have e2 := hlen to ps hne
  rw [join_eq] at h3 ⊢
  rw [← h3, e1, e2]
  omega

end Ystring
