import Verif.Props.Concat
import Verif.Props.Edit
import Verif.Props.Codec
/-
Property theorems C77 (comparison of code points) and C78 (finding a code point boundary from anywhere in a string).
-/
namespace Ystring
open Spec

/-! ### C77 -/

theorem upper_lt (c : Char32) (h : c.toNat < 2 ^ 31) : (toUpperChar c).toNat < 2 ^ 31 := by
  rw [C52_to_upper]
  by_cases hc : c.toNat ≤ 0x10FFFF
  · have := (lookup_good UD_UPPER (fun p hp => by
      have := List.all_eq_true.mp upper_good p hp
      exact (Bool.and_eq_true _ _ |>.mp this).1) c.toNat).1 hc
    unfold simpleUpper; omega
  · have := (lookup_good UD_UPPER (fun p hp => by
      have := List.all_eq_true.mp upper_good p hp
      exact (Bool.and_eq_true _ _ |>.mp this).1) c.toNat).2.1 (by omega)
    unfold simpleUpper; omega

/-- C77: `case_insensitive_equal` and `case_insensitive_less` compare the simple upper case mappings, for all values. -/
theorem C77_equal_less (a b : Char32) :
    (caseInsensitiveEqual a b = true ↔ simpleUpper a.toNat = simpleUpper b.toNat) ∧
    (caseInsensitiveLess a b = true ↔ simpleUpper a.toNat < simpleUpper b.toNat) := by
  constructor
  · unfold caseInsensitiveEqual
    rw [beq_iff_eq, ← UInt32.toNat_inj, C52_to_upper, C52_to_upper]
  · unfold caseInsensitiveLess
    rw [decide_eq_true_iff, UInt32.lt_iff_toNat_lt, C52_to_upper, C52_to_upper]

/-- C77: `case_insensitive_compare` is the difference of the upper case mappings, for all values below 2^31. -/
theorem C77_compare (a b : Char32) (ha : a.toNat < 2 ^ 31) (hb : b.toNat < 2 ^ 31) :
    caseInsensitiveCompare a b = (simpleUpper a.toNat : Int) - simpleUpper b.toNat := by
  have h1 := upper_lt a ha
  have h2 := upper_lt b hb
  rw [← C52_to_upper, ← C52_to_upper]
  unfold caseInsensitiveCompare
  generalize toUpperChar a = x at *
  generalize toUpperChar b = y at *
  show (x - y).toBitVec.toInt = _
  rw [BitVec.toInt_eq_toNat_cond]
  have e : (x - y).toBitVec.toNat = (x - y).toNat := rfl
  rw [e, UInt32.toNat_sub]
  split <;> omega

/-- C77: so the three agree, and are an equivalence and a strict weak order. -/
theorem C77_order (a b c : Char32) (ha : a.toNat < 2 ^ 31) (hb : b.toNat < 2 ^ 31) :
    (caseInsensitiveCompare a b < 0 ↔ caseInsensitiveLess a b = true) ∧
    (caseInsensitiveCompare a b = 0 ↔ caseInsensitiveEqual a b = true) ∧
    (0 < caseInsensitiveCompare a b ↔ caseInsensitiveLess b a = true) ∧
    caseInsensitiveEqual a a = true ∧ caseInsensitiveEqual a b = caseInsensitiveEqual b a ∧
    (caseInsensitiveEqual a b = true → caseInsensitiveEqual b c = caseInsensitiveEqual a c ∧
      caseInsensitiveLess b c = caseInsensitiveLess a c ∧ caseInsensitiveLess c b = caseInsensitiveLess c a) ∧
    caseInsensitiveLess a a = false ∧
    (caseInsensitiveLess a b = true → caseInsensitiveLess b c = true → caseInsensitiveLess a c = true) := by
  have E := fun a b => (C77_equal_less a b).1
  have L := fun a b => (C77_equal_less a b).2
  rw [C77_compare a b ha hb]
  refine ⟨?_, ?_, ?_, ?_, ?_, ?_, ?_, ?_⟩
  · rw [L]; omega
  · rw [E]; omega
  · rw [L]; omega
  · rw [E]
  · rw [Bool.eq_iff_iff, E, E]; exact eq_comm
  · intro h
    rw [E] at h
    simp only [Bool.eq_iff_iff, E, L, h, and_self]
  · rw [Bool.eq_false_iff, ne_eq, L]; omega
  · rw [L, L, L]; omega

/-- C77: from 2^31 on (`INVALID_CHAR` is such a value) `case_insensitive_compare` is no ordering: each of the two values
is less than the other. -/
theorem C77_large : caseInsensitiveCompare 0x80000000 0 < 0 ∧ caseInsensitiveCompare 0 0x80000000 < 0 := by decide +kernel

example : caseInsensitiveCompare 0xE6 0xC6 = 0 ∧ caseInsensitiveCompare 0x61 0x42 < 0 := by decide +kernel

/-! ### C78 -/

theorem seq_prefix {u v w : Str} {c : Char32} (h : IsSeq u c) (e : u = v ++ w) (hv : v ≠ []) (hw : w ≠ []) : ¬ Valid v := by
  rintro ⟨cs, hd⟩
  rcases hd.nil_or with ⟨h0, _⟩ | ⟨x, d, t, ds, hx, _, e1, _⟩
  · exact hv h0
  · have : x ++ (t ++ w) = u ++ [] := by rw [e, e1]; simp
    obtain ⟨_, _, h3⟩ := hx.append_inj h this
    rw [List.append_eq_nil_iff] at h3
    exact hw h3.2

/-- Any cut of a valid string is at a boundary or inside one sequence. -/
theorem any_cut {s a b : Str} (hs : Valid s) (e : s = a ++ b) : (Valid a ∧ Valid b) ∨
    ∃ p x y q c, a = p ++ x ∧ b = y ++ q ∧ IsSeq (x ++ y) c ∧ x ≠ [] ∧ y ≠ [] ∧ Valid p ∧ Valid q := by
  obtain ⟨cs, hd⟩ := hs
  induction hd generalizing a with
  | nil =>
    obtain ⟨rfl, rfl⟩ := List.append_eq_nil_iff.mp e.symm
    exact .inl ⟨⟨_, .nil⟩, ⟨_, .nil⟩⟩
  | @cons u s c cs hu hs ih =>
    rcases List.append_eq_append_iff.mp e with ⟨a', rfl, h2⟩ | ⟨y, h1, rfl⟩
    · rcases ih h2 with ⟨⟨ds, h3⟩, h4⟩ | ⟨p, x, y, q, d, h3, h4, h5, h6, h7, ⟨ds, h8⟩, h9⟩
      · exact .inl ⟨⟨_, .cons hu h3⟩, h4⟩
      · exact .inr ⟨u ++ p, x, y, q, d, by rw [h3]; simp, h4, h5, h6, h7, ⟨_, .cons hu h8⟩, h9⟩
    · by_cases ha : a = []
      · subst ha
        exact .inl ⟨⟨_, .nil⟩, ⟨c :: cs, by rw [← show u = y from h1]; exact .cons hu hs⟩⟩
      · by_cases hy : y = []
        · subst hy
          rw [List.append_nil] at h1
          subst h1
          exact .inl ⟨⟨_, hu.decodes⟩, ⟨cs, hs⟩⟩
        · exact .inr ⟨[], a, y, s, c, rfl, rfl, h1 ▸ hu, ha, hy, ⟨_, .nil⟩, ⟨cs, hs⟩⟩

theorem valid_not_cont {t : Str} (h : Valid t) : ¬ StartsCont t := by
  obtain ⟨cs, h⟩ := h
  rintro ⟨b, r, e, hb⟩
  rcases h.nil_or with ⟨h0, _⟩ | ⟨x, d, t', ds, hx, _, e1, _⟩
  · rw [h0] at e; cases e
  · obtain ⟨b', t'', e2, hn⟩ := hx.head_lead
    rw [e1, e2] at e
    injection e with e _
    exact hn (e ▸ hb)

/-- C78: from any place inside a valid string (also in the middle of a sequence) one `skip_next` reaches the next
code point boundary. -/
theorem C78_skip_next (s a b : Str) (hs : Valid s) (e : s = a ++ b) (hb : b ≠ []) :
    ∃ u t, b = u ++ t ∧ skipNext b = (true, t) ∧ u ≠ [] ∧ u.length ≤ 4 ∧ Valid (a ++ u) ∧ Valid t ∧
      ∀ v w, u = v ++ w → v ≠ [] → w ≠ [] → ¬ Valid (a ++ v) := by
  rcases any_cut hs e with ⟨ha, ⟨cs, hb'⟩⟩ | ⟨p, x, y, q, c, rfl, rfl, hxy, hx, hy, hp, hq⟩
  · rcases hb'.nil_or with ⟨h0, _⟩ | ⟨u, c, t, ds, hu, ht, rfl, rfl⟩
    · exact absurd h0 hb
    · refine ⟨u, t, rfl, skipNext_seq hu t, hu.ne_nil, hu.length_le, (valid_append_iff ha u).mpr ⟨_, hu.decodes⟩, ⟨_, ht⟩, ?_⟩
      intro v w e hv hw h
      exact seq_prefix hu e hv hw ((valid_append_iff ha v).mp h)
  · obtain ⟨l, cs, e1, hc, hcap⟩ := hxy.full
    obtain ⟨x0, x', rfl⟩ := List.exists_cons_of_ne_nil hx
    injection e1 with e1 e2
    have hyc : ∀ b ∈ y, IsCont b := fun b hb => hc b (by rw [← e2]; exact List.mem_append_right _ hb)
    have hlen := hxy.length_le
    simp only [List.length_append, List.length_cons] at hlen
    obtain ⟨y0, y', rfl⟩ := List.exists_cons_of_ne_nil hy
    refine ⟨y0 :: y', q, rfl, ?_, hy, by simp only [List.length_cons] at *; omega, ?_, hq, ?_⟩
    · rw [List.cons_append, skipNext_cap, capOf_cont (hyc y0 List.mem_cons_self)]
      simp only [Option.getD_none]
      rw [skipCont_all (fun b hb => hyc b (List.mem_cons_of_mem _ hb)) (by simp only [List.length_cons] at *; omega)
        (fun h => absurd h (valid_not_cont hq))]
    · rw [List.append_assoc]; exact (valid_append_iff hp _).mpr ⟨_, hxy.decodes⟩
    · intro v w e hv hw h
      rw [List.append_assoc] at h
      exact seq_prefix hxy (v := x0 :: x' ++ v) (w := w) (by rw [e, List.append_assoc]) (by simp) hw ((valid_append_iff hp _).mp h)

/-- C78: the same backwards: one `skip_prev` from any place in a valid string reaches the previous code point boundary. -/
theorem C78_skip_prev (s a b : Str) (hs : Valid s) (e : s = a ++ b) (ha : a ≠ []) :
    ∃ t u, a = t ++ u ∧ skipPrev a.reverse = .ok (true, t.reverse) ∧ u ≠ [] ∧ u.length ≤ 4 ∧ Valid t ∧ Valid (u ++ b) ∧
      ∀ v w, u = v ++ w → v ≠ [] → w ≠ [] → ¬ Valid (w ++ b) := by
  rcases any_cut hs e with ⟨⟨cs, ha'⟩, ⟨ds, hb⟩⟩ | ⟨p, x, y, q, c, rfl, rfl, hxy, hx, hy, hp, hq⟩
  · obtain ⟨gs, hg, hn, ht, hdr, hc⟩ := pieces_of ha'
    have hne : gs ≠ [] := by
      rintro rfl
      exact ha hg.1.symm
    obtain ⟨gs', u, rfl⟩ : ∃ gs' g, gs = gs' ++ [g] := ⟨_, _, (List.dropLast_concat_getLast hne).symm⟩
    obtain ⟨c, hu⟩ := hg.2 u (by simp)
    have e1 : a = gs'.flatten ++ u := by rw [← hg.1]; simp
    have hv : Valid gs'.flatten := ⟨_, by simpa using ht gs'.length⟩
    refine ⟨gs'.flatten, u, e1, ?_, hu.ne_nil, hu.length_le, hv, ⟨_, hu.decodes.append hb⟩, ?_⟩
    · rw [e1, List.reverse_append]; exact skipPrev_seq hu _
    · intro v w e hv hw h
      have hcut := any_cut (a := v) (b := w) ⟨_, hu.decodes⟩ e
      rcases hcut with ⟨h1, _⟩ | ⟨p, x, y, q, d, h1, h2, h3, h4, h5, h6, h7⟩
      · exact seq_prefix hu e hv hw h1
      · obtain ⟨l, cs, e2, hcc, _⟩ := h3.full
        obtain ⟨x0, x', rfl⟩ := List.exists_cons_of_ne_nil h4
        injection e2 with _ e2
        obtain ⟨y0, y', rfl⟩ := List.exists_cons_of_ne_nil h5
        exact valid_not_cont h ⟨y0, y' ++ q ++ b, by rw [h2]; simp, hcc y0 (by rw [← e2]; simp)⟩
  · obtain ⟨l, cs, e1, hc, hcap⟩ := hxy.full
    obtain ⟨x0, x', rfl⟩ := List.exists_cons_of_ne_nil hx
    injection e1 with e1 e2
    have hlen := hxy.length_le
    simp only [List.length_append, List.length_cons] at hlen
    have hxc : ∀ b ∈ x', IsCont b := fun b hb => hc b (by rw [← e2]; exact List.mem_append_left _ hb)
    have hl : ¬ IsCont x0 := by
      intro h
      rw [← e1, capOf_cont h] at hcap
      cases hcap
    refine ⟨p, x0 :: x', rfl, ?_, by simp, by simp only [List.length_cons]; omega, hp, ?_, ?_⟩
    · rw [List.reverse_append, List.reverse_cons, List.append_assoc]
      rw [show [x0] ++ p.reverse = x0 :: p.reverse from rfl, skipPrev_lead x0 x' p.reverse hl hxc (by omega), e1, hcap]
      have : x'.length ≤ cs.length := by rw [← e2]; simp
      simp [this]
    · rw [← List.append_assoc]
      obtain ⟨qs, hq⟩ := hq
      exact ⟨_, hxy.decodes.append hq⟩
    · intro v w e hv hw h
      obtain ⟨v0, v', rfl⟩ := List.exists_cons_of_ne_nil hv
      injection e with _ e
      obtain ⟨w0, w', rfl⟩ := List.exists_cons_of_ne_nil hw
      exact valid_not_cont h ⟨w0, w' ++ (y ++ q), by simp, hxc w0 (by rw [e]; simp)⟩

/-- In the middle of the euro sign. -/
example : skipNext [0x82, 0xAC, 0x61] = (true, [0x61]) ∧ skipPrev [0x82, 0xE2, 0x62] = .ok (true, [0x62]) := by decide +kernel

end Ystring
