import Verif.Props.CaseInsensitive
/-
Property theorems C45 (find_first, find_last), C46 (starts_with, ends_with), C47 (replace, split) of namespace
case_insensitive.
-/
namespace Ystring
open Spec

namespace CI

/-! ### Matches in terms of units -/

theorem foldAt_units {us vs : List Unit8} (hu : Units us) (hv : Units vs) (i n : Nat) :
    FoldAt (bytesOf us) (bytesOf vs) i n ↔
      ∃ ws ms rs, us = ws ++ ms ++ rs ∧ (bytesOf ws).length = i ∧ (bytesOf ms).length = n ∧ fu ms = fu vs := by
  constructor
  · rintro ⟨a, m, b, e, h1, h2, ha, hb, cs, ds, hm, hd, hf⟩
    obtain ⟨ws, hws, rfl⟩ := ha.units
    obtain ⟨rs, hrs, rfl⟩ := hb.units
    obtain ⟨ms, hms, rfl, rfl⟩ := hm.units
    refine ⟨ws, ms, rs, units_unique hu ?_ (by simpa using e), h1, h2, ?_⟩
    · simp only [Units_append]; exact ⟨⟨hws, hms⟩, hrs⟩
    · rw [hd.unique hv.decodes] at hf; exact hf
  · rintro ⟨ws, ms, rs, rfl, h1, h2, h3⟩
    simp only [Units_append] at hu
    exact ⟨bytesOf ws, bytesOf ms, bytesOf rs, by simp, h1, h2, hu.1.1.valid, hu.2.valid, valsOf ms, valsOf vs,
      hu.1.2.decodes, hv.decodes, h3⟩

theorem bytes_mono {A X B Y : List Unit8} (e : A ++ X = B ++ Y) (h : A.length ≤ B.length) :
    (bytesOf A).length ≤ (bytesOf B).length := by
  obtain ⟨C, rfl⟩ : ∃ C, B = A ++ C := by
    rcases List.append_eq_append_iff.mp e with ⟨C, e1, _⟩ | ⟨C, e1, _⟩
    · exact ⟨C, e1⟩
    · have : C = [] := by
        rw [e1, List.length_append] at h
        exact List.length_eq_zero_iff.mp (by omega)
      subst this; exact ⟨[], by simp [e1]⟩
  simp

/-- all matches of a pattern have the same number of code points -/
theorem foldAt_unique {s cmp : Str} {i n m : Nat} (h : FoldAt s cmp i n) (h' : FoldAt s cmp i m) : n = m := by
  obtain ⟨a, x, b, e, h1, h2, ha, hb, cs, ds, hm, hd, hf⟩ := h
  obtain ⟨a', x', b', e', h1', h2', ha', hb', cs', ds', hm', hd', hf'⟩ := h'
  rw [e, List.append_assoc, List.append_assoc] at e'
  obtain ⟨rfl, e4⟩ := List.append_inj e' (by omega)
  obtain ⟨us, hu, rfl, rfl⟩ := hm.units
  obtain ⟨vs, hv, rfl, rfl⟩ := hm'.units
  have hl : us.length = vs.length := by
    have e1 := congrArg List.length hf
    have e2 := congrArg List.length hf'
    rw [hd.unique hd', ← e2] at e1
    simpa [fold, valsOf] using e1
  obtain ⟨ws, e3, _⟩ := units_prefix hu hv e4 (by omega)
  have : ws = [] := by rw [e3, List.length_append] at hl; exact List.length_eq_zero_iff.mp (by omega)
  subst this
  simp at e3
  subst e3; omega

/-! ### C45 -/

/-- C45: `find_first` in the part `s` of a string behind `p` (`s` and `cmp` valid): the first match of `cmp`, or
an empty range if there is none. -/
theorem C45_find_first (p s cmp : Str) (hs : Valid s) (hc : Valid cmp) (h0 : cmp ≠ []) :
    (NoFold cmp s ∧ findFirst (p ++ s) cmp p.length = .ok ⟨npos, 0⟩) ∨
    (∃ i n, FoldAt s cmp i n ∧ 0 < n ∧ (∀ j m, FoldAt s cmp j m → i ≤ j) ∧
      findFirst (p ++ s) cmp p.length = .ok ⟨p.length + i, n⟩) := by
  obtain ⟨us, hu, rfl⟩ := hs.units
  obtain ⟨vs, hv, rfl⟩ := hc.units
  cases vs with
  | nil => simp at h0
  | cons v vs =>
    have hv' := hv
    simp only [Units_cons] at hv'
    have e : findFirst (p ++ bytesOf us) (bytesOf (v :: vs)) p.length =
        findFirstLoop (p ++ bytesOf us) v.2 (bytesOf vs) ((p ++ bytesOf us).length + 1) (bytesOf us) (bytesOf us) := by
      unfold findFirst
      rw [bytesOf_cons, safeDecodeNext_seq hv'.1]
      simp only [bind, Except.bind, iterAt]
      rw [if_neg (by simp)]
      simp
    rw [e]
    have key : ∀ ws ms rs, us = ws ++ ms ++ rs → fu ms = fu (v :: vs) → fu (v :: vs) <+: fu (us.drop ws.length) := by
      rintro ws ms rs rfl h
      rw [List.append_assoc, List.drop_left, fu_append, h]
      exact List.prefix_append ..
    rcases findFirstLoop_spec v vs hv us p ((p ++ bytesOf us).length + 1) hu
      (by have := units_length hu; simp; omega) with ⟨h1, h2⟩ | ⟨ws, ms, rs, h3, h4, h5, h6⟩
    · left
      refine ⟨?_, h2⟩
      intro i n hf
      obtain ⟨ws, ms, rs, h3, _, _, h4⟩ := (foldAt_units hu hv i n).mp hf
      exact h1 _ (key ws ms rs h3 h4)
    · right
      refine ⟨(bytesOf ws).length, (bytesOf ms).length, (foldAt_units hu hv _ _).mpr ⟨ws, ms, rs, h3, rfl, rfl, h4⟩, ?_, ?_, h6⟩
      · have : ms ≠ [] := by rintro rfl; simp at h4
        rw [h3] at hu; simp only [Units_append] at hu
        exact List.length_pos_iff.mpr (fun h => this ((bytesOf_eq_nil hu.1.2).mp h))
      · intro j m hf
        obtain ⟨ws', ms', rs', h7, rfl, _, h8⟩ := (foldAt_units hu hv j m).mp hf
        have hle : ws.length ≤ ws'.length := by
          apply Classical.byContradiction
          intro hlt
          exact h5 ws'.length (by omega) (key ws' ms' rs' h7 h8)
        exact bytes_mono (X := ms ++ rs) (Y := ms' ++ rs') (by rw [← List.append_assoc, ← h3, h7, List.append_assoc]) hle

/-- An empty `cmp` is never found; an offset beyond the end is undefined behaviour. -/
theorem C45_find_first_corner (s cmp : Str) (offset : Nat) :
    findFirst s [] offset = .ok ⟨npos, 0⟩ ∧
    (Valid cmp → cmp ≠ [] → s.length < offset → findFirst s cmp offset = .error .ub) := by
  refine ⟨rfl, ?_⟩
  rintro ⟨cs, hc⟩ h0 ho
  rcases hc.nil_or with ⟨rfl, _⟩ | ⟨u, c, t, ds, h1, h2, rfl, rfl⟩
  · exact absurd rfl h0
  · unfold findFirst
    rw [safeDecodeNext_seq h1]
    simp only [bind, Except.bind, iterAt]
    rw [if_pos ho]

-- "xÄBÇ", "äb"
example : findFirst [0x78, 0xC3, 0x84, 0x42, 0xC3, 0x87] [0xC3, 0xA4, 0x62] = .ok ⟨1, 3⟩ ∧
    findFirst [0x78, 0xC3, 0x84, 0x42, 0xC3, 0x87] [0xC3, 0xA4, 0x62] 3 = .ok ⟨npos, 0⟩ ∧
    -- the match and the pattern differ in length: "K" and the Kelvin sign do not match (U+212A has no upper case), but
    -- long s and "S" do
    findFirst [0x78, 0xC5, 0xBF] [0x53] = .ok ⟨1, 2⟩ := by decide +kernel

/-- C45: `find_last` in the part `s` of a string before `q` (`s` and `cmp` valid): the last match of `cmp`, or an empty
range if there is none. -/
theorem C45_find_last (s q cmp : Str) (hs : Valid s) (hc : Valid cmp) (h0 : cmp ≠ []) (offset : Nat)
    (ho : min offset (s ++ q).length = s.length) :
    (NoFold cmp s ∧ findLast (s ++ q) cmp offset = .ok ⟨npos, 0⟩) ∨
    (∃ i n, FoldAt s cmp i n ∧ 0 < n ∧ (∀ j m, FoldAt s cmp j m → j ≤ i ∧ j + m ≤ i + n) ∧
      findLast (s ++ q) cmp offset = .ok ⟨i, n⟩) := by
  obtain ⟨us, hu, rfl⟩ := hs.units
  obtain ⟨vs, hv, rfl⟩ := hc.units
  have hur : Units us.reverse := by intro x hx; exact hu x (by simpa using hx)
  have hvr : Units vs.reverse := by intro x hx; exact hv x (by simpa using hx)
  cases hvv : vs.reverse with
  | nil => simp at hvv; subst hvv; simp at h0
  | cons v ws =>
    have e2 : (bytesOf vs).reverse = v.1.reverse ++ rb ws := by rw [← rb_cons, ← hvv, rb_reverse]
    rw [hvv] at hvr
    have hv' := hvr
    simp only [Units_cons] at hv'
    have e : findLast (bytesOf us ++ q) (bytesOf vs) offset =
        findLastLoop (bytesOf us ++ q) v.2 (rb ws) ((bytesOf us ++ q).length + 1) (rb us.reverse) (rb us.reverse) := by
      unfold findLast
      rw [e2, safeDecodePrev_seq hv'.1]
      simp only [bind, Except.bind]
      rw [ho, List.take_left, rb_reverse]
    have key : ∀ A M B, us = A ++ M ++ B → fu M = fu vs → fu (v :: ws) <+: fu (us.reverse.drop B.length) := by
      rintro A M B rfl h
      rw [← hvv, fu_reverse, ← h, ← fu_reverse]
      have : (A ++ M ++ B).reverse.drop B.length = M.reverse ++ A.reverse := by
        rw [List.reverse_append, ← List.length_reverse, List.drop_left, List.reverse_append]
      rw [this, fu_append]
      exact List.prefix_append ..
    rw [e]
    rcases findLastLoop_spec (bytesOf us ++ q) v ws hvr us.reverse ((bytesOf us ++ q).length + 1) hur
      (by have := units_length hu; simp; omega) (by have := units_length hu; simp; omega)
      with ⟨h1, h2⟩ | ⟨B, M, A, h3, h4, h5, h6⟩
    · left
      refine ⟨?_, h2⟩
      intro i n hf
      obtain ⟨A, M, B, h3, _, _, h4⟩ := (foldAt_units hu hv i n).mp hf
      exact h1 _ (key A M B h3 h4)
    · right
      have h3' : us = A.reverse ++ M.reverse ++ B.reverse := by
        have := congrArg List.reverse h3
        simpa using this
      have h4' : fu M.reverse = fu vs := by
        rw [fu_reverse, h4, ← hvv, fu_reverse, List.reverse_reverse]
      have eA : (rb A).length = (bytesOf A.reverse).length := by simp [rb]
      have eM : (rb M).length = (bytesOf M.reverse).length := by simp [rb]
      refine ⟨(rb A).length, (rb M).length, (foldAt_units hu hv _ _).mpr ⟨_, _, _, h3', eA.symm, eM.symm, h4'⟩, ?_, ?_, h6⟩
      · have : M.reverse ≠ [] := by
          intro h; rw [h] at h4'; 
          have := congrArg List.length h4'
          have e3 := congrArg List.length hvv
          simp at this e3; omega
        rw [h3'] at hu; simp only [Units_append] at hu
        rw [eM]
        exact List.length_pos_iff.mpr (fun h => this ((bytesOf_eq_nil hu.1.2).mp h))
      · intro j m hf
        obtain ⟨A', M', B', h7, rfl, rfl, h8⟩ := (foldAt_units hu hv j m).mp hf
        have hle : B.length ≤ B'.length := by
          apply Classical.byContradiction
          intro hlt
          exact h5 B'.length (by omega) (key A' M' B' h7 h8)
        have hM : M'.length = M.length := by
          have a1 := congrArg List.length h8
          have a2 := congrArg List.length h4'
          simp at a1 a2; omega
        have hlen : A'.length + M'.length + B'.length = A.length + M.length + B.length := by
          have := congrArg List.length (h7.symm.trans h3')
          simpa [Nat.add_assoc] using this
        rw [eA, eM]
        constructor
        · exact bytes_mono (X := M' ++ B') (Y := M.reverse ++ B.reverse)
            (by rw [← List.append_assoc, ← List.append_assoc, ← h3', ← h7]) (by simp; omega)
        · rw [← List.length_append, ← List.length_append, ← bytesOf_append, ← bytesOf_append]
          exact bytes_mono (X := B') (Y := B.reverse) (by rw [← h3', ← h7]) (by simp; omega)

example : findLast [0x61, 0x42, 0x41, 0x62, 0xC3, 0x87] [0x61, 0x62] = .ok ⟨2, 2⟩ ∧
    findLast [0x61, 0x42, 0x41, 0x62, 0xC3, 0x87] [0x61, 0x62] 3 = .ok ⟨0, 2⟩ ∧
    findLast [0x61] [] = .ok ⟨npos, 0⟩ := by decide +kernel

/-! ### C46 -/

/-- C46: `starts_with` -/
theorem C46_starts_with {s cmp : Str} (hs : Valid s) (hc : Valid cmp) :
    ∃ b, startsWith s cmp = .ok b ∧ (b = true ↔ ∃ m r, s = m ++ r ∧ Valid r ∧ SameFold m cmp) := by
  obtain ⟨us, hu, rfl⟩ := hs.units
  obtain ⟨vs, hv, rfl⟩ := hc.units
  have hiff : fu vs <+: fu us ↔ ∃ m r, bytesOf us = m ++ r ∧ Valid r ∧ SameFold m (bytesOf vs) := by
    have : (∃ m r, bytesOf us = m ++ r ∧ Valid r ∧ SameFold m (bytesOf vs)) ↔ ∃ n, FoldAt (bytesOf us) (bytesOf vs) 0 n := by
      constructor
      · rintro ⟨m, r, e, h1, h2⟩; exact ⟨m.length, [], m, r, by simp [e], rfl, rfl, ⟨[], .nil⟩, h1, h2⟩
      · rintro ⟨n, a, m, r, e, h1, h2, _, h3, h4⟩
        have : a = [] := List.length_eq_zero_iff.mp h1
        subst this; exact ⟨m, r, by simpa using e, h3, h4⟩
    rw [this]
    constructor
    · rintro ⟨l, h⟩
      refine ⟨_, (foldAt_units hu hv 0 _).mpr ⟨[], us.take vs.length, us.drop vs.length, by simp, rfl, rfl, ?_⟩⟩
      rw [fu_take, ← h, ← fu_length vs, List.take_left]
    · rintro ⟨n, h⟩
      obtain ⟨ws, ms, rs, rfl, h1, _, h2⟩ := (foldAt_units hu hv 0 n).mp h
      have : ws = [] := by
        simp only [Units_append] at hu
        exact (bytesOf_eq_nil hu.1.1).mp (List.length_eq_zero_iff.mp h1)
      subst this
      simp [h2]
  unfold startsWith
  rcases nextMismatch_spec (us := us) (vs := vs) (fuel := (bytesOf us).length + 1) hu hv
    (by have := units_length hu; omega) with ⟨h1, h2⟩ | ⟨h1, a, b, h2, h3⟩
  · rw [h2]; exact ⟨true, by simp [bind, Except.bind], by simpa using hiff.mp h1⟩
  · rw [h3]; refine ⟨false, by simp [bind, Except.bind, h2], ?_⟩
    rw [← hiff]; simpa using h1

/-- C46: `ends_with` -/
theorem C46_ends_with {s cmp : Str} (hs : Valid s) (hc : Valid cmp) :
    ∃ b, endsWith s cmp = .ok b ∧ (b = true ↔ ∃ l m, s = l ++ m ∧ Valid l ∧ SameFold m cmp) := by
  obtain ⟨us, hu, rfl⟩ := hs.units
  obtain ⟨vs, hv, rfl⟩ := hc.units
  have hur : Units us.reverse := by intro x hx; exact hu x (by simpa using hx)
  have hvr : Units vs.reverse := by intro x hx; exact hv x (by simpa using hx)
  have hiff : fu vs.reverse <+: fu us.reverse ↔ ∃ l m, bytesOf us = l ++ m ∧ Valid l ∧ SameFold m (bytesOf vs) := by
    rw [fu_reverse, fu_reverse, List.reverse_prefix]
    constructor
    · rintro ⟨l, h⟩
      have hl : l.length + vs.length = us.length := by
        have := congrArg List.length h; simpa using this
      have hf := (foldAt_units hu hv (bytesOf (us.take l.length)).length (bytesOf (us.drop l.length)).length).mpr
        ⟨us.take l.length, us.drop l.length, [], by simp, rfl, rfl, by rw [fu_drop, ← h, List.drop_left]⟩
      obtain ⟨a, m, b, e, h1, h2, h3, h4, h5⟩ := hf
      have hb : b = [] := by
        have e1 := congrArg List.length e
        have e2 : (bytesOf us).length = (bytesOf (us.take l.length)).length + (bytesOf (us.drop l.length)).length := by
          rw [← List.length_append, ← bytesOf_append, List.take_append_drop]
        simp only [List.length_append] at e1
        exact List.length_eq_zero_iff.mp (by omega)
      subst hb
      exact ⟨a, m, by simpa using e, h3, h5⟩
    · rintro ⟨l, m, e, h1, h2⟩
      obtain ⟨ws, ms, rs, h3, h4, h5, h6⟩ := (foldAt_units hu hv l.length m.length).mp
        ⟨l, m, [], by simp [e], rfl, rfl, h1, ⟨[], .nil⟩, h2⟩
      have : rs = [] := by
        rw [h3] at hu e
        simp only [Units_append] at hu
        have := congrArg List.length e
        simp only [bytesOf_append, List.length_append] at this
        exact (bytesOf_eq_nil hu.2).mp (List.length_eq_zero_iff.mp (by omega))
      subst this
      rw [h3, List.append_nil, fu_append, h6]
      exact List.suffix_append ..
  unfold endsWith
  rw [← rb_reverse, ← rb_reverse]
  rcases prevMismatch_spec (us := us.reverse) (vs := vs.reverse) (fuel := (bytesOf us).length + 1) hur hvr
    (by have := units_length hu; simp; omega) with ⟨h1, h2⟩ | ⟨h1, a, b, h2, h3⟩
  · rw [h2]; exact ⟨true, by simp [bind, Except.bind], by simpa using hiff.mp h1⟩
  · rw [h3]; refine ⟨false, by simp [bind, Except.bind, h2], ?_⟩
    rw [← hiff]; simpa using h1

example : startsWith [0xC3, 0x84, 0x42] [0xC3, 0xA4] = .ok true ∧ startsWith [0x41] [0x61, 0x62] = .ok false ∧
    endsWith [0x42, 0xC3, 0x84] [0xC3, 0xA4] = .ok true ∧ endsWith [0x41] [0x62, 0x61] = .ok false ∧
    startsWith [0x41] [] = .ok true := by decide +kernel

end CI
end Ystring
