import Verif.Props.CaseInsensitiveFind
/-
Property theorems C47 (replace, split) of namespace case_insensitive.
-/
namespace Ystring
open Spec

namespace CI

theorem foldAt_split {s cmp : Str} {i n : Nat} (h : FoldAt s cmp i n) :
    ∃ p t rest, s = p ++ t ++ rest ∧ p.length = i ∧ t.length = n ∧ Valid p ∧ Valid rest := by
  obtain ⟨a, m, b, e, h1, h2, ha, hb, _⟩ := h
  exact ⟨a, m, b, e, h1, h2, ha, hb⟩

/-- `find_first` as a finder function for `split_where`. -/
theorem findFirst_finder (cmp : Str) (hc : Valid cmp) (h0 : cmp ≠ []) :
    GoodFinder (FirstFold cmp) (NoFold cmp) Valid (fun s => findFirst s cmp) := by
  intro s hs
  rcases C45_find_first [] s cmp hs hc h0 with ⟨h1, h2⟩ | ⟨i, n, h1, h2, h3, h4⟩
  · exact .inl ⟨h1, npos, h2⟩
  · right
    obtain ⟨p, t, rest, rfl, rfl, rfl, hp, hr⟩ := foldAt_split h1
    refine ⟨p, t, rest, rfl, ⟨h1, h3⟩, by rintro rfl; simp at h2, ?_, hr⟩
    simpa using h4

/-! ### The cuts are determined -/

theorem foldAt_unique_end {s cmp : Str} {i n j m : Nat} (h : FoldAt s cmp i n) (h' : FoldAt s cmp j m)
    (hij : i + n = j + m) : n = m := by
  obtain ⟨a, x, b, e, h1, h2, ha, hb, cs, ds, hm, hd, hf⟩ := h
  obtain ⟨a', x', b', e', h1', h2', ha', hb', cs', ds', hm', hd', hf'⟩ := h'
  rw [e] at e'
  obtain ⟨e3, e4⟩ := List.append_inj e' (by simp only [List.length_append]; omega)
  obtain ⟨us, hu, rfl, rfl⟩ := hm.units
  obtain ⟨vs, hv, rfl, rfl⟩ := hm'.units
  obtain ⟨as, hau, rfl⟩ := ha.units
  obtain ⟨as', hau', rfl⟩ := ha'.units
  have hl : us.length = vs.length := by
    have e1 := congrArg List.length hf
    have e2 := congrArg List.length hf'
    rw [hd.unique hd', ← e2] at e1
    simpa [fold, valsOf] using e1
  rw [← bytesOf_append, ← bytesOf_append] at e3
  have e5 := units_unique (by simp only [Units_append]; exact ⟨hau, hu⟩) (by simp only [Units_append]; exact ⟨hau', hv⟩) e3
  obtain ⟨_, e6⟩ := List.append_inj' e5 hl
  rw [← h2, ← h2', e6]

theorem firstFold_unique {cmp p t rest p' t' rest' : Str} (h : FirstFold cmp p t rest) (h' : FirstFold cmp p' t' rest')
    (e : p ++ t ++ rest = p' ++ t' ++ rest') : p = p' ∧ t = t' ∧ rest = rest' := by
  have h1 := h.2 _ _ (e ▸ h'.1)
  have h2 := h'.2 _ _ (e ▸ h.1)
  have hl : p.length = p'.length := by omega
  have ht : t.length = t'.length := by
    refine foldAt_unique (s := p ++ t ++ rest) (cmp := cmp) (i := p.length) h.1 ?_
    rw [e, hl]; exact h'.1
  simp only [List.append_assoc] at e
  obtain ⟨e1, e2⟩ := List.append_inj e hl
  obtain ⟨e3, e4⟩ := List.append_inj e2 ht
  exact ⟨e1, e3, e4⟩

/-- C47: the limit and the string determine the cuts. -/
theorem C47_cuts_unique {cmp : Str} {ig : Bool} {n : Nat} {s : Str} {ps qs : List (Str × Str)} {last last' : Str}
    (h : Splits (FirstFold cmp) (NoFold cmp) ig n s ps last)
    (h' : Splits (FirstFold cmp) (NoFold cmp) ig n s qs last') : ps = qs ∧ last = last' := by
  induction h generalizing qs last' with
  | limit => cases h' with
    | limit => exact ⟨rfl, rfl⟩
    | none => exact ⟨rfl, rfl⟩
  | @none n s hno =>
    generalize hs : s = s' at h'
    cases h' with
    | limit => exact ⟨rfl, by first | rfl | exact hs⟩
    | none => exact ⟨rfl, by first | rfl | exact hs⟩
    | hit h1 => subst hs; exact absurd h1.1 (hno _ _)
    | skip h1 => subst hs; exact absurd h1.1 (hno _ _)
  | @hit n p t rest last ps h1 h2 h3 ih =>
    generalize hs : p ++ t ++ rest = s' at h'
    generalize hm : n + 1 = m at h'
    cases h' with
    | limit => omega
    | none hno => subst hs; exact absurd h1.1 (hno _ _)
    | hit h4 h5 h6 =>
      obtain ⟨rfl, rfl, rfl⟩ := firstFold_unique h1 h4 hs
      obtain rfl := Nat.succ.inj hm
      obtain ⟨rfl, rfl⟩ := ih h6
      exact ⟨rfl, rfl⟩
    | skip h4 h5 h6 =>
      obtain ⟨rfl, rfl, rfl⟩ := firstFold_unique h1 h4 (by simpa using hs)
      exact absurd rfl (h2 h5)
  | @skip n t rest last ps h1 h2 h3 ih =>
    generalize hs : t ++ rest = s' at h'
    generalize hm : n + 1 = m at h'
    cases h' with
    | limit => omega
    | none hno => subst hs; exact absurd h1.1 (hno _ _)
    | hit h4 h5 h6 =>
      obtain ⟨rfl, rfl, rfl⟩ := firstFold_unique h4 h1 (by simpa using hs.symm)
      exact absurd rfl (h5 h2)
    | skip h4 h5 h6 =>
      obtain ⟨_, rfl, rfl⟩ := firstFold_unique h1 h4 (by simpa using hs)
      obtain rfl := Nat.succ.inj hm
      obtain ⟨rfl, rfl⟩ := ih h6
      exact ⟨rfl, rfl⟩

/-! ### split -/

/-- C47: `split` of a valid string cuts it at its first match of `sep`, then the rest at its first match, and so on;
the pieces between the cuts are returned. -/
theorem C47_split (s sep : Str) (hs : Valid s) (hc : Valid sep) (h0 : sep ≠ []) (n : Nat) (hn : 0 < n) (ig : Bool)
    (hl : s.length < SIZE_MOD) :
    ∃ ps last, Splits (FirstFold sep) (NoFold sep) ig n s ps last ∧
      split s sep ⟨n, ig⟩ = .ok (keep ig (ps.map (·.1) ++ [last])) :=
  splitWhere_spec (findFirst_finder sep hc h0) ig n s hl hs hn

-- "aXbxc" at "x"
example : split [0x61, 0x58, 0x62, 0x78, 0x63] [0x78] = .ok [[0x61], [0x62], [0x63]] ∧
    split [0x61, 0x58, 0x62, 0x78, 0x63] [0x78] ⟨1, false⟩ = .ok [[0x61], [0x62, 0x78, 0x63]] := by decide +kernel

/-- With an empty separator nothing is split. -/
theorem C47_split_empty (s : Str) (n : Nat) (hn : 0 < n) (ig : Bool) (hl : s.length < SIZE_MOD) :
    split s [] ⟨n, ig⟩ = .ok (keep ig [s]) := by
  have hg : GoodFinder (fun _ _ _ => False) (fun _ => True) (fun _ => True) (fun s => findFirst s []) := by
    intro s _; exact .inl ⟨trivial, npos, rfl⟩
  obtain ⟨ps, last, h1, h2⟩ := splitWhere_spec hg ig n s hl trivial hn
  unfold split
  rw [h2]
  cases h1 with
  | limit => omega
  | none => rfl
  | hit h => exact h.elim
  | skip h => exact h.elim

theorem ciContains_iff (chars : List Char32) (c : Char32) : u32CaseInsensitiveContains chars c = true ↔
    ∃ d ∈ chars, simpleUpper c.toNat = simpleUpper d.toNat := by
  unfold u32CaseInsensitiveContains
  rw [decide_eq_true_iff, Ne, stdFindIf_length]
  simp only [ciEqual_false]
  constructor
  · intro h; exact Classical.byContradiction fun h' => h fun x hx e => h' ⟨x, hx, e⟩
  · rintro ⟨d, h1, h2⟩ h'; exact h' d h1 h2

/-- C49: `case_insensitive_contains` of a span of characters. -/
theorem C49_span (chars : List Char32) (c : Char32) : u32CaseInsensitiveContains chars c = true ↔
    ∃ d ∈ chars, simpleUpper c.toNat = simpleUpper d.toNat := ciContains_iff chars c

/-- C47: `split` of a valid string at a set of characters: every cut is made at a code point that is the same as a
listed character up to case, the text before it contains none; unless the limit is reached the remainder contains none
either. -/
theorem C47_split_chars (s : Str) (hv : Valid s) (chars : List Char32) (n : Nat) (hn : 0 < n) (ig : Bool)
    (hs : s.length < SIZE_MOD) :
    let listed := fun c : Char32 => ∃ d ∈ chars, simpleUpper c.toNat = simpleUpper d.toNat
    ∃ (ps : List (Str × Str)) (last : Str), splitChars s chars ⟨n, ig⟩ = .ok (keep ig (ps.map (·.1) ++ [last])) ∧
      unsplit ps last = s ∧
      (∀ p t, (p, t) ∈ ps → (∃ cs, Decodes p cs ∧ ∀ x ∈ cs, ¬ listed x) ∧ ∃ c, listed c ∧ IsSeq t c) ∧
      (keep ig (ps.map (·.1))).length ≤ n ∧
      ((keep ig (ps.map (·.1))).length = n ∨ ∃ cs, Decodes last cs ∧ ∀ x ∈ cs, ¬ listed x) := by
  intro listed
  have hfalse : ∀ x, u32CaseInsensitiveContains chars x = false ↔ ¬ listed x := by
    intro x; rw [← Bool.not_eq_true, ciContains_iff]
  have hg : GoodFinder (fun p t _ => (∃ cs, Decodes p cs ∧ ∀ x ∈ cs, ¬ listed x) ∧ ∃ c, listed c ∧ IsSeq t c)
      (fun s => ∃ cs, Decodes s cs ∧ ∀ x ∈ cs, ¬ listed x) Valid (fun s => do let r ← findFirstOf s chars; .ok r.1) := by
    intro s hs
    have h0 := C20_find_first_where [] s (u32CaseInsensitiveContains chars)
    rcases C20_cases s (u32CaseInsensitiveContains chars) with ⟨u, v, t, cs, c, e, h1, h2, h3, h4⟩ | ⟨cs, h1, h2⟩ | ⟨u, t, cs, e, h1, h2, h3, h4⟩
    · right
      have := h0.1 u v t cs c e h1 h2 h3 h4
      subst e
      have hc := valid_cut hs ⟨_, h3.decodes⟩ h3.ne_nil
      refine ⟨u, v, t, rfl, ⟨⟨cs, h1, fun x hx => (hfalse x).mp (h2 x hx)⟩, c, ciContains_iff chars c |>.mp h4, h3⟩, h3.ne_nil, ?_, hc.2⟩
      simp at this
      show (findFirstWhere (u ++ v ++ t) (u32CaseInsensitiveContains chars) >>= fun r => .ok r.1) = _
      rw [List.append_assoc, this]; rfl
    · left
      have := h0.2.1 cs h1 h2
      simp at this
      refine ⟨⟨cs, h1, fun x hx => (hfalse x).mp (h2 x hx)⟩, npos, ?_⟩
      show (findFirstWhere s (u32CaseInsensitiveContains chars) >>= fun r => .ok r.1) = _
      rw [this]; rfl
    · exfalso
      obtain ⟨us, hu, rfl, rfl⟩ := h1.units
      subst e
      exact h3 ((valid_bad_tail hu h4).mp hs)
  obtain ⟨ps, last, h1, h2⟩ := splitWhere_spec hg ig n s hs hv hn
  refine ⟨ps, last, h2, h1.unsplit, ?_, h1.count, ?_⟩
  · intro p t h
    obtain ⟨rs, qs, e⟩ := List.append_of_mem h
    exact h1.cuts p t qs ⟨rs, e⟩
  · exact h1.limit_or

example : splitChars [0x61, 0xC3, 0x84, 0x62, 0x78, 0x63] [0xE4, 0x58] = .ok [[0x61], [0x62], [0x63]] := by
  decide +kernel

/-! ### replace, from the left -/

theorem replaceFwdLoop_spec (f to : Str) (hf : Valid f) (h0 : f ≠ []) (n : Nat) : ∀ (s result : Str), Valid s →
    s.length < SIZE_MOD →
    ∃ ps last, Splits (FirstFold f) (NoFold f) false n s ps last ∧
      replaceFwdLoop f to n s result = .ok (last, result ++ ps.flatMap (fun x => x.1 ++ to)) := by
  induction n with
  | zero => intro s result _ _; exact ⟨[], s, .limit, by simp [replaceFwdLoop]⟩
  | succ n ih =>
    intro s result hs hl
    rw [replaceFwdLoop]
    rcases findFirst_finder f hf h0 s hs with ⟨h1, o, h2⟩ | ⟨p, t, rest, rfl, h1, h2, h3, h4⟩
    · refine ⟨[], s, .none h1, ?_⟩
      simp only at h2
      rw [h2]
      simp [bind, Except.bind, Subrange.nonempty]
    · simp only at h3
      obtain ⟨ps, last, i1, i2⟩ := ih rest (result ++ p ++ to) h4 (by simp at hl; omega)
      refine ⟨(p, t) :: ps, last, .hit h1 (by simp) i1, ?_⟩
      rw [h3, bind_ok']
      have hne : Subrange.nonempty ⟨p.length, t.length⟩ = true := by
        rw [nonempty_iff]; have := List.length_pos_iff.mpr h2; omega
      rw [if_neg (by simp [hne])]
      have e1 : substr (p ++ t ++ rest) 0 (Subrange.start ⟨p.length, t.length⟩) = .ok p := by
        unfold substr; rw [if_neg (by simp)]; simp [Subrange.start]
      have e2 : substr (p ++ t ++ rest) (Subrange.stop ⟨p.length, t.length⟩) = .ok rest := by
        have : Subrange.stop ⟨p.length, t.length⟩ = (p ++ t).length := by
          unfold Subrange.stop sizeAdd
          simp only [List.length_append] at hl ⊢
          exact Nat.mod_eq_of_lt (by omega)
        rw [this]
        unfold substr
        rw [if_neg (by simp), List.drop_left, List.take_of_length_le (by unfold npos; unfold SIZE_MOD at hl; simp at hl; omega)]
      rw [e1, bind_ok', e2, bind_ok', i2]
      simp

/-- C47: `replace` with a limit `n ≥ 0` replaces the first match of `f`, then the first match in the rest, and so on, at
most `n` times, and keeps all other text. -/
theorem C47_replace_left (s f to : Str) (hs : Valid s) (hf : Valid f) (h0 : f ≠ []) (n : Int) (hn : 0 ≤ n)
    (hl : s.length < SIZE_MOD) :
    ∃ ps last, Splits (FirstFold f) (NoFold f) false n.toNat s ps last ∧
      replace s f to n = .ok (ps.flatMap (fun x => x.1 ++ to) ++ last) := by
  obtain ⟨ps, last, h1, h2⟩ := replaceFwdLoop_spec f to hf h0 n.toNat s [] hs hl
  refine ⟨ps, last, h1, ?_⟩
  unfold replace
  rw [if_pos hn, h2, bind_ok']
  cases last with
  | nil => simp
  | cons b t => simp

-- "aXbx" -> "a--b--"
example : replace [0x61, 0x58, 0x62, 0x78] [0x78] [0x2D, 0x2D] = .ok [0x61, 0x2D, 0x2D, 0x62, 0x2D, 0x2D] ∧
    replace [0x61, 0x58, 0x62, 0x78] [0x78] [0x2D] 1 = .ok [0x61, 0x2D, 0x62, 0x78] ∧
    replace [0x61, 0x58, 0x62, 0x78] [0x78] [0x2D] (-1) = .ok [0x61, 0x58, 0x62, 0x2D] := by decide +kernel

/-! ### replace, from the right -/

/-- ranges of a list of (match, piece behind it) pairs behind `start` bytes -/
def ranges (start : Nat) : List (Str × Str) → List Subrange
  | [] => []
  | (t, p) :: ps => ⟨start, t.length⟩ :: ranges (start + t.length + p.length) ps

/-- total length -/
def plen (ps : List (Str × Str)) : Nat := (ps.flatMap fun x => x.1 ++ x.2).length

theorem ranges_snoc (start : Nat) (ps : List (Str × Str)) (t p : Str) :
    ranges start (ps ++ [(t, p)]) = ranges start ps ++ [⟨start + plen ps, t.length⟩] := by
  induction ps generalizing start with
  | nil => simp [ranges, plen]
  | cons x ps ih =>
    obtain ⟨t', p'⟩ := x
    simp only [List.cons_append, ranges, ih]
    congr 3
    simp [plen]; omega

theorem scan_unsplit {cmp : Str} {n : Nat} {s last : Str} {ps : List (Str × Str)} (h : ScanFoldRight cmp n s last ps) :
    s = last ++ ps.flatMap (fun x => x.1 ++ x.2) := by
  induction h with
  | limit => simp
  | none => simp
  | hit _ _ _ ih => rw [ih]; simp

theorem scan_ne {cmp : Str} (h0 : cmp ≠ []) {n : Nat} {s last : Str} {ps : List (Str × Str)} (h : ScanFoldRight cmp n s last ps) :
    ∀ x ∈ ps, x.1 ≠ [] := by
  induction h with
  | limit => simp
  | none => simp
  | @hit n p t rest last ps h1 _ _ ih =>
    intro x hx
    rw [List.mem_append, List.mem_singleton] at hx
    rcases hx with hx | rfl
    · exact ih x hx
    · rintro rfl
      obtain ⟨a, m, b, e, h3, h4, h5, h6, cs, ds, h7, h8, h9⟩ := h1
      have : m = [] := List.length_eq_zero_iff.mp h4
      subst this
      rcases h7.nil_or with ⟨_, rfl⟩ | ⟨u, c, t', ds', h10, _, e', _⟩
      · rcases h8.nil_or with ⟨rfl, _⟩ | ⟨u, c, t', ds', h10, _, e', rfl⟩
        · exact h0 rfl
        · simp [fold] at h9
      · have := h10.ne_nil; simp at e'; exact this e'.1

theorem replaceMatches_spec (f : Str) (hf : Valid f) (h0 : f ≠ []) (n : Nat) : ∀ (s : Str) (ms : List Subrange), Valid s →
    s.length < SIZE_MOD →
    ∃ last ps, ScanFoldRight f n s last ps ∧
      replaceMatches f n s ms = .ok (ms ++ (ranges last.length ps).reverse) := by
  induction n with
  | zero => intro s ms _ _; exact ⟨s, [], .limit, by simp [replaceMatches, ranges]⟩
  | succ n ih =>
    intro s ms hs hl
    rw [replaceMatches]
    have ho : min npos (s ++ []).length = s.length := by
      rw [List.append_nil]; unfold npos; unfold SIZE_MOD at hl; omega
    have hfl := C45_find_last s [] f hs hf h0 npos ho
    rw [List.append_nil] at hfl
    rcases hfl with ⟨h1, h2⟩ | ⟨i, k, h1, h2, h3, h4⟩
    · refine ⟨s, [], .none h1, ?_⟩
      rw [h2, bind_ok', if_pos (by simp [Subrange.nonempty])]
      simp [ranges]
    · obtain ⟨rest, t, p, rfl, rfl, rfl, hv, _⟩ := foldAt_split h1
      obtain ⟨last, ps, i1, i2⟩ := ih rest (ms ++ [⟨rest.length, t.length⟩]) hv (by simp at hl; omega)
      refine ⟨last, ps ++ [(t, p)], .hit h1 (fun i m hf => (h3 i m hf).2) i1, ?_⟩
      rw [h4, bind_ok']
      have hne : Subrange.nonempty ⟨rest.length, t.length⟩ = true := by rw [nonempty_iff]; omega
      rw [if_neg (by simp [hne])]
      have e1 : substr (rest ++ t ++ p) 0 (Subrange.start ⟨rest.length, t.length⟩) = .ok rest := by
        unfold substr; rw [if_neg (by simp)]; simp [Subrange.start]
      rw [e1, bind_ok', i2, ranges_snoc]
      have : rest.length = last.length + plen ps := by
        have := congrArg List.length (scan_unsplit i1)
        rw [List.length_append] at this; exact this
      simp [this]

theorem replaceBwdLoop_spec (s to : Str) (hl : s.length < SIZE_MOD) (ps : List (Str × Str)) : ∀ (pre l result : Str),
    s = pre ++ l ++ ps.flatMap (fun x => x.1 ++ x.2) →
    ∃ pre' l' r, s = pre' ++ l' ∧
      replaceBwdLoop s to (ranges (pre.length + l.length) ps) pre.length result = .ok (pre'.length, r) ∧
      r ++ l' = result ++ l ++ ps.flatMap (fun x => to ++ x.2) := by
  induction ps with
  | nil =>
    intro pre l result e
    exact ⟨pre, l, result, by simpa using e, by simp [ranges, replaceBwdLoop], by simp⟩
  | cons x ps ih =>
    obtain ⟨t, p⟩ := x
    intro pre l result e
    rw [ranges, replaceBwdLoop]
    have hlen : pre.length + l.length + t.length < SIZE_MOD := by
      rw [e] at hl; simp only [List.flatMap_cons, List.length_append] at hl; omega
    have e0 : sizeSub (pre.length + l.length) pre.length = l.length := by
      unfold sizeSub; rw [Nat.mod_eq_sub_mod (by omega)]
      rw [Nat.mod_eq_of_lt (by omega)]; omega
    have e1 : substr s pre.length (sizeSub (Subrange.start ⟨pre.length + l.length, t.length⟩) pre.length) = .ok l := by
      simp only [Subrange.start]
      rw [e0]
      unfold substr
      rw [if_neg (by rw [e]; simp), e, List.append_assoc, List.drop_left, List.take_left]
    have e2 : Subrange.stop ⟨pre.length + l.length, t.length⟩ = (pre ++ l ++ t).length := by
      unfold Subrange.stop sizeAdd
      rw [List.length_append, List.length_append]
      exact Nat.mod_eq_of_lt hlen
    rw [e1, bind_ok', e2]
    obtain ⟨pre', l', r, h1, h2, h3⟩ := ih (pre ++ l ++ t) p (result ++ l ++ to) (by rw [e]; simp)
    refine ⟨pre', l', r, h1, ?_, ?_⟩
    · rw [← h2]; congr 2; simp [Nat.add_assoc]
    · rw [h3]; simp

/-- C47: `replace` with a limit `n < 0` replaces the last match of `f`, then the last match before it, and so on, at
most `|n|` times, and keeps all other text. -/
theorem C47_replace_right (s f to : Str) (hs : Valid s) (hf : Valid f) (h0 : f ≠ []) (n : Int) (hn : n < 0)
    (hl : s.length < SIZE_MOD) :
    ∃ last ps, ScanFoldRight f (-n).toNat s last ps ∧
      s = last ++ ps.flatMap (fun x => x.1 ++ x.2) ∧
      replace s f to n = .ok (last ++ ps.flatMap (fun x => to ++ x.2)) := by
  obtain ⟨last, ps, h1, h2⟩ := replaceMatches_spec f hf h0 (-n).toNat s [] hs hl
  refine ⟨last, ps, h1, scan_unsplit h1, ?_⟩
  unfold replace
  rw [if_neg (by omega), h2, bind_ok', List.nil_append, List.reverse_reverse]
  obtain ⟨pre', l', r, h3, h4, h5⟩ := replaceBwdLoop_spec s to hl ps [] last [] (by simpa using scan_unsplit h1)
  simp only [List.length_nil, Nat.zero_add, List.nil_append] at h4 h5
  rw [h4, bind_ok', ← h5]
  simp only
  by_cases hne : pre'.length = s.length
  · have : l' = [] := by
      have := congrArg List.length h3
      rw [List.length_append] at this
      exact List.length_eq_zero_iff.mp (by omega)
    rw [if_neg (by simpa using hne), this]; simp
  · rw [if_pos (by simpa using hne)]
    have e1 : substr s pre'.length = .ok l' := by
      unfold substr
      have hll : l'.length ≤ s.length := by rw [h3]; simp
      rw [if_neg (by rw [h3]; simp), h3, List.drop_left, List.take_of_length_le (by unfold npos; unfold SIZE_MOD at hl; omega)]
    rw [e1, bind_ok']

/-- C47: the limit and the string determine which matches are replaced from the right. -/
theorem C47_right_unique {cmp : Str} {n : Nat} {s : Str} {ps qs : List (Str × Str)} {last last' : Str}
    (h : ScanFoldRight cmp n s last ps) (h' : ScanFoldRight cmp n s last' qs) : ps = qs ∧ last = last' := by
  induction h generalizing qs last' with
  | limit => cases h' with
    | limit => exact ⟨rfl, rfl⟩
    | none => exact ⟨rfl, rfl⟩
  | @none n s hno =>
    generalize hs : s = s' at h'
    cases h' with
    | limit => exact ⟨rfl, by first | rfl | exact hs⟩
    | none => exact ⟨rfl, by first | rfl | exact hs⟩
    | hit h1 => subst hs; exact absurd h1 (hno _ _)
  | @hit n p t rest last ps h1 h2 h3 ih =>
    generalize hs : rest ++ t ++ p = s' at h'
    generalize hm : n + 1 = m at h'
    cases h' with
    | limit => omega
    | none hno => subst hs; exact absurd h1 (hno _ _)
    | @hit m p' t' rest' last'' qs' h4 h5 h6 =>
      have hmn : n = m := by omega
      subst hmn
      have h7 := h2 _ _ (hs ▸ h4)
      have h8 := h5 _ _ (hs ▸ h1)
      obtain ⟨e1, e2⟩ : rest = rest' ∧ t = t' := by
        have := foldAt_unique_end h1 (hs ▸ h4) (by omega)
        rw [List.append_assoc, List.append_assoc] at hs
        obtain ⟨e1, e2⟩ := List.append_inj hs (by omega)
        exact ⟨e1, (List.append_inj e2 (by omega)).1⟩
      subst e1 e2
      obtain rfl := List.append_cancel_left hs
      obtain ⟨rfl, rfl⟩ := ih h6
      exact ⟨rfl, rfl⟩

/-- C47: `replace` with an empty pattern changes nothing. -/
theorem C47_replace_empty (s to : Str) (n : Int) (hl : s.length < SIZE_MOD) : replace s [] to n = .ok s := by
  have h1 : ∀ n r, replaceFwdLoop [] to n s r = .ok (s, r) := by
    intro n r; cases n with
    | zero => rfl
    | succ n => rfl
  have h2 : ∀ n, replaceMatches [] n s [] = .ok [] := by
    intro n; cases n with
    | zero => rfl
    | succ n => rfl
  unfold replace
  split
  · rw [h1, bind_ok']
    cases s <;> simp
  · rw [h2, bind_ok']
    simp only [List.reverse_nil, replaceBwdLoop]
    rw [bind_ok']
    cases s with
    | nil => simp
    | cons b t =>
      simp only [List.length_cons, ne_eq]
      rw [if_pos (by omega)]
      have e1 : substr (b :: t) 0 = .ok (b :: t) := by
        unfold substr
        rw [if_neg (by simp), List.drop_zero, List.take_of_length_le (by unfold npos; unfold SIZE_MOD at hl; simp at hl ⊢; omega)]
      rw [e1, bind_ok']; simp

/-! ### find_first_of and find_last_of -/

/-- C45: the case-insensitive `find_first_of` and `find_last_of` are `find_first_where` and `find_last_where`
(C20, C21) for the code points that are the same as a listed one up to case. -/
theorem C45_find_of (s : Str) (chars : List Char32) (p : Char32 → Bool)
    (hp : ∀ c, p c = true ↔ ∃ d ∈ chars, simpleUpper c.toNat = simpleUpper d.toNat) (offset : Nat) :
    findFirstOf s chars offset = findFirstWhere s p offset ∧ findLastOf s chars offset = findLastWhere s p offset := by
  have : u32CaseInsensitiveContains chars = p := by
    funext c; rw [Bool.eq_iff_iff, ciContains_iff, hp]
  unfold findFirstOf findLastOf
  rw [this]; exact ⟨rfl, rfl⟩

example : findFirstOf [0x78, 0xC3, 0x84] [0xE4] = .ok (⟨1, 2⟩, 0xC4) ∧
    findLastOf [0x78, 0xC3, 0x84] [0x59, 0x58] = .ok (⟨0, 1⟩, 0x78) := by decide +kernel

end CI
end Ystring
