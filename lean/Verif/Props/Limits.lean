import Verif.Props.View
import Verif.Props.MalformedSearch
import Verif.Props.CaseTrim
import Verif.Props.Consistency

/-! C121: a limited split can be continued: the rest it leaves, split again, gives the remaining pieces. -/

namespace Ystring
open Spec

/-- The cuts of a text up to a limit, followed by those of what is left, are its cuts up to the sum of the limits. -/
theorem splits_append {first no ig} (N : ∀ p t r, first p t r → ¬ no (p ++ t ++ r)) {n m : Nat} {s last l : Str}
    {ps qs : List (Str × Str)} (h : Splits first no ig n s ps last) (h' : Splits first no ig m last qs l) :
    Splits first no ig (n + m) s (ps ++ qs) l := by
  induction h with
  | limit => simpa using h'
  | none h1 =>
    rw [List.nil_append]
    cases h' with
    | limit => exact .none h1
    | none _ => exact .none h1
    | hit h2 => exact absurd h1 (N _ _ _ h2)
    | skip h2 => exact absurd h1 (N [] _ _ h2)
  | hit h1 h2 _ ih =>
    have := Splits.hit h1 h2 (ih h')
    rwa [show ∀ a : Nat, a + 1 + m = a + m + 1 by omega]
  | @skip a _ _ _ _ h1 h2 _ ih =>
    have h3 := ih h'
    rw [show a + 1 + m = a + m + 1 by omega] at h3 ⊢
    exact Splits.skip h1 h2 h3

/-- A finder whose results lie inside of the text it is given. -/
theorem fairFinder_inside {finder : Str → Res Subrange}
    (hf : ∀ s r, s.length < SIZE_MOD → finder s = .ok r → r.length = 0 ∨ r.offset + r.length ≤ s.length) :
    FairFinder (fun p t rest => t ≠ [] ∧ finder (p ++ t ++ rest) = .ok ⟨p.length, t.length⟩)
      (fun s => ∃ o, finder s = .ok ⟨o, 0⟩) (fun s => ∃ e, finder s = .error e) (fun s => s.length < SIZE_MOD) finder := by
  intro s hs
  cases h1 : finder s with
  | error e => exact .inr (.inr ⟨⟨e, h1⟩, e, rfl⟩)
  | ok r =>
    obtain ⟨o, l⟩ := r
    have h2 := hf s _ hs h1
    by_cases hl : l = 0
    · subst hl; exact .inl ⟨⟨o, h1⟩, o, rfl⟩
    · right; left
      simp only [hl, false_or] at h2
      have e1 : (s.take o).length = o := by simp; omega
      have e2 : ((s.drop o).take l).length = l := by simp; omega
      have e : s = s.take o ++ (s.drop o).take l ++ (s.drop o).drop l := by
        rw [List.append_assoc, List.take_append_drop, List.take_append_drop]
      have ht : (s.drop o).take l ≠ [] := by intro h; rw [h] at e2; simp at e2; omega
      refine ⟨s.take o, (s.drop o).take l, (s.drop o).drop l, e, ⟨ht, ?_⟩, ht, ?_, ?_⟩
      · rw [← e, e1, e2, h1]
      · rw [e1, e2]
      · simp; omega

/-- C121: a split with a limit `n` can be continued, for any finder that reports ranges inside of the text it is given, also one
that throws, and for either value of `ignoreEmpty`. Either the split throws and so does any split with a larger limit, or it
returns some pieces and the text it did not split any further, and the split with the limit `n + m` returns these pieces and then
what splitting the remaining text with the limit `m` returns, or throws what that throws. -/
theorem C121_split_where (s : Str) (hs : s.length < SIZE_MOD) (finder : Str → Res Subrange)
    (hf : ∀ s r, s.length < SIZE_MOD → finder s = .ok r → r.length = 0 ∨ r.offset + r.length ≤ s.length)
    (n m : Nat) (hn : 0 < n) (hm : 0 < m) (ig : Bool) :
    (∃ e, splitWhere s finder ⟨n, ig⟩ = .error e ∧ splitWhere s finder ⟨n + m, ig⟩ = .error e) ∨
    ∃ (pieces : List Str) (rest : Str), rest <:+ s ∧ pieces.length ≤ n ∧
      (pieces.length = n ∨ ∃ o, finder rest = .ok ⟨o, 0⟩) ∧ (ig = true → [] ∉ pieces) ∧
      splitWhere s finder ⟨n, ig⟩ = .ok (pieces ++ keep ig [rest]) ∧
      splitWhere s finder ⟨n + m, ig⟩ = (splitWhere rest finder ⟨m, ig⟩).map (pieces ++ ·) := by
  have hg := fairFinder_inside hf
  have hfun : ∀ {k : Nat} {ps ps' : List (Str × Str)} {l l' : Str},
      Splits (fun p t rest => t ≠ [] ∧ finder (p ++ t ++ rest) = .ok ⟨p.length, t.length⟩)
        (fun s => (∃ o, finder s = .ok ⟨o, 0⟩) ∨ ∃ e, finder s = .error e) ig k s ps l →
      Splits (fun p t rest => t ≠ [] ∧ finder (p ++ t ++ rest) = .ok ⟨p.length, t.length⟩)
        (fun s => (∃ o, finder s = .ok ⟨o, 0⟩) ∨ ∃ e, finder s = .error e) ig k s ps' l' → ps = ps' ∧ l = l' := by
    intro k ps ps' l l' h h'
    refine splits_functional (P := fun _ => True) ?_ ?_ (fun _ _ _ _ _ => trivial) trivial h h'
    · rintro p t r p' t' r' - e ⟨h1, h2⟩ ⟨h3, h4⟩
      rw [e, h4] at h2
      injection h2 with h2; injection h2 with h5 h6
      have hp : p = p' := by
        have := congrArg (List.take p.length) e
        rw [List.append_assoc, List.append_assoc, List.take_left, ← h5, List.take_left] at this
        exact this
      subst hp
      rw [List.append_assoc, List.append_assoc] at e
      have e := List.append_cancel_left e
      exact ⟨rfl, (List.append_inj e h6.symm).1⟩
    · rintro p t r - ⟨h1, h2⟩ (⟨o, h3⟩ | ⟨e, h3⟩)
      · rw [h2] at h3; injection h3 with h3; injection h3 with _ h3
        exact h1 (List.eq_nil_of_length_eq_zero h3)
      · rw [h2] at h3; cases h3
  have hN : ∀ p t r, t ≠ [] ∧ finder (p ++ t ++ r) = .ok ⟨p.length, t.length⟩ →
      ¬ ((∃ o, finder (p ++ t ++ r) = .ok ⟨o, 0⟩) ∨ ∃ e, finder (p ++ t ++ r) = .error e) := by
    rintro p t r ⟨h1, h2⟩ (⟨o, h3⟩ | ⟨e, h3⟩)
    · rw [h2] at h3; injection h3 with h3; injection h3 with _ h3
      exact h1 (List.eq_nil_of_length_eq_zero h3)
    · rw [h2] at h3; cases h3
  obtain ⟨ps, last, h1, h2⟩ := splitWhere_any hg ig n s hs hs hn
  obtain ⟨ps', last', i1, i2⟩ := splitWhere_any hg ig (n + m) s hs hs (by omega)
  have hsuf : last <:+ s := by
    rw [← h1.unsplit]
    clear h1 h2 i1 i2
    induction ps with
    | nil => exact List.suffix_refl _
    | cons x ps ih => exact ih.trans (List.suffix_append _ _)
  have hl : last.length < SIZE_MOD := Nat.lt_of_le_of_lt hsuf.length_le hs
  obtain ⟨qs, l, j1, j2⟩ := splitWhere_any hg ig m last hl hl hm
  obtain ⟨rfl, rfl⟩ := hfun (splits_append hN h1 j1) i1
  have hk : ∀ (xs : List (Str × Str)), keep ig (((ps ++ xs).map (·.1)) ++ [l]) =
      keep ig (ps.map (·.1)) ++ keep ig (xs.map (·.1) ++ [l]) := by
    intro xs
    rw [List.map_append, List.append_assoc]
    cases ig <;> simp [keep]
  rcases h2 with ⟨h2, h3⟩ | ⟨e, h2, h3, h4, h5⟩
  · right
    refine ⟨keep ig (ps.map (·.1)), last, hsuf, h1.count, h3, ?_, ?_, ?_⟩
    · rintro rfl; simp [keep]
    · rw [h2]; cases ig <;> simp [keep]
    · rcases j2 with ⟨j2, j3⟩ | ⟨e, j2, j3, j4, j5⟩
      · rw [j2]
        rcases i2 with ⟨i2, i3⟩ | ⟨e, i2, i3, ⟨e', i4⟩, i5⟩
        · rw [i2, hk]; rfl
        · rcases j3 with j3 | ⟨o, j3⟩
          · have := h1.count
            have e4 : (keep ig ((ps ++ qs).map (·.1))).length = (keep ig (ps.map (·.1))).length + (keep ig (qs.map (·.1))).length := by
              rw [List.map_append]; cases ig <;> simp [keep]
            have h6 : (keep ig (ps.map (·.1))).length < n := by omega
            rcases h3 with h3 | ⟨o, h3⟩
            · omega
            · obtain ⟨rfl, rfl⟩ : qs = [] ∧ l = last := by
                cases j1 with
                | limit => exact ⟨rfl, rfl⟩
                | none _ => exact ⟨rfl, rfl⟩
                | hit k1 => exact absurd (.inl ⟨o, h3⟩) (hN _ _ _ k1)
                | skip k1 => exact absurd (.inl ⟨o, h3⟩) (hN [] _ _ k1)
              simp [keep] at j3; omega
          · rw [j3] at i5; cases i5
      · rw [j2]
        rcases i2 with ⟨i2, i3⟩ | ⟨e', i2, i3, i4, i5⟩
        · rcases i3 with i3 | ⟨o, i3⟩
          · have := h1.count
            have e4 : (keep ig ((ps ++ qs).map (·.1))).length = (keep ig (ps.map (·.1))).length + (keep ig (qs.map (·.1))).length := by
              rw [List.map_append]; cases ig <;> simp [keep]
            omega
          · rw [i3] at j5; cases j5
        · rw [i2]
          rw [j5] at i5; injection i5 with i5; rw [i5]; rfl
  · left
    refine ⟨e, h2, ?_⟩
    obtain ⟨rfl, rfl⟩ : qs = [] ∧ l = last := by
      cases j1 with
      | limit => exact ⟨rfl, rfl⟩
      | none _ => exact ⟨rfl, rfl⟩
      | hit k1 => exact absurd (.inr ⟨e, h5⟩) (hN _ _ _ k1)
      | skip k1 => exact absurd (.inr ⟨e, h5⟩) (hN [] _ _ k1)
    rcases i2 with ⟨i2, i3⟩ | ⟨e', i2, i3, i4, i5⟩
    · rcases i3 with i3 | ⟨o, i3⟩
      · simp at i3; omega
      · rw [i3] at h5; cases h5
    · rw [h5] at i5; injection i5 with i5; rw [i2, i5]

/-- C121: the same for the five `split` functions of the library, on any bytes, with any separators. -/
theorem C121_library (s : Str) (hs : s.length < SIZE_MOD) (n m : Nat) (hn : 0 < n) (hm : 0 < m) (ig : Bool) (sep : Str)
    (chars mem : List Char32) (f : Str → SplitParams → Res (List Str))
    (hf : f = (fun s p => split s sep p) ∨ f = (fun s p => splitChars s chars p) ∨ f = (fun s p => splitLines mem s p) ∨
      f = (fun s p => CI.split s sep p) ∨ f = (fun s p => CI.splitChars s chars p)) :
    (∃ e, f s ⟨n, ig⟩ = .error e ∧ f s ⟨n + m, ig⟩ = .error e) ∨
    ∃ (pieces : List Str) (rest : Str), rest <:+ s ∧ pieces.length ≤ n ∧ (ig = true → [] ∉ pieces) ∧
      f s ⟨n, ig⟩ = .ok (pieces ++ keep ig [rest]) ∧ f s ⟨n + m, ig⟩ = (f rest ⟨m, ig⟩).map (pieces ++ ·) ∧
      (pieces.length < n → f s ⟨n + m, ig⟩ = f s ⟨n, ig⟩) := by
  have key : ∀ finder : Str → Res Subrange,
      (∀ s r, s.length < SIZE_MOD → finder s = .ok r → r.length = 0 ∨ r.offset + r.length ≤ s.length) →
      (∃ e, splitWhere s finder ⟨n, ig⟩ = .error e ∧ splitWhere s finder ⟨n + m, ig⟩ = .error e) ∨
      ∃ (pieces : List Str) (rest : Str), rest <:+ s ∧ pieces.length ≤ n ∧ (ig = true → [] ∉ pieces) ∧
        splitWhere s finder ⟨n, ig⟩ = .ok (pieces ++ keep ig [rest]) ∧
        splitWhere s finder ⟨n + m, ig⟩ = (splitWhere rest finder ⟨m, ig⟩).map (pieces ++ ·) ∧
        (pieces.length < n → splitWhere s finder ⟨n + m, ig⟩ = splitWhere s finder ⟨n, ig⟩) := by
    intro finder hi
    rcases C121_split_where s hs finder hi n m hn hm ig with h | ⟨ps, rest, h1, h2, h3, h4, h5, h6⟩
    · exact .inl h
    · refine .inr ⟨ps, rest, h1, h2, h4, h5, h6, fun hlt => ?_⟩
      obtain ⟨o, h3⟩ : ∃ o, finder rest = .ok ⟨o, 0⟩ := h3.resolve_left (by omega)
      have hl : rest.length < SIZE_MOD := Nat.lt_of_le_of_lt h1.length_le hs
      obtain ⟨qs, l, j1, j2⟩ := splitWhere_any (fairFinder_inside hi) ig m rest hl hl hm
      obtain ⟨rfl, rfl⟩ : qs = [] ∧ l = rest := by
        cases j1 with
        | limit => exact ⟨rfl, rfl⟩
        | none _ => exact ⟨rfl, rfl⟩
        | hit k1 =>
          rw [k1.2] at h3; injection h3 with h3; injection h3 with _ h3
          exact absurd (List.eq_nil_of_length_eq_zero h3) k1.1
        | skip k1 =>
          have := k1.2
          rw [List.nil_append, h3] at this; injection this with this; injection this with _ this
          exact absurd (List.eq_nil_of_length_eq_zero this.symm) k1.1
      rcases j2 with ⟨j2, -⟩ | ⟨e, -, -, -, j5⟩
      · rw [h6, j2, h5]; rfl
      · rw [h3] at j5; cases j5
  have hc : ∀ (q : Char32 → Bool) (s : Str) (r : Subrange),
      (findFirstWhere s q >>= fun r => (Except.ok r.1 : Res Subrange)) = .ok r → r.length = 0 ∨ r.offset + r.length ≤ s.length := by
    intro q s r hr
    refine SafeWith.of_ok (P := EmptyOr s.length) ?_ hr
    refine (findFirstWhere_within s _ 0 (Nat.zero_le _)).bind fun r hr => .ok ?_
    rcases hr with hr | hr
    · left; rw [hr]
    · exact .inr hr
  rcases hf with rfl | rfl | rfl | rfl | rfl
  · refine key _ fun s r _ hr => ?_
    obtain ⟨r', h1, h2⟩ := findFirst_within' s sep
    rw [h1] at hr; injection hr with hr; exact hr ▸ h2
  · exact key _ fun s r _ hr => hc _ s r hr
  · exact key _ fun s r hs hr => SafeWith.of_ok (P := EmptyOr s.length) (findFirstNewline_within mem s hs 0 (Nat.zero_le _)) hr
  · exact key _ fun s r _ hr => SafeWith.of_ok (P := EmptyOr s.length)
      ((CI.findFirst_safe s sep 0 (Nat.zero_le _)).mono fun _ h => h.emptyOr) hr
  · exact key _ fun s r _ hr => hc _ s r hr

/-- C121: what a limit does to `split`: the pieces of the unlimited split (or of one with a larger limit), the ones behind the
first `n` put together again. -/
theorem C121_split_prefix (s sep : Str) (h0 : sep ≠ []) (hs : s.length < SIZE_MOD) (n k : Nat) (hn : 0 < n) (hk : n < k) :
    ∃ full, split s sep ⟨k, false⟩ = .ok full ∧
      split s sep ⟨n, false⟩ = .ok (if full.length ≤ n then full else full.take n ++ [join (full.drop n) sep]) := by
  obtain ⟨full, h1, -, h3⟩ := C38_split_join s sep h0 k (by omega) hs
  refine ⟨full, h1, ?_⟩
  rcases C121_library s hs n (k - n) hn (by omega) false sep [] [] (fun s p => split s sep p) (.inl rfl) with
    ⟨e, -, h⟩ | ⟨ps, rest, i1, i2, -, i3, i4, i5⟩
  · rw [show n + (k - n) = k by omega, h1] at h; cases h
  · rw [show n + (k - n) = k by omega, h1] at i4 i5
    by_cases hlt : ps.length < n
    · rw [i3]
      have := i5 hlt
      rw [i3] at this
      injection this with this
      rw [if_pos (by rw [this]; simp [keep]; omega), this]
    · have hl : rest.length < SIZE_MOD := Nat.lt_of_le_of_lt i1.length_le hs
      obtain ⟨qs, j1, j2, j3⟩ := C38_split_join rest sep h0 (k - n) (by omega) hl
      rw [j1] at i4
      injection i4 with i4
      have hq : qs ≠ [] := by
        rintro rfl
        generalize k - n = x at j2
        cases j2
      rw [if_neg (by
        rw [i4]; cases qs with
        | nil => exact absurd rfl hq
        | cons => simp; omega), i3, i4]
      have e : ps.length = n := by omega
      rw [← e, List.take_left, List.drop_left, j3]
      rfl

theorem scanLeft_append {f : Str} {n m : Nat} {s : Str} {ps : List Str} (h : ScanLeft f n s ps) :
    ∃ init rest, ps = init ++ [rest] ∧ rest <:+ s ∧
      ∀ qs, ScanLeft f m rest qs → ScanLeft f (n + m) s (init ++ qs) := by
  induction h with
  | @limit s => exact ⟨[], s, rfl, List.suffix_refl _, fun qs h => by simpa using h⟩
  | @none n s h1 =>
    refine ⟨[], s, rfl, List.suffix_refl _, fun qs h => ?_⟩
    rw [List.nil_append]
    cases h with
    | limit => exact .none h1
    | none _ => exact .none h1
    | @hit _ p t _ _ _ => exact absurd ⟨p, t, rfl, rfl⟩ (h1 p.length)
  | @hit n p t ps h1 _ ih =>
    obtain ⟨init, rest, rfl, h2, h3⟩ := ih
    refine ⟨p :: init, rest, rfl, h2.trans (List.suffix_append _ _), fun qs h => ?_⟩
    have := ScanLeft.hit h1 (h3 qs h)
    rwa [show n + 1 + m = n + m + 1 by omega]

theorem scanRight_append {f : Str} {n m : Nat} {s : Str} {ps : List Str} (h : ScanRight f n s ps) :
    ∃ init rest, ps = rest :: init ∧ rest <+: s ∧
      ∀ qs, ScanRight f m rest qs → ScanRight f (n + m) s (qs ++ init) := by
  induction h with
  | @limit s => exact ⟨[], s, rfl, List.prefix_refl _, fun qs h => by simpa using h⟩
  | @none n s h1 =>
    refine ⟨[], s, rfl, List.prefix_refl _, fun qs h => ?_⟩
    rw [List.append_nil]
    cases h with
    | limit => exact .none h1
    | none _ => exact .none h1
    | @hit _ p t _ _ _ => exact absurd ⟨t, p, rfl, rfl⟩ (h1 t.length)
  | @hit n p t ps h1 _ ih =>
    obtain ⟨init, rest, rfl, h2, h3⟩ := ih
    refine ⟨init ++ [p], rest, rfl, h2.trans (by simp), fun qs h => ?_⟩
    have := ScanRight.hit h1 (h3 qs h)
    rw [List.append_assoc qs] at this
    rwa [show n + 1 + m = n + m + 1 by omega]

theorem joinWith_left (sep : Str) (init ps : List Str) (h : ps ≠ []) :
    joinWith sep (init ++ ps) = init.flatMap (fun x => x ++ sep) ++ joinWith sep ps := by
  induction init with
  | nil => simp
  | cons x init ih =>
    rw [List.cons_append, joinWith_cons _ _ (by simp [h]), ih]
    simp

theorem joinWith_right (sep : Str) (init ps : List Str) (h : ps ≠ []) :
    joinWith sep (ps ++ init) = joinWith sep ps ++ init.flatMap (fun x => sep ++ x) := by
  induction init generalizing ps with
  | nil => simp
  | cons x init ih =>
    rw [show ps ++ x :: init = (ps ++ [x]) ++ init by simp, ih _ (by simp), joinWith_snoc _ _ h]
    simp

/-- C121: a replacement with a limit can be continued: the text behind the last replacement is unchanged, and replacing in it
up to `m` occurrences is what replacing up to `n + m` occurrences does. -/
theorem C121_replace (s f to : Str) (hf : f ≠ []) (n m : Nat) :
    ∃ a b c, b <:+ s ∧ replace s f to n = .ok (a ++ b) ∧ replace b f to m = .ok c ∧ replace s f to (n + m : Nat) = .ok (a ++ c) := by
  obtain ⟨ps, h1, -, h3, -⟩ := C34_replace_left s f to hf n (by omega)
  obtain ⟨init, rest, rfl, i2, i3⟩ := scanLeft_append (m := m) h1
  obtain ⟨qs, j1, -, j3, -⟩ := C34_replace_left rest f to hf m (by omega)
  obtain ⟨rs, -, -, k3, k4⟩ := C34_replace_left s f to hf (n + m : Nat) (by omega)
  have e := k4 _ (i3 qs j1)
  subst e
  have hq : qs ≠ [] := by rintro rfl; cases j1
  refine ⟨init.flatMap (fun x => x ++ to), rest, joinWith to qs, i2, ?_, j3, ?_⟩
  · rw [h3, joinWith_left _ _ _ (by simp)]; rfl
  · rw [k3, joinWith_left _ _ _ hq]

/-- C121: the same from the right, with negative limits. -/
theorem C121_replace_right (s f to : Str) (hf : f ≠ []) (hs : s.length < SIZE_MOD) (n m : Nat) (hn : 0 < n) (hm : 0 < m)
    (hnm : (n + m : Int) < 2 ^ 63) :
    ∃ a b c, b <+: s ∧ replace s f to (-n) = .ok (b ++ a) ∧ replace b f to (-m) = .ok c ∧
      replace s f to (-(n + m : Nat)) = .ok (c ++ a) := by
  have hmin : PTRDIFF_MIN = -2 ^ 63 := by decide
  obtain ⟨ps, h1, -, h3, -⟩ := C35_replace_right s f to hf hs (-n) (by omega) (by omega)
  obtain ⟨init, rest, rfl, i2, i3⟩ := scanRight_append (m := m) h1
  obtain ⟨qs, j1, -, j3, -⟩ := C35_replace_right rest f to hf (Nat.lt_of_le_of_lt i2.length_le hs) (-m) (by omega) (by omega)
  obtain ⟨rs, -, -, k3, k4⟩ := C35_replace_right s f to hf hs (-(n + m : Nat)) (by omega) (by omega)
  have e := k4 (qs ++ init) (by
    have := i3 qs (by simpa using j1)
    rw [show (-(-((n + m : Nat) : Int))).toNat = n + m by omega]
    simpa using this)
  subst e
  have hq : qs ≠ [] := by
    rintro rfl
    generalize (-(-(m : Int))).toNat = x at j1
    generalize hy : ([] : List Str) = y at j1
    cases j1 <;> simp at hy
  refine ⟨init.flatMap (fun x => to ++ x), rest, joinWith to qs, i2, ?_, j3, ?_⟩
  · rw [h3, show rest :: init = [rest] ++ init from rfl, joinWith_right _ _ _ (by simp)]; rfl
  · rw [k3, joinWith_right _ _ _ hq]

theorem splits_last_valid {f : Str} {ig : Bool} {n : Nat} {s last : Str} {ps : List (Str × Str)} (hv : Valid s)
    (h : Splits (FirstFold f) (NoFold f) ig n s ps last) : last <:+ s ∧ Valid last := by
  have key : ∀ {p t r : Str}, FirstFold f p t r → Valid r := by
    rintro p t r ⟨⟨a, m, b, e, h1, h2, -, h3, -⟩, -⟩
    rw [List.append_assoc, List.append_assoc] at e
    obtain ⟨-, e⟩ := List.append_inj e h1.symm
    obtain ⟨-, rfl⟩ := List.append_inj e h2.symm
    exact h3
  induction h with
  | limit => exact ⟨List.suffix_refl _, hv⟩
  | none => exact ⟨List.suffix_refl _, hv⟩
  | hit h1 _ _ ih => exact ⟨(ih (key h1)).1.trans (List.suffix_append _ _), (ih (key h1)).2⟩
  | skip h1 _ _ ih => exact ⟨(ih (key h1)).1.trans (List.suffix_append _ _), (ih (key h1)).2⟩

/-- C121: the same for `case_insensitive::replace`. -/
theorem C121_ci_replace (s f to : Str) (hs : Valid s) (hf : Valid f) (h0 : f ≠ []) (hl : s.length < SIZE_MOD) (n m : Nat) :
    ∃ a b c, b <:+ s ∧ CI.replace s f to n = .ok (a ++ b) ∧ CI.replace b f to m = .ok c ∧
      CI.replace s f to (n + m : Nat) = .ok (a ++ c) := by
  obtain ⟨ps, last, h1, h2⟩ := CI.C47_replace_left s f to hs hf h0 n (by omega) hl
  obtain ⟨i1, i2⟩ := splits_last_valid hs h1
  obtain ⟨qs, l, j1, j2⟩ := CI.C47_replace_left last f to i2 hf h0 m (by omega) (Nat.lt_of_le_of_lt i1.length_le hl)
  obtain ⟨rs, l', k1, k2⟩ := CI.C47_replace_left s f to hs hf h0 (n + m : Nat) (by omega) hl
  have hN : ∀ p t r, FirstFold f p t r → ¬ NoFold f (p ++ t ++ r) := fun p t r h h' => h' _ _ h.1
  have hn : ∀ k : Nat, ((k : Int)).toNat = k := fun k => by omega
  rw [hn] at h1 j1 k1
  obtain ⟨rfl, rfl⟩ := CI.C47_cuts_unique (splits_append hN h1 j1) k1
  refine ⟨ps.flatMap (fun x => x.1 ++ to), last, _, i1, h2, j2, ?_⟩
  rw [k2]; simp

theorem scanFoldRight_append {f : Str} {n m : Nat} {s rest l : Str} {ps qs : List (Str × Str)} (h : ScanFoldRight f n s rest ps)
    (h' : ScanFoldRight f m rest l qs) : ScanFoldRight f (n + m) s l (qs ++ ps) := by
  induction h with
  | limit => simpa using h'
  | none h1 =>
    rw [List.append_nil]
    cases h' with
    | limit => exact .none h1
    | none _ => exact .none h1
    | hit h2 => exact absurd h2 (h1 _ _)
  | @hit n p t r l ps h1 h2 _ ih =>
    have := ScanFoldRight.hit h1 h2 (ih h')
    rw [List.append_assoc qs] at this
    rwa [show n + 1 + m = n + m + 1 by omega]

theorem scanFoldRight_last {f : Str} {n : Nat} {s last : Str} {ps : List (Str × Str)} (hv : Valid s)
    (h : ScanFoldRight f n s last ps) : last <+: s ∧ Valid last := by
  induction h with
  | limit => exact ⟨List.prefix_refl _, hv⟩
  | none => exact ⟨List.prefix_refl _, hv⟩
  | @hit n p t r l ps h1 _ _ ih =>
    obtain ⟨a, m, b, e, e1, e2, h3, -, -⟩ := h1
    rw [List.append_assoc, List.append_assoc] at e
    obtain ⟨rfl, -⟩ := List.append_inj e e1.symm
    exact ⟨(ih h3).1.trans (by simp), (ih h3).2⟩

/-- C121: and from the right. -/
theorem C121_ci_replace_right (s f to : Str) (hs : Valid s) (hf : Valid f) (h0 : f ≠ []) (hl : s.length < SIZE_MOD) (n m : Nat)
    (hn : 0 < n) (hm : 0 < m) :
    ∃ a b c, b <+: s ∧ CI.replace s f to (-n) = .ok (b ++ a) ∧ CI.replace b f to (-m) = .ok c ∧
      CI.replace s f to (-(n + m : Nat)) = .ok (c ++ a) := by
  obtain ⟨last, ps, h1, -, h2⟩ := CI.C47_replace_right s f to hs hf h0 (-n) (by omega) hl
  obtain ⟨i1, i2⟩ := scanFoldRight_last hs h1
  obtain ⟨l, qs, j1, -, j2⟩ := CI.C47_replace_right last f to i2 hf h0 (-m) (by omega) (Nat.lt_of_le_of_lt i1.length_le hl)
  obtain ⟨l', rs, k1, -, k2⟩ := CI.C47_replace_right s f to hs hf h0 (-(n + m : Nat)) (by omega) hl
  rw [show ∀ k : Nat, (-(-(k : Int))).toNat = k from fun k => by omega] at h1 j1 k1
  obtain ⟨rfl, rfl⟩ := CI.C47_right_unique (scanFoldRight_append h1 j1) k1
  refine ⟨ps.flatMap (fun x => to ++ x.2), last, _, i1, h2, j2, ?_⟩
  rw [k2]; simp

/-! `a,b,,c` split once, and the rest twice more; the same ignoring empty pieces; a text that is malformed behind the limit. -/

example : split [0x61, 0x2C, 0x62, 0x2C, 0x2C, 0x63] [0x2C] ⟨1, false⟩ = .ok [[0x61], [0x62, 0x2C, 0x2C, 0x63]] ∧
    split [0x62, 0x2C, 0x2C, 0x63] [0x2C] ⟨2, false⟩ = .ok [[0x62], [], [0x63]] ∧
    split [0x61, 0x2C, 0x62, 0x2C, 0x2C, 0x63] [0x2C] ⟨3, false⟩ = .ok [[0x61], [0x62], [], [0x63]] := by decide +kernel
example : splitChars [0x61, 0x2C, 0x62, 0x2C, 0x2C, 0x63] [0x2C] ⟨2, true⟩ = .ok [[0x61], [0x62], [0x2C, 0x63]] ∧
    splitChars [0x2C, 0x63] [0x2C] ⟨1, true⟩ = .ok [[0x63]] ∧
    splitChars [0x61, 0x2C, 0x62, 0x2C, 0x2C, 0x63] [0x2C] ⟨3, true⟩ = .ok [[0x61], [0x62], [0x63]] := by decide +kernel
example : splitChars [0x61, 0x2C, 0xFF] [0x2C] ⟨1, false⟩ = .ok [[0x61], [0xFF]] ∧
    splitChars [0x61, 0x2C, 0xFF] [0x2C] ⟨2, false⟩ = .error .ystring := by decide +kernel
example : replace [0x61, 0x61, 0x61, 0x61] [0x61, 0x61] [0x62] (-1) = .ok [0x61, 0x61, 0x62] ∧
    replace [0x61, 0x61] [0x61, 0x61] [0x62] (-1) = .ok [0x62] ∧
    replace [0x61, 0x61, 0x61, 0x61] [0x61, 0x61] [0x62] (-2) = .ok [0x62, 0x62] := by decide +kernel
example : CI.replace [0x61, 0x2E, 0x41] [0x41] [0x62] 1 = .ok [0x62, 0x2E, 0x41] ∧
    CI.replace [0x61, 0x2E, 0x41] [0x41] [0x62] 2 = .ok [0x62, 0x2E, 0x62] := by decide +kernel

end Ystring
