import Verif.Spec.Split
import Verif.Props.Replace
import Verif.Props.FindWhere
/-
Property theorems C38, C39 (split and join), C40 (split_lines), C41 (TokenIterator).
-/
namespace Ystring
open Spec

/-! ### The general theorem about `split_where` -/

/-- `finder` finds the first separator (and keeps the invariant `P` for the rest). -/
def GoodFinder (first : Str → Str → Str → Prop) (no : Str → Prop) (P : Str → Prop) (finder : Str → Res Subrange) : Prop :=
  ∀ s, P s → (no s ∧ ∃ o, finder s = .ok ⟨o, 0⟩) ∨
    ∃ p t rest, s = p ++ t ++ rest ∧ first p t rest ∧ t ≠ [] ∧ finder s = .ok ⟨p.length, t.length⟩ ∧ P rest

/-- the iterator will next search `s` -/
def Ready (it : TokenIterator) (s : Str) : Prop :=
  (it.token.nonempty = true ∧ substr it.str it.token.stop = .ok s) ∨ (it.token = ⟨0, 0⟩ ∧ it.str = s)

theorem next_ready {finder : Str → Res Subrange} {it s} (h : Ready it s) : it.next finder = (do
    let token ← finder s
    if !token.nonempty then .ok (true, ⟨s, ⟨npos, token.length⟩⟩)
    else .ok (true, ⟨s, token⟩)) := by
  unfold TokenIterator.next
  rcases h with ⟨h1, h2⟩ | ⟨h1, h2⟩
  · rw [if_pos h1, h2]; rfl
  · rw [h1, h2]; rfl

theorem nonempty_iff (o n : Nat) : Subrange.nonempty ⟨o, n⟩ = true ↔ n ≠ 0 := by
  simp [Subrange.nonempty]

def splitFinish (params : SplitParams) (it : TokenIterator) (result : List Str) : Res (List Str) :=
  if it.toBool then do
    let remainder ← it.remainder
    if !params.ignoreEmpty || !remainder.isEmpty then .ok (result ++ [remainder])
    else .ok result
  else .ok result

theorem keep_append (ig : Bool) (ps qs : List Str) : keep ig (ps ++ qs) = keep ig ps ++ keep ig qs := by
  unfold keep; split <;> simp

theorem keep_cons (ig : Bool) (p : Str) (qs : List Str) : keep ig (p :: qs) = keep ig [p] ++ keep ig qs := by
  rw [← keep_append]; rfl

theorem keep_single (ig : Bool) (p : Str) : keep ig [p] = if (!ig || !p.isEmpty) = true then [p] else [] := by
  unfold keep; cases ig <;> cases p <;> simp

theorem splitLoop_spec {first no P finder} (hg : GoodFinder first no P finder) (ig : Bool) (max : Nat) :
    ∀ (fuel k : Nat) (it : TokenIterator) (s : Str) (result : List Str), s.length + 1 < fuel → s.length < SIZE_MOD →
    Ready it s → P s → result.length + k = max → (k = 0 → it.token.nonempty = true) →
    ∃ ps last, Splits first no ig k s ps last ∧
      (splitLoop finder ⟨max, ig⟩ fuel it result >>= fun x => splitFinish ⟨max, ig⟩ x.1 x.2) =
        .ok (result ++ keep ig (ps.map (·.1) ++ [last])) := by
  intro fuel
  induction fuel with
  | zero => intro k it s result h; omega
  | succ fuel ih =>
    intro k it s result hf hs hr hP hk h0
    rw [splitLoop]
    simp only
    cases k with
    | zero =>
      rw [if_neg (by omega)]
      refine ⟨[], s, .limit, ?_⟩
      have hne := h0 rfl
      have hsub : substr it.str it.token.stop = .ok s := by
        rcases hr with ⟨_, h⟩ | ⟨h, _⟩
        · exact h
        · rw [h] at hne; simp [Subrange.nonempty] at hne
      simp only [bind, Except.bind, splitFinish, TokenIterator.toBool, TokenIterator.remainder]
      rw [if_pos hne, if_pos (.inl hne), hsub]
      simp only [List.map_nil, List.nil_append, keep_single]
      split <;> simp
    | succ k =>
      rw [if_pos (by omega), next_ready hr]
      rcases hg s hP with ⟨hno, o, hfd⟩ | ⟨p, t, rest, rfl, hfirst, ht, hfd, hP'⟩
      · refine ⟨[], s, .none hno, ?_⟩
        rw [hfd]
        have hpart : TokenIterator.part ⟨s, ⟨npos, 0⟩⟩ = .ok s := by
          unfold TokenIterator.part
          rw [if_neg (by simp [Subrange.nonempty]), if_pos (by simp [Subrange.start, npos])]
        have hfin : ∀ r, splitFinish ⟨max, ig⟩ ⟨s, ⟨npos, 0⟩⟩ r = .ok r := by
          intro r; simp [splitFinish, TokenIterator.toBool, Subrange.nonempty]
        have hend : ∀ r, (splitLoop finder ⟨max, ig⟩ fuel ⟨s, ⟨npos, 0⟩⟩ r >>= fun x => splitFinish ⟨max, ig⟩ x.1 x.2) = .ok r := by
          intro r
          obtain ⟨f, rfl⟩ : ∃ f, fuel = f + 1 := ⟨fuel - 1, by omega⟩
          rw [splitLoop]
          simp only
          have : TokenIterator.next finder ⟨s, ⟨npos, 0⟩⟩ = .ok (false, ⟨s, ⟨npos, 0⟩⟩) := by
            unfold TokenIterator.next
            simp [Subrange.nonempty, Subrange.start, npos]
          split
          · rw [this]; simp [bind, Except.bind, hfin]
          · simp [bind, Except.bind, hfin]
        simp only [bind, Except.bind] at hend ⊢
        rw [if_pos (by simp [Subrange.nonempty])]
        simp only [if_true]
        rw [hpart]
        simp only [List.map_nil, List.nil_append, keep_single]
        by_cases hkeep : (!ig || !s.isEmpty) = true
        · rw [if_pos hkeep, if_pos hkeep, hend]
        · rw [if_neg hkeep, if_neg hkeep, hend, List.append_nil]
      · have htl := List.length_pos_iff.mpr ht
        have hne : Subrange.nonempty ⟨p.length, t.length⟩ = true := by rw [nonempty_iff]; omega
        have hpart : TokenIterator.part ⟨p ++ t ++ rest, ⟨p.length, t.length⟩⟩ = .ok p := by
          unfold TokenIterator.part
          rw [if_pos hne]
          unfold substr
          rw [if_neg (by simp)]
          simp [Subrange.start]
        have hready : Ready ⟨p ++ t ++ rest, ⟨p.length, t.length⟩⟩ rest := by
          left
          refine ⟨hne, ?_⟩
          have : Subrange.stop ⟨p.length, t.length⟩ = (p ++ t).length := by
            unfold Subrange.stop sizeAdd
            simp only [List.length_append] at hs ⊢
            exact Nat.mod_eq_of_lt (by omega)
          simp only [this]
          unfold substr
          rw [if_neg (by simp), List.drop_left, List.take_of_length_le (by unfold npos; unfold SIZE_MOD at hs; simp at hs; omega)]
        simp only [List.length_append] at hf hs
        rw [hfd]
        simp only [bind, Except.bind]
        rw [if_neg (by simp [hne])]
        simp only [if_true]
        rw [hpart]
        simp only
        by_cases hkeep : (!ig || !p.isEmpty) = true
        · obtain ⟨ps, last, i1, i2⟩ := ih k _ rest (result ++ [p]) (by omega) (by omega) hready hP' (by simp; omega)
            (fun _ => hne)
          refine ⟨(p, t) :: ps, last, .hit hfirst ?_ i1, ?_⟩
          · intro h; subst h; rintro rfl; simp at hkeep
          · rw [if_pos hkeep]
            simp only [bind, Except.bind] at i2
            rw [i2, List.map_cons, List.cons_append, keep_cons, keep_single, if_pos hkeep]
            simp
        · obtain ⟨ps, last, i1, i2⟩ := ih (k + 1) _ rest result (by omega) (by omega) hready hP' hk (fun _ => hne)
          have hp : ig = true ∧ p = [] := by cases ig <;> cases p <;> simp_all
          refine ⟨(p, t) :: ps, last, ?_, ?_⟩
          · rw [hp.2, List.nil_append]
            exact .skip (hp.2 ▸ hfirst) hp.1 i1
          · rw [if_neg hkeep]
            simp only [bind, Except.bind] at i2
            rw [i2, List.map_cons, List.cons_append, keep_cons, keep_single, if_neg hkeep]
            simp

theorem splitWhere_spec {first no P finder} (hg : GoodFinder first no P finder) (ig : Bool) (n : Nat) (s : Str)
    (hs : s.length < SIZE_MOD) (hP : P s) (hn : 0 < n) :
    ∃ ps last, Splits first no ig n s ps last ∧
      splitWhere s finder ⟨n, ig⟩ = .ok (keep ig (ps.map (·.1) ++ [last])) := by
  obtain ⟨ps, last, h1, h2⟩ := splitLoop_spec hg ig n (s.length + 2) n (TokenIterator.mk' s) s [] (by omega) hs
    (.inr ⟨rfl, rfl⟩) hP (by simp) (by omega)
  exact ⟨ps, last, h1, h2⟩

/-- Pieces and separators make up the string. -/
theorem Spec.Splits.unsplit {first no ig n s ps last} (h : Splits first no ig n s ps last) : unsplit ps last = s := by
  induction h with
  | limit => rfl
  | none => rfl
  | hit _ _ _ ih => simp [Spec.unsplit, ih]
  | skip _ _ _ ih => simp [Spec.unsplit, ih]

/-- At most `n` pieces that count are followed by a separator. -/
theorem Spec.Splits.count {first no ig n s ps last} (h : Splits first no ig n s ps last) :
    (keep ig (ps.map (·.1))).length ≤ n := by
  induction h with
  | limit => simp [keep]
  | none => simp [keep]
  | hit h1 h2 _ ih =>
    rw [List.map_cons, keep_cons, keep_single]
    split <;> simp <;> omega
  | skip h1 h2 _ ih => subst h2; rw [List.map_cons, keep_cons, keep_single]; simpa using ih

/-- Either the limit is used up or there is no separator in the remainder. -/
theorem Spec.Splits.limit_or {first no ig n s ps last} (h : Splits first no ig n s ps last) :
    (keep ig (ps.map (·.1))).length = n ∨ no last := by
  induction h with
  | limit => left; simp [keep]
  | none h => exact .inr h
  | @hit n p t rest last ps h1 h2 _ ih =>
    rw [List.map_cons, keep_cons, keep_single, if_pos (by cases ig <;> simp_all)]
    simp only [List.length_append, List.length_singleton]
    rcases ih with ih | ih
    · left; omega
    · exact .inr ih
  | skip h1 h2 _ ih => subst h2; rw [List.map_cons, keep_cons, keep_single]; simpa using ih

/-- Every cut is at a first separator. -/
theorem Spec.Splits.cuts {first no ig n s ps last} (h : Splits first no ig n s ps last) :
    ∀ p t qs, (∃ rs, ps = rs ++ (p, t) :: qs) → first p t (Spec.unsplit qs last) := by
  induction h with
  | limit => rintro p t qs ⟨rs, e⟩; simp at e
  | none => rintro p t qs ⟨rs, e⟩; simp at e
  | hit h1 h2 h3 ih =>
    rintro p t qs ⟨rs, e⟩
    cases rs with
    | nil => simp at e; obtain ⟨⟨rfl, rfl⟩, rfl⟩ := e; rw [h3.unsplit]; exact h1
    | cons r rs => simp at e; exact ih p t qs ⟨rs, e.2⟩
  | skip h1 h2 h3 ih =>
    rintro p t qs ⟨rs, e⟩
    cases rs with
    | nil => simp at e; obtain ⟨⟨rfl, rfl⟩, rfl⟩ := e; rw [h3.unsplit]; exact h1
    | cons r rs => simp at e; exact ih p t qs ⟨rs, e.2⟩

/-- C38, for every finder function given to `split_where` that reports ranges inside the string: re-inserting the
separators restores the string, the pieces that count are limited, and unless the limit is reached the finder finds
nothing in the last piece. -/
theorem C38_split_where (s : Str) (finder : Str → Res Subrange)
    (hf : ∀ s, ∃ r, finder s = .ok r ∧ (r.length = 0 ∨ r.offset + r.length ≤ s.length))
    (n : Nat) (hn : 0 < n) (ig : Bool) (hs : s.length < SIZE_MOD) :
    ∃ (ps : List (Str × Str)) (last : Str), splitWhere s finder ⟨n, ig⟩ = .ok (keep ig (ps.map (·.1) ++ [last])) ∧
      unsplit ps last = s ∧ (keep ig (ps.map (·.1))).length ≤ n ∧
      ((keep ig (ps.map (·.1))).length = n ∨ ∃ o, finder last = .ok ⟨o, 0⟩) ∧
      ∀ rs p t qs, ps = rs ++ (p, t) :: qs → t ≠ [] ∧ finder (unsplit ((p, t) :: qs) last) = .ok ⟨p.length, t.length⟩ := by
  have hg : GoodFinder (fun p t rest => t ≠ [] ∧ finder (p ++ t ++ rest) = .ok ⟨p.length, t.length⟩)
      (fun s => ∃ o, finder s = .ok ⟨o, 0⟩) (fun _ => True) finder := by
    intro s _
    obtain ⟨⟨o, l⟩, h1, h2⟩ := hf s
    by_cases hl : l = 0
    · subst hl; exact .inl ⟨⟨o, h1⟩, o, h1⟩
    · right
      simp only [hl, false_or] at h2
      have e1 : (s.take o).length = o := by simp; omega
      have e2 : ((s.drop o).take l).length = l := by simp; omega
      have e : s = s.take o ++ (s.drop o).take l ++ (s.drop o).drop l := by
        rw [List.append_assoc, List.take_append_drop, List.take_append_drop]
      have ht : (s.drop o).take l ≠ [] := by intro h; rw [h] at e2; simp at e2; omega
      refine ⟨s.take o, (s.drop o).take l, (s.drop o).drop l, e, ⟨ht, ?_⟩, ht, ?_, trivial⟩
      · rw [← e, e1, e2, h1]
      · rw [e1, e2, h1]
  obtain ⟨ps, last, h1, h2⟩ := splitWhere_spec hg ig n s hs trivial hn
  refine ⟨ps, last, h2, h1.unsplit, h1.count, h1.limit_or, ?_⟩
  intro rs p t qs e
  exact h1.cuts p t qs ⟨rs, e⟩

/-- With a limit of 0 `split` returns no pieces at all. -/
theorem C38_zero (s : Str) (finder : Str → Res Subrange) (ig : Bool) : splitWhere s finder ⟨0, ig⟩ = .ok [] := by
  unfold splitWhere
  rw [splitLoop]
  simp [bind, Except.bind, TokenIterator.toBool, TokenIterator.mk', Subrange.nonempty]

/-! ### split at a separator string -/

theorem findFirst_good {sep : Str} (h0 : sep ≠ []) :
    GoodFinder (fun p t rest => t = sep ∧ ∀ i, OccursAt (p ++ sep ++ rest) sep i → p.length ≤ i)
      (fun s => ∀ i, ¬ OccursAt s sep i) (fun _ => True) (fun s => findFirst s sep) := by
  intro s _
  rcases C17_find_first s sep h0 0 (Nat.zero_le _) with ⟨i, h1, -, ⟨a, b, rfl, rfl⟩, h3⟩ | ⟨h1, h2⟩
  · right
    exact ⟨a, sep, b, rfl, ⟨rfl, fun i hi => h3 i (Nat.zero_le _) hi⟩, h0, h1, trivial⟩
  · left
    exact ⟨fun i => h2 i (Nat.zero_le _), _, h1⟩

theorem splits_scanLeft {sep : Str} {n s ps last}
    (h : Splits (fun p t rest => t = sep ∧ ∀ i, OccursAt (p ++ sep ++ rest) sep i → p.length ≤ i)
      (fun s => ∀ i, ¬ OccursAt s sep i) false n s ps last) : ScanLeft sep n s (ps.map (·.1) ++ [last]) := by
  induction h with
  | limit => exact .limit
  | none h => exact .none h
  | hit h1 h2 h3 ih => obtain ⟨rfl, h1⟩ := h1; exact .hit h1 ih
  | skip h1 h2 h3 ih => simp at h2

theorem splits_scanLeft_all {sep : Str} (h0 : sep ≠ []) {ig n s ps last}
    (h : Splits (fun p t rest => t = sep ∧ ∀ i, OccursAt (p ++ sep ++ rest) sep i → p.length ≤ i)
      (fun s => ∀ i, ¬ OccursAt s sep i) ig n s ps last) (hn : s.length ≤ n) (m : Nat) (hm : s.length ≤ m) :
    ScanLeft sep m s (ps.map (·.1) ++ [last]) := by
  have hp := List.length_pos_iff.mpr h0
  induction h generalizing m with
  | limit => exact .none (fun i hi => by have := occursAt_le hi; omega)
  | none h => exact .none h
  | hit h1 h2 h3 ih =>
    obtain ⟨rfl, h1⟩ := h1
    simp only [List.length_append] at hn hm
    obtain ⟨m, rfl⟩ : ∃ k, m = k + 1 := ⟨m - 1, by omega⟩
    exact .hit h1 (ih (by omega) m (by omega))
  | skip h1 h2 h3 ih =>
    obtain ⟨rfl, h1⟩ := h1
    simp only [List.length_append] at hn hm
    obtain ⟨m, rfl⟩ : ∃ k, m = k + 1 := ⟨m - 1, by omega⟩
    exact .hit (p := []) (by simp) (ih (by omega) m (by omega))

theorem join_eq (ps : List Str) (sep : Str) : join ps sep = joinWith sep ps := by
  have key : ∀ (ps : List Str) (p : Str), ps.foldl (fun r q => r ++ sep ++ q) p = joinWith sep (p :: ps) := by
    intro ps
    induction ps with
    | nil => intro p; rfl
    | cons q ps ih =>
      intro p
      rw [List.foldl_cons, ih]
      cases ps with
      | nil => simp [joinWith]
      | cons r ps => simp [joinWith]
  cases ps with
  | nil => rfl
  | cons p ps => exact key ps p

/-- C38: `split` at a non-empty separator with a limit `n ≥ 1` cuts at the first `n` non-overlapping occurrences from
the left, and `join` with the same separator restores the string. -/
theorem C38_split_join (s sep : Str) (h0 : sep ≠ []) (n : Nat) (hn : 0 < n) (hs : s.length < SIZE_MOD) :
    ∃ ps, split s sep ⟨n, false⟩ = .ok ps ∧ ScanLeft sep n s ps ∧ join ps sep = s := by
  obtain ⟨ps, last, h1, h2⟩ := splitWhere_spec (findFirst_good h0) false n s hs trivial hn
  exact ⟨_, h2, splits_scanLeft h1, by rw [join_eq]; exact (splits_scanLeft h1).join⟩

/-- C38, the other direction: splitting a joined list gives the list back, if the pieces do not contain the separator
and cannot form one together with it (as e.g. for a separator of one byte that is not in the pieces). -/
theorem C38_join_split (b : UInt8) (ps : List Str) (hp : ps ≠ []) (hb : ∀ p ∈ ps, b ∉ p) (n : Nat) (hn : ps.length ≤ n + 1)
    (hn0 : 0 < n) (hs : (join ps [b]).length < SIZE_MOD) : split (join ps [b]) [b] ⟨n, false⟩ = .ok ps := by
  obtain ⟨qs, h1, h2, -⟩ := C38_split_join (join ps [b]) [b] (by simp) n hn0 hs
  rw [h1]
  congr 1
  refine h2.unique ?_
  rw [join_eq]
  clear h1 h2 hs hn0
  have noc : ∀ p : Str, b ∉ p → ∀ i, ¬ OccursAt p [b] i := by
    rintro p h i ⟨a, c, rfl, -⟩; simp at h
  induction ps generalizing n with
  | nil => exact absurd rfl hp
  | cons p ps ih =>
    by_cases hps : ps = []
    · subst hps; exact .none (noc p (hb p (by simp)))
    · have := List.length_pos_iff.mpr hps
      rw [List.length_cons] at hn
      obtain ⟨m, rfl⟩ : ∃ m, n = m + 1 := ⟨n - 1, by omega⟩
      rw [joinWith_cons _ _ hps]
      refine .hit ?_ (ih hps (fun q hq => hb q (by simp [hq])) m (by omega))
      rintro i ⟨a, c, e, rfl⟩
      rcases Nat.lt_or_ge a.length p.length with hlt | hge
      · exfalso
        have h1 : (p ++ [b] ++ joinWith [b] ps)[a.length]? = some b := by rw [e]; simp
        rw [List.append_assoc, List.getElem?_append_left hlt] at h1
        exact hb p (by simp) (List.mem_of_getElem? h1)
      · exact hge

/-! ### C39 -/

theorem Spec.ScanLeft.init_no {f n s ps} (h : ScanLeft f n s ps) (hf : f ≠ []) :
    (∀ p ∈ ps.dropLast, ∀ i, ¬ OccursAt p f i) ∧ ps.length ≤ n + 1 ∧
      (ps.length ≤ n → ∀ p ∈ ps, ∀ i, ¬ OccursAt p f i) := by
  have hp := List.length_pos_iff.mpr hf
  induction h with
  | limit => simp
  | none h => refine ⟨by simp, by simp, ?_⟩; intro _ p hp; simp at hp; subst hp; exact h
  | @hit n p t ps h1 h2 ih =>
    have hpiece : ∀ i, ¬ OccursAt p f i := by
      rintro i ⟨a, b, e, rfl⟩
      have := h1 a.length ⟨a, b ++ f ++ t, by rw [e]; simp, rfl⟩
      rw [e] at this; simp at this; omega
    refine ⟨?_, by simp; exact ih.2.1, ?_⟩
    · rw [List.dropLast_cons_of_ne_nil h2.ne_nil]
      intro q hq
      simp at hq
      rcases hq with rfl | hq
      · exact hpiece
      · exact ih.1 q hq
    · intro hl q hq
      simp at hl hq
      rcases hq with rfl | hq
      · exact hpiece
      · exact ih.2.2 hl q hq

/-- C39: at most `n + 1` pieces; no piece contains the separator, except possibly the last one if there are
`n + 1`. -/
theorem C39_split_pieces (s sep : Str) (h0 : sep ≠ []) (n : Nat) (hn : 0 < n) (hs : s.length < SIZE_MOD) :
    ∃ ps, split s sep ⟨n, false⟩ = .ok ps ∧ ps ≠ [] ∧ ps.length ≤ n + 1 ∧
      (∀ p ∈ ps.dropLast, ∀ i, ¬ OccursAt p sep i) ∧
      (ps.length ≤ n → ∀ p ∈ ps, ∀ i, ¬ OccursAt p sep i) := by
  obtain ⟨ps, h1, h2, -⟩ := C38_split_join s sep h0 n hn hs
  have := h2.init_no h0
  exact ⟨ps, h1, h2.ne_nil, this.2.1, this.1, this.2.2⟩

/-- C39: with `ignore_empty` at most `n + 1` pieces, none of them empty. -/
theorem C39_split_ignore_empty_limit (s sep : Str) (h0 : sep ≠ []) (n : Nat) (hn : 0 < n) (hs : s.length < SIZE_MOD) :
    ∃ ps, split s sep ⟨n, true⟩ = .ok ps ∧ ps.length ≤ n + 1 ∧ ∀ p ∈ ps, p ≠ [] := by
  obtain ⟨ps, last, h1, h2⟩ := splitWhere_spec (findFirst_good h0) true n s hs trivial hn
  refine ⟨_, h2, ?_, ?_⟩
  · have := h1.count
    rw [keep_append, keep_single, List.length_append]
    split <;> simp <;> omega
  · intro p hp; simp only [keep, if_true, List.mem_filter] at hp; simpa using hp.2

/-- C39: with `ignore_empty` and a limit that is not reached (such as the default) the result consists of the non-empty
pieces of the split without `ignore_empty`. -/
theorem C39_split_ignore_empty (s sep : Str) (h0 : sep ≠ []) (n m : Nat) (hn : s.length < n) (hm : s.length < m)
    (hs : s.length < SIZE_MOD) :
    ∃ ps, split s sep ⟨m, false⟩ = .ok ps ∧ split s sep ⟨n, true⟩ = .ok (ps.filter (· ≠ [])) := by
  obtain ⟨ps, last, h1, h2⟩ := splitWhere_spec (findFirst_good h0) true n s hs trivial (by omega)
  obtain ⟨qs, h3, h4, -⟩ := C38_split_join s sep h0 m (by omega) hs
  refine ⟨qs, h3, ?_⟩
  have := splits_scanLeft_all h0 h1 (by omega) m (by omega)
  rw [h4.unique this]
  exact h2

/-- C39: the constant `IGNORE_EMPTY` compared with the default argument -/
theorem C39_IGNORE_EMPTY (s sep : Str) (h0 : sep ≠ []) (hs : s.length < npos) :
    ∃ ps, split s sep = .ok ps ∧ split s sep IGNORE_EMPTY = .ok (ps.filter (· ≠ [])) :=
  C39_split_ignore_empty s sep h0 npos npos hs hs (by unfold npos at hs; unfold SIZE_MOD; omega)

example : split [0x61, 0x2C, 0x2C, 0x62, 0x2C] [0x2C] IGNORE_EMPTY = .ok [[0x61], [0x62]] := by decide +kernel

example : split [0x2C, 0x61, 0x2C, 0x2C, 0x62] [0x2C] ⟨npos, false⟩ = .ok [[], [0x61], [], [0x62]] ∧
    split [0x2C, 0x61, 0x2C, 0x2C, 0x62] [0x2C] ⟨npos, true⟩ = .ok [[0x61], [0x62]] ∧
    split [0x2C, 0x61, 0x2C, 0x2C, 0x62] [0x2C] ⟨2, false⟩ = .ok [[], [0x61], [0x2C, 0x62]] ∧
    split [0x2C, 0x61, 0x2C, 0x2C, 0x62] [0x2C] ⟨1, true⟩ = .ok [[0x61], [0x2C, 0x62]] := by decide +kernel

/-! ### split at characters -/

/-- `find_first_of` and the like as finders: the first code point that satisfies `q` separates. -/
theorem goodFinder_where (q : Char32 → Bool) :
    GoodFinder (fun p t _ => (∃ cs, Decodes p cs ∧ ∀ x ∈ cs, q x = false) ∧ ∃ c, q c = true ∧ IsSeq t c)
      (fun s => ∃ cs, Decodes s cs ∧ ∀ x ∈ cs, q x = false) Valid (fun s => do let r ← findFirstWhere s q; .ok r.1) := by
  intro s hs
  have h0 := C20_find_first_where [] s q
  rcases C20_cases s q with ⟨u, v, t, cs, c, e, h1, h2, h3, h4⟩ | ⟨cs, h1, h2⟩ | ⟨u, t, cs, e, h1, h2, h3, h4⟩
  · right
    have := h0.1 u v t cs c e h1 h2 h3 h4
    subst e
    have hc := valid_cut hs ⟨_, h3.decodes⟩ h3.ne_nil
    refine ⟨u, v, t, rfl, ⟨⟨cs, h1, h2⟩, c, h4, h3⟩, h3.ne_nil, ?_, hc.2⟩
    simp at this
    show (findFirstWhere (u ++ v ++ t) q >>= fun r => .ok r.1) = _
    rw [List.append_assoc, this]; rfl
  · left
    have := h0.2.1 cs h1 h2
    simp at this
    refine ⟨⟨cs, h1, h2⟩, npos, ?_⟩
    show (findFirstWhere s q >>= fun r => .ok r.1) = _
    rw [this]; rfl
  · exfalso
    obtain ⟨us, hu, rfl, rfl⟩ := h1.units
    subst e
    exact h3 ((valid_bad_tail hu h4).mp hs)

/-- C39: `split` of a valid string at a set of characters. Every cut is made at the sequence of a listed character, the
text before it contains none; unless the limit is reached the remainder contains none either. -/
theorem C39_split_chars (s : Str) (hv : Valid s) (chars : List Char32) (n : Nat) (hn : 0 < n) (ig : Bool)
    (hs : s.length < SIZE_MOD) :
    ∃ (ps : List (Str × Str)) (last : Str), splitChars s chars ⟨n, ig⟩ = .ok (keep ig (ps.map (·.1) ++ [last])) ∧
      unsplit ps last = s ∧
      (∀ p t, (p, t) ∈ ps → (∃ cs, Decodes p cs ∧ ∀ x ∈ cs, x ∉ chars) ∧ ∃ c ∈ chars, IsSeq t c) ∧
      (keep ig (ps.map (·.1))).length ≤ n ∧
      ((keep ig (ps.map (·.1))).length = n ∨ ∃ cs, Decodes last cs ∧ ∀ x ∈ cs, x ∉ chars) := by
  have hfalse : ∀ x, u32Contains chars x = false ↔ x ∉ chars := by
    intro x; rw [← u32Contains_iff, Bool.not_eq_true]
  have hg : GoodFinder (fun p t _ => (∃ cs, Decodes p cs ∧ ∀ x ∈ cs, x ∉ chars) ∧ ∃ c ∈ chars, IsSeq t c)
      (fun s => ∃ cs, Decodes s cs ∧ ∀ x ∈ cs, x ∉ chars) Valid (fun s => do let r ← findFirstOf s chars; .ok r.1) := by
    have := goodFinder_where (u32Contains chars)
    simp only [hfalse, u32Contains_iff] at this
    exact this
  obtain ⟨ps, last, h1, h2⟩ := splitWhere_spec hg ig n s hs hv hn
  refine ⟨ps, last, h2, h1.unsplit, ?_, h1.count, ?_⟩
  · intro p t h
    obtain ⟨rs, qs, e⟩ := List.append_of_mem h
    exact h1.cuts p t qs ⟨rs, e⟩
  · exact h1.limit_or

/-! ### C40 -/

/-- Newline-free text. -/
def NoNewline (p : Str) : Prop := ∃ cs, Decodes p cs ∧ ∀ x ∈ cs, ¬ IsNewlineChar x

theorem goodFinder_newline : GoodFinder (fun p t rest => NoNewline p ∧ IsNewline t ∧ (IsSeq t 0x0D → ∀ xs, ¬ Decodes rest (0x0A :: xs)))
      NoNewline (fun s => Valid s ∧ s.length < SIZE_MOD) (fun s => findFirstNewline [] s) := by
  rintro s ⟨hs, hl⟩
  have h0 := C22_find_first_newline_partial [] s (by simpa using hl)
  rcases (C22_cases s hs).1 with ⟨cs, h1, h2⟩ | ⟨u, nl, t, cs, ds, e, h1, h2, h3, h4, h5⟩
  · left
    have := h0.2 cs h1 h2
    exact ⟨⟨cs, h1, h2⟩, npos, by simpa using this⟩
  · right
    have := h0.1 u nl t cs ds e h1 h2 h3 h4 h5
    refine ⟨u, nl, t, e, ⟨⟨cs, h1, h2⟩, h3, ?_⟩, ?_, by simpa using this, ⟨_, h4⟩, ?_⟩
    · intro hcr xs hx
      exact h5 _ hcr rfl _ _ (h4.unique hx) rfl
    · rcases h3 with ⟨a, b, rfl, ha, -⟩ | ⟨c, -, hc⟩
      · have := ha.ne_nil; simp [this]
      · exact hc.ne_nil
    · rw [e] at hl; simp at hl; omega

/-- C40: `split_lines` of a valid string: every cut is made at a newline (CR LF counting as one), the pieces contain no
newline character, nothing else is removed. Partial: assumes that the scan of the non-terminated array `NEWLINES`
meets a zero right behind it (`mem = []`), see `C22_false`. -/
theorem C40_split_lines_partial (s : Str) (hv : Valid s) (n : Nat) (hn : 0 < n) (ig : Bool) (hs : s.length < SIZE_MOD) :
    ∃ (ps : List (Str × Str)) (last : Str), splitLines [] s ⟨n, ig⟩ = .ok (keep ig (ps.map (·.1) ++ [last])) ∧
      unsplit ps last = s ∧
      (∀ rs p nl qs, ps = rs ++ (p, nl) :: qs → NoNewline p ∧ IsNewline nl ∧
        (IsSeq nl 0x0D → ∀ xs, ¬ Decodes (unsplit qs last) (0x0A :: xs))) ∧
      (keep ig (ps.map (·.1))).length ≤ n ∧ ((keep ig (ps.map (·.1))).length = n ∨ NoNewline last) := by
  have hg := goodFinder_newline
  obtain ⟨ps, last, h1, h2⟩ := splitWhere_spec hg ig n s hs ⟨hv, hs⟩ hn
  exact ⟨ps, last, h2, h1.unsplit, fun rs p t qs e => h1.cuts p t qs ⟨rs, e⟩, h1.count, h1.limit_or⟩

example : splitLines [] [0x61, 0x0D, 0x0A, 0x62, 0x0D, 0x0D, 0x63] ⟨npos, false⟩ = .ok [[0x61], [0x62], [], [0x63]] := by
  decide +kernel

/-! ### C41 -/

/-- C41, what holds: a new iterator has consumed nothing. If the finder finds the token `t` behind `p`, `next` succeeds,
`part()` is `p`, `remainder()` is the rest, and from then on the iterator behaves like a new one on the rest. If the
finder finds nothing, `part()` is the whole string, nothing remains, and `next` fails from then on.
Missing: `token()` is `t` only if `p` or the rest is empty; in general it is `t` followed by up to `p.length` bytes
of the rest (last component, and `C41_false`). -/
theorem C41_token_iterator_partial (s : Str) (hs : s.length < SIZE_MOD) (finder : Str → Res Subrange) :
    ((TokenIterator.mk' s).part = .ok [] ∧ (TokenIterator.mk' s).tokenStr = .ok [] ∧
      (TokenIterator.mk' s).remainder = .ok s) ∧
    (∀ p t rest, s = p ++ t ++ rest → t ≠ [] → finder s = .ok ⟨p.length, t.length⟩ →
      ∃ it, (TokenIterator.mk' s).next finder = .ok (true, it) ∧ it.toBool = true ∧
        it.part = .ok p ∧ it.remainder = .ok rest ∧ it.next finder = (TokenIterator.mk' rest).next finder ∧
        it.tokenStr = .ok (t ++ rest.take p.length)) ∧
    (∀ o, finder s = .ok ⟨o, 0⟩ → ∃ it, (TokenIterator.mk' s).next finder = .ok (true, it) ∧ it.toBool = false ∧
        it.part = .ok s ∧ it.tokenStr = .ok [] ∧ it.remainder = .ok [] ∧ it.next finder = .ok (false, it)) := by
  have hst0 : Subrange.stop ⟨0, 0⟩ = 0 := by simp [Subrange.stop, sizeAdd]
  have hnp : ∀ r : Str, r.length < SIZE_MOD → r.length ≤ npos := by intro r h; unfold SIZE_MOD at h; unfold npos; omega
  refine ⟨⟨?_, ?_, ?_⟩, ?_, ?_⟩
  · simp [TokenIterator.part, TokenIterator.mk', Subrange.nonempty, Subrange.start]
  · simp [TokenIterator.tokenStr, TokenIterator.mk', Subrange.nonempty]
  · unfold TokenIterator.remainder TokenIterator.mk'
    rw [if_pos (.inr rfl)]
    simp only [hst0]
    unfold substr
    rw [if_neg (by omega), List.drop_zero, List.take_of_length_le (hnp s hs)]
  · rintro p t rest e ht hfd
    subst e
    have htl := List.length_pos_iff.mpr ht
    have hne : Subrange.nonempty ⟨p.length, t.length⟩ = true := by rw [nonempty_iff]; omega
    have hstop : Subrange.stop ⟨p.length, t.length⟩ = (p ++ t).length := by
      unfold Subrange.stop sizeAdd
      simp only [List.length_append] at hs ⊢
      exact Nat.mod_eq_of_lt (by omega)
    have hrest : substr (p ++ t ++ rest) (p ++ t).length = .ok rest := by
      unfold substr
      rw [if_neg (by simp), List.drop_left, List.take_of_length_le (hnp _ (by simp only [List.length_append] at hs; omega))]
    refine ⟨⟨p ++ t ++ rest, ⟨p.length, t.length⟩⟩, ?_, hne, ?_, ?_, ?_, ?_⟩
    · rw [next_ready (s := p ++ t ++ rest) (.inr ⟨rfl, rfl⟩), hfd]
      simp only [bind, Except.bind]
      rw [if_neg (by simp [hne])]
    · unfold TokenIterator.part
      rw [if_pos hne]
      unfold substr
      rw [if_neg (by simp)]
      simp [Subrange.start]
    · unfold TokenIterator.remainder
      rw [if_pos (.inl hne)]
      simp only [hstop]
      exact hrest
    · rw [next_ready (s := rest) (.inl ⟨hne, by simp only [hstop]; exact hrest⟩), next_ready (s := rest) (.inr ⟨rfl, rfl⟩)]
    · unfold TokenIterator.tokenStr
      rw [if_neg (by simp [hne])]
      simp only [hstop, Subrange.start]
      unfold substr
      rw [if_neg (by simp), List.append_assoc, List.drop_left]
      congr 1
      rw [List.take_append]
      simp only [List.length_append, Nat.add_sub_cancel]
      rw [List.take_of_length_le (by simp)]
  · intro o hfd
    refine ⟨⟨s, ⟨npos, 0⟩⟩, ?_, ?_, ?_, ?_, ?_, ?_⟩
    · rw [next_ready (s := s) (.inr ⟨rfl, rfl⟩), hfd]
      simp [bind, Except.bind, Subrange.nonempty]
    · simp [TokenIterator.toBool, Subrange.nonempty]
    · simp [TokenIterator.part, Subrange.nonempty, Subrange.start, npos]
    · simp [TokenIterator.tokenStr, Subrange.nonempty]
    · simp [TokenIterator.remainder, Subrange.nonempty, Subrange.start, npos]
    · simp [TokenIterator.next, Subrange.nonempty, Subrange.start, npos]

/-- C41 is false: on "a,b" with the token "," `token()` returns ",b". -/
theorem C41_false : ∃ it, (TokenIterator.mk' [0x61, 0x2C, 0x62]).next (fun s => findFirst s [0x2C]) = .ok (true, it) ∧
    it.part = .ok [0x61] ∧ it.tokenStr = .ok [0x2C, 0x62] ∧ it.remainder = .ok [0x62] :=
  ⟨⟨[0x61, 0x2C, 0x62], ⟨1, 1⟩⟩, by decide +kernel⟩

end Ystring
