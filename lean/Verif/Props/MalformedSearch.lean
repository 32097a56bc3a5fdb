import Verif.Props.Malformed
import Verif.Props.Trim
import Verif.Props.CaseInsensitiveReplace
/-
Property theorems C105: trimming, splitting and case-insensitive searching of strings that may be malformed.
-/
namespace Ystring
open Spec

/-! ### Trimming -/

/-- C105: `trim_start_where` looks only at the code points up to the first one that stays: malformed bytes behind it do not
matter, malformed bytes before it make it throw. The three cases exclude each other and one of them holds for every string. -/
theorem C105_trim_start (s : Str) (hl : s.length < SIZE_MOD) (p : Char32 → Bool) :
    (∃ a v t c, s = a ++ (v ++ t) ∧ AllChars p a ∧ IsSeq v c ∧ p c = false ∧ trimStartWhere s p = .ok (v ++ t)) ∨
    (AllChars p s ∧ trimStartWhere s p = .ok []) ∨
    (∃ a t, s = a ++ t ∧ AllChars p a ∧ t ≠ [] ∧ ¬ HasSeqPrefix t ∧ trimStartWhere s p = .error .ystring) := by
  have h0 := C20_find_first_where [] s (fun c => !p c)
  simp only [List.nil_append, List.length_nil, Nat.zero_add] at h0
  rcases C20_cases s (fun c => !p c) with ⟨u, v, t, cs, c, e, h1, h2, h3, h4⟩ | ⟨cs, h1, h2⟩ | ⟨u, t, cs, e, h1, h2, h3, h4⟩
  · have hf := h0.1 u v t cs c e h1 h2 h3 h4
    refine .inl ⟨u, v, t, c, by simp [e], ⟨cs, h1, fun x hx => by simpa using h2 x hx⟩, h3, by simpa using h4, ?_⟩
    unfold trimStartWhere
    have hne : Subrange.nonempty ⟨u.length, v.length⟩ = true := by
      simp [Subrange.nonempty, h3.ne_nil]
    rw [hf]
    simp only [bind, Except.bind]
    rw [if_neg (by simp [hne])]
    unfold substr Subrange.start
    simp only
    rw [e] at hl ⊢
    rw [if_neg (by simp), List.append_assoc, List.drop_left, List.take_of_length_le (npos_ok (by simp at hl ⊢; omega))]
  · refine .inr (.inl ⟨⟨cs, h1, fun x hx => by simpa using h2 x hx⟩, ?_⟩)
    unfold trimStartWhere
    rw [h0.2.1 cs h1 h2]
    simp [bind, Except.bind, Subrange.nonempty]
  · refine .inr (.inr ⟨u, t, e, ⟨cs, h1, fun x hx => by simpa using h2 x hx⟩, h3, h4, ?_⟩)
    unfold trimStartWhere
    rw [h0.2.2 u t cs e h1 h2 h3 h4]
    rfl

/-- C105: `trim_end_where`, in the same way from the right. -/
theorem C105_trim_end (s : Str) (hl : s.length < SIZE_MOD) (p : Char32 → Bool) :
    (∃ a v t c, s = t ++ v ++ a ∧ AllChars p a ∧ IsSeq v c ∧ p c = false ∧ trimEndWhere s p = .ok (t ++ v)) ∨
    (AllChars p s ∧ trimEndWhere s p = .ok []) ∨
    (∃ a t, s = t ++ a ∧ AllChars p a ∧ t ≠ [] ∧ ¬ HasSeqSuffix t ∧ (¬ LongContRun t → trimEndWhere s p = .error .ystring) ∧
      (LongContRun t → trimEndWhere s p = .error .ub)) := by
  have h0 := C21_find_last_where s [] (fun c => !p c) npos (by have := npos_ok hl; simp; omega)
  simp only [List.append_nil] at h0
  rcases C21_cases s (fun c => !p c) with ⟨t, v, w, cs, c, e, h1, h2, h3, h4⟩ | ⟨cs, h1, h2⟩ | ⟨t, w, cs, e, h1, h2, h3, h4⟩
  · have hf := h0.1 t v w cs c e h1 h2 h3 h4
    refine .inl ⟨w, v, t, c, by simp [e], ⟨cs, h1, fun x hx => by simpa using h2 x hx⟩, h3, by simpa using h4, ?_⟩
    unfold trimEndWhere
    have hne : Subrange.nonempty ⟨t.length, v.length⟩ = true := by
      simp [Subrange.nonempty, h3.ne_nil]
    rw [hf]
    simp only [bind, Except.bind]
    rw [if_neg (by simp [hne])]
    have hstop : Subrange.stop ⟨t.length, v.length⟩ = (t ++ v).length := by
      unfold Subrange.stop sizeAdd
      rw [e] at hl
      simp only [List.length_append] at hl ⊢
      exact Nat.mod_eq_of_lt (by omega)
    rw [hstop]
    unfold substr
    rw [if_neg (by omega), List.drop_zero, e, List.take_left]
  · refine .inr (.inl ⟨⟨cs, h1, fun x hx => by simpa using h2 x hx⟩, ?_⟩)
    unfold trimEndWhere
    rw [h0.2.1 cs h1 h2]
    simp [bind, Except.bind, Subrange.nonempty]
  · have hb := h0.2.2 t w cs e h1 h2 h3 h4
    refine .inr (.inr ⟨w, t, e, ⟨cs, h1, fun x hx => by simpa using h2 x hx⟩, h3, h4, fun h => ?_, fun h => ?_⟩)
    · unfold trimEndWhere
      rw [hb.1 h]; rfl
    · unfold trimEndWhere
      rw [hb.2 h]; rfl

-- "  a\xFF " and " \xFFa"
example : trimStartWhere [0x20, 0x20, 0x61, 0xFF, 0x20] isWhitespace = .ok [0x61, 0xFF, 0x20] ∧
    trimStartWhere [0x20, 0xFF, 0x61] isWhitespace = .error .ystring ∧
    trimEndWhere [0x20, 0xFF, 0x61, 0x20] isWhitespace = .ok [0x20, 0xFF, 0x61] ∧
    trimEndWhere [0x61, 0xFF, 0x20] isWhitespace = .error .ystring := by decide +kernel

/-- C105: `trim_where` (and with it `trim`): first from the left, as far as the first code point that stays, then from the right
as far as the last one. Malformed bytes between these two do not matter. One of the four cases holds for every string. -/
theorem C105_trim (s : Str) (hl : s.length < SIZE_MOD) (p : Char32 → Bool) :
    (∃ a m b v w c d, s = a ++ m ++ b ∧ AllChars p a ∧ AllChars p b ∧ v <+: m ∧ IsSeq v c ∧ p c = false ∧
      w <:+ m ∧ IsSeq w d ∧ p d = false ∧ trimWhere s p = .ok m) ∨
    (AllChars p s ∧ trimWhere s p = .ok []) ∨
    (∃ a t, s = a ++ t ∧ AllChars p a ∧ t ≠ [] ∧ ¬ HasSeqPrefix t ∧ trimWhere s p = .error .ystring) ∨
    (∃ a m t b v c, s = a ++ m ∧ AllChars p a ∧ v <+: m ∧ IsSeq v c ∧ p c = false ∧
      m = t ++ b ∧ AllChars p b ∧ t ≠ [] ∧ ¬ HasSeqSuffix t ∧
      (¬ LongContRun t → trimWhere s p = .error .ystring) ∧ (LongContRun t → trimWhere s p = .error .ub)) := by
  unfold trimWhere
  rcases C105_trim_start s hl p with ⟨a, v, t, c, e, h1, h2, h3, h4⟩ | ⟨h1, h2⟩ | ⟨a, t, e, h1, h2, h3, h4⟩
  · rw [h4]
    have hl' : (v ++ t).length < SIZE_MOD := by rw [e, List.length_append] at hl; omega
    show (_ ∨ _ ∨ _ ∨ _)
    simp only [bind, Except.bind]
    rcases C105_trim_end (v ++ t) hl' p with ⟨b, w, u, d, e', g1, g2, g3, g4⟩ | ⟨g1, g2⟩ | ⟨b, u, e', g1, g2, g3, g4, g5⟩
    · refine .inl ⟨a, u ++ w, b, v, w, c, d, by rw [e, e']; simp, h1, g1, ?_, h2, h3, ⟨u, rfl⟩, g2, g3, g4⟩
      -- the first code point that stays is not among those removed from the end
      have hv : v <+: u ++ w ++ b := ⟨t, e'⟩
      rcases List.prefix_or_prefix_of_prefix hv ⟨b, rfl⟩ with h | ⟨r, h⟩
      · exact h
      · cases u with
        | nil =>
          have hw : w ++ b = v ++ t := by rw [e']; simp
          exact ⟨[], by simp [(g2.append_inj h2 hw).1]⟩
        | cons x u =>
          exfalso
          obtain ⟨y, w', rfl, hy⟩ := g2.head_lead
          exact hy (h2.tail_cont y (by rw [← h]; simp))
    · exfalso
      obtain ⟨cs, hd, hp⟩ := g1
      generalize hx : v ++ t = x at hd
      cases hd with
      | nil => exact h2.ne_nil (List.append_eq_nil_iff.mp hx).1
      | cons hu _ =>
        have := (h2.append_inj hu hx).2.1
        subst this
        rw [hp _ (by simp)] at h3
        cases h3
    · refine .inr (.inr (.inr ⟨a, v ++ t, u, b, v, c, e, h1, ⟨t, rfl⟩, h2, h3, e', g1, g2, g3, g4, g5⟩))
  · rw [h2]
    refine .inr (.inl ⟨h1, ?_⟩)
    simp only [bind, Except.bind]
    unfold trimEndWhere findLastWhere
    simp [findLastWhereLoop, safeDecodePrev, bind, Except.bind, Subrange.nonempty]
  · rw [h4]
    exact .inr (.inr (.inl ⟨a, t, e, h1, h2, h3, rfl⟩))

-- " a\xFFb ": the malformed byte is kept; "a\xFF ": it is met from the right
example : trimWhere [0x20, 0x61, 0xFF, 0x62, 0x20] isWhitespace = .ok [0x61, 0xFF, 0x62] ∧
    trimWhere [0x20, 0x61, 0xFF, 0x20] isWhitespace = .error .ystring ∧
    trimWhere [0x20, 0xFF, 0x61] isWhitespace = .error .ystring := by decide +kernel

/-! ### Splitting -/

/-- a finder that finds the first separator, or that there is none, or throws -/
def FairFinder (first : Str → Str → Str → Prop) (no bad : Str → Prop) (P : Str → Prop) (finder : Str → Res Subrange) : Prop :=
  ∀ s, P s → (no s ∧ ∃ o, finder s = .ok ⟨o, 0⟩) ∨
    (∃ p t rest, s = p ++ t ++ rest ∧ first p t rest ∧ t ≠ [] ∧ finder s = .ok ⟨p.length, t.length⟩ ∧ P rest) ∨
    (bad s ∧ ∃ e, finder s = .error e)

theorem splitLoop_any {first no bad P finder} (hg : FairFinder first no bad P finder) (ig : Bool) (max : Nat) :
    ∀ (fuel k : Nat) (it : TokenIterator) (s : Str) (result : List Str), s.length + 1 < fuel → s.length < SIZE_MOD →
    Ready it s → P s → result.length + k = max → (k = 0 → it.token.nonempty = true) →
    ∃ ps last, Splits first (fun s => no s ∨ bad s) ig k s ps last ∧
      (((splitLoop finder ⟨max, ig⟩ fuel it result >>= fun x => splitFinish ⟨max, ig⟩ x.1 x.2) =
        .ok (result ++ keep ig (ps.map (·.1) ++ [last])) ∧ ((keep ig (ps.map (·.1))).length = k ∨ no last)) ∨
      (∃ e, (splitLoop finder ⟨max, ig⟩ fuel it result >>= fun x => splitFinish ⟨max, ig⟩ x.1 x.2) = .error e ∧
        (keep ig (ps.map (·.1))).length < k ∧ bad last ∧ finder last = .error e)) := by
  intro fuel
  induction fuel with
  | zero => intro k it s result h; omega
  | succ fuel ih =>
    intro k it s result hf hs hr hP hk h0
    rw [splitLoop]
    simp only
    cases k with
    | zero =>
      rw [if_neg (by omega)]
      refine ⟨[], s, .limit, .inl ⟨?_, .inl (by simp [keep])⟩⟩
      have hne := h0 rfl
      have hsub : substr it.str it.token.stop = .ok s := by
        rcases hr with ⟨_, h⟩ | ⟨h, _⟩
        · exact h
        · rw [h] at hne; simp [Subrange.nonempty] at hne
      simp only [bind, Except.bind, splitFinish, TokenIterator.toBool, TokenIterator.remainder]
      rw [if_pos hne, if_pos (.inl hne), hsub]
      simp only [List.map_nil, List.nil_append, keep_single]
      split <;> simp
    | succ k =>
      rw [if_pos (by omega), next_ready hr]
      rcases hg s hP with ⟨hno, o, hfd⟩ | ⟨p, t, rest, rfl, hfirst, ht, hfd, hP'⟩ | ⟨hbad, e, hfd⟩
      · refine ⟨[], s, .none (.inl hno), .inl ⟨?_, .inr hno⟩⟩
        rw [hfd]
        have hpart : TokenIterator.part ⟨s, ⟨npos, 0⟩⟩ = .ok s := by
          unfold TokenIterator.part
          rw [if_neg (by simp [Subrange.nonempty]), if_pos (by simp [Subrange.start, npos])]
        have hfin : ∀ r, splitFinish ⟨max, ig⟩ ⟨s, ⟨npos, 0⟩⟩ r = .ok r := by
          intro r; simp [splitFinish, TokenIterator.toBool, Subrange.nonempty]
        have hend : ∀ r, (splitLoop finder ⟨max, ig⟩ fuel ⟨s, ⟨npos, 0⟩⟩ r >>= fun x => splitFinish ⟨max, ig⟩ x.1 x.2) = .ok r := by
          intro r
          obtain ⟨f, rfl⟩ : ∃ f, fuel = f + 1 := ⟨fuel - 1, by omega⟩
          rw [splitLoop]
          simp only
          have : TokenIterator.next finder ⟨s, ⟨npos, 0⟩⟩ = .ok (false, ⟨s, ⟨npos, 0⟩⟩) := by
            unfold TokenIterator.next
            simp [Subrange.nonempty, Subrange.start, npos]
          split
          · rw [this]; simp [bind, Except.bind, hfin]
          · simp [bind, Except.bind, hfin]
        simp only [bind, Except.bind] at hend ⊢
        rw [if_pos (by simp [Subrange.nonempty])]
        simp only [if_true]
        rw [hpart]
        simp only [List.map_nil, List.nil_append, keep_single]
        by_cases hkeep : (!ig || !s.isEmpty) = true
        · rw [if_pos hkeep, if_pos hkeep, hend]
        · rw [if_neg hkeep, if_neg hkeep, hend, List.append_nil]
      · have htl := List.length_pos_iff.mpr ht
        have hne : Subrange.nonempty ⟨p.length, t.length⟩ = true := by rw [nonempty_iff]; omega
        have hpart : TokenIterator.part ⟨p ++ t ++ rest, ⟨p.length, t.length⟩⟩ = .ok p := by
          unfold TokenIterator.part
          rw [if_pos hne]
          unfold substr
          rw [if_neg (by simp)]
          simp [Subrange.start]
        have hready : Ready ⟨p ++ t ++ rest, ⟨p.length, t.length⟩⟩ rest := by
          left
          refine ⟨hne, ?_⟩
          have : Subrange.stop ⟨p.length, t.length⟩ = (p ++ t).length := by
            unfold Subrange.stop sizeAdd
            simp only [List.length_append] at hs ⊢
            exact Nat.mod_eq_of_lt (by omega)
          simp only [this]
          unfold substr
          rw [if_neg (by simp), List.drop_left, List.take_of_length_le (by unfold npos; unfold SIZE_MOD at hs; simp at hs; omega)]
        simp only [List.length_append] at hf hs
        rw [hfd]
        simp only [bind, Except.bind]
        rw [if_neg (by simp [hne])]
        simp only [if_true]
        rw [hpart]
        simp only
        by_cases hkeep : (!ig || !p.isEmpty) = true
        · obtain ⟨ps, last, i1, i2⟩ := ih k _ rest (result ++ [p]) (by omega) (by omega) hready hP' (by simp; omega)
            (fun _ => hne)
          simp only [bind, Except.bind] at i2
          refine ⟨(p, t) :: ps, last, .hit hfirst ?_ i1, ?_⟩
          · intro h; subst h; rintro rfl; simp at hkeep
          · rw [if_pos hkeep, List.map_cons, List.cons_append, keep_cons, keep_cons ig p (ps.map _), keep_single, if_pos hkeep]
            simp only [List.length_append, List.length_singleton]
            rcases i2 with ⟨i2, i3⟩ | ⟨e, i2, i3⟩
            · rw [i2]
              exact .inl ⟨by simp, i3.imp (by omega) id⟩
            · rw [i2]
              exact .inr ⟨e, rfl, by omega, i3.2⟩
        · obtain ⟨ps, last, i1, i2⟩ := ih (k + 1) _ rest result (by omega) (by omega) hready hP' hk (fun _ => hne)
          have hp : ig = true ∧ p = [] := by cases ig <;> cases p <;> simp_all
          simp only [bind, Except.bind] at i2
          refine ⟨(p, t) :: ps, last, ?_, ?_⟩
          · rw [hp.2, List.nil_append]
            exact .skip (hp.2 ▸ hfirst) hp.1 i1
          · rw [if_neg hkeep, List.map_cons, List.cons_append, keep_cons, keep_cons ig p (ps.map _), keep_single, if_neg hkeep]
            simpa using i2
      · refine ⟨[], s, .none (.inr hbad), .inr ⟨e, ?_, by simp [keep], hbad, hfd⟩⟩
        rw [hfd]; rfl

theorem splitWhere_any {first no bad P finder} (hg : FairFinder first no bad P finder) (ig : Bool) (n : Nat) (s : Str)
    (hs : s.length < SIZE_MOD) (hP : P s) (hn : 0 < n) :
    ∃ ps last, Splits first (fun s => no s ∨ bad s) ig n s ps last ∧
      ((splitWhere s finder ⟨n, ig⟩ = .ok (keep ig (ps.map (·.1) ++ [last])) ∧ ((keep ig (ps.map (·.1))).length = n ∨ no last)) ∨
      (∃ e, splitWhere s finder ⟨n, ig⟩ = .error e ∧ (keep ig (ps.map (·.1))).length < n ∧ bad last ∧ finder last = .error e)) := by
  obtain ⟨ps, last, h1, h2⟩ := splitLoop_any hg ig n (s.length + 2) n (TokenIterator.mk' s) s [] (by omega) hs
    (.inr ⟨rfl, rfl⟩) hP (by simp) (by omega)
  exact ⟨ps, last, h1, h2⟩

/-- C105: `split_where` with a finder that may throw: the string is cut at the separators found until the limit is reached, nothing is
found, or the finder throws; in the last case, and only then, `split_where` throws, and what the finder threw. -/
theorem C105_split_where (s : Str) (finder : Str → Res Subrange)
    (hf : ∀ s r, finder s = .ok r → r.length = 0 ∨ r.offset + r.length ≤ s.length)
    (n : Nat) (hn : 0 < n) (ig : Bool) (hs : s.length < SIZE_MOD) :
    ∃ (ps : List (Str × Str)) (last : Str), unsplit ps last = s ∧
      (∀ rs p t qs, ps = rs ++ (p, t) :: qs → t ≠ [] ∧ finder (unsplit ((p, t) :: qs) last) = .ok ⟨p.length, t.length⟩) ∧
      (((keep ig (ps.map (·.1))).length = n ∧ splitWhere s finder ⟨n, ig⟩ = .ok (keep ig (ps.map (·.1) ++ [last]))) ∨
      ((keep ig (ps.map (·.1))).length ≤ n ∧ (∃ o, finder last = .ok ⟨o, 0⟩) ∧
        splitWhere s finder ⟨n, ig⟩ = .ok (keep ig (ps.map (·.1) ++ [last]))) ∨
      ((keep ig (ps.map (·.1))).length < n ∧ ∃ e, finder last = .error e ∧ splitWhere s finder ⟨n, ig⟩ = .error e)) := by
  have hg : FairFinder (fun p t rest => t ≠ [] ∧ finder (p ++ t ++ rest) = .ok ⟨p.length, t.length⟩)
      (fun s => ∃ o, finder s = .ok ⟨o, 0⟩) (fun s => ∃ e, finder s = .error e) (fun _ => True) finder := by
    intro s _
    cases h1 : finder s with
    | error e => exact .inr (.inr ⟨⟨e, h1⟩, e, rfl⟩)
    | ok r =>
      obtain ⟨o, l⟩ := r
      have h2 := hf s _ h1
      by_cases hl : l = 0
      · subst hl; exact .inl ⟨⟨o, h1⟩, o, rfl⟩
      · right; left
        simp only [hl, false_or] at h2
        have e1 : (s.take o).length = o := by simp; omega
        have e2 : ((s.drop o).take l).length = l := by simp; omega
        have e : s = s.take o ++ (s.drop o).take l ++ (s.drop o).drop l := by
          rw [List.append_assoc, List.take_append_drop, List.take_append_drop]
        have ht : (s.drop o).take l ≠ [] := by intro h; rw [h] at e2; simp at e2; omega
        refine ⟨s.take o, (s.drop o).take l, (s.drop o).drop l, e, ⟨ht, ?_⟩, ht, ?_, trivial⟩
        · rw [← e, e1, e2, h1]
        · rw [e1, e2]
  obtain ⟨ps, last, h1, h2⟩ := splitWhere_any hg ig n s hs trivial hn
  refine ⟨ps, last, h1.unsplit, fun rs p t qs e => h1.cuts p t qs ⟨rs, e⟩, ?_⟩
  rcases h2 with ⟨h2, h3 | h3⟩ | ⟨e, h2, h3, -, h4⟩
  · exact .inl ⟨h3, h2⟩
  · exact .inr (.inl ⟨h1.count, h3, h2⟩)
  · exact .inr (.inr ⟨h3, e, h4, h2⟩)

theorem fairFinder_where (q : Char32 → Bool) :
    FairFinder (fun p t _ => (∃ cs, Decodes p cs ∧ ∀ x ∈ cs, q x = false) ∧ ∃ c, q c = true ∧ IsSeq t c)
      (fun s => ∃ cs, Decodes s cs ∧ ∀ x ∈ cs, q x = false)
      (fun s => ∃ u m cs, s = u ++ m ∧ Decodes u cs ∧ (∀ x ∈ cs, q x = false) ∧ m ≠ [] ∧ ¬ HasSeqPrefix m)
      (fun _ => True) (fun s => do let r ← findFirstWhere s q; .ok r.1) := by
  intro s _
  have h0 := C20_find_first_where [] s q
  simp only [List.nil_append, List.length_nil, Nat.zero_add] at h0
  rcases C20_cases s q with ⟨u, v, t, cs, c, e, h1, h2, h3, h4⟩ | ⟨cs, h1, h2⟩ | ⟨u, t, cs, e, h1, h2, h3, h4⟩
  · refine .inr (.inl ⟨u, v, t, e, ⟨⟨cs, h1, h2⟩, c, h4, h3⟩, h3.ne_nil, ?_, trivial⟩)
    show (findFirstWhere s q >>= fun r => .ok r.1) = _
    rw [h0.1 u v t cs c e h1 h2 h3 h4]; rfl
  · refine .inl ⟨⟨cs, h1, h2⟩, npos, ?_⟩
    show (findFirstWhere s q >>= fun r => .ok r.1) = _
    rw [h0.2.1 cs h1 h2]; rfl
  · refine .inr (.inr ⟨⟨u, t, cs, e, h1, h2, h3, h4⟩, .ystring, ?_⟩)
    show (findFirstWhere s q >>= fun r => .ok r.1) = _
    rw [h0.2.2 u t cs e h1 h2 h3 h4]; rfl

theorem findFirstWhere_error (s : Str) (q : Char32 → Bool) (e : Err) (h : (findFirstWhere s q >>= fun r => (Except.ok r.1 : Res Subrange)) = .error e) :
    e = .ystring := by
  have h0 := C20_find_first_where [] s q
  simp only [List.nil_append, List.length_nil, Nat.zero_add] at h0
  rcases C20_cases s q with ⟨u, v, t, cs, c, e, h1, h2, h3, h4⟩ | ⟨cs, h1, h2⟩ | ⟨u, t, cs, e, h1, h2, h3, h4⟩
  · rw [h0.1 u v t cs c e h1 h2 h3 h4] at h; cases h
  · rw [h0.2.1 cs h1 h2] at h; cases h
  · rw [h0.2.2 u t cs e h1 h2 h3 h4] at h; injection h with h; exact h.symm

theorem split_where_chars (s : Str) (q : Char32 → Bool) (n : Nat) (hn : 0 < n) (ig : Bool) (hs : s.length < SIZE_MOD) :
    ∃ (ps : List (Str × Str)) (last : Str), unsplit ps last = s ∧
      (∀ p t, (p, t) ∈ ps → (∃ cs, Decodes p cs ∧ ∀ x ∈ cs, q x = false) ∧ ∃ c, q c = true ∧ IsSeq t c) ∧
      (((keep ig (ps.map (·.1))).length = n ∧
        splitWhere s (fun s => do let r ← findFirstWhere s q; .ok r.1) ⟨n, ig⟩ = .ok (keep ig (ps.map (·.1) ++ [last]))) ∨
      ((keep ig (ps.map (·.1))).length ≤ n ∧ (∃ cs, Decodes last cs ∧ ∀ x ∈ cs, q x = false) ∧
        splitWhere s (fun s => do let r ← findFirstWhere s q; .ok r.1) ⟨n, ig⟩ = .ok (keep ig (ps.map (·.1) ++ [last]))) ∨
      ((keep ig (ps.map (·.1))).length < n ∧
        (∃ u m cs, last = u ++ m ∧ Decodes u cs ∧ (∀ x ∈ cs, q x = false) ∧ m ≠ [] ∧ ¬ HasSeqPrefix m) ∧
        splitWhere s (fun s => do let r ← findFirstWhere s q; .ok r.1) ⟨n, ig⟩ = .error .ystring)) := by
  have hg := fairFinder_where q
  obtain ⟨ps, last, h1, h2⟩ := splitWhere_any hg ig n s hs trivial hn
  refine ⟨ps, last, h1.unsplit, ?_, ?_⟩
  · intro p t h
    obtain ⟨rs, qs, e⟩ := List.append_of_mem h
    exact h1.cuts p t qs ⟨rs, e⟩
  · rcases h2 with ⟨h2, h3 | h3⟩ | ⟨e, h2, h3, h4, h5⟩
    · exact .inl ⟨h3, h2⟩
    · exact .inr (.inl ⟨h1.count, h3, h2⟩)
    · obtain rfl := findFirstWhere_error last _ e h5
      exact .inr (.inr ⟨h3, h4, h2⟩)

/-- C105: `split` at characters, of any string: it is cut at the first separator, then the rest at its first separator and so on;
`split` throws iff this reaches malformed bytes before the limit is used up. -/
theorem C105_split_chars (s : Str) (chars : List Char32) (n : Nat) (hn : 0 < n) (ig : Bool) (hs : s.length < SIZE_MOD) :
    ∃ (ps : List (Str × Str)) (last : Str), unsplit ps last = s ∧
      (∀ p t, (p, t) ∈ ps → (∃ cs, Decodes p cs ∧ ∀ x ∈ cs, x ∉ chars) ∧ ∃ c ∈ chars, IsSeq t c) ∧
      (((keep ig (ps.map (·.1))).length = n ∧ splitChars s chars ⟨n, ig⟩ = .ok (keep ig (ps.map (·.1) ++ [last]))) ∨
      ((keep ig (ps.map (·.1))).length ≤ n ∧ (∃ cs, Decodes last cs ∧ ∀ x ∈ cs, x ∉ chars) ∧
        splitChars s chars ⟨n, ig⟩ = .ok (keep ig (ps.map (·.1) ++ [last]))) ∨
      ((keep ig (ps.map (·.1))).length < n ∧
        (∃ u m cs, last = u ++ m ∧ Decodes u cs ∧ (∀ x ∈ cs, x ∉ chars) ∧ m ≠ [] ∧ ¬ HasSeqPrefix m) ∧
        splitChars s chars ⟨n, ig⟩ = .error .ystring)) := by
  have hfalse : ∀ x, u32Contains chars x = false ↔ x ∉ chars := by
    intro x; rw [← u32Contains_iff, Bool.not_eq_true]
  have h := split_where_chars s (u32Contains chars) n hn ig hs
  simp only [hfalse, u32Contains_iff] at h
  exact h

-- "a,b\xFF,c" split at most once, and at most twice
example : splitChars [0x61, 0x2C, 0x62, 0xFF, 0x2C, 0x63] [0x2C] ⟨1, false⟩ = .ok [[0x61], [0x62, 0xFF, 0x2C, 0x63]] ∧
    splitChars [0x61, 0x2C, 0x62, 0xFF, 0x2C, 0x63] [0x2C] ⟨2, false⟩ = .error .ystring := by decide +kernel

/-! ### Case-insensitive searching -/

namespace CI

/-- comparing what follows a position (`us`, then the bytes `m`) with the substring (`vs`, then the bytes `n`) meets malformed bytes -/
def StuckU (m n : Str) (vs us : List Unit8) : Prop :=
  m ≠ [] ∧ fu us <+: fu vs ∨ n ≠ [] ∧ fu vs <+: fu us ∧ vs.length < us.length

theorem findFirstLoop_any {m n : Str} (hm : ¬ HasSeqPrefix m) (hn : ¬ HasSeqPrefix n) (v : Unit8) (vs : List Unit8)
    (hv : Units (v :: vs)) (us : List Unit8) :
    ∀ (pre : Str) (fuel : Nat), Units us → us.length < fuel →
    ((∀ k, k ≤ us.length → ¬ StuckU m n (v :: vs) (us.drop k) ∧ ¬ (n = [] ∧ fu (v :: vs) <+: fu (us.drop k))) ∧
      findFirstLoop (pre ++ (bytesOf us ++ m)) v.2 (bytesOf vs ++ n) fuel (bytesOf us ++ m) (bytesOf us ++ m) = .ok ⟨npos, 0⟩) ∨
    (∃ ws rs, us = ws ++ rs ∧
      (∀ k, k < ws.length → ¬ StuckU m n (v :: vs) (us.drop k) ∧ ¬ (n = [] ∧ fu (v :: vs) <+: fu (us.drop k))) ∧
      ((StuckU m n (v :: vs) rs ∧
        findFirstLoop (pre ++ (bytesOf us ++ m)) v.2 (bytesOf vs ++ n) fuel (bytesOf us ++ m) (bytesOf us ++ m) = .error .ystring) ∨
      (¬ StuckU m n (v :: vs) rs ∧ n = [] ∧ ∃ q ts, rs = q ++ ts ∧ fu q = fu (v :: vs) ∧
        findFirstLoop (pre ++ (bytesOf us ++ m)) v.2 (bytesOf vs ++ n) fuel (bytesOf us ++ m) (bytesOf us ++ m) =
          .ok ⟨pre.length + (bytesOf ws).length, (bytesOf q).length⟩))) := by
  simp only [Units_cons] at hv
  induction us with
  | nil =>
    intro pre fuel _ hf
    obtain ⟨fuel, rfl⟩ : ∃ f, fuel = f + 1 := ⟨fuel - 1, by simp at hf; omega⟩
    by_cases h0 : m = []
    · subst h0
      left
      refine ⟨by simp [StuckU], ?_⟩
      rw [findFirstLoop]
      simp [bind, Except.bind, Subrange.default]
    · right
      refine ⟨[], [], rfl, by simp, .inl ⟨.inl ⟨h0, by simp⟩, ?_⟩⟩
      rw [findFirstLoop]
      simp [safeDecodeNext_bad h0 hm, bind, Except.bind]
  | cons x us ih =>
    intro pre fuel hu hf
    obtain ⟨fuel, rfl⟩ : ∃ f, fuel = f + 1 := ⟨fuel - 1, by simp at hf; omega⟩
    simp only [Units_cons] at hu
    simp only [List.length_cons] at hf
    obtain ⟨n1, n2⟩ := nextMismatch_any hm hn (us := us) (vs := vs) (fuel := (pre ++ (x.1 ++ (bytesOf us ++ m))).length + 1) hu.2 hv.2
      (by have := units_length hu.2; simp; omega)
    have hst : StuckU m n (v :: vs) (x :: us) ↔ caseInsensitiveEqual x.2 v.2 = true ∧ StuckU m n vs us := by
      unfold StuckU
      simp only [fu_cons, List.cons_prefix_cons, List.length_cons, Nat.add_lt_add_iff_right, ciEqual_iff]
      constructor
      · rintro (⟨h, e, h'⟩ | ⟨h, ⟨e, h'⟩, h2⟩)
        · exact ⟨e, .inl ⟨h, h'⟩⟩
        · exact ⟨e.symm, .inr ⟨h, h', h2⟩⟩
      · rintro ⟨e, ⟨h, h'⟩ | ⟨h, h', h2⟩⟩
        · exact .inl ⟨h, e, h'⟩
        · exact .inr ⟨h, ⟨e.symm, h'⟩, h2⟩
    by_cases hstuck : StuckU m n (v :: vs) (x :: us)
    · right
      refine ⟨[], x :: us, rfl, by simp, .inl ⟨hstuck, ?_⟩⟩
      obtain ⟨he, h1⟩ := hst.mp hstuck
      rw [findFirstLoop]
      simp only [bytesOf_cons, safeDecodeNext_seq hu.1, List.append_assoc]
      simp only [bind, Except.bind]
      rw [if_pos he, n1 h1]
    by_cases hp : n = [] ∧ fu (v :: vs) <+: fu (x :: us)
    · right
      obtain ⟨hnn, hp⟩ := hp
      have hp' := hp
      simp only [fu_cons, List.cons_prefix_cons] at hp'
      have hlen := hp'.2.length_le
      simp only [fu_length] at hlen
      have he : caseInsensitiveEqual x.2 v.2 = true := (ciEqual_iff _ _).mpr hp'.1.symm
      have h1 : ¬ StuckU m n vs us := fun h => hstuck (hst.mpr ⟨he, h⟩)
      refine ⟨[], x :: us, rfl, by simp, .inr ⟨hstuck, hnn, x :: us.take vs.length, us.drop vs.length, by simp, ?_, ?_⟩⟩
      · rw [fu_cons, fu_cons, hp'.1, fu_take, ← fu_length vs, List.prefix_iff_eq_take.mp hp'.2]
        simp [Nat.min_eq_left hlen]
      · rw [findFirstLoop]
        simp only [bytesOf_cons, safeDecodeNext_seq hu.1, List.append_assoc]
        simp only [bind, Except.bind]
        obtain ⟨a, b, h3, h4, h5⟩ := n2 h1
        have hb := h4.mpr ⟨hnn, hp'.2⟩
        rw [if_pos he, h3]
        have e : (bytesOf us).length = (bytesOf (us.take vs.length)).length + (bytesOf (us.drop vs.length)).length := by
          rw [← List.length_append, ← bytesOf_append, List.take_append_drop]
        simp only [hb, h5 hb, posOf, if_true, List.length_append, bytesOf_nil, List.length_nil]
        congr 2 <;> omega
    · have step : findFirstLoop (pre ++ (bytesOf (x :: us) ++ m)) v.2 (bytesOf vs ++ n) (fuel + 1) (bytesOf (x :: us) ++ m) (bytesOf (x :: us) ++ m) =
          findFirstLoop ((pre ++ x.1) ++ (bytesOf us ++ m)) v.2 (bytesOf vs ++ n) fuel (bytesOf us ++ m) (bytesOf us ++ m) := by
        rw [findFirstLoop]
        simp only [bytesOf_cons, safeDecodeNext_seq hu.1, List.append_assoc]
        simp only [bind, Except.bind]
        by_cases he : caseInsensitiveEqual x.2 v.2 = true
        · have h1 : ¬ StuckU m n vs us := fun h => hstuck (hst.mpr ⟨he, h⟩)
          obtain ⟨a, b, h3, h4, -⟩ := n2 h1
          have hb : ¬ b = [] := fun h => hp (by
            obtain ⟨q1, q2⟩ := h4.mp h
            refine ⟨q1, ?_⟩
            simp only [fu_cons, List.cons_prefix_cons]
            exact ⟨((ciEqual_iff _ _).mp he).symm, q2⟩)
          rw [if_pos he, h3]
          simp [hb]
        · rw [if_neg he]
      rw [step]
      rcases ih (pre ++ x.1) fuel hu.2 (by omega) with ⟨h1, h2⟩ | ⟨ws, rs, rfl, h1, h2⟩
      · left
        refine ⟨?_, h2⟩
        intro k hk
        cases k with
        | zero => exact ⟨hstuck, hp⟩
        | succ k => simpa using h1 k (by simpa using hk)
      · right
        refine ⟨x :: ws, rs, rfl, ?_, ?_⟩
        · intro k hk
          cases k with
          | zero => exact ⟨hstuck, hp⟩
          | succ k => simpa using h1 k (by simpa using hk)
        · rcases h2 with h2 | ⟨h2, h3, q, ts, h4, h5, h6⟩
          · exact .inl h2
          · exact .inr ⟨h2, h3, q, ts, h4, h5, by rw [h6]; simp [Nat.add_assoc]⟩

theorem stuckU_iff {m n : Str} {us vs : List Unit8} : Stuck (valsOf us) m (valsOf vs) n ↔ StuckU m n vs us := by
  unfold Stuck StuckU
  simp [valsOf, fu, fold]

/-- C105: `case_insensitive::find_first`, on any strings: it compares `cmp` with what begins at each code point, from left to right.
The first position where the comparison meets malformed bytes makes it throw, the first one where `cmp` is found ends the search. -/
theorem C105_find_first {pre s cmp m n : Str} {cs ds : List Char32} (hs : ReadsTo s cs m) (ht : ReadsTo cmp ds n) :
    (cmp = [] → findFirst (pre ++ s) cmp pre.length = .ok ⟨npos, 0⟩) ∧
    (cmp ≠ [] → ds = [] → findFirst (pre ++ s) cmp pre.length = .error .ystring) ∧
    (ds ≠ [] →
      ((∀ i, i ≤ cs.length → ¬ Stuck (cs.drop i) m ds n ∧ ¬ (n = [] ∧ fold ds <+: fold (cs.drop i))) →
        findFirst (pre ++ s) cmp pre.length = .ok ⟨npos, 0⟩) ∧
      (∀ i, i ≤ cs.length → (∀ j, j < i → ¬ Stuck (cs.drop j) m ds n ∧ ¬ (n = [] ∧ fold ds <+: fold (cs.drop j))) →
        (Stuck (cs.drop i) m ds n → findFirst (pre ++ s) cmp pre.length = .error .ystring) ∧
        (¬ Stuck (cs.drop i) m ds n → n = [] → fold ds <+: fold (cs.drop i) →
          ∃ a t b, s = a ++ t ++ b ∧ Decodes a (cs.take i) ∧ Decodes t ((cs.drop i).take ds.length) ∧
            findFirst (pre ++ s) cmp pre.length = .ok ⟨pre.length + a.length, t.length⟩))) := by
  obtain ⟨us, hu, rfl, rfl, hm⟩ := hs.units
  obtain ⟨vs, hv, rfl, rfl, hn⟩ := ht.units
  refine ⟨fun h => ?_, fun h h' => ?_, fun h => ?_⟩
  · rw [h]; simp [findFirst, bind, Except.bind, Subrange.default]
  · have : vs = [] := by simpa [valsOf] using h'
    subst this
    simp only [bytesOf_nil, List.nil_append] at h ⊢
    simp [findFirst, safeDecodeNext_bad h hn, bind, Except.bind]
  · cases vs with
    | nil => simp [valsOf] at h
    | cons v vs =>
      have hl := units_length hu
      have e0 : findFirst (pre ++ (bytesOf us ++ m)) (bytesOf (v :: vs) ++ n) pre.length =
          findFirstLoop (pre ++ (bytesOf us ++ m)) v.2 (bytesOf vs ++ n) ((pre ++ (bytesOf us ++ m)).length + 1) (bytesOf us ++ m) (bytesOf us ++ m) := by
        have hv' := hv
        simp only [Units_cons] at hv'
        simp only [findFirst, bytesOf_cons, List.append_assoc, safeDecodeNext_seq hv'.1]
        have hi : iterAt (pre ++ (bytesOf us ++ m)) pre.length = .ok (bytesOf us ++ m) := by
          unfold iterAt
          rw [if_neg (by simp), List.drop_left]
        simp only [bind, Except.bind, hi]
      rw [e0]
      have e1 : ∀ i, Stuck ((valsOf us).drop i) m (valsOf (v :: vs)) n ↔ StuckU m n (v :: vs) (us.drop i) := by
        intro i; rw [← stuckU_iff]; simp [valsOf]
      have e2 : ∀ i, fold (valsOf (v :: vs)) <+: fold ((valsOf us).drop i) ↔ fu (v :: vs) <+: fu (us.drop i) := by
        intro i; simp [valsOf, fu, fold]
      have e3 : (valsOf us).length = us.length := by simp [valsOf]
      simp only [e1, e2, e3]
      have key := findFirstLoop_any hm hn v vs hv us pre ((pre ++ (bytesOf us ++ m)).length + 1) hu (by simp; omega)
      generalize findFirstLoop (pre ++ (bytesOf us ++ m)) v.2 (bytesOf vs ++ n) ((pre ++ (bytesOf us ++ m)).length + 1) (bytesOf us ++ m) (bytesOf us ++ m) = R at key
      refine ⟨fun h0 => ?_, fun i hi h0 => ?_⟩
      · rcases key with ⟨-, k⟩ | ⟨ws, rs, rfl, -, k⟩
        · exact k
        · exfalso
          have h1 := h0 ws.length (by simp)
          rw [List.drop_left] at h1
          rcases k with ⟨k, -⟩ | ⟨-, k1, q, ts, rfl, k2, -⟩
          · exact h1.1 k
          · exact h1.2 ⟨k1, fu ts, by rw [← k2, fu_append]⟩
      · rcases key with ⟨k0, k⟩ | ⟨ws, rs, rfl, k0, k⟩
        · exact ⟨fun h1 => absurd h1 (k0 i hi).1, fun _ h1 h2 => absurd ⟨h1, h2⟩ (k0 i hi).2⟩
        · have hlt : ¬ ws.length < i := by
            intro hlt
            have h1 := h0 ws.length hlt
            rw [List.drop_left] at h1
            rcases k with ⟨k, -⟩ | ⟨-, k1, q, ts, rfl, k2, -⟩
            · exact h1.1 k
            · exact h1.2 ⟨k1, fu ts, by rw [← k2, fu_append]⟩
          by_cases hlt' : i < ws.length
          · exact ⟨fun h1 => absurd h1 (k0 i hlt').1, fun _ h1 h2 => absurd ⟨h1, h2⟩ (k0 i hlt').2⟩
          · obtain rfl : i = ws.length := by omega
            rw [List.drop_left]
            rcases k with ⟨k1, k2⟩ | ⟨k, k1, q, ts, rfl, k2, k3⟩
            · exact ⟨fun _ => k2, fun h1 => absurd k1 h1⟩
            · refine ⟨fun h1 => absurd h1 k, fun _ _ _ => ⟨bytesOf ws, bytesOf q, bytesOf ts ++ m, by simp, ?_, ?_, k3⟩⟩
              · have : (valsOf (ws ++ (q ++ ts))).take ws.length = valsOf ws := by simp [valsOf]
                rw [this]
                exact Units.decodes (fun x hx => hu x (by simp [hx]))
              · have hq : q.length = (v :: vs).length := by rw [← fu_length, k2, fu_length]
                have : ((valsOf (ws ++ (q ++ ts))).drop ws.length).take (valsOf (v :: vs)).length = valsOf q := by
                  simp only [valsOf, List.map_append]
                  rw [List.drop_left' (by simp), List.take_left' (by simp [hq])]
                rw [this]
                exact Units.decodes (fun x hx => hu x (by simp [hx]))

-- "xAB\xFFab" contains "ab" before the malformed byte; "xA\xFF" does not, and "AB\xFF" does but is not found
example : findFirst [0x78, 0x41, 0x42, 0x78, 0xFF, 0x61, 0x62] [0x61, 0x62] = .ok ⟨1, 2⟩ ∧
    findFirst [0x78, 0x41, 0xFF] [0x61, 0x62] = .error .ystring ∧ findFirst [0x78, 0x41, 0x42, 0xFF] [0x61, 0x62] = .error .ystring ∧
    findFirst [0x78, 0x78] [0x61, 0xFF] = .ok ⟨npos, 0⟩ ∧ findFirst [0x78, 0x78, 0x61, 0x78] [0x61, 0xFF] = .error .ystring := by decide +kernel

theorem findLastLoop_any {m n : Str} (str : Str) (hm : ¬ HasSeqSuffix m) (hn : ¬ HasSeqSuffix n) (hm2 : ¬ LongContRun m) (hn2 : ¬ LongContRun n) (v : Unit8) (vs : List Unit8)
    (hv : Units (v :: vs)) (us : List Unit8) :
    ∀ (fuel : Nat), Units us → us.length < fuel → us.length ≤ str.length →
    ((∀ k, k ≤ us.length → ¬ StuckU m n (v :: vs) (us.drop k) ∧ ¬ (n = [] ∧ fu (v :: vs) <+: fu (us.drop k))) ∧
      findLastLoop str v.2 (rb vs ++ n.reverse) fuel (rb us ++ m.reverse) (rb us ++ m.reverse) = .ok ⟨npos, 0⟩) ∨
    (∃ ws rs, us = ws ++ rs ∧
      (∀ k, k < ws.length → ¬ StuckU m n (v :: vs) (us.drop k) ∧ ¬ (n = [] ∧ fu (v :: vs) <+: fu (us.drop k))) ∧
      ((StuckU m n (v :: vs) rs ∧
        findLastLoop str v.2 (rb vs ++ n.reverse) fuel (rb us ++ m.reverse) (rb us ++ m.reverse) = .error .ystring) ∨
      (¬ StuckU m n (v :: vs) rs ∧ n = [] ∧ ∃ q ts, rs = q ++ ts ∧ fu q = fu (v :: vs) ∧
        findLastLoop str v.2 (rb vs ++ n.reverse) fuel (rb us ++ m.reverse) (rb us ++ m.reverse) =
          .ok ⟨(rb ts ++ m).length, (rb q).length⟩))) := by
  simp only [Units_cons] at hv
  induction us with
  | nil =>
    intro fuel _ hf _
    obtain ⟨fuel, rfl⟩ : ∃ f, fuel = f + 1 := ⟨fuel - 1, by simp at hf; omega⟩
    by_cases h0 : m = []
    · subst h0
      left
      refine ⟨by simp [StuckU], ?_⟩
      rw [findLastLoop]
      simp [bind, Except.bind, Subrange.default]
    · right
      refine ⟨[], [], rfl, by simp, .inl ⟨.inl ⟨h0, by simp⟩, ?_⟩⟩
      rw [findLastLoop]
      simp [safeDecodePrev_bad h0 hm hm2, bind, Except.bind]
  | cons x us ih =>
    intro fuel hu hf hstr
    obtain ⟨fuel, rfl⟩ : ∃ f, fuel = f + 1 := ⟨fuel - 1, by simp at hf; omega⟩
    simp only [Units_cons] at hu
    simp only [List.length_cons] at hf hstr
    obtain ⟨n1, n2⟩ := prevMismatch_any hm hn hm2 hn2 (us := us) (vs := vs) (fuel := str.length + 1) hu.2 hv.2
      (by omega)
    have hst : StuckU m n (v :: vs) (x :: us) ↔ caseInsensitiveEqual x.2 v.2 = true ∧ StuckU m n vs us := by
      unfold StuckU
      simp only [fu_cons, List.cons_prefix_cons, List.length_cons, Nat.add_lt_add_iff_right, ciEqual_iff]
      constructor
      · rintro (⟨h, e, h'⟩ | ⟨h, ⟨e, h'⟩, h2⟩)
        · exact ⟨e, .inl ⟨h, h'⟩⟩
        · exact ⟨e.symm, .inr ⟨h, h', h2⟩⟩
      · rintro ⟨e, ⟨h, h'⟩ | ⟨h, h', h2⟩⟩
        · exact .inl ⟨h, e, h'⟩
        · exact .inr ⟨h, ⟨e.symm, h'⟩, h2⟩
    by_cases hstuck : StuckU m n (v :: vs) (x :: us)
    · right
      refine ⟨[], x :: us, rfl, by simp, .inl ⟨hstuck, ?_⟩⟩
      obtain ⟨he, h1⟩ := hst.mp hstuck
      rw [findLastLoop]
      simp only [rb_cons, safeDecodePrev_seq hu.1, List.append_assoc]
      simp only [bind, Except.bind]
      rw [if_pos he, n1 h1]
    by_cases hp : n = [] ∧ fu (v :: vs) <+: fu (x :: us)
    · right
      obtain ⟨hnn, hp⟩ := hp
      have hp' := hp
      simp only [fu_cons, List.cons_prefix_cons] at hp'
      have hlen := hp'.2.length_le
      simp only [fu_length] at hlen
      have he : caseInsensitiveEqual x.2 v.2 = true := (ciEqual_iff _ _).mpr hp'.1.symm
      have h1 : ¬ StuckU m n vs us := fun h => hstuck (hst.mpr ⟨he, h⟩)
      refine ⟨[], x :: us, rfl, by simp, .inr ⟨hstuck, hnn, x :: us.take vs.length, us.drop vs.length, by simp, ?_, ?_⟩⟩
      · rw [fu_cons, fu_cons, hp'.1, fu_take, ← fu_length vs, List.prefix_iff_eq_take.mp hp'.2]
        simp [Nat.min_eq_left hlen]
      · rw [findLastLoop]
        simp only [rb_cons, safeDecodePrev_seq hu.1, List.append_assoc]
        simp only [bind, Except.bind]
        obtain ⟨a, b, h3, h4, h5⟩ := n2 h1
        have hb := h4.mpr ⟨hnn, hp'.2⟩
        rw [if_pos he, h3]
        have e : (rb us).length = (rb (us.take vs.length)).length + (rb (us.drop vs.length)).length := by
          have e : rb us = rb (us.take vs.length) ++ rb (us.drop vs.length) := by
            conv => lhs; rw [← List.take_append_drop vs.length us]
            simp only [rb, List.reverse_append, bytesOf_append]
          rw [e, List.length_append]
        simp only [hb, h5 hb, if_true, List.length_append, List.length_reverse]
        congr 2; omega
    · have step : findLastLoop str v.2 (rb vs ++ n.reverse) (fuel + 1) (rb (x :: us) ++ m.reverse) (rb (x :: us) ++ m.reverse) =
          findLastLoop str v.2 (rb vs ++ n.reverse) fuel (rb us ++ m.reverse) (rb us ++ m.reverse) := by
        rw [findLastLoop]
        simp only [rb_cons, safeDecodePrev_seq hu.1, List.append_assoc]
        simp only [bind, Except.bind]
        by_cases he : caseInsensitiveEqual x.2 v.2 = true
        · have h1 : ¬ StuckU m n vs us := fun h => hstuck (hst.mpr ⟨he, h⟩)
          obtain ⟨a, b, h3, h4, -⟩ := n2 h1
          have hb : ¬ b = [] := fun h => hp (by
            obtain ⟨q1, q2⟩ := h4.mp h
            refine ⟨q1, ?_⟩
            simp only [fu_cons, List.cons_prefix_cons]
            exact ⟨((ciEqual_iff _ _).mp he).symm, q2⟩)
          rw [if_pos he, h3]
          simp [hb]
        · rw [if_neg he]
      rw [step]
      rcases ih fuel hu.2 (by omega) (by omega) with ⟨h1, h2⟩ | ⟨ws, rs, rfl, h1, h2⟩
      · left
        refine ⟨?_, h2⟩
        intro k hk
        cases k with
        | zero => exact ⟨hstuck, hp⟩
        | succ k => simpa using h1 k (by simpa using hk)
      · right
        refine ⟨x :: ws, rs, rfl, ?_, ?_⟩
        · intro k hk
          cases k with
          | zero => exact ⟨hstuck, hp⟩
          | succ k => simpa using h1 k (by simpa using hk)
        · rcases h2 with h2 | ⟨h2, h3, q, ts, h4, h5, h6⟩
          · exact .inl h2
          · exact .inr ⟨h2, h3, q, ts, h4, h5, h6⟩

theorem stuckBack_iff {m n : Str} {us vs : List Unit8} :
    StuckBack (valsOf us) m (valsOf vs) n ↔ StuckU m n vs.reverse us.reverse := by
  unfold StuckBack StuckU
  simp only [fu_reverse, List.reverse_prefix, List.length_reverse]
  simp [valsOf, fu]

/-- C105: `case_insensitive::find_last`, on any strings, in the same way from right to left (without long runs of continuation bytes,
where the behaviour is undefined, C06). -/
theorem C105_find_last {s post cmp m n : Str} {cs ds : List Char32} (hs : ReadsBackTo s m cs) (ht : ReadsBackTo cmp n ds)
    (hm : ¬ LongContRun m) (hn : ¬ LongContRun n) {offset : Nat} (ho : min offset (s ++ post).length = s.length) :
    (cmp = [] → findLast (s ++ post) cmp offset = .ok ⟨npos, 0⟩) ∧
    (cmp ≠ [] → ds = [] → findLast (s ++ post) cmp offset = .error .ystring) ∧
    (ds ≠ [] →
      ((∀ i, i ≤ cs.length → ¬ StuckBack (cs.take i) m ds n ∧ ¬ (n = [] ∧ fold ds <:+ fold (cs.take i))) →
        findLast (s ++ post) cmp offset = .ok ⟨npos, 0⟩) ∧
      (∀ i, i ≤ cs.length → (∀ j, i < j → j ≤ cs.length → ¬ StuckBack (cs.take j) m ds n ∧ ¬ (n = [] ∧ fold ds <:+ fold (cs.take j))) →
        (StuckBack (cs.take i) m ds n → findLast (s ++ post) cmp offset = .error .ystring) ∧
        (¬ StuckBack (cs.take i) m ds n → n = [] → fold ds <:+ fold (cs.take i) →
          ∃ a t b, s = a ++ t ++ b ∧ Decodes t ((cs.take i).drop (i - ds.length)) ∧ Decodes b (cs.drop i) ∧
            findLast (s ++ post) cmp offset = .ok ⟨a.length, t.length⟩))) := by
  obtain ⟨us, hu, rfl, rfl, hm1⟩ := hs.units
  obtain ⟨vs, hv, rfl, rfl, hn1⟩ := ht.units
  refine ⟨fun h => ?_, fun h h' => ?_, fun h => ?_⟩
  · rw [h]; simp [findLast, bind, Except.bind, Subrange.default]
  · have : vs = [] := by simpa [valsOf] using h'
    subst this
    simp only [bytesOf_nil, List.append_nil] at h ⊢
    simp [findLast, safeDecodePrev_bad h hn1 hn, bind, Except.bind]
  · have hvne : vs ≠ [] := by simpa [valsOf] using h
    obtain ⟨v, ws, hw⟩ : ∃ v ws, vs.reverse = v :: ws := by
      cases hh : vs.reverse with
      | nil => simp at hh; exact absurd hh hvne
      | cons v ws => exact ⟨v, ws, rfl⟩
    have hl := units_length hu
    have hur : Units us.reverse := by intro x hx; exact hu x (by simpa using hx)
    have hvr : Units (v :: ws) := by rw [← hw]; intro x hx; exact hv x (by simpa using hx)
    have e0 : findLast (m ++ bytesOf us ++ post) (n ++ bytesOf vs) offset =
        findLastLoop (m ++ bytesOf us ++ post) v.2 (rb ws ++ n.reverse) ((m ++ bytesOf us ++ post).length + 1)
          (rb us.reverse ++ m.reverse) (rb us.reverse ++ m.reverse) := by
      have hv' := hvr
      simp only [Units_cons] at hv'
      have e1 : (n ++ bytesOf vs).reverse = v.1.reverse ++ (rb ws ++ n.reverse) := by
        have : rb vs.reverse = (bytesOf vs).reverse := by simp [rb]
        rw [List.reverse_append, ← this, hw, rb_cons, List.append_assoc]
      have e2 : ((m ++ bytesOf us ++ post).take (m ++ bytesOf us).length).reverse = rb us.reverse ++ m.reverse := by
        rw [List.take_left]; simp [rb]
      simp only [findLast, e1, safeDecodePrev_seq hv'.1]
      simp only [bind, Except.bind, ho, e2]
    rw [e0]
    have e1 : ∀ i, i ≤ us.length → (StuckBack ((valsOf us).take i) m (valsOf vs) n ↔ StuckU m n (v :: ws) (us.reverse.drop (us.length - i))) := by
      intro i hi
      have : (valsOf us).take i = valsOf (us.take i) := by simp [valsOf]
      rw [this, stuckBack_iff, hw]
      have : us.reverse.drop (us.length - i) = (us.take i).reverse := by
        rw [List.drop_reverse]; congr 2; omega
      rw [this]
    have e2 : ∀ i, i ≤ us.length → (fold (valsOf vs) <:+ fold ((valsOf us).take i) ↔ fu (v :: ws) <+: fu (us.reverse.drop (us.length - i))) := by
      intro i hi
      have : (valsOf us).take i = valsOf (us.take i) := by simp [valsOf]
      rw [this]
      have : us.reverse.drop (us.length - i) = (us.take i).reverse := by
        rw [List.drop_reverse]; congr 2; omega
      rw [this, ← hw, fu_reverse, fu_reverse, List.reverse_prefix]
      rfl
    have e3 : (valsOf us).length = us.length := by simp [valsOf]
    rw [e3]
    have key := findLastLoop_any (m ++ bytesOf us ++ post) hm1 hn1 hm hn v ws hvr us.reverse ((m ++ bytesOf us ++ post).length + 1) hur
      (by simp; omega) (by simp; omega)
    generalize findLastLoop (m ++ bytesOf us ++ post) v.2 (rb ws ++ n.reverse) ((m ++ bytesOf us ++ post).length + 1)
          (rb us.reverse ++ m.reverse) (rb us.reverse ++ m.reverse) = R at key
    have found : ∀ ws' rs, us.reverse = ws' ++ rs → ((StuckU m n (v :: ws) rs ∧ R = .error .ystring) ∨
        (¬ StuckU m n (v :: ws) rs ∧ n = [] ∧ ∃ q ts, rs = q ++ ts ∧ fu q = fu (v :: ws) ∧ R = .ok ⟨(rb ts ++ m).length, (rb q).length⟩)) →
        StuckU m n (v :: ws) (us.reverse.drop ws'.length) ∨ (n = [] ∧ fu (v :: ws) <+: fu (us.reverse.drop ws'.length)) := by
      intro ws' rs e k
      rw [e, List.drop_left]
      rcases k with ⟨k, -⟩ | ⟨-, k1, q, ts, rfl, k2, -⟩
      · exact .inl k
      · exact .inr ⟨k1, fu ts, by rw [← k2, fu_append]⟩
    refine ⟨fun h0 => ?_, fun i hi h0 => ?_⟩
    · rcases key with ⟨-, k⟩ | ⟨ws', rs, ew, -, k⟩
      · exact k
      · exfalso
        have hle : ws'.length ≤ us.length := by have := congrArg List.length ew; simp at this; omega
        have h1 := h0 (us.length - ws'.length) (by omega)
        rw [e1 _ (by omega), e2 _ (by omega), show us.length - (us.length - ws'.length) = ws'.length by omega] at h1
        rcases found ws' rs ew k with k | k
        · exact h1.1 k
        · exact h1.2 k
    · rw [e1 i hi, e2 i hi]
      rcases key with ⟨k0, k⟩ | ⟨ws', rs, ew, k0, k⟩
      · have := k0 (us.length - i) (by simp)
        exact ⟨fun h1 => absurd h1 this.1, fun _ h1 h2 => absurd ⟨h1, h2⟩ this.2⟩
      · have hle : ws'.length ≤ us.length := by have := congrArg List.length ew; simp at this; omega
        have hlt : ¬ ws'.length < us.length - i := by
          intro hlt
          have h1 := h0 (us.length - ws'.length) (by omega) (by omega)
          rw [e1 _ (by omega), e2 _ (by omega), show us.length - (us.length - ws'.length) = ws'.length by omega] at h1
          rcases found ws' rs ew k with k | k
          · exact h1.1 k
          · exact h1.2 k
        by_cases hlt' : us.length - i < ws'.length
        · have := k0 _ hlt'
          exact ⟨fun h1 => absurd h1 this.1, fun _ h1 h2 => absurd ⟨h1, h2⟩ this.2⟩
        · have ei : us.length - i = ws'.length := by omega
          rw [ei, ew, List.drop_left]
          rcases k with ⟨k1, k2⟩ | ⟨k, k1, q, ts, rfl, k2, k3⟩
          · exact ⟨fun _ => k2, fun h1 => absurd k1 h1⟩
          · have eu : us = ts.reverse ++ (q.reverse ++ ws'.reverse) := by
              rw [← List.reverse_reverse us, ew]; simp
            have hq : q.length = vs.length := by rw [← fu_length, k2, ← hw]; simp
            have hi' : i = (ts.reverse ++ q.reverse).length := by
              have := congrArg List.length eu; simp at this ⊢; omega
            refine ⟨fun h1 => absurd h1 k, fun _ _ _ => ⟨m ++ bytesOf ts.reverse, bytesOf q.reverse, bytesOf ws'.reverse, by simp [eu], ?_, ?_, ?_⟩⟩
            · have : ((valsOf us).take i).drop (i - (valsOf vs).length) = valsOf q.reverse := by
                rw [hi', eu]
                simp only [valsOf, List.map_append]
                rw [← List.append_assoc, List.take_left' (by simp), List.drop_left' (by simp [← hq])]
              rw [this]
              exact Units.decodes (fun x hx => hu x (by rw [eu]; simp at hx; simp [hx]))
            · have : (valsOf us).drop i = valsOf ws'.reverse := by
                rw [hi', eu]
                simp only [valsOf, List.map_append]
                rw [← List.append_assoc, List.drop_left' (by simp)]
              rw [this]
              exact Units.decodes (fun x hx => hu x (by rw [eu]; simp at hx; simp [hx]))
            · rw [k3]
              congr 2
              · simp [rb, Nat.add_comm]
              · simp [rb]

example : findLast [0x61, 0x62, 0xFF, 0x78, 0x41, 0x42, 0x78] [0x61, 0x62] = .ok ⟨4, 2⟩ ∧
    findLast [0x61, 0x62, 0xFF, 0x42] [0x61, 0x62] = .error .ystring ∧ findLast [0xFF, 0x61, 0x62] [0x61, 0x62] = .error .ystring ∧
    findLast [0x78, 0x78] [0xFF, 0x61] = .ok ⟨npos, 0⟩ ∧ findLast [0x78, 0x61] [0xFF, 0x61] = .error .ystring := by decide +kernel

/-- C105: `case_insensitive::split` at characters, of any string, in the same way. -/
theorem C105_split_chars (s : Str) (chars : List Char32) (n : Nat) (hn : 0 < n) (ig : Bool) (hs : s.length < SIZE_MOD) :
    let listed := fun c : Char32 => ∃ d ∈ chars, simpleUpper c.toNat = simpleUpper d.toNat
    ∃ (ps : List (Str × Str)) (last : Str), unsplit ps last = s ∧
      (∀ p t, (p, t) ∈ ps → (∃ cs, Decodes p cs ∧ ∀ x ∈ cs, ¬ listed x) ∧ ∃ c, listed c ∧ IsSeq t c) ∧
      (((keep ig (ps.map (·.1))).length = n ∧ splitChars s chars ⟨n, ig⟩ = .ok (keep ig (ps.map (·.1) ++ [last]))) ∨
      ((keep ig (ps.map (·.1))).length ≤ n ∧ (∃ cs, Decodes last cs ∧ ∀ x ∈ cs, ¬ listed x) ∧
        splitChars s chars ⟨n, ig⟩ = .ok (keep ig (ps.map (·.1) ++ [last]))) ∨
      ((keep ig (ps.map (·.1))).length < n ∧
        (∃ u m cs, last = u ++ m ∧ Decodes u cs ∧ (∀ x ∈ cs, ¬ listed x) ∧ m ≠ [] ∧ ¬ HasSeqPrefix m) ∧
        splitChars s chars ⟨n, ig⟩ = .error .ystring)) := by
  intro listed
  have hfalse : ∀ x, u32CaseInsensitiveContains chars x = false ↔ ¬ listed x := by
    intro x; rw [← Bool.not_eq_true, ciContains_iff]
  have h := split_where_chars s (u32CaseInsensitiveContains chars) n hn ig hs
  simp only [hfalse, ciContains_iff] at h
  exact h

-- "axbX\xFF" split at "x"
example : splitChars [0x61, 0x78, 0x62, 0x58, 0xFF] [0x78] ⟨2, false⟩ = .ok [[0x61], [0x62], [0xFF]] ∧
    splitChars [0x61, 0x78, 0x62, 0x58, 0xFF] [0x78] ⟨3, false⟩ = .error .ystring := by decide +kernel

end CI
end Ystring
