import Verif.Proofs.Kept
/- `split` and the closed sets of strings. -/
namespace Ystring
open Spec

theorem fits_size {s : Str} (h : Fits s) : s.length < SIZE_MOD := by
  unfold Fits PTRDIFF_MAX at h; unfold SIZE_MOD; omega

namespace Kept
variable {P : Str → Prop} (K : Kept P)
include K

omit K in
/-- the iterator has nothing more to search -/
theorem splitLoop_done {finder : Str → Res Subrange} {params : SplitParams} (fuel : Nat) (s : Str) (res : List Str)
    (it' : TokenIterator) (res' : List Str)
    (h : splitLoop finder params fuel ⟨s, ⟨npos, 0⟩⟩ res = .ok (it', res')) : it' = ⟨s, ⟨npos, 0⟩⟩ ∧ res' = res := by
  cases fuel with
  | zero => simp [splitLoop] at h
  | succ fuel =>
    rw [splitLoop] at h
    have : TokenIterator.next finder ⟨s, ⟨npos, 0⟩⟩ = .ok (false, ⟨s, ⟨npos, 0⟩⟩) := by
      unfold TokenIterator.next
      simp [Subrange.nonempty, Subrange.start, npos]
    rw [this] at h
    split at h <;> simp [bind, Except.bind] at h <;> exact ⟨h.1.symm, h.2.symm⟩

theorem splitLoop {finder : Str → Res Subrange} {params : SplitParams} (hf : WholeRanges finder) (fuel : Nat) :
    ∀ (it : TokenIterator) (s : Str) (res : List Str) (it' : TokenIterator) (res' : List Str),
      Fits s → Ready it s → P s → (∀ p ∈ res, P p) →
      splitLoop finder params fuel it res = .ok (it', res') →
      (∀ p ∈ res', P p) ∧ (it'.toBool = true → ∃ rem, it'.remainder = .ok rem ∧ P rem) := by
  induction fuel with
  | zero => intro it s res it' res' _ _ _ _ h; simp [Ystring.splitLoop] at h
  | succ fuel ih =>
    intro it s res it' res' hfit hr hP hres h
    have hl := fits_size hfit
    rw [Ystring.splitLoop] at h
    split at h
    · rw [next_ready hr] at h
      cases hfs : finder s with
      | error e => rw [hfs] at h; simp [bind, Except.bind] at h
      | ok tok =>
        rw [hfs] at h
        by_cases h0 : tok.length = 0
        · have hpart : TokenIterator.part ⟨s, ⟨npos, 0⟩⟩ = .ok s := by
            unfold TokenIterator.part
            rw [if_neg (by simp [Subrange.nonempty]), if_pos (by simp [Subrange.start, npos])]
          have hne : tok.nonempty = false := by simp [Subrange.nonempty, h0]
          have hb : TokenIterator.toBool ⟨s, ⟨npos, 0⟩⟩ = false := by simp [TokenIterator.toBool, Subrange.nonempty]
          simp only [bind, Except.bind, hne, h0] at h
          simp only [Bool.not_false, if_true] at h
          rw [hpart] at h
          simp only at h
          split at h
          · obtain ⟨rfl, rfl⟩ := splitLoop_done _ _ _ _ _ h
            refine ⟨fun q hq => ?_, by rw [hb]; simp⟩
            rcases List.mem_append.mp hq with hq | hq
            · exact hres q hq
            · rw [List.mem_singleton.mp hq]; exact hP
          · obtain ⟨rfl, rfl⟩ := splitLoop_done _ _ _ _ _ h
            exact ⟨hres, by rw [hb]; simp⟩
        · obtain ⟨p, t, rest, rfl, hp, ht, rfl⟩ := (hf s tok (K.valid hP) hfit hfs).resolve_left h0
          simp only at h0
          have hne : Subrange.nonempty ⟨p.length, t.length⟩ = true := by rw [nonempty_iff]; exact h0
          have hpart : TokenIterator.part ⟨p ++ t ++ rest, ⟨p.length, t.length⟩⟩ = .ok p := by
            unfold TokenIterator.part
            rw [if_pos hne]
            unfold substr
            rw [if_neg (by simp)]
            simp [Subrange.start]
          have hstop : Subrange.stop ⟨p.length, t.length⟩ = (p ++ t).length := by
            unfold Subrange.stop sizeAdd
            simp only [List.length_append] at hl ⊢
            exact Nat.mod_eq_of_lt (by omega)
          have hsub : substr (p ++ t ++ rest) (Subrange.stop ⟨p.length, t.length⟩) = .ok rest := by
            rw [hstop]
            unfold substr
            rw [if_neg (by simp), List.drop_left, List.take_of_length_le (by unfold npos; unfold SIZE_MOD at hl; simp at hl; omega)]
          have hready : Ready ⟨p ++ t ++ rest, ⟨p.length, t.length⟩⟩ rest := .inl ⟨hne, hsub⟩
          have hPp : P p := K.left (by rw [List.append_assoc] at hP; exact hP) hp
          have hPr : P rest := K.right hP (kept_valid.append hp ht)
          have hlr : Fits rest := by unfold Fits at hfit ⊢; simp only [List.length_append] at hfit; omega
          simp only [bind, Except.bind, hne] at h
          simp only [Bool.not_true, Bool.false_eq_true, if_false] at h
          rw [if_pos trivial, hpart] at h
          simp only at h
          split at h
          · exact ih _ _ _ _ _ hlr hready hPr (fun q hq => by
              rcases List.mem_append.mp hq with hq | hq
              · exact hres q hq
              · rw [List.mem_singleton.mp hq]; exact hPp) h
          · exact ih _ _ _ _ _ hlr hready hPr hres h
    · simp at h
      obtain ⟨rfl, rfl⟩ := h
      refine ⟨hres, fun hb => ?_⟩
      have hne : it.token.nonempty = true := hb
      rcases hr with ⟨_, hsub⟩ | ⟨hz, _⟩
      · refine ⟨s, ?_, hP⟩
        unfold TokenIterator.remainder
        rw [if_pos (.inl hne), hsub]
      · rw [hz] at hne; simp [Subrange.nonempty] at hne

theorem splitWhere {s : Str} {ps : List Str} {finder : Str → Res Subrange} {params : SplitParams} (hP : P s)
    (hl : Fits s) (hf : WholeRanges finder) (h : splitWhere s finder params = .ok ps) : ∀ p ∈ ps, P p := by
  unfold Ystring.splitWhere at h
  cases hr : Ystring.splitLoop finder params (s.length + 2) (TokenIterator.mk' s) [] with
  | error e => rw [hr] at h; simp [bind, Except.bind] at h
  | ok x =>
    obtain ⟨it, res⟩ := x
    rw [hr] at h
    simp only [bind, Except.bind] at h
    obtain ⟨h1, h2⟩ := Kept.splitLoop K hf _ _ s _ _ _ hl (.inr ⟨rfl, rfl⟩) hP (by simp) hr
    split at h
    · rename_i hb
      obtain ⟨rem, h3, h4⟩ := h2 hb
      rw [h3] at h
      simp only at h
      split at h
      · injection h with h; subst h
        intro p hp
        rcases List.mem_append.mp hp with hp | hp
        · exact h1 p hp
        · rw [List.mem_singleton.mp hp]; exact h4
      · injection h with h; subst h; exact h1
    · injection h with h; subst h; exact h1

end Kept

theorem whole_findFirst {sep : Str} (hs : Valid sep) : WholeRanges (fun s => findFirst s sep) := by
  intro s r hv hl h
  simp only at h
  by_cases h0 : sep = []
  · subst h0
    rw [(C17_find_first_corner s 0).1 (Nat.zero_le _)] at h
    injection h with h; subst h
    exact .inl rfl
  · by_cases hr : r.length = 0
    · exact .inl hr
    · rcases C17_find_first s sep h0 0 (Nat.zero_le _) with ⟨i, e, _, ⟨a, b, rfl, rfl⟩, _⟩ | ⟨e, _⟩
      · rw [e] at h
        injection h with h; subst h
        have := valid_cut hv hs h0
        exact .inr ⟨a, sep, b, rfl, this.1, hs, rfl⟩
      · rw [e] at h; injection h with h; subst h; exact absurd rfl hr

theorem whole_findFirstWhere (p : Char32 → Bool) :
    WholeRanges (fun s => do let r ← findFirstWhere s p 0; .ok r.1) := by
  intro s r hs hl h
  simp only at h
  have h0 := C20_find_first_where [] s p
  simp only [List.nil_append, List.length_nil, Nat.zero_add] at h0
  rcases C20_cases s p with ⟨u, v, t, cs, c, e, h1, h2, h3, h4⟩ | ⟨cs, h1, h2⟩ | ⟨u, t, cs, e, h1, h2, h3, h4⟩
  · have := h0.1 u v t cs c e h1 h2 h3 h4
    rw [this] at h
    simp only [bind, Except.bind] at h
    injection h with h; subst h
    exact .inr ⟨u, v, t, e, ⟨_, h1⟩, ⟨_, h3.decodes⟩, rfl⟩
  · have := h0.2.1 cs h1 h2
    rw [this] at h
    simp only [bind, Except.bind] at h
    injection h with h; subst h
    exact .inl rfl
  · have := h0.2.2 u t cs e h1 h2 h3 h4
    rw [this] at h
    simp only [bind, Except.bind] at h
    simp at h

theorem whole_findFirstNewline (mem : List Char32) : WholeRanges (fun s => findFirstNewline mem s) := by
  intro s r hs hl h
  simp only at h
  have h0 := C20_find_first_where [] s (u32Contains (pointerView NEWLINES mem))
  simp only [List.nil_append, List.length_nil, Nat.zero_add] at h0
  have hls := fits_size hl
  unfold findFirstNewline findFirstOf at h
  rcases C20_cases s (u32Contains (pointerView NEWLINES mem)) with
    ⟨u, v, t, cs, c, e, h1, h2, h3, h4⟩ | ⟨cs, h1, h2⟩ | ⟨u, t, cs, e, h1, h2, h3, h4⟩
  · have hw : r = ⟨u.length, v.length⟩ → r.length = 0 ∨
        ∃ p t rest, s = p ++ t ++ rest ∧ Valid p ∧ Valid t ∧ r = ⟨p.length, t.length⟩ := by
      rintro rfl
      exact .inr ⟨u, v, t, e, ⟨_, h1⟩, ⟨_, h3.decodes⟩, rfl⟩
    rw [h0.1 u v t cs c e h1 h2 h3 h4, bind_ok'] at h
    simp only at h
    by_cases hc : c = 0x0D
    · rw [if_neg (by simpa using hc)] at h
      have hle := congrArg List.length e
      simp only [List.length_append] at hle
      rw [subrange_stop _ _ (by omega)] at h
      unfold iterAt at h
      rw [if_neg (by omega), bind_ok'] at h
      have hd : s.drop (u.length + v.length) = t := by
        rw [e, ← List.length_append, List.drop_left]
      rw [hd] at h
      cases hsd : safeDecodeNext t with
      | error e => rw [hsd] at h; simp [bind, Except.bind] at h
      | ok o =>
        rw [hsd, bind_ok'] at h
        cases o with
        | none => simp only at h; injection h with h; exact hw h.symm
        | some x =>
          obtain ⟨ch, it⟩ := x
          simp only at h
          split at h
          · obtain ⟨w, hw1, hw2⟩ := safeDecodeNext_inv hsd
            injection h with h
            subst h
            refine .inr ⟨u, v ++ w, it, by rw [e, hw2]; simp, ⟨_, h1⟩, ⟨_, h3.decodes.append hw1.decodes⟩, ?_⟩
            have hle2 := congrArg List.length hw2
            simp only [List.length_append] at hle2
            unfold Subrange.start posOf
            simp only [List.length_append]
            rw [sizeSub_eq (by omega) (by omega)]
            congr 1
            omega
          · injection h with h; exact hw h.symm
    · rw [if_pos (by simpa using hc)] at h
      injection h with h; exact hw h.symm
  · rw [h0.2.1 cs h1 h2, bind_ok'] at h
    simp only at h
    rw [if_pos (by decide)] at h
    injection h with h; subst h; exact .inl rfl
  · rw [h0.2.2 u t cs e h1 h2 h3 h4] at h
    simp [bind, Except.bind] at h

theorem whole_ciFindFirst {sep : Str} (hs : Valid sep) : WholeRanges (fun s => CI.findFirst s sep) := by
  intro s r hv hl h
  simp only at h
  by_cases h0 : sep = []
  · subst h0
    rw [(CI.C45_find_first_corner s [] 0).1] at h
    injection h with h; subst h
    exact .inl rfl
  · have := CI.C45_find_first [] s sep hv hs h0
    simp only [List.nil_append, List.length_nil, Nat.zero_add] at this
    rcases this with ⟨_, e⟩ | ⟨i, n, ⟨a, m, b, e, rfl, rfl, ha, hb, hm⟩, _, _, e'⟩
    · rw [e] at h; injection h with h; subst h; exact .inl rfl
    · rw [e'] at h; injection h with h; subst h
      obtain ⟨cs, ds, hc, _⟩ := hm
      exact .inr ⟨a, m, b, e, ha, ⟨_, hc⟩, rfl⟩

end Ystring
