import Verif.Proofs.Chars
/-
Property theorems C24–C28: characters and code points by position.
-/
namespace Ystring
open Spec

/-! ### C24 Character segmentation -/

theorem Groups.unique {gs hs : List (List Unit8)} (h : Groups gs) (h' : Groups hs) (e : gs.flatten = hs.flatten) :
    gs = hs := by
  have wlog : ∀ {x : Unit8} {ms ms' : List Unit8} {gs hs : List (List Unit8)}, Groups ((x :: ms) :: gs) →
      Groups ((x :: ms') :: hs) → ms ++ gs.flatten = ms' ++ hs.flatten → ∀ c, ms' = ms ++ c → c = [] := by
    intro x ms ms' gs hs h h' e c hc
    cases c with
    | nil => rfl
    | cons y c =>
      exfalso
      subst hc
      rw [List.append_assoc, List.append_cancel_left_eq] at e
      obtain ⟨x', ms'', e1, hm⟩ := h'.chars (x :: (ms ++ y :: c)) (by simp)
      have hy : isMark y.2 = true := hm y (by injection e1 with _ e1; rw [← e1]; simp)
      cases gs with
      | nil => simp at e
      | cons g gs =>
        obtain ⟨z, zs, rfl, -⟩ := h.chars g (by simp)
        refine h.heads (z :: zs) (by simp) ⟨z, zs, rfl, ?_⟩
        simp at e
        rw [e.1]; exact hy
  induction gs generalizing hs with
  | nil =>
    cases hs with
    | nil => rfl
    | cons k hs => obtain ⟨x, ms, rfl, -⟩ := h'.chars k (by simp); simp at e
  | cons g gs ih =>
    obtain ⟨x, ms, rfl, -⟩ := h.chars g (by simp)
    cases hs with
    | nil => simp at e
    | cons k hs =>
      obtain ⟨x', ms', rfl, -⟩ := h'.chars k (by simp)
      simp at e
      obtain ⟨rfl, e⟩ := e
      have : ms = ms' := by
        have e' := e
        rw [List.append_eq_append_iff] at e'
        rcases e' with ⟨c, h1, h2⟩ | ⟨c, h1, h2⟩
        · rw [wlog h h' e c h1] at h1; simpa using h1.symm
        · rw [wlog h' h e.symm c h1] at h1; simpa using h1
      subst this
      rw [ih (Groups.of_append (gs := [x :: ms]) h).2 (Groups.of_append (gs := [x :: ms]) h').2 (by simpa using e)]

/-- C24: every valid string has exactly one segmentation into characters, and they are non-empty; strings that
have one are valid. -/
theorem C24_segmentation (s : Str) :
    (Valid s ↔ ∃ gs, Characters s gs) ∧ (∀ gs hs, Characters s gs → Characters s hs → gs = hs) ∧
    (∀ gs, Characters s gs → gs.flatten = s ∧ ∀ g ∈ gs, g ≠ []) := by
  refine ⟨⟨?_, ?_⟩, ?_, fun gs h => ⟨h.1, fun g hg => IsCharacter.ne_nil (h.2.1 g hg)⟩⟩
  · intro hv
    obtain ⟨us, hu, rfl⟩ := hv.units
    obtain ⟨gs, h1, rfl⟩ := groups_exist us hu
    exact ⟨_, groups_characters h1⟩
  · rintro ⟨gs, h⟩
    obtain ⟨ugs, h1, rfl⟩ := characters_groups h
    rw [← h.1, ← bytesOf_flatten]
    exact (units_flatten h1.units).valid
  · intro gs hs h h'
    obtain ⟨u1, h1, rfl⟩ := characters_groups h
    obtain ⟨u2, h2, rfl⟩ := characters_groups h'
    have := units_unique (units_flatten h1.units) (units_flatten h2.units)
      (by rw [bytesOf_flatten, bytesOf_flatten, h.1, h'.1])
    rw [h1.unique h2 this]

/-- C24: at the start of every character `get_next_char_range`, and at its end `get_prev_char_range`, returns
exactly that character; at the end (start) of the string they return an empty range. So the forward and the
backward enumeration visit the same characters. -/
theorem C24_both_directions (s : Str) (gs hs : List Str) (g : Str) (h : Characters s (gs ++ g :: hs))
    (hl : s.length < SIZE_MOD) :
    getNextCharRange s gs.flatten.length = .ok ⟨gs.flatten.length, g.length⟩ ∧
    getPrevCharRange s (gs.flatten.length + g.length) = .ok ⟨gs.flatten.length, g.length⟩ ∧
    getNextCharRange s s.length = .ok ⟨s.length, 0⟩ ∧ getPrevCharRange s 0 = .ok ⟨0, 0⟩ :=
  ⟨charsFwd h hl, charsBwd h hl, getNextCharRange_end s, getPrevCharRange_begin s⟩

/-- "Ae" + combining acute + combining cedilla + "B" -/
example : Characters [0x41, 0x65, 0xCC, 0x81, 0xCC, 0xA7, 0x42] [[0x41], [0x65, 0xCC, 0x81, 0xCC, 0xA7], [0x42]] := by
  have d : ∀ s cs, toUtf32 s = .ok cs → Decodes s cs := fun s cs h => ((C09_to_utf32 _).1 _).mp h
  have nm : ∀ s c cs, toUtf32 s = .ok (c :: cs) → isMark c = false → ¬ StartsWithMark s := by
    rintro s c cs h1 h2 ⟨m, ms, h3, h4⟩
    have := (d _ _ h1).unique h3
    simp at this
    rw [← this.1, h2] at h4; simp at h4
  refine ⟨rfl, ?_, ?_⟩
  · intro g hg
    simp at hg
    rcases hg with rfl | rfl | rfl
    · exact ⟨0x41, [], d _ _ (by decide +kernel), by simp⟩
    · exact ⟨0x65, [0x301, 0x327], d _ _ (by decide +kernel), by decide +kernel⟩
    · exact ⟨0x42, [], d _ _ (by decide +kernel), by simp⟩
  · intro g hg
    simp at hg
    rcases hg with rfl | rfl
    · exact nm _ 0x65 [0x301, 0x327] (by decide +kernel) (by decide +kernel)
    · exact nm _ 0x42 [] (by decide +kernel) (by decide +kernel)

/-! ### C25 count_chars, get_char_pos -/

theorem subrange_stop (o n : Nat) (h : o + n < SIZE_MOD) : Subrange.stop ⟨o, n⟩ = o + n := by
  unfold Subrange.stop sizeAdd; simp only; rw [Nat.mod_eq_of_lt h]

theorem chars_length_pos {s gs} (h : Characters s gs) {g : Str} (hg : g ∈ gs) : 0 < g.length :=
  List.length_pos_iff.mpr (IsCharacter.ne_nil (h.2.1 g hg))

theorem flatten_length_ge {gs : List Str} (h : ∀ g ∈ gs, 0 < g.length) : gs.length ≤ gs.flatten.length := by
  induction gs with
  | nil => simp
  | cons g gs ih =>
    have := ih (fun g hg => h g (by simp [hg]))
    have := h g (by simp)
    simp at *; omega

theorem countCharsLoop_chars {s : Str} (hl : s.length < SIZE_MOD) (hs gs : List Str) (h : Characters s (gs ++ hs))
    (fuel n : Nat) :
    countCharsLoop s (hs.length + fuel) gs.flatten.length n = countCharsLoop s fuel s.length (n + hs.length) := by
  induction hs generalizing gs n with
  | nil =>
    have := h.1
    simp at this
    simp [this]
  | cons g hs ih =>
    have hg := chars_length_pos h (g := g) (by simp)
    have he := congrArg List.length h.1
    simp at he
    rw [List.length_cons, show hs.length + 1 + fuel = (hs.length + fuel) + 1 by omega, countCharsLoop]
    rw [if_pos (by simp; omega), charsFwd h hl]
    simp only [bind, Except.bind]
    rw [subrange_stop _ _ (by simp; omega)]
    have := ih (gs ++ [g]) (by simpa using h) (n + 1)
    simp only [List.flatten_append, List.flatten_cons, List.flatten_nil, List.append_nil, List.length_append] at this
    rw [this]; congr 1; omega

/-- C25: `count_chars` is the number of characters of a valid string. -/
theorem C25_count_chars (s : Str) (gs : List Str) (h : Characters s gs) (hl : s.length < SIZE_MOD) :
    countChars s = .ok gs.length := by
  have hle : gs.length ≤ s.length := by
    rw [← h.1]; exact flatten_length_ge (fun g hg => chars_length_pos h hg)
  have := countCharsLoop_chars hl gs [] (by simpa using h) (s.length - gs.length + 1) 0
  rw [countChars, show s.length + 1 = gs.length + (s.length - gs.length + 1) by omega]
  simp only [List.flatten_nil, List.length_nil] at this
  rw [this, countCharsLoop]; simp

theorem countCharsLoop_bad {s t : Str} (hl : s.length < SIZE_MOD) (h0 : t ≠ []) (ht : ¬ HasSeqPrefix t) (fuel : Nat) :
    ∀ (vs ws : List Unit8) (n : Nat), Units ws → s = bytesOf vs ++ (bytesOf ws ++ t) → ws.length < fuel →
    countCharsLoop s fuel (bytesOf vs).length n = .error .ystring := by
  induction fuel with
  | zero => intro _ ws _ _ _ h; omega
  | succ fuel ih =>
    intro vs ws n hw e hf
    have hlen := congrArg List.length e
    have := List.length_pos_iff.mpr h0
    simp at hlen
    rw [countCharsLoop, if_pos (by omega)]
    cases ws with
    | nil =>
      unfold getNextCharRange iterAt
      rw [if_neg (by omega)]
      simp only [bind, Except.bind]
      rw [e, List.drop_left, bytesOf_nil, List.nil_append, safeDecodeNext_bad h0 ht]
    | cons x ws =>
      obtain ⟨ms, rest, rfl, h1, h2⟩ := span_marks ws
      simp at hw
      have hg : CharUnits (x :: ms) := ⟨x, ms, rfl, h1⟩
      have hgu : Units (x :: ms) := by simp [hw]
      cases rest with
      | nil =>
        obtain ⟨k, hk⟩ := getNextCharRange_run (bytesOf vs) t hg hgu
        rw [show s = bytesOf vs ++ (bytesOf (x :: ms) ++ t) by rw [e]; simp, hk, nextCharLoop,
          safeDecodeNext_bad h0 ht]
        rfl
      | cons y rest =>
        have he : s = bytesOf vs ++ (bytesOf (x :: ms) ++ (bytesOf (y :: rest) ++ t)) := by rw [e]; simp
        have hec : EndsChar (bytesOf (y :: rest) ++ t) := by
          simp at hw
          exact .inr ⟨y.1, y.2, bytesOf rest ++ t, by simp, hw.2.2.1, h2 y rest rfl⟩
        have hr := getNextCharRange_char (bytesOf vs) _ hg hgu hec (by rw [← he]; exact hl)
        rw [← he] at hr
        rw [hr]
        simp only [bind, Except.bind]
        have hle := congrArg List.length he
        simp only [List.length_append] at hle
        rw [subrange_stop _ _ (by omega)]
        have := ih (vs ++ x :: ms) (y :: rest) (n + 1) hw.2.2 (by rw [he]; simp) (by simp at hf ⊢; omega)
        simpa using this

/-- C25: on every malformed string `count_chars` throws. -/
theorem C25_count_chars_malformed (s : Str) (h : ¬ Valid s) (hl : s.length < SIZE_MOD) :
    countChars s = .error .ystring := by
  obtain ⟨us, t, hu, e, ht⟩ := splitUnits s
  have h0 : t ≠ [] := by
    rintro rfl
    exact h (e ▸ by simpa using hu.valid)
  have hle := units_length_le hu
  have hlen := congrArg List.length e
  simp at hlen
  have := countCharsLoop_bad (s := s) hl h0 ht (s.length + 1) [] us 0 hu (by simpa using e) (by omega)
  simpa [countChars] using this

theorem getCharPosFwd_chars {s : Str} (hl : s.length < SIZE_MOD) (pos : Nat) (gs hs : List Str)
    (h : Characters s (gs ++ hs)) :
    getCharPosFwd s pos gs.flatten.length =
      .ok (if pos ≤ hs.length then ((gs ++ hs).take (gs.length + pos)).flatten.length else npos) := by
  induction pos generalizing gs hs with
  | zero => simp [getCharPosFwd]
  | succ pos ih =>
    rw [getCharPosFwd]
    cases hs with
    | nil =>
      have := h.1
      simp at this
      rw [this, getNextCharRange_end]
      simp [bind, Except.bind, Subrange.nonempty]
    | cons g hs =>
      have hg := chars_length_pos h (g := g) (by simp)
      have he := congrArg List.length h.1
      simp at he
      rw [charsFwd h hl]
      simp only [bind, Except.bind]
      rw [if_neg (by simp [Subrange.nonempty]; intro e; rw [e] at hg; simp at hg), subrange_stop _ _ (by simp; omega)]
      have := ih (gs ++ [g]) hs (by simpa using h)
      simp only [List.flatten_append, List.flatten_cons, List.flatten_nil, List.append_nil, List.length_append] at this
      rw [this]
      simp only [List.length_cons, List.length_nil, List.append_assoc, List.cons_append, List.nil_append]
      rw [show gs.length + (0 + 1) + pos = gs.length + (pos + 1) by omega]
      simp only [Nat.succ_le_succ_iff]

theorem getCharPosBwd_chars {s : Str} (hl : s.length < SIZE_MOD) (pos : Nat) (gs hs : List Str)
    (h : Characters s (gs ++ hs)) :
    getCharPosBwd s pos gs.flatten.length =
      .ok (if pos ≤ gs.length then ((gs ++ hs).take (gs.length - pos)).flatten.length else npos) := by
  induction pos generalizing gs hs with
  | zero => simp [getCharPosBwd]
  | succ pos ih =>
    rw [getCharPosBwd]
    by_cases h0 : gs = []
    · subst h0
      simp [getPrevCharRange_begin, bind, Except.bind, Subrange.nonempty]
    · obtain ⟨ks, g, rfl⟩ : ∃ ks g, gs = ks ++ [g] := ⟨gs.dropLast, gs.getLast h0, (List.dropLast_concat_getLast h0).symm⟩
      have h' : Characters s (ks ++ g :: hs) := by simpa using h
      have hg := chars_length_pos h' (g := g) (by simp)
      have := charsBwd h' hl
      rw [show (ks ++ [g]).flatten.length = ks.flatten.length + g.length by simp, this]
      simp only [bind, Except.bind]
      rw [if_neg (by simp [Subrange.nonempty]; intro e; rw [e] at hg; simp at hg)]
      unfold Subrange.start
      simp only
      rw [ih ks (g :: hs) h']
      simp only [List.length_append, List.length_cons, List.length_nil, Nat.succ_le_succ_iff, Nat.zero_add,
        Nat.add_sub_add_right, List.append_assoc, List.cons_append, List.nil_append]

/-- C25: `get_char_pos` returns the byte offset of the boundary asked for, and `npos` exactly if there is no such
boundary, i.e. if the position is beyond the number of characters. -/
theorem C25_get_char_pos (s : Str) (gs : List Str) (h : Characters s gs) (hl : s.length < SIZE_MOD) (k : Int) :
    getCharPos s k = .ok ((boundary gs k).getD npos) := by
  unfold getCharPos boundary
  by_cases hk : 0 ≤ k
  · rw [if_pos hk, if_pos hk]
    have := getCharPosFwd_chars hl k.toNat [] gs (by simpa using h)
    simp only [List.flatten_nil, List.length_nil, List.nil_append, Nat.zero_add] at this
    rw [this]
    by_cases hn : k ≤ gs.length
    · rw [if_pos hn, if_pos (by omega)]; rfl
    · rw [if_neg hn, if_neg (by omega)]; rfl
  · rw [if_neg (by omega), if_neg hk]
    have := getCharPosBwd_chars hl (-k).toNat gs [] (by simpa using h)
    rw [h.1, List.append_nil] at this
    rw [this]
    by_cases hn : -k ≤ gs.length
    · rw [if_pos hn, if_pos (by omega)]
      rw [show gs.length - (-k).toNat = (gs.length + k).toNat by omega]; rfl
    · rw [if_neg hn, if_neg (by omega)]; rfl

/-! ### C26 get_char_range -/

theorem take_getElem_drop {gs : List Str} (k : Nat) (h : k < gs.length) :
    gs = gs.take k ++ gs[k] :: gs.drop (k + 1) := by
  rw [List.getElem_cons_drop, List.take_append_drop]

theorem flatten_take_le (gs : List Str) (k : Nat) : (gs.take k).flatten.length ≤ gs.flatten.length := by
  have : gs.flatten = (gs.take k).flatten ++ (gs.drop k).flatten := by
    rw [← List.flatten_append, List.take_append_drop]
  rw [this, List.length_append]; omega

theorem flatten_take_succ (gs : List Str) (i : Nat) (hi : i < gs.length) :
    (gs.take (i + 1)).flatten.length = (gs.take i).flatten.length + gs[i].length := by
  rw [List.take_succ_eq_append_getElem hi, List.flatten_append, List.length_append]
  rw [List.flatten_cons, List.flatten_nil, List.append_nil]

theorem boundary_nonneg {gs : List Str} {k : Int} (h : 0 ≤ k) (h' : k ≤ gs.length) :
    boundary gs k = some (gs.take k.toNat).flatten.length := by
  unfold boundary; rw [if_pos h, if_pos h']
theorem boundary_neg {gs : List Str} {k : Int} (h : k < 0) (h' : -k ≤ gs.length) :
    boundary gs k = some (gs.take (gs.length + k).toNat).flatten.length := by
  unfold boundary; rw [if_neg (by omega), if_pos h']
theorem boundary_none {gs : List Str} {k : Int} (h' : (gs.length : Int) < k ∨ k < -(gs.length : Int)) :
    boundary gs k = none := by
  unfold boundary
  by_cases h : 0 ≤ k
  · rw [if_pos h, if_neg (by omega)]
  · rw [if_neg h, if_neg (by omega)]

/-- C26: `get_char_range(s, k)` is the range of character `k` if there is one (negative `k` counting from the
end), otherwise an empty range at the end (for `k ≥ 0`) or the start (for `k < 0`) of the string. -/
theorem C26_get_char_range (s : Str) (gs : List Str) (h : Characters s gs) (hl : s.length < npos) (k : Int) :
    (∀ i : Nat, ∀ hi : i < gs.length, k = i ∨ k = (i : Int) - gs.length →
      getCharRange s k = .ok ⟨(gs.take i).flatten.length, gs[i].length⟩) ∧
    ((gs.length : Int) ≤ k → getCharRange s k = .ok ⟨s.length, 0⟩) ∧
    (k < -(gs.length : Int) → getCharRange s k = .ok ⟨0, 0⟩) := by
  have hm : s.length < SIZE_MOD := by unfold npos at hl; unfold SIZE_MOD; omega
  have small : ∀ i, (gs.take i).flatten.length ≠ npos := by
    intro i; have := flatten_take_le gs i; rw [h.1] at this; omega
  refine ⟨?_, ?_, ?_⟩
  · intro i hi hk
    have hsplit := take_getElem_drop i hi
    have hc : Characters s (gs.take i ++ gs[i] :: gs.drop (i + 1)) := by rw [← hsplit]; exact h
    unfold getCharRange
    by_cases h0 : 0 ≤ k
    · have hki : k = i := by omega
      subst hki
      rw [if_pos h0, C25_get_char_pos s gs h hm, boundary_nonneg h0 (by omega)]
      simp only [bind, Except.bind, Option.getD_some, Int.toNat_natCast]
      rw [if_neg (small i), charsFwd hc hm]
    · have hki : k = (i : Int) - gs.length := by omega
      rw [if_neg (by omega)]
      by_cases h1 : k < -1
      · rw [if_pos h1, C25_get_char_pos s gs h hm, boundary_neg (by omega) (by omega),
          show ((gs.length : Int) + (k + 1)).toNat = i + 1 by omega]
        simp only [bind, Except.bind, Option.getD_some]
        rw [if_neg (small _)]
        rw [flatten_take_succ gs i hi, charsBwd hc hm]
      · rw [if_neg h1]
        have hlast : i + 1 = gs.length := by omega
        have hd : gs.drop (i + 1) = [] := by simp; omega
        rw [hd] at hc
        have hsl : s.length = (gs.take i).flatten.length + gs[i].length := by
          rw [← flatten_take_succ gs i hi, List.take_of_length_le (by omega), h.1]
        have := charsBwd hc hm
        rw [← hsl] at this
        exact this
  · intro hk
    unfold getCharRange
    rw [if_pos (by omega), C25_get_char_pos s gs h hm]
    by_cases h1 : k ≤ gs.length
    · rw [boundary_nonneg (by omega) h1, List.take_of_length_le (by omega), h.1]
      simp only [bind, Except.bind, Option.getD_some]
      rw [if_neg (by omega), getNextCharRange_end]
    · rw [boundary_none (by omega)]; simp [bind, Except.bind]
  · intro hk
    unfold getCharRange
    rw [if_neg (by omega)]
    by_cases h1 : k < -1
    · rw [if_pos h1, C25_get_char_pos s gs h hm]
      by_cases h2 : k + 1 = -(gs.length : Int)
      · rw [boundary_neg (by omega) (by omega), show ((gs.length : Int) + (k + 1)).toNat = 0 by omega]
        simp only [bind, Except.bind, Option.getD_some]
        rw [if_neg (small _)]
        simp [getPrevCharRange_begin]
      · rw [boundary_none (by omega)]; simp [bind, Except.bind]
    · rw [if_neg h1]
      have h3 : gs = [] := List.length_eq_zero_iff.mp (by omega)
      have : s = [] := by rw [← h.1, h3]; rfl
      subst this
      exact getPrevCharRange_begin []

/-- The empty range is returned only if there is no such character. -/
theorem C26_empty_iff (s : Str) (gs : List Str) (h : Characters s gs) (hl : s.length < npos) (k : Int) :
    ∃ r, getCharRange s k = .ok r ∧ (r.length = 0 ↔ (gs.length : Int) ≤ k ∨ k < -(gs.length : Int)) := by
  obtain ⟨h1, h2, h3⟩ := C26_get_char_range s gs h hl k
  by_cases ha : (gs.length : Int) ≤ k
  · exact ⟨_, h2 ha, by simp [ha]⟩
  · by_cases hb : k < -(gs.length : Int)
    · exact ⟨_, h3 hb, by simp [hb]⟩
    · by_cases h0 : 0 ≤ k
      · refine ⟨_, h1 k.toNat (by omega) (by omega), ?_⟩
        have := chars_length_pos h (g := gs[k.toNat]'(by omega)) (List.getElem_mem _)
        simp only; omega
      · refine ⟨_, h1 (gs.length + k).toNat (by omega) (by omega), ?_⟩
        have := chars_length_pos h (g := gs[(gs.length + k).toNat]'(by omega)) (List.getElem_mem _)
        simp only; omega

example : getCharRange [0x41, 0x65, 0xCC, 0x81, 0x42] 1 = .ok ⟨1, 3⟩ ∧
    getCharRange [0x41, 0x65, 0xCC, 0x81, 0x42] (-2) = .ok ⟨1, 3⟩ ∧
    getCharRange [0x41, 0x65, 0xCC, 0x81, 0x42] (-4) = .ok ⟨0, 0⟩ := by decide +kernel

/-! ### C27 get_codepoint_pos -/

/-- The pieces `gs` are what the skip functions step over, in both directions. -/
structure Steps (gs : List Str) : Prop where
  fwd : ∀ a u b, gs = a ++ u :: b → skipNext (u ++ b.flatten) = (true, b.flatten)
  bwd : ∀ a u b, gs = a ++ u :: b → skipPrev (a ++ [u]).flatten.reverse = .ok (true, a.flatten.reverse)
  pos : ∀ g ∈ gs, 0 < g.length

theorem Spec.CodePoints.steps {s gs} (h : CodePoints s gs) : Steps gs := by
  refine ⟨fun a u b e => ?_, fun a u b e => ?_, fun g hg => ?_⟩
  · obtain ⟨c, hc⟩ := h.2 u (by rw [e]; simp); exact skipNext_seq hc _
  · obtain ⟨c, hc⟩ := h.2 u (by rw [e]; simp)
    have := skipPrev_seq hc a.flatten.reverse
    simpa using this
  · obtain ⟨c, hc⟩ := h.2 g hg; exact hc.length_pos

theorem Seg.steps {gs : List Str} (h : Seg gs) (hl : gs.flatten.length < 4294967296) : Steps gs := by
  refine ⟨fun a u b e => ?_, fun a u b e => ?_, fun g hg => ?_⟩
  · subst e
    have hu := h.split
    cases hu with
    | cons h1 h2 _ =>
      simp only [List.flatten_append, List.flatten_cons, List.length_append] at hl
      exact skipNext_block h1 h2 (by omega)
  · subst e
    refine skipPrev_seg h ?_
    simp only [List.flatten_append, List.flatten_cons, List.length_append, List.flatten_nil, List.length_nil] at hl ⊢
    omega
  · exact List.length_pos_iff.mpr (h.block hg).ne_nil

theorem Steps.skipNextN {gs : List Str} (h : Steps gs) (pos : Nat) (a b : List Str) (e : gs = a ++ b) :
    skipNextN pos b.flatten = if pos ≤ b.length then (0, (b.drop pos).flatten) else (pos - b.length, []) := by
  induction pos generalizing a b with
  | zero => simp [Ystring.skipNextN]
  | succ pos ih =>
    rw [Ystring.skipNextN]
    cases b with
    | nil => simp [skipNext]
    | cons u b =>
      rw [List.flatten_cons, h.fwd a u b e]
      simp only
      rw [ih (a ++ [u]) b (by simp [e])]
      simp only [List.length_cons, Nat.succ_le_succ_iff, List.drop_succ_cons, Nat.add_sub_add_right]

theorem Steps.skipPrevN {gs : List Str} (h : Steps gs) (pos : Nat) (a b : List Str) (e : gs = a ++ b) :
    skipPrevN pos a.flatten.reverse =
      .ok (if pos ≤ a.length then (0, (a.take (a.length - pos)).flatten.reverse) else (pos - a.length, [])) := by
  induction pos generalizing a b with
  | zero => simp [Ystring.skipPrevN]
  | succ pos ih =>
    rw [Ystring.skipPrevN]
    by_cases h0 : a = []
    · subst h0; simp [skipPrev, bind, Except.bind]
    · obtain ⟨ks, g, rfl⟩ : ∃ ks g, a = ks ++ [g] := ⟨a.dropLast, a.getLast h0, (List.dropLast_concat_getLast h0).symm⟩
      rw [h.bwd ks g b (by simp [e])]
      simp only [bind, Except.bind]
      rw [ih ks (g :: b) (by simp [e])]
      simp only [List.length_append, List.length_cons, List.length_nil, Nat.zero_add, Nat.succ_le_succ_iff,
        Nat.add_sub_add_right]
      rw [List.take_append_of_le_length (by omega)]

theorem flatten_drop_length (gs : List Str) (k : Nat) :
    gs.flatten.length - (gs.drop k).flatten.length = (gs.take k).flatten.length := by
  have : gs.flatten = (gs.take k).flatten ++ (gs.drop k).flatten := by
    rw [← List.flatten_append, List.take_append_drop]
  rw [this, List.length_append]; omega

theorem getCodepointPos_steps {s : Str} {gs : List Str} (h : Steps gs) (e : gs.flatten = s) (k : Int)
    (hk : k ≠ PTRDIFF_MIN) : getCodepointPos s k = .ok ((boundary gs k).getD npos) := by
  have hle : gs.length ≤ s.length := by rw [← e]; exact flatten_length_ge h.pos
  unfold getCodepointPos
  rw [if_neg hk]
  by_cases h1 : (k.natAbs : Int) > s.length
  · rw [if_pos h1, boundary_none (by omega)]; rfl
  · rw [if_neg h1]
    by_cases h0 : 0 ≤ k
    · rw [if_pos h0, ← e, h.skipNextN _ [] gs rfl]
      by_cases h2 : k.toNat ≤ gs.length
      · rw [if_pos h2, boundary_nonneg h0 (by omega)]
        simp only [Option.getD_some, posOf]
        rw [flatten_drop_length]
      · rw [if_neg h2, boundary_none (by omega)]
        obtain ⟨m, hm⟩ : ∃ m, k.toNat - gs.length = m + 1 := ⟨k.toNat - gs.length - 1, by omega⟩
        rw [hm]; rfl
    · rw [if_neg h0, ← e, h.skipPrevN _ gs [] (by simp)]
      simp only [bind, Except.bind]
      by_cases h2 : (-k).toNat ≤ gs.length
      · rw [if_pos h2, boundary_neg (by omega) (by omega)]
        simp only [Option.getD_some, List.length_reverse]
        rw [show gs.length - (-k).toNat = (gs.length + k).toNat by omega]
      · rw [if_neg h2, boundary_none (by omega)]
        obtain ⟨m, hm⟩ : ∃ m, (-k).toNat - gs.length = m + 1 := ⟨(-k).toNat - gs.length - 1, by omega⟩
        rw [hm]; rfl

/-- C27: for valid strings `get_codepoint_pos` returns the byte offset of the boundary asked for, and `npos`
exactly if there is none, for every index other than `PTRDIFF_MIN` (see `C27_false`). -/
theorem C27_get_codepoint_pos_partial (s : Str) (gs : List Str) (h : CodePoints s gs) (k : Int)
    (hk : k ≠ PTRDIFF_MIN) : getCodepointPos s k = .ok ((boundary gs k).getD npos) :=
  getCodepointPos_steps h.steps h.1 k hk

/-- C27: every valid string has exactly one list of code points, of the length counted by
`count_codepoints`. -/
theorem C27_codePoints (s : Str) :
    (Valid s ↔ ∃ gs, CodePoints s gs) ∧ (∀ gs hs, CodePoints s gs → CodePoints s hs → gs = hs) ∧
    (∀ gs, CodePoints s gs → countCodepoints s = .ok gs.length) := by
  have tu : ∀ gs, CodePoints s gs → ∃ us, Units us ∧ bytesOf us = s ∧ us.map (·.1) = gs := by
    rintro gs ⟨rfl, h⟩
    induction gs with
    | nil => exact ⟨[], by simp, rfl, rfl⟩
    | cons g gs ih =>
      obtain ⟨us, h1, h2, h3⟩ := ih (fun g hg => h g (by simp [hg]))
      obtain ⟨c, hc⟩ := h g (by simp)
      exact ⟨(g, c) :: us, by simp [h1, hc], by simp [h2], by simp [h3]⟩
  refine ⟨⟨?_, ?_⟩, ?_, ?_⟩
  · intro hv
    obtain ⟨us, hu, rfl⟩ := hv.units
    refine ⟨us.map (·.1), by simp [bytesOf, List.flatMap], ?_⟩
    intro g hg
    obtain ⟨x, hx, rfl⟩ := List.mem_map.mp hg
    exact ⟨_, hu x hx⟩
  · rintro ⟨gs, h⟩
    obtain ⟨us, h1, rfl, -⟩ := tu gs h
    exact h1.valid
  · intro gs hs h h'
    obtain ⟨us, h1, h2, rfl⟩ := tu gs h
    obtain ⟨vs, h3, h4, rfl⟩ := tu hs h'
    rw [units_unique h1 h3 (by rw [h2, h4])]
  · intro gs h
    obtain ⟨us, h1, rfl, rfl⟩ := tu gs h
    rw [C12_count_valid _ _ h1.decodes]; simp [valsOf]

theorem countCodepointsLoop_steps {gs : List Str} (h : Steps gs) (a b : List Str) (e : gs = a ++ b) (fuel n : Nat) :
    countCodepointsLoop (b.length + (fuel + 1)) b.flatten n = .ok (n + b.length) := by
  induction b generalizing a n with
  | nil => simp [countCodepointsLoop, skipNext]
  | cons u b ih =>
    rw [List.length_cons, show b.length + 1 + (fuel + 1) = (b.length + (fuel + 1)) + 1 by omega, countCodepointsLoop,
      List.flatten_cons, h.fwd a u b e]
    simp only
    rw [ih (a ++ [u]) (by simp [e])]; congr 1; omega

/-- C27 for every byte string shorter than 4 GiB, malformed or not: there are pieces, as many as
`count_codepoints` counts, whose boundaries are what `get_codepoint_pos` returns. In particular `npos` is returned
iff the index exceeds the count. -/
theorem C27_any_string_partial (s : Str) (hl : s.length < 4294967296) :
    ∃ gs : List Str, gs.flatten = s ∧ (∀ g ∈ gs, g ≠ []) ∧ countCodepoints s = .ok gs.length ∧
      ∀ k : Int, k ≠ PTRDIFF_MIN → getCodepointPos s k = .ok ((boundary gs k).getD npos) := by
  obtain ⟨gs, h, rfl⟩ := seg_exists s
  have hs := h.steps hl
  refine ⟨gs, rfl, fun g hg => List.length_pos_iff.mp (hs.pos g hg), ?_, fun k hk => getCodepointPos_steps hs rfl k hk⟩
  have hle := flatten_length_ge hs.pos
  have := countCodepointsLoop_steps hs [] gs rfl (gs.flatten.length - gs.length) 0
  rw [countCodepoints, show gs.flatten.length + 1 = gs.length + (gs.flatten.length - gs.length + 1) by omega, this]
  simp

/-- C27 is false for the index `PTRDIFF_MIN`: `std::abs` of it is undefined. -/
theorem C27_false (s : Str) : getCodepointPos s PTRDIFF_MIN = .error .ub := by
  unfold getCodepointPos; rw [if_pos rfl]

example : CodePoints [0x41, 0xC3, 0xA6] [[0x41], [0xC3, 0xA6]] := by
  refine ⟨rfl, ?_⟩
  intro g hg
  simp at hg
  rcases hg with rfl | rfl
  · exact ⟨0x41, .one (by decide) (by decide)⟩
  · exact ⟨0xE6, .two (by decide) (by decide) (by unfold IsCont; decide) (by decide)⟩

/-! ### C28 get_codepoint -/

/-- C28: `get_codepoint(s, k)` returns the range and value of code point `k` of a valid string (negative `k`
counting from the end), and an empty range with `INVALID_CHAR` if there is none. -/
theorem C28_get_codepoint (s : Str) (gs : List Str) (h : CodePoints s gs) (k : Int) :
    (∀ i : Nat, ∀ hi : i < gs.length, ∀ c, IsSeq gs[i] c → k = i ∨ k = (i : Int) - gs.length →
      getCodepoint s k = .ok (⟨(gs.take i).flatten.length, gs[i].length⟩, c)) ∧
    ((gs.length : Int) ≤ k → getCodepoint s k = .ok (⟨s.length, 0⟩, INVALID_CHAR)) ∧
    (k < -(gs.length : Int) → getCodepoint s k = .ok (⟨0, 0⟩, INVALID_CHAR)) := by
  have hs := h.steps
  refine ⟨?_, ?_, ?_⟩
  · intro i hi c hc hk
    have hsplit := take_getElem_drop i hi
    unfold getCodepoint
    by_cases h0 : 0 ≤ k
    · rw [if_pos h0, ← h.1, hs.skipNextN _ [] gs rfl, if_pos (by omega)]
      have hk' : k.toNat = i := by omega
      rw [hk']
      have hd : (gs.drop i).flatten = gs[i] ++ (gs.drop (i + 1)).flatten := by
        rw [← List.getElem_cons_drop hi]; rfl
      simp only [hd]
      rw [safeDecodeNext_seq hc]
      simp only [bind, Except.bind, posOf]
      rw [← hd, flatten_drop_length, flatten_drop_length, flatten_take_succ gs i hi]
      congr 3; omega
    · rw [if_neg h0, ← h.1, hs.skipPrevN _ gs [] (by simp), if_pos (by omega)]
      simp only [bind, Except.bind]
      rw [show gs.length - (-k - 1).toNat = i + 1 by omega]
      have ht : (gs.take (i + 1)).flatten.reverse = gs[i].reverse ++ (gs.take i).flatten.reverse := by
        rw [List.take_succ_eq_append_getElem hi, List.flatten_append, List.reverse_append]; simp
      rw [ht, safeDecodePrev_seq hc]
      simp only [List.length_append, List.length_reverse]
      congr 3; omega
  · intro hk
    unfold getCodepoint
    rw [if_pos (by omega), ← h.1, hs.skipNextN _ [] gs rfl]
    by_cases h2 : k.toNat ≤ gs.length
    · rw [if_pos h2, List.drop_of_length_le (by omega)]; rfl
    · rw [if_neg h2]; rfl
  · intro hk
    unfold getCodepoint
    rw [if_neg (by omega), ← h.1, hs.skipPrevN _ gs [] (by simp)]
    by_cases h2 : (-k - 1).toNat ≤ gs.length
    · rw [if_pos h2, show gs.length - (-k - 1).toNat = 0 by omega]; rfl
    · rw [if_neg h2]; rfl

example : getCodepoint [0x41, 0xC3, 0xA6] 1 = .ok (⟨1, 2⟩, 0xE6) ∧ getCodepoint [0x41, 0xC3, 0xA6] (-2) = .ok (⟨0, 1⟩, 0x41) := by
  decide +kernel

end Ystring
