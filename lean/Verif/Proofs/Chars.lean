import Verif.Spec.Characters
import Verif.Props.FindWhere
/- Segmentation into characters. -/
namespace Ystring
open Spec

/-- a list of units that is a character -/
def CharUnits (g : List Unit8) : Prop := ∃ x ms, g = x :: ms ∧ ∀ m ∈ ms, isMark m.2 = true

/-- a list of units beginning with a mark -/
def MarkUnits (g : List Unit8) : Prop := ∃ x ms, g = x :: ms ∧ isMark x.2 = true

/-- segmentation of a list of units into characters -/
structure Groups (gs : List (List Unit8)) : Prop where
  units : ∀ g ∈ gs, Units g
  chars : ∀ g ∈ gs, CharUnits g
  heads : ∀ g ∈ gs.tail, ¬ MarkUnits g

theorem units_flatten {gs : List (List Unit8)} (h : ∀ g ∈ gs, Units g) : Units gs.flatten := by
  intro x hx
  obtain ⟨g, h1, h2⟩ := List.mem_flatten.mp hx
  exact h g h1 x h2

theorem bytesOf_flatten (gs : List (List Unit8)) : bytesOf gs.flatten = (gs.map bytesOf).flatten := by
  induction gs with
  | nil => rfl
  | cons g gs ih => simp [ih]

theorem characters_groups {s : Str} {gs : List Str} (h : Characters s gs) :
    ∃ ugs, Groups ugs ∧ ugs.map bytesOf = gs := by
  obtain ⟨-, h1, h2⟩ := h
  have key : ∀ gs : List Str, (∀ g ∈ gs, IsCharacter g) → ∃ ugs : List (List Unit8), (∀ g ∈ ugs, Units g) ∧
      (∀ g ∈ ugs, CharUnits g) ∧ ugs.map bytesOf = gs := by
    intro gs h
    induction gs with
    | nil => exact ⟨[], by simp, by simp, rfl⟩
    | cons g gs ih =>
      obtain ⟨ugs, a, b, c⟩ := ih (fun g hg => h g (by simp [hg]))
      obtain ⟨ch, ms, hd, hm⟩ := h g (by simp)
      obtain ⟨us, hu, hb, hv⟩ := hd.units
      cases us with
      | nil => simp at hv
      | cons x us =>
        simp at hv
        refine ⟨(x :: us) :: ugs, ?_, ?_, by simp [c, ← hb]⟩
        · intro g' hg'
          rcases List.mem_cons.mp hg' with rfl | hg'
          · exact hu
          · exact a g' hg'
        · intro g' hg'
          rcases List.mem_cons.mp hg' with rfl | hg'
          · exact ⟨x, us, rfl, fun m hm' => hm m.2 (by rw [← hv.2]; exact List.mem_map_of_mem hm')⟩
          · exact b g' hg'
  obtain ⟨ugs, a, b, c⟩ := key gs h1
  refine ⟨ugs, ⟨a, b, ?_⟩, c⟩
  rintro g hg ⟨x, ms, rfl, hx⟩
  refine h2 (bytesOf (x :: ms)) ?_ ⟨x.2, valsOf ms, ?_, hx⟩
  · rw [← c, ← List.map_tail]; exact List.mem_map_of_mem hg
  · exact (a _ (List.mem_of_mem_tail hg)).decodes

theorem groups_characters {ugs : List (List Unit8)} (h : Groups ugs) :
    Characters (bytesOf ugs.flatten) (ugs.map bytesOf) := by
  refine ⟨(bytesOf_flatten ugs).symm, ?_, ?_⟩
  · intro g hg
    obtain ⟨u, hu, rfl⟩ := List.mem_map.mp hg
    obtain ⟨x, ms, rfl, hm⟩ := h.chars u hu
    refine ⟨x.2, valsOf ms, (h.units _ hu).decodes, ?_⟩
    intro m hm'
    obtain ⟨y, hy, rfl⟩ := List.mem_map.mp hm'
    exact hm y hy
  · intro g hg
    rw [← List.map_tail] at hg
    obtain ⟨u, hu, rfl⟩ := List.mem_map.mp hg
    rintro ⟨m, cs, hd, hm⟩
    refine h.heads u hu ?_
    have hu' := h.units u (List.mem_of_mem_tail hu)
    have := hd.unique hu'.decodes
    cases u with
    | nil => simp at this
    | cons x ms => simp at this; exact ⟨x, ms, rfl, this.1 ▸ hm⟩

theorem span_marks (us : List Unit8) : ∃ ms rest, us = ms ++ rest ∧ (∀ m ∈ ms, isMark m.2 = true) ∧
    ∀ x xs, rest = x :: xs → isMark x.2 = false := by
  induction us with
  | nil => exact ⟨[], [], rfl, by simp, by simp⟩
  | cons x us ih =>
    by_cases h : isMark x.2 = true
    · obtain ⟨ms, rest, rfl, h1, h2⟩ := ih
      exact ⟨x :: ms, rest, rfl, by simpa [h] using h1, h2⟩
    · exact ⟨[], x :: us, rfl, by simp, by intro y ys e; cases e; simpa using h⟩

theorem groups_exist (us : List Unit8) (h : Units us) : ∃ gs, Groups gs ∧ gs.flatten = us := by
  induction hn : us.length using Nat.strongRecOn generalizing us with
  | _ n ih =>
    cases us with
    | nil => exact ⟨[], ⟨by simp, by simp, by simp⟩, rfl⟩
    | cons x us =>
      obtain ⟨ms, rest, rfl, h1, h2⟩ := span_marks us
      simp at h
      obtain ⟨gs, h3, h4⟩ := ih rest.length (by simp at hn; omega) rest h.2.2 rfl
      refine ⟨(x :: ms) :: gs, ⟨?_, ?_, ?_⟩, by simp [h4]⟩
      · intro g hg
        rcases List.mem_cons.mp hg with rfl | hg
        · simp [h]
        · exact h3.units g hg
      · intro g hg
        rcases List.mem_cons.mp hg with rfl | hg
        · exact ⟨x, ms, rfl, h1⟩
        · exact h3.chars g hg
      · intro g hg
        simp at hg
        cases gs with
        | nil => simp at hg
        | cons g' gs =>
          rcases List.mem_cons.mp hg with rfl | hg
          · rintro ⟨y, ys, rfl, hy⟩
            have := h2 y (ys ++ gs.flatten) (by rw [← h4]; simp)
            rw [hy] at this; simp at this
          · exact h3.heads g (by simpa using hg)

/-! ### get_next_char_range -/

theorem nextCharLoop_marks (ms : List Unit8) (h : Units ms) (hm : ∀ m ∈ ms, isMark m.2 = true) (fuel : Nat) (t : Str) :
    nextCharLoop (ms.length + fuel) (bytesOf ms ++ t) (bytesOf ms ++ t) = nextCharLoop fuel t t := by
  induction ms with
  | nil => simp
  | cons x ms ih =>
    rw [Units_cons] at h
    rw [List.length_cons, show ms.length + 1 + fuel = (ms.length + fuel) + 1 by omega, nextCharLoop,
      bytesOf_cons, List.append_assoc, safeDecodeNext_seq h.1]
    simp only [bind, Except.bind]
    rw [if_pos (hm x (by simp)), ih h.2 (fun m hm' => hm m (by simp [hm']))]

/-- what follows a character: the end, or a code point that is no mark -/
def EndsChar (t : Str) : Prop := t = [] ∨ ∃ u c t', t = u ++ t' ∧ IsSeq u c ∧ isMark c = false

theorem getNextCharRange_run (a t : Str) {g : List Unit8} (hg : CharUnits g) (hu : Units g) :
    ∃ fuel, getNextCharRange (a ++ (bytesOf g ++ t)) a.length =
      (do let stop ← nextCharLoop (fuel + 1) t t
          .ok ⟨a.length, sizeSub (posOf (a ++ (bytesOf g ++ t)) stop) a.length⟩) := by
  obtain ⟨x, ms, rfl, hm⟩ := hg
  rw [Units_cons] at hu
  have hl := units_length_le hu.2
  refine ⟨(a ++ (bytesOf (x :: ms) ++ t)).length - ms.length, ?_⟩
  unfold getNextCharRange iterAt
  rw [if_neg (by simp)]
  simp only [bind, Except.bind]
  rw [List.drop_left, bytesOf_cons, List.append_assoc, safeDecodeNext_seq hu.1]
  simp only
  rw [show (a ++ (x.1 ++ (bytesOf ms ++ t))).length + 1 = ms.length + ((a ++ (x.1 ++ (bytesOf ms ++ t))).length - ms.length + 1) by simp; omega,
    nextCharLoop_marks ms hu.2 hm]

theorem nextCharLoop_end {t : Str} (h : EndsChar t) (fuel : Nat) (stop : Str) :
    nextCharLoop (fuel + 1) t stop = .ok stop := by
  rw [nextCharLoop]
  rcases h with rfl | ⟨u, c, t', rfl, h1, h2⟩
  · rfl
  · rw [safeDecodeNext_seq h1]; simp [bind, Except.bind, h2]

theorem getNextCharRange_char (a t : Str) {g : List Unit8} (hg : CharUnits g) (hu : Units g) (ht : EndsChar t)
    (hl : (a ++ (bytesOf g ++ t)).length < SIZE_MOD) :
    getNextCharRange (a ++ (bytesOf g ++ t)) a.length = .ok ⟨a.length, (bytesOf g).length⟩ := by
  obtain ⟨k, hk⟩ := getNextCharRange_run a t hg hu
  rw [hk, nextCharLoop_end ht]
  simp only [bind, Except.bind]
  have : posOf (a ++ (bytesOf g ++ t)) t = a.length + (bytesOf g).length := by simp [posOf]; omega
  rw [this]
  unfold sizeSub
  simp only [List.length_append] at hl
  rw [show a.length + (bytesOf g).length + SIZE_MOD - a.length = (bytesOf g).length + SIZE_MOD by omega,
    Nat.add_mod_right, Nat.mod_eq_of_lt (by omega)]

theorem getNextCharRange_end (s : Str) : getNextCharRange s s.length = .ok ⟨s.length, 0⟩ := by
  unfold getNextCharRange iterAt
  simp [bind, Except.bind]

/-! ### get_prev_char_range -/

theorem prevCharLoop_marks (ms : List Unit8) (h : Units ms) (hm : ∀ m ∈ ms, isMark m.2 = true) (fuel : Nat) (t : Str) :
    prevCharLoop (ms.length + fuel) ((bytesOf ms).reverse ++ t) = prevCharLoop fuel t := by
  induction hn : ms.length generalizing ms with
  | zero => have := List.length_eq_zero_iff.mp hn; subst this; simp
  | succ n ih =>
    obtain ⟨vs, v, rfl⟩ := units_snoc (us := ms) (by rintro rfl; simp at hn)
    simp at h hn
    rw [show n + 1 + fuel = (n + fuel) + 1 by omega, prevCharLoop,
      bytesOf_append, List.reverse_append, bytesOf_cons, bytesOf_nil, List.append_nil, List.append_assoc,
      safeDecodePrev_seq h.2]
    simp only [bind, Except.bind]
    rw [if_pos (hm v (by simp)), ih vs h.1 (fun m hm' => hm m (by simp [hm'])) hn]

theorem getPrevCharRange_char (a b : Str) {g : List Unit8} (hg : CharUnits g) (hu : Units g)
    (hh : a = [] ∨ ¬ MarkUnits g) (hl : (a ++ (bytesOf g ++ b)).length < SIZE_MOD) :
    getPrevCharRange (a ++ (bytesOf g ++ b)) (a.length + (bytesOf g).length) = .ok ⟨a.length, (bytesOf g).length⟩ := by
  obtain ⟨x, ms, rfl, hm⟩ := hg
  have hu0 := hu
  rw [Units_cons] at hu
  have hle := units_length_le hu0
  unfold getPrevCharRange revIterAt
  rw [if_neg (by simp)]
  simp only [bind, Except.bind]
  rw [← List.append_assoc, ← List.length_append, List.take_left]
  have hpos := hu.1.length_pos
  have e : prevCharLoop ((a ++ bytesOf (x :: ms) ++ b).length + 1) (a ++ bytesOf (x :: ms)).reverse = .ok a.reverse := by
    rw [show (a ++ bytesOf (x :: ms) ++ b).length + 1 = ms.length +
        (((a ++ bytesOf (x :: ms) ++ b).length - ms.length - 1) + 1 + 1) by simp at hle ⊢; omega]
    rw [show (a ++ bytesOf (x :: ms)).reverse = (bytesOf ms).reverse ++ (x.1.reverse ++ a.reverse) by simp,
      prevCharLoop_marks ms hu.2 hm, prevCharLoop, safeDecodePrev_seq hu.1]
    simp only [bind, Except.bind]
    by_cases hx : isMark x.2 = true
    · rw [if_pos hx]
      rcases hh with rfl | hh
      · rfl
      · exact absurd ⟨x, ms, rfl, hx⟩ hh
    · rw [if_neg hx]
  rw [e]
  simp only [List.length_reverse]
  unfold sizeSub
  simp only [List.length_append] at hl ⊢
  rw [show a.length + (bytesOf (x :: ms)).length + SIZE_MOD - a.length = (bytesOf (x :: ms)).length + SIZE_MOD by omega,
    Nat.add_mod_right, Nat.mod_eq_of_lt (by omega)]

theorem getPrevCharRange_begin (s : Str) : getPrevCharRange s 0 = .ok ⟨0, 0⟩ := by
  unfold getPrevCharRange revIterAt
  simp [bind, Except.bind, prevCharLoop, sizeSub]

/-! ### The same for `Characters` -/

theorem groups_endsChar {gs : List (List Unit8)} {g : List Unit8} (h : Groups (g :: gs)) : EndsChar (bytesOf gs.flatten) := by
  cases gs with
  | nil => left; rfl
  | cons g' gs =>
    right
    obtain ⟨x, ms, rfl, -⟩ := h.chars g' (by simp)
    have hu := h.units (x :: ms) (by simp)
    rw [Units_cons] at hu
    refine ⟨x.1, x.2, bytesOf ms ++ bytesOf gs.flatten, by simp, hu.1, ?_⟩
    have := h.heads (x :: ms) (by simp)
    cases hm : isMark x.2
    · rfl
    · exact absurd ⟨x, ms, rfl, hm⟩ this

theorem Groups.of_append {gs hs : List (List Unit8)} (h : Groups (gs ++ hs)) : Groups gs ∧ Groups hs := by
  refine ⟨⟨fun g hg => h.units g (by simp [hg]), fun g hg => h.chars g (by simp [hg]), ?_⟩,
    ⟨fun g hg => h.units g (by simp [hg]), fun g hg => h.chars g (by simp [hg]), ?_⟩⟩
  · intro g hg
    cases gs with
    | nil => simp at hg
    | cons a gs => exact h.heads g (by simp at hg ⊢; exact .inl hg)
  · intro g hg
    cases gs with
    | nil => exact h.heads g (by simpa using hg)
    | cons a gs => exact h.heads g (by simp; exact .inr (List.mem_of_mem_tail hg))

theorem Groups.not_mark {gs hs : List (List Unit8)} {g} (h : Groups (gs ++ g :: hs)) (h0 : gs ≠ []) : ¬ MarkUnits g := by
  cases gs with
  | nil => exact absurd rfl h0
  | cons a gs => exact h.heads g (by simp)

/-- The pieces of a character segmentation can be split. -/
theorem Spec.Characters.split {gs hs : List Str} (h : Characters (gs ++ hs).flatten (gs ++ hs)) :
    Characters gs.flatten gs ∧ Characters hs.flatten hs := by
  obtain ⟨-, h1, h2⟩ := h
  refine ⟨⟨rfl, fun g hg => h1 g (by simp [hg]), fun g hg => ?_⟩, ⟨rfl, fun g hg => h1 g (by simp [hg]), fun g hg => ?_⟩⟩
  · cases gs with
    | nil => simp at hg
    | cons a gs => exact h2 g (by simp at hg ⊢; exact .inl hg)
  · cases gs with
    | nil => exact h2 g (by simpa using hg)
    | cons a gs => exact h2 g (by simp; exact .inr (List.mem_of_mem_tail hg))

theorem map_append_split {α β : Type} {f : α → β} {l : List α} {a b : List β} (h : l.map f = a ++ b) :
    ∃ l1 l2, l = l1 ++ l2 ∧ l1.map f = a ∧ l2.map f = b := by
  induction a generalizing l with
  | nil => exact ⟨[], l, rfl, rfl, by simpa using h⟩
  | cons x a ih =>
    cases l with
    | nil => simp at h
    | cons y l =>
      simp at h
      obtain ⟨l1, l2, rfl, h1, h2⟩ := ih h.2
      exact ⟨y :: l1, l2, rfl, by simp [h1, h.1], h2⟩

theorem charsFwd {s : Str} {gs hs : List Str} {g : Str} (h : Characters s (gs ++ g :: hs)) (hl : s.length < SIZE_MOD) :
    getNextCharRange s gs.flatten.length = .ok ⟨gs.flatten.length, g.length⟩ := by
  obtain ⟨ugs, hg, e⟩ := characters_groups h
  obtain ⟨u1, u2, rfl, rfl, e2⟩ := map_append_split e
  cases u2 with
  | nil => simp at e2
  | cons u u2 =>
    simp at e2
    obtain ⟨rfl, rfl⟩ := e2
    have hs := h.1
    simp only [← bytesOf_flatten, List.flatten_append, List.flatten_cons] at hs ⊢
    rw [← hs] at hl ⊢
    have h2 := hg.of_append.2
    exact getNextCharRange_char _ _ (h2.chars u (by simp)) (h2.units u (by simp)) (groups_endsChar h2) hl

theorem charsBwd {s : Str} {gs hs : List Str} {g : Str} (h : Characters s (gs ++ g :: hs)) (hl : s.length < SIZE_MOD) :
    getPrevCharRange s (gs.flatten.length + g.length) = .ok ⟨gs.flatten.length, g.length⟩ := by
  obtain ⟨ugs, hg, e⟩ := characters_groups h
  obtain ⟨u1, u2, rfl, rfl, e2⟩ := map_append_split e
  cases u2 with
  | nil => simp at e2
  | cons u u2 =>
    simp at e2
    obtain ⟨rfl, rfl⟩ := e2
    have hs := h.1
    simp only [← bytesOf_flatten, List.flatten_append, List.flatten_cons] at hs ⊢
    rw [← hs] at hl ⊢
    have h2 := hg.of_append.2
    refine getPrevCharRange_char _ _ (h2.chars u (by simp)) (h2.units u (by simp)) ?_ hl
    by_cases h0 : u1 = []
    · left; simp [h0]
    · right; exact hg.not_mark h0

theorem IsCharacter.ne_nil {g : Str} (h : IsCharacter g) : g ≠ [] := by
  obtain ⟨c, ms, h, -⟩ := h
  rintro rfl
  have := h.unique .nil
  simp at this

end Ystring
