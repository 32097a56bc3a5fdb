import Verif.Model.Width
import Verif.Proofs.CostBound2
/-
Lemmas for C110: the functions with any width of `size_t` compared with the functions of the other models.
-/
namespace Ystring.Wd

/-- two outcomes that correspond -/
def Sim {α β : Type} (R : α → β → Prop) (x : Res α) (y : Res β) : Prop :=
  match x, y with
  | .ok a, .ok b => R a b
  | .error e, .error e' => e = e'
  | _, _ => False

theorem Sim.ok {α β : Type} {R : α → β → Prop} {a : α} {b : β} (h : R a b) : Sim R (.ok a) (.ok b) := h
theorem Sim.error {α β : Type} {R : α → β → Prop} {e : Err} : Sim R (.error e : Res α) (.error e : Res β) := rfl

theorem Sim.bind {α β γ δ : Type} {R : α → β → Prop} {S : γ → δ → Prop} {x : Res α} {y : Res β} {f : α → Res γ} {g : β → Res δ}
    (h : Sim R x y) (hf : ∀ a b, R a b → Sim S (f a) (g b)) : Sim S (x >>= f) (y >>= g) := by
  cases x <;> cases y <;> simp only [Sim] at h
  · subst h; exact rfl
  · exact hf _ _ h

/-- the same computation on both sides, with what is known about its result -/
theorem Sim.same {α : Type} {R : α → α → Prop} {x : Res α} (h : ∀ a, x = .ok a → R a a) : Sim R x x := by
  cases x with
  | error e => rfl
  | ok a => exact h a rfl

theorem Sim.bindSame {α γ δ : Type} {S : γ → δ → Prop} {x : Res α} {f : α → Res γ} {g : α → Res δ}
    (hf : ∀ a, x = .ok a → Sim S (f a) (g a)) : Sim S (x >>= f) (x >>= g) := by
  cases x with
  | error e => rfl
  | ok a => exact hf a rfl

theorem Sim.mono {α β : Type} {R S : α → β → Prop} {x : Res α} {y : Res β} (h : Sim R x y) (hR : ∀ a b, R a b → S a b) :
    Sim S x y := by
  cases x <;> cases y <;> simp only [Sim] at h ⊢
  · exact h
  · exact hR _ _ h

theorem Sim.eq {α : Type} {x y : Res α} (h : Sim (fun a b => a = b) x y) : x = y := by
  cases x <;> cases y <;> simp only [Sim] at h <;> rw [h]

theorem Sim.map {α β : Type} {f : α → β} {x : Res α} {y : Res β} (h : Sim (fun a b => b = f a) x y) : y = x.map f := by
  cases x <;> cases y <;> simp only [Sim] at h <;> rw [h] <;> rfl

theorem next_some {s : Str} {ch : Char32} {it : Str} (h : safeDecodeNext s = .ok (some (ch, it))) : ∃ u, s = u ++ it ∧ 0 < u.length := by
  rw [← Cost.val_safeDecodeNext] at h
  have := (Cost.wp_safeDecodeNext s s.length (Or.inr (Nat.le_refl _))
    (Q := fun a _ => ∀ ch it, a = some (ch, it) → ∃ u, s = u ++ it ∧ 0 < u.length)
    (fun _ _ _ e => by cases e) (fun u ch it r e h0 _ _ ch' it' e' => by cases e'; exact ⟨u, e, h0⟩)).2 _ h
  exact this _ _ rfl

theorem prev_some {s : Str} {ch : Char32} {it : Str} (h : safeDecodePrev s = .ok (some (ch, it))) : ∃ u, s = u ++ it ∧ 0 < u.length := by
  rw [← Cost.val_safeDecodePrev] at h
  have := (Cost.wp_safeDecodePrev s s.length (Or.inr (Nat.le_refl _))
    (Q := fun a _ => ∀ ch it, a = some (ch, it) → ∃ u, s = u ++ it ∧ 0 < u.length)
    (fun _ _ _ e => by cases e) (fun u ch it r e h0 _ _ ch' it' e' => by cases e'; exact ⟨u, e, h0⟩)).2 _ h
  exact this _ _ rfl

theorem next_lt {s : Str} {ch : Char32} {it : Str} (h : safeDecodeNext s = .ok (some (ch, it))) : it.length < s.length := by
  obtain ⟨u, rfl, h0⟩ := next_some h
  simp; omega

theorem prev_lt {s : Str} {ch : Char32} {it : Str} (h : safeDecodePrev s = .ok (some (ch, it))) : it.length < s.length := by
  obtain ⟨u, rfl, h0⟩ := prev_some h
  simp; omega

/-- What is assumed about the width and the length of the string: `size_t` has at least 6 and at most 64 bits, and the string fits in half
of the address space. -/
structure Fits (W n : Nat) : Prop where
  wide : 64 ≤ W
  most : W ≤ SIZE_MOD
  fits : n < W / 2

theorem Fits.le {W n m : Nat} (h : Fits W n) (hm : m ≤ n) : Fits W m := ⟨h.wide, h.most, by have := h.fits; omega⟩

theorem nposEq : npos + 1 = SIZE_MOD := by unfold npos SIZE_MOD; omega

theorem sizeSub_eq {W a b : Nat} (hb : b ≤ a) (ha : a < W) : sizeSub W a b = a - b := by
  unfold sizeSub
  rw [show a + W - b = a - b + W by omega, Nat.add_mod_right, Nat.mod_eq_of_lt (by omega)]

theorem sizeAdd_eq {W a b : Nat} (h : a + b < W) : sizeAdd W a b = a + b := Nat.mod_eq_of_lt h

theorem sizeSub64 (a b : Nat) : Ystring.sizeSub a b = sizeSub SIZE_MOD a b := rfl
theorem sizeAdd64 (a b : Nat) : Ystring.sizeAdd a b = sizeAdd SIZE_MOD a b := rfl
theorem stop64 (r : Subrange) : r.stop = stop SIZE_MOD r := rfl

/-- subtracting and adding again, even if the difference wraps around -/
theorem add_sub {W s e : Nat} (hs : s < W) (he : e < W) : sizeAdd W s (sizeSub W e s) = e := by
  unfold sizeAdd sizeSub
  rw [Nat.add_mod_mod, show s + (e + W - s) = e + W by omega, Nat.add_mod_right, Nat.mod_eq_of_lt he]

theorem stop_eq {W : Nat} {r : Subrange} (h : r.offset + r.length < W) : stop W r = r.offset + r.length := sizeAdd_eq h

/-- the same range within the first `n` bytes, or "not found" on both sides -/
def SameRange (W n : Nat) (r r' : Subrange) : Prop :=
  (r = ⟨npos, 0⟩ ∧ r' = ⟨nposW W, 0⟩) ∨ (r = r' ∧ r.offset + r.length ≤ n)

theorem SameRange.mono {W n m : Nat} {r r' : Subrange} (h : SameRange W n r r') (hm : n ≤ m) : SameRange W m r r' := by
  rcases h with h | ⟨h, h'⟩
  · exact Or.inl h
  · exact Or.inr ⟨h, by omega⟩

theorem posOf_le (s it : Str) : posOf s it ≤ s.length := Nat.sub_le _ _

section
variable {W : Nat}

theorem sim_findFirstWhereLoop (s : Str) (p : Char32 → Bool) (fuel : Nat) : ∀ it : Str, it.length ≤ s.length →
    Sim (fun a b => SameRange W s.length a.1 b.1 ∧ a.2 = b.2 ∧ (a.2 ≠ INVALID_CHAR → a.1 = b.1 ∧ a.1.offset + a.1.length ≤ s.length))
      (Ystring.findFirstWhereLoop s p fuel it it) (findFirstWhereLoop W s p fuel it it) := by
  induction fuel with
  | zero => intro it _; exact rfl
  | succ fuel ih =>
    intro it hit
    unfold Ystring.findFirstWhereLoop findFirstWhereLoop
    refine Sim.bindSame fun a ha => ?_
    rcases a with _ | ⟨ch, it'⟩
    · exact Sim.ok ⟨Or.inl ⟨rfl, rfl⟩, rfl, fun h => absurd rfl h⟩
    · have hl := next_lt ha
      simp only
      split
      · have : posOf s it + (posOf s it' - posOf s it) ≤ s.length := by unfold posOf; omega
        exact Sim.ok ⟨Or.inr ⟨rfl, this⟩, rfl, fun _ => ⟨rfl, this⟩⟩
      · exact ih it' (by omega)

theorem sim_findFirstWhere (s : Str) (p : Char32 → Bool) (o : Nat) :
    Sim (fun a b => SameRange W s.length a.1 b.1 ∧ a.2 = b.2 ∧ (a.2 ≠ INVALID_CHAR → a.1 = b.1 ∧ a.1.offset + a.1.length ≤ s.length))
      (Ystring.findFirstWhere s p o) (findFirstWhere W s p o) := by
  unfold Ystring.findFirstWhere findFirstWhere
  refine Sim.bindSame fun it hit => sim_findFirstWhereLoop s p _ it ?_
  unfold iterAt at hit
  split at hit
  · cases hit
  · rw [← Except.ok.inj hit]; simp

theorem sim_findLastWhereLoop (n : Nat) (p : Char32 → Bool) (fuel : Nat) : ∀ it : Str, it.length ≤ n →
    Sim (fun a b => SameRange W n a.1 b.1 ∧ a.2 = b.2 ∧ (a.2 ≠ INVALID_CHAR → a.1 = b.1 ∧ a.1.offset + a.1.length ≤ n))
      (Ystring.findLastWhereLoop p fuel it it) (findLastWhereLoop W p fuel it it) := by
  induction fuel with
  | zero => intro it _; exact rfl
  | succ fuel ih =>
    intro it hit
    unfold Ystring.findLastWhereLoop findLastWhereLoop
    refine Sim.bindSame fun a ha => ?_
    rcases a with _ | ⟨ch, it'⟩
    · exact Sim.ok ⟨Or.inl ⟨rfl, rfl⟩, rfl, fun h => absurd rfl h⟩
    · have hl := prev_lt ha
      simp only
      split
      · have : it'.length + (it.length - it'.length) ≤ n := by omega
        exact Sim.ok ⟨Or.inr ⟨rfl, this⟩, rfl, fun _ => ⟨rfl, this⟩⟩
      · exact ih it' (by omega)

theorem sim_findLastWhere (s : Str) (p : Char32 → Bool) (o o' : Nat) (ho : min o s.length = min o' s.length) :
    Sim (fun a b => SameRange W s.length a.1 b.1 ∧ a.2 = b.2 ∧ (a.2 ≠ INVALID_CHAR → a.1 = b.1 ∧ a.1.offset + a.1.length ≤ s.length))
      (Ystring.findLastWhere s p o) (findLastWhere W s p o') := by
  unfold Ystring.findLastWhere findLastWhere
  simp only [ho]
  exact sim_findLastWhereLoop s.length p _ _ (by simp; omega)

theorem iterAt_ok {s it : Str} {o : Nat} (h : iterAt s o = .ok it) : o ≤ s.length ∧ it = s.drop o := by
  unfold iterAt at h
  split at h
  · cases h
  · exact ⟨by omega, (Except.ok.inj h).symm⟩

theorem revIterAt_ok {s it : Str} {o : Nat} (h : revIterAt s o = .ok it) : o ≤ s.length ∧ it = (s.take o).reverse := by
  unfold revIterAt at h
  split at h
  · cases h
  · exact ⟨by omega, (Except.ok.inj h).symm⟩

theorem sim_findFirstNewline (mem : List Char32) (s : Str) (o : Nat) (hW : Fits W s.length) :
    Sim (SameRange W s.length) (Ystring.findFirstNewline mem s o) (findFirstNewline W mem s o) := by
  have hf := hW.fits
  have hm := hW.most
  unfold Ystring.findFirstNewline findFirstNewline Ystring.findFirstOf findFirstOf
  refine Sim.bind (sim_findFirstWhere s _ o) ?_
  rintro ⟨r, c⟩ ⟨r', c'⟩ ⟨h1, h2, h3⟩
  simp only at h1 h2 h3 ⊢
  subst h2
  split
  · exact Sim.ok h1
  · rename_i hc
    have hc : c = 0x0D := Decidable.byContradiction hc
    obtain ⟨rfl, h4⟩ := h3 (by rw [hc]; decide)
    rw [stop64, stop_eq (by omega), stop_eq (by omega)]
    refine Sim.bindSame fun it hit => ?_
    obtain ⟨_, rfl⟩ := iterAt_ok hit
    refine Sim.bindSame fun a ha => ?_
    rcases a with _ | ⟨ch, it'⟩
    · exact Sim.ok (Or.inr ⟨rfl, h4⟩)
    · have hl := next_lt ha
      simp only [List.length_drop] at hl
      simp only
      split
      · have hp : posOf s it' ≤ s.length := posOf_le _ _
        have hp2 : r.offset ≤ posOf s it' := by unfold posOf; omega
        rw [sizeSub64, Subrange.start, sizeSub_eq hp2 (by omega), sizeSub_eq hp2 (by omega)]
        exact Sim.ok (Or.inr ⟨rfl, by simp only; omega⟩)
      · exact Sim.ok (Or.inr ⟨rfl, h4⟩)

theorem sim_findLastNewline (mem : List Char32) (s : Str) (o o' : Nat) (ho : min o s.length = min o' s.length) (hW : Fits W s.length) :
    Sim (SameRange W s.length) (Ystring.findLastNewline mem s o) (findLastNewline W mem s o') := by
  have hf := hW.fits
  have hm := hW.most
  unfold Ystring.findLastNewline findLastNewline Ystring.findLastOf findLastOf
  refine Sim.bind (sim_findLastWhere s _ o o' ho) ?_
  rintro ⟨r, c⟩ ⟨r', c'⟩ ⟨h1, h2, h3⟩
  simp only at h1 h2 h3 ⊢
  subst h2
  split
  · exact Sim.ok h1
  · rename_i hc
    have hc : c = 0x0A := Decidable.byContradiction hc
    obtain ⟨rfl, h4⟩ := h3 (by rw [hc]; decide)
    refine Sim.bindSame fun it hit => ?_
    obtain ⟨h5, rfl⟩ := revIterAt_ok hit
    refine Sim.bindSame fun a ha => ?_
    rcases a with _ | ⟨ch, it'⟩
    · exact Sim.ok (Or.inr ⟨rfl, h4⟩)
    · have hl := prev_lt ha
      simp only [Subrange.start, List.length_reverse, List.length_take] at hl h5
      simp only
      split
      · rw [stop64, stop_eq (by omega), stop_eq (by omega), sizeSub64, sizeSub_eq (by omega) (by omega), sizeSub_eq (by omega) (by omega)]
        exact Sim.ok (Or.inr ⟨rfl, by simp only; omega⟩)
      · exact Sim.ok (Or.inr ⟨rfl, h4⟩)

/-! ### Characters -/

theorem nextCharLoop_le (fuel : Nat) : ∀ it stop r : Str, stop.length ≤ it.length → nextCharLoop fuel it it = .ok r → r.length ≤ it.length := by
  induction fuel with
  | zero => intro it _ r _ h; cases h
  | succ fuel ih =>
    intro it stop r hs h
    unfold nextCharLoop at h
    rcases hd : safeDecodeNext it with e | a
    · rw [hd] at h; cases h
    · rw [hd] at h
      rcases a with _ | ⟨ch, it'⟩
      · rw [← Except.ok.inj h]; omega
      · have hl := next_lt hd
        simp only [Cost.res_bind_ok] at h
        split at h
        · have := ih it' it' r (by omega) h
          omega
        · rw [← Except.ok.inj h]; omega

theorem prevCharLoop_le (fuel : Nat) : ∀ it r : Str, prevCharLoop fuel it = .ok r → r.length ≤ it.length ∧ (0 < it.length → r.length < it.length) := by
  induction fuel with
  | zero => intro it r h; cases h
  | succ fuel ih =>
    intro it r h
    unfold prevCharLoop at h
    rcases hd : safeDecodePrev it with e | a
    · rw [hd] at h; cases h
    · rw [hd] at h
      rcases a with _ | ⟨ch, it'⟩
      · have : it = [] := by
          cases it with
          | nil => rfl
          | cons b t =>
            exfalso
            unfold safeDecodePrev at hd
            rw [if_neg (by simp)] at hd
            rcases hx : decodePrev (b :: t) with e | ⟨c, x⟩
            · rw [hx] at hd; cases hd
            · rw [hx] at hd
              simp only [Cost.res_bind_ok] at hd
              split at hd <;> cases hd
        subst this
        rw [← Except.ok.inj h]; simp
      · have hl := prev_lt hd
        simp only [Cost.res_bind_ok] at h
        split at h
        · have := ih it' r h
          omega
        · rw [← Except.ok.inj h]; omega

theorem sim_getNextCharRange (s : Str) (o : Nat) (hW : Fits W s.length) :
    Sim (fun r r' => r = r' ∧ r.offset = o ∧ o + r.length ≤ s.length) (Ystring.getNextCharRange s o) (getNextCharRange W s o) := by
  have hf := hW.fits
  have hm := hW.most
  unfold Ystring.getNextCharRange getNextCharRange
  refine Sim.bindSame fun it hit => ?_
  obtain ⟨h5, rfl⟩ := iterAt_ok hit
  refine Sim.bindSame fun a ha => ?_
  rcases a with _ | ⟨ch, it'⟩
  · exact Sim.ok ⟨rfl, rfl, by simp only; omega⟩
  · have hl := next_lt ha
    simp only
    refine Sim.bindSame fun t ht => ?_
    have := nextCharLoop_le _ it' it' t (Nat.le_refl _) ht
    simp only [List.length_drop] at hl
    have hp : posOf s t ≤ s.length := posOf_le _ _
    have hp2 : o ≤ posOf s t := by unfold posOf; omega
    rw [sizeSub64, sizeSub_eq hp2 (by omega), sizeSub_eq hp2 (by omega)]
    exact Sim.ok ⟨rfl, rfl, by simp only; omega⟩

theorem sim_getPrevCharRange (s : Str) (o : Nat) (hW : Fits W s.length) :
    Sim (fun r r' => r = r' ∧ r.offset + r.length = o ∧ o ≤ s.length) (Ystring.getPrevCharRange s o) (getPrevCharRange W s o) := by
  have hf := hW.fits
  have hm := hW.most
  unfold Ystring.getPrevCharRange getPrevCharRange
  refine Sim.bindSame fun it hit => ?_
  obtain ⟨h5, rfl⟩ := revIterAt_ok hit
  refine Sim.bindSame fun t ht => ?_
  have := (prevCharLoop_le _ _ _ ht).1
  simp only [List.length_reverse, List.length_take] at this
  rw [sizeSub64, sizeSub_eq (by omega) (by omega), sizeSub_eq (by omega) (by omega)]
  exact Sim.ok ⟨rfl, by simp only; omega, h5⟩

theorem sim_countCharsLoop (s : Str) (hW : Fits W s.length) (fuel : Nat) : ∀ o c : Nat, c + fuel < W →
    Sim (fun a b => a = b) (Ystring.countCharsLoop s fuel o c) (countCharsLoop W s fuel o c) := by
  have hf := hW.fits
  have hm := hW.most
  induction fuel with
  | zero => intro o c _; exact rfl
  | succ fuel ih =>
    intro o c hc
    unfold Ystring.countCharsLoop countCharsLoop
    split
    · refine Sim.bind (sim_getNextCharRange s o hW) ?_
      rintro r _ ⟨rfl, h1, h2⟩
      rw [stop64, stop_eq (by omega), stop_eq (by omega), sizeAdd_eq (by omega)]
      exact ih _ _ (by omega)
    · exact Sim.ok rfl

theorem sim_countCodepointsLoop (fuel : Nat) : ∀ (it : Str) (c : Nat), c + fuel < W →
    Ystring.countCodepointsLoop fuel it c = countCodepointsLoop W fuel it c := by
  induction fuel with
  | zero => intro it c _; rfl
  | succ fuel ih =>
    intro it c hc
    unfold Ystring.countCodepointsLoop countCodepointsLoop
    rcases skipNext it with ⟨b, it'⟩
    cases b
    · rfl
    · simp only
      rw [sizeAdd_eq (by omega)]
      exact ih _ _ (by omega)

/-- positions -/
def SamePos (W n : Nat) (p p' : Nat) : Prop := (p = npos ∧ p' = nposW W) ∨ (p = p' ∧ p ≤ n)

theorem SamePos.npos_iff {n p p' : Nat} (h : SamePos W n p p') (hW : Fits W n) : p = npos ↔ p' = nposW W := by
  have h1 := hW.wide
  have h2 := hW.most
  have h3 := hW.fits
  have h4 := nposEq
  unfold nposW at *
  rcases h with ⟨rfl, rfl⟩ | ⟨rfl, h⟩
  · simp [nposW]
  · constructor <;> intro h <;> omega

theorem sim_getCharPosFwd (s : Str) (hW : Fits W s.length) (k : Nat) : ∀ o, o ≤ s.length →
    Sim (SamePos W s.length) (Ystring.getCharPosFwd s k o) (getCharPosFwd W s k o) := by
  have hf := hW.fits
  have hm := hW.most
  induction k with
  | zero => intro o ho; exact Sim.ok (Or.inr ⟨rfl, ho⟩)
  | succ k ih =>
    intro o ho
    unfold Ystring.getCharPosFwd getCharPosFwd
    refine Sim.bind (sim_getNextCharRange s o hW) ?_
    rintro r _ ⟨rfl, h1, h2⟩
    split
    · exact Sim.ok (Or.inl ⟨rfl, rfl⟩)
    · rw [stop64, stop_eq (by omega), stop_eq (by omega)]
      exact ih _ (by omega)

theorem sim_getCharPosBwd (s : Str) (hW : Fits W s.length) (k : Nat) : ∀ o, o ≤ s.length →
    Sim (SamePos W s.length) (Ystring.getCharPosBwd s k o) (getCharPosBwd W s k o) := by
  induction k with
  | zero => intro o ho; exact Sim.ok (Or.inr ⟨rfl, ho⟩)
  | succ k ih =>
    intro o ho
    unfold Ystring.getCharPosBwd getCharPosBwd
    refine Sim.bind (sim_getPrevCharRange s o hW) ?_
    rintro r _ ⟨rfl, h1, h2⟩
    split
    · exact Sim.ok (Or.inl ⟨rfl, rfl⟩)
    · exact ih _ (by unfold Subrange.start; omega)

theorem sim_getCharPos (s : Str) (hW : Fits W s.length) (k : Int) :
    Sim (SamePos W s.length) (Ystring.getCharPos s k) (getCharPos W s k) := by
  unfold Ystring.getCharPos getCharPos
  split
  · exact sim_getCharPosFwd s hW _ _ (by omega)
  · exact sim_getCharPosBwd s hW _ _ (by omega)

theorem sim_getCharRange (s : Str) (hW : Fits W s.length) (k : Int) :
    Sim (fun r r' => r = r' ∧ r.offset + r.length ≤ s.length) (Ystring.getCharRange s k) (getCharRange W s k) := by
  unfold Ystring.getCharRange getCharRange
  split
  · refine Sim.bind (sim_getCharPos s hW k) fun p p' h => ?_
    have hi := h.npos_iff hW
    by_cases hp : p = npos
    · rw [if_pos hp, if_pos (hi.1 hp)]; exact Sim.ok ⟨rfl, by simp⟩
    · rw [if_neg hp, if_neg (fun h => hp (hi.2 h))]
      rcases h with ⟨h, _⟩ | ⟨rfl, h⟩
      · exact absurd h hp
      · exact (sim_getNextCharRange s p hW).mono (by rintro r _ ⟨rfl, h1, h2⟩; exact ⟨rfl, by omega⟩)
  · split
    · refine Sim.bind (sim_getCharPos s hW _) fun p p' h => ?_
      have hi := h.npos_iff hW
      by_cases hp : p = npos
      · rw [if_pos hp, if_pos (hi.1 hp)]; exact Sim.ok ⟨rfl, by simp⟩
      · rw [if_neg hp, if_neg (fun h => hp (hi.2 h))]
        rcases h with ⟨h, _⟩ | ⟨rfl, h⟩
        · exact absurd h hp
        · exact (sim_getPrevCharRange s p hW).mono (by rintro r _ ⟨rfl, h1, h2⟩; exact ⟨rfl, by omega⟩)
    · exact (sim_getPrevCharRange s _ hW).mono (by rintro r _ ⟨rfl, h1, h2⟩; exact ⟨rfl, by omega⟩)

end

end Ystring.Wd
