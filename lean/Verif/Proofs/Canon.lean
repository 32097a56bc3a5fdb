import Verif.Proofs.Normalize
/-
The relation `Canon` is a function, and where the library's tables suffice it is the table decomposition.
-/
namespace Ystring
open Spec

theorem singleOf_mem {c d : Nat} (h : singleOf c = some d) : (c, d) ∈ UD_SINGLETONS := by
  unfold singleOf at h
  rw [Option.map_eq_some_iff] at h
  obtain ⟨p, h1, h2⟩ := h
  have := List.find?_some h1
  simp only [Nat.beq_eq] at this
  have hm := List.mem_of_find?_eq_some h1
  rw [← this, ← h2]; exact hm

/-- facts about a singleton -/
structure SingleFacts (c d : Nat) : Prop where
  jamo : c < 0x1100 ∨ 0x11FF < c
  chan : ¬ IsHangul c
  dhan : ¬ IsHangul d
  dsingle : singleOf d = none
  hc : c < 0x2FA1E
  hd : d < 0x2A6D7

theorem singleOf_facts {c d : Nat} (h : singleOf c = some d) : SingleFacts c d := by
  have h1 := List.all_eq_true.mp singles_shape _ (singleOf_mem h)
  simp only [Bool.and_eq_true, Bool.not_eq_true', Nat.blt_eq, Bool.or_eq_true, singleMask_iff] at h1
  have hh : ∀ c, hangulB c = false ↔ ¬ IsHangul c := by intro c; rw [← hangulB_iff, Bool.not_eq_true]
  simp only [hh] at h1
  obtain ⟨⟨⟨⟨⟨⟨a1, a2⟩, a3⟩, a4⟩, a5⟩, a6⟩, _⟩ := h1
  exact ⟨a1, a2, a3, a4, a5, a6⟩

theorem pairOf_jamo {c : Nat} (h1 : 0x1100 ≤ c) (h2 : c ≤ 0x11FF) : pairOf c = none := by
  cases hp : pairOf c with
  | none => rfl
  | some q =>
    obtain ⟨b, m⟩ := q
    have := List.all_eq_true.mp pairs_jamo _ (pairOf_mem hp)
    simp only [Nat.blt_eq, Bool.or_eq_true] at this
    omega

theorem singleOf_jamo {c : Nat} (h1 : 0x1100 ≤ c) (h2 : c ≤ 0x11FF) : singleOf c = none := by
  cases hp : singleOf c with
  | none => rfl
  | some q =>
    have := (singleOf_facts hp).jamo
    omega

/-- no canonical decomposition -/
def Atom (c : Nat) : Prop := pairOf c = none ∧ singleOf c = none ∧ ¬ IsHangul c

theorem jamo_atom {c : Nat} (h1 : 0x1100 ≤ c) (h2 : c ≤ 0x11FF) : Atom c :=
  ⟨pairOf_jamo h1 h2, singleOf_jamo h1 h2, by unfold IsHangul; omega⟩

/-- the components have no decomposition -/
theorem Spec.Canon.atoms {c l} (h : Canon c l) : ∀ x ∈ l, Atom x := by
  induction h with
  | atom h1 h2 h3 => intro x hx; simp at hx; subst hx; exact ⟨h1, h2, h3⟩
  | single _ _ ih => exact ih
  | pair _ _ _ ih1 ih2 =>
    intro x hx
    rcases List.mem_append.mp hx with hx | hx
    · exact ih1 x hx
    · exact ih2 x hx
  | lv h h' =>
    unfold IsHangul at h
    intro x hx
    simp at hx
    refine jamo_atom ?_ ?_ <;> omega
  | lvt h h' =>
    unfold IsHangul at h
    intro x hx
    simp at hx
    refine jamo_atom ?_ ?_ <;> omega

theorem Spec.Canon.unique {c l k} (h : Canon c l) (h' : Canon c k) : l = k := by
  induction h generalizing k with
  | atom h1 h2 h3 =>
    cases h' with
    | atom => rfl
    | single h => rw [h2] at h; cases h
    | pair h => rw [h1] at h; cases h
    | lv h => exact absurd h h3
    | lvt h => exact absurd h h3
  | single h1 _ ih =>
    cases h' with
    | atom _ h => rw [h1] at h; cases h
    | single h h' => rw [h1] at h; cases h; exact ih h'
    | pair h => have := (pairOf_facts h).csingle; rw [h1] at this; cases this
    | lv h => exact absurd h (singleOf_facts h1).chan
    | lvt h => exact absurd h (singleOf_facts h1).chan
  | pair h1 _ _ ih1 ih2 =>
    cases h' with
    | atom h => rw [h1] at h; cases h
    | single h => have := (pairOf_facts h1).csingle; rw [h] at this; cases this
    | pair h h2 h3 => rw [h1] at h; cases h; rw [ih1 h2, ih2 h3]
    | lv h => exact absurd h (pairOf_facts h1).chan
    | lvt h => exact absurd h (pairOf_facts h1).chan
  | lv h1 h2 =>
    cases h' with
    | atom _ _ h => exact absurd h1 h
    | single h => exact absurd h1 (singleOf_facts h).chan
    | pair h => exact absurd h1 (pairOf_facts h).chan
    | lv => rfl
    | lvt _ h => exact absurd h2 h
  | lvt h1 h2 =>
    cases h' with
    | atom _ _ h => exact absurd h1 h
    | single h => exact absurd h1 (singleOf_facts h).chan
    | pair h => exact absurd h1 (pairOf_facts h).chan
    | lv _ h => exact absurd h h2
    | lvt => rfl

theorem mark_canon {c b m : Nat} (h : pairOf c = some (b, m)) : Canon m [m] :=
  have f := pairOf_facts h
  .atom f.mpair f.msingle f.mhan

theorem Chain4.canon {c : Nat} {l} (h : Chain4 c l) (h1 : singleOf c = none) (h2 : ¬ IsHangul c) : Canon c l := by
  cases h with
  | d0 h => exact .atom h h1 h2
  | d1 h h' => exact .pair h (.atom h' (pairOf_facts h).bsingle (pairOf_facts h).bhan) (mark_canon h)
  | d2 h h' h'' =>
    exact .pair h (.pair h' (.atom h'' (pairOf_facts h').bsingle (pairOf_facts h').bhan) (mark_canon h')) (mark_canon h)
  | d3 h h' h'' h''' =>
    exact .pair h (.pair h' (.pair h'' (.atom h''' (pairOf_facts h'').bsingle (pairOf_facts h'').bhan) (mark_canon h''))
      (mark_canon h')) (mark_canon h)

theorem chain4_single {c : Nat} (h : singleOf c ≠ none ∨ IsHangul c) : Chain4 c [c] := by
  apply Chain4.d0
  cases hp : pairOf c with
  | none => rfl
  | some q =>
    obtain ⟨b, m⟩ := q
    have f := pairOf_facts hp
    rcases h with h | h
    · exact absurd f.csingle h
    · exact absurd h f.chan

/-- every number has a decomposition -/
theorem canon_total (c : Nat) : ∃ l, Canon c l := by
  by_cases hh : IsHangul c
  · by_cases h : (c - 0xAC00) % 28 = 0
    · exact ⟨_, .lv hh h⟩
    · exact ⟨_, .lvt hh h⟩
  · cases hs : singleOf c with
    | none => obtain ⟨l, hl⟩ := chain4_total c; exact ⟨l, hl.canon hs hh⟩
    | some d =>
      obtain ⟨l, hl⟩ := chain4_total d
      exact ⟨l, .single hs (hl.canon (singleOf_facts hs).dsingle (singleOf_facts hs).dhan)⟩

theorem Spec.Canon.lt {c l} (h : Canon c l) (hc : c < 2 ^ 32) : ∀ x ∈ l, x < 2 ^ 32 := by
  induction h with
  | atom h1 h2 h3 => intro x hx; simp at hx; omega
  | single h _ ih => exact ih (by have := (singleOf_facts h).hd; omega)
  | pair h _ _ ih1 ih2 =>
    have f := pairOf_facts h
    have := f.hb; have := f.hm
    intro x hx
    rcases List.mem_append.mp hx with hx | hx
    · exact ih1 (by omega) x hx
    · exact ih2 (by omega) x hx
  | lv h h' => unfold IsHangul at h; intro x hx; simp at hx; omega
  | lvt h h' => unfold IsHangul at h; intro x hx; simp at hx; omega

theorem flatMap_congr' {α β : Type} {l : List α} {f g : α → List β} (h : ∀ x ∈ l, f x = g x) : l.flatMap f = l.flatMap g := by
  induction l with
  | nil => rfl
  | cons x l ih => rw [List.flatMap_cons, List.flatMap_cons, h x (by simp), ih (fun y hy => h y (by simp [hy]))]

end Ystring
