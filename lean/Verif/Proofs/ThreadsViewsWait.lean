import Verif.Proofs.ThreadsTextWait
import Verif.Proofs.ThreadsWaitCalls
import Verif.Model.ThreadsViews
/- The number of accesses of the functions of Verif/Model/ThreadsViews.lean, whatever they read -/
namespace Ystring.Thr
open Ptr Spec

variable {U : Prop} {r : Range}

/-- when `d` more accesses have been made before -/
theorem Wp.shift {α : Type} {E : Err → Nat → Prop} {Q : α → Nat → Prop} (d : Nat) : ∀ {p : Prog α} {c : Nat},
    Wp (fun e c => E e (c + d)) (fun a c => Q a (c + d)) p c → Wp E Q p (c + d)
  | .done (.ok _), _, h => h
  | .done (.error _), _, h => h
  | .load _ k, c, h => fun x => by
    have := Wp.shift d (h x)
    rwa [Nat.add_right_comm] at this
  | .store _ _ p, c, h => by
    have := Wp.shift (p := p) d h
    rwa [Nat.add_right_comm] at this

theorem Wp.err {α : Type} {E E' : Err → Nat → Prop} {Q : α → Nat → Prop} (hE : ∀ e c, E e c → E' e c) : ∀ {p : Prog α} {c : Nat},
    Wp E Q p c → Wp E' Q p c
  | .done (.ok _), _, h => h
  | .done (.error _), _, h => hE _ _ h
  | .load _ _, _, h => fun x => Wp.err hE (h x)
  | .store _ _ p, _, h => Wp.err (p := p) hE h

/-- a call that is made when `c` accesses have been made before -/
theorem Wp.later {α : Type} {Q : α → Nat → Prop} {p : Prog α} {B B' c : Nat} (h : Wp (Ends U B) (fun _ c => c ≤ B) p 0) (hB : c + B ≤ B')
    (hq : ∀ a c', c' ≤ c + B → Q a c') : Wp (Ends U B') Q p c := by
  have := Wp.shift (E := Ends U B') (Q := Q) c (p := p) (c := 0)
    (Wp.mono (fun a c' h => hq a _ (by omega)) (Wp.err (fun e c' (h : Ends U B e c') => ⟨by have := h.1; omega, h.2⟩) h))
  rwa [Nat.zero_add] at this

/-- what a search found: nothing, or a code point in the string -/
def FoundIn (r : Range) (x : Subrange × Char32) : Prop :=
  x = (⟨npos, 0⟩, INVALID_CHAR) ∨ ∃ p q, p < q ∧ q ≤ r.last - r.first ∧ x.1 = ⟨p, q - p⟩

theorem wp_findFirstWhereLoop' (pred : Char32 → Bool) : ∀ (fuel it c : Nat), r.first ≤ it → it ≤ r.last → r.last - it < fuel →
    c ≤ 2 * (it - r.first) →
    Wp (Ends U (2 * (r.last - r.first) + 8)) (fun x c => FoundIn r x ∧ c ≤ 2 * (r.last - r.first) + 8) (findFirstWhereLoop r pred fuel it it) c
  | 0, _, _, _, _, h, _ => by omega
  | fuel + 1, it, c, h1, h2, h3, h4 => by
    unfold findFirstWhereLoop
    refine wp_next h1 h2 (by omega) ⟨.inl rfl, by omega⟩ fun ch it' c' k1 k2 k3 => ?_
    dsimp only
    split
    · exact ⟨.inr ⟨it - r.first, it' - r.first, by omega, by omega, by
        show (⟨it - r.first, it' - it⟩ : Subrange) = _
        rw [show it' - r.first - (it - r.first) = it' - it by omega]⟩, by omega⟩
    · exact wp_findFirstWhereLoop' pred fuel it' c' (by omega) k2 (by omega) (by omega)

theorem wp_findFirstWhere (h : r.first ≤ r.last) (pred : Char32 → Bool) (o : Nat) (hU : o ≤ r.last - r.first ∨ U) :
    Wp (Ends U (2 * (r.last - r.first) + 8)) (fun x c => FoundIn r x ∧ c ≤ 2 * (r.last - r.first) + 8) (findFirstWhere r pred o) 0 := by
  unfold findFirstWhere
  by_cases ho : r.first + o ≤ r.last
  · exact wp_ptr (by omega) ho (wp_findFirstWhereLoop' pred _ _ _ (by omega) ho (by omega) (by omega))
  · refine Wp.bind ?_
    unfold ptr
    rw [if_neg (by omega)]
    exact ⟨Nat.zero_le _, by decide, fun _ => hU.elim (fun h => by omega) id⟩

theorem wp_findLastWhereLoop' (hU : U) (pred : Char32 → Bool) : ∀ (fuel it c : Nat), r.first ≤ it → it ≤ r.last → it - r.first < fuel →
    c ≤ 3 * (r.last - it) →
    Wp (Ends U (3 * (r.last - r.first) + 15)) (fun x c => FoundIn r x ∧ c ≤ 3 * (r.last - r.first) + 15) (findLastWhereLoop r pred fuel it it) c
  | 0, _, _, _, _, h, _ => by omega
  | fuel + 1, it, c, h1, h2, h3, h4 => by
    unfold findLastWhereLoop
    refine Wp.bind (Wp.mono ?_ (wp_safeDecodePrev (fun c' h => ⟨⟨by omega, by decide, fun _ => hU⟩, ⟨by omega, by decide, fun _ => hU⟩⟩) h1 h2))
    rintro a c' (⟨rfl, rfl⟩ | ⟨ch, it', rfl, k1, k2, k3⟩)
    · exact ⟨.inl rfl, by omega⟩
    · dsimp only
      split
      · exact ⟨.inr ⟨it' - r.first, it - r.first, by omega, by omega, by
          show (⟨it' - r.first, it - it'⟩ : Subrange) = _
          rw [show it - r.first - (it' - r.first) = it - it' by omega]⟩, by omega⟩
      · exact wp_findLastWhereLoop' hU pred fuel it' c' k1 (by omega) (by omega) (by omega)

theorem wp_findLastWhere (hU : U) (h : r.first ≤ r.last) (pred : Char32 → Bool) (o : Nat) :
    Wp (Ends U (3 * (r.last - r.first) + 15)) (fun x c => FoundIn r x ∧ c ≤ 3 * (r.last - r.first) + 15) (findLastWhere r pred o) 0 := by
  unfold findLastWhere
  exact wp_ptr (by omega) (by omega) (wp_findLastWhereLoop' hU pred _ _ _ (by omega) (by omega) (by omega) (by omega))

/-- `substr` does not read anything -/
theorem wp_subview {pos n c B : Nat} {Q : Range → Nat → Prop} (h : r.first ≤ r.last) (hc : c ≤ B)
    (hq : ∀ r' : Range, r'.first ≤ r'.last → r'.last - r'.first ≤ r.last - r.first → Q r' c) :
    Wp (Ends U B) Q (fin (subview r pos n)) c := by
  unfold subview
  split
  · exact ⟨hc, by decide, by intro h; cases h⟩
  · exact hq _ (by dsimp only; omega) (by dsimp only; omega)

/-! ### trim -/

theorem wp_trimEndWhere (hU : U) (h : r.first ≤ r.last) (pred : Char32 → Bool) :
    Wp (Ends U (3 * (r.last - r.first) + 15)) (fun _ c => c ≤ 3 * (r.last - r.first) + 15) (trimEndWhere r pred) 0 := by
  unfold trimEndWhere
  refine Wp.bind (Wp.mono ?_ (wp_findLastWhere hU h _ _))
  rintro ⟨s, ch⟩ c ⟨-, k⟩
  dsimp only
  split
  · exact k
  · exact wp_subview h k fun _ _ _ => k

theorem wp_trimStartWhere' (h : r.first ≤ r.last) (pred : Char32 → Bool) :
    Wp (Ends U (2 * (r.last - r.first) + 8))
      (fun r' c => (r'.first ≤ r'.last ∧ r'.last - r'.first ≤ r.last - r.first) ∧ c ≤ 2 * (r.last - r.first) + 8) (trimStartWhere r pred) 0 := by
  unfold trimStartWhere
  refine Wp.bind (Wp.mono ?_ (wp_findFirstWhere h _ _ (.inl (Nat.zero_le _))))
  rintro ⟨s, ch⟩ c ⟨-, k⟩
  dsimp only
  split
  · exact ⟨⟨Nat.le_refl _, Nat.zero_le _⟩, k⟩
  · exact wp_subview h k fun _ h1 h2 => ⟨⟨h1, h2⟩, k⟩

theorem wp_trimStartWhere (h : r.first ≤ r.last) (pred : Char32 → Bool) :
    Wp (Ends U (2 * (r.last - r.first) + 8)) (fun _ c => c ≤ 2 * (r.last - r.first) + 8) (trimStartWhere r pred) 0 :=
  Wp.mono (fun _ _ k => k.2) (wp_trimStartWhere' h pred)

theorem wp_trimWhere (hU : U) (h : r.first ≤ r.last) (pred : Char32 → Bool) :
    Wp (Ends U (5 * (r.last - r.first) + 23)) (fun _ c => c ≤ 5 * (r.last - r.first) + 23) (trimWhere r pred) 0 := by
  unfold trimWhere
  refine Wp.bind (Wp.mono ?_ (Wp.err (fun e c (h : Ends U _ e c) => ⟨by have := h.1; omega, h.2⟩) (wp_trimStartWhere' h pred)))
  rintro r' c ⟨⟨k1, k2⟩, k3⟩
  refine Wp.later (wp_trimEndWhere hU k1 pred) (by omega) fun _ c' k => ?_
  omega

/-! ### Newlines -/

theorem wp_findFirstNewline (h : r.first ≤ r.last) (hs : r.last - r.first + 12 < 2 ^ 64) (b : List Char32) (o : Nat) (hU : o ≤ r.last - r.first ∨ U) :
    Wp (Ends U (2 * (r.last - r.first) + 16)) (fun _ c => c ≤ 2 * (r.last - r.first) + 16) (findFirstNewline b r o) 0 := by
  unfold findFirstNewline
  refine Wp.bind (Wp.mono ?_ (Wp.err (fun e c (h : Ends U _ e c) => ⟨by have := h.1; omega, h.2⟩) (wp_findFirstWhere h _ _ hU)))
  rintro ⟨s, ch⟩ c ⟨k1, k2⟩
  dsimp only
  split
  · show c ≤ _; omega
  · rename_i hc
    rcases k1 with k1 | ⟨p, q, k3, k4, k5⟩
    · injection k1 with k1 k1'
      subst k1'
      exact absurd (by decide) hc
    · dsimp only at k5
      subst k5
      rw [stop_of_le (by omega) k4 hs]
      refine wp_ptr (by omega) (by omega) ?_
      refine wp_next' (by omega) (by omega) (fun _ => by omega) (fun _ => by show c ≤ _; omega) fun ch it' c' j1 j2 j3 j4 => ?_
      dsimp only
      split <;> (show c' ≤ _; omega)

theorem wp_findLastNewline (hU : U) (h : r.first ≤ r.last) (b : List Char32) (o : Nat) :
    Wp (Ends U (3 * (r.last - r.first) + 30)) (fun _ c => c ≤ 3 * (r.last - r.first) + 30) (findLastNewline b r o) 0 := by
  unfold findLastNewline
  refine Wp.bind (Wp.mono ?_ (Wp.err (fun e c (h : Ends U _ e c) => ⟨by have := h.1; omega, h.2⟩) (wp_findLastWhere hU h _ _)))
  rintro ⟨s, ch⟩ c ⟨k1, k2⟩
  dsimp only
  split
  · show c ≤ _; omega
  · rename_i hc
    rcases k1 with k1 | ⟨p, q, k3, k4, k5⟩
    · injection k1 with k1 k1'
      subst k1'
      exact absurd (by decide) hc
    · dsimp only at k5
      subst k5
      refine wp_ptr (by show r.first ≤ r.first + p; omega) (by show r.first + p ≤ r.last; omega) ?_
      refine Wp.bind (Wp.mono ?_ (wp_safeDecodePrev15 hU (c := c) (by show r.first ≤ r.first + p; omega) (by show r.first + p ≤ r.last; omega) (by omega)))
      rintro (_ | ⟨ch, i'⟩) c' l
      · show c' ≤ _; omega
      · dsimp only
        split <;> (show c' ≤ _; omega)

/-! ### Substrings -/

theorem wp_getCappedCharPos {n : Nat} (hn : r.last - r.first ≤ n) (h : r.first ≤ r.last) (hs : n + 12 < 2 ^ 64) (pos : Int) (hU : pos ≥ 0 ∨ U) :
    Wp (Ends U (10 * n + 15)) (fun _ c => c ≤ 10 * n + 15) (getCappedCharPos r pos) 0 := by
  unfold getCappedCharPos
  refine Wp.bind (Wp.later (wp_getCharPos rfl h (by omega) pos hU) (by split <;> omega) fun p c' k => ?_)
  have : c' ≤ 10 * n + 15 := by split at k <;> omega
  split <;> exact this

theorem wp_getCappedCodepointPos {n : Nat} (hn : r.last - r.first ≤ n) (h : r.first ≤ r.last) (pos : Int) (hU : pos ≠ PTRDIFF_MIN ∨ U) :
    Wp (Ends U (6 * n)) (fun _ c => c ≤ 6 * n) (getCappedCodepointPos r pos) 0 := by
  unfold getCappedCodepointPos
  refine Wp.bind (Wp.later (wp_getCodepointPos rfl h pos hU) (by split <;> omega) fun p c' k => ?_)
  have : c' ≤ 6 * n := by split at k <;> omega
  split <;> exact this

/-- two positions, the second in a part of the string -/
theorem wp_two {α : Type} {pos : Range → Int → Prog Nat} {i j : Int} {K : Nat} (h : r.first ≤ r.last)
    (h1 : Wp (Ends U K) (fun _ c => c ≤ K) (pos r i) 0)
    (h2 : ∀ r' : Range, r'.first ≤ r'.last → r'.last - r'.first ≤ r.last - r.first → Wp (Ends U K) (fun _ c => c ≤ K) (pos r' j) 0)
    (p n : Nat → Nat) (f : Nat → Nat → α) :
    Wp (Ends U (2 * K)) (fun _ c => c ≤ 2 * K) (do
      let s ← pos r i
      let r' ← fin (subview r (p s) (n s))
      let t ← pos r' j
      fin (.ok (f s t))) 0 := by
  refine Wp.bind (Wp.later h1 (by omega) fun s c k => ?_)
  refine Wp.bind (wp_subview h (by omega) fun r' k1 k2 => ?_)
  refine Wp.bind (Wp.later (h2 r' k1 k2) (by omega) fun t c' k' => ?_)
  show c' ≤ _; omega

theorem wp_both {α : Type} {pos : Range → Int → Prog Nat} {i j : Int} {K : Nat}
    (h1 : Wp (Ends U K) (fun _ c => c ≤ K) (pos r i) 0) (h2 : Wp (Ends U K) (fun _ c => c ≤ K) (pos r j) 0) (f : Nat → Nat → α) :
    Wp (Ends U (2 * K)) (fun _ c => c ≤ 2 * K) (do
      let s ← pos r i
      let t ← pos r j
      fin (.ok (f s t))) 0 := by
  refine Wp.bind (Wp.later h1 (by omega) fun s c k => ?_)
  refine Wp.bind (Wp.later h2 (by omega) fun t c' k' => ?_)
  show c' ≤ _; omega

theorem adjustEnd_ge {i j : Int} (h1 : i ≥ 0) (h2 : adjustEnd i j ≥ 0) : adjustEnd i j ≥ i := by
  unfold adjustEnd at h2 ⊢
  split
  · omega
  · rename_i h
    rw [if_neg h] at h2
    simp only [h1, h2, decide_true, and_true] at h
    omega

theorem adjustEnd_or (i j : Int) : adjustEnd i j = i ∨ adjustEnd i j = j := by
  unfold adjustEnd; split <;> simp

theorem wp_getCharSubstring (h : r.first ≤ r.last) (hs : r.last - r.first + 12 < 2 ^ 64) (i j : Int) (hU : (i ≥ 0 ∧ j ≥ 0) ∨ U) :
    Wp (Ends U (20 * (r.last - r.first) + 30)) (fun _ c => c ≤ 20 * (r.last - r.first) + 30) (getCharSubstring r i j) 0 := by
  have h0 : ∀ (r' : Range) (i : Int), r'.first ≤ r'.last → r'.last - r'.first ≤ r.last - r.first → (i ≥ 0 ∨ U) →
      Wp (Ends U (10 * (r.last - r.first) + 15)) (fun _ c => c ≤ 10 * (r.last - r.first) + 15) (getCappedCharPos r' i) 0 :=
    fun r' i k1 k2 k3 => wp_getCappedCharPos k2 k1 hs i k3
  have hr : Wp (Ends U (2 * (10 * (r.last - r.first) + 15))) (fun _ c => c ≤ 2 * (10 * (r.last - r.first) + 15)) (getCharSubstringRange r i j) 0 := by
    unfold getCharSubstringRange
    have ha := adjustEnd_or i j
    dsimp only
    split
    · rename_i k
      have := adjustEnd_ge k.1 k.2
      exact wp_two h (h0 r _ h (Nat.le_refl _) (.inl k.1)) (fun r' k1 k2 => h0 r' _ k1 k2 (.inl (by omega))) (fun s => s) (fun _ => npos)
        fun s t => (⟨s, t⟩ : Subrange)
    · have hU : U := hU.elim (fun k => by omega) id
      split
      · exact wp_two h (h0 r _ h (Nat.le_refl _) (.inr hU)) (fun r' k1 k2 => h0 r' _ k1 k2 (.inr hU)) (fun _ => 0) (fun s => s)
          fun s t => (⟨t, sizeSub s t⟩ : Subrange)
      split
      · exact wp_two h (h0 r _ h (Nat.le_refl _) (.inr hU)) (fun r' k1 k2 => h0 r' _ k1 k2 (.inr hU)) (fun s => s) (fun _ => npos)
          fun s t => (⟨s, sizeSub t s⟩ : Subrange)
      · exact wp_both (h0 r _ h (Nat.le_refl _) (.inr hU)) (h0 r _ h (Nat.le_refl _) (.inr hU))
          fun s t => (⟨s, if t > s then t - s else 0⟩ : Subrange)
  unfold getCharSubstring
  refine Wp.bind (Wp.later hr (by omega) fun x c k => ?_)
  exact wp_subview h (by omega) fun _ _ _ => by show c ≤ _; omega

theorem wp_getCodepointSubstring (h : r.first ≤ r.last) (i j : Int) (hU : (i > PTRDIFF_MIN ∧ j > PTRDIFF_MIN) ∨ U) :
    Wp (Ends U (12 * (r.last - r.first))) (fun _ c => c ≤ 12 * (r.last - r.first)) (getCodepointSubstring r i j) 0 := by
  have h0 : ∀ (r' : Range) (i : Int), r'.first ≤ r'.last → r'.last - r'.first ≤ r.last - r.first → (i ≠ PTRDIFF_MIN ∨ U) →
      Wp (Ends U (6 * (r.last - r.first))) (fun _ c => c ≤ 6 * (r.last - r.first)) (getCappedCodepointPos r' i) 0 :=
    fun r' i k1 k2 k3 => wp_getCappedCodepointPos k2 k1 i k3
  have hm : PTRDIFF_MIN < 0 := by decide
  have hr : Wp (Ends U (2 * (6 * (r.last - r.first)))) (fun _ c => c ≤ 2 * (6 * (r.last - r.first))) (getCodepointSubstringRange r i j) 0 := by
    unfold getCodepointSubstringRange
    have ha := adjustEnd_or i j
    have hi : i ≠ PTRDIFF_MIN ∨ U := hU.imp (fun k => by omega) id
    have hj : adjustEnd i j ≠ PTRDIFF_MIN ∨ U := hU.imp (fun k => by omega) id
    dsimp only
    split
    · rename_i k
      have := adjustEnd_ge k.1 k.2
      exact wp_two h (h0 r _ h (Nat.le_refl _) hi) (fun r' k1 k2 => h0 r' _ k1 k2 (.inl (by omega))) (fun s => s) (fun _ => npos)
        fun s t => (⟨s, t⟩ : Subrange)
    split
    · exact wp_two h (h0 r _ h (Nat.le_refl _) hj) (fun r' k1 k2 => h0 r' _ k1 k2 (hU.imp (fun k => by omega) id)) (fun _ => 0) (fun s => s)
        fun s t => (⟨t, sizeSub s t⟩ : Subrange)
    split
    · exact wp_two h (h0 r _ h (Nat.le_refl _) hi) (fun r' k1 k2 => h0 r' _ k1 k2 hj) (fun s => s) (fun _ => npos)
        fun s t => (⟨s, t⟩ : Subrange)
    · exact wp_both (h0 r _ h (Nat.le_refl _) hi) (h0 r _ h (Nat.le_refl _) hj) fun s t => (⟨s, max s t⟩ : Subrange)
  unfold getCodepointSubstring
  refine Wp.bind (Wp.later hr (by omega) fun x c k => ?_)
  exact wp_subview h (by omega) fun _ _ _ => by show c ≤ _; omega

end Ystring.Thr
