import Verif.Proofs.ThreadsWithin
/-
The number of accesses of a call, whatever it reads: `Wp E Q p c` says that `p`, when `c` accesses have been made before, comes to its end
with `Q` of the value and the number of accesses, or with `E` of the exception and the number of accesses, for all bytes that it may read.
-/
namespace Ystring.Thr
open Ptr Spec

variable {α β : Type} {E : Err → Nat → Prop}

def Wp (E : Err → Nat → Prop) (Q : α → Nat → Prop) : Prog α → Nat → Prop
  | .done (.ok a), c => Q a c
  | .done (.error e), c => E e c
  | .load _ k, c => ∀ x, Wp E Q (k x) (c + 1)
  | .store _ _ p, c => Wp E Q p (c + 1)

theorem Wp.bind {Q : β → Nat → Prop} {f : α → Prog β} : ∀ {p : Prog α} {c : Nat}, Wp E (fun a c => Wp E Q (f a) c) p c → Wp E Q (p >>= f) c
  | .done (.ok _), _, h => h
  | .done (.error _), _, h => h
  | .load _ _, _, h => fun x => Wp.bind (h x)
  | .store _ _ p, _, h => Wp.bind (p := p) h

theorem Wp.mono {Q Q' : α → Nat → Prop} (hq : ∀ a c, Q a c → Q' a c) : ∀ {p : Prog α} {c : Nat}, Wp E Q p c → Wp E Q' p c
  | .done (.ok _), _, h => hq _ _ h
  | .done (.error _), _, h => h
  | .load _ _, _, h => fun x => Wp.mono hq (h x)
  | .store _ _ p, _, h => Wp.mono (p := p) hq h

theorem wp_load {Q : β → Nat → Prop} {r : Range} {it c : Nat} {f : UInt8 → Prog β} (h1 : r.first ≤ it) (h2 : it < r.last)
    (h : ∀ x, Wp E Q (f x) (c + 1)) : Wp E Q (load r it >>= f) c := by
  refine Wp.bind ?_
  unfold load
  rw [if_pos ⟨h1, h2⟩]
  exact h

theorem wp_store {Q : β → Nat → Prop} {r : Range} {it c : Nat} {x : UInt8} {f : Unit → Prog β} (h1 : r.first ≤ it) (h2 : it < r.last)
    (h : Wp E Q (f ()) (c + 1)) : Wp E Q (store r it x >>= f) c := by
  refine Wp.bind ?_
  unfold store
  rw [if_pos ⟨h1, h2⟩]
  exact h

theorem wp_ptr {Q : β → Nat → Prop} {r : Range} {it c : Nat} {f : Nat → Prog β} (h1 : r.first ≤ it) (h2 : it ≤ r.last)
    (h : Wp E Q (f it) c) : Wp E Q (ptr r it >>= f) c := by
  refine Wp.bind ?_
  unfold ptr
  rw [if_pos ⟨h1, h2⟩]
  exact h

theorem wp_back {Q : β → Nat → Prop} {r : Range} {k it c : Nat} {f : Nat → Prog β} (h1 : r.first + k ≤ it) (h2 : it ≤ r.last)
    (h : Wp E Q (f (it - k)) c) : Wp E Q (back r k it >>= f) c := by
  refine Wp.bind ?_
  unfold back
  rw [if_pos ⟨h1, h2⟩]
  exact h

/-- what a call comes to: at most `B` accesses, no endless loop, and undefined behaviour only if `U` -/
def Ends (U : Prop) (B : Nat) (e : Err) (c : Nat) : Prop := c ≤ B ∧ e ≠ .diverge ∧ (e = .ub → U)

/-! ### Decoding -/

/-- one character from `it` on: at most twice as many accesses as bytes, and at most eight -/
def Dec (r : Range) (it c : Nat) (x : Char32 × Nat) (c' : Nat) : Prop :=
  it ≤ x.2 ∧ x.2 ≤ r.last ∧ c' ≤ c + 8 ∧ (x.1 = INVALID_CHAR ∨ (it < x.2 ∧ c' ≤ c + 2 * (x.2 - it)))

theorem wp_decodeNextLoop {r : Range} {it0 c0 : Nat} : ∀ (n i : Nat) (x : Char32) (it c : Nat), r.first ≤ it0 → it = it0 + 1 + i → it + n ≤ r.last →
    c + n ≤ c0 + 2 * (i + 1 + n) → i + n ≤ 3 → Wp E (Dec r it0 c0) (decodeNextLoop r n i x it) c
  | 0, i, x, it, c, h0, h1, h2, h3, h4 => by
    unfold decodeNextLoop
    exact ⟨by show it0 ≤ it; omega, by show it ≤ _; omega, by omega, .inr ⟨by show it0 < it; omega, by show c ≤ c0 + 2 * (it - it0); omega⟩⟩
  | n + 1, i, x, it, c, h0, h1, h2, h3, h4 => by
    unfold decodeNextLoop
    refine wp_load (by omega) (by omega) fun b => ?_
    split
    · refine wp_ptr (by omega) (by omega) ?_
      exact wp_decodeNextLoop n (i + 1) _ (it + 1) (c + 1) h0 (by omega) (by omega) (by omega) (by omega)
    · refine wp_back (by omega) (by omega) ?_
      exact ⟨by show it0 ≤ it - (i + 1); omega, by show it - (i + 1) ≤ _; omega, by omega, .inl rfl⟩

theorem wp_decodeNextLead {r : Range} {it c0 c : Nat} {mask : UInt8} {n : Nat} (h1 : r.first ≤ it) (h2 : it < r.last) (h3 : n ≤ 3)
    (h : c ≤ c0 + n + 1) : Wp E (Dec r it c0) (decodeNextLead r it mask n) c := by
  unfold decodeNextLead
  refine wp_load (by omega) (by omega) fun b => ?_
  refine wp_ptr (by omega) (by omega) ?_
  split
  · refine wp_back (by omega) (by omega) ?_
    exact ⟨by show it ≤ it + 1 - 1; omega, by show it + 1 - 1 ≤ _; omega, by omega, .inl rfl⟩
  · exact wp_decodeNextLoop n 0 _ (it + 1) (c + 1) h1 (by omega) (by omega) (by omega) (by omega)

theorem wp_decodeNext {r : Range} {it c : Nat} (h1 : r.first ≤ it) (h2 : it ≤ r.last) : Wp E (Dec r it c) (decodeNext r it) c := by
  unfold decodeNext
  split
  · exact ⟨Nat.le_refl _, h2, by omega, .inl rfl⟩
  · refine wp_load (by omega) (by omega) fun b => ?_
    split
    · refine wp_load (by omega) (by omega) fun b => ?_
      refine wp_ptr (by omega) (by omega) ?_
      exact ⟨by show it ≤ it + 1; omega, by show it + 1 ≤ _; omega, by omega, .inr ⟨by show it < it + 1; omega, by show _ ≤ c + 2 * (it + 1 - it); omega⟩⟩
    · refine wp_load (by omega) (by omega) fun b => ?_
      split
      · exact wp_decodeNextLead h1 (by omega) (by omega) (by omega)
      · refine wp_load (by omega) (by omega) fun b => ?_
        split
        · exact wp_decodeNextLead h1 (by omega) (by omega) (by omega)
        · refine wp_load (by omega) (by omega) fun b => ?_
          split
          · exact wp_decodeNextLead h1 (by omega) (by omega) (by omega)
          · exact ⟨Nat.le_refl _, h2, by omega, .inl rfl⟩

/-- one character in front of `it`: at most three times as many accesses as bytes, and at most fifteen -/
def DecBack (r : Range) (it c : Nat) (x : Char32 × Nat) (c' : Nat) : Prop :=
  r.first ≤ x.2 ∧ x.2 ≤ it ∧ c' ≤ c + 15 ∧ (x.1 = INVALID_CHAR ∨ (x.2 < it ∧ c' ≤ c + 3 * (it - x.2)))

theorem wp_decodePrevLoop {r : Range} {it0 c0 : Nat} (hub : ∀ c, c ≤ c0 + 15 → E .ub c) : ∀ (fuel n : Nat) (x : Char32) (it c : Nat), r.first ≤ it →
    it + (n + 1) = it0 → it0 ≤ r.last → it - r.first < fuel → c ≤ c0 + 1 + 2 * n → n ≤ 6 →
    Wp E (DecBack r it0 c0) (decodePrevLoop r fuel n x it) c
  | 0, _, _, _, _, _, _, _, h, _, _ => by omega
  | fuel + 1, n, x, it, c, h0, h1, h2, h3, h4, h5 => by
    unfold decodePrevLoop
    refine wp_load (by omega) (by omega) fun b => ?_
    split
    · split
      · refine wp_ptr (by omega) (by omega) ?_
        exact ⟨by show _ ≤ it + (n + 1); omega, by show it + (n + 1) ≤ _; omega, by omega, .inl rfl⟩
      · refine wp_load (by omega) (by omega) fun b => ?_
        split
        · exact hub _ (by omega)
        · refine wp_back (by omega) (by omega) ?_
          exact wp_decodePrevLoop hub fuel (n + 1) _ (it - 1) (c + 2) (by omega) (by omega) h2 (by omega) (by omega) (by omega)
    · refine wp_load (by omega) (by omega) fun b => ?_
      have key : ∀ y, n = 1 ∨ n = 2 ∨ n = 3 → DecBack r it0 c0 (y, it) (c + 1 + 1) := fun y hn =>
        ⟨h0, by show it ≤ _; omega, by omega, .inr ⟨by show it < _; omega, by show _ ≤ c0 + 3 * (it0 - it); omega⟩⟩
      split
      · exact key _ (by omega)
      · split
        · exact key _ (by omega)
        · split
          · exact key _ (by omega)
          · refine wp_ptr (by omega) (by omega) ?_
            exact ⟨by show _ ≤ it + (n + 1); omega, by show it + (n + 1) ≤ _; omega, by omega, .inl rfl⟩

theorem wp_decodePrev {r : Range} {it c : Nat} (hub : ∀ c', c' ≤ c + 15 → E .ub c') (h1 : r.first ≤ it) (h2 : it ≤ r.last) :
    Wp E (DecBack r it c) (decodePrev r it) c := by
  unfold decodePrev
  split
  · exact ⟨h1, Nat.le_refl _, by omega, .inl rfl⟩
  · refine wp_back (by omega) (by omega) ?_
    refine wp_load (by omega) (by omega) fun b => ?_
    split
    · refine wp_load (by omega) (by omega) fun b => ?_
      exact ⟨by show _ ≤ it - 1; omega, by show it - 1 ≤ _; omega, by omega, .inr ⟨by show it - 1 < _; omega, by show _ ≤ c + 3 * (it - (it - 1)); omega⟩⟩
    · exact wp_decodePrevLoop hub _ 0 _ (it - 1) (c + 1) (by omega) (by omega) h2 (by omega) (by omega) (by omega)

theorem wp_skipNextLoop {r : Range} {it0 c0 : Nat} : ∀ (fuel n it c : Nat), r.first ≤ it → it0 < it → it ≤ r.last → r.last - it < fuel →
    c + it0 ≤ c0 + it → Wp E (fun it' c' => it0 < it' ∧ it' ≤ r.last ∧ c' ≤ c0 + (r.last - it0) ∧ c' ≤ c0 + 2 * (it' - it0)) (skipNextLoop r fuel n it) c
  | 0, _, _, _, _, _, _, h, _ => by omega
  | fuel + 1, n, it, c, h0, h1, h2, h3, h4 => by
    unfold skipNextLoop
    split
    · refine wp_load (by omega) (by omega) fun b => ?_
      split
      · split
        · refine wp_ptr (by omega) (by omega) ?_
          exact wp_skipNextLoop fuel (n - 1) (it + 1) (c + 1) (by omega) (by omega) (by omega) (by omega) (by omega)
        · exact ⟨h1, h2, by omega, by omega⟩
      · exact ⟨h1, h2, by omega, by omega⟩
    · exact ⟨h1, h2, by omega, by omega⟩

/-- one step: at most twice as many accesses as bytes, and at most as many as there are bytes left -/
def Skip (r : Range) (it c : Nat) (x : Bool × Nat) (c' : Nat) : Prop :=
  (x.1 = false ∧ c' = c) ∨ (x.1 = true ∧ it < x.2 ∧ x.2 ≤ r.last ∧ c' ≤ c + (r.last - it) ∧ c' ≤ c + 2 * (x.2 - it))

theorem wp_skipNext {r : Range} {it c : Nat} (h1 : r.first ≤ it) (h2 : it ≤ r.last) : Wp E (Skip r it c) (skipNext r it) c := by
  unfold skipNext
  split
  · exact .inl ⟨rfl, rfl⟩
  · refine wp_load (by omega) (by omega) fun b => ?_
    refine wp_ptr (by omega) (by omega) ?_
    split
    · exact .inr ⟨rfl, by show it < it + 1; omega, by show it + 1 ≤ _; omega, by omega, by show _ ≤ c + 2 * (it + 1 - it); omega⟩
    · refine Wp.bind (Wp.mono ?_ (wp_skipNextLoop (it0 := it) (c0 := c) _ _ (it + 1) (c + 1) (by omega) (by omega) (by omega) (by omega) (by omega)))
      rintro a c' ⟨k1, k2, k3, k4⟩
      exact .inr ⟨rfl, k1, k2, k3, k4⟩

/-- as `Dec`, with an exception for what is not UTF-8 -/
theorem wp_safeDecodeNext {r : Range} {it c : Nat} (hE : ∀ c', c' ≤ c + 8 → E .ystring c') (h1 : r.first ≤ it) (h2 : it ≤ r.last) :
    Wp E (fun x c' => (x = none ∧ c' = c) ∨ ∃ ch it', x = some (ch, it') ∧ it < it' ∧ it' ≤ r.last ∧ c' ≤ c + 2 * (it' - it)) (safeDecodeNext r it) c := by
  unfold safeDecodeNext
  split
  · exact .inl ⟨rfl, rfl⟩
  · refine Wp.bind (Wp.mono ?_ (wp_decodeNext h1 h2))
    rintro ⟨ch, it'⟩ c' ⟨k1, k2, k3, k4⟩
    dsimp only at *
    split
    · exact hE _ k3
    · rcases k4 with k4 | ⟨k4, k5⟩
      · contradiction
      · exact .inr ⟨ch, it', rfl, k4, k2, k5⟩

theorem wp_safeDecodePrev {r : Range} {it c : Nat} (hE : ∀ c', c' ≤ c + 15 → E .ystring c' ∧ E .ub c') (h1 : r.first ≤ it) (h2 : it ≤ r.last) :
    Wp E (fun x c' => (x = none ∧ c' = c) ∨ ∃ ch it', x = some (ch, it') ∧ r.first ≤ it' ∧ it' < it ∧ c' ≤ c + 3 * (it - it')) (safeDecodePrev r it) c := by
  unfold safeDecodePrev
  split
  · exact .inl ⟨rfl, rfl⟩
  · refine Wp.bind (Wp.mono ?_ (wp_decodePrev (fun c h => (hE c h).2) h1 h2))
    rintro ⟨ch, it'⟩ c' ⟨k1, k2, k3, k4⟩
    dsimp only at *
    split
    · exact (hE _ k3).1
    · rcases k4 with k4 | ⟨k4, k5⟩
      · contradiction
      · exact .inr ⟨ch, it', rfl, k1, k4, k5⟩

end Ystring.Thr
