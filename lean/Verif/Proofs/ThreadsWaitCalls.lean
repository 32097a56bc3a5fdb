import Verif.Proofs.ThreadsWait
/- The number of accesses of every call, whatever it reads: loops over a string -/
namespace Ystring.Thr
open Ptr Spec

variable {U : Prop}

/-- the loops over a string have made at most twice as many accesses as there are bytes in front of `it` -/
theorem wp_next {β : Type} {r : Range} {it c : Nat} {Q : β → Nat → Prop} {B : Nat} {f : Option (Char32 × Nat) → Prog β}
    (hp : r.first ≤ it) (hl : it ≤ r.last) (hB : c + 8 ≤ B)
    (hn : Wp (Ends U B) Q (f none) c)
    (hs : ∀ ch it' c', it < it' → it' ≤ r.last → c' ≤ c + 2 * (it' - it) → Wp (Ends U B) Q (f (some (ch, it'))) c') :
    Wp (Ends U B) Q (safeDecodeNext r it >>= f) c := by
  refine Wp.bind (Wp.mono ?_ (wp_safeDecodeNext (fun c' h => ⟨by omega, by decide, by intro h; cases h⟩) hp hl))
  rintro a c' (⟨rfl, rfl⟩ | ⟨ch, it', rfl, k1, k2, k3⟩)
  · exact hn
  · exact hs _ _ _ k1 k2 k3

variable {r : Range}

theorem wp_toUtf32Loop : ∀ (fuel it c : Nat) (x : List Char32), r.first ≤ it → it ≤ r.last → r.last - it < fuel → c ≤ 2 * (it - r.first) →
    Wp (Ends U (2 * (r.last - r.first) + 8)) (fun _ c => c ≤ 2 * (r.last - r.first) + 8) (toUtf32Loop r fuel it x) c
  | 0, _, _, _, _, _, h, _ => by omega
  | fuel + 1, it, c, x, h1, h2, h3, h4 => by
    unfold toUtf32Loop
    refine wp_next h1 h2 (by omega) (by show c ≤ _; omega) fun ch it' c' k1 k2 k3 => ?_
    exact wp_toUtf32Loop fuel it' c' _ (by omega) k2 (by omega) (by omega)

theorem wp_containsLoop (chr : Char32) : ∀ (fuel it c : Nat), r.first ≤ it → it ≤ r.last → r.last - it < fuel → c ≤ 2 * (it - r.first) →
    Wp (Ends U (2 * (r.last - r.first) + 8)) (fun _ c => c ≤ 2 * (r.last - r.first) + 8) (containsLoop r chr fuel it) c
  | 0, _, _, _, _, h, _ => by omega
  | fuel + 1, it, c, h1, h2, h3, h4 => by
    unfold containsLoop
    refine wp_next h1 h2 (by omega) (by show c ≤ _; omega) fun ch it' c' k1 k2 k3 => ?_
    dsimp only
    split
    · show c' ≤ _; omega
    · exact wp_containsLoop chr fuel it' c' (by omega) k2 (by omega) (by omega)

theorem wp_countCodepointsLoop : ∀ (fuel it n c : Nat), r.first ≤ it → it ≤ r.last → r.last - it < fuel → c ≤ 2 * (it - r.first) →
    Wp (Ends U (2 * (r.last - r.first))) (fun _ c => c ≤ 2 * (r.last - r.first)) (countCodepointsLoop r fuel it n) c
  | 0, _, _, _, _, _, h, _ => by omega
  | fuel + 1, it, n, c, h1, h2, h3, h4 => by
    unfold countCodepointsLoop
    refine Wp.bind (Wp.mono ?_ (wp_skipNext h1 h2))
    rintro ⟨b, it'⟩ c' (⟨rfl, rfl⟩ | ⟨rfl, k1, k2, k3, k4⟩)
    · show c' ≤ _; omega
    · exact wp_countCodepointsLoop fuel it' _ c' (by dsimp only at *; omega) k2 (by dsimp only at *; omega) (by dsimp only at *; omega)

theorem wp_isValidUtf8Loop : ∀ (fuel it c : Nat), r.first ≤ it → it ≤ r.last → r.last - it < fuel → c ≤ 2 * (it - r.first) →
    Wp (Ends U (2 * (r.last - r.first) + 8)) (fun _ c => c ≤ 2 * (r.last - r.first) + 8) (isValidUtf8Loop r fuel it) c
  | 0, _, _, _, _, h, _ => by omega
  | fuel + 1, it, c, h1, h2, h3, h4 => by
    unfold isValidUtf8Loop
    split
    · refine Wp.bind (Wp.mono ?_ (wp_decodeNext h1 h2))
      rintro ⟨ch, it'⟩ c' ⟨k1, k2, k3, k4⟩
      dsimp only at *
      split
      · show c' ≤ _; omega
      · rcases k4 with k4 | ⟨k4, k5⟩
        · contradiction
        · exact wp_isValidUtf8Loop fuel it' c' (by omega) k2 (by omega) (by omega)
    · show c ≤ _; omega

theorem wp_findFirstWhereLoop (pred : Char32 → Bool) : ∀ (fuel it prev c : Nat), r.first ≤ it → it ≤ r.last → r.last - it < fuel → c ≤ 2 * (it - r.first) →
    Wp (Ends U (2 * (r.last - r.first) + 8)) (fun _ c => c ≤ 2 * (r.last - r.first) + 8) (findFirstWhereLoop r pred fuel it prev) c
  | 0, _, _, _, _, _, h, _ => by omega
  | fuel + 1, it, prev, c, h1, h2, h3, h4 => by
    unfold findFirstWhereLoop
    refine wp_next h1 h2 (by omega) (by show c ≤ _; omega) fun ch it' c' k1 k2 k3 => ?_
    dsimp only
    split
    · show c' ≤ _; omega
    · exact wp_findFirstWhereLoop pred fuel it' it' c' (by omega) k2 (by omega) (by omega)

theorem wp_toLowerLoop : ∀ (fuel it c : Nat) (x : Str), r.first ≤ it → it ≤ r.last → r.last - it < fuel → c ≤ 2 * (it - r.first) →
    Wp (Ends U (2 * (r.last - r.first) + 8)) (fun _ c => c ≤ 2 * (r.last - r.first) + 8) (toLowerLoop r fuel it x) c
  | 0, _, _, _, _, _, h, _ => by omega
  | fuel + 1, it, c, x, h1, h2, h3, h4 => by
    unfold toLowerLoop
    refine wp_next h1 h2 (by omega) (by show c ≤ _; omega) fun ch it' c' k1 k2 k3 => ?_
    dsimp only
    refine Wp.bind ?_
    unfold append
    split
    · exact wp_toLowerLoop fuel it' c' _ (by omega) k2 (by omega) (by omega)
    · exact ⟨by omega, by decide, by intro h; cases h⟩

theorem wp_toUpperLoop : ∀ (fuel it c : Nat) (x : Str), r.first ≤ it → it ≤ r.last → r.last - it < fuel → c ≤ 2 * (it - r.first) →
    Wp (Ends U (2 * (r.last - r.first) + 8)) (fun _ c => c ≤ 2 * (r.last - r.first) + 8) (toUpperLoop r fuel it x) c
  | 0, _, _, _, _, _, h, _ => by omega
  | fuel + 1, it, c, x, h1, h2, h3, h4 => by
    unfold toUpperLoop
    refine wp_next h1 h2 (by omega) (by show c ≤ _; omega) fun ch it' c' k1 k2 k3 => ?_
    dsimp only
    split
    · refine Wp.bind ?_
      unfold append
      split
      · exact wp_toUpperLoop fuel it' c' _ (by omega) k2 (by omega) (by omega)
      · exact ⟨by omega, by decide, by intro h; cases h⟩
    · exact wp_toUpperLoop fuel it' c' _ (by omega) k2 (by omega) (by omega)

theorem wp_findLastWhereLoop (hU : U) (pred : Char32 → Bool) : ∀ (fuel it stop c : Nat), r.first ≤ it → it ≤ r.last → it - r.first < fuel →
    c ≤ 3 * (r.last - it) →
    Wp (Ends U (3 * (r.last - r.first) + 15)) (fun _ c => c ≤ 3 * (r.last - r.first) + 15) (findLastWhereLoop r pred fuel it stop) c
  | 0, _, _, _, _, _, h, _ => by omega
  | fuel + 1, it, stop, c, h1, h2, h3, h4 => by
    unfold findLastWhereLoop
    refine Wp.bind (Wp.mono ?_ (wp_safeDecodePrev (fun c' h => ⟨⟨by omega, by decide, fun _ => hU⟩, ⟨by omega, by decide, fun _ => hU⟩⟩) h1 h2))
    rintro a c' (⟨rfl, rfl⟩ | ⟨ch, it', rfl, k1, k2, k3⟩)
    · show c' ≤ _; omega
    · dsimp only
      split
      · show c' ≤ _; omega
      · exact wp_findLastWhereLoop hU pred fuel it' it' c' k1 (by omega) (by omega) (by omega)

theorem wp_compareLoop {r' : Range} : ∀ (fuel it it' c : Nat), r.first ≤ it → it ≤ r.last → r'.first ≤ it' → it' ≤ r'.last → r.last - it < fuel →
    c ≤ 2 * (it - r.first) + 2 * (it' - r'.first) →
    Wp (Ends U (2 * (r.last - r.first) + 2 * (r'.last - r'.first) + 8)) (fun _ c => c ≤ 2 * (r.last - r.first) + 2 * (r'.last - r'.first) + 8)
      (compareLoop r r' fuel it it') c
  | 0, _, _, _, _, _, _, _, h, _ => by omega
  | fuel + 1, it, it', c, h1, h2, h1', h2', h3, h4 => by
    unfold compareLoop
    refine wp_next h1 h2 (by omega) ?_ fun ch i c' k1 k2 k3 => ?_
    · refine wp_next h1' h2' (by omega) (by show c ≤ _; omega) fun ch i' c' k1 k2 k3 => ?_
      show c' ≤ _; omega
    · refine wp_next h1' h2' (by omega) (by show c' ≤ _; omega) fun ch i' c'' l1 l2 l3 => ?_
      dsimp only
      split
      · show c'' ≤ _; omega
      · exact wp_compareLoop fuel i i' c'' (by omega) k2 (by omega) l2 (by omega) (by omega)

/-! ### Encoding -/

theorem wp_encodeLoop {E : Err → Nat → Prop} (chr : Char32) {c0 : Nat} : ∀ (k shift it c : Nat), r.first ≤ it → it + k ≤ r.last → c + k = c0 →
    Wp E (fun _ c => c = c0) (encodeLoop r chr k shift it) c
  | 0, _, _, _, _, _, h => h
  | k + 1, shift, it, c, h1, h2, h3 => by
    unfold encodeLoop
    refine wp_store h1 (by omega) ?_
    refine wp_ptr (by omega) (by omega) ?_
    exact wp_encodeLoop chr k _ (it + 1) (c + 1) (by omega) (by omega) (by omega)

/-- as many accesses as bytes -/
theorem wp_encodeDetail {E : Err → Nat → Prop} (chr : Char32) {n it c : Nat} (h1 : r.first ≤ it) (h2 : it + n ≤ r.last) :
    Wp E (fun _ c' => c' = c + n) (encodeDetail r chr n it) c := by
  unfold encodeDetail
  split
  · refine wp_store h1 (by omega) ?_
    unfold ptr
    rw [if_pos (by omega)]
    show c + 1 = c + n
    omega
  · split
    · refine wp_store h1 (by omega) ?_
      refine wp_ptr (by omega) (by omega) ?_
      exact wp_encodeLoop chr _ _ (it + 1) (c + 1) (by omega) (by omega) (by omega)
    · show c = c + n; omega

theorem encodedLength_le (c : Char32) : getUtf8EncodedLength c ≤ 4 := by
  unfold getUtf8EncodedLength
  repeat' split
  all_goals omega

theorem wp_encodeUtf8Buf (h : r.first ≤ r.last) (chr : Char32) : Wp (Ends U 4) (fun _ c => c ≤ 4) (encodeUtf8Buf r chr) 0 := by
  unfold encodeUtf8Buf
  dsimp only
  have := encodedLength_le chr
  generalize hk : (if getUtf8EncodedLength chr > r.last - r.first then 0 else getUtf8EncodedLength chr) = k
  have hk' : r.first + k ≤ r.last ∧ k ≤ 4 := by rw [← hk]; split <;> omega
  refine Wp.bind (Wp.mono ?_ (wp_encodeDetail chr (Nat.le_refl _) hk'.1))
  rintro _ c rfl
  show 0 + k ≤ 4
  omega

end Ystring.Thr
