import Verif.Proofs.ThreadsWaitUnescape
/- The number of accesses of the functions of Verif/Model/ThreadsMore.lean, whatever they read -/
namespace Ystring.Thr
open Ptr Spec

variable {U : Prop} {r : Range}

theorem wp_skipPrevLoop {E : Err → Nat → Prop} {it0 : Nat} (h0 : it0 ≤ r.last) : ∀ (fuel n it c d : Nat), r.first < it → it - r.first ≤ fuel →
    it0 = it + d → n = d % 4294967296 → c ≤ d → Wp E (fun _ c => c ≤ it0 - r.first + 1) (skipPrevLoop r fuel n it) c
  | 0, _, _, _, _, _, _, _, _, _ => by omega
  | fuel + 1, n, it, c, d, h1, h2, h3, h4, h5 => by
    unfold skipPrevLoop
    refine wp_back (by omega) (by omega) ?_
    refine wp_load (by omega) (by omega) fun b => ?_
    split
    · split
      · show c + 1 ≤ _; omega
      · exact wp_skipPrevLoop h0 fuel _ (it - 1) (c + 1) (d + 1) (by omega) (by omega) (by omega) (by omega) (by omega)
    · refine wp_load (by omega) (by omega) fun b => ?_
      generalize (if b &&& 0x80 = 0 then 1
        else if b &&& 0xE0 = 0xC0 then 2
        else if b &&& 0xF0 = 0xE0 then 3
        else if b &&& 0xF8 = 0xF0 then 4
        else 4294967295) = k
      dsimp only
      split
      · show c + 1 + 1 ≤ _; omega
      · refine wp_ptr (by omega) (by omega) ?_
        show c + 1 + 1 ≤ _; omega

theorem wp_skipPrev {E : Err → Nat → Prop} {first it : Nat} (h : first ≤ it) :
    Wp E (fun _ c => c ≤ it - first + 1) (skipPrev ⟨first, it⟩ it) 0 := by
  unfold skipPrev
  split
  · exact Nat.zero_le _
  · rename_i h'
    exact wp_skipPrevLoop (r := ⟨first, it⟩) (Nat.le_refl _) _ 0 it 0 0 (by dsimp only at *; omega) (by dsimp only; omega) rfl rfl (Nat.le_refl _)

theorem wp_toTitleLoop : ∀ (fuel it c : Nat) (x : Str) (p : Bool), r.first ≤ it → it ≤ r.last → r.last - it < fuel → c ≤ 2 * (it - r.first) →
    Wp (Ends U (2 * (r.last - r.first) + 8)) (fun _ c => c ≤ 2 * (r.last - r.first) + 8) (toTitleLoop r fuel it x p) c
  | 0, _, _, _, _, _, _, h, _ => by omega
  | fuel + 1, it, c, x, p, h1, h2, h3, h4 => by
    unfold toTitleLoop
    refine wp_next h1 h2 (by omega) (by show c ≤ _; omega) fun ch it' c' k1 k2 k3 => ?_
    dsimp only
    repeat' split
    · refine Wp.bind ?_
      unfold append
      split
      · exact wp_toTitleLoop fuel it' c' _ _ (by omega) k2 (by omega) (by omega)
      · exact ⟨by omega, by decide, by intro h; cases h⟩
    · refine Wp.bind ?_
      unfold append
      split
      · exact wp_toTitleLoop fuel it' c' _ _ (by omega) k2 (by omega) (by omega)
      · exact ⟨by omega, by decide, by intro h; cases h⟩
    · refine Wp.bind ?_
      unfold append
      split
      · exact wp_toTitleLoop fuel it' c' _ _ (by omega) k2 (by omega) (by omega)
      · exact ⟨by omega, by decide, by intro h; cases h⟩
    · exact wp_toTitleLoop fuel it' c' _ _ (by omega) k2 (by omega) (by omega)

theorem wp_equalLoop {r' : Range} : ∀ (fuel it it' c : Nat), r.first ≤ it → it ≤ r.last → r'.first ≤ it' → it' ≤ r'.last → r.last - it < fuel →
    c ≤ 2 * (it - r.first) + 2 * (it' - r'.first) →
    Wp (Ends U (2 * (r.last - r.first) + 2 * (r'.last - r'.first) + 8)) (fun _ c => c ≤ 2 * (r.last - r.first) + 2 * (r'.last - r'.first) + 8)
      (equalLoop r r' fuel it it') c
  | 0, _, _, _, _, _, _, _, h, _ => by omega
  | fuel + 1, it, it', c, h1, h2, h1', h2', h3, h4 => by
    unfold equalLoop
    refine wp_next h1 h2 (by omega) ?_ fun ch i c' k1 k2 k3 => ?_
    · refine wp_next h1' h2' (by omega) (by show c ≤ _; omega) fun ch i' c' k1 k2 k3 => ?_
      show c' ≤ _; omega
    · refine wp_next h1' h2' (by omega) (by show c' ≤ _; omega) fun ch i' c'' l1 l2 l3 => ?_
      dsimp only
      split
      · show c'' ≤ _; omega
      · exact wp_equalLoop fuel i i' c'' (by omega) k2 (by omega) l2 (by omega) (by omega)

theorem wp_lessLoop {r' : Range} : ∀ (fuel it it' c : Nat), r.first ≤ it → it ≤ r.last → r'.first ≤ it' → it' ≤ r'.last → r.last - it < fuel →
    c ≤ 2 * (it - r.first) + 2 * (it' - r'.first) →
    Wp (Ends U (2 * (r.last - r.first) + 2 * (r'.last - r'.first) + 8)) (fun _ c => c ≤ 2 * (r.last - r.first) + 2 * (r'.last - r'.first) + 8)
      (lessLoop r r' fuel it it') c
  | 0, _, _, _, _, _, _, _, h, _ => by omega
  | fuel + 1, it, it', c, h1, h2, h1', h2', h3, h4 => by
    unfold lessLoop
    refine wp_next h1 h2 (by omega) ?_ fun ch i c' k1 k2 k3 => ?_
    · refine wp_next h1' h2' (by omega) (by show c ≤ _; omega) fun ch i' c' k1 k2 k3 => ?_
      show c' ≤ _; omega
    · refine wp_next h1' h2' (by omega) (by show c' ≤ _; omega) fun ch i' c'' l1 l2 l3 => ?_
      dsimp only
      split
      · show c'' ≤ _; omega
      · exact wp_lessLoop fuel i i' c'' (by omega) k2 (by omega) l2 (by omega) (by omega)

/-- where the mismatch is, and how many accesses it took: two for each byte of what is left of the two strings -/
theorem wp_nextMismatch {r' : Range} {B it0 it0' c0 : Nat} (hB : c0 + 2 * (r.last - it0) + 2 * (r'.last - it0') + 8 ≤ B) :
    ∀ (fuel it it' c : Nat), r.first ≤ it → it ≤ r.last → r'.first ≤ it' → it' ≤ r'.last → r.last - it < fuel → it0 ≤ it → it0' ≤ it' →
    c ≤ c0 + 2 * (it - it0) + 2 * (it' - it0') →
    Wp (Ends U B) (fun x c => it0 ≤ x.1 ∧ x.1 ≤ r.last ∧ it0' ≤ x.2 ∧ x.2 ≤ r'.last ∧ c ≤ c0 + 2 * (r.last - it0) + 2 * (r'.last - it0'))
      (nextMismatch r r' fuel it it') c
  | 0, _, _, _, _, _, _, _, h, _, _, _ => by omega
  | fuel + 1, it, it', c, h1, h2, h1', h2', h3, h4, h5, h6 => by
    unfold nextMismatch
    refine wp_next h1 h2 (by omega) ⟨h4, h2, h5, h2', by omega⟩ fun ch i c' k1 k2 k3 => ?_
    dsimp only
    refine wp_next h1' h2' (by omega) ⟨h4, h2, h5, h2', by omega⟩ fun ch i' c'' l1 l2 l3 => ?_
    dsimp only
    split
    · exact ⟨h4, h2, h5, h2', by omega⟩
    · exact wp_nextMismatch hB fuel i i' c'' (by omega) k2 (by omega) l2 (by omega) (by omega) (by omega) (by omega)

theorem wp_prevMismatch (hU : U) {r' : Range} {B it0 it0' c0 : Nat} (hB : c0 + 3 * (it0 - r.first) + 3 * (it0' - r'.first) + 15 ≤ B) :
    ∀ (fuel it it' c : Nat), r.first ≤ it → it ≤ r.last → r'.first ≤ it' → it' ≤ r'.last → it - r.first < fuel → it ≤ it0 → it' ≤ it0' →
    c ≤ c0 + 3 * (it0 - it) + 3 * (it0' - it') →
    Wp (Ends U B) (fun x c => r.first ≤ x.1 ∧ x.1 ≤ it0 ∧ r'.first ≤ x.2 ∧ x.2 ≤ it0' ∧ c ≤ c0 + 3 * (it0 - r.first) + 3 * (it0' - r'.first))
      (prevMismatch r r' fuel it it') c
  | 0, _, _, _, _, _, _, _, h, _, _, _ => by omega
  | fuel + 1, it, it', c, h1, h2, h1', h2', h3, h4, h5, h6 => by
    unfold prevMismatch
    refine Wp.bind (Wp.mono ?_ (wp_safeDecodePrev (fun c' h => ⟨⟨by omega, by decide, fun _ => hU⟩, ⟨by omega, by decide, fun _ => hU⟩⟩) h1 h2))
    rintro a c' (⟨rfl, rfl⟩ | ⟨ch, i, rfl, k1, k2, k3⟩)
    · exact ⟨h1, h4, h1', h5, by omega⟩
    dsimp only
    refine Wp.bind (Wp.mono ?_ (wp_safeDecodePrev (fun c' h => ⟨⟨by omega, by decide, fun _ => hU⟩, ⟨by omega, by decide, fun _ => hU⟩⟩) h1' h2'))
    rintro a c'' (⟨rfl, rfl⟩ | ⟨ch', i', rfl, l1, l2, l3⟩)
    · exact ⟨h1, h4, h1', h5, by omega⟩
    dsimp only
    split
    · exact ⟨h1, h4, h1', h5, by omega⟩
    · exact wp_prevMismatch hU hB fuel i i' c'' k1 (by omega) l1 (by omega) (by omega) (by omega) (by omega) (by omega)

/-- `d` bytes have been passed, at least one: the accesses for decoding and one more comparison -/
theorem budget {k d p q M : Nat} (h1 : 1 ≤ d) (hq : q = p + d) : p * (M + k) + k * d + M ≤ q * (M + k) := by
  subst hq
  rw [Nat.add_mul, Nat.mul_add d, Nat.mul_comm d k]
  have : 1 * M ≤ d * M := Nat.mul_le_mul_right M h1
  omega

theorem wp_findFirstLoop {r' : Range} {ch : Char32} {itCmp n M B : Nat} (hc1 : r'.first ≤ itCmp) (hc2 : itCmp ≤ r'.last)
    (hn : n = r.last - r.first) (hM : M = 2 * n + 2 * (r'.last - r'.first)) (hB : M + n * (M + 2) + 8 ≤ B) :
    ∀ (fuel it it' c : Nat), r.first ≤ it' → it' ≤ r.last → r.last - it' < fuel →
    c ≤ 2 * (r'.last - r'.first) + (it' - r.first) * (M + 2) →
    Wp (Ends U B) (fun _ c => c ≤ B) (findFirstLoop r r' ch itCmp fuel it it') c
  | 0, _, _, _, _, _, h, _ => by omega
  | fuel + 1, it, it', c, h1, h2, h3, h4 => by
    unfold findFirstLoop
    have hle : ∀ p, p ≤ n → p * (M + 2) ≤ n * (M + 2) := fun p h => Nat.mul_le_mul_right _ h
    have h5 := hle (it' - r.first) (by omega)
    refine wp_next h1 h2 (by omega) (by show c ≤ _; omega) fun ch' i c' k1 k2 k3 => ?_
    dsimp only
    have h6 := budget (k := 2) (d := i - it') (p := it' - r.first) (q := i - r.first) (M := M) (by omega) (by omega)
    have h7 := hle (i - r.first) (by omega)
    split
    · refine Wp.bind (Wp.mono ?_ (wp_nextMismatch (U := U) (B := B) (it0 := i) (it0' := itCmp) (c0 := c') (by omega) _ i itCmp c' (by omega) k2 hc1 hc2
        (by omega) (by omega) (by omega) (by omega)))
      rintro ⟨x, y⟩ c'' ⟨l1, l2, l3, l4, l5⟩
      dsimp only at *
      split
      · show c'' ≤ _; omega
      · exact wp_findFirstLoop hc1 hc2 hn hM hB fuel i i c'' (by omega) k2 (by omega) (by omega)
    · exact wp_findFirstLoop hc1 hc2 hn hM hB fuel i i c' (by omega) k2 (by omega) (by omega)

theorem wp_findLastLoop (hU : U) {r' : Range} {ch : Char32} {itCmp n M B : Nat} (hc1 : r'.first ≤ itCmp) (hc2 : itCmp ≤ r'.last)
    (hn : n = r.last - r.first) (hM : M = 3 * n + 3 * (r'.last - r'.first)) (hB : M + n * (M + 3) + 15 ≤ B) :
    ∀ (fuel it it' c : Nat), r.first ≤ it' → it' ≤ r.last → it' - r.first < fuel →
    c ≤ 3 * (r'.last - r'.first) + (r.last - it') * (M + 3) →
    Wp (Ends U B) (fun _ c => c ≤ B) (findLastLoop r r' ch itCmp fuel it it') c
  | 0, _, _, _, _, _, h, _ => by omega
  | fuel + 1, it, it', c, h1, h2, h3, h4 => by
    unfold findLastLoop
    have hle : ∀ p, p ≤ n → p * (M + 3) ≤ n * (M + 3) := fun p h => Nat.mul_le_mul_right _ h
    have h5 := hle (r.last - it') (by omega)
    refine Wp.bind (Wp.mono ?_ (wp_safeDecodePrev (fun c' h => ⟨⟨by omega, by decide, fun _ => hU⟩, ⟨by omega, by decide, fun _ => hU⟩⟩) h1 h2))
    rintro a c' (⟨rfl, rfl⟩ | ⟨ch', i, rfl, k1, k2, k3⟩)
    · show c' ≤ _; omega
    dsimp only
    have h6 := budget (k := 3) (d := it' - i) (p := r.last - it') (q := r.last - i) (M := M) (by omega) (by omega)
    have h7 := hle (r.last - i) (by omega)
    split
    · refine Wp.bind (Wp.mono ?_ (wp_prevMismatch hU (B := B) (it0 := i) (it0' := itCmp) (c0 := c') (by omega) _ i itCmp c' k1 (by omega) hc1 hc2
        (by omega) (by omega) (by omega) (by omega)))
      rintro ⟨x, y⟩ c'' ⟨l1, l2, l3, l4, l5⟩
      dsimp only at *
      split
      · show c'' ≤ _; omega
      · exact wp_findLastLoop hU hc1 hc2 hn hM hB fuel i i c'' k1 (by omega) (by omega) (by omega)
    · exact wp_findLastLoop hU hc1 hc2 hn hM hB fuel i i c' k1 (by omega) (by omega) (by omega)

theorem wp_findFirst {r' : Range} (h : r.first ≤ r.last) (h' : r'.first ≤ r'.last) (o : Nat) (hU : o ≤ r.last - r.first ∨ U) :
    Wp (Ends U ((r.last - r.first + 1) * (2 * (r.last - r.first) + 2 * (r'.last - r'.first) + 8)))
      (fun _ c => c ≤ (r.last - r.first + 1) * (2 * (r.last - r.first) + 2 * (r'.last - r'.first) + 8)) (findFirst r r' o) 0 := by
  generalize hn : r.last - r.first = n at *
  generalize hM : 2 * n + 2 * (r'.last - r'.first) = M
  have hB : M + n * (M + 2) + 8 ≤ (n + 1) * (M + 8) := by
    rw [Nat.add_mul, Nat.one_mul]
    have : n * (M + 2) ≤ n * (M + 8) := Nat.mul_le_mul_left _ (by omega)
    omega
  unfold findFirst
  refine wp_next (Nat.le_refl _) h' (by omega) (Nat.zero_le _) fun ch i c' k1 k2 k3 => ?_
  dsimp only
  by_cases ho : o ≤ n
  · refine wp_ptr (by omega) (by omega) ?_
    exact wp_findFirstLoop (by omega) k2 hn.symm hM.symm hB _ _ _ _ (by omega) (by omega) (by omega) (by omega)
  · refine Wp.bind ?_
    unfold ptr
    rw [if_neg (by omega)]
    exact ⟨by omega, by decide, fun _ => hU.elim (fun h => absurd h ho) id⟩

theorem wp_findLast (hU : U) {r' : Range} (h : r.first ≤ r.last) (h' : r'.first ≤ r'.last) (o : Nat) :
    Wp (Ends U ((r.last - r.first + 1) * (3 * (r.last - r.first) + 3 * (r'.last - r'.first) + 15)))
      (fun _ c => c ≤ (r.last - r.first + 1) * (3 * (r.last - r.first) + 3 * (r'.last - r'.first) + 15)) (findLast r r' o) 0 := by
  generalize hn : r.last - r.first = n at *
  generalize hM : 3 * n + 3 * (r'.last - r'.first) = M
  have hB : M + n * (M + 3) + 15 ≤ (n + 1) * (M + 15) := by
    rw [Nat.add_mul, Nat.one_mul]
    have : n * (M + 3) ≤ n * (M + 15) := Nat.mul_le_mul_left _ (by omega)
    omega
  unfold findLast
  refine Wp.bind (Wp.mono ?_ (wp_safeDecodePrev (fun c' h => ⟨⟨by omega, by decide, fun _ => hU⟩, ⟨by omega, by decide, fun _ => hU⟩⟩) h' (Nat.le_refl _)))
  rintro a c' (⟨rfl, rfl⟩ | ⟨ch', i, rfl, k1, k2, k3⟩)
  · exact Nat.zero_le _
  dsimp only
  refine wp_ptr (by omega) (by omega) ?_
  exact wp_findLastLoop hU k1 (by omega) hn.symm hM.symm hB _ _ _ _ (by omega) (by omega) (by omega) (by omega)

theorem wp_copyOut {E : Err → Nat → Prop} {Q : Str → Nat → Prop} : ∀ (k a : Nat) (x : Str) (c : Nat), r.first ≤ a → a + k ≤ r.last →
    (∀ y, Q y (c + k)) → Wp E Q (copyOut r k a x) c
  | 0, _, x, _, _, _, h => h x
  | k + 1, a, x, c, h1, h2, h => by
    unfold copyOut
    refine wp_load h1 (by omega) fun b => ?_
    exact wp_copyOut k (a + 1) _ (c + 1) (by omega) (by omega) fun y => by rw [show c + 1 + k = c + (k + 1) by omega]; exact h y

theorem wp_skipNext' {E : Err → Nat → Prop} {it c : Nat} (h1 : r.first ≤ it) (h2 : it < r.last) :
    Wp E (fun x c' => it < x.2 ∧ x.2 ≤ r.last ∧ c' ≤ c + 2 * (x.2 - it)) (skipNext r it) c := by
  unfold skipNext
  split
  · omega
  · refine wp_load (by omega) (by omega) fun b => ?_
    refine wp_ptr (by omega) (by omega) ?_
    split
    · exact ⟨by show it < it + 1; omega, by show it + 1 ≤ _; omega, by show _ ≤ c + 2 * (it + 1 - it); omega⟩
    · refine Wp.bind (Wp.mono ?_ (wp_skipNextLoop (it0 := it) (c0 := c) _ _ (it + 1) (c + 1) (by omega) (by omega) (by omega) (by omega) (by omega)))
      rintro a c' ⟨k1, k2, k3, k4⟩
      exact ⟨k1, k2, k4⟩

theorem wp_replaceInvalidLoop (repl : Str) : ∀ (fuel it prev c : Nat) (x : Str), r.first ≤ prev → prev ≤ it → it ≤ r.last → r.last - it < fuel →
    c ≤ 10 * (it - r.first) + (prev - r.first) →
    Wp (Ends U (11 * (r.last - r.first))) (fun _ c => c ≤ 11 * (r.last - r.first)) (replaceInvalidLoop r repl fuel it prev x) c
  | 0, _, _, _, _, _, _, _, h, _ => by omega
  | fuel + 1, it, prev, c, x, h1, h2, h3, h4, h5 => by
    unfold replaceInvalidLoop
    split
    · refine Wp.bind (Wp.mono ?_ (wp_decodeNext (by omega) h3))
      rintro ⟨ch, it'⟩ c' ⟨k1, k2, k3, k4⟩
      dsimp only at *
      split
      · rcases k4 with k4 | ⟨k4, k5⟩
        · contradiction
        · exact wp_replaceInvalidLoop repl fuel it' prev c' _ h1 (by omega) k2 (by omega) (by omega)
      · refine Wp.bind (wp_copyOut _ _ _ _ h1 (by omega) fun y => ?_)
        by_cases he : it' = r.last
        · unfold skipNext
          rw [if_pos he]
          exact wp_replaceInvalidLoop repl fuel it' it' _ _ (by omega) (Nat.le_refl _) k2 (by omega) (by omega)
        · refine Wp.bind (Wp.mono ?_ (wp_skipNext' (by omega) (by omega)))
          rintro ⟨b, i⟩ c'' ⟨l1, l2, l3⟩
          dsimp only at *
          exact wp_replaceInvalidLoop repl fuel i i _ _ (by omega) (Nat.le_refl _) l2 (by omega) (by omega)
    · refine wp_copyOut _ _ _ _ h1 (by omega) fun y => ?_
      omega

theorem wp_scan {E : Err → Nat → Prop} {pred : UInt8 → Bool} : ∀ (k i c : Nat), r.first + i + k ≤ r.last →
    Wp E (fun x c' => (x = none ∧ c' = c + k) ∨ ∃ j, x = some j ∧ i ≤ j ∧ j < i + k ∧ c' = c + (j - i) + 1) (scan r pred k i) c
  | 0, _, _, _ => .inl ⟨rfl, rfl⟩
  | k + 1, i, c, h => by
    unfold scan
    refine wp_load (by omega) (by omega) fun x => ?_
    split
    · exact .inr ⟨i, rfl, by omega, by omega, by omega⟩
    · refine Wp.mono ?_ (wp_scan k (i + 1) (c + 1) (by omega))
      rintro a c' (⟨rfl, rfl⟩ | ⟨j, rfl, k1, k2, k3⟩)
      · exact .inl ⟨rfl, by omega⟩
      · exact .inr ⟨j, rfl, by omega, by omega, by omega⟩

theorem wp_escapeSequenceAt {E : Err → Nat → Prop} {a c : Nat} (h1 : r.first ≤ a) (h2 : a < r.last) :
    Wp E (fun _ c' => c' ≤ c + 3) (escapeSequenceAt r a) c := by
  unfold escapeSequenceAt
  refine wp_load h1 h2 fun b => ?_
  repeat' (split; · (show c + 1 ≤ _; omega))
  refine wp_load h1 h2 fun b => ?_
  refine wp_load h1 h2 fun b => ?_
  show c + 1 + 1 + 1 ≤ c + 3; omega

theorem wp_escapeJsonLoop (hr : r.first ≤ r.last) (hs : r.last - r.first + 12 < 2 ^ 64) : ∀ (fuel o c : Nat) (x : Str), o ≤ r.last - r.first →
    r.last - r.first - o < fuel → c ≤ 4 * o →
    Wp (Ends U (4 * (r.last - r.first))) (fun _ c => c ≤ 4 * (r.last - r.first)) (escapeJsonLoop r fuel o x) c
  | 0, _, _, _, _, h, _ => by omega
  | fuel + 1, o, c, x, h1, h2, h3 => by
    unfold escapeJsonLoop findFirstEscapableChar
    refine Wp.bind ?_
    refine wp_ptr (by omega) (by omega) ?_
    refine Wp.bind (Wp.mono ?_ (wp_scan _ _ _ (by omega)))
    rintro a c' (⟨rfl, rfl⟩ | ⟨j, rfl, k1, k2, k3⟩)
    · show Wp _ _ (copyOut r (r.last - r.first - o) (r.first + o) x) _
      refine wp_copyOut _ _ _ _ (by omega) (by omega) fun y => ?_
      omega
    · show Wp _ _ (copyOut r (j - o) (r.first + o) x >>= _) c'
      refine Wp.bind (wp_copyOut _ _ _ _ (by omega) (by omega) fun y => ?_)
      refine Wp.bind (Wp.mono ?_ (wp_escapeSequenceAt (by show r.first ≤ r.first + j; omega) (by show r.first + j < _; omega)))
      intro e c'' l1
      have hst : (⟨j, 1⟩ : Subrange).stop = j + 1 := by
        show (j + 1) % SIZE_MOD = j + 1
        exact Nat.mod_eq_of_lt (by show j + 1 < 2 ^ 64; omega)
      rw [hst]
      exact wp_escapeJsonLoop hr hs fuel (j + 1) c'' _ (by omega) (by omega) (by omega)

end Ystring.Thr
