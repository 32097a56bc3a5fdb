import Verif.Proofs.ThreadsWaitCalls
import Verif.Proofs.UnescapeLoop
/- The number of accesses of `unescape`, whatever it reads: at most six for each byte -/
namespace Ystring.Thr
open Ptr Spec

variable {β : Type} {B : Nat}

/-- undefined behaviour ends a call, too -/
theorem ends {e : Err} {c : Nat} (h : c ≤ B) (he : e ≠ .diverge) : Ends True B e c := ⟨h, he, fun _ => trivial⟩

theorem dite_wp {α : Type} {E : Err → Nat → Prop} {Q : α → Nat → Prop} {p : Prop} [Decidable p] {a b : Prog α} {c : Nat}
    (h1 : p → Wp E Q a c) (h2 : ¬ p → Wp E Q b c) : Wp E Q (if p then a else b) c := by
  split
  · exact h1 ‹_›
  · exact h2 ‹_›

theorem any_load {Q : β → Nat → Prop} {r : Range} {it c : Nat} {f : UInt8 → Prog β} (hB : c ≤ B)
    (h : ∀ x, Wp (Ends True B) Q (f x) (c + 1)) : Wp (Ends True B) Q (load r it >>= f) c := by
  refine Wp.bind ?_
  unfold load
  split
  · exact h
  · exact ends hB (by decide)

theorem any_store {Q : β → Nat → Prop} {r : Range} {it c : Nat} {x : UInt8} {f : Unit → Prog β} (hB : c ≤ B)
    (h : Wp (Ends True B) Q (f ()) (c + 1)) : Wp (Ends True B) Q (store r it x >>= f) c := by
  refine Wp.bind ?_
  unfold store
  split
  · exact h
  · exact ends hB (by decide)

theorem any_ptr {Q : β → Nat → Prop} {r : Range} {it c : Nat} {f : Nat → Prog β} (hB : c ≤ B)
    (h : r.first ≤ it → it ≤ r.last → Wp (Ends True B) Q (f it) c) : Wp (Ends True B) Q (ptr r it >>= f) c := by
  refine Wp.bind ?_
  unfold ptr
  split
  · exact h (by omega) (by omega)
  · exact ends hB (by decide)

theorem any_scan {r : Range} {pred : UInt8 → Bool} {c0 : Nat} : ∀ (k i c : Nat), c + k ≤ B → c0 ≤ c →
    Wp (Ends True B) (fun x c' => (x = none ∧ c' = c + k) ∨ ∃ j, x = some j ∧ i ≤ j ∧ j < i + k ∧ c' = c + (j - i) + 1) (scan r pred k i) c
  | 0, _, _, _, _ => .inl ⟨rfl, rfl⟩
  | k + 1, i, c, h, h0 => by
    unfold scan
    refine any_load (by omega) fun x => ?_
    split
    · exact .inr ⟨i, rfl, by omega, by omega, by omega⟩
    · refine Wp.mono ?_ (any_scan (c0 := c0) k (i + 1) (c + 1) (by omega) (by omega))
      rintro a c' (⟨rfl, rfl⟩ | ⟨j, rfl, k1, k2, k3⟩)
      · exact .inl ⟨rfl, by omega⟩
      · exact .inr ⟨j, rfl, by omega, by omega, by omega⟩

theorem any_findFirstByteWhere {r : Range} {pred : UInt8 → Bool} {start end_ c : Nat} (h : start ≤ end_)
    (hB : c + (min (r.last - r.first) end_ - start) ≤ B) :
    Wp (Ends True B) (fun e c' => start ≤ e ∧ e ≤ end_ ∧ c' ≤ c + (e - start) + 1 ∧ c' ≤ c + (min (r.last - r.first) end_ - start))
      (findFirstByteWhere r start end_ pred) c := by
  unfold findFirstByteWhere
  refine Wp.bind (Wp.mono ?_ (any_scan (c0 := 0) _ _ _ hB (by omega)))
  rintro a c' (⟨rfl, rfl⟩ | ⟨j, rfl, k1, k2, k3⟩)
  · exact ⟨by omega, by omega, by omega, by omega⟩
  · exact ⟨by omega, by omega, by omega, by omega⟩

/-- what `find_first_escaped_char` has found, and how many accesses it took -/
def Found (size offset c : Nat) (x : Subrange) (c' : Nat) : Prop :=
  c' ≤ c + (size - offset) + 1 ∧ offset ≤ size ∧
  ((x = ⟨size, 0⟩ ∧ c' = c + (size - offset)) ∨
   (2 ≤ x.length ∧ offset ≤ x.offset ∧ x.offset + 1 < size ∧ x.offset + x.length ≤ size + 8 ∧
    c' ≤ c + (x.offset - offset) + 2 + x.length))

theorem any_checkLength {size offset c start e n c' : Nat} (h0 : offset ≤ start) (h1 : start + 1 < size) (h2 : e ≤ size + 8) (h3 : 2 ≤ n)
    (h4 : c' ≤ c + (start - offset) + 2 + (e - start)) (h5 : c' ≤ c + (size - offset) + 1) (hB : c' ≤ B) :
    Wp (Ends True B) (Found size offset c) (fin (checkLength start e n)) c' := by
  unfold checkLength
  split
  · exact ends hB (by decide)
  · exact ⟨h5, by omega, .inr ⟨by show 2 ≤ e - start; omega, h0, h1, by show start + (e - start) ≤ _; omega, h4⟩⟩

theorem any_findFirstEscapedChar {r : Range} {offset c : Nat} (hr : r.first ≤ r.last) (hB : c + (r.last - r.first - offset) + 1 ≤ B) :
    Wp (Ends True B) (Found (r.last - r.first) offset c) (findFirstEscapedChar r offset) c := by
  unfold findFirstEscapedChar
  refine any_ptr (by omega) fun p1 p2 => ?_
  dsimp only
  generalize hsz : r.last - r.first = size at *
  refine Wp.bind (Wp.mono ?_ (any_scan (c0 := 0) _ _ _ (by omega) (by omega)))
  rintro a c' (⟨rfl, rfl⟩ | ⟨start, rfl, k1, k2, k3⟩)
  · exact ⟨by omega, by omega, .inl ⟨rfl, rfl⟩⟩
  · dsimp only
    split
    · exact ends (by omega) (by decide)
    · refine any_load (by omega) fun x => ?_
      split
      · refine Wp.bind (Wp.mono ?_ (any_findFirstByteWhere (by omega) (by omega)))
        rintro e c' ⟨l1, l2, l3, l4⟩
        exact any_checkLength k1 (by omega) (by omega) (by omega) (by omega) (by omega) (by omega)
      · split
        · refine Wp.bind (Wp.mono ?_ (any_findFirstByteWhere (by omega) (by omega)))
          rintro e c' ⟨l1, l2, l3, l4⟩
          exact any_checkLength k1 (by omega) (by omega) (by omega) (by omega) (by omega) (by omega)
        · split
          · refine Wp.bind (Wp.mono ?_ (any_findFirstByteWhere (by omega) (by omega)))
            rintro e c' ⟨l1, l2, l3, l4⟩
            exact any_checkLength k1 (by omega) (by omega) (by omega) (by omega) (by omega) (by omega)
          · split
            · refine Wp.bind (Wp.mono ?_ (any_findFirstByteWhere (by omega) (by omega)))
              rintro e c' ⟨l1, l2, l3, l4⟩
              exact any_checkLength k1 (by omega) (by omega) (by omega) (by omega) (by omega) (by omega)
            · split
              · exact ⟨by omega, by omega, .inr ⟨by show 2 ≤ 2; omega, k1, by show start + 1 < size; omega, by show start + 2 ≤ _; omega,
                  by show _ ≤ c + (start - offset) + 2 + 2; omega⟩⟩
              · exact ends (by omega) (by decide)

theorem any_digits {r : Range} {base : Nat} {k0 c0 : Nat} : ∀ (k a n v c : Nat), v < base ^ n → n + k = k0 → c + k = c0 → c0 ≤ B →
    Wp (Ends True B) (fun x c' => x.2 < base ^ x.1 ∧ x.1 ≤ k0 ∧ c' ≤ c0) (digits r base k a n v) c
  | 0, _, _, _, _, h, h1, h2, _ => ⟨h, by show _ ≤ k0; omega, by omega⟩
  | k + 1, a, n, v, c, h, h1, h2, hB => by
    unfold digits
    refine any_load (by omega) fun x => ?_
    split
    · refine any_digits k (a + 1) (n + 1) _ (c + 1) ?_ (by omega) (by omega) hB
      rename_i hd
      calc v * base + digitValue x < v * base + base := by omega
        _ = (v + 1) * base := by rw [Nat.add_mul, Nat.one_mul]
        _ ≤ base ^ n * base := Nat.mul_le_mul_right _ (by omega)
        _ = base ^ (n + 1) := (Nat.pow_succ ..).symm
    · exact ⟨h, by show n ≤ k0; omega, by omega⟩

/-- `parse_escaped_hex`, `parse_escaped_oct` for at most `L` bytes -/
theorem any_parseEscaped {skip base : Nat} {r : Range} {c L : Nat} (hb : 0 < base) (hL : r.last ≤ r.first + L) (hB : c + (L - skip) ≤ B) :
    Wp (Ends True B) (fun ch c' => ch.toNat < base ^ (L - skip) ∧ skip < L ∧ c' ≤ c + (L - skip)) (parseEscaped skip base r) c := by
  unfold parseEscaped
  refine any_ptr (by omega) fun p1 p2 => ?_
  refine Wp.bind (Wp.mono ?_ (any_digits (k0 := r.last - (r.first + skip)) (c0 := c + (r.last - (r.first + skip))) _ _ _ _ _ (by simp) (by omega) rfl (by omega)))
  rintro ⟨n, v⟩ c' ⟨k1, k2, k3⟩
  dsimp only at *
  split
  · exact ends (by omega) (by decide)
  · split
    · exact ends (by omega) (by decide)
    · refine ⟨?_, by omega, by omega⟩
      rw [UInt32.toNat_ofNat_of_lt' (by show v < 4294967296; omega)]
      exact Nat.lt_of_lt_of_le k1 (Nat.pow_le_pow_right hb (by omega))

theorem any_subRange {Q : β → Nat → Prop} {r : Range} {pos n c : Nat} {f : Range → Prog β} (hB : c ≤ B)
    (h : ∀ r', r'.first ≤ r'.last → r'.last ≤ r'.first + n → Wp (Ends True B) Q (f r') c) : Wp (Ends True B) Q (subRange r pos n >>= f) c := by
  refine Wp.bind ?_
  unfold subRange
  split
  · exact ends hB (by decide)
  · exact h _ (by show _ + _ ≤ _ + _ + _; omega) (by show r.first + pos + min _ _ ≤ r.first + pos + n; omega)

/-- the character of a sequence: its new length, and how many accesses it took; the longer way is for surrogates only -/
def Decoded (sub : Subrange) (c : Nat) (x : Char32 × Subrange) (c' : Nat) : Prop :=
  x.2.offset = sub.offset ∧ 2 ≤ x.2.length ∧ x.2.length ≤ max sub.length 12 ∧ c' ≤ c + sub.length + 11 ∧
  (6 ≤ sub.length ∨ c' ≤ c + sub.length + 1) ∧ (x.2.length = sub.length ∨ x.2.length = 12)

theorem any_parseUtf16 {r : Range} {sub : Subrange} {c : Nat} (hL : 2 ≤ sub.length) (hB : c + sub.length + 11 ≤ B) :
    Wp (Ends True B) (Decoded sub c) (parseUtf16 r sub) (c + 1) := by
  unfold parseUtf16
  have done : ∀ ch c', c' ≤ c + sub.length + 1 → Decoded sub c (ch, sub) c' := fun _ c' h =>
    ⟨rfl, hL, by show sub.length ≤ _; omega, by omega, .inr h, .inl rfl⟩
  refine any_subRange (by omega) fun r1 h1 h2 => ?_
  refine Wp.bind (Wp.mono ?_ (any_parseEscaped (by omega) h2 (by omega)))
  rintro ch c' ⟨k1, k2, k3⟩
  split
  · exact done _ _ (by omega)
  · rename_i hch
    have hL6 : 6 ≤ sub.length := by
      refine Nat.le_of_not_lt fun hlt => ?_
      have h4 : (16 : Nat) ^ (sub.length - 2) ≤ 16 ^ 3 := Nat.pow_le_pow_right (by omega) (by omega)
      have h5 : ¬ ch < 0xD800 := fun h => hch (.inl h)
      have h6 : ¬ ch.toNat < 0xD800 := fun h => h5 (UInt32.lt_iff_toNat_lt.2 h)
      omega
    have done : ∀ ch c', c' ≤ c + sub.length + 11 → Decoded sub c (ch, sub) c' := fun _ c' h =>
      ⟨rfl, hL, by show sub.length ≤ _; omega, h, .inl hL6, .inl rfl⟩
    refine any_subRange (by omega) fun r2 h1 h2 => ?_
    refine Wp.bind (Wp.mono ?_ (any_findFirstEscapedChar h1 (by omega)))
    rintro sub2 c2 ⟨l1, l2, l3⟩
    split
    · exact done _ _ (by omega)
    · rename_i hs
      refine any_load (by omega) fun x => ?_
      split
      · exact done _ _ (by omega)
      · refine Wp.bind (Wp.mono ?_ (any_parseEscaped (by omega) h2 (by omega)))
        rintro ch2 c3 ⟨m1, m2, m3⟩
        split
        · exact done _ _ (by omega)
        · exact ⟨rfl, by show 2 ≤ 12; omega, by show 12 ≤ _; omega, by omega, .inl hL6, .inr rfl⟩

theorem any_decodeEscaped {r : Range} {sub : Subrange} {c : Nat} (hL : 2 ≤ sub.length) (hB : c + sub.length + 11 ≤ B) :
    Wp (Ends True B) (Decoded sub c) (decodeEscaped r sub) c := by
  unfold decodeEscaped
  have done : ∀ ch c', c' ≤ c + sub.length + 1 → Decoded sub c (ch, sub) c' := fun _ c' h =>
    ⟨rfl, hL, by show sub.length ≤ _; omega, by omega, .inr h, .inl rfl⟩
  refine any_load (by omega) fun x => ?_
  split
  · refine any_subRange (by omega) fun r1 h1 h2 => ?_
    refine Wp.bind (Wp.mono ?_ (any_parseEscaped (by omega) h2 (by omega)))
    rintro ch c' ⟨k1, k2, k3⟩
    exact done _ _ (by omega)
  · split
    · exact any_parseUtf16 hL hB
    · iterate 7 refine dite_wp (fun _ => done _ _ (by omega)) fun _ => ?_
      refine any_load (by omega) fun x => ?_
      split
      · refine any_subRange (by omega) fun r1 h1 h2 => ?_
        refine Wp.bind (Wp.mono ?_ (any_parseEscaped (by omega) h2 (by omega)))
        rintro ch c' ⟨k1, k2, k3⟩
        exact done _ _ (by omega)
      · refine any_load (by omega) fun x => ?_
        exact done _ _ (by omega)

theorem any_copyLoop {r : Range} : ∀ (k a b c : Nat), c + 2 * k ≤ B → Wp (Ends True B) (fun _ c' => c' = c + 2 * k) (copyLoop r k a b) c
  | 0, _, _, _, _ => rfl
  | k + 1, a, b, c, h => by
    unfold copyLoop
    refine any_load (by omega) fun x => ?_
    refine any_store (by omega) ?_
    refine Wp.mono ?_ (any_copyLoop k (a + 1) (b + 1) (c + 2) (by omega))
    rintro _ c' rfl
    omega

theorem any_copyIfMoved {r : Range} {frm last to c : Nat} (hB : c + 2 * (last - frm) ≤ B) :
    Wp (Ends True B) (fun _ c' => c' ≤ c + 2 * (last - frm)) (copyIfMoved r frm last to) c := by
  unfold copyIfMoved
  split
  · refine any_ptr (by omega) fun _ _ => ?_
    refine any_ptr (by omega) fun _ _ => ?_
    refine any_ptr (by omega) fun _ _ => ?_
    split
    · exact Wp.mono (fun _ _ h => Nat.le_of_eq h) (any_copyLoop _ _ _ _ hB)
    · exact ends (by omega) (by decide)
  · show c ≤ _; omega

theorem any_encodeLoop {r : Range} (chr : Char32) : ∀ (k shift it c : Nat), c + k ≤ B →
    Wp (Ends True B) (fun _ c' => c' = c + k) (encodeLoop r chr k shift it) c
  | 0, _, _, _, _ => rfl
  | k + 1, shift, it, c, h => by
    unfold encodeLoop
    refine any_store (by omega) ?_
    refine any_ptr (by omega) fun _ _ => ?_
    refine Wp.mono ?_ (any_encodeLoop chr k _ (it + 1) (c + 1) (by omega))
    rintro _ c' rfl
    omega

theorem any_encodeDetail {r : Range} (chr : Char32) {n it c : Nat} (hB : c + n ≤ B) :
    Wp (Ends True B) (fun _ c' => c' = c + n) (encodeDetail r chr n it) c := by
  unfold encodeDetail
  split
  · refine any_store (by omega) ?_
    unfold ptr
    split
    · show c + 1 = c + n; omega
    · exact ends (by omega) (by decide)
  · split
    · refine any_store (by omega) ?_
      refine any_ptr (by omega) fun _ _ => ?_
      refine Wp.mono ?_ (any_encodeLoop chr _ _ (it + 1) (c + 1) (by omega))
      rintro _ c' rfl
      omega
    · show c = c + n; omega

/-- the number of accesses up to position `frm` -/
theorem any_unescapeLoop {r : Range} {size B : Nat} (hr : r.first ≤ r.last) (hsz : r.last - r.first = size) (hl : size + 12 < SIZE_MOD)
    (hBB : (size + 12) * (2 * size + 21) = B) : ∀ (fuel frm to c : Nat), 0 < fuel →
    (frm ≤ size → size - frm < fuel) → frm ≤ size + 12 → c ≤ frm * (2 * size + 21) →
    Wp (Ends True B) (fun _ c => c ≤ B) (unescapeLoop r fuel frm to) c
  | 0, _, _, _, h, _, _, _ => by omega
  | fuel + 1, frm, to, c, _, h1, h2, h3 => by
    unfold unescapeLoop
    have hmul : ∀ n : Nat, n ≤ size + 12 → n * (2 * size + 21) ≤ B := fun n h => hBB ▸ Nat.mul_le_mul_right _ h
    by_cases hf : frm ≤ size
    · have hstep : ∀ n : Nat, frm + 2 ≤ n → frm * (2 * size + 21) + 2 * (2 * size + 21) ≤ n * (2 * size + 21) := fun n h => by
        rw [← Nat.add_mul]; exact Nat.mul_le_mul_right _ h
      have hB0 := Nat.le_trans (hstep _ (Nat.le_refl _)) (hmul (frm + 2) (by omega))
      refine Wp.bind (Wp.mono ?_ (any_findFirstEscapedChar (B := B) hr (by omega)))
      rw [hsz]
      rintro sub c1 ⟨k1, k2, k3⟩
      have hst : sub.start ≤ size := by
        rcases k3 with ⟨rfl, _⟩ | ⟨_, _, k3, _⟩
        · exact Nat.le_refl _
        · exact (by show sub.offset ≤ size; omega)
      refine Wp.bind (Wp.mono ?_ (any_copyIfMoved (B := B) (by omega)))
      rintro _ c2 hc2
      dsimp only
      refine dite_wp (fun _ => ?_) fun hne => ?_
      · show c2 ≤ B; omega
      · rcases k3 with ⟨rfl, _⟩ | ⟨l1, l2, l3, l4, l5⟩
        · exact absurd rfl hne
        · have hst' : sub.start = sub.offset := rfl
          refine Wp.bind (Wp.mono ?_ (any_decodeEscaped (B := B) l1 (by omega)))
          rintro ⟨ch, sub'⟩ c3 ⟨m1, m2, m3, m4, -, -⟩
          dsimp only at m1 m2 m3 m4 ⊢
          refine any_ptr (by omega) fun _ _ => ?_
          have he : encodeUtf8Ret ch ≤ 4 := encodedLength_le ch
          refine Wp.bind (Wp.mono ?_ (any_encodeDetail (B := B) ch (by omega)))
          rintro _ c4 rfl
          have hstop : sub'.stop = sub.offset + sub'.length := by
            rw [show sub' = ⟨sub.offset, sub'.length⟩ by rw [← m1], stop_lt (by omega)]
          have hs := hstep sub'.stop (by omega)
          exact any_unescapeLoop hr hsz hl hBB fuel sub'.stop _ (c3 + encodeUtf8Ret ch) (by omega) (by omega) (by omega) (by omega)
    · refine Wp.bind ?_
      unfold findFirstEscapedChar
      refine any_ptr (Nat.le_trans h3 (hmul _ h2)) fun p1 p2 => ?_
      omega

end Ystring.Thr
