import Verif.Proofs.Pointers
import Verif.Props.Codec
/-
C95: the codec on addresses. The functions of include/Ystring/DecodeUtf8.hpp and src/Ystring/EncodeUtf8.hpp only touch the range that
they are given.
-/
namespace Ystring
open Spec Ptr

/-- C95: at every position in a range `decode_next` reads only bytes from there to the end of the range, and all iterators on the way stay
between there and the end (a fault would be an outcome, and `first` may be `it`). It moves over the sequence that starts at `it` and
returns its value; if there is none then it returns `INVALID_CHAR` and stays. -/
theorem C95_decode_next (m : Mem) (first last it : Nat) (h1 : first ≤ it) (h2 : it ≤ last) :
    (∀ u c t, IsSeq u c → bytes m it last = u ++ t →
      Ptr.decodeNext m ⟨first, last⟩ it = .ok (c, it + u.length) ∧ it + u.length ≤ last) ∧
    (¬ HasSeqPrefix (bytes m it last) → Ptr.decodeNext m ⟨first, last⟩ it = .ok (INVALID_CHAR, it)) := by
  constructor
  · intro u c t hu e
    obtain ⟨h3, h4, h5⟩ := bytes_suffix m h2 e
    rw [decodeNext_eq m first last it h1 h2, e, decodeNext_seq hu]
    refine ⟨?_, h4⟩
    simp only [lift, ahead, h5]
    congr 2; omega
  · intro h
    rw [decodeNext_eq m first last it h1 h2, decodeNext_bad h]
    simp only [lift, ahead, bytes_length]
    congr 2; omega

/-- C95: `decode_prev` likewise: it reads only bytes between the start of the range and `it` (`last` may be `it`). The only fault is the
shift of C06. -/
theorem C95_decode_prev (m : Mem) (first last it : Nat) (h1 : first ≤ it) (h2 : it ≤ last) :
    (∀ u c t, IsSeq u c → bytes m first it = t ++ u →
      Ptr.decodePrev m ⟨first, last⟩ it = .ok (c, it - u.length) ∧ first + u.length ≤ it) ∧
    (¬ HasSeqSuffix (bytes m first it) → ¬ LongContRun (bytes m first it) →
      Ptr.decodePrev m ⟨first, last⟩ it = .ok (INVALID_CHAR, it)) ∧
    (LongContRun (bytes m first it) → Ptr.decodePrev m ⟨first, last⟩ it = .error .shift) := by
  refine ⟨?_, ?_, ?_⟩
  · intro u c t hu e
    obtain ⟨h3, h4, h5⟩ := bytes_prefix m h1 e
    rw [decodePrev_eq m first last it h1 h2, e, List.reverse_append, decodePrev_seq hu]
    refine ⟨?_, h4⟩
    simp only [lift, behind, List.length_reverse, h5]
  · intro h h'
    rw [decodePrev_eq m first last it h1 h2, decodePrev_bad h h']
    simp only [lift, behind, List.length_reverse, bytes_length]
    congr 2; omega
  · intro h
    rw [decodePrev_eq m first last it h1 h2, decodePrev_ub h]
    rfl

/-- C95: `decode_prev` never leaves the range and always ends, whatever the bytes are. -/
theorem C95_decode_prev_in_range (m : Mem) (first last it : Nat) (h1 : first ≤ it) (h2 : it ≤ last) :
    Ptr.decodePrev m ⟨first, last⟩ it ≠ .error .access ∧ Ptr.decodePrev m ⟨first, last⟩ it ≠ .error .diverge ∧
    (∀ c it', Ptr.decodePrev m ⟨first, last⟩ it = .ok (c, it') → first ≤ it' ∧ it' ≤ it) := by
  rw [decodePrev_eq m first last it h1 h2]
  by_cases hs : HasSeqSuffix (bytes m first it)
  · obtain ⟨u, c, t, hu, e⟩ := hs
    obtain ⟨h3, h4, h5⟩ := bytes_prefix m h1 e
    rw [e, List.reverse_append, decodePrev_seq hu]
    refine ⟨nofun, nofun, fun c' it' h => ?_⟩
    simp only [lift, behind, List.length_reverse, h5] at h
    injection h with h; injection h with _ h
    omega
  · by_cases hl : LongContRun (bytes m first it)
    · rw [decodePrev_ub hl]
      exact ⟨nofun, nofun, nofun⟩
    · rw [decodePrev_bad hs hl]
      refine ⟨nofun, nofun, fun c' it' h => ?_⟩
      simp only [lift, behind, List.length_reverse, bytes_length] at h
      injection h with h; injection h with _ h
      omega

/-- C95: `skip_next` touches nothing outside of the range, and moves as it does on the bytes in front of it (C11, C12). -/
theorem C95_skip_next (m : Mem) (first last it : Nat) (h1 : first ≤ it) (h2 : it ≤ last) :
    ∃ it', it ≤ it' ∧ it' ≤ last ∧ (it < last → it < it') ∧
      Ptr.skipNext m ⟨first, last⟩ it = .ok (decide (it < last), it') ∧
      Ystring.skipNext (bytes m it last) = (decide (it < last), bytes m it' last) := by
  have hp := C11_forward_progress (bytes m it last)
  rw [skipNext_eq m first last it h1 h2]
  by_cases h : it = last
  · subst h
    have h0 := hp.1 (bytes_nil m (Nat.le_refl _))
    refine ⟨it, Nat.le_refl _, Nat.le_refl _, by omega, ?_, ?_⟩
    · rw [h0]; simp [ahead]
    · rw [h0, bytes_nil m (Nat.le_refl _)]; simp
  · obtain ⟨u, t, hu, e, h3⟩ := hp.2 (by rw [bytes_cons m (by omega)]; exact nofun)
    obtain ⟨h4, h5, h6⟩ := bytes_suffix m h2 e
    have := List.length_pos_iff.mpr hu
    have hd : decide (it < last) = true := by simp; omega
    refine ⟨it + u.length, by omega, h5, by omega, ?_, ?_⟩
    · rw [h3, hd]; simp only [ahead, h6]; congr 2; omega
    · rw [h3, hd, h4]

/-- C95: `skip_prev` likewise. -/
theorem C95_skip_prev (m : Mem) (first last it : Nat) (h1 : first ≤ it) (h2 : it ≤ last) :
    ∃ it', first ≤ it' ∧ it' ≤ it ∧ (first < it → it' < it) ∧
      Ptr.skipPrev m ⟨first, last⟩ it = .ok (decide (first < it), it') ∧
      Ystring.skipPrev (bytes m first it).reverse = .ok (decide (first < it), (bytes m first it').reverse) := by
  have hp := C11_backward_progress (bytes m first it)
  rw [skipPrev_eq m first last it h1 h2]
  by_cases h : it = first
  · subst h
    have h0 := hp.1 (bytes_nil m (Nat.le_refl _))
    refine ⟨it, Nat.le_refl _, Nat.le_refl _, by omega, ?_, ?_⟩
    · rw [h0]; simp [lift, behind]
    · rw [h0, bytes_nil m (Nat.le_refl _)]; simp
  · obtain ⟨u, t, hu, e, h3⟩ := hp.2 (by rw [bytes_cons m (by omega)]; exact nofun)
    obtain ⟨h4, h5, h6⟩ := bytes_prefix m h1 e
    have := List.length_pos_iff.mpr hu
    have hd : decide (first < it) = true := by simp; omega
    refine ⟨it - u.length, by omega, by omega, by omega, ?_, ?_⟩
    · rw [h3, hd]; simp only [lift, behind, List.length_reverse, h6]
    · rw [h3, hd, h4]

/-- C95: the outcome depends on nothing but the bytes between the position and the end (start) of the range: neither on other bytes nor on
where the other end of the range is. -/
theorem C95_only_the_range (m m' : Mem) (first first' last last' it : Nat) (h1 : first ≤ it) (h1' : first' ≤ it) (h2 : it ≤ last)
    (h2' : it ≤ last') :
    (AgreeOn m m' it last →
      Ptr.decodeNext m ⟨first, last⟩ it = Ptr.decodeNext m' ⟨first', last⟩ it ∧
      Ptr.skipNext m ⟨first, last⟩ it = Ptr.skipNext m' ⟨first', last⟩ it) ∧
    (AgreeOn m m' first it →
      Ptr.decodePrev m ⟨first, last⟩ it = Ptr.decodePrev m' ⟨first, last'⟩ it ∧
      Ptr.skipPrev m ⟨first, last⟩ it = Ptr.skipPrev m' ⟨first, last'⟩ it) := by
  constructor
  · intro h
    rw [decodeNext_eq m first last it h1 h2, decodeNext_eq m' first' last it h1' h2, skipNext_eq m first last it h1 h2,
      skipNext_eq m' first' last it h1' h2, bytes_agree h]
    exact ⟨rfl, rfl⟩
  · intro h
    rw [decodePrev_eq m first last it h1 h2, decodePrev_eq m' first last' it h1 h2', skipPrev_eq m first last it h1 h2,
      skipPrev_eq m' first last' it h1 h2', bytes_agree h]
    exact ⟨rfl, rfl⟩

/-- C95: `encode_utf8` with a buffer from `first` to before `last` writes the `n` first bytes of the buffer, and no others, where `n` is the
return value: the encoding of the code point if there is one and if it fits, and otherwise nothing. -/
theorem C95_encode (m : Mem) (c : Char32) (first last : Nat) (h : first ≤ last) :
    ∃ m' n, Ptr.encodeUtf8 m c ⟨first, last⟩ = .ok (m', n) ∧ first + n ≤ last ∧
      (∀ a, ¬ (first ≤ a ∧ a < first + n) → m' a = m a) ∧
      (c.toNat ≤ 0x10FFFF ∧ (rfcEncode c.toNat).length ≤ last - first → bytes m' first (first + n) = rfcEncode c.toNat) ∧
      (¬ (c.toNat ≤ 0x10FFFF ∧ (rfcEncode c.toNat).length ≤ last - first) → n = 0) := by
  generalize hn : (if getUtf8EncodedLength c > last - first then 0 else getUtf8EncodedLength c) = n
  have hle : first + n ≤ last := by rw [← hn]; split <;> omega
  obtain ⟨m', e1, e2, e3⟩ := encodeDetail_eq first last c n m first (Nat.le_refl _) hle
  have hr := C03_encode_rfc3629 c
  refine ⟨m', n, ?_, hle, fun a ha => e2 a (by omega), ?_, ?_⟩
  · simp only [Ptr.encodeUtf8, hn, bind, Except.bind, e1]
  · rintro ⟨hc, hf⟩
    have h2 := hr.1 hc
    have h3 : getUtf8EncodedLength c = (rfcEncode c.toNat).length := h2.2
    rw [if_neg (by omega)] at hn
    rw [e3, ← hn]
    exact h2.1
  · intro hh
    by_cases hc : c.toNat ≤ 0x10FFFF
    · have h3 : getUtf8EncodedLength c = (rfcEncode c.toNat).length := (hr.1 hc).2
      rw [← hn, if_pos]
      have := fun x => hh ⟨hc, x⟩
      omega
    · have h3 : getUtf8EncodedLength c = 0 := (hr.2 (by omega)).2
      rw [← hn, h3]; split <;> rfl

local instance ptrDecEq {α β : Type} [DecidableEq α] [DecidableEq β] : DecidableEq (Except α β) := fun a b =>
  match a, b with
  | .ok x, .ok y => if h : x = y then isTrue (by rw [h]) else isFalse (by simpa using h)
  | .error x, .error y => if h : x = y then isTrue (by rw [h]) else isFalse (by simpa using h)
  | .ok _, .error _ => isFalse (by simp)
  | .error _, .ok _ => isFalse (by simp)

/-! "€" at the addresses 10 to 12, with other bytes around it -/

example : let m : Mem := fun a => if a = 10 then 0xE2 else if a = 11 then 0x82 else if a = 12 then 0xAC else 0xFF
    Ptr.decodeNext m ⟨10, 13⟩ 10 = .ok (0x20AC, 13) ∧ Ptr.decodeNext m ⟨10, 12⟩ 10 = .ok (INVALID_CHAR, 10) ∧
    Ptr.decodePrev m ⟨10, 13⟩ 13 = .ok (0x20AC, 10) ∧ Ptr.decodePrev m ⟨11, 13⟩ 13 = .ok (INVALID_CHAR, 13) ∧
    Ptr.skipNext m ⟨10, 13⟩ 10 = .ok (true, 13) ∧ Ptr.skipPrev m ⟨9, 13⟩ 13 = .ok (true, 10) := by
  intro m; decide +kernel

example : let m : Mem := fun a => if a = 5 then 0x41 else 0x80
    Ptr.decodePrev m ⟨5, 13⟩ 13 = .error .shift ∧ Ptr.decodePrev m ⟨5, 12⟩ 12 = .ok (INVALID_CHAR, 12) := by
  intro m; decide +kernel

example : ((Ptr.encodeUtf8 (fun _ => 7) 0x20AC ⟨10, 13⟩).toOption.map fun p => (bytes p.1 9 14, p.2))
      = some ([7, 0xE2, 0x82, 0xAC, 7], 3) ∧
    ((Ptr.encodeUtf8 (fun _ => 7) 0x20AC ⟨10, 12⟩).toOption.map fun p => (bytes p.1 9 14, p.2)) = some ([7, 7, 7, 7, 7], 0) := by
  decide +kernel

end Ystring
