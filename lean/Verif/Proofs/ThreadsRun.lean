import Verif.Proofs.Threads
import Verif.Proofs.Pointers
import Verif.Proofs.Decompose
/- What the calls return when they are alone. -/
namespace Ystring.Thr
open Ptr Spec

theorem alone_load (m : Mem) {b e it : Nat} (h1 : b ≤ it) (h2 : it < e) : alone (load ⟨b, e⟩ it) m = (.ok (m it), m) := by
  unfold load; rw [if_pos ⟨h1, h2⟩]; rfl

theorem alone_ptr (m : Mem) {b e it : Nat} (h1 : b ≤ it) (h2 : it ≤ e) : alone (ptr ⟨b, e⟩ it) m = (.ok it, m) := by
  unfold ptr; rw [if_pos ⟨h1, h2⟩]; rfl

theorem alone_back (m : Mem) {b e k it : Nat} (h1 : b + k ≤ it) (h2 : it ≤ e) : alone (back ⟨b, e⟩ k it) m = (.ok (it - k), m) := by
  unfold back; rw [if_pos ⟨h1, h2⟩]; rfl

theorem alone_fin {α : Type} (x : Res α) (m : Mem) : alone (fin x) m = (x, m) := rfl

/-- faults of the pointer model as outcomes -/
def conv {α : Type} : PRes α → Res α
  | .ok a => .ok a
  | .error .diverge => .error .diverge
  | .error _ => .error .ub

theorem run_decodeNextLoop (m : Mem) (b e s : Nat) (hb : b ≤ s) : ∀ (n i : Nat) (res : Char32) (it : Nat),
    it = s + i + 1 → it + n ≤ e →
    alone (decodeNextLoop ⟨b, e⟩ n i res it) m = (conv (Ptr.decodeNextLoop m ⟨b, e⟩ n i res it), m) := by
  intro n
  induction n with
  | zero => intro i res it _ _; rfl
  | succ n ih =>
    intro i res it h1 h2
    unfold decodeNextLoop Ptr.decodeNextLoop
    rw [alone_ok (alone_load m (by omega) (by omega)), Ptr.load_ok m b e it (by omega) (by omega)]
    simp only [bind, Except.bind]
    split
    · rw [← bind_def, alone_ok (alone_ptr m (by omega) (by omega)), Ptr.inc_ok b e it (by omega) (by omega)]
      exact ih _ _ _ (by omega) (by omega)
    · rw [← bind_def, alone_ok (alone_back m (by omega) (by omega)), Ptr.decs_ok ⟨b, e⟩ (i + 1) it (by simp; omega) (by simp; omega)]
      rfl

theorem run_decodeNextLead (m : Mem) (b e it : Nat) (hb : b ≤ it) (he : it < e) (mask : UInt8) (n : Nat) :
    alone (decodeNextLead ⟨b, e⟩ it mask n) m = (conv (Ptr.decodeNextLead m ⟨b, e⟩ it mask n), m) := by
  unfold decodeNextLead Ptr.decodeNextLead
  rw [alone_ok (alone_load m hb he), alone_ok (alone_ptr m (by omega) (by omega)), Ptr.load_ok m b e it hb he]
  simp only [bind, Except.bind]
  rw [Ptr.inc_ok b e it hb he]
  dsimp only
  split
  · rw [← bind_def, alone_ok (alone_back m (by omega) (by omega)), Ptr.dec_ok b e _ (by omega) (by omega)]
    rfl
  · exact run_decodeNextLoop m b e it hb _ _ _ _ rfl (by omega)

theorem run_decodeNext' (m : Mem) (b e it : Nat) (hb : b ≤ it) (he : it ≤ e) :
    alone (decodeNext ⟨b, e⟩ it) m = (conv (Ptr.decodeNext m ⟨b, e⟩ it), m) := by
  unfold decodeNext Ptr.decodeNext
  by_cases h : it = e
  · rw [if_pos h, if_pos h]; rfl
  · rw [if_neg h, if_neg h]
    have he' : it < e := by omega
    simp only [alone_ok (alone_load m hb he'), Ptr.load_ok m b e it hb he']
    simp only [bind, Except.bind]
    rw [Ptr.inc_ok b e it hb he']
    dsimp only
    split
    · rw [← bind_def, alone_ok (alone_load m hb he'), ← bind_def, alone_ok (alone_ptr m (by omega) (by omega))]; rfl
    rw [← bind_def, alone_ok (alone_load m hb he')]
    split
    · exact run_decodeNextLead m b e it hb he' _ _
    rw [← bind_def, alone_ok (alone_load m hb he')]
    split
    · exact run_decodeNextLead m b e it hb he' _ _
    rw [← bind_def, alone_ok (alone_load m hb he')]
    split
    · exact run_decodeNextLead m b e it hb he' _ _
    · rfl

theorem run_decodePrevLoop (m : Mem) (b e s : Nat) (hs : s ≤ e) : ∀ (fuel n : Nat) (res : Char32) (it : Nat),
    b ≤ it → it - b < fuel → s = it + n + 1 →
    alone (decodePrevLoop ⟨b, e⟩ fuel n res it) m = (conv (Ptr.decodePrevLoop m ⟨b, e⟩ fuel n res it), m) := by
  intro fuel
  induction fuel with
  | zero => intro n res it _ h; omega
  | succ fuel ih =>
    intro n res it hb hf hs'
    have he' : it < e := by omega
    unfold decodePrevLoop Ptr.decodePrevLoop
    rw [alone_ok (alone_load m hb he'), Ptr.load_ok m b e it hb he', Ptr.incs_ok ⟨b, e⟩ (n + 1) it hb (by simp; omega)]
    simp only [bind, Except.bind]
    split
    · split
      · rw [← bind_def, alone_ok (alone_ptr m (by omega) (by omega))]; rfl
      · rw [← bind_def, alone_ok (alone_load m hb he')]
        split
        · rfl
        · rename_i h0 _
          have h0' : it ≠ b := h0
          rw [← bind_def, alone_ok (alone_back m (by omega) (by omega)), Ptr.dec_ok b e it (by omega) (by omega)]
          exact ih _ _ _ (by omega) (by omega) (by omega)
    · rw [← bind_def, alone_ok (alone_load m hb he')]
      repeat' split
      all_goals first | rfl | (rw [← bind_def, alone_ok (alone_ptr m (by omega) (by omega))]; rfl)

theorem run_decodePrev' (m : Mem) (b e it : Nat) (hb : b ≤ it) (he : it ≤ e) :
    alone (decodePrev ⟨b, e⟩ it) m = (conv (Ptr.decodePrev m ⟨b, e⟩ it), m) := by
  unfold decodePrev Ptr.decodePrev
  by_cases h : it = b
  · rw [if_pos h, if_pos h]; rfl
  · rw [if_neg h, if_neg h]
    rw [alone_ok (alone_back m (by omega) (by omega)), Ptr.dec_ok b e it (by omega) (by omega)]
    rw [alone_ok (alone_load m (by omega) (by omega))]
    simp only [bind, Except.bind]
    rw [Ptr.load_ok m b e (it - 1) (by omega) (by omega)]
    dsimp only
    split
    · rw [← bind_def, alone_ok (alone_load m (by omega) (by omega))]; rfl
    · exact run_decodePrevLoop m b e it he _ _ _ _ (by omega) (by omega) (by omega)

theorem run_skipNextLoop (m : Mem) (b e : Nat) : ∀ (fuel n it : Nat), b ≤ it → it ≤ e → e - it < fuel →
    alone (skipNextLoop ⟨b, e⟩ fuel n it) m = (conv (Ptr.skipNextLoop m ⟨b, e⟩ fuel n it), m) := by
  intro fuel
  induction fuel with
  | zero => intro n it _ _ h; omega
  | succ fuel ih =>
    intro n it hb he hf
    unfold skipNextLoop Ptr.skipNextLoop
    split
    · rename_i h
      have h' : it ≠ e := h
      rw [alone_ok (alone_load m hb (by omega)), Ptr.load_ok m b e it hb (by omega), Ptr.inc_ok b e it hb (by omega)]
      simp only [bind, Except.bind]
      split
      · split
        · rw [← bind_def, alone_ok (alone_ptr m (by omega) (by omega))]
          exact ih _ _ (by omega) (by omega) (by omega)
        · rfl
      · rfl
    · rfl

theorem run_skipNext' (m : Mem) (b e it : Nat) (hb : b ≤ it) (he : it ≤ e) :
    alone (skipNext ⟨b, e⟩ it) m = (conv (Ptr.skipNext m ⟨b, e⟩ it), m) := by
  unfold skipNext Ptr.skipNext
  by_cases h : it = e
  · rw [if_pos h, if_pos h]; rfl
  · rw [if_neg h, if_neg h]
    rw [alone_ok (alone_load m hb (by omega)), alone_ok (alone_ptr m (by omega) (by omega)), Ptr.load_ok m b e it hb (by omega)]
    simp only [bind, Except.bind]
    rw [Ptr.inc_ok b e it hb (by omega)]
    dsimp only
    split
    · rfl
    · rw [Ptr.skipNextLoop_eq m b e _ _ _ (by omega) (by omega) (by omega), ← bind_def]
      rw [alone_ok]
      · exact alone_fin _ _
      · rw [run_skipNextLoop m b e _ _ _ (by omega) (by omega) (by omega),
          Ptr.skipNextLoop_eq m b e _ _ _ (by omega) (by omega) (by omega)]
        rfl

/-! ### The codec on strings -/

theorem run_decodeNext (m : Mem) (b e it : Nat) (hb : b ≤ it) (he : it ≤ e) :
    alone (decodeNext ⟨b, e⟩ it) m = ((Ystring.decodeNext (bytes m it e)).map (ahead e), m) := by
  rw [run_decodeNext' m b e it hb he, Ptr.decodeNext_eq m b e it hb he]
  by_cases h : HasSeqPrefix (bytes m it e)
  · obtain ⟨u, c, t, hu, e'⟩ := h
    rw [e', decodeNext_seq hu]; rfl
  · rw [decodeNext_bad h]; rfl

theorem run_decodePrev (m : Mem) (b e it : Nat) (hb : b ≤ it) (he : it ≤ e) :
    alone (decodePrev ⟨b, e⟩ it) m = ((Ystring.decodePrev (bytes m b it).reverse).map (behind b), m) := by
  rw [run_decodePrev' m b e it hb he, Ptr.decodePrev_eq m b e it hb he]
  by_cases h : HasSeqSuffix (bytes m b it)
  · obtain ⟨u, c, t, hu, e'⟩ := h
    rw [e', List.reverse_append, decodePrev_seq hu]; rfl
  · by_cases h2 : LongContRun (bytes m b it)
    · rw [decodePrev_ub h2]; rfl
    · rw [decodePrev_bad h h2]; rfl

theorem run_skipNext (m : Mem) (b e it : Nat) (hb : b ≤ it) (he : it ≤ e) :
    alone (skipNext ⟨b, e⟩ it) m = (.ok (ahead e (Ystring.skipNext (bytes m it e))), m) := by
  rw [run_skipNext' m b e it hb he, Ptr.skipNext_eq m b e it hb he]; rfl

/-- the three cases of `safe_decode_next` at an address -/
theorem run_safeDecodeNext (m : Mem) (b e it : Nat) (hb : b ≤ it) (he : it ≤ e) :
    (Ystring.safeDecodeNext (bytes m it e) = .ok none ∧ alone (safeDecodeNext ⟨b, e⟩ it) m = (.ok none, m)) ∨
    (Ystring.safeDecodeNext (bytes m it e) = .error .ystring ∧ alone (safeDecodeNext ⟨b, e⟩ it) m = (.error .ystring, m)) ∨
    (∃ c it', it < it' ∧ it' ≤ e ∧ Ystring.safeDecodeNext (bytes m it e) = .ok (some (c, bytes m it' e)) ∧
      alone (safeDecodeNext ⟨b, e⟩ it) m = (.ok (some (c, it')), m)) := by
  by_cases h0 : it = e
  · left
    rw [bytes_nil m (by omega)]
    refine ⟨rfl, ?_⟩
    unfold safeDecodeNext
    rw [if_pos h0]; rfl
  right
  have hr := run_decodeNext m b e it hb he
  unfold safeDecodeNext
  rw [if_neg h0]
  by_cases h : HasSeqPrefix (bytes m it e)
  · right
    obtain ⟨u, c, t, hu, e'⟩ := h
    obtain ⟨h3, h4, h5⟩ := bytes_suffix m he e'
    rw [e', decodeNext_seq hu] at hr
    refine ⟨c, it + u.length, ?_, h4, ?_, ?_⟩
    · have := hu.ne_nil; have := List.length_pos_iff.mpr this; omega
    · rw [e', safeDecodeNext_seq hu, h3]
    · have hr' : alone (decodeNext ⟨b, e⟩ it) m = (.ok (c, it + u.length), m) := by
        rw [hr, show it + u.length = e - t.length by omega]; rfl
      rw [alone_ok hr']
      dsimp only
      rw [if_neg hu.ne_invalid]; rfl
  · left
    rw [decodeNext_bad h] at hr
    refine ⟨safeDecodeNext_bad (by rw [bytes_cons m (by omega)]; simp) h, ?_⟩
    have hr' : alone (decodeNext ⟨b, e⟩ it) m = (.ok (INVALID_CHAR, e - (bytes m it e).length), m) := hr
    rw [alone_ok hr']
    dsimp only
    rw [if_pos rfl]; rfl

/-- the cases of `safe_decode_prev` at an address -/
theorem run_safeDecodePrev (m : Mem) (b e it : Nat) (hb : b ≤ it) (he : it ≤ e) :
    (Ystring.safeDecodePrev (bytes m b it).reverse = .ok none ∧ alone (safeDecodePrev ⟨b, e⟩ it) m = (.ok none, m)) ∨
    (∃ er, Ystring.safeDecodePrev (bytes m b it).reverse = .error er ∧ alone (safeDecodePrev ⟨b, e⟩ it) m = (.error er, m)) ∨
    (∃ c it', b ≤ it' ∧ it' < it ∧ Ystring.safeDecodePrev (bytes m b it).reverse = .ok (some (c, (bytes m b it').reverse)) ∧
      alone (safeDecodePrev ⟨b, e⟩ it) m = (.ok (some (c, it')), m)) := by
  by_cases h0 : it = b
  · left
    rw [bytes_nil m (by omega)]
    refine ⟨rfl, ?_⟩
    unfold safeDecodePrev
    rw [if_pos h0]; rfl
  right
  have hr := run_decodePrev m b e it hb he
  unfold safeDecodePrev
  rw [if_neg h0]
  have hne : bytes m b it ≠ [] := by rw [bytes_cons m (by omega)]; simp
  by_cases h : HasSeqSuffix (bytes m b it)
  · right
    obtain ⟨u, c, t, hu, e'⟩ := h
    obtain ⟨h3, h4, h5⟩ := bytes_prefix m hb e'
    rw [e', List.reverse_append, decodePrev_seq hu] at hr
    refine ⟨c, it - u.length, by omega, ?_, ?_, ?_⟩
    · have := hu.ne_nil; have := List.length_pos_iff.mpr this; omega
    · rw [e', List.reverse_append, safeDecodePrev_seq hu, h3]
    · have hr' : alone (decodePrev ⟨b, e⟩ it) m = (.ok (c, it - u.length), m) := by
        rw [hr, show it - u.length = b + t.reverse.length by rw [List.length_reverse]; omega]; rfl
      rw [alone_ok hr']
      dsimp only
      rw [if_neg hu.ne_invalid]; rfl
  · left
    by_cases h2 : LongContRun (bytes m b it)
    · rw [decodePrev_ub h2] at hr
      exact ⟨.ub, safeDecodePrev_ub h2, alone_err hr⟩
    · rw [decodePrev_bad h h2] at hr
      refine ⟨.ystring, safeDecodePrev_bad hne h h2, ?_⟩
      have hr' : alone (decodePrev ⟨b, e⟩ it) m = (.ok (INVALID_CHAR, b + (bytes m b it).reverse.length), m) := hr
      rw [alone_ok hr']
      dsimp only
      rw [if_pos rfl]; rfl

end Ystring.Thr
