import Verif.Proofs.CostBound
import Verif.Proofs.Utf8
/-
Budgets for replacing invalid sequences, splitting, trimming and the case-insensitive functions.
-/
namespace Ystring.Cost
open Spec

/-! ### replace_invalid_utf8 -/

theorem reads_bind_read {α : Type} (f : Unit → Counted α) : (read >>= f).reads = 1 + (f ()).reads := rfl

theorem reads_decodeNextLoop (k : Nat) : ∀ (i : Nat) (res : Char32) (passed it : Str),
    (decodeNextLoop k i res passed it).reads + (Ystring.skipCont k it).length ≤ it.length + 1 := by
  induction k with
  | zero =>
    intro i res passed it
    have : Ystring.skipCont 0 it = it := by cases it <;> rfl
    rw [this]
    show 0 + _ ≤ _
    omega
  | succ k ih =>
    intro i res passed it
    cases it with
    | nil => simp [decodeNextLoop, Ystring.skipCont, lift]
    | cons c it =>
      simp only [decodeNextLoop, Ystring.skipCont, reads_bind_read]
      by_cases hc : c &&& 0xC0 = 0x80
      · rw [if_pos hc, if_pos hc]
        have := ih (i + 1) (res <<< 6 ||| (c &&& 0x3F).toUInt32) (c :: passed) it
        simp only [List.length_cons]; omega
      · rw [if_neg hc, if_neg hc]
        have : (lift (stepBack (i + 1) passed (c :: it)) >>= fun it => lift (.ok (INVALID_CHAR, it))).reads = 0 := by
          show (Counted.bind _ _).reads = 0
          unfold Counted.bind
          split <;> rfl
        rw [this]
        simp only [List.length_cons]; omega

theorem skipCont_length_le (k : Nat) : ∀ it : Str, (Ystring.skipCont k it).length ≤ it.length := by
  induction k with
  | zero => intro it; cases it <;> exact Nat.le_refl _
  | succ k ih =>
    intro it
    cases it with
    | nil => exact Nat.le_refl _
    | cons c it =>
      simp only [Ystring.skipCont]
      split
      · exact Nat.le_trans (ih it) (Nat.le_succ _)
      · exact Nat.le_refl _

theorem reads_decodeNext (s : Str) : (decodeNext s).reads + (Ystring.skipNext s).2.length ≤ s.length + 1 := by
  cases s with
  | nil => simp [decodeNext, Ystring.skipNext, lift]
  | cons b it =>
    have h1 : ∀ (res : UInt8) (k : Nat),
        (decodeNextCont b it res k).reads + (Ystring.skipCont k it).length ≤ it.length + 1 := by
      intro res k
      unfold decodeNextCont
      split
      · have : (lift (stepBack 1 [b] it) >>= fun it => lift (.ok (INVALID_CHAR, it))).reads = 0 := rfl
        rw [this]
        have := skipCont_length_le k it
        omega
      · exact reads_decodeNextLoop k _ _ _ _
    simp only [decodeNext, Ystring.skipNext, reads_bind_read, List.length_cons]
    split
    · show 1 + 0 + it.length ≤ _; omega
    split
    · have := h1 (b &&& 0x1F) 1; simp only; omega
    split
    · have := h1 (b &&& 0x0F) 2; simp only; omega
    split
    · have := h1 (b &&& 0x07) 3; simp only; omega
    · have := skipCont_length_le 4294967295 it
      show 1 + 0 + _ ≤ _
      simp only; omega

theorem decodeNext_invalid {s it : Str} (h : Ystring.decodeNext s = .ok (INVALID_CHAR, it)) : it = s := by
  by_cases hp : HasSeqPrefix s
  · obtain ⟨u, c, t, hu, rfl⟩ := hp
    rw [decodeNext_seq hu] at h
    have := Except.ok.inj h
    injection this with h1 h2
    exact absurd h1 hu.ne_invalid
  · rw [decodeNext_bad hp] at h
    have := Except.ok.inj h
    injection this with h1 h2
    exact h2.symm

theorem wp_replaceInvalidLoop (repl : Str) (fuel : Nat) : ∀ (it prev res : Str) (n : Nat), 4 * it.length ≤ n →
    wp n (replaceInvalidLoop repl fuel it prev res) fun _ r => r + it.length ≤ n := by
  induction fuel with
  | zero => intro it prev res n _; exact wp_error
  | succ fuel ih =>
    intro it prev res n hn
    unfold replaceInvalidLoop
    split
    · rename_i hne
      have h0 := wp_self (wp_decodeNext it n (Or.inr (by omega)))
      refine wp_bind ⟨h0.1, ?_⟩
      rintro ⟨ch, it'⟩ e
      obtain ⟨hcase, hr⟩ := h0.2 _ e
      generalize n - (decodeNext it).reads = r at hcase hr
      simp only at hcase ⊢
      split
      · rcases hcase with ⟨u, rfl, h1, h2, h3⟩ | h
        · simp only [List.length_append] at hn
          exact wp_mono (ih it' _ _ r (by omega)) fun a r' h => by simp only [List.length_append]; omega
        · contradiction
      · rename_i hch
        have hch : ch = INVALID_CHAR := Classical.not_not.mp hch
        subst hch
        rw [val_decodeNext] at e
        have e := decodeNext_invalid e
        subst e
        have hd := reads_decodeNext it'
        have hpos : 0 < it'.length := List.length_pos_iff.mpr hne
        have hr4 : (decodeNext it').reads ≤ it'.length := wp_le (wp_decodeNext it' _ (Or.inr (Nat.le_refl _)))
        have hs : wp r (skipNext it') fun p r' => p = Ystring.skipNext it' ∧
            ∃ u, it' = u ++ p.2 ∧ 0 < u.length ∧ r ≤ r' + u.length + 1 ∧ r' + u.length ≤ r := by
          have := wp_skipNext it' r (by omega) (Q := fun p r' => ∃ u, it' = u ++ p.2 ∧ 0 < u.length ∧ r ≤ r' + u.length + 1 ∧ r' + u.length ≤ r)
            (fun h => absurd h hne) fun u it r' h1 h2 h3 h4 h5 => ⟨u, h1, h2, h4, h5⟩
          exact ⟨this.1, fun p hp => ⟨by rw [val_skipNext] at hp; exact (Except.ok.inj hp).symm, this.2 p hp⟩⟩
        refine wp_bind (wp_mono hs ?_)
        rintro ⟨x, it2⟩ r' ⟨hp, u, h1, h2, h3, h4⟩
        rw [← hp] at hd
        simp only at h1 hd ⊢
        have hlen := congrArg List.length h1
        simp only [List.length_append] at hlen
        exact wp_mono (ih it2 _ _ r' (by omega)) fun a r'' h => by omega
    · rename_i h
      rw [Classical.not_not.mp h]
      exact wp_ok (by simp)

/-! ### split -/

theorem substr_ok {s t : Str} {o : Nat} (hl : s.length < npos) (h : substr s o = .ok t) : o ≤ s.length ∧ t = s.drop o := by
  unfold substr at h
  split at h
  · cases h
  · refine ⟨by omega, ?_⟩
    rw [← Except.ok.inj h]
    exact List.take_of_length_le (by simp only [List.length_drop]; omega)

section
variable (Φ : Str → Nat) (finder : Str → Counted Subrange)

/-- what remains of the budget pays for the rest of the string -/
def Inv (t : TokenIterator) (n : Nat) : Prop := t.str.length < npos ∧
  (t.token.nonempty = true → Φ (t.str.drop t.token.stop) ≤ n) ∧
  (t.token.nonempty = false → t.token.start = 0 → Φ t.str ≤ n)

variable (H : ∀ (s : Str) (n : Nat), s.length < npos → Φ s ≤ n → wp n (finder s) fun p r => p.nonempty = true →
    Φ (s.drop p.stop) ≤ r)
include H

theorem wp_next (t : TokenIterator) (n : Nat) (h : Inv Φ t n) : wp n (next finder t) fun p r => p.1 = true → Inv Φ p.2 r := by
  obtain ⟨hl, h1, h2⟩ := h
  have find : ∀ s : Str, s.length < npos → Φ s ≤ n → wp n (do
      let token ← finder s
      if !token.nonempty then lift (.ok (true, (⟨s, ⟨npos, token.length⟩⟩ : TokenIterator)))
      else lift (.ok (true, (⟨s, token⟩ : TokenIterator)))) fun p r => p.1 = true → Inv Φ p.2 r := by
    intro s hs hn
    refine wp_bind (wp_mono (H s n hs hn) fun p r hp => ?_)
    cases hne : p.nonempty with
    | true => exact wp_ok fun _ => ⟨hs, fun _ => hp hne, fun h => by rw [hne] at h; cases h⟩
    | false =>
      refine wp_ok fun _ => ⟨hs, fun h => ?_, fun _ h => by cases h⟩
      have : (Subrange.mk npos p.length).nonempty = p.nonempty := rfl
      rw [this, hne] at h; cases h
  unfold next
  simp only
  cases hne : t.token.nonempty with
  | true =>
    rw [if_pos rfl]
    refine wp_bind (wp_lift fun s hs => ?_)
    obtain ⟨-, rfl⟩ := substr_ok hl hs
    exact find _ (by simp only [List.length_drop]; omega) (h1 hne)
  | false =>
    rw [if_neg (by simp)]
    split
    · exact wp_ok fun h => by cases h
    · rename_i hz
      exact find _ hl (h2 hne (Classical.not_not.mp hz))

theorem wp_splitLoop (params : SplitParams) (fuel : Nat) : ∀ (t : TokenIterator) (res : List Str) (n : Nat), Inv Φ t n →
    wp n (splitLoop finder params fuel t res) fun _ _ => True := by
  induction fuel with
  | zero => intro t res n _; exact wp_error
  | succ fuel ih =>
    intro t res n hn
    unfold splitLoop
    split
    · refine wp_bind (wp_mono (wp_next Φ finder H t n hn) ?_)
      rintro ⟨more, t'⟩ r h
      simp only at h ⊢
      split
      · rename_i hm
        refine wp_bind (wp_lift fun part _ => ?_)
        split
        · exact ih _ _ r (h hm)
        · exact ih _ _ r (h hm)
      · exact wp_ok trivial
    · exact wp_ok trivial

theorem wp_splitWhere (str : Str) (params : SplitParams) (n : Nat) (hl : str.length < npos) (hn : Φ str ≤ n) :
    wp n (splitWhere str finder params) fun _ _ => True := by
  unfold splitWhere
  refine wp_bind (wp_mono (wp_splitLoop Φ finder H params _ (TokenIterator.mk' str) [] n
    ⟨hl, (fun h => by cases h), fun _ _ => hn⟩) ?_)
  rintro ⟨t, res⟩ r -
  simp only
  split
  · refine wp_bind (wp_lift fun rem _ => ?_)
    split <;> exact wp_ok trivial
  · exact wp_ok trivial
end

theorem wp_splitChars (str : Str) (chars : List Char32) (params : SplitParams) (n : Nat) (hl : str.length < npos)
    (hn : str.length ≤ n) : wp n (splitChars str chars params) fun _ _ => True := by
  refine wp_splitWhere List.length _ ?_ str params n hl hn
  intro s n hl hn
  refine wp_bind (wp_mono (wp_findFirstWhere s _ hl n hn) fun p r h => wp_ok fun hp => ?_)
  rcases h with ⟨h, -⟩ | ⟨v, w, rfl, -, h2, -, h3⟩
  · rw [hp] at h; cases h
  · simp only [List.length_append] at hn
    rw [h3, List.drop_left]; omega

theorem wp_findFirstNewline (mem : List Char32) (s : Str) (n : Nat) (hl : s.length < npos) (hn : phi s ≤ n) :
    wp n (findFirstNewline mem s) fun p r => p.nonempty = true → phi (s.drop p.stop) ≤ r := by
  have hf := first_le s
  unfold phi at hn
  unfold findFirstNewline
  refine wp_bind (wp_mono (wp_findFirstWhere s _ hl n (by omega)) ?_)
  rintro ⟨p, c⟩ r h
  simp only at h ⊢
  rcases h with ⟨h, hc⟩ | ⟨v, w, rfl, h1, h2, h4, h3⟩
  · subst hc
    rw [if_pos (by decide)]
    exact wp_ok fun hp => by rw [hp] at h; cases h
  simp only [List.length_append] at hn hl
  have fin : phi ((v ++ w).drop p.stop) ≤ r := by
    rw [h3, List.drop_left]
    have := phi_le w
    omega
  split
  · exact wp_ok fun _ => fin
  · refine wp_bind (wp_lift fun it hit => ?_)
    obtain ⟨ho, e⟩ := iterAt_ok hit
    rw [h3, List.drop_left] at e
    subst e
    have hw := first_le it
    refine wp_bind (wp_safeDecodeNext' it r (by omega) (fun _ => wp_ok fun _ => fin) ?_)
    rintro u ch it r' rfl h5 h6 h7 h8
    simp only [List.length_append] at hn hl hw
    simp only
    split
    · refine wp_ok fun _ => ?_
      have hpos : posOf (v ++ (u ++ it)) it = v.length + u.length := by simp [posOf]; omega
      have : (Subrange.mk p.start (sizeSub (posOf (v ++ (u ++ it)) it) p.start)).stop = v.length + u.length := by
        show sizeAdd p.start (sizeSub _ p.start) = _
        have hs : p.start = p.offset := rfl
        rw [hpos, sizeSub_le (by omega) (by omega), sizeAdd_lt (by omega)]
        omega
      rw [this, ← List.append_assoc, show v.length + u.length = (v ++ u).length by simp, List.drop_left]
      have := phi_le it
      omega
    · refine wp_ok fun _ => ?_
      rw [h3, List.drop_left]
      unfold phi
      simp only [List.length_append]
      omega

theorem wp_splitLines (mem : List Char32) (str : Str) (params : SplitParams) (n : Nat) (hl : str.length < npos)
    (hn : 2 * str.length ≤ n) : wp n (splitLines mem str params) fun _ _ => True :=
  wp_splitWhere phi _ (fun s n hl hn => wp_findFirstNewline mem s n hl hn) str params n hl
    (Nat.le_trans (phi_le _) hn)

/-! ### trim -/

theorem wp_trimEndWhere (str : Str) (pred : Char32 → Bool) (n : Nat) (hn : str.length ≤ n) :
    wp n (trimEndWhere str pred) fun _ _ => True := by
  unfold trimEndWhere
  refine wp_bind (wp_mono (wp_findLastWhere str _ _ n (Nat.le_trans (Nat.min_le_right _ _) hn)) ?_)
  rintro ⟨p, c⟩ r -
  simp only
  split
  · exact wp_ok trivial
  · exact wp_lift fun _ _ => trivial

theorem wp_trimStartWhere (str : Str) (pred : Char32 → Bool) (n : Nat) (hn : str.length ≤ n) :
    wp n (trimStartWhere str pred) fun t r => t.length ≤ str.length ∧ n ≤ r + str.length := by
  unfold trimStartWhere
  have h : wp n (findFirstWhere str (fun c => !pred c)) fun _ r => n ≤ r + str.length := by
    have h := wp_findFirstWhere_le str (fun c => !pred c) 0 str.length (by omega)
    exact ⟨Nat.le_trans h.1 hn, fun _ _ => by have := h.1; omega⟩
  refine wp_bind (wp_mono h ?_)
  rintro ⟨p, c⟩ r hr
  simp only
  split
  · exact wp_ok ⟨by simp, hr⟩
  · refine wp_lift fun t ht => ⟨?_, hr⟩
    unfold substr at ht
    split at ht
    · cases ht
    · rw [← Except.ok.inj ht]
      simp only [List.length_take, List.length_drop]; omega

theorem wp_trimWhere (str : Str) (pred : Char32 → Bool) (n : Nat) (hn : 2 * str.length ≤ n) :
    wp n (trimWhere str pred) fun _ _ => True := by
  unfold trimWhere
  refine wp_bind (wp_mono (wp_trimStartWhere str pred n (by omega)) ?_)
  rintro t r ⟨h1, h2⟩
  exact wp_trimEndWhere t pred r (by omega)

/-! ### Case-insensitive functions -/

theorem wp_compareLoop (fuel : Nat) : ∀ (a b : Str) (n : Nat), a.length + b.length ≤ n →
    wp n (compareLoop fuel a b) fun x r => x = 0 → r + (a.length + b.length) = n := by
  induction fuel with
  | zero => intro a b n _; exact wp_error
  | succ fuel ih =>
    intro a b n hn
    unfold compareLoop
    refine wp_bind (wp_safeDecodeNext a n (by omega) (fun ha => ?_) ?_)
    · exact wp_bind (wp_safeDecodeNext b n (by omega) (fun hb => wp_ok (by rw [ha, hb]; simp)) fun _ _ _ _ _ _ _ _ => wp_ok (by simp))
    · rintro u ch a r rfl h1 h2 h3
      simp only [List.length_append] at hn
      refine wp_bind (wp_safeDecodeNext b r (by omega) (fun _ => wp_ok (by simp)) ?_)
      rintro v ch' b r' rfl h4 h5 h6
      simp only [List.length_append] at hn
      simp only
      split
      · rename_i h; exact wp_ok fun e => absurd e h
      · exact wp_mono (ih a b r' (by omega)) fun x r'' h e => by have := h e; simp only [List.length_append]; omega

theorem wp_equalLoop (fuel : Nat) : ∀ (a b : Str) (n : Nat), a.length + b.length ≤ n →
    wp n (equalLoop fuel a b) fun x r => x = true → r + (a.length + b.length) = n := by
  induction fuel with
  | zero => intro a b n _; exact wp_error
  | succ fuel ih =>
    intro a b n hn
    unfold equalLoop
    refine wp_bind (wp_safeDecodeNext a n (by omega) (fun ha => ?_) ?_)
    · exact wp_bind (wp_safeDecodeNext b n (by omega) (fun hb => wp_ok (by rw [ha, hb]; simp)) fun _ _ _ _ _ _ _ _ => wp_ok (by simp))
    · rintro u ch a r rfl h1 h2 h3
      simp only [List.length_append] at hn
      refine wp_bind (wp_safeDecodeNext b r (by omega) (fun _ => wp_ok (by simp)) ?_)
      rintro v ch' b r' rfl h4 h5 h6
      simp only [List.length_append] at hn
      simp only
      split
      · exact wp_ok (by simp)
      · exact wp_mono (ih a b r' (by omega)) fun x r'' h e => by have := h e; simp only [List.length_append]; omega

theorem wp_lessLoop (fuel : Nat) : ∀ (a b : Str) (n : Nat), a.length + b.length ≤ n →
    wp n (lessLoop fuel a b) fun _ _ => True := by
  induction fuel with
  | zero => intro a b n _; exact wp_error
  | succ fuel ih =>
    intro a b n hn
    unfold lessLoop
    refine wp_bind (wp_safeDecodeNext a n (by omega) (fun _ => ?_) ?_)
    · refine wp_bind (wp_safeDecodeNext b n (by omega) (fun _ => wp_ok trivial) fun _ _ _ _ _ _ _ _ => wp_ok trivial)
    · rintro u ch a r rfl h1 h2 h3
      simp only [List.length_append] at hn
      refine wp_bind (wp_safeDecodeNext b r (by omega) (fun _ => wp_ok trivial) ?_)
      rintro v ch' b r' rfl h4 h5 h6
      simp only [List.length_append] at hn
      simp only
      split
      · exact wp_ok trivial
      · exact ih a b r' (by omega)

/-- The first string is read only as far as it can match the second. -/
theorem wp_nextMismatch (fuel : Nat) : ∀ (a b : Str) (n : Nat), (5 * b.length + 4 ≤ n ∨ a.length + b.length ≤ n) →
    wp n (nextMismatch fuel a b) fun _ r => n ≤ r + 5 * b.length + 4 := by
  induction fuel with
  | zero => intro a b n _; exact wp_error
  | succ fuel ih =>
    intro a b n hn
    unfold nextMismatch
    refine wp_bind (wp_safeDecodeNext a n (by omega) (fun _ => wp_ok (by omega)) ?_)
    rintro u ch a r rfl h1 h2 h3
    simp only [List.length_append] at hn
    refine wp_bind (wp_safeDecodeNext b r (by omega) (fun _ => wp_ok (by omega)) ?_)
    rintro v ch' b r' rfl h4 h5 h6
    simp only [List.length_append] at hn
    simp only [List.length_append]
    split
    · exact wp_ok (by omega)
    · refine wp_mono (ih a b r' (by omega)) fun _ r'' h => ?_
      omega

theorem wp_prevMismatch (fuel : Nat) : ∀ (a b : Str) (n : Nat), (5 * b.length + 7 ≤ n ∨ a.length + b.length ≤ n) →
    wp n (prevMismatch fuel a b) fun _ r => n ≤ r + 5 * b.length + 4 := by
  induction fuel with
  | zero => intro a b n _; exact wp_error
  | succ fuel ih =>
    intro a b n hn
    unfold prevMismatch
    refine wp_bind (wp_safeDecodePrev a n (by omega) (fun _ => wp_ok (by omega)) ?_)
    rintro u ch a r rfl h1 h2 h3
    simp only [List.length_append] at hn
    refine wp_bind (wp_safeDecodePrev b r (by omega) (fun _ => wp_ok (by omega)) ?_)
    rintro v ch' b r' rfl h4 h5 h6
    simp only [List.length_append] at hn
    simp only [List.length_append]
    split
    · exact wp_ok (by omega)
    · refine wp_mono (ih a b r' (by omega)) fun _ r'' h => ?_
      omega

theorem wp_startsWith (a b : Str) (n : Nat) (hn : a.length + b.length ≤ n) : wp n (startsWith a b) fun _ _ => True :=
  wp_bind (wp_mono (wp_nextMismatch _ a b n (Or.inr hn)) fun _ _ _ => wp_ok trivial)

theorem wp_endsWith (a b : Str) (n : Nat) (hn : a.length + b.length ≤ n) : wp n (endsWith a b) fun _ _ => True :=
  wp_bind (wp_mono (wp_prevMismatch _ a.reverse b.reverse n (Or.inr (by simpa using hn))) fun _ _ _ => wp_ok trivial)

theorem wp_findFirstLoop (str : Str) (c : Char32) (itCmp : Str) (fuel : Nat) : ∀ (it it' : Str) (n : Nat),
    it'.length * (5 * itCmp.length + 5) ≤ n → wp n (findFirstLoop str c itCmp fuel it it') fun _ _ => True := by
  induction fuel with
  | zero => intro it it' n _; exact wp_error
  | succ fuel ih =>
    intro it it' n hn
    unfold findFirstLoop
    have h0 : it'.length ≤ n := by
      refine Nat.le_trans ?_ hn
      exact Nat.le_mul_of_pos_right _ (by omega)
    refine wp_bind (wp_safeDecodeNext it' n (Or.inr h0) (fun _ => wp_ok trivial) ?_)
    rintro u ch it2 r rfl h1 h2 h3
    simp only [List.length_append] at hn
    rw [Nat.add_mul] at hn
    have hu : 5 * itCmp.length + 5 + (u.length - 1) ≤ u.length * (5 * itCmp.length + 5) := by
      have : u.length * (5 * itCmp.length + 5) = (5 * itCmp.length + 5) + (u.length - 1) * (5 * itCmp.length + 5) := by
        conv => lhs; rw [show u.length = 1 + (u.length - 1) by omega, Nat.add_mul, Nat.one_mul]
      rw [this]
      exact Nat.add_le_add_left (Nat.le_mul_of_pos_right _ (by omega)) _
    have hr : it2.length * (5 * itCmp.length + 5) + 5 * itCmp.length + 4 ≤ r := by omega
    simp only
    split
    · refine wp_bind (wp_mono (wp_nextMismatch _ it2 itCmp r (by omega)) ?_)
      rintro ⟨a, b⟩ r' h
      simp only
      split
      · exact wp_ok trivial
      · exact ih _ _ r' (by omega)
    · exact ih _ _ r (by omega)

theorem wp_findFirst (str cmp : Str) (o n : Nat) (hn : cmp.length + 5 * str.length * cmp.length ≤ n) :
    wp n (findFirst str cmp o) fun _ _ => True := by
  unfold findFirst
  refine wp_bind (wp_safeDecodeNext cmp n (by omega) (fun _ => wp_ok trivial) ?_)
  rintro u ch itCmp r rfl h1 h2 h3
  simp only [List.length_append] at hn
  refine wp_bind (wp_lift fun it h => ?_)
  obtain ⟨-, rfl⟩ := iterAt_ok h
  refine wp_findFirstLoop str ch itCmp _ _ _ r ?_
  have h4 : (str.drop o).length * (5 * itCmp.length + 5) ≤ str.length * (5 * itCmp.length + 5) :=
    Nat.mul_le_mul_right _ (by simp)
  have h5 : str.length * (5 * itCmp.length + 5) ≤ str.length * (5 * (u.length + itCmp.length)) :=
    Nat.mul_le_mul_left _ (by omega)
  have h6 : str.length * (5 * (u.length + itCmp.length)) = 5 * str.length * (u.length + itCmp.length) := by
    rw [← Nat.mul_assoc, Nat.mul_comm str.length 5]
  omega

theorem wp_findLastLoop (str : Str) (c : Char32) (itCmp : Str) (fuel : Nat) : ∀ (it it' : Str) (n : Nat),
    it'.length * (5 * itCmp.length + 5) + 3 ≤ n → wp n (findLastLoop str c itCmp fuel it it') fun _ _ => True := by
  induction fuel with
  | zero => intro it it' n _; exact wp_error
  | succ fuel ih =>
    intro it it' n hn
    unfold findLastLoop
    have h0 : it'.length ≤ n := by
      refine Nat.le_trans ?_ (Nat.le_trans (Nat.le_add_right _ 3) hn)
      exact Nat.le_mul_of_pos_right _ (by omega)
    refine wp_bind (wp_safeDecodePrev it' n (Or.inr h0) (fun _ => wp_ok trivial) ?_)
    rintro u ch it2 r rfl h1 h2 h3
    simp only [List.length_append] at hn
    rw [Nat.add_mul] at hn
    have hu : 5 * itCmp.length + 5 + (u.length - 1) ≤ u.length * (5 * itCmp.length + 5) := by
      have : u.length * (5 * itCmp.length + 5) = (5 * itCmp.length + 5) + (u.length - 1) * (5 * itCmp.length + 5) := by
        conv => lhs; rw [show u.length = 1 + (u.length - 1) by omega, Nat.add_mul, Nat.one_mul]
      rw [this]
      exact Nat.add_le_add_left (Nat.le_mul_of_pos_right _ (by omega)) _
    have hr : it2.length * (5 * itCmp.length + 5) + 5 * itCmp.length + 4 + 3 ≤ r := by omega
    simp only
    split
    · refine wp_bind (wp_mono (wp_prevMismatch _ it2 itCmp r (by omega)) ?_)
      rintro ⟨a, b⟩ r' h
      simp only
      split
      · exact wp_ok trivial
      · exact ih _ _ r' (by omega)
    · exact ih _ _ r (by omega)

theorem wp_findLast (str cmp : Str) (o n : Nat) (hn : cmp.length + 5 * str.length * cmp.length + 3 ≤ n) :
    wp n (findLast str cmp o) fun _ _ => True := by
  unfold findLast
  refine wp_bind (wp_safeDecodePrev cmp.reverse n (by simp only [List.length_reverse]; omega) (fun _ => wp_ok trivial) ?_)
  rintro u ch itCmp r e h1 h2 h3
  have he := congrArg List.length e
  simp only [List.length_append, List.length_reverse] at he
  rw [he] at hn
  refine wp_findLastLoop str ch itCmp _ _ _ r ?_
  have h4 : (str.take (min o str.length)).reverse.length * (5 * itCmp.length + 5) ≤ str.length * (5 * itCmp.length + 5) :=
    Nat.mul_le_mul_right _ (by simp only [List.length_reverse, List.length_take]; omega)
  have h5 : str.length * (5 * itCmp.length + 5) ≤ str.length * (5 * (u.length + itCmp.length)) :=
    Nat.mul_le_mul_left _ (by omega)
  have h6 : str.length * (5 * (u.length + itCmp.length)) = 5 * str.length * (u.length + itCmp.length) := by
    rw [← Nat.mul_assoc, Nat.mul_comm str.length 5]
  omega

end Ystring.Cost
