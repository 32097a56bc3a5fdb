import Verif.Proofs.Cost
/-
A budget calculus for the counted models: `wp n x Q` says that `x` reads at most `n` bytes, and that if it ends normally
with `a`, then `Q a r` holds for the part `r` of the budget that remains.
-/
namespace Ystring.Cost

def wp {α : Type} (n : Nat) (x : Counted α) (Q : α → Nat → Prop) : Prop :=
  x.reads ≤ n ∧ ∀ a, x.val = .ok a → Q a (n - x.reads)

theorem wp_mono {α : Type} {n : Nat} {x : Counted α} {Q Q' : α → Nat → Prop} (h : wp n x Q)
    (hQ : ∀ a r, Q a r → Q' a r) : wp n x Q' := ⟨h.1, fun a e => hQ _ _ (h.2 a e)⟩

theorem wp_le {α : Type} {n : Nat} {x : Counted α} {Q : α → Nat → Prop} (h : wp n x Q) : x.reads ≤ n := h.1

theorem wp_lift {α : Type} {n : Nat} {r : Res α} {Q : α → Nat → Prop} (h : ∀ a, r = .ok a → Q a n) : wp n (lift r) Q :=
  ⟨Nat.zero_le _, fun a e => by simpa [lift] using h a e⟩

theorem wp_ok {α : Type} {n : Nat} {a : α} {Q : α → Nat → Prop} (h : Q a n) : wp n (lift (.ok a)) Q :=
  wp_lift fun _ e => Except.ok.inj e ▸ h

theorem wp_error {α : Type} {n : Nat} {e : Err} {Q : α → Nat → Prop} : wp n (lift (.error e)) Q :=
  wp_lift fun _ e => by cases e

theorem wp_bind {α β : Type} {n : Nat} {x : Counted α} {f : α → Counted β} {Q : β → Nat → Prop}
    (h : wp n x fun a r => wp r (f a) Q) : wp n (x >>= f) Q := by
  obtain ⟨h1, h2⟩ := h
  show wp n (Counted.bind x f) Q
  unfold Counted.bind
  rcases hx : x.val with e | a
  · exact ⟨h1, fun a e => by cases e⟩
  · obtain ⟨h3, h4⟩ := h2 a hx
    refine ⟨by simp only; omega, fun b e => ?_⟩
    have := h4 b e
    simpa only [Nat.sub_add_eq] using this

theorem wp_read {n : Nat} {Q : Unit → Nat → Prop} (h0 : 1 ≤ n) (h : Q () (n - 1)) : wp n read Q :=
  ⟨h0, fun _ _ => h⟩

/-- more budget -/
theorem wp_more {α : Type} {n m : Nat} {x : Counted α} {Q : α → Nat → Prop} (h : wp n x fun a r => Q a (r + m)) : wp (n + m) x Q :=
  ⟨Nat.le_trans h.1 (Nat.le_add_right _ _), fun a e => by
    have := h.2 a e
    rwa [show n + m - x.reads = n - x.reads + m by have := h.1; omega]⟩

theorem stepBack_length {k : Nat} {passed rest it : Str} (h : stepBack k passed rest = .ok it) :
    it.length = rest.length + k := by
  induction k generalizing passed rest with
  | zero => simp only [stepBack] at h; rw [← Except.ok.inj h]; rfl
  | succ k ih =>
    cases passed with
    | nil => cases h
    | cons b p => simp only [stepBack] at h; rw [ih h]; simp; omega

/-- Either all `k` continuation bytes have been passed and read, or an invalid one was met after at most `k` reads. -/
theorem wp_decodeNextLoop (k : Nat) : ∀ (i : Nat) (res : Char32) (passed it : Str) (n : Nat), (k ≤ n ∨ it.length ≤ n) →
    wp n (decodeNextLoop k i res passed it) fun p r =>
      (∃ u, it = u ++ p.2 ∧ u.length = k ∧ r + k = n) ∨ p.1 = INVALID_CHAR := by
  induction k with
  | zero => intro i res passed it n _; exact wp_ok (Or.inl ⟨[], rfl, rfl, rfl⟩)
  | succ k ih =>
    intro i res passed it n hn
    cases it with
    | nil => exact wp_error
    | cons c it =>
      simp only [List.length_cons] at hn
      unfold decodeNextLoop
      refine wp_bind (wp_read (by omega) ?_)
      split
      · refine wp_mono (ih _ _ _ _ _ (by omega)) ?_
        rintro p r (⟨u, rfl, h1, h2⟩ | h)
        · exact Or.inl ⟨c :: u, rfl, by simp [h1], by omega⟩
        · exact Or.inr h
      · exact wp_bind (wp_lift fun it' _ => wp_ok (Or.inr rfl))

theorem wp_decodeNext (s : Str) (n : Nat) (hn : 4 ≤ n ∨ s.length ≤ n) :
    wp n (decodeNext s) fun p r =>
      (∃ u, s = u ++ p.2 ∧ 0 < u.length ∧ u.length ≤ 4 ∧ r + u.length = n) ∨ p.1 = INVALID_CHAR := by
  cases s with
  | nil => exact wp_ok (Or.inr rfl)
  | cons b it =>
    simp only [List.length_cons] at hn
    have key : ∀ (res : UInt8) (k : Nat), k ≤ 3 →
        wp (n - 1) (decodeNextCont b it res k) fun p r =>
          (∃ u, b :: it = u ++ p.2 ∧ 0 < u.length ∧ u.length ≤ 4 ∧ r + u.length = n) ∨ p.1 = INVALID_CHAR := by
      intro res k hk
      unfold decodeNextCont
      split
      · exact wp_bind (wp_lift fun it' _ => wp_ok (Or.inr rfl))
      · refine wp_mono (wp_decodeNextLoop k _ _ _ _ _ (by omega)) ?_
        rintro p r (⟨u, h0, h1, h2⟩ | h)
        · exact Or.inl ⟨b :: u, by rw [h0]; rfl, by simp, by simp; omega, by simp; omega⟩
        · exact Or.inr h
    unfold decodeNext
    refine wp_bind (wp_read (by omega) ?_)
    split
    · exact wp_ok (Or.inl ⟨[b], rfl, by simp, by simp, by simp; omega⟩)
    split
    · exact key _ _ (by omega)
    split
    · exact key _ _ (by omega)
    split
    · exact key _ _ (by omega)
    · exact wp_ok (Or.inr rfl)

theorem wp_safeDecodeNext (s : Str) (n : Nat) (hn : 4 ≤ n ∨ s.length ≤ n) {Q : Option (Char32 × Str) → Nat → Prop}
    (h0 : s = [] → Q none n)
    (h1 : ∀ u ch it r, s = u ++ it → 0 < u.length → u.length ≤ 4 → r + u.length = n → Q (some (ch, it)) r) :
    wp n (safeDecodeNext s) Q := by
  unfold safeDecodeNext
  split
  · exact wp_ok (h0 ‹_›)
  · refine wp_bind (wp_mono (wp_decodeNext s n hn) ?_)
    rintro ⟨ch, it⟩ r h
    simp only at h ⊢
    split
    · exact wp_error
    · rcases h with ⟨u, e, h2, h3, h4⟩ | h
      · exact wp_ok (h1 u ch it r e h2 h3 h4)
      · contradiction

theorem wp_decodePrevLoop (rest : Str) : ∀ (k : Nat) (res : Char32) (cur : UInt8) (passed : Str) (n : Nat), (6 ≤ n + k ∨ rest.length ≤ n) →
    wp n (decodePrevLoop k res cur passed rest) fun p r =>
      (∃ u, rest = u ++ p.2 ∧ k + u.length ≤ 3 ∧ r + u.length = n) ∨ p.1 = INVALID_CHAR := by
  induction rest with
  | nil =>
    intro k res cur passed n _
    unfold decodePrevLoop
    split
    · exact wp_bind (wp_lift fun it' _ => wp_ok (Or.inr rfl))
    repeat' split
    · exact wp_ok (Or.inl ⟨[], rfl, by simp; omega, rfl⟩)
    · exact wp_ok (Or.inl ⟨[], rfl, by simp; omega, rfl⟩)
    · exact wp_ok (Or.inl ⟨[], rfl, by simp; omega, rfl⟩)
    · exact wp_bind (wp_lift fun it' _ => wp_ok (Or.inr rfl))
  | cons b rest ih =>
    intro k res cur passed n hn
    simp only [List.length_cons] at hn
    unfold decodePrevLoop
    split
    · simp only
      split
      · exact wp_error
      · refine wp_bind (wp_read (by omega) (wp_mono (ih _ _ _ _ _ (by omega)) ?_))
        rintro p r (⟨u, rfl, h1, h2⟩ | h)
        · exact Or.inl ⟨b :: u, rfl, by simp; omega, by simp; omega⟩
        · exact Or.inr h
    repeat' split
    · exact wp_ok (Or.inl ⟨[], rfl, by simp; omega, rfl⟩)
    · exact wp_ok (Or.inl ⟨[], rfl, by simp; omega, rfl⟩)
    · exact wp_ok (Or.inl ⟨[], rfl, by simp; omega, rfl⟩)
    · exact wp_bind (wp_lift fun it' _ => wp_ok (Or.inr rfl))

theorem wp_safeDecodePrev (s : Str) (n : Nat) (hn : 7 ≤ n ∨ s.length ≤ n) {Q : Option (Char32 × Str) → Nat → Prop}
    (h0 : s = [] → Q none n)
    (h1 : ∀ u ch it r, s = u ++ it → 0 < u.length → u.length ≤ 4 → r + u.length = n → Q (some (ch, it)) r) :
    wp n (safeDecodePrev s) Q := by
  unfold safeDecodePrev
  split
  · exact wp_ok (h0 ‹_›)
  · cases s with
    | nil => contradiction
    | cons b rest =>
      simp only [List.length_cons] at hn
      have : wp n (decodePrev (b :: rest)) fun p r =>
          (∃ u, b :: rest = u ++ p.2 ∧ 0 < u.length ∧ u.length ≤ 4 ∧ r + u.length = n) ∨ p.1 = INVALID_CHAR := by
        unfold decodePrev
        refine wp_bind (wp_read (by omega) ?_)
        split
        · exact wp_ok (Or.inl ⟨[b], rfl, by simp, by simp, by simp; omega⟩)
        · refine wp_mono (wp_decodePrevLoop rest _ _ _ _ _ (by omega)) ?_
          rintro p r (⟨u, e, h1, h2⟩ | h)
          · exact Or.inl ⟨b :: u, by rw [e]; rfl, by simp, by simp; omega, by simp; omega⟩
          · exact Or.inr h
      refine wp_bind (wp_mono this ?_)
      rintro ⟨ch, it⟩ r h
      simp only at h ⊢
      split
      · exact wp_error
      · rcases h with ⟨u, e, h2, h3, h4⟩ | h
        · exact wp_ok (h1 u ch it r e h2 h3 h4)
        · contradiction

/-- what is left of the budget, exactly -/
theorem wp_self {α : Type} {n : Nat} {x : Counted α} {Q : α → Nat → Prop} (h : wp n x Q) :
    wp n x fun a r => Q a r ∧ r + x.reads = n := ⟨h.1, fun a e => ⟨h.2 a e, Nat.sub_add_cancel h.1⟩⟩

/-- the bytes read for the first code point of `s` -/
def first (s : Str) : Nat := (safeDecodeNext s).reads

theorem first_le (s : Str) : first s ≤ s.length :=
  wp_le (wp_safeDecodeNext s s.length (Or.inr (Nat.le_refl _)) (Q := fun _ _ => True) (fun _ => trivial)
    fun _ _ _ _ _ _ _ _ => trivial)

theorem wp_safeDecodeNext' (s : Str) (n : Nat) (hn : first s ≤ n) {Q : Option (Char32 × Str) → Nat → Prop}
    (h0 : s = [] → Q none n)
    (h1 : ∀ u ch it r, s = u ++ it → 0 < u.length → u.length ≤ 4 → u.length = first s → r + u.length = n → Q (some (ch, it)) r) :
    wp n (safeDecodeNext s) Q := by
  refine ⟨hn, fun a e => ?_⟩
  have h := wp_self (wp_safeDecodeNext s (s.length) (Or.inr (Nat.le_refl _))
    (Q := fun a r => match a with
      | none => s = []
      | some (ch, it) => ∃ u, s = u ++ it ∧ 0 < u.length ∧ u.length ≤ 4 ∧ r + u.length = s.length)
    id fun u ch it r a b c d => ⟨u, a, b, c, d⟩)
  have h' := h.2 a e
  have hf : (safeDecodeNext s).reads = first s := rfl
  rw [hf] at h' ⊢
  rcases a with _ | ⟨ch, it⟩
  · have h2 := h'.1
    subst h2
    exact h0 rfl
  · obtain ⟨⟨u, a, b, c, d⟩, e2⟩ := h'
    exact h1 u ch it _ a b c (by omega) (by omega)

/-! ### skip_next and skip_prev -/

theorem wp_skipCont (k : Nat) (it : Str) (n : Nat) (hn : it.length ≤ n) :
    wp n (skipCont k it) fun it' r => ∃ u, it = u ++ it' ∧ (it' = [] → r + u.length = n) ∧ n ≤ r + u.length + 1 ∧ r + u.length ≤ n := by
  induction it generalizing k n with
  | nil =>
    have : skipCont k [] = lift (.ok []) := by cases k <;> rfl
    rw [this]
    exact wp_ok ⟨[], rfl, fun _ => rfl, by simp, by simp⟩
  | cons b it ih =>
    simp only [List.length_cons] at hn
    cases k with
    | zero =>
      refine wp_bind (wp_read (by omega) (wp_ok ⟨[], rfl, (fun h => by cases h), by simp; omega, by simp⟩))
    | succ k =>
      unfold skipCont
      refine wp_bind (wp_read (by omega) ?_)
      split
      · refine wp_mono (ih k _ (by omega)) ?_
        rintro it' r ⟨u, rfl, h1, h2, h3⟩
        exact ⟨b :: u, rfl, fun h => by have := h1 h; simp; omega, by simp; omega, by simp; omega⟩
      · exact wp_ok ⟨[], rfl, (fun h => by cases h), by simp; omega, by simp⟩

theorem wp_skipNext (s : Str) (n : Nat) (hn : s.length ≤ n) {Q : Bool × Str → Nat → Prop}
    (h0 : s = [] → Q (false, []) n)
    (h1 : ∀ u it r, s = u ++ it → 0 < u.length → (it = [] → r + u.length = n) → n ≤ r + u.length + 1 → r + u.length ≤ n → Q (true, it) r) :
    wp n (skipNext s) Q := by
  cases s with
  | nil => exact wp_ok (h0 rfl)
  | cons c it =>
    simp only [List.length_cons] at hn
    unfold skipNext
    refine wp_bind (wp_read (by omega) ?_)
    split
    · exact wp_ok (h1 [c] it _ rfl (by simp) (fun _ => by simp; omega) (by simp; omega) (by simp; omega))
    · refine wp_bind (wp_mono (wp_skipCont _ it _ (by omega)) ?_)
      rintro it' r ⟨u, rfl, h2, h3, h4⟩
      exact wp_ok (h1 (c :: u) it' r rfl (by simp) (fun h => by have := h2 h; simp; omega) (by simp; omega) (by simp; omega))

/-- `j` continuation bytes have been passed (`k` of them modulo 2^32), `*it` is read -/
theorem wp_skipPrevLoop (rest : Str) : ∀ (j k : Nat) (cur : UInt8) (passed : Str) (n : Nat), k ≤ j → rest.length ≤ n →
    wp n (skipPrevLoop k cur passed rest) fun p r =>
      p.1 = true ∧ ∃ d, rest.length + j + 1 = p.2.length + d ∧ 1 ≤ d ∧ j + 1 + n ≤ d + 4 + r := by
  induction rest with
  | nil =>
    intro j k cur passed n hk _
    unfold skipPrevLoop
    split
    · exact wp_ok ⟨rfl, j + 1, by simp, by omega, by omega⟩
    · simp only
      generalize hm : (if cur &&& 0x80 = 0 then 1 else if cur &&& 0xE0 = 0xC0 then 2 else if cur &&& 0xF0 = 0xE0 then 3
        else if cur &&& 0xF8 = 0xF0 then 4 else 4294967295 : Nat) = m
      split
      · exact wp_ok ⟨rfl, j + 1, by simp, by omega, by omega⟩
      · have hm4 : m ≤ 4 := by
          rename_i hlt
          have : (k + 1) % 4294967296 < 4294967296 := Nat.mod_lt _ (by omega)
          subst hm
          repeat' split at hlt
          all_goals repeat' split
          all_goals omega
        refine wp_bind (wp_lift fun it h => wp_ok ?_)
        have := stepBack_length h
        have : (k + 1) % 4294967296 ≤ k + 1 := Nat.mod_le _ _
        exact ⟨rfl, j + 1 - m, by simp at *; omega, by omega, by omega⟩
  | cons b rest ih =>
    intro j k cur passed n hk hn
    simp only [List.length_cons] at hn
    unfold skipPrevLoop
    split
    · simp only
      refine wp_bind (wp_read (by omega) (wp_mono (ih (j + 1) _ _ _ _ ?_ (by omega)) ?_))
      · exact Nat.le_trans (Nat.mod_le _ _) (by omega)
      · rintro p r ⟨h0, d, h1, h2, h3⟩
        exact ⟨h0, d, by simp; omega, h2, by omega⟩
    · simp only
      generalize hm : (if cur &&& 0x80 = 0 then 1 else if cur &&& 0xE0 = 0xC0 then 2 else if cur &&& 0xF0 = 0xE0 then 3
        else if cur &&& 0xF8 = 0xF0 then 4 else 4294967295 : Nat) = m
      split
      · exact wp_ok ⟨rfl, j + 1, by simp; omega, by omega, by omega⟩
      · have hm4 : m ≤ 4 := by
          rename_i hlt
          have : (k + 1) % 4294967296 < 4294967296 := Nat.mod_lt _ (by omega)
          subst hm
          repeat' split at hlt
          all_goals repeat' split
          all_goals omega
        refine wp_bind (wp_lift fun it h => wp_ok ?_)
        have := stepBack_length h
        have : (k + 1) % 4294967296 ≤ k + 1 := Nat.mod_le _ _
        exact ⟨rfl, j + 1 - m, by simp at *; omega, by omega, by omega⟩

theorem wp_skipPrev (s : Str) (n : Nat) (hn : s.length ≤ n) {Q : Bool × Str → Nat → Prop}
    (h0 : s = [] → Q (false, []) n)
    (h1 : ∀ it d r, s.length = it.length + d → 1 ≤ d → n ≤ r + d + 4 → Q (true, it) r) :
    wp n (skipPrev s) Q := by
  cases s with
  | nil => exact wp_ok (h0 rfl)
  | cons b rest =>
    simp only [List.length_cons] at hn
    unfold skipPrev
    refine wp_bind (wp_read (by omega) (wp_mono (wp_skipPrevLoop rest 0 0 _ _ _ (by omega) (by omega)) ?_))
    rintro ⟨x, it⟩ r ⟨h2, d, h3, h4, h5⟩
    simp only at h2 h3
    subst h2
    exact h1 it d r (by simp; omega) h4 (by omega)

/-! ### Functions that read each byte at most once -/

theorem wp_containsLoop (chr : Char32) (fuel : Nat) : ∀ (it : Str) (n : Nat), it.length ≤ n →
    wp n (containsLoop chr fuel it) fun x r => x = false → r + it.length = n := by
  induction fuel with
  | zero => intro it n _; exact wp_error
  | succ fuel ih =>
    intro it n hn
    unfold containsLoop
    refine wp_bind (wp_safeDecodeNext it n (Or.inr hn) (fun h => wp_ok (by rw [h]; simp)) ?_)
    rintro u ch it r rfl h1 h2 h3
    simp only [List.length_append] at hn
    simp only
    split
    · exact wp_ok (by simp)
    · exact wp_mono (ih it r (by omega)) fun a r' h e => by have := h e; simp only [List.length_append]; omega

theorem wp_isValidUtf8Loop (fuel : Nat) : ∀ (it : Str) (n : Nat), it.length ≤ n →
    wp n (isValidUtf8Loop fuel it) fun x r => x = true → r + it.length = n := by
  induction fuel with
  | zero => intro it n _; exact wp_error
  | succ fuel ih =>
    intro it n hn
    unfold isValidUtf8Loop
    split
    · refine wp_bind (wp_mono (wp_decodeNext it n (Or.inr hn)) ?_)
      rintro ⟨ch, it'⟩ r h
      simp only at h ⊢
      split
      · exact wp_ok (by simp)
      · rcases h with ⟨u, rfl, h1, h2, h3⟩ | h
        · simp only [List.length_append] at hn
          exact wp_mono (ih it' r (by omega)) fun a r' h e => by have := h e; simp only [List.length_append]; omega
        · contradiction
    · rename_i h
      rw [Classical.not_not.mp h]
      exact wp_ok (by simp)

theorem wp_toUtf32Loop (fuel : Nat) : ∀ (it : Str) (res : List Char32) (n : Nat), it.length ≤ n →
    wp n (toUtf32Loop fuel it res) fun _ r => r + it.length = n := by
  induction fuel with
  | zero => intro it res n _; exact wp_error
  | succ fuel ih =>
    intro it res n hn
    unfold toUtf32Loop
    refine wp_bind (wp_safeDecodeNext it n (Or.inr hn) (fun h => wp_ok (by rw [h]; simp)) ?_)
    rintro u ch it r rfl h1 h2 h3
    simp only [List.length_append] at hn
    exact wp_mono (ih it _ r (by omega)) fun a r' h => by simp only [List.length_append]; omega

theorem wp_toLowerLoop (fuel : Nat) : ∀ (it res : Str) (n : Nat), it.length ≤ n →
    wp n (toLowerLoop fuel it res) fun _ r => r + it.length = n := by
  induction fuel with
  | zero => intro it res n _; exact wp_error
  | succ fuel ih =>
    intro it res n hn
    unfold toLowerLoop
    refine wp_bind (wp_safeDecodeNext it n (Or.inr hn) (fun h => wp_ok (by rw [h]; simp)) ?_)
    rintro u ch it r rfl h1 h2 h3
    simp only [List.length_append] at hn
    exact wp_bind (wp_lift fun res' _ => wp_mono (ih it res' r (by omega)) fun a r' h => by simp only [List.length_append]; omega)

theorem wp_toTitleLoop (fuel : Nat) : ∀ (it res : Str) (p : Bool) (n : Nat), it.length ≤ n →
    wp n (toTitleLoop fuel it res p) fun _ r => r + it.length = n := by
  induction fuel with
  | zero => intro it res p n _; exact wp_error
  | succ fuel ih =>
    intro it res p n hn
    unfold toTitleLoop
    refine wp_bind (wp_safeDecodeNext it n (Or.inr hn) (fun h => wp_ok (by rw [h]; simp)) ?_)
    rintro u ch it r rfl h1 h2 h3
    simp only [List.length_append] at hn
    simp only
    repeat' split
    · exact wp_bind (wp_lift fun res' _ => wp_mono (ih it res' _ r (by omega)) fun a r' h => by simp only [List.length_append]; omega)
    · exact wp_bind (wp_lift fun res' _ => wp_mono (ih it res' _ r (by omega)) fun a r' h => by simp only [List.length_append]; omega)
    · exact wp_bind (wp_lift fun res' _ => wp_mono (ih it res' _ r (by omega)) fun a r' h => by simp only [List.length_append]; omega)
    · exact wp_mono (ih it _ _ r (by omega)) fun a r' h => by simp only [List.length_append]; omega

theorem wp_toUpperLoop (fuel : Nat) : ∀ (it res : Str) (n : Nat), it.length ≤ n →
    wp n (toUpperLoop fuel it res) fun _ r => r + it.length = n := by
  induction fuel with
  | zero => intro it res n _; exact wp_error
  | succ fuel ih =>
    intro it res n hn
    unfold toUpperLoop
    refine wp_bind (wp_safeDecodeNext it n (Or.inr hn) (fun h => wp_ok (by rw [h]; simp)) ?_)
    rintro u ch it r rfl h1 h2 h3
    simp only [List.length_append] at hn
    simp only
    split
    · exact wp_bind (wp_lift fun res' _ => wp_mono (ih it res' r (by omega)) fun a r' h => by simp only [List.length_append]; omega)
    · exact wp_mono (ih it _ r (by omega)) fun a r' h => by simp only [List.length_append]; omega

/-- What is found ends where reading stopped. -/
theorem wp_findFirstWhereLoop (str : Str) (pred : Char32 → Bool) (fuel : Nat) : ∀ (it : Str) (n : Nat),
    it.length ≤ str.length → it.length ≤ n →
    wp n (findFirstWhereLoop str pred fuel it it) fun p r => (p.1.nonempty = false ∧ p.2 = INVALID_CHAR) ∨
      ∃ v w, it = v ++ w ∧ first it ≤ v.length ∧ r + v.length = n ∧
        p.1.offset + p.1.length = posOf str w := by
  induction fuel with
  | zero => intro it n _ _; exact wp_error
  | succ fuel ih =>
    intro it n hs hn
    unfold findFirstWhereLoop
    refine wp_bind (wp_safeDecodeNext' it n (Nat.le_trans (first_le _) hn) (fun _ => wp_ok (Or.inl ⟨rfl, rfl⟩)) ?_)
    rintro u ch it' r rfl h1 h2 h4 h3
    simp only [List.length_append] at hn hs
    simp only
    split
    · refine wp_ok (Or.inr ⟨u, it', rfl, by omega, h3, ?_⟩)
      simp only [posOf, List.length_append]; omega
    · refine wp_mono (ih it' r (by omega) (by omega)) ?_
      rintro p r' (h | ⟨v, w, rfl, h5, h6, h7⟩)
      · exact Or.inl h
      · exact Or.inr ⟨u ++ v, w, by simp, by simp; omega, by simp; omega, h7⟩

theorem sizeAdd_lt {a b : Nat} (h : a + b < npos) : sizeAdd a b = a + b :=
  Nat.mod_eq_of_lt (by unfold npos at h; unfold SIZE_MOD; omega)

theorem sizeSub_le {a b : Nat} (h : b ≤ a) (ha : a < npos) : sizeSub a b = a - b := by
  unfold sizeSub
  rw [show a + SIZE_MOD - b = a - b + SIZE_MOD by omega, Nat.add_mod_right]
  exact Nat.mod_eq_of_lt (by unfold npos at ha; unfold SIZE_MOD; omega)

theorem iterAt_ok {str it : Str} {o : Nat} (h : iterAt str o = .ok it) : o ≤ str.length ∧ it = str.drop o := by
  unfold iterAt at h
  split at h
  · cases h
  · exact ⟨by omega, (Except.ok.inj h).symm⟩

theorem revIterAt_ok {str it : Str} {o : Nat} (h : revIterAt str o = .ok it) : o ≤ str.length ∧ it.length = o := by
  unfold revIterAt at h
  split at h
  · cases h
  · rw [← Except.ok.inj h]
    simp only [List.length_reverse, List.length_take]; omega

/-- a search from the beginning -/
theorem wp_findFirstWhere (str : Str) (pred : Char32 → Bool) (hl : str.length < npos) (n : Nat) (hn : str.length ≤ n) :
    wp n (findFirstWhere str pred) fun p r => (p.1.nonempty = false ∧ p.2 = INVALID_CHAR) ∨
      ∃ v w, str = v ++ w ∧ first str ≤ v.length ∧ r + v.length = n ∧ p.1.offset ≤ v.length ∧ p.1.stop = v.length := by
  unfold findFirstWhere
  refine wp_bind (wp_lift fun it h => ?_)
  obtain ⟨-, e⟩ := iterAt_ok h
  rw [e, List.drop_zero]
  refine wp_mono (wp_findFirstWhereLoop str pred _ str n (Nat.le_refl _) hn) ?_
  rintro p r (h | ⟨v, w, e, h1, h2, h3⟩)
  · exact Or.inl h
  have : posOf str w = v.length := by rw [e]; simp [posOf]
  have h4 : v.length ≤ str.length := by rw [e]; simp
  refine Or.inr ⟨v, w, e, h1, h2, by omega, ?_⟩
  rw [show p.1.stop = sizeAdd p.1.offset p.1.length from rfl, sizeAdd_lt (by omega)]
  omega

theorem wp_findFirstWhere_le (str : Str) (pred : Char32 → Bool) (o n : Nat) (hn : str.length - o ≤ n) :
    wp n (findFirstWhere str pred o) fun _ _ => True := by
  unfold findFirstWhere
  refine wp_bind (wp_lift fun it h => ?_)
  obtain ⟨-, rfl⟩ := iterAt_ok h
  exact wp_mono (wp_findFirstWhereLoop str pred _ _ n (by simp) (by simpa using hn)) fun _ _ _ => trivial

theorem wp_findLastWhereLoop (pred : Char32 → Bool) (fuel : Nat) : ∀ (it stop : Str) (n : Nat), it.length ≤ n →
    wp n (findLastWhereLoop pred fuel it stop) fun _ _ => True := by
  induction fuel with
  | zero => intro it _ n _; exact wp_error
  | succ fuel ih =>
    intro it stop n hn
    unfold findLastWhereLoop
    refine wp_bind (wp_safeDecodePrev it n (Or.inr hn) (fun _ => wp_ok trivial) ?_)
    rintro u ch it' r rfl h1 h2 h3
    simp only [List.length_append] at hn
    simp only
    split
    · exact wp_ok trivial
    · exact ih it' _ r (by omega)

theorem wp_findLastWhere (str : Str) (pred : Char32 → Bool) (o n : Nat) (hn : min o str.length ≤ n) :
    wp n (findLastWhere str pred o) fun _ _ => True := by
  unfold findLastWhere
  exact wp_findLastWhereLoop pred _ _ _ n (by simp only [List.length_reverse, List.length_take]; omega)

/-! ### Characters -/

/-- `Φ`: twice the length, less the first code point -/
def phi (s : Str) : Nat := 2 * s.length - first s

theorem wp_nextCharLoop (fuel : Nat) : ∀ (it : Str) (n : Nat), it.length ≤ n →
    wp n (nextCharLoop fuel it it) fun stop r => ∃ u, it = u ++ stop ∧ n ≤ r + u.length + first stop ∧ r + u.length ≤ n := by
  induction fuel with
  | zero => intro it n _; exact wp_error
  | succ fuel ih =>
    intro it n hn
    unfold nextCharLoop
    refine wp_bind (wp_safeDecodeNext' it n (Nat.le_trans (first_le _) hn) (fun _ => wp_ok ⟨[], rfl, by omega, by simp⟩) ?_)
    rintro u ch it' r e h1 h2 h4 h3
    simp only
    split
    · subst e
      simp only [List.length_append] at hn
      refine wp_mono (ih it' r (by omega)) ?_
      rintro stop r' ⟨v, rfl, h5, h6⟩
      exact ⟨u ++ v, by simp, by simp; omega, by simp; omega⟩
    · exact wp_ok ⟨[], rfl, by simp; omega, by simp; omega⟩

theorem wp_getNextCharRange (str : Str) (o n : Nat) (hl : str.length < npos) (hn : phi (str.drop o) ≤ n) :
    wp n (getNextCharRange str o) fun p r => (o = str.length ∧ p.nonempty = false) ∨ (p.nonempty = true ∧ phi (str.drop p.stop) ≤ r ∧ o ≤ p.stop ∧ r + p.stop ≤ n + o) := by
  unfold getNextCharRange
  refine wp_bind (wp_lift fun it h => ?_)
  obtain ⟨ho, rfl⟩ := iterAt_ok h
  have hf := first_le (str.drop o)
  unfold phi at hn
  have hlen : (str.drop o).length = str.length - o := List.length_drop
  refine wp_bind (wp_safeDecodeNext' _ n (by omega) (fun h => wp_ok (Or.inl ⟨?_, rfl⟩)) ?_)
  · rw [h] at hlen; simp only [List.length_nil] at hlen; omega
  rintro u ch it r e h1 h2 h4 h3
  simp only
  have hl2 : (str.drop o).length = u.length + it.length := by rw [e]; simp
  refine wp_bind (wp_mono (wp_nextCharLoop _ it r (by omega)) ?_)
  rintro stop r' ⟨v, rfl, h5, h6⟩
  simp only [List.length_append] at hl2
  have hne : (Subrange.mk o (sizeSub (posOf str stop) o)).nonempty = true := by
    have : posOf str stop = str.length - stop.length := rfl
    rw [sizeSub_le (by omega) (by omega)]
    simp only [Subrange.nonempty, bne_iff_ne]; omega
  have hst : (Subrange.mk o (sizeSub (posOf str stop) o)).stop = str.length - stop.length := by
    show sizeAdd o (sizeSub (posOf str stop) o) = _
    have : posOf str stop = str.length - stop.length := rfl
    rw [sizeSub_le (by omega) (by omega), sizeAdd_lt (by omega)]
    omega
  refine wp_ok (Or.inr ⟨hne, ?_, ?_⟩) <;> rw [hst]
  rotate_left
  · omega
  have hd : str.drop (str.length - stop.length) = stop := by
    have h6 : str = (str.take o ++ u ++ v) ++ stop := by
      rw [List.append_assoc, List.append_assoc, ← e, List.take_append_drop]
    have h7 : str.length - stop.length = (str.take o ++ u ++ v).length := by
      have := congrArg List.length h6
      simp only [List.length_append] at this ⊢; omega
    rw [h7]
    conv => lhs; arg 2; rw [h6]
    exact List.drop_left
  rw [hd]
  have := first_le stop
  unfold phi
  omega

theorem phi_le (s : Str) : phi s ≤ 2 * s.length := Nat.sub_le _ _

theorem wp_countCharsLoop (str : Str) (hl : str.length < npos) (fuel : Nat) : ∀ (o c n : Nat), phi (str.drop o) ≤ n →
    wp n (countCharsLoop str fuel o c) fun _ r => r + str.length ≤ n + o := by
  induction fuel with
  | zero => intro o c n _; exact wp_error
  | succ fuel ih =>
    intro o c n hn
    unfold countCharsLoop
    split
    · refine wp_bind (wp_mono (wp_getNextCharRange str o n hl hn) fun p r h => ?_)
      rcases h with ⟨h, -⟩ | ⟨-, h, h1, h2⟩
      · contradiction
      · exact wp_mono (ih _ _ r h) fun a r' h3 => by omega
    · exact wp_ok (by omega)

theorem wp_getCharPosFwd (str : Str) (hl : str.length < npos) (k : Nat) : ∀ (o n : Nat), phi (str.drop o) ≤ n →
    wp n (getCharPosFwd str k o) fun _ _ => True := by
  induction k with
  | zero => intro o n _; exact wp_ok trivial
  | succ k ih =>
    intro o n hn
    unfold getCharPosFwd
    refine wp_bind (wp_mono (wp_getNextCharRange str o n hl hn) fun p r h => ?_)
    rcases h with ⟨-, h⟩ | ⟨-, h, -⟩
    · simp only [h]; exact wp_ok trivial
    · split
      · exact wp_ok trivial
      · exact ih _ r h

theorem wp_prevCharLoop (fuel : Nat) : ∀ (it : Str) (n : Nat), it.length ≤ n →
    wp n (prevCharLoop fuel it) fun it' r => it'.length ≤ it.length ∧ r + it.length = n + it'.length := by
  induction fuel with
  | zero => intro it n _; exact wp_error
  | succ fuel ih =>
    intro it n hn
    unfold prevCharLoop
    refine wp_bind (wp_safeDecodePrev it n (Or.inr hn) (fun _ => wp_ok ⟨Nat.le_refl _, rfl⟩) ?_)
    rintro u ch it' r rfl h1 h2 h3
    simp only [List.length_append] at hn ⊢
    split
    · refine wp_mono (ih it' r (by omega)) ?_
      rintro it'' r' ⟨h4, h5⟩
      exact ⟨by omega, by omega⟩
    · exact wp_ok ⟨by omega, by omega⟩

theorem wp_getPrevCharRange (str : Str) (o n : Nat) (hn : o ≤ n) :
    wp n (getPrevCharRange str o) fun p r => p.start ≤ o ∧ r + o = n + p.start := by
  unfold getPrevCharRange
  refine wp_bind (wp_lift fun it h => ?_)
  obtain ⟨-, h2⟩ := revIterAt_ok h
  refine wp_bind (wp_mono (wp_prevCharLoop _ it n (by omega)) ?_)
  rintro it' r ⟨h4, h3⟩
  rw [h2] at h3 h4
  exact wp_ok ⟨h4, h3⟩

theorem wp_getCharPosBwd (str : Str) (k : Nat) : ∀ (o n : Nat), o ≤ n → wp n (getCharPosBwd str k o) fun _ _ => True := by
  induction k with
  | zero => intro o n _; exact wp_ok trivial
  | succ k ih =>
    intro o n hn
    unfold getCharPosBwd
    refine wp_bind (wp_mono (wp_getPrevCharRange str o n hn) fun p r h => ?_)
    split
    · exact wp_ok trivial
    · exact ih _ r (by omega)

theorem wp_reverseLoop (str : Str) (fuel : Nat) : ∀ (o : Nat) (res : Str) (n : Nat), o ≤ n →
    wp n (reverseLoop str fuel o res) fun _ r => r + o = n := by
  induction fuel with
  | zero => intro o res n _; exact wp_error
  | succ fuel ih =>
    intro o res n hn
    unfold reverseLoop
    split
    · exact wp_bind (wp_mono (wp_getPrevCharRange str o n hn) fun p r h => wp_mono (ih _ _ r (by omega)) fun a r' h' => by omega)
    · exact wp_ok (by omega)

/-! ### Code points -/

theorem wp_countCodepointsLoop (fuel : Nat) : ∀ (it : Str) (c n : Nat), 2 * it.length ≤ n →
    wp n (countCodepointsLoop fuel it c) fun _ r => r + it.length ≤ n := by
  induction fuel with
  | zero => intro it c n _; exact wp_error
  | succ fuel ih =>
    intro it c n hn
    unfold countCodepointsLoop
    refine wp_bind (wp_skipNext it n (by omega) (fun h => wp_ok (by rw [h]; simp)) ?_)
    rintro u it' r rfl h1 h2 h3 h4
    simp only [List.length_append] at hn
    exact wp_mono (ih it' _ r (by omega)) fun a r' h => by simp only [List.length_append]; omega

theorem wp_skipNextN (k : Nat) : ∀ (it : Str) (n : Nat), 2 * it.length ≤ n →
    wp n (skipNextN k it) fun _ _ => True := by
  induction k with
  | zero => intro it n _; exact wp_ok trivial
  | succ k ih =>
    intro it n hn
    unfold skipNextN
    refine wp_bind (wp_skipNext it n (by omega) (fun _ => wp_ok trivial) ?_)
    rintro u it' r rfl h1 h2 h3 h4
    simp only [List.length_append] at hn
    exact ih it' r (by omega)

theorem wp_skipPrevN (k : Nat) : ∀ (it : Str) (n : Nat), 5 * it.length ≤ n →
    wp n (skipPrevN k it) fun _ _ => True := by
  induction k with
  | zero => intro it n _; exact wp_ok trivial
  | succ k ih =>
    intro it n hn
    unfold skipPrevN
    refine wp_bind (wp_skipPrev it n (by omega) (fun _ => wp_ok trivial) ?_)
    rintro it' d r h1 h2 h3
    exact ih it' r (by omega)

theorem wp_getCodepointPos (str : Str) (pos : Int) (n : Nat)
    (hn : (if 0 ≤ pos then 2 else 5) * str.length ≤ n) : wp n (getCodepointPos str pos) fun _ _ => True := by
  unfold getCodepointPos
  split
  · exact wp_error
  split
  · exact wp_ok trivial
  split
  · rename_i hp
    rw [if_pos (by omega)] at hn
    refine wp_bind (wp_mono (wp_skipNextN _ str n hn) fun a r _ => ?_)
    rcases a with ⟨_ | k, it⟩ <;> exact wp_ok trivial
  · rename_i hp
    rw [if_neg (by omega)] at hn
    refine wp_bind (wp_mono (wp_skipPrevN _ str.reverse n (by simpa using hn)) fun a r _ => ?_)
    rcases a with ⟨_ | k, it⟩ <;> exact wp_ok trivial

end Ystring.Cost
