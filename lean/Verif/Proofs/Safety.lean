import Verif.Spec.Safety
import Verif.Proofs.Decompose
import Verif.Proofs.Slice
import Verif.Model.CaseInsensitive
/-
Safety of the loops on arbitrary byte strings.
-/
namespace Ystring
open Spec

variable {α β : Type}

theorem Spec.Safe.ok (a : α) : Safe (.ok a : Res α) := .inr ⟨a, rfl⟩
theorem Spec.Safe.throw : Safe (.error .ystring : Res α) := .inl rfl

theorem Spec.Safe.bind {x : Res α} {f : α → Res β} (h : Safe x) (hf : ∀ a, x = .ok a → Safe (f a)) :
    Safe (x >>= f) := by
  rcases h with h | ⟨a, h⟩
  · rw [h]; exact .inl rfl
  · rw [h]; exact hf a h

theorem Spec.SafeWith.safe {P : α → Prop} {r : Res α} (h : SafeWith P r) : Safe r := by
  rcases h with h | ⟨a, h, _⟩
  · exact .inl h
  · exact .inr ⟨a, h⟩

theorem Spec.SafeWith.ok {P : α → Prop} {a : α} (h : P a) : SafeWith P (.ok a) := .inr ⟨a, rfl, h⟩
theorem Spec.SafeWith.throw {P : α → Prop} : SafeWith P (.error .ystring) := .inl rfl
theorem Spec.SafeWith.mono {P Q : α → Prop} {r : Res α} (h : SafeWith P r) (hq : ∀ a, P a → Q a) : SafeWith Q r := by
  rcases h with h | ⟨a, h, hp⟩
  · exact .inl h
  · exact .inr ⟨a, h, hq a hp⟩

theorem Spec.SafeWith.bind {P : α → Prop} {Q : β → Prop} {x : Res α} {f : α → Res β} (h : SafeWith P x)
    (hf : ∀ a, P a → SafeWith Q (f a)) : SafeWith Q (x >>= f) := by
  rcases h with h | ⟨a, h, hp⟩
  · rw [h]; exact .inl rfl
  · rw [h]; exact hf a hp

theorem Spec.SafeWith.bindS {P : α → Prop} {x : Res α} {f : α → Res β} (h : SafeWith P x)
    (hf : ∀ a, P a → Safe (f a)) : Safe (x >>= f) := by
  rcases h with h | ⟨a, h, hp⟩
  · rw [h]; exact .inl rfl
  · rw [h]; exact hf a hp

theorem Spec.SafeWith.ite {P : α → Prop} {c : Prop} [Decidable c] {x y : Res α} (hx : c → SafeWith P x) (hy : ¬ c → SafeWith P y) :
    SafeWith P (if c then x else y) := by
  split
  · exact hx ‹_›
  · exact hy ‹_›

theorem Spec.Safe.ite {c : Prop} [Decidable c] {x y : Res α} (hx : c → Safe x) (hy : ¬ c → Safe y) :
    Safe (if c then x else y) := by
  split
  · exact hx ‹_›
  · exact hy ‹_›

/-! ### NoLongRun -/

theorem Spec.NoLongRun.infix {a s b : Str} (h : NoLongRun (a ++ s ++ b)) : NoLongRun s := by
  intro t w r e hw hc
  subst e
  have := h (a ++ t) w (r ++ b) (by simp) hw hc
  simp at this; exact this.2

theorem Spec.NoLongRun.prefix {s b : Str} (h : NoLongRun (s ++ b)) : NoLongRun s :=
  Spec.NoLongRun.infix (a := []) (by simpa using h)

theorem Spec.NoLongRun.suffix {a s : Str} (h : NoLongRun (a ++ s)) : NoLongRun s :=
  Spec.NoLongRun.infix (b := []) (by simpa using h)

theorem Spec.NoLongRun.take {s : Str} (h : NoLongRun s) (n : Nat) : NoLongRun (s.take n) :=
  Spec.NoLongRun.prefix (b := s.drop n) (by simpa using h)

theorem Spec.NoLongRun.drop {s : Str} (h : NoLongRun s) (n : Nat) : NoLongRun (s.drop n) :=
  Spec.NoLongRun.suffix (a := s.take n) (by simpa using h)

theorem Spec.NoLongRun.not_long {s : Str} (h : NoLongRun s) : ¬ LongContRun s := by
  rintro ⟨t, w, rfl, ht, hw, hc⟩
  exact ht (h t w [] (by simp) hw hc)

/-! ### One step -/

theorem safeDecodeNext_step (it : Str) : safeDecodeNext it = .error .ystring ∨ (it = [] ∧ safeDecodeNext it = .ok none) ∨
    ∃ u c t, it = u ++ t ∧ 0 < u.length ∧ safeDecodeNext it = .ok (some (c, t)) := by
  by_cases h0 : it = []
  · subst h0; exact .inr (.inl ⟨rfl, rfl⟩)
  · by_cases h : HasSeqPrefix it
    · obtain ⟨u, c, t, hu, rfl⟩ := h
      exact .inr (.inr ⟨u, c, t, rfl, hu.length_pos, safeDecodeNext_seq hu t⟩)
    · exact .inl (safeDecodeNext_bad h0 h)

theorem safeDecodePrev_step (it : Str) (h : NoLongRun it.reverse) :
    safeDecodePrev it = .error .ystring ∨ (it = [] ∧ safeDecodePrev it = .ok none) ∨
    ∃ u c t, it = u ++ t ∧ 0 < u.length ∧ NoLongRun t.reverse ∧ safeDecodePrev it = .ok (some (c, t)) := by
  by_cases h0 : it = []
  · subst h0; exact .inr (.inl ⟨rfl, rfl⟩)
  · by_cases hs : HasSeqSuffix it.reverse
    · obtain ⟨u, c, t, hu, e⟩ := hs
      have e' : it = u.reverse ++ t.reverse := by rw [← List.reverse_append, ← e, List.reverse_reverse]
      refine .inr (.inr ⟨u.reverse, c, t.reverse, e', by simpa using hu.length_pos, ?_, ?_⟩)
      · rw [e] at h; simpa using h.prefix
      · rw [e']; exact safeDecodePrev_seq hu _
    · have := safeDecodePrev_bad (s := it.reverse) (by simpa using h0) hs h.not_long
      rw [List.reverse_reverse] at this
      exact .inl this

/-- Safety of a forward loop body. -/
theorem safeNext {it : Str} {f : Option (Char32 × Str) → Res α} (h0 : it = [] → Safe (f none))
    (h1 : ∀ u c t, it = u ++ t → 0 < u.length → Safe (f (some (c, t)))) : Safe (safeDecodeNext it >>= f) := by
  rcases safeDecodeNext_step it with h | ⟨h, h'⟩ | ⟨u, c, t, h, h', h''⟩
  · rw [h]; exact .inl rfl
  · rw [h']; exact h0 h
  · rw [h'']; exact h1 u c t h h'

/-- Safety of a backward loop body. -/
theorem safePrev {it : Str} {f : Option (Char32 × Str) → Res α} (hl : NoLongRun it.reverse) (h0 : it = [] → Safe (f none))
    (h1 : ∀ u c t, it = u ++ t → 0 < u.length → NoLongRun t.reverse → Safe (f (some (c, t)))) :
    Safe (safeDecodePrev it >>= f) := by
  rcases safeDecodePrev_step it hl with h | ⟨h, h'⟩ | ⟨u, c, t, h, h', h'', h3⟩
  · rw [h]; exact .inl rfl
  · rw [h']; exact h0 h
  · rw [h3]; exact h1 u c t h h' h''

theorem safeNextW {P : α → Prop} {it : Str} {f : Option (Char32 × Str) → Res α} (h0 : it = [] → SafeWith P (f none))
    (h1 : ∀ u c t, it = u ++ t → 0 < u.length → SafeWith P (f (some (c, t)))) : SafeWith P (safeDecodeNext it >>= f) := by
  rcases safeDecodeNext_step it with h | ⟨h, h'⟩ | ⟨u, c, t, h, h', h''⟩
  · rw [h]; exact .inl rfl
  · rw [h']; exact h0 h
  · rw [h'']; exact h1 u c t h h'

theorem safePrevW {P : α → Prop} {it : Str} {f : Option (Char32 × Str) → Res α} (hl : NoLongRun it.reverse)
    (h0 : it = [] → SafeWith P (f none))
    (h1 : ∀ u c t, it = u ++ t → 0 < u.length → NoLongRun t.reverse → SafeWith P (f (some (c, t)))) :
    SafeWith P (safeDecodePrev it >>= f) := by
  rcases safeDecodePrev_step it hl with h | ⟨h, h'⟩ | ⟨u, c, t, h, h', h'', h3⟩
  · rw [h]; exact .inl rfl
  · rw [h']; exact h0 h
  · rw [h3]; exact h1 u c t h h' h''

theorem shorter {u t it : Str} {n : Nat} (h : it = u ++ t) (h' : 0 < u.length) (hn : it.length < n + 1) : t.length < n := by
  subst h; simp at hn; omega

/-! ### Loops -/

theorem containsLoop_safe (c : Char32) (fuel : Nat) : ∀ it : Str, it.length < fuel → Safe (containsLoop c fuel it) := by
  induction fuel with
  | zero => intro it h; omega
  | succ n ih =>
    intro it hl
    refine safeNext (fun _ => .ok _) (fun u c t h h' => ?_)
    show Safe (if _ then _ else _)
    split
    · exact .ok _
    · exact ih t (shorter h h' hl)

theorem toUtf32Loop_safe (fuel : Nat) : ∀ (it : Str) (r : List Char32), it.length < fuel → Safe (toUtf32Loop fuel it r) := by
  induction fuel with
  | zero => intro it _ h; omega
  | succ n ih =>
    intro it r hl
    exact safeNext (fun _ => .ok _) (fun u c t h h' => ih t _ (shorter h h' hl))

theorem findFirstWhereLoop_safe (s : Str) (p : Char32 → Bool) (fuel : Nat) : ∀ (it prev : Str), it.length < fuel →
    Safe (findFirstWhereLoop s p fuel it prev) := by
  induction fuel with
  | zero => intro it _ h; omega
  | succ n ih =>
    intro it prev hl
    refine safeNext (fun _ => .ok _) (fun u c t h h' => ?_)
    show Safe (if _ then _ else _)
    split
    · exact .ok _
    · exact ih t _ (shorter h h' hl)

theorem findLastWhereLoop_safe (p : Char32 → Bool) (fuel : Nat) : ∀ (it stop : Str), it.length < fuel →
    NoLongRun it.reverse → Safe (findLastWhereLoop p fuel it stop) := by
  induction fuel with
  | zero => intro it _ h; omega
  | succ n ih =>
    intro it prev hl hn
    refine safePrev hn (fun _ => .ok _) (fun u c t h h' hn' => ?_)
    show Safe (if _ then _ else _)
    split
    · exact .ok _
    · exact ih t _ (shorter h h' hl) hn'

theorem append_safe (s : Str) (c : Char32) : Safe (append s c) := by
  unfold append; split
  · exact .ok _
  · exact .throw

theorem toLowerLoop_safe (fuel : Nat) : ∀ (it r : Str), it.length < fuel → Safe (toLowerLoop fuel it r) := by
  induction fuel with
  | zero => intro it _ h; omega
  | succ n ih =>
    intro it r hl
    exact safeNext (fun _ => .ok _) (fun u c t h h' => (append_safe _ _).bind fun _ _ => ih t _ (shorter h h' hl))

theorem toUpperLoop_safe (fuel : Nat) : ∀ (it r : Str), it.length < fuel → Safe (toUpperLoop fuel it r) := by
  induction fuel with
  | zero => intro it _ h; omega
  | succ n ih =>
    intro it r hl
    refine safeNext (fun _ => .ok _) (fun u c t h h' => ?_)
    show Safe (if _ then _ else _)
    split
    · exact (append_safe _ _).bind fun _ _ => ih t _ (shorter h h' hl)
    · exact ih t _ (shorter h h' hl)

theorem toTitleLoop_safe (fuel : Nat) : ∀ (it r : Str) (b : Bool), it.length < fuel → Safe (toTitleLoop fuel it r b) := by
  induction fuel with
  | zero => intro it _ _ h; omega
  | succ n ih =>
    intro it r b hl
    refine safeNext (fun _ => .ok _) (fun u c t h h' => ?_)
    show Safe (if _ then _ else _)
    split
    · exact (append_safe _ _).bind fun _ _ => ih t _ _ (shorter h h' hl)
    · split
      · exact (append_safe _ _).bind fun _ _ => ih t _ _ (shorter h h' hl)
      · split
        · exact (append_safe _ _).bind fun _ _ => ih t _ _ (shorter h h' hl)
        · exact ih t _ _ (shorter h h' hl)

/-! ### Characters -/

/-- `nextCharLoop` returns a suffix. -/
theorem nextCharLoop_safe (fuel : Nat) : ∀ (it : Str), it.length < fuel →
    SafeWith (fun t => ∃ u, it = u ++ t) (nextCharLoop fuel it it) := by
  induction fuel with
  | zero => intro it h; omega
  | succ n ih =>
    intro it hl
    refine safeNextW (fun _ => .ok ⟨[], rfl⟩) fun u c t h h' => ?_
    refine SafeWith.ite (fun _ => ?_) (fun _ => .ok ⟨[], rfl⟩)
    exact (ih t (shorter h h' hl)).mono fun w ⟨v, hv⟩ => ⟨u ++ v, by rw [h, hv]; simp⟩

theorem getNextCharRange_safe (s : Str) (o : Nat) (ho : o ≤ s.length) (hs : s.length < SIZE_MOD) :
    SafeWith (fun r => ∃ n, r = ⟨o, n⟩ ∧ o + n ≤ s.length ∧ (o < s.length → 0 < n)) (getNextCharRange s o) := by
  unfold getNextCharRange iterAt
  rw [if_neg (by omega)]
  refine safeNextW (it := s.drop o) (fun h => .ok ⟨0, rfl, ho, fun h' => ?_⟩) fun u c t h h' => ?_
  · have : s.length ≤ o := by simpa using h
    omega
  have hl : s.length = o + u.length + t.length := by
    have := congrArg List.length h; simp at this; omega
  refine (nextCharLoop_safe (s.length + 1) t (by omega)).bind fun w ⟨v, hv⟩ => ?_
  have hw : t.length = v.length + w.length := by rw [hv]; simp
  refine .ok ⟨s.length - w.length - o, ?_, by omega, by omega⟩
  rw [posOf, sizeSub_eq (by omega) (by omega)]

theorem prevCharLoop_safe (fuel : Nat) : ∀ (it : Str), it.length < fuel → NoLongRun it.reverse →
    SafeWith (fun t => ∃ u, it = u ++ t ∧ (it ≠ [] → 0 < u.length)) (prevCharLoop fuel it) := by
  induction fuel with
  | zero => intro it h; omega
  | succ n ih =>
    intro it hl hn
    refine safePrevW hn (fun h => .ok ⟨[], rfl, fun e => absurd h e⟩) fun u c t h h' hn' => ?_
    refine SafeWith.ite (fun _ => ?_) (fun _ => .ok ⟨u, h, fun _ => h'⟩)
    exact (ih t (shorter h h' hl) hn').mono fun w ⟨v, hv, _⟩ => ⟨u ++ v, by rw [h, hv]; simp, fun _ => by simp; omega⟩

theorem getPrevCharRange_safe (s : Str) (o : Nat) (ho : o ≤ s.length) (hs : s.length < SIZE_MOD) (hn : NoLongRun s) :
    SafeWith (fun r => ∃ i, i ≤ o ∧ r = ⟨i, o - i⟩ ∧ (0 < o → i < o)) (getPrevCharRange s o) := by
  unfold getPrevCharRange revIterAt
  rw [if_neg (by omega)]
  have hp := prevCharLoop_safe (s.length + 1) (s.take o).reverse (by simp; omega) (by simpa using hn.take o)
  refine SafeWith.bind (x := prevCharLoop (s.length + 1) (s.take o).reverse) hp fun t ⟨u, h, h''⟩ => ?_
  have hl : o = u.length + t.length := by
    have := congrArg List.length h; simp at this; omega
  refine .ok ⟨t.length, by omega, ?_, fun h0 => ?_⟩
  · rw [sizeSub_eq (by omega) (by omega)]
  · have : (s.take o).reverse ≠ [] := by
      intro e
      have := congrArg List.length e
      rw [List.length_reverse, List.length_take, List.length_nil] at this
      omega
    have := h'' this; omega

theorem stop_eq {o n : Nat} (h : o + n < SIZE_MOD) : Subrange.stop ⟨o, n⟩ = o + n := by
  rw [Subrange.stop, sizeAdd, Nat.mod_eq_of_lt h]

theorem countCharsLoop_safe (s : Str) (hs : s.length < SIZE_MOD) (fuel : Nat) : ∀ (o c : Nat), o ≤ s.length →
    s.length - o < fuel → Safe (countCharsLoop s fuel o c) := by
  induction fuel with
  | zero => intro o c _ h; omega
  | succ n ih =>
    intro o c ho hf
    rw [countCharsLoop]
    refine Safe.ite (fun h0 => ?_) (fun _ => .ok _)
    refine (getNextCharRange_safe s o ho hs).bindS fun r ⟨k, hr, h1, h2⟩ => ?_
    have := h2 (by omega)
    rw [hr, stop_eq (by omega)]
    exact ih _ _ (by omega) (by omega)

/-- Outcomes of the position functions. -/
def PosOutcome (n : Nat) (r : Res Nat) : Prop := SafeWith (fun p => p = npos ∨ p ≤ n) r

theorem getCharPosFwd_safe (s : Str) (hs : s.length < SIZE_MOD) (k : Nat) : ∀ o, o ≤ s.length →
    PosOutcome s.length (getCharPosFwd s k o) := by
  induction k with
  | zero => intro o ho; exact .ok (.inr ho)
  | succ n ih =>
    intro o ho
    rw [getCharPosFwd]
    refine (getNextCharRange_safe s o ho hs).bind fun r ⟨k, hr, h1, h2⟩ => ?_
    refine SafeWith.ite (fun _ => .ok (.inl rfl)) (fun _ => ?_)
    rw [hr, stop_eq (by omega)]
    exact ih _ h1

theorem getCharPosBwd_safe (s : Str) (hs : s.length < SIZE_MOD) (hn : NoLongRun s) (k : Nat) : ∀ o, o ≤ s.length →
    PosOutcome s.length (getCharPosBwd s k o) := by
  induction k with
  | zero => intro o ho; exact .ok (.inr ho)
  | succ n ih =>
    intro o ho
    rw [getCharPosBwd]
    refine (getPrevCharRange_safe s o ho hs hn).bind fun r ⟨i, h1, hr, h2⟩ => ?_
    refine SafeWith.ite (fun _ => .ok (.inl rfl)) (fun _ => ?_)
    rw [hr]
    exact ih _ (by show i ≤ _; omega)

theorem getCharPos_fwd_safe (s : Str) (hs : s.length < SIZE_MOD) (k : Int) (hk : 0 ≤ k) :
    PosOutcome s.length (getCharPos s k) := by
  unfold getCharPos
  rw [if_pos hk]
  exact getCharPosFwd_safe s hs _ _ (by omega)

theorem getCharPos_safe (s : Str) (hs : s.length < SIZE_MOD) (hn : NoLongRun s) (k : Int) :
    PosOutcome s.length (getCharPos s k) := by
  by_cases hk : 0 ≤ k
  · exact getCharPos_fwd_safe s hs k hk
  · unfold getCharPos
    rw [if_neg hk]
    exact getCharPosBwd_safe s hs hn _ _ (by omega)

end Ystring
