import Verif.Proofs.SafetySplit
import Verif.Model.CaseInsensitive
/-
Safety on arbitrary byte strings: slices, insertions, reverse and the case-insensitive functions.
-/
namespace Ystring
open Spec

theorem npos_lt : npos < SIZE_MOD := by unfold npos SIZE_MOD; omega

theorem substr_err {s : Str} {p : Nat} (h : s.length < p) (n : Nat) : substr s p n = .error .outOfRange := by
  unfold substr; rw [if_pos (by omega)]

/-! ### Slices -/

theorem getCharSubstring_safe (s : Str) (hs : s.length < npos) (hn : NoLongRun s) (i j : Int) :
    Safe (getCharSubstring s i j) := by
  unfold getCharSubstring
  refine (getCharSubstringRange_safe s hs hn i j).bindS fun r hr => ?_
  rw [substr_safe hr.1]; exact .ok _

theorem getCodepointSubstring_safe (s : Str) (hs : s.length < npos) (i j : Int) (hi : PTRDIFF_MIN < i) (hj : PTRDIFF_MIN < j) :
    Safe (getCodepointSubstring s i j) := by
  unfold getCodepointSubstring
  refine (getCodepointSubstringRange_safe s hs i j hi hj).bindS fun r hr => ?_
  rw [substr_safe hr.1]; exact .ok _

theorem replaceSubrange_safe {s : Str} (hs : s.length < npos) {r : Subrange} (h : r.stop ≤ s.length) (t : Str) :
    Safe (replaceSubrange s r t) := by
  unfold replaceSubrange
  rw [substr_safe (Nat.zero_le _), substr_from h hs]
  exact .ok _

theorem replaceChars_safe (s : Str) (hs : s.length < npos) (hn : NoLongRun s) (i j : Int) (t : Str) :
    Safe (replaceChars s i j t) := by
  unfold replaceChars
  exact (getCharSubstringRange_safe s hs hn i j).bindS fun r hr => replaceSubrange_safe hs hr.2 t

theorem replaceCodepoints_safe (s : Str) (hs : s.length < npos) (i j : Int) (hi : PTRDIFF_MIN < i) (hj : PTRDIFF_MIN < j)
    (h : 0 ≤ i ∨ j < 0) (t : Str) : Safe (replaceCodepoints s i j t) := by
  unfold replaceCodepoints
  exact (getCodepointSubstringRange_safe s hs i j hi hj).bindS fun r hr => replaceSubrange_safe hs (hr.2 h) t

/-! ### Insertion -/

theorem insertAtOffset_safe {s : Str} (hs : s.length < npos) {p : Nat} (h : p = npos ∨ p ≤ s.length) (t : Str) :
    Safe (insertAtOffset s p t) := by
  unfold insertAtOffset
  refine Safe.ite (fun _ => .ok _) fun _ => Safe.ite (fun _ => .throw) fun hp => ?_
  rw [substr_safe (Nat.zero_le _), substr_from (by omega) hs]
  exact .ok _

theorem insertCodepointAtOffset_safe {s : Str} (hs : s.length < npos) {p : Nat} (h : p = npos ∨ p ≤ s.length) (c : Char32) :
    Safe (insertCodepointAtOffset s p c) := by
  unfold insertCodepointAtOffset
  refine Safe.ite (fun _ => .throw) fun hp => ?_
  rw [substr_safe (Nat.zero_le _)]
  refine (append_safe _ c).to.bindS fun r _ => ?_
  rw [substr_from (by omega) hs]
  exact .ok _

/-! ### reverse -/

theorem reverseLoop_safe (s : Str) (hs : s.length < npos) (hn : NoLongRun s) (fuel : Nat) : ∀ (o : Nat) (res : Str), o ≤ s.length →
    o < fuel → Safe (reverseLoop s fuel o res) := by
  have hM := npos_lt
  induction fuel with
  | zero => intro o res _ h; omega
  | succ n ih =>
    intro o res ho hf
    rw [reverseLoop]
    refine Safe.ite (fun h0 => ?_) (fun _ => .ok _)
    refine (getPrevCharRange_safe s o ho (by omega) hn).bindS fun r ⟨i, h1, hr, h2⟩ => ?_
    have := h2 (by omega)
    rw [hr]
    exact ih _ _ (by show i ≤ _; omega) (by show i < _; omega)

/-! ### Case-insensitive functions -/
namespace CI

theorem compareLoop_safe (fuel : Nat) : ∀ a b : Str, a.length < fuel → Safe (compareLoop fuel a b) := by
  induction fuel with
  | zero => intro a b h; omega
  | succ n ih =>
    intro a b hl
    rw [compareLoop]
    refine safeNext (fun _ => ?_) (fun u c t h h' => ?_)
    · exact safeNext (fun _ => .ok _) (fun _ _ _ _ _ => .ok _)
    · exact safeNext (fun _ => .ok _) (fun _ _ _ _ _ => Safe.ite (fun _ => .ok _) fun _ => ih _ _ (shorter h h' hl))

theorem equalLoop_safe (fuel : Nat) : ∀ a b : Str, a.length < fuel → Safe (equalLoop fuel a b) := by
  induction fuel with
  | zero => intro a b h; omega
  | succ n ih =>
    intro a b hl
    rw [equalLoop]
    refine safeNext (fun _ => ?_) (fun u c t h h' => ?_)
    · exact safeNext (fun _ => .ok _) (fun _ _ _ _ _ => .ok _)
    · exact safeNext (fun _ => .ok _) (fun _ _ _ _ _ => Safe.ite (fun _ => .ok _) fun _ => ih _ _ (shorter h h' hl))

theorem lessLoop_safe (fuel : Nat) : ∀ a b : Str, a.length < fuel → Safe (lessLoop fuel a b) := by
  induction fuel with
  | zero => intro a b h; omega
  | succ n ih =>
    intro a b hl
    rw [lessLoop]
    refine safeNext (fun _ => ?_) (fun u c t h h' => ?_)
    · exact safeNext (fun _ => .ok _) (fun _ _ _ _ _ => .ok _)
    · exact safeNext (fun _ => .ok _) (fun _ _ _ _ _ => Safe.ite (fun _ => .ok _) fun _ => ih _ _ (shorter h h' hl))

theorem nextMismatch_safe (fuel : Nat) : ∀ a b : Str, a.length < fuel →
    SafeWith (fun r => ∃ u, a = u ++ r.1) (nextMismatch fuel a b) := by
  induction fuel with
  | zero => intro a b h; omega
  | succ n ih =>
    intro a b hl
    rw [nextMismatch]
    refine safeNextW (fun _ => .ok ⟨[], rfl⟩) (fun u c t h h' => ?_)
    refine safeNextW (fun _ => .ok ⟨[], rfl⟩) (fun _ _ _ _ _ => ?_)
    refine SafeWith.ite (fun _ => .ok ⟨[], rfl⟩) fun _ => (ih _ _ (shorter h h' hl)).mono ?_
    rintro r ⟨v, hv⟩
    exact ⟨u ++ v, by rw [h, List.append_assoc, ← hv]⟩

theorem prevMismatch_safe (fuel : Nat) : ∀ a b : Str, a.length < fuel → NoLongRun a.reverse → NoLongRun b.reverse →
    SafeWith (fun r => ∃ u, a = u ++ r.1) (prevMismatch fuel a b) := by
  induction fuel with
  | zero => intro a b h; omega
  | succ n ih =>
    intro a b hl ha hb
    rw [prevMismatch]
    refine safePrevW ha (fun _ => .ok ⟨[], rfl⟩) (fun u c t h h' ha' => ?_)
    refine safePrevW hb (fun _ => .ok ⟨[], rfl⟩) (fun _ _ _ _ _ hb' => ?_)
    refine SafeWith.ite (fun _ => .ok ⟨[], rfl⟩) fun _ => (ih _ _ (shorter h h' hl) ha' hb').mono ?_
    rintro r ⟨v, hv⟩
    exact ⟨u ++ v, by rw [h, List.append_assoc, ← hv]⟩

theorem startsWith_safe (a b : Str) : Safe (startsWith a b) := by
  unfold startsWith
  exact (nextMismatch_safe _ a b (by omega)).bindS fun _ _ => .ok _

theorem endsWith_safe (a b : Str) (ha : NoLongRun a) (hb : NoLongRun b) : Safe (endsWith a b) := by
  unfold endsWith
  exact (prevMismatch_safe _ a.reverse b.reverse (by simp) (by simpa using ha) (by simpa using hb)).bindS fun _ _ => .ok _

/-- The default range, or a nonempty range within `n` bytes. -/
def Match (n : Nat) (r : Subrange) : Prop := r = Subrange.default ∨ (0 < r.length ∧ Within n r)

theorem Match.emptyOr {n : Nat} {r : Subrange} (h : Match n r) : EmptyOr n r := by
  rcases h with h | h
  · left; rw [h]; rfl
  · exact .inr h.2

theorem findFirstLoop_safe (str : Str) (ch : Char32) (itCmp : Str) (fuel : Nat) : ∀ (w it : Str), str = w ++ it → it.length < fuel →
    SafeWith (Match str.length) (findFirstLoop str ch itCmp fuel it it) := by
  induction fuel with
  | zero => intro w it _ h; omega
  | succ n ih =>
    intro w it hw hl
    rw [findFirstLoop]
    refine safeNextW (fun _ => .ok (.inl rfl)) (fun u c t h h' => ?_)
    have hgo : SafeWith (Match str.length) (findFirstLoop str ch itCmp n t t) :=
      ih (w ++ u) t (by rw [hw, h]; simp) (shorter h h' hl)
    refine SafeWith.ite (fun _ => ?_) (fun _ => hgo)
    have h1 := congrArg List.length hw
    have h2 := congrArg List.length h
    simp at h1 h2
    refine (nextMismatch_safe _ t itCmp (by omega)).bind ?_
    rintro ⟨a, b⟩ ⟨v, hv⟩
    refine SafeWith.ite (fun _ => .ok (.inr ?_)) (fun _ => hgo)
    have h3 := congrArg List.length hv
    simp at h3
    unfold Within posOf
    simp only
    omega

theorem findFirst_safe (s cmp : Str) (o : Nat) (ho : o ≤ s.length) : SafeWith (Match s.length) (findFirst s cmp o) := by
  unfold findFirst
  refine safeNextW (fun _ => .ok (.inl rfl)) (fun u c t h h' => ?_)
  show SafeWith _ (iterAt s o >>= _)
  rw [iterAt, if_neg (by omega)]
  exact findFirstLoop_safe s c t _ (s.take o) (s.drop o) (by simp) (by simp; omega)

theorem findLastLoop_safe (str : Str) (ch : Char32) (itCmp : Str) (hc : NoLongRun itCmp.reverse) (fuel : Nat) :
    ∀ (it : Str), it.length < fuel → it.length ≤ str.length → NoLongRun it.reverse →
    SafeWith (Match str.length) (findLastLoop str ch itCmp fuel it it) := by
  induction fuel with
  | zero => intro it h; omega
  | succ n ih =>
    intro it hl hm hn
    rw [findLastLoop]
    refine safePrevW hn (fun _ => .ok (.inl rfl)) (fun u c t h h' hn' => ?_)
    have h2 := congrArg List.length h
    simp at h2
    have hgo : SafeWith (Match str.length) (findLastLoop str ch itCmp n t t) := ih t (shorter h h' hl) (by omega) hn'
    refine SafeWith.ite (fun _ => ?_) (fun _ => hgo)
    refine (prevMismatch_safe _ t itCmp (by omega) hn' hc).bind ?_
    rintro ⟨a, b⟩ ⟨v, hv⟩
    refine SafeWith.ite (fun _ => .ok (.inr ?_)) (fun _ => hgo)
    have h3 := congrArg List.length hv
    simp at h3
    unfold Within
    simp only
    omega

theorem findLast_safe (s cmp : Str) (o : Nat) (hn : NoLongRun s) (hc : NoLongRun cmp) :
    SafeWith (Match s.length) (findLast s cmp o) := by
  unfold findLast
  refine safePrevW (by simpa using hc) (fun _ => .ok (.inl rfl)) (fun u c t h h' ht => ?_)
  exact findLastLoop_safe s c t ht _ _ (by simp; omega) (by simp; omega) (by simpa using hn.take _)

theorem replaceFwdLoop_safe (f t : Str) (k : Nat) : ∀ (s r : Str), s.length < npos → Safe (replaceFwdLoop f t k s r) := by
  have hM := npos_lt
  induction k with
  | zero => intro s r _; exact .ok _
  | succ n ih =>
    intro s r hs
    rw [replaceFwdLoop]
    refine (findFirst_safe s f 0 (Nat.zero_le _)).bindS fun m hm => ?_
    refine Safe.ite (fun _ => .ok _) fun hne => ?_
    have hm' : Within s.length m := by
      rcases hm with hm | hm
      · rw [hm] at hne; exact absurd (by decide) hne
      · exact hm.2
    have hstop : m.stop ≤ s.length := by
      cases m; unfold Within at hm'; simp only at hm'; rw [stop_eq (by omega)]; exact hm'
    rw [substr_safe (Nat.zero_le _), substr_from hstop hs]
    exact ih _ _ (by rw [List.length_drop]; omega)

/-- The matches `ms`, last one first, lie one after another within `n` bytes. -/
inductive Descending : Nat → List Subrange → Prop
  | nil {n} : Descending n []
  | cons {n m ms} : m.offset + m.length ≤ n → Descending m.offset ms → Descending n (m :: ms)

theorem replaceMatches_safe (f : Str) (hf : NoLongRun f) (k : Nat) : ∀ (s : Str) (ms : List Subrange), NoLongRun s →
    SafeWith (fun r => ∃ xs, r = ms ++ xs ∧ Descending s.length xs) (replaceMatches f k s ms) := by
  induction k with
  | zero => intro s ms _; exact .ok ⟨[], by simp, .nil⟩
  | succ n ih =>
    intro s ms hs
    rw [replaceMatches]
    refine (findLast_safe s f npos hs hf).bind fun m hm => ?_
    refine SafeWith.ite (fun _ => .ok ⟨[], by simp, .nil⟩) fun hne => ?_
    have hm' : Within s.length m := by
      rcases hm with hm | hm
      · rw [hm] at hne; exact absurd (by decide) hne
      · exact hm.2
    unfold Within at hm'
    rw [substr_safe (Nat.zero_le _)]
    refine (ih _ _ ((hs.drop 0).take _)).mono ?_
    rintro r ⟨xs, hr, hd⟩
    refine ⟨m :: xs, by rw [hr]; simp, .cons hm' ?_⟩
    have hl : ((s.drop 0).take m.start).length = m.offset := by
      show ((s.drop 0).take m.offset).length = m.offset
      simp; omega
    rw [hl] at hd
    exact hd

/-- Ascending matches from `p` to `n`. -/
inductive Ascending (n : Nat) : Nat → List Subrange → Prop
  | nil {p} : p ≤ n → Ascending n p []
  | cons {p m ms} : p ≤ m.offset → Ascending n (m.offset + m.length) ms → Ascending n p (m :: ms)

theorem Ascending.le {n p : Nat} {ms : List Subrange} (h : Ascending n p ms) : p ≤ n := by
  induction h with
  | nil h => exact h
  | cons h _ ih => omega

theorem ascending_of {n N : Nat} {ms : List Subrange} (h : Descending n ms) (ys : List Subrange) (hy : ∀ p, p ≤ n → Ascending N p ys) :
    Ascending N 0 (ms.reverse ++ ys) := by
  induction h generalizing ys with
  | nil => exact hy 0 (Nat.zero_le _)
  | cons h _ ih =>
    rw [List.reverse_cons, List.append_assoc]
    exact ih _ fun p hp => .cons hp (hy _ h)

theorem replaceBwdLoop_safe (s t : Str) (hs : s.length < npos) : ∀ (ms : List Subrange) (p : Nat) (r : Str),
    Ascending s.length p ms → SafeWith (fun x => x.1 ≤ s.length) (replaceBwdLoop s t ms p r) := by
  have hM := npos_lt
  intro ms
  induction ms with
  | nil => intro p r h; exact .ok h.le
  | cons m ms ih =>
    intro p r h
    have hp := h.le
    cases h with
    | cons h1 h2 =>
      have h3 := h2.le
      rw [replaceBwdLoop, substr_safe hp]
      have : m.stop = m.offset + m.length := by cases m; simp only at h3; exact stop_eq (by omega)
      rw [this]
      exact ih _ _ h2

theorem replace_safe (s f t : Str) (hs : s.length < npos) (k : Int) (h : 0 ≤ k ∨ (NoLongRun s ∧ NoLongRun f)) :
    Safe (replace s f t k) := by
  unfold replace
  refine Safe.ite (fun _ => ?_) fun hk => ?_
  · exact (replaceFwdLoop_safe f t _ s [] hs).to.bindS fun r _ => Safe.ite (fun _ => .ok _) fun _ => .ok _
  · obtain ⟨h1, h2⟩ := h.resolve_left hk
    refine (replaceMatches_safe f h2 _ s [] h1).bindS ?_
    rintro r ⟨xs, rfl, hd⟩
    have := ascending_of hd [] (N := s.length) (fun p hp => .nil hp)
    rw [List.append_nil] at this
    refine (replaceBwdLoop_safe s t hs _ _ _ this).bindS fun x hx => ?_
    refine Safe.ite (fun _ => ?_) fun _ => .ok _
    rw [substr_from hx hs]
    exact .ok _

theorem split_safe (s sep : Str) (params : SplitParams) (hs : s.length < npos) : Safe (split s sep params) := by
  refine splitWhere_safe _ params (fun _ => True) (fun _ _ _ => trivial) (fun t _ _ => ?_) s trivial hs
  exact (findFirst_safe t sep 0 (Nat.zero_le _)).mono fun _ h => h.emptyOr

theorem splitChars_safe (s : Str) (cs : List Char32) (params : SplitParams) (hs : s.length < npos) :
    Safe (splitChars s cs params) := by
  refine splitWhere_safe _ params (fun _ => True) (fun _ _ _ => trivial) (fun t _ _ => ?_) s trivial hs
  refine (findFirstWhere_within t _ 0 (Nat.zero_le _)).bind fun r hr => .ok ?_
  rcases hr with hr | hr
  · left; rw [hr]
  · exact .inr hr

end CI
end Ystring
