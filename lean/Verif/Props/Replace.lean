import Verif.Spec.Replace
import Verif.Props.Find
import Verif.Props.Case
/-
Property theorems C34, C35 (replace from the left and from the right), C36 (validity, replace_codepoint), C37 (corner
cases).
-/
namespace Ystring
open Spec

theorem joinWith_cons (sep p : Str) {ps : List Str} (h : ps ≠ []) :
    joinWith sep (p :: ps) = p ++ sep ++ joinWith sep ps := by
  cases ps with
  | nil => exact absurd rfl h
  | cons q ps => rfl

theorem joinWith_snoc (sep p : Str) {ps : List Str} (h : ps ≠ []) :
    joinWith sep (ps ++ [p]) = joinWith sep ps ++ sep ++ p := by
  induction ps with
  | nil => exact absurd rfl h
  | cons q ps ih =>
    by_cases h0 : ps = []
    · subst h0; simp [joinWith]
    · rw [List.cons_append, joinWith_cons _ _ (by simp), ih h0, joinWith_cons _ _ h0]; simp

theorem Spec.ScanLeft.ne_nil {f n s ps} (h : ScanLeft f n s ps) : ps ≠ [] := by cases h <;> simp
theorem Spec.ScanRight.ne_nil {f n s ps} (h : ScanRight f n s ps) : ps ≠ [] := by cases h <;> simp

/-- The pieces, joined with the pattern, are the string. -/
theorem Spec.ScanLeft.join {f n s ps} (h : ScanLeft f n s ps) : joinWith f ps = s := by
  induction h with
  | limit => rfl
  | none => rfl
  | hit _ h ih => rw [joinWith_cons _ _ h.ne_nil, ih]

theorem Spec.ScanRight.join {f n s ps} (h : ScanRight f n s ps) : joinWith f ps = s := by
  induction h with
  | limit => rfl
  | none => rfl
  | hit _ h ih => rw [joinWith_snoc _ _ h.ne_nil, ih]

/-- There is only one scan. -/
theorem Spec.ScanLeft.unique {f n s ps qs} (h : ScanLeft f n s ps) (h' : ScanLeft f n s qs) : ps = qs := by
  induction h generalizing qs with
  | limit => cases h' <;> rfl
  | none h =>
    cases h' with
    | limit => rfl
    | none => rfl
    | hit _ _ => exact absurd ⟨_, _, rfl, rfl⟩ (h _)
  | @hit n p t ps h1 h2 ih =>
    generalize hs : p ++ f ++ t = s at *
    generalize hm : n + 1 = m at *
    cases h' with
    | limit => omega
    | none h => exact absurd ⟨p, t, hs.symm, rfl⟩ (h _)
    | @hit n' p' t' ps' h1' h2' =>
      have a := h1' _ ⟨p, t, hs.symm, rfl⟩
      have b := h1 _ ⟨p', t', rfl, rfl⟩
      rw [List.append_assoc, List.append_assoc] at hs
      obtain ⟨rfl, e⟩ := List.append_inj hs (by omega)
      obtain ⟨-, rfl⟩ := List.append_inj e rfl
      have : n = n' := by omega
      subst this
      rw [ih h2']

theorem Spec.ScanRight.unique {f n s ps qs} (h : ScanRight f n s ps) (h' : ScanRight f n s qs) : ps = qs := by
  induction h generalizing qs with
  | limit => cases h' <;> rfl
  | none h =>
    cases h' with
    | limit => rfl
    | none => rfl
    | hit _ _ => exact absurd ⟨_, _, rfl, rfl⟩ (h _)
  | @hit n p t ps h1 h2 ih =>
    generalize hs : t ++ f ++ p = s at *
    generalize hm : n + 1 = m at *
    cases h' with
    | limit => omega
    | none h => exact absurd ⟨t, p, hs.symm, rfl⟩ (h _)
    | @hit n' p' t' ps' h1' h2' =>
      have a := h1' _ ⟨t, p, hs.symm, rfl⟩
      have b := h1 _ ⟨t', p', rfl, rfl⟩
      rw [List.append_assoc, List.append_assoc] at hs
      obtain ⟨rfl, e⟩ := List.append_inj hs (by omega)
      obtain ⟨-, rfl⟩ := List.append_inj e rfl
      have : n = n' := by omega
      subst this
      rw [ih h2']

/-! ### C34 -/

theorem replaceFwdLoop_spec {f : Str} (hf : f ≠ []) (to : Str) (n : Nat) : ∀ (it result : Str),
    ∃ ps, ScanLeft f n it ps ∧
      (replaceFwdLoop f to n it result).2 ++ (replaceFwdLoop f to n it result).1 = result ++ joinWith to ps := by
  induction n with
  | zero => intro it result; exact ⟨[it], .limit, rfl⟩
  | succ n ih =>
    intro it result
    rw [replaceFwdLoop]
    rcases stdSearch_spec f hf it with ⟨h1, h2⟩ | ⟨h1, h2, h3⟩
    · rw [if_pos h1]
      exact ⟨[it], .none h2, rfl⟩
    · rw [if_neg (by omega)]
      obtain ⟨a, b, he, hl⟩ := h2
      obtain ⟨ps, s1, s2⟩ := ih (it.drop (stdSearch f it + f.length)) (result ++ it.take (stdSearch f it) ++ to)
      have hd : it.drop (stdSearch f it + f.length) = b := by
        rw [← hl, he, ← List.length_append, List.drop_left]
      have ht : it.take (stdSearch f it) = a := by
        rw [← hl, he, List.append_assoc, List.take_left]
      rw [hd] at s1
      rw [hd, ht] at s2 ⊢
      refine ⟨a :: ps, ?_, ?_⟩
      · rw [he]
        refine .hit ?_ s1
        intro i hi
        rw [hl]
        exact h3 i (by rw [he]; exact hi)
      · rw [s2, joinWith_cons _ _ s1.ne_nil]
        simp

/-- C34: with `n ≥ 0` and a non-empty pattern `replace` finds the first `n` non-overlapping occurrences from the left
(all if there are fewer; `ps` are the pieces between them), keeps the pieces and puts the replacement between
them. There is no other such list of pieces. -/
theorem C34_replace_left (s f to : Str) (hf : f ≠ []) (n : Int) (hn : 0 ≤ n) :
    ∃ ps, ScanLeft f n.toNat s ps ∧ joinWith f ps = s ∧ replace s f to n = .ok (joinWith to ps) ∧
      ∀ qs, ScanLeft f n.toNat s qs → qs = ps := by
  obtain ⟨ps, h1, h2⟩ := replaceFwdLoop_spec hf to n.toNat s []
  refine ⟨ps, h1, h1.join, ?_, fun qs h => h.unique h1⟩
  unfold replace
  rw [if_pos hn]
  simp only
  rw [List.nil_append] at h2
  split
  · rw [h2]
  · rename_i h
    simp at h
    rw [← h2, h, List.append_nil]

/-- C34: if the limit is at least the number of bytes (as the default is) all occurrences are replaced: none is left
in the pieces. -/
theorem C34_replace_all (f s : Str) (hf : f ≠ []) (n : Nat) (hn : s.length ≤ n) (ps : List Str)
    (h : ScanLeft f n s ps) : ∀ p ∈ ps, ∀ i, ¬ OccursAt p f i := by
  have hp := List.length_pos_iff.mpr hf
  induction h with
  | @limit s =>
    intro p hp' i hi
    simp at hp'; subst hp'
    have := occursAt_le hi
    omega
  | none h => intro p hp' i hi; simp at hp'; subst hp'; exact h i hi
  | @hit n p t ps h1 h2 ih =>
    intro q hq i hi
    simp at hq
    rcases hq with rfl | hq
    · obtain ⟨a, b, e, rfl⟩ := hi
      have := h1 a.length ⟨a, b ++ f ++ t, by rw [e]; simp, rfl⟩
      rw [e] at this; simp at this; omega
    · refine ih ?_ q hq i hi
      simp at hn; omega

example : replace [1, 1, 1, 2, 1, 1] [1, 1] [9] 1 = .ok [9, 1, 2, 1, 1] ∧
    replace [1, 1, 1, 2, 1, 1] [1, 1] [9] 5 = .ok [9, 1, 2, 9] ∧
    ScanLeft [1, 1] 5 [1, 1, 1, 2, 1, 1] [[], [1, 2], []] := by
  refine ⟨by decide +kernel, by decide +kernel, ?_⟩
  obtain ⟨ps, h1, h2, h3, h4⟩ := C34_replace_left [1, 1, 1, 2, 1, 1] [1, 1] [9] (by simp) 5 (by simp)
  refine .hit (p := []) (t := [1, 2, 1, 1]) (fun i _ => Nat.zero_le _) (.hit (p := [1, 2]) (t := []) ?_ (.none ?_))
  · intro i hi
    rcases i with _ | _ | i
    · obtain ⟨a, b, e, h⟩ := hi; have := List.length_eq_zero_iff.mp h; subst this; simp at e
    · rw [occursAt_iff] at hi; simp at hi
    · simp
  · intro i hi; have := occursAt_le hi; simp at this

/-! ### C35 -/

/-- The pieces of `s` from `prev` on between matches of length `k` at the (ascending) offsets. -/
def cuts (s : Str) (k : Nat) : Nat → List Nat → List Str
  | prev, [] => [s.drop prev]
  | prev, l :: L => (s.drop prev).take (l - prev) :: cuts s k (l + k) L

/-- ascending, not overlapping offsets within `lim` -/
def Chain (k lim : Nat) : Nat → List Nat → Prop
  | prev, [] => prev ≤ lim
  | prev, l :: L => prev ≤ l ∧ Chain k lim (l + k) L

theorem cuts_ne_nil (s k prev L) : cuts s k prev L ≠ [] := by cases L <;> simp [cuts]

theorem Chain.le {k lim prev L} (h : Chain k lim prev L) : prev ≤ lim := by
  induction L generalizing prev with
  | nil => exact h
  | cons l L ih => have := ih h.2; have := h.1; omega

theorem Chain.snoc {k lim prev L m} (h : Chain k m prev L) (hm : m + k ≤ lim) : Chain k lim prev (L ++ [m]) := by
  induction L generalizing prev with
  | nil => exact ⟨h, hm⟩
  | cons l L ih => exact ⟨h.1, ih h.2⟩

theorem cuts_snoc (s : Str) {k prev m it : Nat} {L : List Nat} (h : Chain k m prev L) (hm : m ≤ it) :
    cuts (s.take it) k prev (L ++ [m]) = cuts (s.take m) k prev L ++ [(s.take it).drop (m + k)] := by
  have key : ∀ p l, l ≤ m → ((s.take it).drop p).take (l - p) = ((s.take m).drop p).take (l - p) := by
    intro p l hl
    rw [List.drop_take, List.drop_take, List.take_take, List.take_take]
    congr 1; omega
  induction L generalizing prev with
  | nil =>
    simp only [cuts, List.nil_append, List.cons_append]
    rw [key prev m (Nat.le_refl _), List.take_of_length_le (by simp; omega)]
  | cons l L ih =>
    simp only [cuts, List.cons_append]
    have := h.2.le
    rw [ih h.2, key prev l (by omega)]

theorem findLastNLoop_spec {f : Str} (hf : f ≠ []) (s : Str) : ∀ (fuel n it : Nat) (acc : List Subrange),
    it ≤ s.length → it < fuel → n + 1 < SIZE_MOD →
    ∃ ms : List Nat, findLastNLoop s f fuel it (n + 1) acc = .ok (acc ++ ms.map (⟨·, f.length⟩)) ∧
      ScanRight f (n + 1) (s.take it) (cuts (s.take it) f.length 0 ms.reverse) ∧
      Chain f.length it 0 ms.reverse := by
  have hp := List.length_pos_iff.mpr hf
  intro fuel
  induction fuel with
  | zero => intro n it acc _ h; omega
  | succ fuel ih =>
    intro n it acc hit hfu hn
    rw [findLastNLoop]
    rcases searchLast_spec (s.take it) f hf with ⟨h1, h2⟩ | ⟨k, h1, h2, h3⟩
    · refine ⟨[], ?_, ?_, ?_⟩
      · rw [h1]; simp
      · exact .none h2
      · exact Nat.zero_le _
    · have hk := occursAt_le h2
      rw [List.length_take, Nat.min_eq_left hit] at hk
      have hsz : sizeSub (n + 1) 1 = n := by
        unfold sizeSub
        rw [show n + 1 + SIZE_MOD - 1 = n + SIZE_MOD by omega, Nat.add_mod_right, Nat.mod_eq_of_lt (by omega)]
      obtain ⟨a, b, e, rfl⟩ := h2
      have htk : s.take a.length = a := by
        have := congrArg (List.take a.length) e
        rw [List.take_take, Nat.min_eq_left (by omega), List.append_assoc, List.take_left] at this
        exact this
      have hdk : (s.take it).drop (a.length + f.length) = b := by
        rw [e, ← List.length_append, List.drop_left]
      rw [h1]
      simp only
      rw [if_neg (by omega), hsz]
      have h3' : ∀ i, OccursAt (a ++ f ++ b) f i → i ≤ a.length := by rw [← e]; exact h3
      cases n with
      | zero =>
        rw [if_pos rfl]
        refine ⟨[a.length], by simp, ?_, ⟨Nat.zero_le _, hk⟩⟩
        have h4 := ScanRight.hit (n := 0) (p := b) (t := a) (ps := [a]) h3' .limit
        simp only [List.reverse_singleton, cuts, List.drop_zero, Nat.sub_zero]
        rw [hdk, List.take_take, Nat.min_eq_left (by omega), htk, e]
        exact h4
      | succ n =>
        rw [if_neg (by omega)]
        obtain ⟨ms, i1, i2, i3⟩ := ih n a.length (acc ++ [⟨a.length, f.length⟩]) (by omega) (by omega) (by omega)
        rw [htk] at i2
        refine ⟨a.length :: ms, ?_, ?_, ?_⟩
        · rw [i1]; simp
        · rw [List.reverse_cons, cuts_snoc s i3 (by omega), hdk, htk, e]
          exact .hit h3' i2
        · rw [List.reverse_cons]; exact i3.snoc hk

theorem replaceBwdLoop_spec (s to : Str) (hs : s.length < SIZE_MOD) (k : Nat) (hk : 0 < k) (L : List Nat) :
    ∀ (prev : Nat) (result : Str), Chain k s.length prev L →
    (do
      let (prev, result) ← replaceBwdLoop s to (L.map (⟨·, k⟩)) prev result
      if prev ≠ s.length then do
        let t ← substr s prev s.length
        .ok (result ++ t)
      else .ok result : Res Str) = .ok (result ++ joinWith to (cuts s k prev L)) := by
  induction L with
  | nil =>
    intro prev result h
    have hl : prev ≤ s.length := h
    simp only [List.map_nil, replaceBwdLoop, cuts, joinWith, bind, Except.bind]
    by_cases he : prev = s.length
    · rw [if_neg (by omega), he, List.drop_length, List.append_nil]
    · rw [if_pos he]
      unfold substr
      rw [if_neg (by omega)]
      simp only
      rw [List.take_of_length_le (by simp)]
  | cons l L ih =>
    intro prev result h
    have hc := h.2.le
    have hpl := h.1
    have hstop : Subrange.stop ⟨l, k⟩ = l + k := by
      unfold Subrange.stop sizeAdd; exact Nat.mod_eq_of_lt (by simp only; omega)
    have hsub : sizeSub l prev = l - prev := by
      unfold sizeSub
      rw [show l + SIZE_MOD - prev = (l - prev) + SIZE_MOD by omega, Nat.add_mod_right, Nat.mod_eq_of_lt (by omega)]
    have step : replaceBwdLoop s to (List.map (⟨·, k⟩) (l :: L)) prev result =
        replaceBwdLoop s to (L.map (⟨·, k⟩)) (l + k) (result ++ (s.drop prev).take (l - prev) ++ to) := by
      rw [List.map_cons, replaceBwdLoop, hstop]
      by_cases he : l = prev
      · subst he
        simp [bind, Except.bind]
      · simp only
        rw [if_pos he, hsub]
        unfold substr
        rw [if_neg (by omega)]
        rfl
    rw [step, ih _ _ h.2]
    simp only [cuts]
    rw [joinWith_cons _ _ (cuts_ne_nil _ _ _ _)]
    simp

/-- C35: with `n < 0` and a non-empty pattern `replace` finds the last `|n|` non-overlapping occurrences from the right
(all if there are fewer; `ps` are the pieces between them), keeps the pieces and puts the replacement between
them. There is no other such list of pieces. (`PTRDIFF_MIN` is excluded, see `C37_min_ub`.) -/
theorem C35_replace_right (s f to : Str) (hf : f ≠ []) (hs : s.length < SIZE_MOD) (n : Int) (hn : n < 0)
    (hmin : PTRDIFF_MIN < n) :
    ∃ ps, ScanRight f (-n).toNat s ps ∧ joinWith f ps = s ∧ replace s f to n = .ok (joinWith to ps) ∧
      ∀ qs, ScanRight f (-n).toNat s qs → qs = ps := by
  obtain ⟨m, hm⟩ : ∃ m, (-n).toNat = m + 1 := ⟨(-n).toNat - 1, by omega⟩
  have hm2 : m + 1 < SIZE_MOD := by unfold PTRDIFF_MIN at hmin; unfold SIZE_MOD; omega
  obtain ⟨ms, h1, h2, h3⟩ := findLastNLoop_spec hf s (s.length + 1) m s.length [] (Nat.le_refl _) (by omega) hm2
  rw [List.take_length] at h2
  rw [hm]
  refine ⟨_, h2, h2.join, ?_, fun qs h => h.unique h2⟩
  have h4 := replaceBwdLoop_spec s to hs f.length (List.length_pos_iff.mpr hf) ms.reverse 0 [] h3
  unfold replace
  rw [if_neg (by omega), if_neg (by omega)]
  unfold findLastN
  rw [hm, h1]
  rw [List.nil_append] at h4 ⊢
  rw [← h4, List.map_reverse]
  rfl

theorem C35_replace_all (f s : Str) (hf : f ≠ []) (n : Nat) (hn : s.length ≤ n) (ps : List Str)
    (h : ScanRight f n s ps) : ∀ p ∈ ps, ∀ i, ¬ OccursAt p f i := by
  have hp := List.length_pos_iff.mpr hf
  induction h with
  | @limit s =>
    intro p hp' i hi
    simp at hp'; subst hp'
    have := occursAt_le hi
    omega
  | none h => intro p hp' i hi; simp at hp'; subst hp'; exact h i hi
  | @hit n p t ps h1 h2 ih =>
    intro q hq i hi
    simp at hq
    rcases hq with hq | rfl
    · refine ih ?_ q hq i hi
      simp at hn; omega
    · obtain ⟨a, b, e, rfl⟩ := hi
      have := h1 (t ++ f ++ a).length ⟨t ++ f ++ a, b, by rw [e]; simp, rfl⟩
      simp at this; omega

example : replace [1, 1, 1, 2, 1, 1, 1] [1, 1] [9] (-1) = .ok [1, 1, 1, 2, 1, 9] ∧
    replace [1, 1, 1, 2, 1, 1, 1] [1, 1] [9] (-7) = .ok [1, 9, 2, 1, 9] := by decide +kernel

/-! ### C37 -/

/-- C37 (as documented) is false: a limit of 0 replaces nothing, whatever the pattern. -/
theorem C37_false_zero (s f to : Str) : replace s f to 0 = .ok s := by
  unfold replace
  rw [if_pos (by decide)]
  simp only [Int.toNat_zero, replaceFwdLoop, List.nil_append]
  split
  · rfl
  · rename_i h; simp at h; rw [h]

/-- C37 (as documented) is false: with a limit `n > 0` an empty pattern prepends the replacement `n` times to a
non-empty string. -/
theorem C37_false_empty_left (s to : Str) (hs : s ≠ []) (n : Int) (hn : 0 ≤ n) :
    replace s [] to n = .ok ((List.replicate n.toNat to).flatten ++ s) := by
  have key : ∀ (n : Nat) (result : Str), replaceFwdLoop [] to n s result = (s, result ++ (List.replicate n to).flatten) := by
    intro n
    induction n with
    | zero => intro r; simp [replaceFwdLoop]
    | succ n ih =>
      intro r
      have : stdSearch [] s = 0 := by cases s <;> simp [stdSearch, List.isPrefixOf]
      rw [replaceFwdLoop]
      simp only [this]
      rw [if_neg (by have := List.length_pos_iff.mpr hs; omega)]
      simp [ih, List.replicate_succ]
  unfold replace
  rw [if_pos hn, key]
  simp [hs]

/-- C37, what holds: an empty pattern leaves the empty string unchanged, and every string if `n < 0`. -/
theorem C37_empty_pattern_partial (s to : Str) (n : Int) (hmin : PTRDIFF_MIN < n) (h : s = [] ∨ n ≤ 0) :
    replace s [] to n = .ok s := by
  by_cases hn : n < 0
  · unfold replace
    rw [if_neg (by omega), if_neg (by omega)]
    have : findLastN s [] (-n).toNat = .ok [] := by
      unfold findLastN
      rw [findLastNLoop]
      simp [searchLast]
    rw [this]
    simp only [bind, Except.bind, List.reverse_nil, replaceBwdLoop]
    split
    · rename_i h0
      simp [substr]
    · rename_i h0
      have : s = [] := List.length_eq_zero_iff.mp (by omega)
      subst this; rfl
  · by_cases h0 : n = 0
    · subst h0; exact C37_false_zero s [] to
    · have : s = [] := by rcases h with h | h; exact h; omega
      subst this
      unfold replace
      rw [if_pos (by omega)]
      have : ∀ n, replaceFwdLoop [] to n [] [] = ([], []) := by
        intro n; cases n <;> simp [replaceFwdLoop, stdSearch]
      rw [this]; simp

/-- The most negative limit is undefined behaviour (its negation overflows). -/
theorem C37_min_ub (s f to : Str) : replace s f to PTRDIFF_MIN = .error .ub := by
  unfold replace
  rw [if_neg (by decide), if_pos rfl]

/-! ### C36 -/

theorem joinWith_valid {sep : Str} (h : Valid sep) {ps : List Str} (hp : ∀ p ∈ ps, Valid p) : Valid (joinWith sep ps) := by
  induction ps with
  | nil => exact ⟨[], .nil⟩
  | cons p ps ih =>
    by_cases h0 : ps = []
    · subst h0; exact hp p (by simp)
    · rw [joinWith_cons _ _ h0]
      obtain ⟨a, ha⟩ := hp p (by simp)
      obtain ⟨b, hb⟩ := h
      obtain ⟨c, hc⟩ := ih (fun p h => hp p (by simp [h]))
      exact ⟨_, (ha.append hb).append hc⟩

theorem Spec.ScanLeft.valid {f n s ps} (h : ScanLeft f n s ps) (hs : Valid s) (hf : Valid f) (h0 : f ≠ []) :
    ∀ p ∈ ps, Valid p := by
  induction h with
  | limit => simpa using hs
  | none _ => simpa using hs
  | hit _ _ ih =>
    have := valid_cut hs hf h0
    intro q hq
    simp at hq
    rcases hq with rfl | hq
    · exact this.1
    · exact ih this.2 q hq

theorem Spec.ScanRight.valid {f n s ps} (h : ScanRight f n s ps) (hs : Valid s) (hf : Valid f) (h0 : f ≠ []) :
    ∀ p ∈ ps, Valid p := by
  induction h with
  | limit => simpa using hs
  | none _ => simpa using hs
  | hit _ _ ih =>
    have := valid_cut hs hf h0
    intro q hq
    simp at hq
    rcases hq with hq | rfl
    · exact ih this.1 q hq
    · exact this.2

/-- C36: replacing in a valid string, with valid pattern and replacement, gives a valid string, for every limit. -/
theorem C36_replace_valid (s f to : Str) (hs : Valid s) (hf : Valid f) (ht : Valid to) (hl : s.length < SIZE_MOD)
    (n : Int) (hmin : PTRDIFF_MIN < n) : ∃ r, replace s f to n = .ok r ∧ Valid r := by
  by_cases h0 : f = []
  · subst h0
    by_cases hn : s = [] ∨ n ≤ 0
    · exact ⟨s, C37_empty_pattern_partial s to n hmin hn, hs⟩
    · refine ⟨_, C37_false_empty_left s to (fun h => hn (.inl h)) n (by omega), ?_⟩
      obtain ⟨cs, hs⟩ := hs
      obtain ⟨ds, ht⟩ := ht
      generalize n.toNat = k
      induction k with
      | zero => exact ⟨cs, by simpa using hs⟩
      | succ k ih =>
        obtain ⟨es, h⟩ := ih
        refine ⟨_, by simpa [List.replicate_succ] using ht.append h⟩
  · by_cases hn : 0 ≤ n
    · obtain ⟨ps, h1, -, h2, -⟩ := C34_replace_left s f to h0 n hn
      exact ⟨_, h2, joinWith_valid ht (h1.valid hs hf h0)⟩
    · obtain ⟨ps, h1, -, h2, -⟩ := C35_replace_right s f to h0 hl n (by omega) hmin
      exact ⟨_, h2, joinWith_valid ht (h1.valid hs hf h0)⟩

/-- the units of an encoded list -/
theorem encodeAll_units (cs : List Char32) (h : ∀ c ∈ cs, c.toNat ≤ 0x10FFFF) :
    Units (cs.map (fun c => (rfcEncode c.toNat, c))) ∧ bytesOf (cs.map (fun c => (rfcEncode c.toNat, c))) = encodeAll cs := by
  constructor
  · intro x hx
    simp at hx
    obtain ⟨c, hc, rfl⟩ := hx
    exact rfcEncode_seq c (h c hc)
  · simp [bytesOf, encodeAll, List.flatMap_map]

theorem encodeAll_valid {cs : List Char32} (h : ∀ c ∈ cs, c.toNat ≤ 0x10FFFF) : Valid (encodeAll cs) :=
  (encodeAll_units cs h).2 ▸ (encodeAll_units cs h).1.valid

theorem encodeAll_append (cs ds : List Char32) : encodeAll (cs ++ ds) = encodeAll cs ++ encodeAll ds := by
  simp [encodeAll]

theorem encodeAll_split {cs : List Char32} (h : ∀ c ∈ cs, c.toNat ≤ 0x10FFFF) {a : Char32} (ha : a.toNat ≤ 0x10FFFF)
    {p t : Str} (e : encodeAll cs = p ++ rfcEncode a.toNat ++ t) :
    ∃ cs1 cs2, cs = cs1 ++ a :: cs2 ∧ p = encodeAll cs1 ∧ t = encodeAll cs2 := by
  have hv := encodeAll_valid h
  rw [e] at hv
  have hseq := rfcEncode_seq a ha
  obtain ⟨⟨vs, hvs, rfl⟩, ⟨ws, hws, rfl⟩⟩ : (∃ us, Units us ∧ bytesOf us = p) ∧ ∃ us, Units us ∧ bytesOf us = t :=
    have := valid_cut hv ⟨_, hseq.decodes⟩ hseq.ne_nil
    ⟨this.1.units, this.2.units⟩
  obtain ⟨u1, u2⟩ := encodeAll_units cs h
  have := units_unique (vs := vs ++ (rfcEncode a.toNat, a) :: ws) u1
    (by simp only [Units_append, Units_cons]; exact ⟨hvs, hseq, hws⟩) (by rw [u2, e]; simp)
  obtain ⟨cs1, r, e1, e2, e3⟩ := List.map_eq_append_iff.mp this
  obtain ⟨c, cs2, e4, e5, e6⟩ := List.map_eq_cons_iff.mp e3
  have : c = a := congrArg Prod.snd e5
  subst this
  subst e4
  have key : ∀ ds, bytesOf (ds.map (fun c : Char32 => (rfcEncode c.toNat, c))) = encodeAll ds := by
    intro ds; simp [bytesOf, encodeAll, List.flatMap_map]
  exact ⟨cs1, cs2, e1, by rw [← e2, key], by rw [← e6, key]⟩

theorem occurs_of_mem {cs : List Char32} {a : Char32} (h : a ∈ cs) : ∃ ds es, cs = ds ++ a :: es ∧
    encodeAll cs = encodeAll ds ++ rfcEncode a.toNat ++ encodeAll es := by
  obtain ⟨ds, es, rfl⟩ := List.append_of_mem h
  exact ⟨ds, es, rfl, by simp [encodeAll]⟩

theorem replaceFirst_of_not_mem (a b : Char32) {n : Nat} {cs : List Char32} (h : a ∉ cs) : replaceFirst a b n cs = cs := by
  induction cs with
  | nil => simp [replaceFirst]
  | cons c cs ih =>
    simp at h
    cases n with
    | zero => rfl
    | succ n => rw [replaceFirst, if_neg (fun e => h.1 e.symm), ih h.2]

theorem replaceFirst_zero (a b : Char32) (cs : List Char32) : replaceFirst a b 0 cs = cs := by cases cs <;> rfl

theorem replaceFirst_append (a b : Char32) {n : Nat} {cs : List Char32} (ds : List Char32) (h : a ∉ cs) :
    replaceFirst a b (n + 1) (cs ++ a :: ds) = cs ++ b :: replaceFirst a b n ds := by
  induction cs with
  | nil => simp [replaceFirst]
  | cons c cs ih =>
    simp at h
    rw [List.cons_append, replaceFirst, if_neg (fun e => h.1 e.symm), ih h.2]; rfl

theorem scanLeft_encodeAll {a b : Char32} (ha : a.toNat ≤ 0x10FFFF) {n s ps} (h : ScanLeft (rfcEncode a.toNat) n s ps)
    (cs : List Char32) (hcs : ∀ c ∈ cs, c.toNat ≤ 0x10FFFF) (hs : s = encodeAll cs) :
    joinWith (rfcEncode b.toNat) ps = encodeAll (replaceFirst a b n cs) := by
  induction h generalizing cs with
  | limit => rw [replaceFirst_zero]; exact hs
  | none h =>
    rw [replaceFirst_of_not_mem]
    · exact hs
    · intro hm
      obtain ⟨ds, es, -, e⟩ := occurs_of_mem hm
      exact h _ ⟨_, _, hs.trans e, rfl⟩
  | @hit n p t ps h1 h2 ih =>
    obtain ⟨cs1, cs2, rfl, rfl, rfl⟩ := encodeAll_split hcs ha hs.symm
    have hm : a ∉ cs1 := by
      intro hm
      obtain ⟨ds, es, rfl, e⟩ := occurs_of_mem hm
      have := h1 _ ⟨encodeAll ds, encodeAll es ++ rfcEncode a.toNat ++ encodeAll cs2, by rw [e]; simp, rfl⟩
      rw [e] at this
      have hp := List.length_pos_iff.mpr (rfcEncode_seq a ha).ne_nil
      simp only [List.length_append] at this
      omega
    rw [replaceFirst_append a b cs2 hm, joinWith_cons _ _ h2.ne_nil, ih cs2 (fun c hc => hcs c (by simp [hc])) rfl]
    simp [encodeAll]

theorem scanRight_encodeAll {a b : Char32} (ha : a.toNat ≤ 0x10FFFF) {n s ps} (h : ScanRight (rfcEncode a.toNat) n s ps)
    (cs : List Char32) (hcs : ∀ c ∈ cs, c.toNat ≤ 0x10FFFF) (hs : s = encodeAll cs) :
    joinWith (rfcEncode b.toNat) ps = encodeAll (replaceLast a b n cs) := by
  induction h generalizing cs with
  | limit => rw [replaceLast, replaceFirst_zero, List.reverse_reverse]; exact hs
  | none h =>
    rw [replaceLast, replaceFirst_of_not_mem, List.reverse_reverse]
    · exact hs
    · intro hm
      obtain ⟨ds, es, -, e⟩ := occurs_of_mem (List.mem_reverse.mp hm)
      exact h _ ⟨_, _, hs.trans e, rfl⟩
  | @hit n p t ps h1 h2 ih =>
    obtain ⟨cs1, cs2, rfl, rfl, rfl⟩ := encodeAll_split hcs ha hs.symm
    have hm : a ∉ cs2 := by
      intro hm
      obtain ⟨ds, es, rfl, e⟩ := occurs_of_mem hm
      have := h1 _ ⟨encodeAll cs1 ++ rfcEncode a.toNat ++ encodeAll ds, encodeAll es, by rw [e]; simp, rfl⟩
      have hp := List.length_pos_iff.mpr (rfcEncode_seq a ha).ne_nil
      simp only [List.length_append] at this
      omega
    have : replaceLast a b (n + 1) (cs1 ++ a :: cs2) = replaceLast a b n cs1 ++ b :: cs2 := by
      unfold replaceLast
      rw [show (cs1 ++ a :: cs2).reverse = cs2.reverse ++ a :: cs1.reverse by simp,
        replaceFirst_append a b _ (by simpa using hm)]
      simp
    rw [this, joinWith_snoc _ _ h2.ne_nil, ih cs1 (fun c hc => hcs c (by simp [hc])) rfl]
    simp [encodeAll]

/-- C36: on a string of encoded code points `replace_codepoint` replaces exactly the first `n` (last `|n|`) code
points equal to `a` by `b`, and it throws exactly if one of the two exceeds U+10FFFF. -/
theorem C36_replace_codepoint (cs : List Char32) (hcs : ∀ c ∈ cs, c.toNat ≤ 0x10FFFF)
    (hl : (encodeAll cs).length < SIZE_MOD) (a b : Char32) (n : Int) (hmin : PTRDIFF_MIN < n) :
    replaceCodepoint (encodeAll cs) a b n =
      if a.toNat ≤ 0x10FFFF ∧ b.toNat ≤ 0x10FFFF then
        .ok (encodeAll (if 0 ≤ n then replaceFirst a b n.toNat cs else replaceLast a b (-n).toNat cs))
      else .error .ystring := by
  have hbuf : ∀ c, (encodeUtf8Buf c 4).2 = 0 ↔ ¬ c.toNat ≤ 0x10FFFF := by
    intro c
    rw [← (C04_bounded_encode c 4).2.1, encodeUtf8Buf_4]
    by_cases h : c.toNat ≤ 0x10FFFF
    · rw [encodeUtf8_rfc c h]
      have := List.length_pos_iff.mpr (rfcEncode_seq c h).ne_nil
      constructor
      · intro h0; omega
      · intro h0; exact absurd h h0
    · simp [encodeUtf8_big c h, h]
  unfold replaceCodepoint
  simp only [encodeUtf8Buf_4]
  by_cases ha : a.toNat ≤ 0x10FFFF
  · rw [if_neg (by rw [hbuf]; simp [ha])]
    by_cases hb : b.toNat ≤ 0x10FFFF
    · rw [if_neg (by rw [hbuf]; simp [hb]), if_pos ⟨ha, hb⟩, encodeUtf8_rfc a ha, encodeUtf8_rfc b hb]
      have h0 := (rfcEncode_seq a ha).ne_nil
      by_cases hn : 0 ≤ n
      · rw [if_pos hn]
        obtain ⟨ps, h1, -, h2, -⟩ := C34_replace_left (encodeAll cs) (rfcEncode a.toNat) (rfcEncode b.toNat) h0 n hn
        rw [h2, scanLeft_encodeAll ha h1 cs hcs rfl]
      · rw [if_neg hn]
        obtain ⟨ps, h1, -, h2, -⟩ := C35_replace_right (encodeAll cs) (rfcEncode a.toNat) (rfcEncode b.toNat) h0 hl n
          (by omega) hmin
        rw [h2, scanRight_encodeAll ha h1 cs hcs rfl]
    · rw [if_pos ((hbuf b).mpr hb), if_neg (fun h => hb h.2)]
  · rw [if_pos ((hbuf a).mpr ha), if_neg (fun h => ha h.1)]

example : encodeAll [0x41, 0xE6, 0x42, 0xE6] = [0x41, 0xC3, 0xA6, 0x42, 0xC3, 0xA6] ∧
    replaceCodepoint [0x41, 0xC3, 0xA6, 0x42, 0xC3, 0xA6] 0xE6 0x20AC (-1) =
      .ok [0x41, 0xC3, 0xA6, 0x42, 0xE2, 0x82, 0xAC] ∧
    replaceLast 0xE6 0x20AC 1 [0x41, 0xE6, 0x42, 0xE6] = [0x41, 0xE6, 0x42, 0x20AC] := by decide +kernel

end Ystring
