import Verif.Proofs.WidthEdit
import Verif.Proofs.SafetyEdit
/-
Lemmas for C110, third part: replace, reverse, split, trim and the case-insensitive functions.
-/
namespace Ystring.Wd

variable {W : Nat}

/-! ### replace -/

theorem searchLast_le (s cmp : Str) (h : (searchLast s cmp).1 ≠ (searchLast s cmp).2) :
    (searchLast s cmp).1 + cmp.length ≤ s.length := by
  by_cases hc : cmp = []
  · subst hc; exact absurd rfl h
  · rcases searchLast_spec s cmp hc with ⟨h1, _⟩ | ⟨k, h1, h2, _⟩
    · rw [h1] at h; exact absurd rfl h
    · rw [h1]; exact occursAt_le h2

/-- all within `n` bytes -/
def AllWithin (n : Nat) (ms : List Subrange) : Prop := ∀ m ∈ ms, m.offset + m.length ≤ n

theorem AllWithin.snoc {n : Nat} {ms : List Subrange} (h : AllWithin n ms) {m : Subrange} (hm : m.offset + m.length ≤ n) :
    AllWithin n (ms ++ [m]) := by
  intro x hx
  rcases List.mem_append.mp hx with hx | hx
  · exact h x hx
  · rw [List.mem_singleton.mp hx]; exact hm

theorem sim_findLastNLoop (s cmp : Str) (hm : W ≤ SIZE_MOD) (fuel : Nat) : ∀ (it n : Nat) (ms : List Subrange), 1 ≤ n → n < W →
    it ≤ s.length → AllWithin s.length ms →
    Sim (fun a b => a = b ∧ AllWithin s.length a) (Ystring.findLastNLoop s cmp fuel it n ms) (findLastNLoop W s cmp fuel it n ms) := by
  induction fuel with
  | zero => intros; exact rfl
  | succ fuel ih =>
    intro it n ms h1 h2 hit hms
    unfold Ystring.findLastNLoop findLastNLoop
    simp only
    split
    · exact Sim.ok ⟨rfl, hms⟩
    · rename_i hne
      have hl := searchLast_le _ _ hne
      simp only [List.length_take] at hl
      rw [sizeSub64, sizeSub_eq h1 (by omega), sizeSub_eq h1 h2]
      have hms' : AllWithin s.length (ms ++ [⟨(searchLast (s.take it) cmp).1, cmp.length⟩]) := hms.snoc (by simp only; omega)
      split
      · exact Sim.ok ⟨rfl, hms'⟩
      · exact ih _ _ _ (by omega) (by omega) (by omega) hms'

theorem substr_sub (s : Str) (hW : Fits W s.length) {p e : Nat} (hp : p ≤ s.length) (he : e ≤ s.length) :
    substr s p (Ystring.sizeSub e p) = substr s p (sizeSub W e p) :=
  sameSlice_substr (r := ⟨p, Ystring.sizeSub e p⟩) (r' := ⟨p, sizeSub W e p⟩) (sameSlice_sub hW hp he)

theorem stop_within {n : Nat} (hW : Fits W n) {m : Subrange} (h : m.offset + m.length ≤ n) :
    m.stop = m.offset + m.length ∧ stop W m = m.offset + m.length := by
  have h1 := hW.fits
  have h2 := hW.most
  rw [stop64]
  exact ⟨stop_eq (by omega), stop_eq (by omega)⟩

theorem sim_replaceBwdLoop (s to : Str) (hW : Fits W s.length) : ∀ (ms : List Subrange), AllWithin s.length ms → ∀ (p : Nat) (r : Str),
    p ≤ s.length →
    Sim (fun a b => a = b) (Ystring.replaceBwdLoop s to ms p r) (replaceBwdLoop W s to ms p r) := by
  intro ms
  induction ms with
  | nil => intro _ p r _; exact Sim.ok rfl
  | cons m ms ih =>
    intro hms p r hp
    have hm := hms m (by simp)
    obtain ⟨e1, e2⟩ := stop_within hW hm
    unfold Ystring.replaceBwdLoop replaceBwdLoop
    rw [substr_sub s hW hp (by omega), e1, e2]
    simp only
    split
    · refine Sim.bindSame fun a _ => ?_
      exact ih (fun x hx => hms x (by simp [hx])) _ _ hm
    · exact ih (fun x hx => hms x (by simp [hx])) _ _ hm

theorem sim_replace (s f t : Str) (hW : Fits W s.length) (k : Int) (hk : ptrdiffMin W < k) :
    Wd.replace W s f t k = Ystring.replace s f t k := by
  have h1 := ptrdiffMin_le hW.most
  symm
  unfold Ystring.replace replace Ystring.findLastN
  split
  · rfl
  · rw [if_neg (show ¬ k = PTRDIFF_MIN by omega), if_neg (show ¬ k = ptrdiffMin W by omega)]
    refine Sim.eq (Sim.bind (sim_findLastNLoop s f hW.most _ _ _ _ (by omega) (by unfold ptrdiffMin at hk; omega) (Nat.le_refl _)
      (fun _ h => by simp at h)) ?_)
    rintro ms _ ⟨rfl, hms⟩
    refine Sim.bind (sim_replaceBwdLoop s t hW _ (fun m hm => hms m (by simpa using hm)) 0 [] (Nat.zero_le _)) ?_
    rintro p _ rfl
    exact Sim.same fun _ _ => rfl

theorem stdSearch_lt (f : Str) (hf : f ≠ []) (s : Str) (h : stdSearch f s ≠ s.length) : (s.drop (stdSearch f s + f.length)).length < s.length := by
  have h1 : ∀ l : Str, stdSearch f l ≤ l.length := by
    intro l
    induction l with
    | nil => simp [stdSearch]
    | cons b t ih => rw [stdSearch]; split <;> simp; omega
  have := h1 s
  have := List.length_pos_iff.mpr hf
  simp; omega

/-- at most as many replacements as bytes -/
theorem replaceFwdLoop_enough (f t : Str) (hf : f ≠ []) (n : Nat) : ∀ (m : Nat) (s r : Str), s.length ≤ n → s.length ≤ m →
    replaceFwdLoop f t n s r = replaceFwdLoop f t m s r := by
  induction n with
  | zero =>
    intro m s r hn hm
    have : s = [] := List.length_eq_zero_iff.mp (by omega)
    subst this
    cases m with
    | zero => rfl
    | succ m => rw [replaceFwdLoop, replaceFwdLoop]; simp [stdSearch]
  | succ n ih =>
    intro m s r hn hm
    cases m with
    | zero =>
      have : s = [] := List.length_eq_zero_iff.mp (by omega)
      subst this
      rw [replaceFwdLoop, replaceFwdLoop]; simp [stdSearch]
    | succ m =>
      rw [replaceFwdLoop, replaceFwdLoop]
      split
      · rfl
      · rename_i h
        have := stdSearch_lt f hf s h
        exact ih _ _ _ (by omega) (by omega)

theorem ptrdiffMax_ge (n : Nat) (hW : Fits W n) : (n : Int) ≤ ptrdiffMax W ∧ (n : Int) ≤ PTRDIFF_MAX := by
  have h1 := hW.fits
  have h2 := hW.most
  have h3 := hW.wide
  unfold ptrdiffMax PTRDIFF_MAX
  unfold SIZE_MOD at h2
  omega

/-- the default number of replacements -/
theorem replace_default (s f t : Str) (hf : f ≠ []) (hW : Fits W s.length) :
    Ystring.replace s f t (ptrdiffMax W) = Ystring.replace s f t PTRDIFF_MAX := by
  obtain ⟨h1, h2⟩ := ptrdiffMax_ge s.length hW
  unfold Ystring.replace
  rw [if_pos (show ptrdiffMax W ≥ 0 by omega), if_pos (show PTRDIFF_MAX ≥ 0 by omega)]
  rw [replaceFwdLoop_enough f t hf _ PTRDIFF_MAX.toNat s [] (by omega) (by omega)]

/-! ### reverse -/

theorem sim_reverseLoop (s : Str) (hW : Fits W s.length) (fuel : Nat) : ∀ (o : Nat) (r : Str),
    Sim (fun a b => a = b) (Ystring.reverseLoop s fuel o r) (reverseLoop W s fuel o r) := by
  induction fuel with
  | zero => intros; exact rfl
  | succ fuel ih =>
    intro o r
    unfold Ystring.reverseLoop reverseLoop
    split
    · refine Sim.bind (sim_getPrevCharRange s o hW) ?_
      rintro m _ ⟨rfl, h1, h2⟩
      obtain ⟨e1, e2⟩ := stop_within hW (m := m) (by omega)
      rw [e1, e2]
      exact ih _ _
    · exact Sim.ok rfl

/-! ### split -/

/-- what two finders may return for the same string of `n` bytes: empty ranges, or the same range -/
def SameToken (n : Nat) (r r' : Subrange) : Prop := (r.length = 0 ∧ r'.length = 0) ∨ (r = r' ∧ r.offset + r.length ≤ n)

theorem SameRange.token {n : Nat} {r r' : Subrange} (h : SameRange W n r r') : SameToken n r r' := by
  rcases h with ⟨rfl, rfl⟩ | h
  · exact Or.inl ⟨rfl, rfl⟩
  · exact Or.inr h

theorem SameToken.nonempty {n : Nat} {r r' : Subrange} (h : SameToken n r r') : r.nonempty = r'.nonempty := by
  rcases h with ⟨h1, h2⟩ | ⟨rfl, _⟩
  · unfold Subrange.nonempty; rw [h1, h2]
  · rfl

structure SameIter (W : Nat) (n : Nat) (t t' : TokenIterator) : Prop where
  str : t.str = t'.str
  len : t.str.length ≤ n
  token : SameRange W t.str.length t.token t'.token

theorem SameIter.start {n : Nat} {t t' : TokenIterator} (h : SameIter W n t t') (hW : Fits W n) :
    (t.token.start ≠ 0 ↔ t'.token.start ≠ 0) ∧ (t.token.nonempty → t.token = t'.token ∧ t.token.offset + t.token.length ≤ t.str.length) ∧
    t.token.nonempty = t'.token.nonempty := by
  have h1 := hW.wide
  have h2 := nposEq
  have h4 : 0 < SIZE_MOD - 1 := by decide
  rcases h.token with ⟨h3, h3'⟩ | ⟨h3, h3'⟩
  · rw [h3, h3']
    refine ⟨?_, fun h => absurd h (by decide), rfl⟩
    unfold Subrange.start nposW
    simp only
    constructor <;> intro _ <;> omega
  · rw [← h3]; exact ⟨Iff.rfl, fun _ => ⟨rfl, h3'⟩, rfl⟩

theorem sim_next {f f' : Str → Res Subrange} {n : Nat} (hf : ∀ u : Str, u.length ≤ n → Sim (SameToken u.length) (f u) (f' u)) (hW : Fits W n)
    {t t' : TokenIterator} (h : SameIter W n t t') :
    Sim (fun a b => a.1 = b.1 ∧ SameIter W n a.2 b.2) (t.next f) (next W f' t') := by
  obtain ⟨h1, h2, h3⟩ := h.start hW
  have hfind : ∀ u : Str, u.length ≤ n → Sim (fun (a b : Bool × TokenIterator) => a.1 = b.1 ∧ SameIter W n a.2 b.2)
      (do let token ← f u
          if !token.nonempty then .ok (true, ⟨u, ⟨npos, token.length⟩⟩) else .ok (true, ⟨u, token⟩))
      (do let token ← f' u
          if !token.nonempty then .ok (true, ⟨u, ⟨nposW W, token.length⟩⟩) else .ok (true, ⟨u, token⟩)) := by
    intro u hu
    refine Sim.bind (hf u hu) fun r r' hr => ?_
    rw [← hr.nonempty]
    by_cases hn : r.nonempty = true
    · rw [hn]
      refine Sim.ok ⟨rfl, rfl, hu, ?_⟩
      rcases hr with ⟨h, _⟩ | h
      · unfold Subrange.nonempty at hn; rw [h] at hn; exact absurd hn (by decide)
      · exact Or.inr h
    · have hz : r.length = 0 ∧ r'.length = 0 := by
        rcases hr with h | ⟨rfl, _⟩
        · exact h
        · unfold Subrange.nonempty at hn; simp at hn; exact ⟨hn, hn⟩
      rw [Bool.not_eq_true] at hn
      rw [hn]
      refine Sim.ok ⟨rfl, rfl, hu, Or.inl ?_⟩
      simp only [hz.1, hz.2]
      exact ⟨trivial, trivial⟩
  unfold TokenIterator.next next
  simp only
  rw [← h3]
  split
  · rename_i hn
    obtain ⟨h4, h5⟩ := h2 hn
    obtain ⟨e1, e2⟩ := stop_within (hW.le h.len) h5
    rw [← h4, ← h.str, e1, e2]
    refine Sim.bindSame fun u hu => ?_
    obtain ⟨_, rfl⟩ := substr_ok hu
    refine hfind _ ?_
    have := h.len
    simp; omega
  · by_cases h4 : t.token.start ≠ 0
    · rw [if_pos h4, if_pos (h1.1 h4)]
      exact Sim.ok ⟨rfl, h⟩
    · rw [if_neg h4, if_neg (fun h => h4 (h1.2 h)), ← h.str]
      exact hfind _ h.len

theorem sim_part {n : Nat} (hW : Fits W n) {t t' : TokenIterator} (h : SameIter W n t t') : t.part = t'.part := by
  obtain ⟨h1, h2, h3⟩ := h.start hW
  unfold TokenIterator.part
  rw [← h3, ← h.str]
  split
  · rename_i hn
    rw [← (h2 hn).1]
  · by_cases h4 : t.token.start ≠ 0
    · rw [if_pos h4, if_pos (h1.1 h4)]
    · rw [if_neg h4, if_neg (fun h => h4 (h1.2 h))]

theorem sim_remainder {n : Nat} (hW : Fits W n) {t t' : TokenIterator} (h : SameIter W n t t') : t.remainder = remainder W t' := by
  obtain ⟨h1, h2, h3⟩ := h.start hW
  unfold TokenIterator.remainder remainder
  rw [← h3, ← h.str]
  by_cases hn : t.token.nonempty = true
  · obtain ⟨h4, h5⟩ := h2 hn
    obtain ⟨e1, e2⟩ := stop_within (hW.le h.len) h5
    rw [if_pos (Or.inl hn), if_pos (Or.inl hn), ← h4, e1, e2]
  · by_cases h4 : t.token.start = 0
    · have h5 : t'.token.start = 0 := Decidable.byContradiction fun h => h1.2 h h4
      rw [if_pos (Or.inr h4), if_pos (Or.inr h5)]
      rcases h.token with ⟨h6, _⟩ | ⟨h6, h7⟩
      · rw [h6] at h4; exact absurd h4 (by decide)
      · obtain ⟨e1, e2⟩ := stop_within (hW.le h.len) h7
        rw [← h6, e1, e2]
    · rw [if_neg (fun h => h.elim hn h4), if_neg (fun h => h.elim hn (fun h => h1.1 h4 h))]

theorem sim_splitLoop {f f' : Str → Res Subrange} {n : Nat} (hf : ∀ u : Str, u.length ≤ n → Sim (SameToken u.length) (f u) (f' u))
    (hW : Fits W n) (p : SplitParams) (m : Nat) (hm : p.maxSplits = m ∨ (n + 2 ≤ p.maxSplits ∧ n + 2 ≤ m)) (fuel : Nat) :
    ∀ (t t' : TokenIterator) (r : List Str), SameIter W n t t' → r.length + fuel ≤ n + 2 →
    Sim (fun a b => a.2 = b.2 ∧ SameIter W n a.1 b.1) (Ystring.splitLoop f p fuel t r) (Wd.splitLoop W f' m p.ignoreEmpty fuel t' r) := by
  induction fuel with
  | zero => intros; exact rfl
  | succ fuel ih =>
    intro t t' r h hr
    unfold Ystring.splitLoop Wd.splitLoop
    have hi : r.length < p.maxSplits ↔ r.length < m := by
      rcases hm with hm | ⟨h1, h2⟩
      · rw [hm]
      · constructor <;> intro _ <;> omega
    by_cases hlt : r.length < p.maxSplits
    · rw [if_pos hlt, if_pos (hi.1 hlt)]
      refine Sim.bind (sim_next hf hW h) ?_
      rintro ⟨a, u⟩ ⟨a', u'⟩ ⟨h1, h2⟩
      simp only at h1 h2 ⊢
      subst h1
      split
      · rw [← sim_part hW h2]
        refine Sim.bindSame fun part _ => ?_
        split
        · exact ih _ _ _ h2 (by simp; omega)
        · exact ih _ _ _ h2 (by omega)
      · exact Sim.ok ⟨rfl, h2⟩
    · rw [if_neg hlt, if_neg (fun h => hlt (hi.2 h))]
      exact Sim.ok ⟨rfl, h⟩

theorem sim_splitWhere (s : Str) {f f' : Str → Res Subrange} (hf : ∀ u : Str, u.length ≤ s.length → Sim (SameToken u.length) (f u) (f' u))
    (hW : Fits W s.length) (p : SplitParams) (m : Nat) (hm : p.maxSplits = m ∨ (s.length + 2 ≤ p.maxSplits ∧ s.length + 2 ≤ m)) :
    Wd.splitWhere W s f' m p.ignoreEmpty = Ystring.splitWhere s f p := by
  symm
  unfold Ystring.splitWhere Wd.splitWhere
  refine Sim.eq (Sim.bind (sim_splitLoop hf hW p m hm _ _ _ _ ⟨rfl, Nat.le_refl _, Or.inr ⟨rfl, Nat.zero_le _⟩⟩ (by simp)) ?_)
  rintro ⟨t, r⟩ ⟨t', r'⟩ ⟨h1, h2⟩
  simp only at h1 h2 ⊢
  subst h1
  obtain ⟨_, _, h3⟩ := h2.start hW
  unfold TokenIterator.toBool
  rw [← h3, ← sim_remainder hW h2]
  split
  · exact Sim.same fun _ _ => rfl
  · exact Sim.ok rfl

theorem npos_enough {n : Nat} (hW : Fits W n) : n + 2 ≤ npos ∧ n + 2 ≤ nposW W := by
  have h1 := hW.fits
  have h2 := hW.most
  have h3 := hW.wide
  have h4 := nposEq
  unfold nposW
  omega

theorem sim_findFirst_token (sep u : Str) : Sim (SameToken u.length) (Ystring.findFirst u sep) (Ystring.findFirst u sep) := by
  obtain ⟨r, h1, h2⟩ := findFirst_within' u sep
  rw [h1]
  rcases h2 with h2 | h2
  · exact Or.inl ⟨h2, h2⟩
  · exact Or.inr ⟨rfl, h2⟩

/-! ### trim -/

theorem sim_trimEndWhere (s : Str) (hW : Fits W s.length) (p : Char32 → Bool) : Wd.trimEndWhere W s p = Ystring.trimEndWhere s p := by
  symm
  obtain ⟨h1, h2⟩ := npos_enough hW
  unfold Ystring.trimEndWhere Wd.trimEndWhere
  refine Sim.eq (Sim.bind (sim_findLastWhere s _ npos (nposW W) (by omega)) ?_)
  rintro ⟨r, c⟩ ⟨r', c'⟩ ⟨h1, _, _⟩
  simp only at h1 ⊢
  rcases h1 with ⟨rfl, rfl⟩ | ⟨rfl, h1⟩
  · exact Sim.ok rfl
  · obtain ⟨e1, e2⟩ := stop_within hW h1
    rw [e1, e2]
    exact Sim.same fun _ _ => rfl

theorem sim_trimStartWhere (s : Str) (p : Char32 → Bool) : Wd.trimStartWhere W s p = Ystring.trimStartWhere s p := by
  symm
  unfold Ystring.trimStartWhere Wd.trimStartWhere
  refine Sim.eq (Sim.bind (sim_findFirstWhere s _ 0) ?_)
  rintro ⟨r, c⟩ ⟨r', c'⟩ ⟨h1, _, _⟩
  simp only at h1 ⊢
  rcases h1 with ⟨rfl, rfl⟩ | ⟨rfl, h1⟩
  · exact Sim.ok rfl
  · exact Sim.same fun _ _ => rfl

theorem trimStartWhere_le {s t : Str} {p : Char32 → Bool} (h : Ystring.trimStartWhere s p = .ok t) : t.length ≤ s.length := by
  unfold Ystring.trimStartWhere at h
  rcases h1 : Ystring.findFirstWhere s (fun c => !p c) with e | ⟨r, c⟩
  · rw [h1] at h; cases h
  · rw [h1] at h
    simp only [Cost.res_bind_ok] at h
    split at h
    · cases h; simp
    · obtain ⟨_, rfl⟩ := substr_ok h
      simp; omega

theorem sim_trimWhere (s : Str) (hW : Fits W s.length) (p : Char32 → Bool) : Wd.trimWhere W s p = Ystring.trimWhere s p := by
  symm
  unfold Ystring.trimWhere Wd.trimWhere
  rw [sim_trimStartWhere]
  refine Sim.eq (Sim.bindSame fun t ht => ?_)
  rw [sim_trimEndWhere t (hW.le (trimStartWhere_le ht))]
  exact Sim.same fun _ _ => rfl

end Ystring.Wd
