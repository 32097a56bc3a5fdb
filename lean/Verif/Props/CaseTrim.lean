import Verif.Props.FoldUpper
import Verif.Props.CaseLaws2
import Verif.Props.DecomposeChars
import Verif.Props.Predicates
import Verif.Props.ComposeLaws
import Verif.Props.Memory
import Verif.Spec.Caseless
/-
Property theorems C120: case conversion and decomposition, before or after trimming and splitting.
-/
namespace Ystring
open Spec

/-! ### Conversions that keep some code points -/

/-- no code point of `a` satisfies `p` -/
def NoChars (p : Char32 → Bool) (a : Str) : Prop := ∃ cs, Decodes a cs ∧ ∀ x ∈ cs, p x = false

/-- `F` keeps the code points that satisfy `p`, makes no new ones, and treats the text before such a code point and the text after it separately. -/
structure Keeps (F : Str → Res Str) (p : Char32 → Bool) : Prop where
  valid : ∀ s t, F s = .ok t → Valid s ∧ Valid t
  nil : F [] = .ok []
  cut : ∀ a u c b t, Valid a → IsSeq u c → p c = true → Valid b → F (a ++ u ++ b) = .ok t →
    ∃ a' u' b', F a = .ok a' ∧ F b = .ok b' ∧ IsSeq u' c ∧ t = a' ++ u' ++ b'
  none : ∀ a t, F a = .ok t → NoChars p a → NoChars p t
  ne : ∀ a, F a = .ok [] → a = []

theorem Keeps.mono {F : Str → Res Str} {p q : Char32 → Bool} (h : Keeps F p) (hq : ∀ c, q c = true → p c = true)
    (hn : ∀ a t, F a = .ok t → NoChars q a → NoChars q t) : Keeps F q :=
  ⟨h.valid, h.nil, fun a u c b t ha hu hc hb e => h.cut a u c b t ha hu (hq c hc) hb e, hn, h.ne⟩

theorem NoChars.notFirst {p : Char32 → Bool} {a : Str} (h : NoChars p a) (h0 : a ≠ []) (b : Str) : NotFirst p (a ++ b) := by
  obtain ⟨cs, h1, h2⟩ := h
  cases h1 with
  | nil => exact absurd rfl h0
  | cons hv hr =>
    intro v' c' t' e h'
    rw [List.append_assoc] at e
    have := hv.append_inj h' e
    rw [← this.2.1]
    exact h2 _ List.mem_cons_self

theorem valid_empty : Valid [] := ⟨[], .nil⟩

theorem allChars_cons {p : Char32 → Bool} {u a : Str} {c : Char32} (hu : IsSeq u c) (hc : p c = true) (h : AllChars p a) : AllChars p (u ++ a) := by
  obtain ⟨cs, h1, h2⟩ := h
  exact ⟨c :: cs, .cons hu h1, by intro d hd; rcases List.mem_cons.mp hd with rfl | hd; · exact hc
                                  · exact h2 d hd⟩

/-- the first code point that satisfies `p` -/
theorem cut_first (p : Char32 → Bool) {s : Str} {cs : List Char32} (h : Decodes s cs) :
    NoChars p s ∨ ∃ a u c b, s = a ++ u ++ b ∧ NoChars p a ∧ IsSeq u c ∧ p c = true ∧ Valid b := by
  induction h with
  | nil => exact .inl ⟨[], .nil, by simp⟩
  | @cons v s c cs hv hr ih =>
    by_cases hc : p c = true
    · exact .inr ⟨[], v, c, s, by simp, ⟨[], .nil, by simp⟩, hv, hc, _, hr⟩
    · have hc : p c = false := by simpa using hc
      rcases ih with ⟨ds, h1, h2⟩ | ⟨a, u, d, b, rfl, ⟨ds, h1, h2⟩, h3, h4, h5⟩
      · exact .inl ⟨_, .cons hv h1, by intro d hd; rcases List.mem_cons.mp hd with rfl | hd; · exact hc
                                       · exact h2 d hd⟩
      · exact .inr ⟨v ++ a, u, d, b, by simp, ⟨_, .cons hv h1, by
          intro d hd; rcases List.mem_cons.mp hd with rfl | hd
          · exact hc
          · exact h2 d hd⟩, h3, h4, h5⟩

/-- the last code point that satisfies `p` -/
theorem cut_last (p : Char32 → Bool) {s : Str} {cs : List Char32} (h : Decodes s cs) :
    NoChars p s ∨ ∃ a u c b, s = a ++ u ++ b ∧ Valid a ∧ IsSeq u c ∧ p c = true ∧ NoChars p b := by
  induction h with
  | nil => exact .inl ⟨[], .nil, by simp⟩
  | @cons v s c cs hv hr ih =>
    rcases ih with ⟨ds, h1, h2⟩ | ⟨a, u, d, b, rfl, ⟨as, ha⟩, h3, h4, h5⟩
    · by_cases hc : p c = true
      · exact .inr ⟨[], v, c, s, by simp, valid_empty, hv, hc, ds, h1, h2⟩
      · have hc : p c = false := by simpa using hc
        exact .inl ⟨_, .cons hv h1, by
          intro d hd; rcases List.mem_cons.mp hd with rfl | hd
          · exact hc
          · exact h2 d hd⟩
    · exact .inr ⟨v ++ a, u, d, b, by simp, ⟨_, .cons hv ha⟩, h3, h4, h5⟩

theorem NoChars.notLast {p : Char32 → Bool} {b : Str} (h : NoChars p b) (h0 : b ≠ []) {a : Str} (ha : Valid a) : NotLast p (a ++ b) := by
  obtain ⟨cs, h1, h2⟩ := h
  obtain ⟨us, hu, rfl, rfl⟩ := h1.units
  obtain ⟨as, has, rfl⟩ := ha.units
  intro v' c' t' e h'
  rcases List.eq_nil_or_concat us with rfl | ⟨us, w, rfl⟩
  · exact absurd rfl h0
  · have hw : IsSeq w.1 w.2 := hu w (by simp)
    have e' : (bytesOf as ++ bytesOf us) ++ w.1 = t' ++ v' := by
      rw [← e]; simp [bytesOf]
    have := hw.append_inj' h' e'
    rw [← this.2.1]
    exact h2 _ (by simp)


/-! ### Trimming -/

theorem notFirst_strip {p : Char32 → Bool} {a a' : Str} {cs ds : List Char32} (h : Decodes a cs) (hp : ∀ c ∈ cs, p c = true) (h' : Decodes a' ds)
    (hp' : ∀ c ∈ ds, p c = true) {x x' : Str} (hx : NotFirst p x) (hx' : NotFirst p x') (e : a ++ x = a' ++ x') : x = x' := by
  induction h generalizing a' ds with
  | nil =>
    cases h' with
    | nil => simpa using e
    | @cons v r c cs hv hr =>
      have := hx v c (r ++ x') (by simpa using e) hv
      rw [hp' c List.mem_cons_self] at this
      cases this
  | @cons v r c cs hv hr ih =>
    cases h' with
    | nil =>
      have := hx' v c (r ++ x) (by simpa using e.symm) hv
      rw [hp c List.mem_cons_self] at this
      cases this
    | @cons v' r' c' cs' hv' hr' =>
      have := hv.append_inj hv' (by simpa using e)
      exact ih (fun c hc => hp c (List.mem_cons_of_mem _ hc)) hr' (fun c hc => hp' c (List.mem_cons_of_mem _ hc)) this.2.2

theorem trimStart_eq {p : Char32 → Bool} {a x : Str} (hv : Valid (a ++ x)) (hl : (a ++ x).length < SIZE_MOD) (ha : AllChars p a)
    (hx : NotFirst p x) : trimStartWhere (a ++ x) p = .ok x := by
  obtain ⟨a', x', e, h1, ⟨ds, h2, h3⟩, h4, -⟩ := C42_trim_start_where (a ++ x) hv hl p
  obtain ⟨cs, h5, h6⟩ := ha
  rw [h1, notFirst_strip h5 h6 h2 h3 hx h4 e]

theorem notLast_strip {p : Char32 → Bool} {us vs : List Unit8} (h : Units us) (hp : ∀ u ∈ us, p u.2 = true) (h' : Units vs)
    (hp' : ∀ u ∈ vs, p u.2 = true) {x x' : Str} (hx : NotLast p x) (hx' : NotLast p x') (e : x ++ bytesOf us.reverse = x' ++ bytesOf vs.reverse) : x = x' := by
  induction us generalizing vs with
  | nil =>
    cases vs with
    | nil => simpa [bytesOf] using e
    | cons v vs =>
      rw [Units_cons] at h'
      have := hx v.1 v.2 (x' ++ bytesOf vs.reverse) (by simpa [bytesOf] using e) h'.1
      rw [hp' v List.mem_cons_self] at this
      cases this
  | cons u us ih =>
    rw [Units_cons] at h
    cases vs with
    | nil =>
      have := hx' u.1 u.2 (x ++ bytesOf us.reverse) (by simpa [bytesOf] using e.symm) h.1
      rw [hp u List.mem_cons_self] at this
      cases this
    | cons v vs =>
      rw [Units_cons] at h'
      have := h.1.append_inj' h'.1 (s := x ++ bytesOf us.reverse) (t := x' ++ bytesOf vs.reverse) (by simpa [bytesOf] using e)
      exact ih h.2 (fun c hc => hp c (List.mem_cons_of_mem _ hc)) h'.2 (fun c hc => hp' c (List.mem_cons_of_mem _ hc)) this.2.2

theorem allChars_units {p : Char32 → Bool} {a : Str} (h : AllChars p a) : ∃ us, Units us ∧ a = bytesOf us.reverse ∧ ∀ u ∈ us, p u.2 = true := by
  obtain ⟨cs, h1, h2⟩ := h
  obtain ⟨us, h3, rfl, rfl⟩ := h1.units
  exact ⟨us.reverse, fun u hu => h3 u (by simpa using hu), by simp, fun u hu => h2 _ (List.mem_map_of_mem (by simpa using hu))⟩

theorem trimEnd_eq {p : Char32 → Bool} {a x : Str} (hv : Valid (x ++ a)) (hl : (x ++ a).length < SIZE_MOD) (ha : AllChars p a)
    (hx : NotLast p x) : trimEndWhere (x ++ a) p = .ok x := by
  obtain ⟨a', x', e, h1, h2, h4, -⟩ := C42_trim_end_where (x ++ a) hv hl p
  obtain ⟨us, h5, rfl, h6⟩ := allChars_units ha
  obtain ⟨vs, h7, rfl, h8⟩ := allChars_units h2
  rw [h1, notLast_strip h5 h6 h7 h8 hx h4 e]

/-- a valid string that does not start with a code point that satisfies `p` -/
theorem Keeps.notFirst {F : Str → Res Str} {p : Char32 → Bool} (h : Keeps F p) {x x' : Str} (hx : NotFirst p x) (e : F x = .ok x') :
    NotFirst p x' := by
  obtain ⟨⟨cs, hd⟩, -⟩ := h.valid _ _ e
  rcases cut_first p hd with hn | ⟨a, u, c, b, rfl, h1, h2, h3, h4⟩
  · by_cases h0 : x' = []
    · rw [h0]; exact NotFirst.nil p
    · simpa using (h.none _ _ e hn).notFirst h0 []
  · have ha : a ≠ [] := by
      rintro rfl
      have := hx u c b (by simp) h2
      rw [h3] at this; cases this
    obtain ⟨as, ha1, ha2⟩ := h1
    obtain ⟨a', u', b', e1, e2, e3, rfl⟩ := h.cut a u c b x' ⟨as, ha1⟩ h2 h3 h4 e
    rw [List.append_assoc]
    exact (h.none _ _ e1 ⟨as, ha1, ha2⟩).notFirst (fun k => ha (h.ne a (k ▸ e1))) _

theorem Keeps.notLast {F : Str → Res Str} {p : Char32 → Bool} (h : Keeps F p) {x x' : Str} (hx : NotLast p x) (e : F x = .ok x') :
    NotLast p x' := by
  obtain ⟨⟨cs, hd⟩, -⟩ := h.valid _ _ e
  rcases cut_last p hd with hn | ⟨a, u, c, b, rfl, h1, h2, h3, h4⟩
  · by_cases h0 : x' = []
    · rw [h0]; exact NotLast.nil p
    · simpa using (h.none _ _ e hn).notLast h0 valid_empty
  · have hb : b ≠ [] := by
      rintro rfl
      have := hx u c a (by simp) h2
      rw [h3] at this; cases this
    obtain ⟨bs, hb1, hb2⟩ := h4
    obtain ⟨a', u', b', e1, e2, e3, rfl⟩ := h.cut a u c b x' h1 h2 h3 ⟨bs, hb1⟩ e
    obtain ⟨as, ha'⟩ := (h.valid _ _ e1).2
    exact (h.none _ _ e2 ⟨bs, hb1, hb2⟩).notLast (fun k => hb (h.ne b (k ▸ e2))) ⟨_, ha'.append e3.decodes⟩

theorem Keeps.strip {F : Str → Res Str} {p : Char32 → Bool} (h : Keeps F p) {a : Str} {cs : List Char32} (ha : Decodes a cs)
    (hp : ∀ c ∈ cs, p c = true) {x t : Str} (hx : Valid x) (e : F (a ++ x) = .ok t) : ∃ a' x', t = a' ++ x' ∧ AllChars p a' ∧ F x = .ok x' := by
  induction ha generalizing t with
  | nil => exact ⟨[], t, rfl, ⟨[], .nil, by simp⟩, e⟩
  | @cons v r c cs hv hr ih =>
    have hrx : Valid (r ++ x) := (valid_append_iff ⟨_, hr⟩ x).mpr hx
    obtain ⟨a', u', b', e1, e2, e3, rfl⟩ := h.cut [] v c (r ++ x) t valid_empty hv (hp c List.mem_cons_self) hrx (by simpa using e)
    obtain ⟨a'', x', rfl, h1, h2⟩ := ih (fun c hc => hp c (List.mem_cons_of_mem _ hc)) e2
    rw [h.nil] at e1
    cases e1
    exact ⟨u' ++ a'', x', by simp, allChars_cons e3 (hp c List.mem_cons_self) h1, h2⟩

theorem Keeps.stripEnd {F : Str → Res Str} {p : Char32 → Bool} (h : Keeps F p) {us : List Unit8} (hu : Units us)
    (hp : ∀ u ∈ us, p u.2 = true) {x t : Str} (hx : Valid x) (e : F (x ++ bytesOf us.reverse) = .ok t) :
    ∃ a' x', t = x' ++ a' ∧ AllChars p a' ∧ F x = .ok x' := by
  induction us generalizing t with
  | nil => exact ⟨[], t, by simp, ⟨[], .nil, by simp⟩, by simpa [bytesOf] using e⟩
  | cons u us ih =>
    rw [Units_cons] at hu
    have hv : Units us.reverse := fun w hw => hu.2 w (by simpa using hw)
    obtain ⟨a', u', b', e1, e2, e3, rfl⟩ := h.cut (x ++ bytesOf us.reverse) u.1 u.2 [] t ((valid_append_iff hx _).mpr hv.valid) hu.1
      (hp u List.mem_cons_self) valid_empty (by simpa [bytesOf] using e)
    obtain ⟨a'', x', rfl, ⟨cs, h1, h1'⟩, h2⟩ := ih hu.2 (fun c hc => hp c (List.mem_cons_of_mem _ hc)) e1
    rw [h.nil] at e2
    cases e2
    refine ⟨a'' ++ u', x', by simp, ⟨cs ++ [u.2], h1.append e3.decodes, ?_⟩, h2⟩
    intro c hc
    rcases List.mem_append.mp hc with hc | hc
    · exact h1' c hc
    · rw [List.mem_singleton.mp hc]; exact hp u List.mem_cons_self

theorem Keeps.trim {F : Str → Res Str} {p : Char32 → Bool} (h : Keeps F p) {s t : Str} (e : F s = .ok t) (hl : s.length < SIZE_MOD)
    (hl' : t.length < SIZE_MOD) :
    (∃ a b, trimStartWhere s p = .ok a ∧ trimStartWhere t p = .ok b ∧ F a = .ok b) ∧
    (∃ a b, trimEndWhere s p = .ok a ∧ trimEndWhere t p = .ok b ∧ F a = .ok b) ∧
    (∃ a b, trimWhere s p = .ok a ∧ trimWhere t p = .ok b ∧ F a = .ok b) := by
  have start : ∀ s t, F s = .ok t → s.length < SIZE_MOD → t.length < SIZE_MOD →
      ∃ a b, trimStartWhere s p = .ok a ∧ trimStartWhere t p = .ok b ∧ F a = .ok b ∧ a.length ≤ s.length ∧ b.length ≤ t.length := by
    intro s t e hl hl'
    obtain ⟨hs, ht⟩ := h.valid _ _ e
    obtain ⟨a, x, rfl, h1, ⟨cs, h2, h3⟩, h4, h5⟩ := C42_trim_start_where s hs hl p
    obtain ⟨a', x', rfl, h6, h7⟩ := h.strip h2 h3 h5 e
    exact ⟨x, x', h1, trimStart_eq ht hl' h6 (h.notFirst h4 h7), h7, by simp, by simp⟩
  have fin : ∀ s t, F s = .ok t → s.length < SIZE_MOD → t.length < SIZE_MOD →
      ∃ a b, trimEndWhere s p = .ok a ∧ trimEndWhere t p = .ok b ∧ F a = .ok b := by
    intro s t e hl hl'
    obtain ⟨hs, ht⟩ := h.valid _ _ e
    obtain ⟨a, x, rfl, h1, h2, h4, h5⟩ := C42_trim_end_where s hs hl p
    obtain ⟨us, hu, rfl, hu'⟩ := allChars_units h2
    obtain ⟨a', x', rfl, h6, h7⟩ := h.stripEnd hu hu' h5 e
    exact ⟨x, x', h1, trimEnd_eq ht hl' h6 (h.notLast h4 h7), h7⟩
  obtain ⟨a, b, h1, h2, h3, h4, h5⟩ := start s t e hl hl'
  refine ⟨⟨a, b, h1, h2, h3⟩, fin s t e hl hl', ?_⟩
  obtain ⟨x, y, k1, k2, k3⟩ := fin a b h3 (Nat.lt_of_le_of_lt h4 hl) (Nat.lt_of_le_of_lt h5 hl')
  refine ⟨x, y, ?_, ?_, k3⟩
  · unfold trimWhere; rw [h1]; exact k1
  · unfold trimWhere; rw [h2]; exact k2

/-! ### Splitting -/

theorem splits_functional {first : Str → Str → Str → Prop} {no : Str → Prop} {P : Str → Prop}
    (F : ∀ p t r p' t' r', P (p ++ t ++ r) → p ++ t ++ r = p' ++ t' ++ r' → first p t r → first p' t' r' → p = p' ∧ t = t')
    (N : ∀ p t r, P (p ++ t ++ r) → first p t r → ¬ no (p ++ t ++ r)) (T : ∀ p t r, P (p ++ t ++ r) → first p t r → P r)
    {ig : Bool} {n : Nat} {s : Str} {ps ps' : List (Str × Str)} {last last' : Str} (hP : P s) (h : Splits first no ig n s ps last)
    (h' : Splits first no ig n s ps' last') : ps = ps' ∧ last = last' := by
  induction h generalizing ps' last' with
  | limit =>
    cases h' with
    | limit => exact ⟨rfl, rfl⟩
    | none _ => exact ⟨rfl, rfl⟩
  | none h1 =>
    cases h' with
    | limit => exact ⟨rfl, rfl⟩
    | none _ => exact ⟨rfl, rfl⟩
    | hit h2 _ _ => exact absurd h1 (N _ _ _ hP h2)
    | skip h2 h3 _ => exact absurd h1 (N [] _ _ hP h2)
  | @hit n p t rest last ps h1 h2 h3 ih =>
    generalize hs : p ++ t ++ rest = s at h'
    cases h' with
    | none h4 => subst hs; exact absurd h4 (N _ _ _ hP h1)
    | hit h4 h5 h6 =>
      obtain ⟨rfl, rfl⟩ := F _ _ _ _ _ _ hP hs h1 h4
      have e := List.append_cancel_left hs
      subst e
      obtain ⟨rfl, rfl⟩ := ih (T _ _ _ hP h1) h6
      exact ⟨rfl, rfl⟩
    | skip h4 h5 h6 =>
      obtain ⟨rfl, rfl⟩ := F _ _ _ [] _ _ hP hs h1 h4
      exact absurd rfl (h2 h5)
  | @skip n t rest last ps h1 h2 h3 ih =>
    generalize hs : t ++ rest = s at h'
    cases h' with
    | none h4 => subst hs; exact absurd h4 (N [] _ _ hP h1)
    | hit h4 h5 h6 =>
      obtain ⟨rfl, rfl⟩ := F [] _ _ _ _ _ hP hs h1 h4
      exact absurd rfl (h5 h2)
    | skip h4 h5 h6 =>
      obtain ⟨-, rfl⟩ := F [] _ _ [] _ _ hP hs h1 h4
      have e := List.append_cancel_left hs
      subst e
      obtain ⟨rfl, rfl⟩ := ih (T [] _ _ hP h1) h6
      exact ⟨rfl, rfl⟩

/-- Cutting a string and converting the pieces, for a conversion that respects the cuts -/
theorem splits_convert {F : Str → Res Str} {first : Str → Str → Str → Prop} {no : Str → Prop} {ig : Bool}
    (hne : ∀ a, F a = .ok [] → a = []) (hnil : F [] = .ok [])
    (hno : ∀ s t, no s → F s = .ok t → no t)
    (hfirst : ∀ p t r x, first p t r → F (p ++ t ++ r) = .ok x → ∃ p' t' r', F p = .ok p' ∧ F r = .ok r' ∧ first p' t' r' ∧ x = p' ++ t' ++ r')
    {n : Nat} {s x : Str} {ps : List (Str × Str)} {last : Str} (h : Splits first no ig n s ps last) (e : F s = .ok x) :
    ∃ ps' last', Splits first no ig n x ps' last' ∧
      (keep ig (ps.map (·.1) ++ [last])).mapM F = .ok (keep ig (ps'.map (·.1) ++ [last'])) := by
  have single : ∀ s x, F s = .ok x → (keep ig [s]).mapM F = .ok (keep ig [x]) := by
    intro s x e
    by_cases h0 : s = []
    · subst h0
      rw [hnil] at e
      cases e
      cases ig <;> simp [keep, hnil, bind, Except.bind, pure, Except.pure]
    · have h1 : x ≠ [] := fun k => h0 (hne s (k ▸ e))
      cases ig <;> simp [keep, h0, h1, e, bind, Except.bind, pure, Except.pure]
  have cons : ∀ s x l l', F s = .ok x → (keep ig l).mapM F = .ok (keep ig l') → (keep ig (s :: l)).mapM F = .ok (keep ig (x :: l')) := by
    intro s x l l' e e'
    rw [keep_cons ig s l, keep_cons ig x l', List.mapM_append, single s x e, e']
    rfl
  induction h generalizing x with
  | limit => exact ⟨[], x, .limit, single _ _ e⟩
  | none h1 => exact ⟨[], x, .none (hno _ _ h1 e), single _ _ e⟩
  | hit h1 h2 h3 ih =>
    obtain ⟨p', t', r', e1, e2, e3, rfl⟩ := hfirst _ _ _ _ h1 e
    obtain ⟨ps', last', i1, i2⟩ := ih e2
    exact ⟨(p', t') :: ps', last', .hit e3 (fun h k => h2 h (hne _ (k ▸ e1))) i1, cons _ _ _ _ e1 i2⟩
  | skip h1 h2 h3 ih =>
    obtain ⟨p', t', r', e1, e2, e3, rfl⟩ := hfirst [] _ _ _ h1 e
    obtain ⟨ps', last', i1, i2⟩ := ih e2
    rw [hnil] at e1
    cases e1
    exact ⟨([], t') :: ps', last', .skip e3 h2 i1, cons _ _ _ _ hnil i2⟩

theorem Keeps.splitChars {F : Str → Res Str} {chars : List Char32} (h : Keeps F (u32Contains chars)) {s t : Str} (e : F s = .ok t)
    (hl : s.length < SIZE_MOD) (hl' : t.length < SIZE_MOD) (n : Nat) (hn : 0 < n) (ig : Bool) :
    ∃ ps qs, Ystring.splitChars s chars ⟨n, ig⟩ = .ok ps ∧ Ystring.splitChars t chars ⟨n, ig⟩ = .ok qs ∧ ps.mapM F = .ok qs := by
  obtain ⟨hs, ht⟩ := h.valid _ _ e
  have hg := goodFinder_where (u32Contains chars)
  obtain ⟨ps, last, h1, h2⟩ := splitWhere_spec hg ig n s hl hs hn
  obtain ⟨ps', last', h1', h2'⟩ := splitWhere_spec hg ig n t hl' ht hn
  have hc := splits_convert h.ne h.nil ?no ?first h1 e
  case no =>
    intro s t k1 k2
    exact h.none s t k2 k1
  case first =>
    rintro p t r x ⟨⟨cs, k1, k2⟩, c, k3, k4⟩ k5
    have hv := (h.valid _ _ k5).1
    rw [List.append_assoc, valid_append_iff ⟨_, k1⟩, valid_append_iff ⟨_, k4.decodes⟩] at hv
    obtain ⟨p', t', r', e1, e2, e3, rfl⟩ := h.cut p t c r x ⟨_, k1⟩ k4 k3 hv k5
    exact ⟨p', t', r', e1, e2, ⟨h.none _ _ e1 ⟨cs, k1, k2⟩, c, k3, e3⟩, rfl⟩
  obtain ⟨qs, l, i1, i2⟩ := hc
  have hu := splits_functional (P := Valid) ?F ?N ?T ht h1' i1
  case T =>
    rintro p t r hP ⟨⟨cs, hd, -⟩, d, -, ht⟩
    rw [List.append_assoc, valid_append_iff ⟨_, hd⟩, valid_append_iff ⟨_, ht.decodes⟩] at hP
    exact hP
  case N =>
    rintro p t r hP ⟨⟨cs, hd, -⟩, d, hdm, ht⟩ ⟨ds, hds, hno⟩
    rw [List.append_assoc, valid_append_iff ⟨_, hd⟩, valid_append_iff ⟨_, ht.decodes⟩] at hP
    obtain ⟨ys, hy⟩ := hP
    have e := hds.unique (by rw [List.append_assoc]; exact hd.append (Decodes.cons ht hy))
    rw [e] at hno
    rw [hno d (by simp)] at hdm
    cases hdm
  case F =>
    rintro p t r p' t' r' hP e ⟨⟨cs1, a1, b1⟩, d1, hm1, ht1⟩ ⟨⟨cs2, a2, b2⟩, d2, hm2, ht2⟩
    obtain ⟨us, hu1, rfl, hu2⟩ := none_units (q := fun c => u32Contains chars c = true) ⟨cs1, a1, fun x hx => by rw [b1 x hx]; simp⟩
    obtain ⟨vs, hv1, rfl, hv2⟩ := none_units (q := fun c => u32Contains chars c = true) ⟨cs2, a2, fun x hx => by rw [b2 x hx]; simp⟩
    obtain ⟨e1, e2, -⟩ := first_unique (q := fun c => u32Contains chars c = true) (r := r) (r' := r') hu1 hv1 ht1 ht2 hm1 hm2 hu2 hv2 (by simpa using e)
    exact ⟨e1, e2⟩
  obtain ⟨rfl, rfl⟩ := hu
  exact ⟨_, _, h2, h2', i2⟩

theorem noNewline_iff (s : Str) : NoNewline s ↔ NoChars newline s := by
  unfold NoNewline NoChars
  simp only [newline_false]

/-- two ways to cut a text at its first newline are the same -/
theorem newline_unique {p t r p' t' r' : Str} (hP : Valid (p ++ t ++ r)) (e : p ++ t ++ r = p' ++ t' ++ r')
    (h : NoNewline p ∧ IsNewline t ∧ (IsSeq t 0x0D → ∀ xs, ¬ Decodes r (0x0A :: xs)))
    (h' : NoNewline p' ∧ IsNewline t' ∧ (IsSeq t' 0x0D → ∀ xs, ¬ Decodes r' (0x0A :: xs))) : p = p' ∧ t = t' := by
  have CR : IsNewlineChar 0x0D := (newline_iff _).mp (by decide)
  obtain ⟨hp1, ht1, hl1⟩ := h
  obtain ⟨hp2, ht2, hl2⟩ := h'
  obtain ⟨us, hu1, rfl, hu2⟩ := none_units hp1
  obtain ⟨vs, hv1, rfl, hv2⟩ := none_units hp2
  have hP' := hP
  rw [e] at hP'
  rcases ht1 with ⟨u, v, rfl, hu, hv⟩ | ⟨c, hcn, hc⟩ <;> rcases ht2 with ⟨u', v', rfl, hu', hv'⟩ | ⟨c', hcn', hc'⟩
  · obtain ⟨e1, e2, e3⟩ := first_unique (r := v ++ r) (r' := v' ++ r') hu1 hv1 hu hu' CR CR hu2 hv2 (by simpa using e)
    obtain ⟨e4, -, -⟩ := hv.append_inj hv' e3
    exact ⟨e1, by rw [e2, e4]⟩
  · obtain ⟨e1, rfl, e3⟩ := first_unique (r := v ++ r) (r' := r') hu1 hv1 hu hc' CR hcn' hu2 hv2 (by simpa using e)
    exfalso
    rw [List.append_assoc, List.append_assoc, valid_append_iff hu1.valid, valid_append_iff ⟨_, hu.decodes⟩, valid_append_iff ⟨_, hv.decodes⟩] at hP
    obtain ⟨ys, hy⟩ := hP
    exact hl2 hu ys (by rw [← e3]; exact .cons hv hy)
  · obtain ⟨e1, rfl, e3⟩ := first_unique (r := r) (r' := v' ++ r') hu1 hv1 hc hu' hcn CR hu2 hv2 (by simpa using e)
    exfalso
    rw [List.append_assoc, List.append_assoc, valid_append_iff hv1.valid, valid_append_iff ⟨_, hu'.decodes⟩, valid_append_iff ⟨_, hv'.decodes⟩] at hP'
    obtain ⟨ys, hy⟩ := hP'
    exact hl1 hu' ys (by rw [e3]; exact .cons hv' hy)
  · obtain ⟨e1, e2, -⟩ := first_unique (r := r) (r' := r') hu1 hv1 hc hc' hcn hcn' hu2 hv2 (by simpa using e)
    exact ⟨e1, e2⟩

theorem isNewline_start {t : Str} (h : IsNewline t) : ∃ c w r, IsNewlineChar c ∧ IsSeq w c ∧ t = w ++ r ∧ Valid r := by
  rcases h with ⟨u, v, rfl, hu, hv⟩ | ⟨c, hcn, hc⟩
  · exact ⟨_, u, v, (newline_iff _).mp (by decide), hu, rfl, _, hv.decodes⟩
  · exact ⟨c, t, [], hcn, hc, by simp, valid_empty⟩

theorem isNewline_valid {t : Str} (h : IsNewline t) : Valid t := by
  obtain ⟨c, w, r, -, h1, rfl, ⟨ds, h2⟩⟩ := isNewline_start h
  exact ⟨_, .cons h1 h2⟩

/-- a converted text starts with a line feed only if the text does -/
theorem Keeps.lineFeed {F : Str → Res Str} (h : Keeps F newline) {r r' : Str} {xs : List Char32} (e : F r = .ok r')
    (hd : Decodes r' (0x0A :: xs)) : ∃ ys, Decodes r (0x0A :: ys) := by
  obtain ⟨⟨cs, hr⟩, -⟩ := h.valid _ _ e
  have hLF : newline 0x0A = true := by decide
  have bad : ¬ NotFirst newline r' := by
    intro k
    cases hd with
    | cons hv hr =>
      have := k _ _ _ rfl hv
      rw [hLF] at this
      cases this
  cases hr with
  | nil => exact absurd (h.notFirst (NotFirst.nil _) e) bad
  | @cons v s c cs hv hs =>
    by_cases hc : newline c = true
    · obtain ⟨a', u', b', e1, e2, e3, rfl⟩ := h.cut [] v c s r' valid_empty hv hc ⟨_, hs⟩ (by simpa using e)
      rw [h.nil] at e1
      cases e1
      obtain ⟨ds, hb⟩ := (h.valid _ _ e2).2
      have := hd.unique (by simpa using Decodes.cons e3 hb)
      injection this with h1 h2
      subst h1
      exact ⟨cs, .cons hv hs⟩
    · refine absurd (h.notFirst ?_ e) bad
      intro v' c' t' k hv'
      have := hv.append_inj hv' k
      rw [← this.2.1]
      simpa using hc

theorem Keeps.splitLines {F : Str → Res Str} (h : Keeps F newline) {s t : Str} (e : F s = .ok t)
    (hl : s.length < SIZE_MOD) (hl' : t.length < SIZE_MOD) (n : Nat) (hn : 0 < n) (ig : Bool) :
    ∃ ps qs, Ystring.splitLines [] s ⟨n, ig⟩ = .ok ps ∧ Ystring.splitLines [] t ⟨n, ig⟩ = .ok qs ∧ ps.mapM F = .ok qs := by
  obtain ⟨hs, ht⟩ := h.valid _ _ e
  have hg := goodFinder_newline
  obtain ⟨ps, last, h1, h2⟩ := splitWhere_spec hg ig n s hl ⟨hs, hl⟩ hn
  obtain ⟨ps', last', h1', h2'⟩ := splitWhere_spec hg ig n t hl' ⟨ht, hl'⟩ hn
  have hc := splits_convert h.ne h.nil ?no ?first h1 e
  case no =>
    intro s t k1 k2
    exact (noNewline_iff t).mpr (h.none s t k2 ((noNewline_iff s).mp k1))
  case first =>
    rintro p t r x ⟨k1, k2, k3⟩ k5
    obtain ⟨cs, kd, kn⟩ := k1
    have hv := (h.valid _ _ k5).1
    have htv := isNewline_valid k2
    rw [List.append_assoc, valid_append_iff ⟨_, kd⟩, valid_append_iff htv] at hv
    have nop : ∀ p', F p = .ok p' → NoNewline p' :=
      fun p' k => (noNewline_iff p').mpr (h.none p p' k ((noNewline_iff p).mp ⟨cs, kd, kn⟩))
    rcases k2 with ⟨u, v, rfl, hu, hw⟩ | ⟨c, hcn, hc⟩
    · obtain ⟨p', t', r', e1, e2, e3, rfl⟩ := h.cut p u 0x0D (v ++ r) x ⟨_, kd⟩ hu (by decide) ((valid_append_iff ⟨_, hw.decodes⟩ r).mpr hv) (by simpa using k5)
      obtain ⟨p'', t'', r'', f1, f2, f3, rfl⟩ := h.cut [] v 0x0A r r' valid_empty hw (by decide) hv (by simpa using e2)
      rw [h.nil] at f1
      cases f1
      refine ⟨p', t' ++ t'', r'', e1, f2, ⟨nop p' e1, .inl ⟨t', t'', rfl, e3, f3⟩, ?_⟩, by simp⟩
      intro k
      have := (e3.append_inj k (s := t'') (t := []) (by simp)).2.2
      exact absurd this f3.ne_nil
    · obtain ⟨p', t', r', e1, e2, e3, rfl⟩ := h.cut p t c r x ⟨_, kd⟩ hc ((newline_iff c).mpr hcn) hv k5
      refine ⟨p', t', r', e1, e2, ⟨nop p' e1, .inr ⟨c, hcn, e3⟩, ?_⟩, rfl⟩
      intro k xs hx
      obtain ⟨ys, hy⟩ := h.lineFeed e2 hx
      have : c = 0x0D := (e3.append_inj k (s := []) (t := []) rfl).2.1
      subst this
      exact k3 hc ys hy
  obtain ⟨qs, l, i1, i2⟩ := hc
  have hu := splits_functional (P := Valid) ?F ?N ?T ht h1' i1
  case T =>
    rintro p t r hP ⟨⟨cs, hd, -⟩, ht, -⟩
    rw [List.append_assoc, valid_append_iff ⟨_, hd⟩, valid_append_iff (isNewline_valid ht)] at hP
    exact hP
  case N =>
    rintro p t r hP ⟨⟨cs, hd, -⟩, ht, -⟩ ⟨ds, hds, hno⟩
    obtain ⟨c, w, r', hcn, hw, rfl, -⟩ := isNewline_start ht
    have : Valid (r' ++ r) := by
      rw [List.append_assoc, List.append_assoc, valid_append_iff ⟨_, hd⟩, valid_append_iff ⟨_, hw.decodes⟩] at hP
      exact hP
    obtain ⟨ys, hy⟩ := this
    have e := hds.unique (by simpa using hd.append (Decodes.cons hw hy))
    rw [e] at hno
    exact hno c (by simp) hcn
  case F =>
    intro p t r p' t' r' hP e k k'
    exact newline_unique hP e k k'
  obtain ⟨rfl, rfl⟩ := hu
  exact ⟨_, _, h2, h2', i2⟩

/-! ### The case conversions -/

/-- the same for lists of code points -/
structure KeepsL (f : List Char32 → List Char32) (p : Char32 → Bool) : Prop where
  nil : f [] = []
  cut : ∀ a c b, c.toNat ≤ 0x10FFFF → p c = true → f (a ++ c :: b) = f a ++ c :: f b
  none : ∀ a, InUnicode a → (∀ x ∈ a, p x = false) → ∀ x ∈ f a, p x = false
  ne : ∀ a, f a = [] → a = []

theorem Converts.ok' {F : Str → Res Str} {f} (h : Converts F f) {s t : Str} (e : F s = .ok t) :
    ∃ cs, Decodes s cs ∧ InUnicode cs ∧ t = enc (f cs) := by
  by_cases hc : ∃ cs, Decodes s cs ∧ InUnicode cs
  · obtain ⟨cs, h1, h2⟩ := hc
    rw [h.eq s cs h1 h2] at e
    exact ⟨cs, h1, h2, (Except.ok.inj e).symm⟩
  · rw [h.err s hc] at e; cases e

theorem KeepsL.keeps {F : Str → Res Str} {f p} (hF : Converts F f) (h : KeepsL f p) : Keeps F p where
  valid s t e := by
    obtain ⟨cs, h1, h2, rfl⟩ := hF.ok' e
    exact ⟨⟨_, h1⟩, _, enc_decodes (hF.uni cs h2)⟩
  nil := by rw [hF.eq [] [] .nil (by intro c hc; cases hc), h.nil]; rfl
  cut a u c b t := by
    rintro ⟨as, ha⟩ hu hc ⟨bs, hb⟩ e
    obtain ⟨cs, h1, h2, rfl⟩ := hF.ok' e
    have := h1.unique (by rw [List.append_assoc]; exact ha.append (Decodes.cons hu hb))
    subst this
    have hcu : c.toNat ≤ 0x10FFFF := h2 c (by simp)
    refine ⟨_, rfcEncode c.toNat, _, hF.eq a as ha (fun d hd => h2 d (by simp [hd])), hF.eq b bs hb (fun d hd => h2 d (by simp [hd])),
      rfcEncode_seq c hcu, ?_⟩
    rw [h.cut as c bs hcu hc, enc_append]
    simp [enc]
  none a t e := by
    rintro ⟨as, ha, hn⟩
    obtain ⟨cs, h1, h2, rfl⟩ := hF.ok' e
    have := h1.unique ha
    subst this
    exact ⟨_, enc_decodes (hF.uni cs h2), h.none _ h2 hn⟩
  ne a e := by
    obtain ⟨cs, h1, h2, h3⟩ := hF.ok' e
    have h4 : f cs = [] := by
      have := enc_decodes (hF.uni cs h2)
      rw [← h3] at this
      exact this.unique .nil
    rw [h.ne cs h4] at h1
    cases h1
    rfl

theorem caseless_upper_tbl : UD_UPPER.all (fun p => !Nat.beq (lowN p.2) p.2) = true := by decide +kernel
theorem caseless_lower_tbl : UD_LOWER.all (fun p => !Nat.beq (upN p.2) p.2 || Nat.beq p.1 0x1E9E) = true := by decide +kernel

theorem caseless_upper (c : Char32) (h : Caseless (toUpperChar c)) : toUpperChar c = c := by
  have h1 : simpleLower (simpleUpper c.toNat) = simpleUpper c.toNat := by
    have := congrArg UInt32.toNat h.2.1
    rwa [C52_to_lower, C52_to_upper] at this
  apply UInt32.toNat_inj.mp
  rw [C52_to_upper]
  refine lookup_prop UD_UPPER (fun c v => simpleLower v = v → v = c) ?_ c.toNat (fun _ => rfl) h1
  intro p hp e
  have := List.all_eq_true.mp caseless_upper_tbl p hp
  rw [lowN_eq] at e
  rw [e, Nat.beq_refl] at this
  exact absurd this (by decide)

theorem caseless_lower (c : Char32) (h : Caseless (toLowerChar c)) : toLowerChar c = c := by
  have h1 : simpleUpper (simpleLower c.toNat) = simpleLower c.toNat := by
    have := congrArg UInt32.toNat h.2.2
    rwa [C52_to_upper, C52_to_lower] at this
  have h2 : c.toNat ≠ 0x1E9E := by
    intro e
    have e : c = 0x1E9E := UInt32.toNat_inj.mp e
    subst e
    exact absurd h (by decide +kernel)
  apply UInt32.toNat_inj.mp
  rw [C52_to_lower]
  refine lookup_prop UD_LOWER (fun c v => simpleUpper v = v → c ≠ 0x1E9E → v = c) ?_ c.toNat (fun _ _ => rfl) h1 h2
  intro p hp e hne
  have := List.all_eq_true.mp caseless_lower_tbl p hp
  rw [upN_eq] at e
  rw [e, Nat.beq_refl] at this
  exact absurd (Nat.eq_of_beq_eq_true (by simpa using this)) hne

theorem lower_keepsL {p : Char32 → Bool} (hp : ∀ c, c.toNat ≤ 0x10FFFF → p c = true → Caseless c) : KeepsL (fun cs => cs.map toLowerChar) p where
  nil := rfl
  cut a c b hu hc := by simp [(hp c hu hc).2.1]
  none a ha hn x hx := by
    obtain ⟨d, hd, rfl⟩ := List.mem_map.mp hx
    cases h : p (toLowerChar d) with
    | false => rfl
    | true =>
      have e := caseless_lower d (hp _ ((C52_range d).1.mpr (ha d hd)) h)
      rw [e, hn d hd] at h
      cases h
  ne a h := by simpa using h

theorem upper_keepsL {p : Char32 → Bool} (hp : ∀ c, c.toNat ≤ 0x10FFFF → p c = true → Caseless c) : KeepsL (fun cs => cs.flatMap upperChars) p where
  nil := rfl
  cut a c b hu hc := by
    have h1 := hp c hu hc
    have h2 : c.toNat ≠ 0xDF := by
      intro e
      have e : c = 0xDF := UInt32.toNat_inj.mp e
      subst e
      exact absurd h1.1 (by decide +kernel)
    have : upperChars c = [c] := by unfold upperChars; rw [if_neg h2, h1.2.2]
    simp [this]
  none a ha hn x hx := by
    obtain ⟨d, hd, hx⟩ := List.mem_flatMap.mp hx
    cases h : p x with
    | false => rfl
    | true =>
      exfalso
      unfold upperChars at hx
      split at hx
      · have hS : x = 0x53 := by simpa using hx
        subst hS
        exact absurd (hp _ (by decide) h).1 (by decide +kernel)
      · rw [List.mem_singleton.mp hx] at h
        have e := caseless_upper d (hp _ ((C52_range d).2.1.mpr (ha d hd)) h)
        rw [e, hn d hd] at h
        cases h
  ne a h := by
    cases a with
    | nil => rfl
    | cons c a =>
      rw [List.flatMap_cons] at h
      have := (List.append_eq_nil_iff.mp h).1
      unfold upperChars at this
      split at this <;> cases this

theorem titleList_cut (pre : Bool) (a : List Char32) (c : Char32) (b : List Char32) (h : isLetter c = false) :
    titleList pre (a ++ c :: b) = titleList pre a ++ c :: titleList false b := by
  induction a generalizing pre with
  | nil => simp [titleList, titleChars, h]
  | cons d a ih => simp [titleList, ih]

theorem titleList_letters (pre : Bool) (a : List Char32) : ∀ x ∈ titleList pre a, isLetter x = true ∨ x ∈ a := by
  induction a generalizing pre with
  | nil => intro x hx; cases hx
  | cons d a ih =>
    intro x hx
    rcases List.mem_append.mp hx with hx | hx
    · unfold titleChars at hx
      split at hx
      · rename_i hd
        left
        split at hx
        · rw [List.mem_singleton.mp hx, letter_lower, hd]
        · split at hx
          · rcases (by simpa using hx : x = 0x53 ∨ x = 0x73) with rfl | rfl <;> decide +kernel
          · rw [List.mem_singleton.mp hx]; exact letter_title d hd
      · rw [List.mem_singleton.mp hx]; exact .inr List.mem_cons_self
    · exact (ih _ x hx).imp id (List.mem_cons_of_mem _)

theorem title_keepsL {p : Char32 → Bool} (hp : ∀ c, c.toNat ≤ 0x10FFFF → p c = true → Caseless c) : KeepsL (titleList false) p where
  nil := rfl
  cut a c b hu hc := titleList_cut false a c b (hp c hu hc).1
  none a ha hn x hx := by
    rcases titleList_letters false a x hx with h | h
    · cases h2 : p x with
      | false => rfl
      | true =>
        have := (hp x (titleList_uni false a ha x hx) h2).1
        rw [h] at this
        cases this
    · exact hn x h
  ne a h := by
    cases a with
    | nil => rfl
    | cons c a =>
      have := (List.append_eq_nil_iff.mp h).1
      unfold titleChars at this
      split at this
      · simp only [Bool.false_eq_true, if_false] at this; split at this <;> cases this
      · cases this

/-! ### Decomposition -/

theorem chain_elems {c : Nat} {l : List Nat} (h : Chain4 c l) : l = [c] ∨ ((∃ b m, pairOf c = some (b, m)) ∧ ∀ x ∈ l, ∃ d b m, pairOf d = some (b, m) ∧ (x = b ∨ x = m)) := by
  cases h with
  | d0 h => exact .inl rfl
  | d1 h h2 =>
    refine .inr ⟨⟨_, _, h⟩, ?_⟩
    intro x hx
    rcases (by simpa using hx : _ ∨ _) with rfl | rfl
    · exact ⟨_, _, _, h, .inl rfl⟩
    · exact ⟨_, _, _, h, .inr rfl⟩
  | d2 h h2 h3 =>
    refine .inr ⟨⟨_, _, h⟩, ?_⟩
    intro x hx
    rcases (by simpa using hx : _ ∨ _ ∨ _) with rfl | rfl | rfl
    · exact ⟨_, _, _, h2, .inl rfl⟩
    · exact ⟨_, _, _, h2, .inr rfl⟩
    · exact ⟨_, _, _, h, .inr rfl⟩
  | d3 h h2 h3 h4 =>
    refine .inr ⟨⟨_, _, h⟩, ?_⟩
    intro x hx
    rcases (by simpa using hx : _ ∨ _ ∨ _ ∨ _) with rfl | rfl | rfl | rfl
    · exact ⟨_, _, _, h3, .inl rfl⟩
    · exact ⟨_, _, _, h3, .inr rfl⟩
    · exact ⟨_, _, _, h2, .inr rfl⟩
    · exact ⟨_, _, _, h, .inr rfl⟩

theorem decUnits_unpaired {u : Unit8} (h : Unpaired u.2) : decUnits u = [u] := by
  unfold decUnits
  rcases chain_elems (chainOf_spec u.2.toNat) with e | ⟨⟨b, m, e⟩, -⟩
  · rw [if_pos (by rw [e]; rfl)]
  · exact absurd rfl (h _ _ _ e).1

theorem decUnits_elems {u v : Unit8} (hv : v ∈ decUnits u) : v = u ∨ ∃ n d b m, v.2 = UInt32.ofNat n ∧ pairOf d = some (b, m) ∧ (n = b ∨ n = m) ∧ n ≤ 0x10FFFF := by
  unfold decUnits at hv
  split at hv
  · exact .inl (List.mem_singleton.mp hv)
  · rename_i hl
    obtain ⟨n, hn, rfl⟩ := List.mem_map.mp hv
    have hb := chain_bound (chainOf_spec u.2.toNat) hl n hn
    rcases chain_elems (chainOf_spec u.2.toNat) with e | ⟨-, e⟩
    · exact absurd (by rw [e]; rfl) hl
    · obtain ⟨d, b, m, h1, h2⟩ := e n hn
      exact .inr ⟨n, d, b, m, rfl, h1, h2, by omega⟩

theorem decUnits_ne (u : Unit8) : decUnits u ≠ [] := by
  unfold decUnits
  split
  · simp
  · have := chainOf_spec u.2.toNat
    generalize chainOf u.2.toNat = l at this
    cases this <;> simp

theorem decomposed_keeps (g : Nat) {p : Char32 → Bool} (hp : ∀ c, c.toNat < 2 ^ 21 → p c = true → Unpaired c) :
    Keeps (fun s => toDecomposed s (g + 1)) p where
  valid s t e := by
    have := (C54_outcomes s g).1 t e
    exact ⟨this.1, this.2.1⟩
  nil := toDecomposed_of_units (us := []) (by intro u hu; cases hu) (by intro u hu; cases hu) g
  cut a u c b t ha hu hc hb e := by
    rw [List.append_assoc] at e
    obtain ⟨a', r, e1, e2, rfl⟩ := (C101_concat a (u ++ b) ha g t).mp e
    obtain ⟨u', b', e3, e4, rfl⟩ := (C101_concat u b ⟨_, hu.decodes⟩ g r).mp e2
    have hU : Units [(u, c)] := by intro w hw; rw [List.mem_singleton.mp hw]; exact hu
    have hun := hp c (seq_lt hu) hc
    obtain ⟨us, k1, k2, k3, rfl⟩ := toDecomposed_ok e3
    have : us = [(u, c)] := units_unique k1 hU (by rw [k2]; simp [bytesOf])
    subst this
    refine ⟨a', u, b', e1, e4, hu, ?_⟩
    rw [List.flatMap_cons, decUnits_unpaired hun]
    simp [bytesOf]
  none a t e := by
    rintro ⟨cs, hd, hn⟩
    obtain ⟨us, k1, rfl, k3, rfl⟩ := toDecomposed_ok e
    have k4 := decUnits_all us k1
    refine ⟨valsOf (us.flatMap decUnits), k4.1.decodes, ?_⟩
    intro x hx
    obtain ⟨v, hv, rfl⟩ := List.mem_map.mp hx
    obtain ⟨u, hu, hv⟩ := List.mem_flatMap.mp hv
    rcases decUnits_elems hv with rfl | ⟨n, d, b, m, h1, h2, h3, h4⟩
    · have := hd.unique k1.decodes
      subst this
      exact hn _ (List.mem_map_of_mem hu)
    · rw [h1]
      have e : (UInt32.ofNat n).toNat = n := toNat_ofNat32 (by omega)
      cases h5 : p (UInt32.ofNat n) with
      | false => rfl
      | true =>
        have := hp _ (by rw [e]; omega) h5 d b m h2
        rw [e] at this
        rcases h3 with h3 | h3
        · exact absurd h3 this.2.1
        · exact absurd h3 this.2.2
  ne a e := by
    obtain ⟨us, k1, rfl, k3, k5⟩ := toDecomposed_ok e
    have k4 := decUnits_all us k1
    cases us with
    | nil => rfl
    | cons u us =>
      exfalso
      rw [List.flatMap_cons] at k5 k4
      cases h : decUnits u with
      | nil => exact decUnits_ne u h
      | cons w ws =>
        rw [h] at k5 k4
        have := (k4.1 w (by simp)).ne_nil
        simp [bytesOf] at k5
        exact this k5.1

/-! ### White space -/

/-- the 25 white space characters -/
def spaces : List Nat := [0x9, 0xA, 0xB, 0xC, 0xD, 0x20, 0x85, 0xA0, 0x1680, 0x2000, 0x2001, 0x2002, 0x2003, 0x2004, 0x2005, 0x2006, 0x2007, 0x2008,
  0x2009, 0x200A, 0x2028, 0x2029, 0x202F, 0x205F, 0x3000]

theorem spaces_tbl : UD_RANGES.all (fun r => !(Nat.ble 22 r.2.2.1 && Nat.ble r.2.2.1 24) || (Nat.ble r.2.1 0x3000 &&
    (List.range' r.1 (r.2.1 + 1 - r.1)).all fun c => spaces.elem c)) = true := by decide +kernel

theorem spaces_caseless : spaces.all (fun c => decide (Caseless (UInt32.ofNat c))) = true := by decide +kernel

theorem spaces_unpaired : UD_PAIRS.all (fun p => !spaces.elem p.1 && !spaces.elem p.2.1 && !spaces.elem p.2.2) = true := by decide +kernel

theorem whitespace_spaces (c : Char32) (h : c.toNat < 2 ^ 21) (hw : isWhitespace c = true) : c.toNat ∈ spaces := by
  have h1 := (C66_predicates_exact c (by omega)).1.2.2.2.2.2.2.2.2.2.2.2
  rw [hw, eq_comm, decide_eq_true_iff] at h1
  rcases h1 with h1 | h1
  · simp only [List.mem_cons, List.not_mem_nil, or_false] at h1
    rcases h1 with rfl | rfl | rfl | rfl | rfl | rfl <;> decide
  · have h2 : 22 ≤ generalCategory c.toNat ∧ generalCategory c.toNat ≤ 24 := by
      unfold categoryName at h1
      generalize generalCategory c.toNat = k at h1
      have hk : k < 30 ∨ 30 ≤ k := by omega
      rcases hk with hk | hk
      · have : ∀ k : Fin 30, categoryNames.getD k.val "" ∈ ["Zs", "Zl", "Zp"] → 22 ≤ k.val ∧ k.val ≤ 24 := by decide
        exact this ⟨k, hk⟩ h1
      · rw [List.getD_eq_getElem?_getD, List.getElem?_eq_none (by simpa [categoryNames] using hk)] at h1
        exact absurd h1 (by decide)
    unfold generalCategory at h2
    split at h2
    · rename_i r hr
      have h3 := List.find?_some hr
      have h4 := List.all_eq_true.mp spaces_tbl r (List.mem_of_find?_eq_some hr)
      simp only [decide_eq_true_eq] at h3
      rw [Nat.ble_eq_true_of_le h2.1, Nat.ble_eq_true_of_le h2.2] at h4
      simp only [Bool.and_self, Bool.not_true, Bool.false_or, Bool.and_eq_true, List.all_eq_true] at h4
      have := h4.2 c.toNat (by rw [List.mem_range'_1]; omega)
      exact List.elem_iff.mp this
    · omega

end Ystring
