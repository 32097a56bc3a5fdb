import Verif.Props.Codepoints
import Verif.Props.CaseInsensitiveOf
/-
Property theorem C100: the functions of namespace case_insensitive cannot tell strings apart that `equal` of the same
namespace holds equal.
-/
namespace Ystring
open Spec

namespace CI

/-- C100: `equal` holds only for valid strings, and then the strings are the same up to case. -/
theorem C100_equal_true (s t : Str) : equal s t = .ok true ↔ SameFold s t := by
  constructor
  · intro h
    have key : ∀ (fuel : Nat) (s t : Str), equalLoop fuel s t = .ok true → SameFold s t := by
      intro fuel
      induction fuel with
      | zero => intro s t h; simp [equalLoop] at h
      | succ fuel ih =>
        intro s t h
        rw [equalLoop] at h
        rcases safeDecodeNext_cases s with ⟨rfl, h1⟩ | ⟨u, c, s', hu, rfl, h1⟩ | h1 <;> rw [h1] at h <;>
        rcases safeDecodeNext_cases t with ⟨rfl, h2⟩ | ⟨v, d, t', hv, rfl, h2⟩ | h2 <;> (try rw [h2] at h) <;>
          simp only [bind, Except.bind] at h
        · exact ⟨[], [], .nil, .nil, rfl⟩
        all_goals try simp at h
        split at h
        · simp at h
        · rename_i hne
          obtain ⟨cs, ds, h3, h4, h5⟩ := ih _ _ h
          refine ⟨c :: cs, d :: ds, .cons hu h3, .cons hv h4, ?_⟩
          simp only [fold, List.map_cons, List.cons.injEq]
          exact ⟨(ciEqual_iff c d).1 (by simpa using hne), h5⟩
    exact key _ _ _ h
  · rintro ⟨cs, ds, h1, h2, h3⟩
    rw [C43_equal h1 h2, decide_eq_true h3]

theorem _root_.Ystring.Spec.SameFold.symm {s t : Str} (h : SameFold s t) : SameFold t s := by
  obtain ⟨cs, ds, h1, h2, h3⟩ := h
  exact ⟨ds, cs, h2, h1, h3.symm⟩

theorem _root_.Ystring.Spec.SameFold.trans {s t u : Str} (h : SameFold s t) (h' : SameFold t u) : SameFold s u := by
  obtain ⟨cs, ds, h1, h2, h3⟩ := h
  obtain ⟨ds', es, h4, h5, h6⟩ := h'
  rw [h4.unique h2] at h6
  exact ⟨cs, es, h1, h5, h3.trans h6⟩

theorem _root_.Ystring.Spec.SameFold.append {s t s' t' : Str} (h : SameFold s s') (h' : SameFold t t') : SameFold (s ++ t) (s' ++ t') := by
  obtain ⟨cs, ds, h1, h2, h3⟩ := h
  obtain ⟨cs', ds', h4, h5, h6⟩ := h'
  exact ⟨cs ++ cs', ds ++ ds', h1.append h4, h2.append h5, by simp only [fold, List.map_append] at *; rw [h3, h6]⟩

theorem _root_.Ystring.Spec.SameFold.valid {s t : Str} (h : SameFold s t) : Valid s ∧ Valid t := by
  obtain ⟨cs, ds, h1, h2, h3⟩ := h
  exact ⟨⟨_, h1⟩, ⟨_, h2⟩⟩

theorem _root_.Ystring.Spec.SameFold.nil_iff {s t : Str} (h : SameFold s t) : s = [] ↔ t = [] := by
  obtain ⟨cs, ds, h1, h2, h3⟩ := h
  rw [decodes_nil h1, decodes_nil h2]
  have := congrArg List.length h3
  simp only [fold, List.length_map] at this
  rw [← List.length_eq_zero_iff, ← List.length_eq_zero_iff, this]

/-- A cut of one string has a counterpart in the other. -/
theorem _root_.Ystring.Spec.SameFold.cut {a b s : Str} (h : SameFold (a ++ b) s) (ha : Valid a) :
    ∃ a' b', s = a' ++ b' ∧ SameFold a a' ∧ SameFold b b' := by
  obtain ⟨cs, ds, h1, h2, h3⟩ := h
  obtain ⟨as, ha⟩ := ha
  obtain ⟨bs, rfl, hb⟩ := decodes_rest h1 ha
  have hd : ds = ds.take as.length ++ ds.drop as.length := (List.take_append_drop _ _).symm
  rw [hd] at h2
  obtain ⟨u, v, rfl, hu, hv⟩ := decodes_cut2 h2
  simp only [fold, List.map_append] at h3
  refine ⟨u, v, rfl, ⟨as, _, ha, hu, ?_⟩, ⟨bs, _, hb, hv, ?_⟩⟩
  · simp only [fold, List.map_take, ← h3]
    rw [List.take_left' (by simp)]
  · simp only [fold, List.map_drop, ← h3]
    rw [List.drop_left' (by simp)]

theorem _root_.Ystring.Spec.SameFold.cut3 {a m b s : Str} (h : SameFold (a ++ m ++ b) s) (ha : Valid a) (hm : Valid m) :
    ∃ a' m' b', s = a' ++ m' ++ b' ∧ SameFold a a' ∧ SameFold m m' ∧ SameFold b b' := by
  rw [List.append_assoc] at h
  obtain ⟨a', r, rfl, h1, h2⟩ := h.cut ha
  obtain ⟨m', b', rfl, h3, h4⟩ := h2.cut hm
  exact ⟨a', m', b', by simp, h1, h3, h4⟩

/-- The order of the cuts is the same in both strings. -/
theorem _root_.Ystring.Spec.SameFold.le {a b c d a' b' c' d' : Str} (ha : SameFold a a') (hb : SameFold b b') (hc : SameFold c c') (hd : SameFold d d')
    (e : a ++ b = c ++ d) (e' : a' ++ b' = c' ++ d') (h : a.length ≤ c.length) : a'.length ≤ c'.length := by
  obtain ⟨as, as', h1, h1', f1⟩ := ha
  obtain ⟨bs, bs', h2, h2', f2⟩ := hb
  obtain ⟨cs, cs', h3, h3', f3⟩ := hc
  obtain ⟨ds, ds', h4, h4', f4⟩ := hd
  have q : as ++ bs = cs ++ ds := (h1.append h2).unique (e ▸ h3.append h4)
  have q' : as' ++ bs' = cs' ++ ds' := (h1'.append h2').unique (e' ▸ h3'.append h4')
  have l := decodes_prefix_le e q h1 h3 h
  have f1 := congrArg List.length f1
  have f3 := congrArg List.length f3
  simp only [fold, List.length_map] at f1 f3
  rcases Nat.lt_or_ge c'.length a'.length with hlt | hge
  · have l' := decodes_prefix_le e'.symm q'.symm h3' h1' (by omega)
    have : as'.length = cs'.length := by omega
    have : as' = cs' := (List.append_inj q' this).1
    subst this
    rw [decodes_prefix_unique h1' h3' e'] at hlt
    omega
  · exact hge

theorem _root_.Ystring.Spec.FoldAt.transport {s s' p p' : Str} {i n : Nat} (h : FoldAt s p i n) (hs : SameFold s s') (hp : SameFold p p') :
    ∃ a m b a' m' b', s = a ++ m ++ b ∧ s' = a' ++ m' ++ b' ∧ a.length = i ∧ m.length = n ∧
      SameFold a a' ∧ SameFold m m' ∧ SameFold b b' ∧ FoldAt s' p' a'.length m'.length := by
  obtain ⟨a, m, b, rfl, hi, hn, ha, hb, hm⟩ := h
  obtain ⟨a', m', b', rfl, h1, h2, h3⟩ := hs.cut3 ha hm.valid.1
  exact ⟨a, m, b, a', m', b', rfl, rfl, hi, hn, h1, h2, h3, a', m', b', rfl, rfl, rfl, h1.valid.2, h3.valid.2,
    (h2.symm.trans hm).trans hp⟩

theorem _root_.Ystring.Spec.NoFold.transport {s s' p p' : Str} (h : NoFold p s) (hs : SameFold s s') (hp : SameFold p p') : NoFold p' s' := by
  intro i n hf
  obtain ⟨a, m, b, a', m', b', _, _, _, _, _, _, _, h'⟩ := FoldAt.transport hf hs.symm hp.symm
  exact h _ _ h'

/-- The first match has the first match as its counterpart. -/
theorem first_transport {s s' p p' : Str} {i n : Nat} (h : FoldAt s p i n) (hmin : ∀ j m, FoldAt s p j m → i ≤ j)
    (hs : SameFold s s') (hp : SameFold p p') :
    ∃ a m b a' m' b', s = a ++ m ++ b ∧ s' = a' ++ m' ++ b' ∧ a.length = i ∧ m.length = n ∧
      SameFold a a' ∧ SameFold m m' ∧ SameFold b b' ∧ FoldAt s' p' a'.length m'.length ∧
      ∀ j k, FoldAt s' p' j k → a'.length ≤ j := by
  obtain ⟨a, m, b, a', m', b', e, e', hi, hn, h1, h2, h3, h4⟩ := FoldAt.transport h hs hp
  refine ⟨a, m, b, a', m', b', e, e', hi, hn, h1, h2, h3, h4, ?_⟩
  intro j k hj
  obtain ⟨x', y', z', x, y, z, f', f, hj1, hj2, k1, k2, k3, k4⟩ := FoldAt.transport hj hs.symm hp.symm
  have := hmin _ _ k4
  rw [← hj1]
  refine SameFold.le h1 (h2.append h3) k1.symm (k2.append k3).symm ?_ ?_ (by omega)
  · rw [← List.append_assoc, ← List.append_assoc, ← e, ← f]
  · rw [← List.append_assoc, ← List.append_assoc, ← e', ← f']

theorem last_transport {s s' p p' : Str} {i n : Nat} (h : FoldAt s p i n) (hmax : ∀ j m, FoldAt s p j m → j + m ≤ i + n)
    (hs : SameFold s s') (hp : SameFold p p') :
    ∃ a m b a' m' b', s = a ++ m ++ b ∧ s' = a' ++ m' ++ b' ∧ a.length = i ∧ m.length = n ∧
      SameFold a a' ∧ SameFold m m' ∧ SameFold b b' ∧ FoldAt s' p' a'.length m'.length ∧
      ∀ j k, FoldAt s' p' j k → j + k ≤ a'.length + m'.length := by
  obtain ⟨a, m, b, a', m', b', e, e', hi, hn, h1, h2, h3, h4⟩ := FoldAt.transport h hs hp
  refine ⟨a, m, b, a', m', b', e, e', hi, hn, h1, h2, h3, h4, ?_⟩
  intro j k hj
  obtain ⟨x', y', z', x, y, z, f', f, hj1, hj2, k1, k2, k3, k4⟩ := FoldAt.transport hj hs.symm hp.symm
  have := hmax _ _ k4
  have := SameFold.le (k1.append k2).symm k3.symm (h1.append h2) h3 (by rw [← e, ← f]) (by rw [← e', ← f'])
    (by simp only [List.length_append]; omega)
  simp only [List.length_append] at this
  omega

/-! ### The theorems -/

theorem starts_iff {s p s' p' : Str} (hs : SameFold s s') (hp : SameFold p p')
    (h : ∃ m r, s = m ++ r ∧ Valid r ∧ SameFold m p) : ∃ m r, s' = m ++ r ∧ Valid r ∧ SameFold m p' := by
  obtain ⟨m, r, rfl, hr, hm⟩ := h
  obtain ⟨a, b, rfl, h1, h2⟩ := hs.cut hm.valid.1
  exact ⟨a, b, rfl, h2.valid.2, (h1.symm.trans hm).trans hp⟩

theorem ends_iff {s p s' p' : Str} (hs : SameFold s s') (hp : SameFold p p')
    (h : ∃ l m, s = l ++ m ∧ Valid l ∧ SameFold m p) : ∃ l m, s' = l ++ m ∧ Valid l ∧ SameFold m p' := by
  obtain ⟨m, r, rfl, hr, hm⟩ := h
  obtain ⟨a, b, rfl, h1, h2⟩ := hs.cut hr
  exact ⟨a, b, rfl, h1.valid.2, (h2.symm.trans hm).trans hp⟩

/-- C100: `starts_with` and `ends_with` give the same answer for equal arguments. -/
theorem C100_affixes {s s' p p' : Str} (hs : equal s s' = .ok true) (hp : equal p p' = .ok true) :
    startsWith s p = startsWith s' p' ∧ endsWith s p = endsWith s' p' := by
  rw [C100_equal_true] at hs hp
  constructor
  · obtain ⟨b, h1, h2⟩ := C46_starts_with hs.valid.1 hp.valid.1
    obtain ⟨b', h1', h2'⟩ := C46_starts_with hs.valid.2 hp.valid.2
    rw [h1, h1']
    congr 1
    rw [Bool.eq_iff_iff, h2, h2']
    exact ⟨starts_iff hs hp, starts_iff hs.symm hp.symm⟩
  · obtain ⟨b, h1, h2⟩ := C46_ends_with hs.valid.1 hp.valid.1
    obtain ⟨b', h1', h2'⟩ := C46_ends_with hs.valid.2 hp.valid.2
    rw [h1, h1']
    congr 1
    rw [Bool.eq_iff_iff, h2, h2']
    exact ⟨ends_iff hs hp, ends_iff hs.symm hp.symm⟩

/-- C100: `compare`, `less` and `equal` give the same answer for equal arguments. -/
theorem C100_order {s s' t t' : Str} (hs : equal s s' = .ok true) (ht : equal t t' = .ok true) :
    compare s t = compare s' t' ∧ less s t = less s' t' ∧ equal s t = equal s' t' := by
  rw [C100_equal_true] at hs ht
  obtain ⟨cs, cs', h1, h1', f⟩ := hs
  obtain ⟨ds, ds', h2, h2', g⟩ := ht
  obtain ⟨_, _, _, _, _, _, _, hl⟩ := C44_compare h1 h2
  obtain ⟨_, _, _, _, _, _, _, hl'⟩ := C44_compare h1' h2'
  rw [hl, hl', C43_equal h1 h2, C43_equal h1' h2', f, g]
  refine ⟨?_, rfl, rfl⟩
  have key : ∀ (cs cs' ds ds' : List Char32) (s s' t t' : Str) (n n' : Nat), Decodes s cs → Decodes s' cs' → Decodes t ds →
      Decodes t' ds' → fold cs = fold cs' → fold ds = fold ds' → s.length < n → s'.length < n' →
      compareLoop n s t = compareLoop n' s' t' := by
    intro cs
    induction cs with
    | nil =>
      intro cs' ds ds' s s' t t' n n' h1 h1' h2 h2' f g hn hn'
      cases cs' with
      | cons => simp [fold] at f
      | nil =>
        cases h1; cases h1'
        obtain ⟨n, rfl⟩ : ∃ m, n = m + 1 := ⟨n - 1, by simp at hn; omega⟩
        obtain ⟨n', rfl⟩ : ∃ m, n' = m + 1 := ⟨n' - 1, by simp at hn'; omega⟩
        rw [compareLoop, compareLoop]
        cases h2 with
        | nil => cases h2' with
          | nil => rfl
          | cons => simp [fold] at g
        | cons a b => cases h2' with
          | nil => simp [fold] at g
          | cons a' b' =>
            rw [safeDecodeNext_seq a, safeDecodeNext_seq a']
            simp [safeDecodeNext, bind, Except.bind]
    | cons c cs ih =>
      intro cs' ds ds' s s' t t' n n' h1 h1' h2 h2' f g hn hn'
      cases cs' with
      | nil => simp [fold] at f
      | cons c' cs' =>
        cases h1 with
        | @cons u w _ _ a1 b1 => cases h1' with
          | @cons u' w' _ _ a1' b1' =>
            obtain ⟨n, rfl⟩ : ∃ m, n = m + 1 := ⟨n - 1, by omega⟩
            obtain ⟨n', rfl⟩ : ∃ m, n' = m + 1 := ⟨n' - 1, by omega⟩
            rw [compareLoop, compareLoop]
            rw [safeDecodeNext_seq a1, safeDecodeNext_seq a1']
            cases h2 with
            | nil => cases h2' with
              | nil => simp [safeDecodeNext, bind, Except.bind]
              | cons => simp [fold] at g
            | @cons v x d ds a b => cases h2' with
              | nil => simp [fold] at g
              | @cons v' x' d' ds' a' b' =>
                rw [safeDecodeNext_seq a, safeDecodeNext_seq a']
                simp only [fold, List.map_cons, List.cons.injEq] at f g
                have e : caseInsensitiveCompare c d = caseInsensitiveCompare c' d' := by
                  rw [ciCompare_eq _ _ a1.lt a.lt, ciCompare_eq _ _ a1'.lt a'.lt, f.1, g.1]
                have l1 := a1.length_pos
                have l2 := a1'.length_pos
                simp only [List.length_append] at hn hn'
                simp only [bind, Except.bind]
                rw [e, ih cs' ds ds' w w' x x' n n' b1 b1' b b' f.2 g.2 (by omega) (by omega)]
  exact key cs cs' ds ds' s s' t t' _ _ h1 h1' h2 h2' f g (by omega) (by omega)

/-- C100: `find_first` finds corresponding parts of equal strings. -/
theorem C100_find_first {s s' p p' : Str} (hs : equal s s' = .ok true) (hp : equal p p' = .ok true) (q q' : Str) :
    (findFirst (q ++ s) p q.length = .ok ⟨npos, 0⟩ ∧ findFirst (q' ++ s') p' q'.length = .ok ⟨npos, 0⟩) ∨
    (∃ a m b a' m' b', s = a ++ m ++ b ∧ s' = a' ++ m' ++ b' ∧
      equal a a' = .ok true ∧ equal m m' = .ok true ∧ equal b b' = .ok true ∧
      findFirst (q ++ s) p q.length = .ok ⟨q.length + a.length, m.length⟩ ∧
      findFirst (q' ++ s') p' q'.length = .ok ⟨q'.length + a'.length, m'.length⟩) := by
  simp only [C100_equal_true] at *
  by_cases h0 : p = []
  · have h0' := hp.nil_iff.1 h0
    subst h0 h0'
    exact .inl ⟨(C45_find_first_corner _ [] _).1, (C45_find_first_corner _ [] _).1⟩
  · have h0' : p' ≠ [] := fun h => h0 (hp.nil_iff.2 h)
    rcases C45_find_first q s p hs.valid.1 hp.valid.1 h0 with ⟨h1, h2⟩ | ⟨i, n, h1, _, h2, h3⟩
    · rcases C45_find_first q' s' p' hs.valid.2 hp.valid.2 h0' with ⟨_, h4⟩ | ⟨i', n', h4, _⟩
      · exact .inl ⟨h2, h4⟩
      · exact absurd h4 (h1.transport hs hp _ _)
    · obtain ⟨a, m, b, a', m', b', e, e', rfl, rfl, k1, k2, k3, k4, k5⟩ := first_transport h1 h2 hs hp
      rcases C45_find_first q' s' p' hs.valid.2 hp.valid.2 h0' with ⟨h4, _⟩ | ⟨i', n', h4, _, h5, h6⟩
      · exact absurd k4 (h4 _ _)
      · have hi : i' = a'.length := by have := h5 _ _ k4; have := k5 _ _ h4; omega
        subst hi
        have hn := foldAt_unique h4 k4
        subst hn
        exact .inr ⟨a, m, b, a', m', b', e, e', k1, k2, k3, h3, h6⟩

/-- C100: `find_last` finds corresponding parts of equal strings. -/
theorem C100_find_last {s s' p p' : Str} (hs : equal s s' = .ok true) (hp : equal p p' = .ok true) (q q' : Str) :
    (findLast (s ++ q) p s.length = .ok ⟨npos, 0⟩ ∧ findLast (s' ++ q') p' s'.length = .ok ⟨npos, 0⟩) ∨
    (∃ a m b a' m' b', s = a ++ m ++ b ∧ s' = a' ++ m' ++ b' ∧
      equal a a' = .ok true ∧ equal m m' = .ok true ∧ equal b b' = .ok true ∧
      findLast (s ++ q) p s.length = .ok ⟨a.length, m.length⟩ ∧
      findLast (s' ++ q') p' s'.length = .ok ⟨a'.length, m'.length⟩) := by
  simp only [C100_equal_true] at *
  by_cases h0 : p = []
  · have h0' := hp.nil_iff.1 h0
    subst h0 h0'
    exact .inl ⟨rfl, rfl⟩
  · have h0' : p' ≠ [] := fun h => h0 (hp.nil_iff.2 h)
    have ho : min s.length (s ++ q).length = s.length := by simp
    have ho' : min s'.length (s' ++ q').length = s'.length := by simp
    rcases C45_find_last s q p hs.valid.1 hp.valid.1 h0 _ ho with ⟨h1, h2⟩ | ⟨i, n, h1, _, h2, h3⟩
    · rcases C45_find_last s' q' p' hs.valid.2 hp.valid.2 h0' _ ho' with ⟨_, h4⟩ | ⟨i', n', h4, _⟩
      · exact .inl ⟨h2, h4⟩
      · exact absurd h4 (h1.transport hs hp _ _)
    · obtain ⟨a, m, b, a', m', b', e, e', rfl, rfl, k1, k2, k3, k4, k5⟩ :=
        last_transport h1 (fun j m h => (h2 j m h).2) hs hp
      rcases C45_find_last s' q' p' hs.valid.2 hp.valid.2 h0' _ ho' with ⟨h4, _⟩ | ⟨i', n', h4, _, h5, h6⟩
      · exact absurd k4 (h4 _ _)
      · have he : i' + n' = a'.length + m'.length := by have := (h5 _ _ k4).2; have := k5 _ _ h4; omega
        have hn := foldAt_unique_end h4 k4 he
        subst hn
        have hi : i' = a'.length := by omega
        subst hi
        exact .inr ⟨a, m, b, a', m', b', e, e', k1, k2, k3, h3, h6⟩

/-- The cuts of equal strings correspond. -/
theorem splits_transport {p p' : Str} (hp : SameFold p p') {ig : Bool} {n : Nat} {s last : Str} {ps : List (Str × Str)}
    (h : Splits (FirstFold p) (NoFold p) ig n s ps last) : ∀ {s'}, SameFold s s' →
    ∃ (zs : List ((Str × Str) × (Str × Str))) (last' : Str), ps = zs.map (·.1) ∧
      Splits (FirstFold p') (NoFold p') ig n s' (zs.map (·.2)) last' ∧ SameFold last last' ∧
      ∀ z ∈ zs, SameFold z.1.1 z.2.1 ∧ SameFold z.1.2 z.2.2 := by
  induction h with
  | limit => intro s' hs; exact ⟨[], s', rfl, .limit, hs, by simp⟩
  | none h => intro s' hs; exact ⟨[], s', rfl, .none (h.transport hs hp), hs, by simp⟩
  | @hit n a m b last ps hf hne _ ih =>
    intro s' hs
    obtain ⟨a1, m1, b1, a', m', b', e, rfl, l1, l2, k1, k2, k3, k4, k5⟩ := first_transport hf.1 hf.2 hs hp
    simp only [List.append_assoc] at e
    obtain ⟨rfl, e2⟩ := List.append_inj e.symm l1
    obtain ⟨rfl, rfl⟩ := List.append_inj e2 l2
    obtain ⟨zs, last', rfl, h1, h2, h3⟩ := ih k3
    refine ⟨((a1, m1), (a', m')) :: zs, last', rfl, .hit ⟨k4, k5⟩ (fun h0 h1 => hne h0 (k1.nil_iff.2 h1)) h1, h2, ?_⟩
    intro z hz
    rcases List.mem_cons.1 hz with rfl | hz
    · exact ⟨k1, k2⟩
    · exact h3 z hz
  | @skip n m b last ps hf hig _ ih =>
    intro s' hs
    obtain ⟨a1, m1, b1, a', m', b', e, rfl, l1, l2, k1, k2, k3, k4, k5⟩ := first_transport hf.1 hf.2 hs hp
    simp only [List.append_assoc] at e
    obtain ⟨rfl, e2⟩ := List.append_inj e.symm l1
    obtain ⟨rfl, rfl⟩ := List.append_inj e2 l2
    obtain ⟨zs, last', rfl, h1, h2, h3⟩ := ih k3
    have ha' := k1.nil_iff.1 rfl
    subst ha'
    refine ⟨(([], m1), ([], m')) :: zs, last', rfl, .skip ⟨k4, k5⟩ hig h1, h2, ?_⟩
    intro z hz
    rcases List.mem_cons.1 hz with rfl | hz
    · exact ⟨k1, k2⟩
    · exact h3 z hz

theorem scanRight_transport {p p' : Str} (hp : SameFold p p') {n : Nat} {s last : Str} {ps : List (Str × Str)}
    (h : ScanFoldRight p n s last ps) : ∀ {s'}, SameFold s s' →
    ∃ (zs : List ((Str × Str) × (Str × Str))) (last' : Str), ps = zs.map (·.1) ∧
      ScanFoldRight p' n s' last' (zs.map (·.2)) ∧ SameFold last last' ∧
      ∀ z ∈ zs, SameFold z.1.1 z.2.1 ∧ SameFold z.1.2 z.2.2 := by
  induction h with
  | limit => intro s' hs; exact ⟨[], s', rfl, .limit, hs, by simp⟩
  | none h => intro s' hs; exact ⟨[], s', rfl, .none (h.transport hs hp), hs, by simp⟩
  | @hit n b m a last ps hf hmax _ ih =>
    intro s' hs
    obtain ⟨a1, m1, b1, a', m', b', e, rfl, l1, l2, k1, k2, k3, k4, k5⟩ := last_transport hf hmax hs hp
    simp only [List.append_assoc] at e
    obtain ⟨rfl, e2⟩ := List.append_inj e.symm l1
    obtain ⟨rfl, rfl⟩ := List.append_inj e2 l2
    obtain ⟨zs, last', rfl, h1, h2, h3⟩ := ih k1
    refine ⟨zs ++ [((m1, b1), (m', b'))], last', by simp, ?_, h2, ?_⟩
    · rw [List.map_append]; exact .hit k4 k5 h1
    intro z hz
    rcases List.mem_append.1 hz with hz | hz
    · exact h3 z hz
    · rw [List.mem_singleton.1 hz]; exact ⟨k2, k3⟩

/-- C100: `split` cuts equal strings into the same number of pieces, the pieces of one equal to those of the other. -/
theorem C100_split {s s' p p' : Str} (hs : equal s s' = .ok true) (hp : equal p p' = .ok true) (n : Nat)
    (ig : Bool) (hl : s.length < SIZE_MOD) (hl' : s'.length < SIZE_MOD) :
    ∃ zs : List (Str × Str), split s p ⟨n, ig⟩ = .ok (zs.map (·.1)) ∧ split s' p' ⟨n, ig⟩ = .ok (zs.map (·.2)) ∧
      ∀ z ∈ zs, equal z.1 z.2 = .ok true := by
  simp only [C100_equal_true] at *
  rcases Nat.eq_zero_or_pos n with rfl | hn
  · exact ⟨[], C38_zero _ _ _, C38_zero _ _ _, by simp⟩
  have hk : ∀ (ig : Bool) (zs : List (Str × Str)), (∀ z ∈ zs, SameFold z.1 z.2) →
      ∃ ys : List (Str × Str), keep ig (zs.map (·.1)) = ys.map (·.1) ∧ keep ig (zs.map (·.2)) = ys.map (·.2) ∧
        ∀ z ∈ ys, SameFold z.1 z.2 := by
    intro ig zs hz
    cases ig with
    | false => exact ⟨zs, by simp [keep], by simp [keep], hz⟩
    | true =>
      refine ⟨zs.filter (fun z => z.1 ≠ []), ?_, ?_, fun z h => hz z (List.mem_filter.1 h).1⟩
      · simp only [keep, if_true, List.filter_map]; rfl
      · simp only [keep, if_true, List.filter_map]
        congr 1
        apply List.filter_congr
        intro z h
        simp only [Function.comp]
        exact decide_eq_decide.2 (not_congr (hz z h).nil_iff.symm)
  by_cases h0 : p = []
  · have h0' := hp.nil_iff.1 h0
    subst h0 h0'
    rw [C47_split_empty s n hn ig hl, C47_split_empty s' n hn ig hl']
    obtain ⟨ys, h1, h2, h3⟩ := hk ig [(s, s')] (by simpa using hs)
    refine ⟨ys, ?_, ?_, h3⟩
    · rw [← h1]; rfl
    · rw [← h2]; rfl
  · have h0' : p' ≠ [] := fun h => h0 (hp.nil_iff.2 h)
    obtain ⟨ps, last, h1, h2⟩ := C47_split s p hs.valid.1 hp.valid.1 h0 n hn ig hl
    obtain ⟨ps', last', h1', h2'⟩ := C47_split s' p' hs.valid.2 hp.valid.2 h0' n hn ig hl'
    obtain ⟨zs, last2, rfl, h3, h4, h5⟩ := splits_transport hp h1 hs
    obtain ⟨rfl, rfl⟩ := C47_cuts_unique h1' h3
    obtain ⟨ys, k1, k2, k3⟩ := hk ig (zs.map (fun z => (z.1.1, z.2.1)) ++ [(last, last')]) (by
      intro z hz
      rcases List.mem_append.1 hz with hz | hz
      · obtain ⟨w, hw, rfl⟩ := List.mem_map.1 hz
        exact (h5 w hw).1
      · rw [List.mem_singleton.1 hz]; exact h4)
    refine ⟨ys, ?_, ?_, k3⟩
    · rw [h2, ← k1]; simp [List.map_map, Function.comp_def]
    · rw [h2', ← k2]; simp [List.map_map, Function.comp_def]

theorem sameFold_flatMap {α : Type} (f g : α → Str) (zs : List α) (h : ∀ z ∈ zs, SameFold (f z) (g z)) :
    SameFold (zs.flatMap f) (zs.flatMap g) := by
  induction zs with
  | nil => exact ⟨[], [], .nil, .nil, rfl⟩
  | cons z zs ih =>
    simp only [List.flatMap_cons]
    exact (h z (by simp)).append (ih fun w hw => h w (by simp [hw]))

/-- C100: `replace` of equal strings, with equal arguments, gives equal strings. -/
theorem C100_replace {s s' p p' t t' : Str} (hs : equal s s' = .ok true) (hp : equal p p' = .ok true)
    (ht : equal t t' = .ok true) (n : Int) (hl : s.length < SIZE_MOD) (hl' : s'.length < SIZE_MOD) :
    ∃ r r', replace s p t n = .ok r ∧ replace s' p' t' n = .ok r' ∧ equal r r' = .ok true := by
  simp only [C100_equal_true] at *
  by_cases h0 : p = []
  · have h0' := hp.nil_iff.1 h0
    subst h0 h0'
    exact ⟨s, s', C47_replace_empty s t n hl, C47_replace_empty s' t' n hl', hs⟩
  · have h0' : p' ≠ [] := fun h => h0 (hp.nil_iff.2 h)
    rcases Int.lt_or_le n 0 with hn | hn
    · obtain ⟨last, ps, h1, _, h2⟩ := C47_replace_right s p t hs.valid.1 hp.valid.1 h0 n hn hl
      obtain ⟨last', ps', h1', _, h2'⟩ := C47_replace_right s' p' t' hs.valid.2 hp.valid.2 h0' n hn hl'
      obtain ⟨zs, last2, rfl, h3, h4, h5⟩ := scanRight_transport hp h1 hs
      obtain ⟨rfl, rfl⟩ := C47_right_unique h1' h3
      refine ⟨_, _, h2, h2', h4.append ?_⟩
      rw [List.flatMap_map, List.flatMap_map]
      exact sameFold_flatMap _ _ zs fun z hz => ht.append (h5 z hz).2
    · obtain ⟨ps, last, h1, h2⟩ := C47_replace_left s p t hs.valid.1 hp.valid.1 h0 n hn hl
      obtain ⟨ps', last', h1', h2'⟩ := C47_replace_left s' p' t' hs.valid.2 hp.valid.2 h0' n hn hl'
      obtain ⟨zs, last2, rfl, h3, h4, h5⟩ := splits_transport hp h1 hs
      obtain ⟨rfl, rfl⟩ := C47_cuts_unique h1' h3
      refine ⟨_, _, h2, h2', SameFold.append ?_ h4⟩
      rw [List.flatMap_map, List.flatMap_map]
      exact sameFold_flatMap _ _ zs fun z hz => (h5 z hz).1.append ht

theorem first_in {P : Char32 → Prop} (cs : List Char32) :
    (∀ x ∈ cs, ¬ P x) ∨ ∃ xs c ys, cs = xs ++ c :: ys ∧ (∀ x ∈ xs, ¬ P x) ∧ P c := by
  induction cs with
  | nil => exact .inl (by simp)
  | cons c cs ih =>
    by_cases h : P c
    · exact .inr ⟨[], c, cs, rfl, by simp, h⟩
    · rcases ih with ih | ⟨xs, d, ys, rfl, h1, h2⟩
      · left; intro x hx; rcases List.mem_cons.1 hx with rfl | hx
        · exact h
        · exact ih x hx
      · right
        refine ⟨c :: xs, d, ys, rfl, ?_, h2⟩
        intro x hx; rcases List.mem_cons.1 hx with rfl | hx
        · exact h
        · exact h1 x hx

theorem last_in {P : Char32 → Prop} (cs : List Char32) :
    (∀ x ∈ cs, ¬ P x) ∨ ∃ xs c ys, cs = xs ++ c :: ys ∧ (∀ x ∈ ys, ¬ P x) ∧ P c := by
  rcases first_in (P := P) cs.reverse with h | ⟨xs, c, ys, e, h1, h2⟩
  · left; intro x hx; exact h x (by simpa using hx)
  · right
    refine ⟨ys.reverse, c, xs.reverse, ?_, fun x hx => h1 x (by simpa using hx), h2⟩
    rw [← List.reverse_reverse cs, e]; simp

theorem fold_none {P : Char32 → Prop} (hP : ∀ c d : Char32, simpleUpper c.toNat = simpleUpper d.toNat → (P c ↔ P d))
    {cs ds : List Char32} (h : fold cs = fold ds) (hn : ∀ x ∈ cs, ¬ P x) : ∀ x ∈ ds, ¬ P x := by
  intro x hx hp
  have : simpleUpper x.toNat ∈ fold ds := List.mem_map.2 ⟨x, hx, rfl⟩
  rw [← h] at this
  obtain ⟨y, hy, e⟩ := List.mem_map.1 this
  exact hn y hy ((hP y x e).2 hp)

theorem decodes_single {u : Str} {c : Char32} (h : Decodes u [c]) : IsSeq u c := by
  cases h with
  | cons h h' => cases h'; simpa using h

/-- One code point of one string has a counterpart in the other. -/
theorem sameFold_at {s s' : Str} {xs ys cs' : List Char32} {c : Char32} (h : Decodes s (xs ++ c :: ys)) (h' : Decodes s' cs')
    (f : fold (xs ++ c :: ys) = fold cs') :
    ∃ u v w u' v' w' xs' c' ys', s = u ++ v ++ w ∧ s' = u' ++ v' ++ w' ∧ cs' = xs' ++ c' :: ys' ∧
      Decodes u xs ∧ IsSeq v c ∧ Decodes w ys ∧ Decodes u' xs' ∧ IsSeq v' c' ∧ Decodes w' ys' ∧
      fold xs = fold xs' ∧ simpleUpper c.toNat = simpleUpper c'.toNat ∧ fold ys = fold ys' := by
  have h2 : Decodes s (xs ++ [c] ++ ys) := by simpa using h
  obtain ⟨u, v, w, rfl, hu, hv, hw⟩ := decodes_cut3 h2
  have f2 : cs'.map (fun c => simpleUpper c.toNat) = xs.map (fun c => simpleUpper c.toNat) ++
      (simpleUpper c.toNat :: ys.map (fun c => simpleUpper c.toNat)) := by
    simpa [fold] using f.symm
  obtain ⟨xs', r, rfl, e1, e2⟩ := List.map_eq_append_iff.1 f2
  obtain ⟨c', ys', rfl, e3, e4⟩ := List.map_eq_cons_iff.1 e2
  have h3 : Decodes s' (xs' ++ [c'] ++ ys') := by simpa using h'
  obtain ⟨u', v', w', rfl, hu', hv', hw'⟩ := decodes_cut3 h3
  exact ⟨u, v, w, u', v', w', xs', c', ys', rfl, rfl, rfl, hu, decodes_single hv, hw, hu', decodes_single hv', hw',
    e1.symm, e3.symm, e4.symm⟩

theorem sameFold_seq {v v' : Str} {c c' : Char32} (h : IsSeq v c) (h' : IsSeq v' c')
    (e : simpleUpper c.toNat = simpleUpper c'.toNat) : SameFold v v' :=
  ⟨[c], [c'], by simpa using Decodes.cons h .nil, by simpa using Decodes.cons h' .nil, by simp [fold, e]⟩

theorem listed_congr (chars : List Char32) (c d : Char32) (h : simpleUpper c.toNat = simpleUpper d.toNat) :
    Listed chars c ↔ Listed chars d := by
  unfold Listed; rw [h]

theorem inFoldedRange_congr (set : CodepointSet) (c d : Char32) (h : simpleUpper c.toNat = simpleUpper d.toNat) :
    InFoldedRange set c ↔ InFoldedRange set d := by
  unfold InFoldedRange; rw [h]

/-- C100: `find_first_of` finds corresponding code points of equal strings: with a list of characters, which may
itself be replaced by one that lists the same characters up to case, and with a set. -/
theorem C100_find_first_of {s s' : Str} (hs : equal s s' = .ok true) (q q' : Str)
    (f f' : Str → Nat → Res (Subrange × Char32))
    (hf : (∃ chars chars', (∀ c, Listed chars c ↔ Listed chars' c) ∧ (f = fun s o => findFirstOf s chars o) ∧
        f' = fun s o => findFirstOf s chars' o) ∨
      ∃ set, (f = fun s o => findFirstOfSet s set o) ∧ f' = f) :
    (f (q ++ s) q.length = .ok (⟨npos, 0⟩, INVALID_CHAR) ∧ f' (q' ++ s') q'.length = .ok (⟨npos, 0⟩, INVALID_CHAR)) ∨
    (∃ a v b a' v' b' c c', s = a ++ v ++ b ∧ s' = a' ++ v' ++ b' ∧
      equal a a' = .ok true ∧ equal v v' = .ok true ∧ equal b b' = .ok true ∧ IsSeq v c ∧ IsSeq v' c' ∧
      f (q ++ s) q.length = .ok (⟨q.length + a.length, v.length⟩, c) ∧
      f' (q' ++ s') q'.length = .ok (⟨q'.length + a'.length, v'.length⟩, c')) := by
  simp only [C100_equal_true] at *
  obtain ⟨cs, cs', h, h', e⟩ := hs
  obtain ⟨P, hP, k, k'⟩ : ∃ P : Char32 → Prop, (∀ c d : Char32, simpleUpper c.toNat = simpleUpper d.toNat → (P c ↔ P d)) ∧
      ((∃ chars, P = Listed chars ∧ f = fun s o => findFirstOf s chars o) ∨
        ∃ set, P = InFoldedRange set ∧ f = fun s o => findFirstOfSet s set o) ∧
      ((∃ chars, P = Listed chars ∧ f' = fun s o => findFirstOf s chars o) ∨
        ∃ set, P = InFoldedRange set ∧ f' = fun s o => findFirstOfSet s set o) := by
    rcases hf with ⟨chars, chars', h1, h2, h3⟩ | ⟨set, h1, h2⟩
    · exact ⟨_, listed_congr chars, .inl ⟨chars, rfl, h2⟩, .inl ⟨chars', funext fun c => propext (h1 c), h3⟩⟩
    · exact ⟨_, inFoldedRange_congr set, .inr ⟨set, rfl, h1⟩, .inr ⟨set, rfl, h2.trans h1⟩⟩
  obtain ⟨m1, m2, -⟩ := C67_find_first_of q s P f k
  obtain ⟨m1', m2', -⟩ := C67_find_first_of q' s' P f' k'
  rcases first_in (P := P) cs with hn | ⟨xs, c, ys, rfl, hx, hc⟩
  · exact .inl ⟨m2 cs h hn, m2' cs' h' (fold_none hP e hn)⟩
  · obtain ⟨u, v, w, u', v', w', xs', c', ys', es, es', rfl, hu, hv, hw, hu', hv', hw', e1, e2, e3⟩ := sameFold_at h h' e
    exact .inr ⟨u, v, w, u', v', w', c, c', es, es', ⟨xs, xs', hu, hu', e1⟩, sameFold_seq hv hv' e2,
      ⟨ys, ys', hw, hw', e3⟩, hv, hv', m1 u v w xs c es hu hx hv hc,
      m1' u' v' w' xs' c' es' hu' (fold_none hP e1 hx) hv' ((hP c c' e2).1 hc)⟩

/-- C100: `find_last_of` likewise. -/
theorem C100_find_last_of {s s' : Str} (hs : equal s s' = .ok true) (q q' : Str)
    (f f' : Str → Nat → Res (Subrange × Char32))
    (hf : (∃ chars chars', (∀ c, Listed chars c ↔ Listed chars' c) ∧ (f = fun s o => findLastOf s chars o) ∧
        f' = fun s o => findLastOf s chars' o) ∨
      ∃ set, (f = fun s o => findLastOfSet s set o) ∧ f' = f) :
    (f (s ++ q) s.length = .ok (⟨npos, 0⟩, INVALID_CHAR) ∧ f' (s' ++ q') s'.length = .ok (⟨npos, 0⟩, INVALID_CHAR)) ∨
    (∃ a v b a' v' b' c c', s = a ++ v ++ b ∧ s' = a' ++ v' ++ b' ∧
      equal a a' = .ok true ∧ equal v v' = .ok true ∧ equal b b' = .ok true ∧ IsSeq v c ∧ IsSeq v' c' ∧
      f (s ++ q) s.length = .ok (⟨a.length, v.length⟩, c) ∧
      f' (s' ++ q') s'.length = .ok (⟨a'.length, v'.length⟩, c')) := by
  simp only [C100_equal_true] at *
  obtain ⟨cs, cs', h, h', e⟩ := hs
  obtain ⟨P, hP, k, k'⟩ : ∃ P : Char32 → Prop, (∀ c d : Char32, simpleUpper c.toNat = simpleUpper d.toNat → (P c ↔ P d)) ∧
      ((∃ chars, P = Listed chars ∧ f = fun s o => findLastOf s chars o) ∨
        ∃ set, P = InFoldedRange set ∧ f = fun s o => findLastOfSet s set o) ∧
      ((∃ chars, P = Listed chars ∧ f' = fun s o => findLastOf s chars o) ∨
        ∃ set, P = InFoldedRange set ∧ f' = fun s o => findLastOfSet s set o) := by
    rcases hf with ⟨chars, chars', h1, h2, h3⟩ | ⟨set, h1, h2⟩
    · exact ⟨_, listed_congr chars, .inl ⟨chars, rfl, h2⟩, .inl ⟨chars', funext fun c => propext (h1 c), h3⟩⟩
    · exact ⟨_, inFoldedRange_congr set, .inr ⟨set, rfl, h1⟩, .inr ⟨set, rfl, h2.trans h1⟩⟩
  obtain ⟨m1, m2, -⟩ := C67_find_last_of s q s.length (by simp) P f k
  obtain ⟨m1', m2', -⟩ := C67_find_last_of s' q' s'.length (by simp) P f' k'
  rcases last_in (P := P) cs with hn | ⟨xs, c, ys, rfl, hx, hc⟩
  · exact .inl ⟨m2 cs h hn, m2' cs' h' (fold_none hP e hn)⟩
  · obtain ⟨u, v, w, u', v', w', xs', c', ys', es, es', rfl, hu, hv, hw, hu', hv', hw', e1, e2, e3⟩ := sameFold_at h h' e
    exact .inr ⟨u, v, w, u', v', w', c, c', es, es', ⟨xs, xs', hu, hu', e1⟩, sameFold_seq hv hv' e2,
      ⟨ys, ys', hw, hw', e3⟩, hv, hv', m1 u v w ys c es hw hx hv hc,
      m1' u' v' w' ys' c' es' hw' (fold_none hP e3 hx) hv' ((hP c c' e2).1 hc)⟩

-- "xaſb" and "XASB" (ſ is U+017F: two bytes), "ſ" and "s": the positions are the same, the lengths are not
example : equal [0x78, 0x61, 0xC5, 0xBF, 0x62] [0x58, 0x41, 0x53, 0x42] = .ok true ∧
    equal [0xC5, 0xBF] [0x73] = .ok true ∧
    findFirst [0x78, 0x61, 0xC5, 0xBF, 0x62] [0xC5, 0xBF] 0 = .ok ⟨2, 2⟩ ∧
    findFirst [0x58, 0x41, 0x53, 0x42] [0x73] 0 = .ok ⟨2, 1⟩ ∧
    split [0x78, 0x61, 0xC5, 0xBF, 0x62] [0xC5, 0xBF] ⟨1, false⟩ = .ok [[0x78, 0x61], [0x62]] ∧
    split [0x58, 0x41, 0x53, 0x42] [0x73] ⟨1, false⟩ = .ok [[0x58, 0x41], [0x42]] ∧
    replace [0x78, 0x61, 0xC5, 0xBF, 0x62] [0xC5, 0xBF] [0x79] (-1) = .ok [0x78, 0x61, 0x79, 0x62] ∧
    replace [0x58, 0x41, 0x53, 0x42] [0x73] [0x59] (-1) = .ok [0x58, 0x41, 0x59, 0x42] ∧
    startsWith [0x58, 0x41, 0x53, 0x42] [0x78] = .ok true ∧
    compare [0x78, 0x61, 0xC5, 0xBF, 0x62] [0x78, 0x62] = .ok (-1) := by
  decide +kernel

end CI
end Ystring
