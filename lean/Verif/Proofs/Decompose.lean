import Verif.Proofs.Encode
/- Decomposition of arbitrary byte strings into sequences; one-step lemmas for the decoders. -/
namespace Ystring
open Spec

/-! ### Units: the sequences of a string as a list -/

/-- A sequence together with its value. -/
abbrev Unit8 := Str × Char32

/-- all elements of `us` are sequences with their values -/
def Units (us : List Unit8) : Prop := ∀ x ∈ us, IsSeq x.1 x.2
/-- bytes of a list of units -/
def bytesOf (us : List Unit8) : Str := us.flatMap (·.1)
/-- values of a list of units -/
def valsOf (us : List Unit8) : List Char32 := us.map (·.2)

@[simp] theorem bytesOf_nil : bytesOf [] = [] := rfl
@[simp] theorem bytesOf_cons (x us) : bytesOf (x :: us) = x.1 ++ bytesOf us := rfl
@[simp] theorem bytesOf_append (us vs) : bytesOf (us ++ vs) = bytesOf us ++ bytesOf vs := by
  simp [bytesOf]
@[simp] theorem valsOf_nil : valsOf [] = [] := rfl
@[simp] theorem valsOf_cons (x us) : valsOf (x :: us) = x.2 :: valsOf us := rfl
@[simp] theorem valsOf_append (us vs) : valsOf (us ++ vs) = valsOf us ++ valsOf vs := by
  simp [valsOf]
@[simp] theorem Units.nil : Units [] := by simp [Units]
@[simp] theorem Units_cons {x us} : Units (x :: us) ↔ IsSeq x.1 x.2 ∧ Units us := by simp [Units]
@[simp] theorem Units_append {us vs} : Units (us ++ vs) ↔ Units us ∧ Units vs := by
  simp only [Units, List.mem_append, or_imp, forall_and]

theorem Units.decodes {us} (h : Units us) : Decodes (bytesOf us) (valsOf us) := by
  induction us with
  | nil => exact .nil
  | cons x us ih =>
    simp only [Units_cons] at h
    exact .cons h.1 (ih h.2)

theorem Spec.Decodes.units {s cs} (h : Decodes s cs) : ∃ us, Units us ∧ bytesOf us = s ∧ valsOf us = cs := by
  induction h with
  | nil => exact ⟨[], by simp⟩
  | @cons u s c cs h1 _ ih =>
    obtain ⟨us, h, rfl, rfl⟩ := ih
    exact ⟨(u, c) :: us, by simp [h1, h]⟩

theorem Spec.decodes_iff {s cs} : Decodes s cs ↔ ∃ us, Units us ∧ bytesOf us = s ∧ valsOf us = cs :=
  ⟨fun h => h.units, fun ⟨_, h, h1, h2⟩ => h1 ▸ h2 ▸ h.decodes⟩

theorem Spec.Valid.units {s} (h : Valid s) : ∃ us, Units us ∧ bytesOf us = s := by
  obtain ⟨_, h⟩ := h; obtain ⟨us, h, h1, _⟩ := h.units; exact ⟨us, h, h1⟩

theorem Units.valid {us} (h : Units us) : Valid (bytesOf us) := ⟨_, h.decodes⟩

/-! ### Decodes -/

theorem Spec.Decodes.append {s t cs ds} (h : Decodes s cs) (h' : Decodes t ds) :
    Decodes (s ++ t) (cs ++ ds) := by
  induction h with
  | nil => exact h'
  | cons h1 _ ih => rw [List.append_assoc]; exact .cons h1 ih

theorem Spec.IsSeq.decodes {u c} (h : IsSeq u c) : Decodes u [c] := by
  have := Decodes.cons h .nil; simpa using this

/-- no sequence can be extended on the right by a prefix-free code: units of a prefix -/
theorem units_prefix {us : List Unit8} (h : Units us) : ∀ {vs : List Unit8} {t s : Str}, Units vs →
    bytesOf us ++ t = bytesOf vs ++ s → us.length ≤ vs.length →
    ∃ ws, vs = us ++ ws ∧ t = bytesOf ws ++ s := by
  induction us with
  | nil => intro vs t s _ e _; exact ⟨vs, rfl, by simpa using e⟩
  | cons x us ih =>
    intro vs t s hv e hl
    cases vs with
    | nil => simp at hl
    | cons y vs =>
      simp only [Units_cons] at h hv
      simp only [bytesOf_cons, List.append_assoc] at e
      obtain ⟨e1, e2, e3⟩ := h.1.append_inj hv.1 e
      obtain ⟨ws, e4, e5⟩ := ih h.2 hv.2 e3 (by simpa using hl)
      exact ⟨ws, by rw [e4, ← Prod.eta x, ← Prod.eta y, e1, e2]; rfl, e5⟩

theorem units_unique {us vs : List Unit8} (h : Units us) (h' : Units vs)
    (e : bytesOf us = bytesOf vs) : us = vs := by
  rcases Nat.le_total us.length vs.length with hl | hl
  · obtain ⟨ws, rfl, e2⟩ := units_prefix (t := []) (s := []) h h' (by simpa using e) hl
    cases ws with
    | nil => simp
    | cons w ws =>
      simp at h' e2; exact absurd e2.1 h'.2.1.ne_nil
  · obtain ⟨ws, rfl, e2⟩ := units_prefix (t := []) (s := []) h' h (by simpa using e.symm) hl
    cases ws with
    | nil => simp
    | cons w ws =>
      simp at h e2; exact absurd e2.1 h.2.1.ne_nil

theorem Spec.Decodes.unique {s cs ds} (h : Decodes s cs) (h' : Decodes s ds) : cs = ds := by
  obtain ⟨us, h1, h2, h3⟩ := h.units
  obtain ⟨vs, h4, h5, h6⟩ := h'.units
  have := units_unique h1 h4 (by rw [h2, h5])
  rw [← h3, ← h6, this]

theorem Spec.IsSeq.hasPrefix {u c} (h : IsSeq u c) (t : Str) : HasSeqPrefix (u ++ t) := ⟨u, c, t, h, rfl⟩

theorem not_hasSeqPrefix_nil : ¬ HasSeqPrefix [] := by
  rintro ⟨u, c, t, h, e⟩
  have := h.ne_nil
  simp at e; exact this e.1

theorem not_hasSeqSuffix_nil : ¬ HasSeqSuffix [] := by
  rintro ⟨u, c, t, h, e⟩
  have := h.ne_nil
  simp at e; exact this e.2

theorem Spec.Decodes.nil_or {s cs} (h : Decodes s cs) : (s = [] ∧ cs = []) ∨
    ∃ u c t ds, IsSeq u c ∧ Decodes t ds ∧ s = u ++ t ∧ cs = c :: ds := by
  cases h with
  | nil => exact .inl ⟨rfl, rfl⟩
  | cons h1 h2 => exact .inr ⟨_, _, _, _, h1, h2, rfl, rfl⟩

/-- Every byte string is a valid string followed by a rest that is empty or starts with no sequence. -/
theorem splitUnits (s : Str) : ∃ us t, Units us ∧ s = bytesOf us ++ t ∧ ¬ HasSeqPrefix t := by
  induction h : s.length using Nat.strongRecOn generalizing s with
  | _ n ih =>
    by_cases hp : HasSeqPrefix s
    · obtain ⟨u, c, t, hu, rfl⟩ := hp
      have := hu.length_pos
      obtain ⟨us, t', h1, h2, h3⟩ := ih t.length (by rw [← h]; simp; omega) t rfl
      exact ⟨(u, c) :: us, t', by simp [h1, hu], by simp [h2], h3⟩
    · exact ⟨[], s, by simp, by simp, hp⟩

/-- A string with a bad rest is not valid. -/
theorem valid_bad_tail {us : List Unit8} {t : Str} (h : Units us) (ht : ¬ HasSeqPrefix t) :
    Valid (bytesOf us ++ t) ↔ t = [] := by
  constructor
  · intro hv
    obtain ⟨vs, hv, e⟩ := hv.units
    rcases Nat.le_total us.length vs.length with hl | hl
    · obtain ⟨ws, rfl, e2⟩ := units_prefix (t := t) (s := []) h hv (by simpa using e.symm) hl
      cases ws with
      | nil => simpa using e2
      | cons w ws =>
        simp at hv e2
        exact absurd (e2 ▸ hv.2.1.hasPrefix _) ht
    · obtain ⟨ws, rfl, e2⟩ := units_prefix (t := []) (s := t) hv h (by simpa using e) hl
      simp at e2; exact e2.2
  · rintro rfl; simpa using h.valid

/-! ### One step of the throwing decoders -/

@[simp] theorem safeDecodeNext_nil : safeDecodeNext [] = .ok none := rfl
theorem safeDecodeNext_seq {u c} (h : IsSeq u c) (t : Str) :
    safeDecodeNext (u ++ t) = .ok (some (c, t)) := by
  unfold safeDecodeNext
  rw [if_neg (by simp [h.ne_nil]), decodeNext_seq h]
  simp [bind, Except.bind, h.ne_invalid]
theorem safeDecodeNext_bad {s : Str} (h0 : s ≠ []) (h : ¬ HasSeqPrefix s) :
    safeDecodeNext s = .error .ystring := by
  unfold safeDecodeNext
  rw [if_neg h0, decodeNext_bad h]
  simp [bind, Except.bind]

@[simp] theorem safeDecodePrev_nil : safeDecodePrev [] = .ok none := rfl
theorem safeDecodePrev_seq {u c} (h : IsSeq u c) (t : Str) :
    safeDecodePrev (u.reverse ++ t) = .ok (some (c, t)) := by
  unfold safeDecodePrev
  rw [if_neg (by simp [h.ne_nil]), decodePrev_seq h]
  simp [bind, Except.bind, h.ne_invalid]
theorem safeDecodePrev_bad {s : Str} (h0 : s ≠ []) (h : ¬ HasSeqSuffix s) (h' : ¬ LongContRun s) :
    safeDecodePrev s.reverse = .error .ystring := by
  unfold safeDecodePrev
  rw [if_neg (by simpa using h0), decodePrev_bad h h']
  simp [bind, Except.bind]
theorem safeDecodePrev_ub {s : Str} (h' : LongContRun s) :
    safeDecodePrev s.reverse = .error .ub := by
  unfold safeDecodePrev
  have : s.reverse ≠ [] := by
    rintro e; obtain ⟨t, w, rfl, ht, _⟩ := h'; simp at e; exact ht e.2
  rw [if_neg this, decodePrev_ub h']
  simp [bind, Except.bind]

/-! ### Suffix decompositions -/

/-- In a valid string the last sequence can be found at the end. -/
theorem units_snoc {us : List Unit8} (h : us ≠ []) : ∃ vs x, us = vs ++ [x] :=
  ⟨us.dropLast, us.getLast h, (List.dropLast_concat_getLast h).symm⟩

/-- Two sequences that are suffixes of the same string are equal. -/
theorem Spec.IsSeq.append_inj' {u v c d s t} (h : IsSeq u c) (h' : IsSeq v d) (e : s ++ u = t ++ v) :
    u = v ∧ c = d ∧ s = t := by
  have e' : u.reverse ++ s.reverse = v.reverse ++ t.reverse := by
    simpa using congrArg List.reverse e
  have h1 := decodePrev_seq h s.reverse
  rw [e', decodePrev_seq h'] at h1
  injection h1 with h1
  injection h1 with h1 h2
  have h3 : s = t := by simpa using h2.symm
  subst h3
  exact ⟨by simpa using e, h1.symm, rfl⟩

/-- A valid string cut after a valid prefix leaves a valid suffix. -/
theorem valid_suffix {us vs : List Unit8} {t : Str} (h : Units us) (h' : Units vs)
    (e : bytesOf us ++ t = bytesOf vs) : ∃ ws, Units ws ∧ vs = us ++ ws ∧ t = bytesOf ws := by
  rcases Nat.le_total us.length vs.length with hl | hl
  · obtain ⟨ws, rfl, e2⟩ := units_prefix (t := t) (s := []) h h' (by simpa using e) hl
    exact ⟨ws, by simp at h'; exact h'.2, rfl, by simpa using e2⟩
  · obtain ⟨ws, rfl, e2⟩ := units_prefix (t := []) (s := t) h' h (by simpa using e.symm) hl
    have hn : bytesOf ws = [] ∧ t = [] := by simpa using e2
    have : ws = [] := by
      cases ws with
      | nil => rfl
      | cons w ws => simp at h hn; exact absurd hn.1.1 h.2.1.ne_nil
    subst this
    exact ⟨[], by simp, by simp, by simp [hn.2]⟩

end Ystring
