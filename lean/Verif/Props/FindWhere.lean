import Verif.Props.Find
/-
Property theorems C20 (find_first_where, find_first_of), C21 (find_last_where, find_last_of), C22 (newlines).
-/
namespace Ystring
open Spec

theorem find_cases (p : Char32 → Bool) (us : List Unit8) : (∀ x ∈ valsOf us, p x = false) ∨
    ∃ vs v ws, us = vs ++ v :: ws ∧ (∀ x ∈ valsOf vs, p x = false) ∧ p v.2 = true := by
  induction us with
  | nil => left; simp
  | cons x us ih =>
    by_cases hx : p x.2 = true
    · right; exact ⟨[], x, us, rfl, by simp, hx⟩
    · rcases ih with h | ⟨vs, v, ws, rfl, h1, h2⟩
      · left
        intro y hy
        rw [valsOf_cons, List.mem_cons] at hy
        rcases hy with rfl | hy
        · simpa using hx
        · exact h y hy
      · right
        refine ⟨x :: vs, v, ws, rfl, ?_, h2⟩
        intro y hy
        rw [valsOf_cons, List.mem_cons] at hy
        rcases hy with rfl | hy
        · simpa using hx
        · exact h1 y hy

theorem find_cases_last (p : Char32 → Bool) (us : List Unit8) : (∀ x ∈ valsOf us, p x = false) ∨
    ∃ vs v ws, us = vs ++ v :: ws ∧ (∀ x ∈ valsOf ws, p x = false) ∧ p v.2 = true := by
  induction us with
  | nil => left; simp
  | cons x us ih =>
    rcases ih with h | ⟨vs, v, ws, rfl, h1, h2⟩
    · by_cases hx : p x.2 = true
      · right; exact ⟨[], x, us, rfl, h, hx⟩
      · left
        intro y hy
        rw [valsOf_cons, List.mem_cons] at hy
        rcases hy with rfl | hy
        · simpa using hx
        · exact h y hy
    · right; exact ⟨x :: vs, v, ws, rfl, h1, h2⟩

/-! ### C20 -/

theorem findFirstWhereLoop_units (str : Str) (p : Char32 → Bool) (us : List Unit8) (h : Units us)
    (hp : ∀ x ∈ valsOf us, p x = false) (fuel : Nat) (t : Str) :
    findFirstWhereLoop str p (us.length + fuel) (bytesOf us ++ t) (bytesOf us ++ t) =
      findFirstWhereLoop str p fuel t t := by
  induction us with
  | nil => simp
  | cons x us ih =>
    rw [Units_cons] at h
    rw [List.length_cons, show us.length + 1 + fuel = (us.length + fuel) + 1 by omega, findFirstWhereLoop,
      bytesOf_cons, List.append_assoc, safeDecodeNext_seq h.1]
    simp only [bind, Except.bind]
    rw [if_neg (by simp [hp x.2 (by simp)]), ih h.2 (fun y hy => hp y (by simp [hy]))]

theorem findFirstWhere_run {str : Str} {p : Char32 → Bool} {a t : Str} {us : List Unit8} (h : Units us)
    (hp : ∀ x ∈ valsOf us, p x = false) (e : str = a ++ (bytesOf us ++ t)) :
    ∃ fuel, findFirstWhere str p a.length = findFirstWhereLoop str p (fuel + 1) t t := by
  have hl := units_length_le h
  refine ⟨str.length - us.length, ?_⟩
  unfold findFirstWhere iterAt
  rw [if_neg (by rw [e]; simp)]
  simp only [bind, Except.bind]
  rw [show str.drop a.length = bytesOf us ++ t by rw [e]; simp,
    show str.length + 1 = us.length + (str.length - us.length + 1) by rw [e]; simp; omega,
    findFirstWhereLoop_units str p us h hp]

/-- C20: what `find_first_where` returns when started at offset `a.length` of the string `a ++ b`.
(1) If `b` is a valid `u` without a hit followed by the sequence `v` of a hit: the range and value of the hit.
(2) If `b` is valid without a hit: an empty range at `npos` with `INVALID_CHAR`.
(3) If malformed bytes follow a valid `u` without a hit: an exception.
`C20_cases` shows that there are no other cases. -/
theorem C20_find_first_where (a b : Str) (p : Char32 → Bool) :
    (∀ u v t cs c, b = u ++ v ++ t → Decodes u cs → (∀ x ∈ cs, p x = false) → IsSeq v c → p c = true →
      findFirstWhere (a ++ b) p a.length = .ok (⟨a.length + u.length, v.length⟩, c)) ∧
    (∀ cs, Decodes b cs → (∀ x ∈ cs, p x = false) →
      findFirstWhere (a ++ b) p a.length = .ok (⟨npos, 0⟩, INVALID_CHAR)) ∧
    (∀ u t cs, b = u ++ t → Decodes u cs → (∀ x ∈ cs, p x = false) → t ≠ [] → ¬ HasSeqPrefix t →
      findFirstWhere (a ++ b) p a.length = .error .ystring) := by
  refine ⟨?_, ?_, ?_⟩
  · rintro u v t cs c rfl hu hp hv hc
    obtain ⟨us, h, rfl, rfl⟩ := hu.units
    obtain ⟨k, hk⟩ := findFirstWhere_run (a := a) (str := a ++ (bytesOf us ++ v ++ t)) (t := v ++ t) h hp (by simp)
    rw [hk, findFirstWhereLoop, safeDecodeNext_seq hv]
    simp only [bind, Except.bind]
    rw [if_pos hc]
    have e1 : posOf (a ++ (bytesOf us ++ v ++ t)) (v ++ t) = a.length + (bytesOf us).length := by
      simp [posOf]; omega
    have e2 : posOf (a ++ (bytesOf us ++ v ++ t)) t = a.length + (bytesOf us).length + v.length := by
      simp [posOf]; omega
    rw [e1, e2]; congr 3; omega
  · intro cs hb hp
    obtain ⟨us, h, rfl, rfl⟩ := hb.units
    obtain ⟨k, hk⟩ := findFirstWhere_run (a := a) (str := a ++ bytesOf us) (t := []) h hp (by simp)
    rw [hk, findFirstWhereLoop]; rfl
  · rintro u t cs rfl hu hp h0 ht
    obtain ⟨us, h, rfl, rfl⟩ := hu.units
    obtain ⟨k, hk⟩ := findFirstWhere_run (str := a ++ (bytesOf us ++ t)) (t := t) h hp rfl
    rw [hk, findFirstWhereLoop, safeDecodeNext_bad h0 ht]; rfl

/-- C20: the three cases cover every byte string; an offset past the end is undefined behaviour. -/
theorem C20_cases (b : Str) (p : Char32 → Bool) :
    (∃ u v t cs c, b = u ++ v ++ t ∧ Decodes u cs ∧ (∀ x ∈ cs, p x = false) ∧ IsSeq v c ∧ p c = true) ∨
    (∃ cs, Decodes b cs ∧ ∀ x ∈ cs, p x = false) ∨
    (∃ u t cs, b = u ++ t ∧ Decodes u cs ∧ (∀ x ∈ cs, p x = false) ∧ t ≠ [] ∧ ¬ HasSeqPrefix t) := by
  obtain ⟨us, t, h, rfl, ht⟩ := splitUnits b
  rcases find_cases p us with h1 | ⟨vs, v, ws, rfl, h1, h2⟩
  · by_cases h0 : t = []
    · right; left; exact ⟨_, by simpa [h0] using h.decodes, h1⟩
    · right; right; exact ⟨_, t, _, rfl, h.decodes, h1, h0, ht⟩
  · left
    simp at h
    exact ⟨bytesOf vs, v.1, bytesOf ws ++ t, valsOf vs, v.2, by simp, h.1.decodes, h1, h.2.1, h2⟩

theorem C20_offset_ub (s : Str) (p : Char32 → Bool) (offset : Nat) (h : s.length < offset) :
    findFirstWhere s p offset = .error .ub := by
  unfold findFirstWhere iterAt; rw [if_pos h]; rfl

theorem stdFindIf_length {α : Type} (p : α → Bool) (l : List α) : stdFindIf p l = l.length ↔ ∀ x ∈ l, p x = false := by
  induction l with
  | nil => simp [stdFindIf]
  | cons b t ih =>
    rw [stdFindIf]
    by_cases hb : p b = true
    · simp [hb]
    · simp [hb, ih]

/-- Membership in a `u32string_view` is membership in the list of its elements. -/
theorem u32Contains_iff (chars : List Char32) (c : Char32) : u32Contains chars c = true ↔ c ∈ chars := by
  unfold u32Contains
  rw [decide_eq_true_iff, Ne, stdFindIf_length]
  simp only [beq_eq_false_iff_ne]
  constructor
  · intro h; exact Classical.byContradiction fun h' => h fun x hx e => h' (e ▸ hx)
  · intro h h'; exact h' c h rfl

/-- C20: `find_first_of` is `find_first_where` for membership in the given characters, resp. in the set. -/
theorem C20_find_first_of (s : Str) (chars : List Char32) (set : CodepointSet) (offset : Nat) :
    (∀ p : Char32 → Bool, (∀ c, p c = true ↔ c ∈ chars) → findFirstOf s chars offset = findFirstWhere s p offset) ∧
    findFirstOfSet s set offset = findFirstWhere s set.contains offset := by
  refine ⟨fun p hp => ?_, rfl⟩
  unfold findFirstOf
  congr 1
  funext c
  rw [Bool.eq_iff_iff, u32Contains_iff, hp]

example : findFirstOf [0x41, 0xC3, 0xA6, 0x42] [0xE6, 0x43] 1 = .ok (⟨1, 2⟩, 0xE6) ∧
    findFirstOf [0x41, 0xC3, 0xA6, 0x42] [0xE6, 0x43] 3 = .ok (⟨npos, 0⟩, INVALID_CHAR) ∧
    findFirstOf [0x41, 0xC3, 0xA6, 0x42] [0xE6, 0x43] 2 = .error .ystring := by decide +kernel

/-! ### C21 -/

theorem findLastWhereLoop_units (p : Char32 → Bool) (us : List Unit8) (h : Units us)
    (hp : ∀ x ∈ valsOf us, p x = false) (fuel : Nat) (t : Str) :
    findLastWhereLoop p (us.length + fuel) ((bytesOf us).reverse ++ t) ((bytesOf us).reverse ++ t) =
      findLastWhereLoop p fuel t t := by
  induction hn : us.length generalizing us with
  | zero => have := List.length_eq_zero_iff.mp hn; subst this; simp
  | succ n ih =>
    obtain ⟨vs, v, rfl⟩ := units_snoc (us := us) (by rintro rfl; simp at hn)
    simp at h hp hn
    rw [show n + 1 + fuel = (n + fuel) + 1 by omega, findLastWhereLoop,
      bytesOf_append, List.reverse_append, bytesOf_cons, bytesOf_nil, List.append_nil, List.append_assoc,
      safeDecodePrev_seq h.2]
    simp only [bind, Except.bind]
    rw [if_neg (by simp [hp v.2 (.inr rfl)]), ih vs h.1 (fun y hy => hp y (.inl hy)) hn]

theorem findLastWhere_run {str : Str} {p : Char32 → Bool} {t b : Str} {us : List Unit8} (h : Units us)
    (hp : ∀ x ∈ valsOf us, p x = false) (e : str = t ++ bytesOf us ++ b) {offset : Nat}
    (ho : min offset str.length = (t ++ bytesOf us).length) :
    ∃ fuel, findLastWhere str p offset = findLastWhereLoop p (fuel + 1) t.reverse t.reverse := by
  have hl := units_length_le h
  refine ⟨str.length - us.length, ?_⟩
  unfold findLastWhere
  simp only
  rw [ho, show str.take (t ++ bytesOf us).length = t ++ bytesOf us by rw [e, List.take_left],
    show str.length + 1 = us.length + (str.length - us.length + 1) by rw [e]; simp; omega,
    List.reverse_append, findLastWhereLoop_units p us h hp]

/-- C21: what `find_last_where` returns on the string `a ++ b` for an offset that cuts it after `a` (an offset
past the end stands for the end).
(1) If `a` ends with the sequence `v` of a hit followed by a valid `w` without a hit: its range and value.
(2) If `a` is valid without a hit: an empty range at `npos` with `INVALID_CHAR`.
(3) If malformed bytes precede a valid `w` without a hit: an exception (or, if they are seven or more
continuation bytes, undefined behaviour, see C06).
`C21_cases` shows that there are no other cases. -/
theorem C21_find_last_where (a b : Str) (p : Char32 → Bool) (offset : Nat)
    (ho : min offset (a ++ b).length = a.length) :
    (∀ t v w cs c, a = t ++ v ++ w → Decodes w cs → (∀ x ∈ cs, p x = false) → IsSeq v c → p c = true →
      findLastWhere (a ++ b) p offset = .ok (⟨t.length, v.length⟩, c)) ∧
    (∀ cs, Decodes a cs → (∀ x ∈ cs, p x = false) →
      findLastWhere (a ++ b) p offset = .ok (⟨npos, 0⟩, INVALID_CHAR)) ∧
    (∀ t w cs, a = t ++ w → Decodes w cs → (∀ x ∈ cs, p x = false) → t ≠ [] → ¬ HasSeqSuffix t →
      (¬ LongContRun t → findLastWhere (a ++ b) p offset = .error .ystring) ∧
      (LongContRun t → findLastWhere (a ++ b) p offset = .error .ub)) := by
  refine ⟨?_, ?_, ?_⟩
  · rintro t v w cs c rfl hw hp hv hc
    obtain ⟨us, h, rfl, rfl⟩ := hw.units
    obtain ⟨k, hk⟩ := findLastWhere_run (t := t ++ v) h hp rfl ho
    rw [hk, findLastWhereLoop, List.reverse_append, safeDecodePrev_seq hv]
    simp only [bind, Except.bind]
    rw [if_pos hc]
    simp
  · intro cs hb hp
    obtain ⟨us, h, rfl, rfl⟩ := hb.units
    obtain ⟨k, hk⟩ := findLastWhere_run (t := []) h hp rfl ho
    have e : ([] : Str) ++ bytesOf us ++ b = bytesOf us ++ b := by simp
    rw [e] at hk
    rw [hk, findLastWhereLoop]; rfl
  · rintro t w cs rfl hu hp h0 ht
    obtain ⟨us, h, rfl, rfl⟩ := hu.units
    obtain ⟨k, hk⟩ := findLastWhere_run (t := t) h hp rfl ho
    rw [hk, findLastWhereLoop]
    refine ⟨fun hl => ?_, fun hl => ?_⟩
    · rw [safeDecodePrev_bad h0 ht hl]; rfl
    · rw [safeDecodePrev_ub hl]; rfl

/-- Every byte string is a rest that is empty or ends with no sequence followed by a valid string. -/
theorem decompose_back (s : Str) : ∃ us t, Units us ∧ s = t ++ bytesOf us ∧ ¬ HasSeqSuffix t := by
  induction h : s.length using Nat.strongRecOn generalizing s with
  | _ n ih =>
    by_cases hp : HasSeqSuffix s
    · obtain ⟨u, c, t, hu, rfl⟩ := hp
      have := hu.length_pos
      obtain ⟨us, t', h1, h2, h3⟩ := ih t.length (by rw [← h]; simp; omega) t rfl
      exact ⟨us ++ [(u, c)], t', by simp [h1, hu], by simp [h2], h3⟩
    · exact ⟨[], s, by simp, by simp, hp⟩

/-- C21: the three cases cover every byte string. -/
theorem C21_cases (a : Str) (p : Char32 → Bool) :
    (∃ t v w cs c, a = t ++ v ++ w ∧ Decodes w cs ∧ (∀ x ∈ cs, p x = false) ∧ IsSeq v c ∧ p c = true) ∨
    (∃ cs, Decodes a cs ∧ ∀ x ∈ cs, p x = false) ∨
    (∃ t w cs, a = t ++ w ∧ Decodes w cs ∧ (∀ x ∈ cs, p x = false) ∧ t ≠ [] ∧ ¬ HasSeqSuffix t) := by
  obtain ⟨us, t, h, rfl, ht⟩ := decompose_back a
  rcases find_cases_last p us with h1 | ⟨vs, v, ws, rfl, h1, h2⟩
  · by_cases h0 : t = []
    · right; left; exact ⟨_, by simpa [h0] using h.decodes, h1⟩
    · right; right; exact ⟨t, _, _, rfl, h.decodes, h1, h0, ht⟩
  · left
    simp at h
    exact ⟨t ++ bytesOf vs, v.1, bytesOf ws, valsOf ws, v.2, by simp, h.2.2.decodes, h1, h.2.1, h2⟩

/-- C21: `find_last_of` is `find_last_where` for membership in the given characters, resp. in the set. -/
theorem C21_find_last_of (s : Str) (chars : List Char32) (set : CodepointSet) (offset : Nat) :
    (∀ p : Char32 → Bool, (∀ c, p c = true ↔ c ∈ chars) → findLastOf s chars offset = findLastWhere s p offset) ∧
    findLastOfSet s set offset = findLastWhere s set.contains offset := by
  refine ⟨fun p hp => ?_, rfl⟩
  unfold findLastOf
  congr 1
  funext c
  rw [Bool.eq_iff_iff, u32Contains_iff, hp]

example : findLastOf [0x43, 0xC3, 0xA6, 0x42] [0xE6, 0x43] = .ok (⟨1, 2⟩, 0xE6) ∧
    findLastOf [0x43, 0xC3, 0xA6, 0x42] [0xE6, 0x43] 1 = .ok (⟨0, 1⟩, 0x43) ∧
    findLastOf [0x41, 0xC3, 0xA6, 0x42] [0x43] = .ok (⟨npos, 0⟩, INVALID_CHAR) ∧
    findLastOf [0x41, 0xC3, 0xA6, 0x42] [0x43] 2 = .error .ystring := by decide +kernel

/-! ### C22 -/

theorem newlines_iff (c : Char32) : u32Contains NEWLINES c = true ↔ IsNewlineChar c := by
  rw [u32Contains_iff]
  simp [NEWLINES, IsNewlineChar, NEXT_LINE, LINE_SEPARATOR, PARAGRAPH_SEPARATOR]

theorem newlines_false (c : Char32) : u32Contains NEWLINES c = false ↔ ¬ IsNewlineChar c := by
  rw [← newlines_iff, Bool.not_eq_true]

/-- C22, forward: in `a ++ b` with valid `b`, starting after `a`: if `b` is newline-free text `u` followed by the
newline `nl` (where a lone CR is not followed by LF, i.e. CR LF is taken as one newline), the range of `nl` is
returned, and if `b` has no newline an empty range. Partial: assumes that the scan of the non-terminated array
`NEWLINES` meets a zero right behind it (`mem = []`). -/
theorem C22_find_first_newline_partial (a b : Str) (hlen : (a ++ b).length < SIZE_MOD) :
    (∀ u nl t cs ds, b = u ++ nl ++ t → Decodes u cs → (∀ x ∈ cs, ¬ IsNewlineChar x) → IsNewline nl →
      Decodes t ds → (∀ c, IsSeq nl c → c = 0x0D → ∀ x xs, ds = x :: xs → x ≠ 0x0A) →
      findFirstNewline [] (a ++ b) a.length = .ok ⟨a.length + u.length, nl.length⟩) ∧
    (∀ cs, Decodes b cs → (∀ x ∈ cs, ¬ IsNewlineChar x) →
      findFirstNewline [] (a ++ b) a.length = .ok ⟨npos, 0⟩) := by
  have hv : ∀ {l : List Char32}, (∀ x ∈ l, ¬ IsNewlineChar x) → ∀ x ∈ l, u32Contains NEWLINES x = false :=
    fun h x hx => (newlines_false x).mpr (h x hx)
  have stop : ∀ (o n : Nat), o + n ≤ (a ++ b).length → Subrange.stop ⟨o, n⟩ = o + n := by
    intro o n h; unfold Subrange.stop sizeAdd; simp only; rw [Nat.mod_eq_of_lt (by omega)]
  constructor
  · intro u nl t cs ds e hu hcs hnl ht hcr
    unfold findFirstNewline findFirstOf pointerView
    rw [List.append_nil]
    rcases hnl with ⟨n1, n2, rfl, hn1, hn2⟩ | ⟨c, hc, hseq⟩
    · have := (C20_find_first_where a b (u32Contains NEWLINES)).1 u n1 (n2 ++ t) cs 0x0D (by rw [e]; simp) hu
        (hv hcs) hn1 (by decide +kernel)
      rw [this]
      simp only [bind, Except.bind]
      have hl : (a ++ b).length = a.length + u.length + n1.length + n2.length + t.length := by rw [e]; simp; omega
      rw [if_neg (by simp), stop _ _ (by omega)]
      unfold iterAt
      rw [if_neg (by omega)]
      simp only
      have hd : (a ++ b).drop (a.length + u.length + n1.length) = n2 ++ t := by
        rw [e, show a ++ (u ++ (n1 ++ n2) ++ t) = (a ++ u ++ n1) ++ (n2 ++ t) by simp]
        apply List.drop_left'
        simp; omega
      rw [hd, safeDecodeNext_seq hn2]
      simp only [if_pos]
      have : posOf (a ++ b) t = a.length + u.length + n1.length + n2.length := by unfold posOf; omega
      rw [this]
      unfold Subrange.start sizeSub
      simp only
      rw [show a.length + u.length + n1.length + n2.length + SIZE_MOD - (a.length + u.length) =
        (n1 ++ n2).length + SIZE_MOD by simp; omega, Nat.add_mod_right, Nat.mod_eq_of_lt (by simp; omega)]
    · have := (C20_find_first_where a b (u32Contains NEWLINES)).1 u nl t cs c e hu
        (hv hcs) hseq ((newlines_iff c).mpr hc)
      rw [this]
      simp only [bind, Except.bind]
      by_cases h13 : c = 0x0D
      · subst h13
        have hl : (a ++ b).length = a.length + u.length + nl.length + t.length := by rw [e]; simp; omega
        rw [if_neg (by simp), stop _ _ (by omega)]
        unfold iterAt
        rw [if_neg (by omega)]
        simp only
        have hd : (a ++ b).drop (a.length + u.length + nl.length) = t := by
          rw [e, ← List.append_assoc, ← List.append_assoc]
          apply List.drop_left'
          simp; omega
        rw [hd]
        rcases ht.nil_or with ⟨rfl, rfl⟩ | ⟨v, x, t', xs, h1, h2, rfl, rfl⟩
        · rfl
        · rw [safeDecodeNext_seq h1]
          simp only
          rw [if_neg (hcr _ hseq rfl x xs rfl)]
      · rw [if_pos h13]
  · intro cs hb hcs
    unfold findFirstNewline findFirstOf pointerView
    rw [List.append_nil, (C20_find_first_where a b (u32Contains NEWLINES)).2.1 cs hb (hv hcs)]
    rfl

/-- C22, backward: in `a ++ b` with valid `a`, for an offset that cuts after `a`: if `a` is `t`, the newline
`nl`, newline-free text `u` (where a lone LF is not preceded by CR), the range of `nl` is returned, and if `a` has
no newline an empty range. Partial: see `C22_find_first_newline_partial`. -/
theorem C22_find_last_newline_partial (a b : Str) (offset : Nat) (ho : min offset (a ++ b).length = a.length)
    (hlen : (a ++ b).length < SIZE_MOD) :
    (∀ t nl u cs ds, a = t ++ nl ++ u → Decodes u cs → (∀ x ∈ cs, ¬ IsNewlineChar x) → IsNewline nl →
      Decodes t ds → (∀ c, IsSeq nl c → c = 0x0A → ∀ x xs, ds = xs ++ [x] → x ≠ 0x0D) →
      findLastNewline [] (a ++ b) offset = .ok ⟨t.length, nl.length⟩) ∧
    (∀ cs, Decodes a cs → (∀ x ∈ cs, ¬ IsNewlineChar x) →
      findLastNewline [] (a ++ b) offset = .ok ⟨npos, 0⟩) := by
  have hv : ∀ {l : List Char32}, (∀ x ∈ l, ¬ IsNewlineChar x) → ∀ x ∈ l, u32Contains NEWLINES x = false :=
    fun h x hx => (newlines_false x).mpr (h x hx)
  have stop : ∀ (o n : Nat), o + n ≤ (a ++ b).length → Subrange.stop ⟨o, n⟩ = o + n := by
    intro o n h; unfold Subrange.stop sizeAdd; simp only; rw [Nat.mod_eq_of_lt (by omega)]
  constructor
  · intro t nl u cs ds e hu hcs hnl ht hcr
    unfold findLastNewline findLastOf pointerView
    rw [List.append_nil]
    rcases hnl with ⟨n1, n2, rfl, hn1, hn2⟩ | ⟨c, hc, hseq⟩
    · have := (C21_find_last_where a b (u32Contains NEWLINES) offset ho).1 (t ++ n1) n2 u cs 0x0A
        (by rw [e]; simp) hu (hv hcs) hn2 (by decide +kernel)
      rw [this]
      simp only [bind, Except.bind]
      have hl : (a ++ b).length = t.length + n1.length + n2.length + u.length + b.length := by rw [e]; simp; omega
      rw [if_neg (by simp), stop _ _ (by simp at hl ⊢; omega)]
      unfold revIterAt Subrange.start
      rw [if_neg (by simp at hl ⊢; omega)]
      simp only
      have hd : (a ++ b).take (t ++ n1).length = t ++ n1 := by
        rw [e, show t ++ (n1 ++ n2) ++ u ++ b = (t ++ n1) ++ (n2 ++ u ++ b) by simp]
        exact List.take_left
      rw [hd, List.reverse_append, safeDecodePrev_seq hn1]
      simp only [if_pos, List.length_reverse]
      unfold sizeSub
      rw [show (t ++ n1).length + n2.length + SIZE_MOD - t.length = (n1 ++ n2).length + SIZE_MOD by simp; omega,
        Nat.add_mod_right, Nat.mod_eq_of_lt (by simp; omega)]
    · have := (C21_find_last_where a b (u32Contains NEWLINES) offset ho).1 t nl u cs c e hu
        (hv hcs) hseq ((newlines_iff c).mpr hc)
      rw [this]
      simp only [bind, Except.bind]
      by_cases h10 : c = 0x0A
      · subst h10
        have hl : (a ++ b).length = t.length + nl.length + u.length + b.length := by rw [e]; simp; omega
        rw [if_neg (by simp)]
        unfold revIterAt Subrange.start
        rw [if_neg (by simp only; omega)]
        simp only
        have hd : (a ++ b).take t.length = t := by
          rw [e, List.append_assoc, List.append_assoc]
          exact List.take_left
        rw [hd]
        obtain ⟨us, hus, rfl, rfl⟩ := ht.units
        by_cases h0 : us = []
        · subst h0; rfl
        · obtain ⟨vs, v, rfl⟩ := units_snoc h0
          simp at hus
          rw [bytesOf_append, bytesOf_cons, bytesOf_nil, List.append_nil, List.reverse_append, safeDecodePrev_seq hus.2]
          simp only
          rw [if_neg (hcr _ hseq rfl v.2 (valsOf vs) (by simp))]
      · rw [if_pos h10]
  · intro cs hb hcs
    unfold findLastNewline findLastOf pointerView
    rw [List.append_nil, (C21_find_last_where a b (u32Contains NEWLINES) offset ho).2.1 cs hb (hv hcs)]
    rfl

/-- C22: every valid string either has no newline or has a first (last) newline as described above. -/
theorem C22_cases (s : Str) (hs : Valid s) :
    ((∃ cs, Decodes s cs ∧ ∀ x ∈ cs, ¬ IsNewlineChar x) ∨
      ∃ u nl t cs ds, s = u ++ nl ++ t ∧ Decodes u cs ∧ (∀ x ∈ cs, ¬ IsNewlineChar x) ∧ IsNewline nl ∧
        Decodes t ds ∧ ∀ c, IsSeq nl c → c = 0x0D → ∀ x xs, ds = x :: xs → x ≠ 0x0A) ∧
    ((∃ cs, Decodes s cs ∧ ∀ x ∈ cs, ¬ IsNewlineChar x) ∨
      ∃ t nl u cs ds, s = t ++ nl ++ u ∧ Decodes u cs ∧ (∀ x ∈ cs, ¬ IsNewlineChar x) ∧ IsNewline nl ∧
        Decodes t ds ∧ ∀ c, IsSeq nl c → c = 0x0A → ∀ x xs, ds = xs ++ [x] → x ≠ 0x0D) := by
  obtain ⟨us, h, rfl⟩ := hs.units
  have two : ∀ {u v c d e}, IsSeq u c → IsSeq v d → ¬ IsSeq (u ++ v) e := by
    intro u v c d e h1 h2 h3
    have := h1.append_inj (s := v) (t := []) h3 (by simp)
    exact h2.ne_nil this.2.2
  constructor
  · rcases find_cases (u32Contains NEWLINES) us with h1 | ⟨vs, v, ws, rfl, h1, h2⟩
    · left; exact ⟨_, h.decodes, fun x hx => (newlines_false x).mp (h1 x hx)⟩
    · right
      simp at h
      have hc := (newlines_iff _).mp h2
      have h1' : ∀ x ∈ valsOf vs, ¬ IsNewlineChar x := fun x hx => (newlines_false x).mp (h1 x hx)
      cases ws with
      | nil => exact ⟨bytesOf vs, v.1, [], _, [], by simp, h.1.decodes, h1', .inr ⟨_, hc, h.2.1⟩, .nil, by simp⟩
      | cons w ws =>
        simp at h
        by_cases hcr : v.2 = 0x0D ∧ w.2 = 0x0A
        · refine ⟨bytesOf vs, v.1 ++ w.1, bytesOf ws, _, _, by simp, h.1.decodes, h1',
            .inl ⟨v.1, w.1, rfl, hcr.1 ▸ h.2.1, hcr.2 ▸ h.2.2.1⟩, h.2.2.2.decodes, ?_⟩
          intro c hc; exact absurd hc (two h.2.1 h.2.2.1)
        · refine ⟨bytesOf vs, v.1, bytesOf (w :: ws), _, valsOf (w :: ws), by simp, h.1.decodes, h1', .inr ⟨_, hc, h.2.1⟩,
            Units.decodes (by simp [h.2.2]), ?_⟩
          intro c hc' e x xs ex
          simp at ex
          rw [← ex.1]
          intro e2
          exact hcr ⟨(h.2.1.unique hc').trans e, e2⟩
  · rcases find_cases_last (u32Contains NEWLINES) us with h1 | ⟨vs, v, ws, rfl, h1, h2⟩
    · left; exact ⟨_, h.decodes, fun x hx => (newlines_false x).mp (h1 x hx)⟩
    · right
      simp at h
      have hc := (newlines_iff _).mp h2
      have h1' : ∀ x ∈ valsOf ws, ¬ IsNewlineChar x := fun x hx => (newlines_false x).mp (h1 x hx)
      by_cases h0 : vs = []
      · subst h0
        exact ⟨[], v.1, bytesOf ws, _, [], by simp, h.2.2.decodes, h1', .inr ⟨_, hc, h.2.1⟩, .nil, by simp⟩
      · obtain ⟨vs, w, rfl⟩ := units_snoc h0
        simp at h
        by_cases hcr : v.2 = 0x0A ∧ w.2 = 0x0D
        · refine ⟨bytesOf vs, w.1 ++ v.1, bytesOf ws, _, _, by simp, h.2.2.decodes, h1',
            .inl ⟨w.1, v.1, rfl, hcr.2 ▸ h.1.2, hcr.1 ▸ h.2.1⟩, h.1.1.decodes, ?_⟩
          intro c hc; exact absurd hc (two h.1.2 h.2.1)
        · refine ⟨bytesOf (vs ++ [w]), v.1, bytesOf ws, _, valsOf (vs ++ [w]), by simp, h.2.2.decodes, h1', .inr ⟨_, hc, h.2.1⟩,
            Units.decodes (by simp [h.1]), ?_⟩
          intro c hc' e x xs ex
          simp at ex
          rw [← ex.2]
          intro e2
          exact hcr ⟨(h.2.1.unique hc').trans e, e2⟩

/-- C22 depends on the memory behind the array `NEWLINES`: if it is 'A' followed by zero, "A" is reported as a
newline. -/
theorem C22_false : findFirstNewline [0x41] [0x41] = .ok ⟨0, 1⟩ ∧ findLastNewline [0x41] [0x41] = .ok ⟨0, 1⟩ ∧
    ¬ IsNewlineChar 0x41 := by
  refine ⟨by decide +kernel, by decide +kernel, ?_⟩
  unfold IsNewlineChar; decide

example : findFirstNewline [] [0x41, 0x0D, 0x0A, 0x42] = .ok ⟨1, 2⟩ ∧
    findFirstNewline [] [0x41, 0xE2, 0x80, 0xA8] = .ok ⟨1, 3⟩ ∧
    findFirstNewline [] [0x41, 0x0D, 0x41] = .ok ⟨1, 1⟩ ∧
    findLastNewline [] [0x41, 0x0D, 0x0A, 0x42] = .ok ⟨1, 2⟩ := by decide +kernel

end Ystring
