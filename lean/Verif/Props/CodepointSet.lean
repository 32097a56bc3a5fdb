import Verif.Spec.CodepointSet
import Verif.Proofs.CaseInsensitive
/-
Property theorems C48 (CodepointSet behaves like a set) and C49 (case-insensitive membership).
-/
namespace Ystring
open Spec

/-- the model of an operation -/
def applyOp (set : CodepointSet) : SetOp → CodepointSet
  | .range a b => set.addRange a b
  | .codepoint c => set.addCodepoint c
  | .codepoints cs => set.addCodepoints cs

/-- a history of operations -/
def applyOps (set : CodepointSet) (ops : List SetOp) : CodepointSet := ops.foldl applyOp set

/-- membership in the ranges -/
def InRanges (rs : List (Char32 × Char32)) (c : Char32) : Prop := ∃ r ∈ rs, r.1 ≤ c ∧ c ≤ r.2

/-- all ranges are ordered and end below 0xFFFFFFFF -/
def GoodRanges (rs : List (Char32 × Char32)) : Prop := ∀ r ∈ rs, r.1 ≤ r.2 ∧ r.2 < 0xFFFFFFFF

theorem contains_iff (set : CodepointSet) (c : Char32) :
    set.contains c = true ↔ (InRanges set.ranges c ↔ set.negated = false) := by
  unfold CodepointSet.contains
  have : set.ranges.any (fun r => decide (r.1 ≤ c) && decide (c ≤ r.2)) = true ↔ InRanges set.ranges c := by
    simp [InRanges, List.any_eq_true]
  rw [← this]
  cases set.ranges.any (fun r => decide (r.1 ≤ c) && decide (c ≤ r.2)) <;> cases set.negated <;> simp

theorem inRanges_append (rs qs : List (Char32 × Char32)) (c : Char32) :
    InRanges (rs ++ qs) c ↔ InRanges rs c ∨ InRanges qs c := by
  simp only [InRanges, List.mem_append]
  constructor
  · rintro ⟨r, h | h, h'⟩
    · exact .inl ⟨r, h, h'⟩
    · exact .inr ⟨r, h, h'⟩
  · rintro (⟨r, h, h'⟩ | ⟨r, h, h'⟩)
    · exact ⟨r, .inl h, h'⟩
    · exact ⟨r, .inr h, h'⟩

theorem inRanges_single (a b c : Char32) : InRanges [(a, b)] c ↔ a ≤ c ∧ c ≤ b := by simp [InRanges]

theorem eq_iff_le (c d : Char32) : (d ≤ c ∧ c ≤ d) ↔ c = d := by
  rw [UInt32.le_iff_toNat_le, UInt32.le_iff_toNat_le, ← UInt32.toNat_inj]; omega

theorem addRange_spec (set : CodepointSet) (a b c : Char32) :
    InRanges (set.addRange a b).ranges c ↔ InRanges set.ranges c ∨ (a ≤ c ∧ c ≤ b) := by
  unfold CodepointSet.addRange
  rw [inRanges_append, inRanges_single]

theorem addCodepoint_spec (set : CodepointSet) (d : Char32) (hg : GoodRanges set.ranges) (hd : d < 0xFFFFFFFF) :
    (∀ c, InRanges (set.addCodepoint d).ranges c ↔ InRanges set.ranges c ∨ c = d) ∧
    GoodRanges (set.addCodepoint d).ranges ∧ (set.addCodepoint d).negated = set.negated := by
  have hplain : (∀ c, InRanges (set.addRange d d).ranges c ↔ InRanges set.ranges c ∨ c = d) ∧
      GoodRanges (set.addRange d d).ranges ∧ (set.addRange d d).negated = set.negated := by
    refine ⟨?_, ?_, rfl⟩
    · intro c; rw [addRange_spec, eq_iff_le]
    · intro r hr
      unfold CodepointSet.addRange at hr
      simp only [List.mem_append, List.mem_singleton] at hr
      rcases hr with hr | rfl
      · exact hg r hr
      · exact ⟨UInt32.le_refl _, hd⟩
  unfold CodepointSet.addCodepoint
  cases hl : set.ranges.getLast? with
  | none => simpa using hplain
  | some r =>
    simp only
    by_cases h : r.2 + 1 = d
    · rw [if_pos h]
      have hne : set.ranges ≠ [] := by intro e; rw [e] at hl; simp at hl
      have e : set.ranges = set.ranges.dropLast ++ [r] := by
        have h1 := List.dropLast_concat_getLast hne
        have h2 : set.ranges.getLast hne = r := by
          rw [List.getLast?_eq_some_getLast hne] at hl; exact Option.some.inj hl
        rw [h2] at h1; exact h1.symm
      have hr := hg r (by rw [e]; simp)
      have hn : d.toNat = r.2.toNat + 1 := by
        rw [← h, UInt32.toNat_add]
        have := UInt32.lt_iff_toNat_lt.mp hr.2
        simp at this ⊢; omega
      refine ⟨?_, ?_, rfl⟩
      · intro c
        simp only
        rw [inRanges_append, inRanges_single]
        conv => rhs; rw [e, inRanges_append]
        rw [show InRanges [r] c ↔ r.1 ≤ c ∧ c ≤ r.2 from inRanges_single r.1 r.2 c]
        have h1 := UInt32.le_iff_toNat_le.mp hr.1
        simp only [UInt32.le_iff_toNat_le, ← UInt32.toNat_inj (b := d)]
        constructor
        · rintro (h' | h')
          · exact .inl (.inl h')
          · by_cases c.toNat = d.toNat
            · exact .inr ‹_›
            · exact .inl (.inr (by omega))
        · rintro ((h' | h') | h')
          · exact .inl h'
          · exact .inr (by omega)
          · exact .inr (by omega)
      · intro q hq
        simp only [List.mem_append, List.mem_singleton] at hq
        rcases hq with hq | rfl
        · exact hg q (by rw [e]; exact List.mem_append_left _ hq)
        · refine ⟨?_, hd⟩
          have h1 := UInt32.le_iff_toNat_le.mp hr.1
          rw [UInt32.le_iff_toNat_le]; simp only; omega
    · rw [if_neg h]; exact hplain

theorem addCodepoints_spec (ds : List Char32) : ∀ (set : CodepointSet), GoodRanges set.ranges → (∀ d ∈ ds, d < 0xFFFFFFFF) →
    (∀ c, InRanges (set.addCodepoints ds).ranges c ↔ InRanges set.ranges c ∨ c ∈ ds) ∧
    GoodRanges (set.addCodepoints ds).ranges ∧ (set.addCodepoints ds).negated = set.negated := by
  induction ds with
  | nil => intro set hg _; exact ⟨by simp [CodepointSet.addCodepoints], hg, rfl⟩
  | cons d ds ih =>
    intro set hg hd
    obtain ⟨h1, h2, h3⟩ := addCodepoint_spec set d hg (hd d (by simp))
    obtain ⟨i1, i2, i3⟩ := ih (set.addCodepoint d) h2 (fun x hx => hd x (by simp [hx]))
    unfold CodepointSet.addCodepoints at i1 i2 i3 ⊢
    rw [List.foldl_cons]
    refine ⟨?_, i2, i3.trans h3⟩
    intro c
    rw [i1, h1, List.mem_cons, or_assoc]

theorem applyOps_spec (ops : List SetOp) : ∀ (set : CodepointSet), GoodRanges set.ranges → (∀ op ∈ ops, op.Proper) →
    (∀ c, InRanges (applyOps set ops).ranges c ↔ InRanges set.ranges c ∨ ∃ op ∈ ops, op.adds c) ∧
    GoodRanges (applyOps set ops).ranges ∧ (applyOps set ops).negated = set.negated := by
  induction ops with
  | nil => intro set hg _; exact ⟨by simp [applyOps], hg, rfl⟩
  | cons op ops ih =>
    intro set hg hp
    have h : (∀ c, InRanges (applyOp set op).ranges c ↔ InRanges set.ranges c ∨ op.adds c) ∧
        GoodRanges (applyOp set op).ranges ∧ (applyOp set op).negated = set.negated := by
      have hop := hp op (by simp)
      cases op with
      | range a b =>
        refine ⟨fun c => addRange_spec set a b c, ?_, rfl⟩
        intro r hr
        simp only [applyOp, CodepointSet.addRange, List.mem_append, List.mem_singleton] at hr
        rcases hr with hr | rfl
        · exact hg r hr
        · exact hop
      | codepoint d => exact addCodepoint_spec set d hg hop
      | codepoints ds => exact addCodepoints_spec ds set hg hop
    obtain ⟨h1, h2, h3⟩ := h
    obtain ⟨i1, i2, i3⟩ := ih (applyOp set op) h2 (fun x hx => hp x (by simp [hx]))
    refine ⟨?_, i2, i3.trans h3⟩
    intro c
    have : applyOps set (op :: ops) = applyOps (applyOp set op) ops := rfl
    rw [this, i1, h1]
    simp [or_assoc]

/-- C48, for histories with ordered ranges that do not mention 0xFFFFFFFF (missing: the other histories, for which it
is false, C48_false): the set contains exactly what was added, or, if negated, exactly what was not. -/
theorem C48_history_partial (ops : List SetOp) (hp : ∀ op ∈ ops, op.Proper) (negated : Bool) (c : Char32) :
    (applyOps { ranges := [], negated := negated } ops).contains c = true ↔
      ((∃ op ∈ ops, op.adds c) ↔ negated = false) := by
  obtain ⟨h1, _, h3⟩ := applyOps_spec ops { ranges := [], negated := negated } (by intro r hr; simp at hr) hp
  rw [contains_iff, h1, h3]
  simp [InRanges]

example : (applyOps {} [.codepoints [0x61, 0x62, 0x63], .range 0x30 0x39, .codepoint 0x3A]) =
    { ranges := [(0x61, 0x63), (0x30, 0x3A)] } := by decide +kernel

/-- C48 as stated is false: adding the code point 0 after the range up to 0xFFFFFFFF removes the range, and a code point
added behind an inverted (empty) range is lost. -/
theorem C48_false :
    (applyOps {} [.range 5 0xFFFFFFFF]).contains 10 = true ∧
    (applyOps {} [.range 5 0xFFFFFFFF, .codepoint 0]).contains 10 = false ∧
    (applyOps {} [.range 5 2, .codepoint 3]).contains 3 = false := by decide

/-! ### C49 -/

/-- C49: what case-insensitive membership means: the upper case of `c` lies between the upper cases of the ends of a
range. -/
theorem C49_exact (set : CodepointSet) (c : Char32) :
    set.caseInsensitiveContains c = true ↔
      ((∃ r ∈ set.ranges, simpleUpper r.1.toNat ≤ simpleUpper c.toNat ∧ simpleUpper c.toNat ≤ simpleUpper r.2.toNat) ↔
        set.negated = false) := by
  unfold CodepointSet.caseInsensitiveContains
  have hr : ∀ r : Char32 × Char32, (if r.1 = r.2 then caseInsensitiveEqual c r.1
      else !caseInsensitiveLess c r.1 && !caseInsensitiveLess r.2 c) = true ↔
      simpleUpper r.1.toNat ≤ simpleUpper c.toNat ∧ simpleUpper c.toNat ≤ simpleUpper r.2.toNat := by
    rintro ⟨a, b⟩
    simp only
    split
    · rename_i h; subst h
      rw [ciEqual_iff]; omega
    · unfold caseInsensitiveLess
      simp only [Bool.and_eq_true, Bool.not_eq_true', decide_eq_false_iff_not, UInt32.lt_iff_toNat_lt, C52_to_upper]
      omega
  have : set.ranges.any (fun r => if r.1 = r.2 then caseInsensitiveEqual c r.1
      else !caseInsensitiveLess c r.1 && !caseInsensitiveLess r.2 c) = true ↔
      ∃ r ∈ set.ranges, simpleUpper r.1.toNat ≤ simpleUpper c.toNat ∧ simpleUpper c.toNat ≤ simpleUpper r.2.toNat := by
    rw [List.any_eq_true]
    constructor
    · rintro ⟨r, h1, h2⟩; exact ⟨r, h1, (hr r).mp h2⟩
    · rintro ⟨r, h1, h2⟩; exact ⟨r, h1, (hr r).mpr h2⟩
  rw [← this]
  generalize set.ranges.any _ = b
  cases b <;> cases set.negated <;> simp

/-- C49, for sets whose ranges have ends with extreme upper cases (missing: the other sets, for which it is false,
C49_false): `c` is a case-insensitive member of the set if it is the same as an element up to case; in particular if
it is an element. -/
theorem C49_contains_partial (set : CodepointSet) (hn : set.negated = false)
    (hm : ∀ r ∈ set.ranges, ∀ x, r.1 ≤ x → x ≤ r.2 →
      simpleUpper r.1.toNat ≤ simpleUpper x.toNat ∧ simpleUpper x.toNat ≤ simpleUpper r.2.toNat)
    (c d : Char32) (hd : set.contains d = true) (h : simpleUpper c.toNat = simpleUpper d.toNat) :
    set.caseInsensitiveContains c = true := by
  rw [C49_exact]
  rw [contains_iff] at hd
  obtain ⟨r, h1, h2, h3⟩ := hd.mpr hn
  refine ⟨fun _ => hn, fun _ => ⟨r, h1, ?_⟩⟩
  rw [h]
  exact hm r h1 d h2 h3

/-- C49 in particular holds for sets of single code points (and is then an equivalence). -/
theorem C49_singles (set : CodepointSet) (hn : set.negated = false) (hs : ∀ r ∈ set.ranges, r.1 = r.2) (c : Char32) :
    set.caseInsensitiveContains c = true ↔ ∃ d, set.contains d = true ∧ simpleUpper c.toNat = simpleUpper d.toNat := by
  rw [C49_exact]
  simp only [contains_iff, hn, iff_true]
  constructor
  · rintro ⟨r, h1, h2, h3⟩
    refine ⟨r.1, ⟨r, h1, UInt32.le_refl _, ?_⟩, ?_⟩
    · rw [hs r h1]; exact UInt32.le_refl _
    · rw [hs r h1] at h2 ⊢; omega
  · rintro ⟨d, ⟨r, h1, h2, h3⟩, h⟩
    have e : d = r.1 := by
      rw [← hs r h1] at h3
      exact (eq_iff_le d r.1).mp ⟨h2, h3⟩
    refine ⟨r, h1, ?_⟩
    rw [h, e, ← hs r h1]; omega

/-- The ranges 0-9, A-Z and a-z meet the hypothesis of C49_contains_partial. -/
example : ∀ r ∈ [((0x30 : Char32), (0x39 : Char32)), (0x41, 0x5A), (0x61, 0x7A)], ∀ x, r.1 ≤ x → x ≤ r.2 →
      simpleUpper r.1.toNat ≤ simpleUpper x.toNat ∧ simpleUpper x.toNat ≤ simpleUpper r.2.toNat := by
  have key : ∀ n : Fin 128, (0x30 ≤ n.val ∧ n.val ≤ 0x39 → 0x30 ≤ simpleUpper n.val ∧ simpleUpper n.val ≤ 0x39) ∧
      (0x41 ≤ n.val ∧ n.val ≤ 0x5A ∨ 0x61 ≤ n.val ∧ n.val ≤ 0x7A → 0x41 ≤ simpleUpper n.val ∧ simpleUpper n.val ≤ 0x5A) := by
    decide +kernel
  have e : simpleUpper 0x30 = 0x30 ∧ simpleUpper 0x39 = 0x39 ∧ simpleUpper 0x41 = 0x41 ∧ simpleUpper 0x5A = 0x5A ∧
      simpleUpper 0x61 = 0x41 ∧ simpleUpper 0x7A = 0x5A := by decide +kernel
  intro r hr x h1 h2
  rw [UInt32.le_iff_toNat_le] at h1 h2
  simp only [List.mem_cons, List.mem_nil_iff, or_false] at hr
  rcases hr with rfl | rfl | rfl
  all_goals
    simp only [UInt32.reduceToNat] at h1 h2 ⊢
    have hk := key ⟨x.toNat, by omega⟩
    simp only at hk
    omega

/-- C49 as stated is false: the range Z-a contains Z, but not case-insensitively. -/
theorem C49_false : CodepointSet.contains { ranges := [(0x5A, 0x61)] } 0x5A = true ∧
    CodepointSet.caseInsensitiveContains { ranges := [(0x5A, 0x61)] } 0x5A = false := by decide +kernel

end Ystring
