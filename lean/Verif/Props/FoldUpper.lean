import Verif.Props.FoldCongruence
import Verif.Props.CaseLaws
import Verif.Props.Consistency
import Verif.Props.Order
import Verif.Props.Records
/-
Property theorems C119: a case-insensitive function does what the exact function does with the upper case strings.
-/
namespace Ystring
open Spec

/-! ### Strings without sharp s and their upper case -/

/-- `u` is the upper case of `s`, and `s` has no sharp s. -/
def UpOf (s u : Str) : Prop := ∃ cs, Decodes s cs ∧ (∀ c ∈ cs, c.toNat ≤ 0x10FFFF ∧ c ≠ 0xDF) ∧ u = encodeAll (cs.map toUpperChar)

/-- an upper case string -/
def Upper (u : Str) : Prop := ∃ ds, u = encodeAll ds ∧ ∀ c ∈ ds, c.toNat ≤ 0x10FFFF ∧ c ≠ 0xDF ∧ toUpperChar c = c

theorem decodes_encodeAll (cs : List Char32) (h : ∀ c ∈ cs, c.toNat ≤ 0x10FFFF) : Decodes (encodeAll cs) cs := by
  induction cs with
  | nil => exact .nil
  | cons c cs ih =>
    unfold encodeAll
    rw [List.flatMap_cons]
    have := encodeUtf8_seq c (h c List.mem_cons_self)
    rw [encodeUtf8_rfc c (h c List.mem_cons_self)] at this
    exact .cons this (ih fun d hd => h d (List.mem_cons_of_mem _ hd))

theorem upChar_good {c : Char32} (h : c.toNat ≤ 0x10FFFF ∧ c ≠ 0xDF) :
    (toUpperChar c).toNat ≤ 0x10FFFF ∧ toUpperChar c ≠ 0xDF ∧ toUpperChar (toUpperChar c) = toUpperChar c := by
  refine ⟨?_, ?_, ?_⟩
  · rw [C52_to_upper]; exact (simpleUpper_good _).1 h.1
  · intro e
    have h1 := congrArg UInt32.toNat e
    rw [C52_to_upper] at h1
    exact simpleUpper_ne_ss c.toNat (fun h2 => h.2 (UInt32.toNat_inj.mp h2)) h1
  · apply UInt32.toNat_inj.mp
    rw [C52_to_upper, C52_to_upper, simpleUpper_idem]

theorem upOf_iff (s u : Str) : UpOf s u ↔ toUpper s = .ok u ∧ contains s 0xDF = .ok false := by
  have key : ∀ cs : List Char32, (0xDF : Char32) ∉ cs → upperText cs = encodeAll (cs.map toUpperChar) := by
    intro cs
    induction cs with
    | nil => intro _; rfl
    | cons c cs ih =>
      intro h
      have h1 : c ≠ 0xDF := fun e => h (by rw [e]; simp)
      have h2 := ih fun k => h (List.mem_cons_of_mem _ k)
      rw [upperText_eq] at h2 ⊢
      rw [List.flatMap_cons, h2]
      unfold upperChars
      rw [if_neg ((ne_DF c).mp h1)]
      simp [encodeAll]
  constructor
  · rintro ⟨cs, h1, h2, rfl⟩
    have h3 : (0xDF : Char32) ∉ cs := fun h => (h2 _ h).2 rfl
    refine ⟨?_, ?_⟩
    · rw [(C53_to_upper s).1 cs h1 fun c hc => (h2 c hc).1, key cs h3]
    · rw [C16_contains_valid s cs h1]; simp [h3]
  · rintro ⟨h1, h2⟩
    obtain ⟨cs, h3, h4, rfl⟩ := conv_ok C53_to_upper h1
    rw [C16_contains_valid s cs h3] at h2
    injection h2 with h2
    have h5 := of_decide_eq_false h2
    exact ⟨cs, h3, fun c hc => ⟨h4 c hc, fun e => h5 (e ▸ hc)⟩, key cs h5⟩

theorem UpOf.upper {s u : Str} (h : UpOf s u) : Upper u := by
  obtain ⟨cs, h1, h2, rfl⟩ := h
  refine ⟨_, rfl, ?_⟩
  intro c hc
  obtain ⟨d, hd, rfl⟩ := List.mem_map.mp hc
  exact upChar_good (h2 d hd)

theorem Upper.upOf {u : Str} (h : Upper u) : UpOf u u := by
  obtain ⟨ds, rfl, h⟩ := h
  refine ⟨ds, decodes_encodeAll ds fun c hc => (h c hc).1, fun c hc => ⟨(h c hc).1, (h c hc).2.1⟩, ?_⟩
  congr 1
  exact (List.map_id ds).symm.trans (List.map_congr_left fun c hc => (h c hc).2.2.symm)

theorem UpOf.valid {s u : Str} (h : UpOf s u) : Valid s := by obtain ⟨cs, h, -⟩ := h; exact ⟨cs, h⟩
theorem Upper.valid {u : Str} (h : Upper u) : Valid u := h.upOf.valid

theorem UpOf.sameFold {s u : Str} (h : UpOf s u) : SameFold s u := by
  obtain ⟨cs, h1, h2, rfl⟩ := h
  refine ⟨cs, _, h1, decodes_encodeAll _ ?_, ?_⟩
  · intro c hc
    obtain ⟨d, hd, rfl⟩ := List.mem_map.mp hc
    exact (upChar_good (h2 d hd)).1
  · simp only [fold, List.map_map]
    exact List.map_congr_left fun c _ => by simp [C52_to_upper, simpleUpper_idem]

theorem UpOf.nil_iff {s u : Str} (h : UpOf s u) : s = [] ↔ u = [] := h.sameFold.nil_iff

theorem UpOf.append {a a' b b' : Str} (h : UpOf a a') (h' : UpOf b b') : UpOf (a ++ b) (a' ++ b') := by
  obtain ⟨cs, h1, h2, rfl⟩ := h
  obtain ⟨ds, k1, k2, rfl⟩ := h'
  exact ⟨cs ++ ds, h1.append k1, fun c hc => (List.mem_append.mp hc).elim (h2 c) (k2 c), by rw [List.map_append, encodeAll_append]⟩

theorem UpOf.cut {a b u : Str} (h : UpOf (a ++ b) u) (ha : Valid a) : ∃ a' b', u = a' ++ b' ∧ UpOf a a' ∧ UpOf b b' := by
  obtain ⟨cs, h1, h2, rfl⟩ := h
  obtain ⟨as, ha⟩ := ha
  obtain ⟨bs, rfl, hb⟩ := decodes_rest h1 ha
  refine ⟨_, _, by rw [List.map_append, encodeAll_append], ⟨as, ha, fun c hc => h2 c (List.mem_append_left _ hc), rfl⟩,
    ⟨bs, hb, fun c hc => h2 c (List.mem_append_right _ hc), rfl⟩⟩

theorem encodeAll_cut {a : Str} {as : List Char32} (ha : Decodes a as) : ∀ {ds : List Char32} {b : Str}, (∀ c ∈ ds, c.toNat ≤ 0x10FFFF) →
    encodeAll ds = a ++ b → ∃ es, ds = as ++ es ∧ a = encodeAll as ∧ b = encodeAll es := by
  induction ha with
  | nil => intro ds b _ e; exact ⟨ds, rfl, rfl, e.symm⟩
  | @cons v s c cs hv _ ih =>
    intro ds b hd e
    cases ds with
    | nil =>
      have h1 : v ++ s ++ b = [] := e.symm
      have := hv.ne_nil
      simp at h1
      exact absurd h1.1 this
    | cons d ds =>
      have h1 := encodeUtf8_seq d (hd d List.mem_cons_self)
      rw [encodeUtf8_rfc d (hd d List.mem_cons_self)] at h1
      have e' : rfcEncode d.toNat ++ encodeAll ds = v ++ (s ++ b) := by rw [← List.append_assoc, ← e]; simp [encodeAll]
      obtain ⟨e1, e2, e3⟩ := h1.append_inj hv e'
      obtain ⟨es, rfl, f2, f3⟩ := ih (fun c hc => hd c (List.mem_cons_of_mem _ hc)) e3
      subst e2
      exact ⟨es, rfl, by rw [← e1, f2]; simp [encodeAll], f3⟩

theorem Upper.cut {a b : Str} (h : Upper (a ++ b)) (ha : Valid a) : Upper a ∧ Upper b := by
  obtain ⟨ds, h1, h2⟩ := h
  obtain ⟨as, ha⟩ := ha
  obtain ⟨es, rfl, e1, e2⟩ := encodeAll_cut ha (fun c hc => (h2 c hc).1) h1.symm
  exact ⟨⟨as, e1, fun c hc => h2 c (List.mem_append_left _ hc)⟩, ⟨es, e2, fun c hc => h2 c (List.mem_append_right _ hc)⟩⟩

/-- the upper case of a string is the only upper case string that is the same up to case -/
theorem UpOf.eq {a x y : Str} (h : UpOf a x) (h' : SameFold a y) (hy : Upper y) : x = y := by
  obtain ⟨cs, h1, h2, rfl⟩ := h
  obtain ⟨ds, rfl, h4⟩ := hy
  obtain ⟨cs', ds', k1, k2, k3⟩ := h'
  have e1 := k1.unique h1
  have e2 := k2.unique (decodes_encodeAll ds fun c hc => (h4 c hc).1)
  subst e1 e2
  congr 1
  have e : (cs'.map toUpperChar) = ds'.map toUpperChar := by
    have inj : ∀ l l' : List Char32, l.map (·.toNat) = l'.map (·.toNat) → l = l' := by
      intro l l' h
      exact List.map_inj_right (fun x y => UInt32.toNat_inj.mp) |>.mp h
    apply inj
    simp only [List.map_map, Function.comp_def, C52_to_upper]
    simpa [fold] using k3
  rw [e]
  exact (List.map_congr_left fun c hc => (h4 c hc).2.2).trans (List.map_id ds')

/-! ### Matches -/

/-- in upper case strings the matches up to case are the occurrences -/
theorem foldAt_upper {u q : Str} (hu : Upper u) (hq : Upper q) (h0 : q ≠ []) (i n : Nat) : FoldAt u q i n ↔ OccursAt u q i ∧ n = q.length := by
  constructor
  · rintro ⟨a, m, b, rfl, rfl, rfl, ha, hb, hm⟩
    have hmv := hm.valid.1
    rw [List.append_assoc] at hu
    have h1 := (hu.cut ha).2.cut hmv
    have e := h1.1.upOf.eq hm hq
    subst e
    exact ⟨⟨a, b, rfl, rfl⟩, rfl⟩
  · rintro ⟨⟨a, b, rfl, rfl⟩, rfl⟩
    obtain ⟨a', m', b', e, l1, l2, v1, v2, v3⟩ := occurs_aligned hu.valid hq.valid h0 ⟨a, b, rfl, rfl⟩
    simp only [List.append_assoc] at e
    obtain ⟨rfl, e2⟩ := List.append_inj e l1.symm
    obtain ⟨rfl, rfl⟩ := List.append_inj e2 l2.symm
    exact ⟨a, q, b, rfl, rfl, rfl, v1, v3, hq.upOf.sameFold⟩

theorem goodFinder_upper {q : Str} (hq : Upper q) (h0 : q ≠ []) : GoodFinder (FirstFold q) (NoFold q) Upper (fun s => findFirst s q) := by
  intro u hu
  rcases C17_find_first u q h0 0 (Nat.zero_le _) with ⟨i, h1, -, ⟨a, b, rfl, rfl⟩, h3⟩ | ⟨h1, h2⟩
  · right
    have hf := (foldAt_upper hu hq h0 a.length q.length).mpr ⟨⟨a, b, rfl, rfl⟩, rfl⟩
    refine ⟨a, q, b, rfl, ⟨hf, ?_⟩, h0, h1, ?_⟩
    · intro i n h
      exact h3 i (Nat.zero_le _) ((foldAt_upper hu hq h0 i n).mp h).1
    · obtain ⟨a', m', b', e, l1, l2, v1, -, v3⟩ := hf
      simp only [List.append_assoc] at e
      obtain ⟨rfl, e⟩ := List.append_inj e l1.symm
      rw [List.append_assoc] at hu
      exact ((hu.cut v1).2.cut hq.valid).2
  · left
    refine ⟨?_, _, h1⟩
    intro i n h
    exact h2 i (Nat.zero_le _) ((foldAt_upper hu hq h0 i n).mp h).1


/-- A match in `s` and the occurrence in its upper case. -/
theorem foldAt_up {s u p q : Str} (hs : UpOf s u) (hp : UpOf p q) {i n : Nat} (h : FoldAt s p i n) :
    ∃ a m b a' b', s = a ++ m ++ b ∧ u = a' ++ q ++ b' ∧ a.length = i ∧ m.length = n ∧ UpOf a a' ∧ UpOf m q ∧ UpOf b b' := by
  obtain ⟨a, m, b, rfl, l1, l2, ha, hb, hm⟩ := h
  rw [List.append_assoc] at hs
  obtain ⟨a', r, rfl, h1, h2⟩ := hs.cut ha
  obtain ⟨m', b', rfl, h3, h4⟩ := h2.cut hm.valid.1
  have e := h3.eq (hm.trans hp.sameFold) hp.upper
  subst e
  exact ⟨a, m, b, a', b', rfl, by simp, l1, l2, h1, h3, h4⟩

/-- An occurrence in the upper case of `s` and the match in `s`. -/
theorem occursAt_up {s u p q : Str} (hs : UpOf s u) (hp : UpOf p q) (h0 : p ≠ []) {i : Nat} (h : OccursAt u q i) :
    ∃ a m b a' b', s = a ++ m ++ b ∧ u = a' ++ q ++ b' ∧ a'.length = i ∧ UpOf a a' ∧ UpOf m q ∧ UpOf b b' ∧ FoldAt s p a.length m.length := by
  have h0' : q ≠ [] := fun e => h0 (hp.nil_iff.mpr e)
  obtain ⟨x, y, z, rfl, l1, l2, hx, hz, hy⟩ := (foldAt_upper hs.upper hp.upper h0' i q.length).mpr ⟨h, rfl⟩
  have hu := hs.upper
  rw [List.append_assoc] at hu
  obtain ⟨u1, u2⟩ := hu.cut hx
  obtain ⟨u3, u4⟩ := u2.cut hy.valid.1
  have ey := u3.upOf.eq hy hp.upper
  subst ey
  obtain ⟨a, m, b, rfl, k1, k2, k3⟩ := hs.sameFold.symm.cut3 hx hy.valid.1
  have hs' := hs
  rw [List.append_assoc] at hs'
  obtain ⟨a', r', e, c1, c2⟩ := hs'.cut k1.valid.2
  obtain ⟨m', b', rfl, c3, c4⟩ := c2.cut k2.valid.2
  have e1 := c1.eq k1.symm u1
  have e2 := c3.eq k2.symm u3
  have e3 := c4.eq k3.symm u4
  subst e1 e2 e3
  exact ⟨a, m, b, a', b', rfl, by simp, l1, c1, c3, c4, a, m, b, rfl, rfl, rfl, c1.valid, c4.valid, k2.symm.trans hp.sameFold.symm⟩

theorem up_mono {a b r t a' b' : Str} (ha : UpOf a a') (hb : UpOf b b') (e : a ++ r = b ++ t) (h : a.length ≤ b.length) : a'.length ≤ b'.length := by
  obtain ⟨d, rfl⟩ : ∃ d, b = a ++ d := by
    have : a <+: b := List.prefix_of_prefix_length_le (List.prefix_append a r) (e ▸ List.prefix_append b t) h
    obtain ⟨d, hd⟩ := this
    exact ⟨d, hd.symm⟩
  obtain ⟨x, y, rfl, h1, h2⟩ := hb.cut ha.valid
  have := h1.eq ha.sameFold ha.upper
  subst this
  simp

/-! ### The functions -/

/-- C119: equal, less and compare compare the upper case strings byte by byte. -/
theorem C119_order (s t u v : Str) (hs : toUpper s = .ok u) (ht : toUpper t = .ok v) (hs0 : contains s 0xDF = .ok false)
    (ht0 : contains t 0xDF = .ok false) :
    CI.equal s t = .ok (decide (u = v)) ∧ CI.less s t = .ok (decide (u < v)) ∧
    ∃ r, CI.compare s t = .ok r ∧ (r < 0 ↔ u < v) ∧ (r = 0 ↔ u = v) ∧ (0 < r ↔ v < u) := by
  obtain ⟨cs, h1, h2, h3⟩ := (upOf_iff s u).mpr ⟨hs, hs0⟩
  obtain ⟨ds, k1, k2, k3⟩ := (upOf_iff t v).mpr ⟨ht, ht0⟩
  have enc : ∀ l : List Char32, encodeAll (l.map toUpperChar) = (fold l).flatMap rfcEncode := by
    intro l
    simp [encodeAll, fold, List.flatMap_map, C52_to_upper]
  have rng : ∀ l : List Char32, (∀ c ∈ l, c.toNat ≤ 0x10FFFF ∧ c ≠ 0xDF) → ∀ c ∈ fold l, c ≤ 0x10FFFF := by
    intro l hl c hc
    obtain ⟨d, hd, rfl⟩ := List.mem_map.mp hc
    exact (simpleUpper_good _).1 (hl d hd).1
  rw [enc] at h3 k3
  have lt1 : u < v ↔ fold cs < fold ds := by rw [h3, k3]; exact encode_lt_iff (rng cs h2) (rng ds k2)
  have lt2 : v < u ↔ fold ds < fold cs := by rw [h3, k3]; exact encode_lt_iff (rng ds k2) (rng cs h2)
  have eq : u = v ↔ fold cs = fold ds := by
    refine ⟨fun e => ?_, fun e => by rw [h3, k3, e]⟩
    have n1 : ¬ fold cs < fold ds := fun h => List.lt_irrefl v (e ▸ lt1.mpr h)
    have n2 : ¬ fold ds < fold cs := fun h => List.lt_irrefl v (e ▸ lt2.mpr h)
    exact List.le_antisymm (List.not_lt.mp n2) (List.not_lt.mp n1)
  obtain ⟨r, c1, c2, c3, c4, -, -, c5⟩ := CI.C44_compare h1 k1
  refine ⟨?_, ?_, r, c1, c2.trans lt1.symm, c3.trans eq.symm, c4.trans lt2.symm⟩
  · rw [CI.C43_equal h1 k1]; congr 1; exact decide_eq_decide.mpr eq.symm
  · rw [c5]; congr 1; exact decide_eq_decide.mpr lt1.symm

/-- C119: starts_with and ends_with. -/
theorem C119_affixes (s p u q : Str) (hs : toUpper s = .ok u) (hp : toUpper p = .ok q) (hs0 : contains s 0xDF = .ok false)
    (hp0 : contains p 0xDF = .ok false) (hl : u.length < SIZE_MOD) :
    CI.startsWith s p = startsWith u q ∧ CI.endsWith s p = endsWith u q := by
  have h1 := (upOf_iff s u).mpr ⟨hs, hs0⟩
  have h2 := (upOf_iff p q).mpr ⟨hp, hp0⟩
  constructor
  · obtain ⟨b, e, h⟩ := CI.C46_starts_with h1.valid h2.valid
    have key : b = true ↔ ∃ t, u = q ++ t := by
      rw [h]
      constructor
      · rintro ⟨m, r, rfl, hr, hm⟩
        obtain ⟨m', r', rfl, k1, -⟩ := h1.cut hm.valid.1
        have := k1.eq (hm.trans h2.sameFold) h2.upper
        subst this
        exact ⟨r', rfl⟩
      · rintro ⟨t, rfl⟩
        obtain ⟨m, r, rfl, k1, k2⟩ := h1.sameFold.symm.cut h2.upper.valid
        exact ⟨m, r, rfl, k2.valid.2, k1.symm.trans h2.sameFold.symm⟩
    rw [e]
    cases b with
    | true => exact ((C23_starts_with u q).1.mpr (key.mp rfl)).symm
    | false => exact ((C23_starts_with u q).2.mpr fun h => nomatch key.mpr h).symm
  · obtain ⟨b, e, h⟩ := CI.C46_ends_with h1.valid h2.valid
    have key : b = true ↔ ∃ t, u = t ++ q := by
      rw [h]
      constructor
      · rintro ⟨l, m, rfl, hl, hm⟩
        obtain ⟨l', m', rfl, -, k1⟩ := h1.cut hl
        have := k1.eq (hm.trans h2.sameFold) h2.upper
        subst this
        exact ⟨l', rfl⟩
      · rintro ⟨t, rfl⟩
        by_cases h0 : q = []
        · subst h0
          exact ⟨s, [], by simp, h1.valid, ⟨_, _, .nil, (h2.nil_iff.mpr rfl) ▸ Decodes.nil, rfl⟩⟩
        · obtain ⟨x, y, z, e, l1, l2, v1, -, v3⟩ := occurs_aligned (cmp := q) (i := t.length) h1.upper.valid h2.upper.valid h0 ⟨t, [], by simp, rfl⟩
          have : x = t := by
            rw [List.append_assoc] at e
            exact (List.append_inj e l1.symm).1.symm
          subst this
          obtain ⟨l, m, rfl, k1, k2⟩ := h1.sameFold.symm.cut v1
          exact ⟨l, m, rfl, k1.valid.2, k2.symm.trans h2.sameFold.symm⟩
    rw [e]
    cases b with
    | true => exact ((C23_ends_with u q hl).1.mpr (key.mp rfl)).symm
    | false => exact ((C23_ends_with u q hl).2.mpr fun h => nomatch key.mpr h).symm

/-- C119: find_first finds, in the string, what find_first finds in the upper case string. -/
theorem C119_find_first (s p u q : Str) (hs : toUpper s = .ok u) (hp : toUpper p = .ok q) (hs0 : contains s 0xDF = .ok false)
    (hp0 : contains p 0xDF = .ok false) (h0 : p ≠ []) :
    (CI.findFirst s p = .ok ⟨npos, 0⟩ ∧ findFirst u q = .ok ⟨u.length, 0⟩) ∨
    ∃ a m b a' b', s = a ++ m ++ b ∧ u = a' ++ q ++ b' ∧ toUpper a = .ok a' ∧ toUpper m = .ok q ∧ toUpper b = .ok b' ∧
      CI.findFirst s p = .ok ⟨a.length, m.length⟩ ∧ findFirst u q = .ok ⟨a'.length, q.length⟩ := by
  have h1 := (upOf_iff s u).mpr ⟨hs, hs0⟩
  have h2 := (upOf_iff p q).mpr ⟨hp, hp0⟩
  have h0' : q ≠ [] := fun e => h0 (h2.nil_iff.mpr e)
  have c := CI.C45_find_first [] s p h1.valid h2.valid h0
  simp only [List.nil_append, List.length_nil, Nat.zero_add] at c
  rcases C17_find_first u q h0' 0 (Nat.zero_le _) with ⟨i, k1, -, k3, k4⟩ | ⟨k1, k2⟩
  · obtain ⟨x, y, z, x', z', e, e', l, f1, f2, f3, f4⟩ := occursAt_up h1 h2 h0 k3
    rcases c with ⟨c1, -⟩ | ⟨i', n, c1, -, c3, c4⟩
    · exact absurd f4 (c1 _ _)
    · right
      obtain ⟨a, m, b, a', b', rfl, rfl, rfl, rfl, g1, g2, g3⟩ := foldAt_up h1 h2 c1
      have i1 := k4 a'.length (Nat.zero_le _) ⟨a', b', rfl, rfl⟩
      have i2 := c3 _ _ f4
      have i3 := up_mono g1 f1 (by simpa using e) i2
      have : i = a'.length := by omega
      subst this
      exact ⟨a, m, b, a', b', rfl, rfl, ((upOf_iff _ _).mp g1).1, ((upOf_iff _ _).mp g2).1, ((upOf_iff _ _).mp g3).1, c4, k1⟩
  · left
    rcases c with ⟨-, c1⟩ | ⟨i', n, c1, -, c3, c4⟩
    · exact ⟨c1, k1⟩
    · obtain ⟨a, m, b, a', b', rfl, rfl, rfl, rfl, g1, g2, g3⟩ := foldAt_up h1 h2 c1
      exact absurd ⟨a', b', rfl, rfl⟩ (k2 a'.length (Nat.zero_le _))

/-- C119: find_last. -/
theorem C119_find_last (s p u q : Str) (hs : toUpper s = .ok u) (hp : toUpper p = .ok q) (hs0 : contains s 0xDF = .ok false)
    (hp0 : contains p 0xDF = .ok false) (h0 : p ≠ []) (hl : s.length ≤ npos) (hl' : u.length ≤ npos) :
    (CI.findLast s p = .ok ⟨npos, 0⟩ ∧ findLast u q = ⟨0, 0⟩) ∨
    ∃ a m b a' b', s = a ++ m ++ b ∧ u = a' ++ q ++ b' ∧ toUpper a = .ok a' ∧ toUpper m = .ok q ∧ toUpper b = .ok b' ∧
      CI.findLast s p = .ok ⟨a.length, m.length⟩ ∧ findLast u q = ⟨a'.length, q.length⟩ := by
  have h1 := (upOf_iff s u).mpr ⟨hs, hs0⟩
  have h2 := (upOf_iff p q).mpr ⟨hp, hp0⟩
  have h0' : q ≠ [] := fun e => h0 (h2.nil_iff.mpr e)
  have c := CI.C45_find_last s [] p h1.valid h2.valid h0 npos (by rw [List.append_nil]; omega)
  simp only [List.append_nil] at c
  have occ : ∀ j, OccursAt u q j → j + q.length ≤ npos := by
    rintro j ⟨a, b, rfl, rfl⟩
    simp only [List.length_append] at hl'
    omega
  rcases C18_find_last u q h0' npos with ⟨i, k1, -, k3, k4⟩ | ⟨k1, k2⟩
  · obtain ⟨x, y, z, x', z', e, e', l, f1, f2, f3, f4⟩ := occursAt_up h1 h2 h0 k3
    rcases c with ⟨c1, -⟩ | ⟨i', n, c1, -, c3, c4⟩
    · exact absurd f4 (c1 _ _)
    · right
      obtain ⟨a, m, b, a', b', rfl, rfl, rfl, rfl, g1, g2, g3⟩ := foldAt_up h1 h2 c1
      have i1 := k4 a'.length (occ _ ⟨a', b', rfl, rfl⟩) ⟨a', b', rfl, rfl⟩
      have i2 := (c3 _ _ f4).1
      have i3 := up_mono f1 g1 (by simpa using e.symm) i2
      have : i = a'.length := by omega
      subst this
      exact ⟨a, m, b, a', b', rfl, rfl, ((upOf_iff _ _).mp g1).1, ((upOf_iff _ _).mp g2).1, ((upOf_iff _ _).mp g3).1, c4, k1⟩
  · left
    rcases c with ⟨-, c1⟩ | ⟨i', n, c1, -, c3, c4⟩
    · exact ⟨c1, k1⟩
    · obtain ⟨a, m, b, a', b', rfl, rfl, rfl, rfl, g1, g2, g3⟩ := foldAt_up h1 h2 c1
      exact absurd ⟨a', b', rfl, rfl⟩ (k2 a'.length (occ _ ⟨a', b', rfl, rfl⟩))


/-! ### find_first_of and find_last_of -/

theorem listed_upper (chars : List Char32) (c : Char32) : CI.Listed chars c ↔ toUpperChar c ∈ chars.map toUpperChar := by
  unfold CI.Listed
  rw [List.mem_map]
  constructor
  · rintro ⟨d, hd, e⟩
    exact ⟨d, hd, UInt32.toNat_inj.mp (by rw [C52_to_upper, C52_to_upper, e])⟩
  · rintro ⟨d, hd, e⟩
    have := congrArg UInt32.toNat e
    rw [C52_to_upper, C52_to_upper] at this
    exact ⟨d, hd, this.symm⟩

theorem upOf_seq {m : Str} {c : Char32} (hm : IsSeq m c) (hc : c.toNat ≤ 0x10FFFF ∧ c ≠ 0xDF) :
    UpOf m (rfcEncode (toUpperChar c).toNat) ∧ IsSeq (rfcEncode (toUpperChar c).toNat) (toUpperChar c) := by
  have h := upChar_good hc
  refine ⟨⟨[c], hm.decodes, by simpa using hc, by simp [encodeAll]⟩, ?_⟩
  rw [← encodeUtf8_rfc _ h.1]
  exact encodeUtf8_seq _ h.1

/-- a string cut at one of its code points, with its upper case -/
theorem upOf_cut_at {s u : Str} {xs ys : List Char32} {c : Char32} (hd : Decodes s (xs ++ c :: ys))
    (hr : ∀ d ∈ xs ++ c :: ys, d.toNat ≤ 0x10FFFF ∧ d ≠ 0xDF) (hu : u = encodeAll ((xs ++ c :: ys).map toUpperChar)) :
    ∃ a m b a' m' b', s = a ++ m ++ b ∧ u = a' ++ m' ++ b' ∧ UpOf a a' ∧ UpOf m m' ∧ UpOf b b' ∧ Decodes a xs ∧ IsSeq m c ∧ Decodes b ys ∧
      Decodes a' (xs.map toUpperChar) ∧ IsSeq m' (toUpperChar c) ∧ Decodes b' (ys.map toUpperChar) := by
  obtain ⟨a, r, rfl, ha, hr'⟩ := decodes_cut2 hd
  obtain ⟨m, b, rfl, hm, hb⟩ := decodes_cut2 (xs := [c]) (ys := ys) hr'
  have hm := CI.decodes_single hm
  have hc := hr c (by simp)
  obtain ⟨k1, k2⟩ := upOf_seq hm hc
  have hx : ∀ d ∈ xs, d.toNat ≤ 0x10FFFF ∧ d ≠ 0xDF := fun d hd => hr d (by simp [hd])
  have hy : ∀ d ∈ ys, d.toNat ≤ 0x10FFFF ∧ d ≠ 0xDF := fun d hd => hr d (by simp [hd])
  have rng : ∀ zs : List Char32, (∀ d ∈ zs, d.toNat ≤ 0x10FFFF ∧ d ≠ 0xDF) → ∀ d ∈ zs.map toUpperChar, d.toNat ≤ 0x10FFFF := by
    intro zs hz d hd
    obtain ⟨e, he, rfl⟩ := List.mem_map.mp hd
    exact (upChar_good (hz e he)).1
  refine ⟨a, m, b, encodeAll (xs.map toUpperChar), rfcEncode (toUpperChar c).toNat, encodeAll (ys.map toUpperChar), by simp, ?_,
    ⟨xs, ha, hx, rfl⟩, k1, ⟨ys, hb, hy, rfl⟩, ha, hm, hb, decodes_encodeAll _ (rng xs hx), k2, decodes_encodeAll _ (rng ys hy)⟩
  rw [hu]
  simp [encodeAll]

/-- C119: find_first_of with a list of characters finds what find_first_of finds in the upper case string with the upper case characters. -/
theorem C119_find_first_of (s u : Str) (chars : List Char32) (hs : toUpper s = .ok u) (hs0 : contains s 0xDF = .ok false) :
    (CI.findFirstOf s chars = .ok (⟨npos, 0⟩, INVALID_CHAR) ∧ findFirstOf u (chars.map toUpperChar) = .ok (⟨npos, 0⟩, INVALID_CHAR)) ∨
    ∃ a m b a' m' b' c, s = a ++ m ++ b ∧ u = a' ++ m' ++ b' ∧ toUpper a = .ok a' ∧ toUpper m = .ok m' ∧ toUpper b = .ok b' ∧
      CI.findFirstOf s chars = .ok (⟨a.length, m.length⟩, c) ∧
      findFirstOf u (chars.map toUpperChar) = .ok (⟨a'.length, m'.length⟩, toUpperChar c) := by
  obtain ⟨cs, h1, h2, h3⟩ := (upOf_iff s u).mpr ⟨hs, hs0⟩
  have k := CI.C67_find_first_of [] s (CI.Listed chars) (fun s o => CI.findFirstOf s chars o) (.inl ⟨chars, rfl, rfl⟩)
  have j := C20_find_first_where [] u (fun c => decide (c ∈ chars.map toUpperChar))
  have j0 := (C20_find_first_of u (chars.map toUpperChar) ⟨[], false⟩ 0).1 (fun c => decide (c ∈ chars.map toUpperChar)) (by simp)
  simp only [List.nil_append, List.length_nil, Nat.zero_add] at k j
  have no : ∀ xs : List Char32, (∀ x ∈ xs, ¬ CI.Listed chars x) → ∀ x ∈ xs.map toUpperChar, decide (x ∈ chars.map toUpperChar) = false := by
    intro xs h x hx
    obtain ⟨y, hy, rfl⟩ := List.mem_map.mp hx
    exact decide_eq_false fun h' => h y hy ((listed_upper chars y).mpr h')
  rcases CI.first_in (P := CI.Listed chars) cs with hn | ⟨xs, c, ys, rfl, hx, hc⟩
  · left
    refine ⟨k.2.1 cs h1 hn, j0.trans (j.2.1 (cs.map toUpperChar) ?_ (no cs hn))⟩
    rw [h3]
    refine decodes_encodeAll _ ?_
    intro d hd
    obtain ⟨e, he, rfl⟩ := List.mem_map.mp hd
    exact (upChar_good (h2 e he)).1
  · right
    obtain ⟨a, m, b, a', m', b', e, e', g1, g2, g3, d1, d2, d3, d4, d5, d6⟩ := upOf_cut_at h1 h2 h3
    exact ⟨a, m, b, a', m', b', c, e, e', ((upOf_iff _ _).mp g1).1, ((upOf_iff _ _).mp g2).1, ((upOf_iff _ _).mp g3).1,
      k.1 a m b xs c e d1 hx d2 hc, j0.trans (j.1 a' m' b' _ _ e' d4 (no xs hx) d5 (decide_eq_true ((listed_upper chars c).mp hc)))⟩

/-- C119: find_last_of. -/
theorem C119_find_last_of (s u : Str) (chars : List Char32) (hs : toUpper s = .ok u) (hs0 : contains s 0xDF = .ok false)
    (hl : s.length ≤ npos) (hl' : u.length ≤ npos) :
    (CI.findLastOf s chars = .ok (⟨npos, 0⟩, INVALID_CHAR) ∧ findLastOf u (chars.map toUpperChar) = .ok (⟨npos, 0⟩, INVALID_CHAR)) ∨
    ∃ a m b a' m' b' c, s = a ++ m ++ b ∧ u = a' ++ m' ++ b' ∧ toUpper a = .ok a' ∧ toUpper m = .ok m' ∧ toUpper b = .ok b' ∧
      CI.findLastOf s chars = .ok (⟨a.length, m.length⟩, c) ∧
      findLastOf u (chars.map toUpperChar) = .ok (⟨a'.length, m'.length⟩, toUpperChar c) := by
  obtain ⟨cs, h1, h2, h3⟩ := (upOf_iff s u).mpr ⟨hs, hs0⟩
  have k := CI.C67_find_last_of s [] npos (by rw [List.append_nil]; omega) (CI.Listed chars) (fun s o => CI.findLastOf s chars o) (.inl ⟨chars, rfl, rfl⟩)
  have j := C21_find_last_where u [] (fun c => decide (c ∈ chars.map toUpperChar)) npos (by rw [List.append_nil]; omega)
  have j0 := (C21_find_last_of u (chars.map toUpperChar) ⟨[], false⟩ npos).1 (fun c => decide (c ∈ chars.map toUpperChar)) (by simp)
  simp only [List.append_nil] at k j
  have no : ∀ xs : List Char32, (∀ x ∈ xs, ¬ CI.Listed chars x) → ∀ x ∈ xs.map toUpperChar, decide (x ∈ chars.map toUpperChar) = false := by
    intro xs h x hx
    obtain ⟨y, hy, rfl⟩ := List.mem_map.mp hx
    exact decide_eq_false fun h' => h y hy ((listed_upper chars y).mpr h')
  rcases CI.last_in (P := CI.Listed chars) cs with hn | ⟨xs, c, ys, rfl, hy, hc⟩
  · left
    refine ⟨k.2.1 cs h1 hn, j0.trans (j.2.1 (cs.map toUpperChar) ?_ (no cs hn))⟩
    rw [h3]
    refine decodes_encodeAll _ ?_
    intro d hd
    obtain ⟨e, he, rfl⟩ := List.mem_map.mp hd
    exact (upChar_good (h2 e he)).1
  · right
    obtain ⟨a, m, b, a', m', b', e, e', g1, g2, g3, d1, d2, d3, d4, d5, d6⟩ := upOf_cut_at h1 h2 h3
    exact ⟨a, m, b, a', m', b', c, e, e', ((upOf_iff _ _).mp g1).1, ((upOf_iff _ _).mp g2).1, ((upOf_iff _ _).mp g3).1,
      k.1 a m b ys c e d3 hy d2 hc, j0.trans (j.1 a' m' b' _ _ e' d6 (no ys hy) d5 (decide_eq_true ((listed_upper chars c).mp hc)))⟩

/-! ### split and replace -/

theorem firstFold_parts {p a m b : Str} (h : FirstFold p a m b) : Valid a ∧ Valid m := by
  obtain ⟨x, y, z, e, l1, l2, v1, v2, v3⟩ := h.1
  simp only [List.append_assoc] at e
  obtain ⟨rfl, e2⟩ := List.append_inj e l1.symm
  obtain ⟨rfl, rfl⟩ := List.append_inj e2 l2.symm
  exact ⟨v1, v3.valid.1⟩

theorem splits_parts {Q : Str → Prop} (hQ : ∀ a b, Q (a ++ b) → Valid a → Q a ∧ Q b) {p : Str} {ig : Bool} {n : Nat} {s last : Str}
    {ps : List (Str × Str)} (h : Splits (FirstFold p) (NoFold p) ig n s ps last) (hs : Q s) : (∀ x ∈ ps, Q x.1) ∧ Q last := by
  induction h with
  | limit => exact ⟨by simp, hs⟩
  | none => exact ⟨by simp, hs⟩
  | hit hf _ _ ih =>
    obtain ⟨v1, v2⟩ := firstFold_parts hf
    rw [List.append_assoc] at hs
    obtain ⟨q1, q2⟩ := hQ _ _ hs v1
    obtain ⟨i1, i2⟩ := ih (hQ _ _ q2 v2).2
    exact ⟨fun x hx => (List.mem_cons.mp hx).elim (fun e => e ▸ q1) (i1 x), i2⟩
  | skip hf _ _ ih =>
    obtain ⟨v1, v2⟩ := firstFold_parts hf
    obtain ⟨q1, -⟩ := hQ [] _ hs v1
    obtain ⟨i1, i2⟩ := ih (hQ _ _ hs v2).2
    exact ⟨fun x hx => (List.mem_cons.mp hx).elim (fun e => e ▸ q1) (i1 x), i2⟩

theorem mem_keep {ig : Bool} {ps : List Str} {x : Str} (h : x ∈ keep ig ps) : x ∈ ps := by
  unfold keep at h
  split at h
  · exact (List.mem_filter.mp h).1
  · exact h

theorem mapM_upper {zs : List (Str × Str)} (h : ∀ z ∈ zs, toUpper z.1 = .ok z.2) : (zs.map (·.1)).mapM toUpper = .ok (zs.map (·.2)) := by
  induction zs with
  | nil => rfl
  | cons z zs ih =>
    rw [List.map_cons, List.mapM_cons, h z List.mem_cons_self, ih fun w hw => h w (List.mem_cons_of_mem _ hw)]
    rfl

/-- the pieces of a split, with the upper case of each -/
theorem split_pairs {s p u q : Str} (h1 : UpOf s u) (h2 : UpOf p q) (h0 : p ≠ []) (n : Nat) (hn : 0 < n) (ig : Bool) (hl : s.length < SIZE_MOD)
    (hl' : u.length < SIZE_MOD) : ∃ zs : List (Str × Str), CI.split s p ⟨n, ig⟩ = .ok (zs.map (·.1)) ∧ split u q ⟨n, ig⟩ = .ok (zs.map (·.2)) ∧
      ∀ z ∈ zs, UpOf z.1 z.2 := by
  have h0' : q ≠ [] := fun e => h0 (h2.nil_iff.mpr e)
  obtain ⟨zs, e1, e2, e3⟩ := CI.C100_split ((CI.C100_equal_true _ _).mpr h1.sameFold) ((CI.C100_equal_true _ _).mpr h2.sameFold) n ig hl hl'
  obtain ⟨ps, last, a1, a2⟩ := CI.C47_split s p h1.valid h2.valid h0 n hn ig hl
  obtain ⟨ps', last', b1, b2⟩ := CI.C47_split u q h1.upper.valid h2.upper.valid h0' n hn ig hl'
  obtain ⟨ps2, last2, c1, c2⟩ := splitWhere_spec (goodFinder_upper h2.upper h0') ig n u hl' h1.upper hn
  obtain ⟨rfl, rfl⟩ := CI.C47_cuts_unique b1 c1
  have hsplit : split u q ⟨n, ig⟩ = .ok (zs.map (·.2)) := by
    rw [← e2, b2]; exact c2
  refine ⟨zs, e1, hsplit, ?_⟩
  intro z hz
  have p1 : ∃ y, UpOf z.1 y := by
    have hm : z.1 ∈ zs.map (·.1) := List.mem_map_of_mem hz
    rw [a2] at e1
    injection e1 with e1
    rw [← e1] at hm
    obtain ⟨i1, i2⟩ := splits_parts (Q := fun x => ∃ y, UpOf x y) (fun a b ⟨y, hy⟩ ha => by
      obtain ⟨a', b', -, k1, k2⟩ := hy.cut ha
      exact ⟨⟨a', k1⟩, ⟨b', k2⟩⟩) a1 ⟨u, h1⟩
    rcases List.mem_append.mp (mem_keep hm) with hm | hm
    · obtain ⟨w, hw, e⟩ := List.mem_map.mp hm
      rw [← e]; exact i1 w hw
    · rw [List.mem_singleton.mp hm]; exact i2
  have p2 : Upper z.2 := by
    have hm : z.2 ∈ zs.map (·.2) := List.mem_map_of_mem hz
    rw [b2] at e2
    injection e2 with e2
    rw [← e2] at hm
    obtain ⟨i1, i2⟩ := splits_parts (Q := Upper) (fun a b h ha => h.cut ha) b1 h1.upper
    rcases List.mem_append.mp (mem_keep hm) with hm | hm
    · obtain ⟨w, hw, e⟩ := List.mem_map.mp hm
      rw [← e]; exact i1 w hw
    · rw [List.mem_singleton.mp hm]; exact i2
  obtain ⟨y, hy⟩ := p1
  have := hy.eq ((CI.C100_equal_true _ _).mp (e3 z hz)) p2
  exact this ▸ hy

/-- C119: split: the upper case of the pieces are the pieces of the upper case. -/
theorem C119_split (s p u q : Str) (hs : toUpper s = .ok u) (hp : toUpper p = .ok q) (hs0 : contains s 0xDF = .ok false)
    (hp0 : contains p 0xDF = .ok false) (h0 : p ≠ []) (params : SplitParams) (hl : s.length < SIZE_MOD) (hl' : u.length < SIZE_MOD) :
    ∃ ps qs, CI.split s p params = .ok ps ∧ split u q params = .ok qs ∧ ps.mapM toUpper = .ok qs := by
  have h1 := (upOf_iff s u).mpr ⟨hs, hs0⟩
  have h2 := (upOf_iff p q).mpr ⟨hp, hp0⟩
  obtain ⟨n, ig⟩ := params
  rcases Nat.eq_zero_or_pos n with rfl | hn
  · exact ⟨[], [], C38_zero _ _ _, C38_zero _ _ _, rfl⟩
  · obtain ⟨zs, e1, e2, e3⟩ := split_pairs h1 h2 h0 n hn ig hl hl'
    exact ⟨_, _, e1, e2, mapM_upper fun z hz => ((upOf_iff _ _).mp (e3 z hz)).1⟩

theorem toUpper_append {a b a' b' : Str} (ha : toUpper a = .ok a') (hb : toUpper b = .ok b') : toUpper (a ++ b) = .ok (a' ++ b') := by
  obtain ⟨cs, h1, -, -⟩ := conv_ok C53_to_upper ha
  obtain ⟨ds, k1, -, -⟩ := conv_ok C53_to_upper hb
  exact (C69_codepoints a b ⟨_, h1⟩ ⟨_, k1⟩).2.2.2.1 a' b' ha hb

theorem toUpper_join {t v : Str} (ht : toUpper t = .ok v) (zs : List (Str × Str)) (h : ∀ z ∈ zs, toUpper z.1 = .ok z.2) :
    toUpper (joinWith t (zs.map (·.1))) = .ok (joinWith v (zs.map (·.2))) := by
  induction zs with
  | nil => exact (C53_to_upper []).1 [] .nil (by intro c hc; cases hc)
  | cons z zs ih =>
    have ih' := ih fun w hw => h w (List.mem_cons_of_mem _ hw)
    by_cases hz : zs = []
    · subst hz; exact h z List.mem_cons_self
    · rw [List.map_cons, List.map_cons, joinWith_cons _ _ (by simpa using hz), joinWith_cons _ _ (by simpa using hz)]
      exact toUpper_append (toUpper_append (h z List.mem_cons_self) ht) ih'

/-- scanning `s` from the right for matches, and its upper case for occurrences -/
theorem scanRight_up {p q : Str} (h2 : UpOf p q) (h0 : p ≠ []) {n : Nat} {s last : Str} {ps : List (Str × Str)} (h : ScanFoldRight p n s last ps) :
    ∀ {u}, UpOf s u → ∃ (last' : Str) (zs : List (Str × Str)), zs.map (·.1) = ps.map (·.2) ∧ UpOf last last' ∧ (∀ z ∈ zs, UpOf z.1 z.2) ∧
      ScanRight q n u (last' :: zs.map (·.2)) := by
  have h0' : q ≠ [] := fun e => h0 (h2.nil_iff.mpr e)
  induction h with
  | @limit s => intro u hu; exact ⟨u, [], rfl, hu, by simp, .limit⟩
  | @none n s hno =>
    intro u hu
    refine ⟨u, [], rfl, hu, by simp, .none ?_⟩
    intro i hi
    obtain ⟨x, y, z, x', z', e, e', l, f1, f2, f3, f4⟩ := occursAt_up hu h2 h0 hi
    exact hno _ _ f4
  | @hit n b m a last ps hf hmax _ ih =>
    intro u hu
    obtain ⟨a1, m1, b1, a', b', e, rfl, l1, l2, g1, g2, g3⟩ := foldAt_up hu h2 hf
    simp only [List.append_assoc] at e
    obtain ⟨rfl, e2⟩ := List.append_inj e l1.symm
    obtain ⟨rfl, rfl⟩ := List.append_inj e2 l2.symm
    obtain ⟨last', zs, z1, z2, z3, z4⟩ := ih g1
    refine ⟨last', zs ++ [(b, b')], by simp [z1], z2, ?_, ?_⟩
    · intro z hz
      rcases List.mem_append.mp hz with hz | hz
      · exact z3 z hz
      · rw [List.mem_singleton.mp hz]; exact g3
    · rw [List.map_append, ← List.cons_append]
      refine .hit ?_ z4
      intro i hi
      obtain ⟨x, y, z, x', z', e, e', l, f1, f2, f3, f4⟩ := occursAt_up hu h2 h0 hi
      have i1 := hmax _ _ f4
      have i2 := up_mono (f1.append f2) (g1.append g2) (by rw [← e]) (by simpa using i1)
      simp only [List.length_append] at i2
      omega

theorem joinWith_flatMap (t : Str) (x : Str) (ps : List (Str × Str)) : joinWith t (x :: ps.map (·.2)) = x ++ ps.flatMap (fun y => t ++ y.2) := by
  induction ps generalizing x with
  | nil => simp [joinWith]
  | cons y ys ih =>
    rw [List.map_cons, joinWith_cons _ _ (by simp), ih]
    simp

/-- C119: replace: the upper case of the result is the result for the upper case strings. (The replacement may contain sharp s.) -/
theorem C119_replace (s p t u q v : Str) (hs : toUpper s = .ok u) (hp : toUpper p = .ok q) (ht : toUpper t = .ok v)
    (hs0 : contains s 0xDF = .ok false) (hp0 : contains p 0xDF = .ok false) (h0 : p ≠ []) (n : Int) (hn : PTRDIFF_MIN < n)
    (hl : s.length < SIZE_MOD) (hl' : u.length < SIZE_MOD) :
    ∃ r r', CI.replace s p t n = .ok r ∧ replace u q v n = .ok r' ∧ toUpper r = .ok r' := by
  have h1 := (upOf_iff s u).mpr ⟨hs, hs0⟩
  have h2 := (upOf_iff p q).mpr ⟨hp, hp0⟩
  have h0' : q ≠ [] := fun e => h0 (h2.nil_iff.mpr e)
  rcases Int.lt_trichotomy n 0 with hneg | rfl | hpos
  · obtain ⟨last, ps, a1, -, a2⟩ := CI.C47_replace_right s p t h1.valid h2.valid h0 n hneg hl
    obtain ⟨last', zs, z1, z2, z3, z4⟩ := scanRight_up h2 h0 a1 h1
    obtain ⟨qs, b1, b2, b3, b4⟩ := C35_replace_right u q v h0' hl' n hneg hn
    have e := b4 _ z4
    subst e
    refine ⟨_, _, a2, b3, ?_⟩
    have h3 := toUpper_join ht ((last, last') :: zs) (by
      intro z hz
      rcases List.mem_cons.mp hz with rfl | hz
      · exact ((upOf_iff _ _).mp z2).1
      · exact ((upOf_iff _ _).mp (z3 z hz)).1)
    have h4 : joinWith t (((last, last') :: zs).map (·.1)) = last ++ ps.flatMap (fun x => t ++ x.2) := by
      rw [List.map_cons, z1]; exact joinWith_flatMap t last ps
    rw [h4] at h3
    exact h3
  · obtain ⟨ps, last, a1, a2⟩ := CI.C47_replace_left s p t h1.valid h2.valid h0 0 (by omega) hl
    have : ps = [] ∧ last = s := by
      cases a1 with
      | limit => exact ⟨rfl, rfl⟩
      | none => exact ⟨rfl, rfl⟩
    obtain ⟨rfl, rfl⟩ := this
    exact ⟨last, u, a2, C37_false_zero _ _ _, hs⟩
  · obtain ⟨k, rfl⟩ : ∃ k : Nat, n = k := ⟨n.toNat, by omega⟩
    have hk : 0 < k := by omega
    obtain ⟨zs, e1, e2, e3⟩ := split_pairs h1 h2 h0 k hk false hl hl'
    obtain ⟨ps, a1, a2⟩ := C74_ci s p t h1.valid h2.valid h0 k hk hl
    obtain ⟨qs, b1, b2⟩ := C74_replace_split u q v h0' k hk hl'
    rw [e1] at a1
    injection a1 with a1
    rw [e2] at b1
    injection b1 with b1
    subst a1 b1
    refine ⟨_, _, a2, b2, ?_⟩
    rw [join_eq, join_eq]
    exact toUpper_join ht zs fun z hz => ((upOf_iff _ _).mp (e3 z hz)).1


-- "xåÅy" and "Å": the upper case is "XÅÅY"; the sizes of upper and lower case may differ ("ȿ" has two bytes, its upper case three)
example : toUpper [0x78, 0xC3, 0xA5, 0xC8, 0xBF, 0x79] = .ok [0x58, 0xC3, 0x85, 0xE2, 0xB1, 0xBE, 0x59] ∧ toUpper [0xC8, 0xBF] = .ok [0xE2, 0xB1, 0xBE] ∧
    contains [0x78, 0xC3, 0xA5, 0xC8, 0xBF, 0x79] 0xDF = .ok false ∧ contains [0xC8, 0xBF] 0xDF = .ok false ∧
    CI.findFirst [0x78, 0xC3, 0xA5, 0xC8, 0xBF, 0x79] [0xC8, 0xBF] = .ok ⟨3, 2⟩ ∧
    findFirst [0x58, 0xC3, 0x85, 0xE2, 0xB1, 0xBE, 0x59] [0xE2, 0xB1, 0xBE] = .ok ⟨3, 3⟩ ∧
    CI.replace [0x78, 0xC3, 0xA5, 0xC8, 0xBF, 0x79] [0xC3, 0x85] [0x7A] 1 = .ok [0x78, 0x7A, 0xC8, 0xBF, 0x79] ∧
    replace [0x58, 0xC3, 0x85, 0xE2, 0xB1, 0xBE, 0x59] [0xC3, 0x85] [0x5A] 1 = .ok [0x58, 0x5A, 0xE2, 0xB1, 0xBE, 0x59] := by decide +kernel

/-- C119: with sharp s the laws fail: the upper case "SS" of "ß" contains "S", but "ß" does not contain "s" up to case. -/
theorem C119_sharp_s : toUpper [0xC3, 0x9F] = .ok [0x53, 0x53] ∧ toUpper [0x73] = .ok [0x53] ∧
    CI.findFirst [0xC3, 0x9F] [0x73] = .ok ⟨npos, 0⟩ ∧ findFirst [0x53, 0x53] [0x53] = .ok ⟨0, 1⟩ ∧
    CI.startsWith [0xC3, 0x9F] [0x73] = .ok false ∧ startsWith [0x53, 0x53] [0x53] = .ok true ∧
    CI.less [0xC3, 0x9F] [0x74] = .ok false ∧ decide (([0x53, 0x53] : Str) < [0x54]) = true := by decide +kernel

end Ystring
