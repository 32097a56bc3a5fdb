import Verif.Spec.NormalForm
import Verif.Props.Decomposition
import Verif.Props.ComposeLaws
/-
C107: to_decomposed and the normalization form D.
-/
namespace Ystring
open Spec

/-! ### The normalization form D is a function -/

/-- insert a mark in front of an ordered text -/
def insMark (a : Nat) : List Nat → List Nat
  | [] => [a]
  | b :: l => if 0 < combiningClass b ∧ combiningClass b < combiningClass a then b :: insMark a l else a :: b :: l

/-- canonical ordering by insertion -/
def sortMarks : List Nat → List Nat
  | [] => []
  | a :: l => insMark a (sortMarks l)

theorem insMark_comm (a b : Nat) (h0 : 0 < combiningClass b) (h : combiningClass b < combiningClass a) (l : List Nat) :
    insMark a (insMark b l) = insMark b (insMark a l) := by
  induction l with
  | nil =>
    simp only [insMark]
    rw [if_pos ⟨h0, h⟩, if_neg (by omega)]
  | cons c l ih =>
    by_cases hb : 0 < combiningClass c ∧ combiningClass c < combiningClass b
    · have ha : 0 < combiningClass c ∧ combiningClass c < combiningClass a := ⟨hb.1, by omega⟩
      simp only [insMark]
      rw [if_pos hb, if_pos ha]
      simp only [insMark]
      rw [if_pos hb, if_pos ha, ih]
    · by_cases ha : 0 < combiningClass c ∧ combiningClass c < combiningClass a
      · simp only [insMark]
        rw [if_neg hb, if_pos ha]
        simp only [insMark]
        rw [if_pos ⟨h0, h⟩, if_neg hb, if_pos ha]
      · simp only [insMark]
        rw [if_neg hb, if_neg ha]
        simp only [insMark]
        rw [if_pos ⟨h0, h⟩, if_neg (fun h' => by omega : ¬ (0 < combiningClass a ∧ combiningClass a < combiningClass b)), if_neg ha]

theorem reorder_sort {as bs : List Nat} (h : Reorder as bs) : sortMarks as = sortMarks bs := by
  cases h with
  | swap p a b q h0 h1 =>
    induction p with
    | nil => exact insMark_comm a b h0 h1 _
    | cons x p ih => simp only [List.cons_append, sortMarks, ih]

theorem reorders_sort {as bs : List Nat} (h : Reorders as bs) : sortMarks as = sortMarks bs := by
  induction h with
  | refl => rfl
  | step h _ ih => rw [reorder_sort h, ih]

theorem Spec.InOrder.tail {a : Nat} {l : List Nat} (h : InOrder (a :: l)) : InOrder l := by
  intro p x y q e
  exact h (a :: p) x y q (by rw [e]; rfl)

theorem inOrder_sort {as : List Nat} (h : InOrder as) : sortMarks as = as := by
  induction as with
  | nil => rfl
  | cons a l ih =>
    rw [sortMarks, ih h.tail]
    cases l with
    | nil => rfl
    | cons b l =>
      have := h [] a b l rfl
      rw [insMark, if_neg (by omega)]

theorem inOrder_cons {a b : Nat} {l : List Nat} (h : InOrder (b :: l)) (h1 : combiningClass b = 0 ∨ combiningClass a ≤ combiningClass b) :
    InOrder (a :: b :: l) := by
  intro p x y q e
  cases p with
  | nil => simp only [List.nil_append, List.cons.injEq] at e; obtain ⟨rfl, rfl, rfl⟩ := e; exact h1
  | cons z p => simp only [List.cons_append, List.cons.injEq] at e; exact h p x y q e.2

theorem inOrder_single (a : Nat) : InOrder [a] := by
  intro p x y q e
  have := congrArg List.length e
  simp at this
  omega

theorem insMark_inOrder (a : Nat) {l : List Nat} (h : InOrder l) : InOrder (insMark a l) := by
  induction l with
  | nil => exact inOrder_single a
  | cons b l ih =>
    rw [insMark]
    split
    · rename_i hb
      have ih := ih h.tail
      cases l with
      | nil => exact inOrder_cons (inOrder_single a) (by omega)
      | cons c l =>
        have h1 := h [] b c l rfl
        rw [insMark] at ih ⊢
        split
        · rename_i hc
          rw [if_pos hc] at ih
          exact inOrder_cons ih h1
        · rename_i hc
          rw [if_neg hc] at ih
          exact inOrder_cons ih (by omega)
    · exact inOrder_cons h (by omega)

theorem sortMarks_inOrder (l : List Nat) : InOrder (sortMarks l) := by
  induction l with
  | nil => intro p a b q e; have := congrArg List.length e; simp [sortMarks] at this
  | cons a l ih => exact insMark_inOrder a ih

theorem Spec.Reorders.cons {as bs : List Nat} (a : Nat) (h : Reorders as bs) : Reorders (a :: as) (a :: bs) := by
  induction h with
  | refl => exact .refl _
  | step h _ ih =>
    cases h with
    | swap p x y q h0 h1 => exact .step (.swap (a :: p) x y q h0 h1) ih

theorem Spec.Reorders.trans {as bs cs : List Nat} (h : Reorders as bs) (h' : Reorders bs cs) : Reorders as cs := by
  induction h with
  | refl => exact h'
  | step h _ ih => exact .step h (ih h')

theorem insMark_reorders (a : Nat) (l : List Nat) : Reorders (a :: l) (insMark a l) := by
  induction l with
  | nil => exact .refl _
  | cons b l ih =>
    rw [insMark]
    split
    · rename_i h
      exact .step (.swap [] a b l h.1 h.2) (ih.cons b)
    · exact .refl _

theorem sortMarks_reorders (l : List Nat) : Reorders l (sortMarks l) := by
  induction l with
  | nil => exact .refl _
  | cons a l ih => exact (ih.cons a).trans (insMark_reorders a _)

theorem Spec.CanonSeq.unique {cs ds es : List Nat} (h : CanonSeq cs ds) (h' : CanonSeq cs es) : ds = es := by
  induction h generalizing es with
  | nil => cases h'; rfl
  | cons h1 _ ih =>
    cases h' with
    | cons h2 h3 => rw [h1.unique h2, ih h3]

theorem nfd_iff {cs ms ds : List Nat} (h : CanonSeq cs ms) : NFD cs ds ↔ ds = sortMarks ms := by
  constructor
  · rintro ⟨ms', h1, h2, h3⟩
    rw [h.unique h1, reorders_sort h2, inOrder_sort h3]
  · rintro rfl
    exact ⟨ms, h, sortMarks_reorders ms, sortMarks_inOrder ms⟩

theorem mem_insMark {a x : Nat} {l : List Nat} : x ∈ insMark a l ↔ x = a ∨ x ∈ l := by
  induction l with
  | nil => simp [insMark]
  | cons b l ih =>
    rw [insMark]
    split
    · rw [List.mem_cons, ih, List.mem_cons]
      constructor
      · rintro (h | h | h) <;> simp [h]
      · rintro (h | h | h) <;> simp [h]
    · simp

theorem mem_sortMarks {x : Nat} {l : List Nat} : x ∈ sortMarks l ↔ x ∈ l := by
  induction l with
  | nil => simp [sortMarks]
  | cons a l ih => rw [sortMarks, mem_insMark, ih, List.mem_cons]

theorem canonSeq_atoms {cs ds : List Nat} (h : CanonSeq cs ds) : ∀ x ∈ ds, Atom x := by
  induction h with
  | nil => simp
  | cons h1 _ ih =>
    intro x hx
    rcases List.mem_append.mp hx with hx | hx
    · exact h1.atoms x hx
    · exact ih x hx

theorem canonSeq_self {ds : List Nat} (h : ∀ x ∈ ds, Atom x) : CanonSeq ds ds := by
  induction ds with
  | nil => exact .nil
  | cons d ds ih =>
    have h1 := h d (by simp)
    exact .cons (l := [d]) (.atom h1.1 h1.2.1 h1.2.2) (ih (fun x hx => h x (by simp [hx])))

/-- C107: the specification: every text has exactly one normalization form D, and that is its own normalization form. -/
theorem C107_spec (cs : List Nat) : ∃ ds, NFD cs ds ∧ (∀ es, NFD cs es → es = ds) ∧ NFD ds ds := by
  obtain ⟨ms, h⟩ := canonSeq_total cs
  refine ⟨sortMarks ms, (nfd_iff h).mpr rfl, fun es he => (nfd_iff h).mp he, sortMarks ms, ?_, .refl _, sortMarks_inOrder ms⟩
  exact canonSeq_self (fun x hx => canonSeq_atoms h x (mem_sortMarks.mp hx))

/-! ### to_decomposed -/

theorem canon_le {c l} (h : Canon c l) (hc : c ≤ 0x10FFFF) : ∀ x ∈ l, x ≤ 0x10FFFF := by
  induction h with
  | atom h1 h2 h3 => intro x hx; simp at hx; omega
  | single h _ ih => exact ih (by have := (singleOf_facts h).hd; omega)
  | pair h _ _ ih1 ih2 =>
    have f := pairOf_facts h
    have := f.hb; have := f.hm
    intro x hx
    rcases List.mem_append.mp hx with hx | hx
    · exact ih1 (by omega) x hx
    · exact ih2 (by omega) x hx
  | lv h h' => unfold IsHangul at h; intro x hx; simp at hx; omega
  | lvt h h' => unfold IsHangul at h; intro x hx; simp at hx; omega

theorem canonSeq_le {cs ds : List Nat} (h : CanonSeq cs ds) (hc : ∀ c ∈ cs, c ≤ 0x10FFFF) : ∀ x ∈ ds, x ≤ 0x10FFFF := by
  induction h with
  | nil => simp
  | cons h1 _ ih =>
    intro x hx
    rcases List.mem_append.mp hx with hx | hx
    · exact canon_le h1 (hc _ (by simp)) x hx
    · exact ih (fun c h => hc c (by simp [h])) x hx

theorem utf8_encodeAll {cs : List Nat} (h : ∀ c ∈ cs, c ≤ 0x10FFFF) : encodeAll (cs.map UInt32.ofNat) = utf8 cs := by
  unfold encodeAll utf8
  rw [List.flatMap_map]
  apply flatMap_congr'
  intro c hc
  have := h c hc
  rw [toNat_ofNat32 (by omega)]

theorem canonSeq_text {cs ds : List Nat} (h : CanonSeq cs ds) (hc : ∀ c ∈ cs, c ≤ 0x10FFFF) :
    CanonText (cs.map UInt32.ofNat) (ds.map UInt32.ofNat) := by
  induction h with
  | nil => exact .nil
  | @cons c l cs ds h1 _ ih =>
    have := hc c (by simp)
    rw [List.map_cons, List.map_append]
    exact .cons (by rw [toNat_ofNat32 (by omega)]; exact h1) (ih (fun d hd => hc d (by simp [hd])))

theorem lib_supported {cs ds : List Char32} (h : LibText cs ds) (hd : ∀ x ∈ ds, Atom x.toNat) :
    (∀ c ∈ cs, Supported c.toNat) ∧ CanonText cs ds := by
  induction h with
  | nil => exact ⟨by simp, .nil⟩
  | @keep c cs ds hk _ ih =>
    have := hd c (by simp)
    rcases hk with hk | hk
    · exact absurd this.2.1 hk
    · exact absurd hk this.2.2
  | @cons c l cs ds h1 h2 h3 h4 _ ih =>
    obtain ⟨ih1, ih2⟩ := ih (fun x hx => hd x (by simp [hx]))
    refine ⟨?_, .cons h3 ih2⟩
    intro x hx
    rcases List.mem_cons.mp hx with rfl | hx
    · exact ⟨h1, h2, fun k hk => by rw [hk.unique h3]; exact h4⟩
    · exact ih1 x hx

theorem canonText_seq {cs ds : List Char32} (h : CanonText cs ds) : CanonSeq (cs.map UInt32.toNat) (ds.map UInt32.toNat) := by
  induction h with
  | nil => exact .nil
  | @cons c l cs ds h1 _ ih =>
    rw [List.map_cons, List.map_append, List.map_map]
    have : l.map (UInt32.toNat ∘ UInt32.ofNat) = l := by
      have := h1.lt c.toNat_lt
      rw [List.map_congr_left (g := id)]
      · simp
      · intro x hx; exact toNat_ofNat32 (this x hx)
    rw [this]
    exact .cons h1 ih

theorem map_toNat_ofNat {cs : List Nat} (h : ∀ c ∈ cs, c ≤ 0x10FFFF) : (cs.map UInt32.ofNat).map UInt32.toNat = cs := by
  rw [List.map_map, List.map_congr_left (g := id)]
  · simp
  · intro x hx; have := h x hx; exact toNat_ofNat32 (by omega)

theorem map_ofNat_toNat (cs : List Char32) : (cs.map UInt32.toNat).map UInt32.ofNat = cs := by
  rw [List.map_map, List.map_congr_left (g := id)]
  · simp
  · intro x hx; simp

/-- C107: exactly when to_decomposed returns the normalization form D: when no code point is a singleton, a Hangul syllable
or has more than three components, and the decompositions put one behind the other are already in canonical order. -/
theorem C107_exact (cs ds : List Nat) (hcs : ∀ c ∈ cs, c ≤ 0x10FFFF) (h : NFD cs ds) (g : Nat) :
    toDecomposed (utf8 cs) (g + 1) = .ok (utf8 ds) ↔
      (∀ c ∈ cs, Supported c) ∧ ∃ ms, CanonSeq cs ms ∧ InOrder ms := by
  have hn : ∀ x ∈ cs.map UInt32.ofNat, x.toNat ≤ 0x10FFFF := by
    intro x hx
    obtain ⟨c, hc, rfl⟩ := List.mem_map.mp hx
    have := hcs c hc
    rw [toNat_ofNat32 (by omega)]; exact this
  obtain ⟨ms, hm⟩ := canonSeq_total cs
  have hds := (nfd_iff hm).mp h
  have hmle := canonSeq_le hm hcs
  constructor
  · intro e
    rw [← utf8_encodeAll hcs] at e
    rcases C54_cases (cs.map UInt32.ofNat) with ⟨es, hl⟩ | ⟨c, hc, l, h1, h2, h3, h4⟩
    · rw [C54_to_decomposed_partial _ _ hn hl g] at e
      have e := Except.ok.inj e
      have hb : ∀ x ∈ es, x.toNat ≤ 0x10FFFF := by
        rw [(lib_chain hl).2]
        intro x hx
        obtain ⟨c, hc, hx⟩ := List.mem_flatMap.mp hx
        obtain ⟨y, hy, rfl⟩ := List.mem_map.mp hx
        have := hn c hc
        have hy' : y ≤ 0x10FFFF := by
          by_cases h1 : (chainOf c.toNat).length = 1
          · have hch := chainOf_spec c.toNat
            generalize chainOf c.toNat = l at *
            cases hch <;> simp at h1 hy
            omega
          · exact chain_bound (chainOf_spec _) h1 y hy
        rw [toNat_ofNat32 (by omega)]; exact hy'
      have hdle : ∀ x ∈ ds, x ≤ 0x10FFFF := by
        intro x hx
        rw [hds] at hx
        exact hmle x (mem_sortMarks.mp hx)
      have hmap : ∀ x ∈ es.map UInt32.toNat, x ≤ 0x10FFFF := by
        intro x hx
        obtain ⟨c, hc, rfl⟩ := List.mem_map.mp hx
        exact hb c hc
      have e2 : es.map UInt32.toNat = ds := by
        apply utf8_inj hmap hdle
        rw [← e, ← utf8_encodeAll hmap, map_ofNat_toNat]
      have hat : ∀ x ∈ es, Atom x.toNat := by
        intro x hx
        have : x.toNat ∈ ds := by rw [← e2]; exact List.mem_map.mpr ⟨x, hx, rfl⟩
        rw [hds] at this
        exact canonSeq_atoms hm _ (mem_sortMarks.mp this)
      obtain ⟨s1, s2⟩ := lib_supported hl hat
      refine ⟨?_, ds, ?_, ?_⟩
      · intro c hc
        have := s1 _ (List.mem_map.mpr ⟨c, hc, rfl⟩)
        have hle := hcs c hc
        rwa [toNat_ofNat32 (by omega)] at this
      · have := canonText_seq s2
        rwa [map_toNat_ofNat hcs, e2] at this
      · rw [hds]; exact sortMarks_inOrder ms
    · rw [C54_false_diverges _ hn c hc l h1 h2 h3 h4] at e
      cases e
  · rintro ⟨h1, ms', h2, h3⟩
    have := hm.unique h2
    subst this
    have : ds = ms := by rw [hds, inOrder_sort h3]
    subst this
    have := C54_to_decomposed_canon_partial _ _ hn (canonSeq_text hm hcs) (by
      intro x hx
      obtain ⟨c, hc, rfl⟩ := List.mem_map.mp hx
      have hle := hcs c hc
      rw [toNat_ofNat32 (by omega)]
      exact h1 c hc) g
    rwa [utf8_encodeAll hcs, utf8_encodeAll hmle] at this

/-! ### When the decompositions are in order -/

/-- in order, as a test -/
def orderB (a b : Nat) : Bool := Nat.beq (combiningClass b) 0 || Nat.ble (combiningClass a) (combiningClass b)

theorem orderB_iff (a b : Nat) : orderB a b = true ↔ combiningClass b = 0 ∨ combiningClass a ≤ combiningClass b := by
  unfold orderB
  rw [Bool.or_eq_true, Nat.beq_eq, Nat.ble_eq]

/-- the code points that have a class -/
def classMask : Nat := maskOf (UD_CCC.flatMap (fun r => List.range' r.1 (r.2.1 + 1 - r.1)))

theorem class_zero {c : Nat} (h : inMask classMask c = false) : combiningClass c = 0 := by
  unfold classMask at h
  have h1 : ¬ c ∈ UD_CCC.flatMap (fun r => List.range' r.1 (r.2.1 + 1 - r.1)) := by
    rw [← inMask_iff, h]; simp
  unfold combiningClass
  have : UD_CCC.find? (fun r => Nat.ble r.1 c && Nat.ble c r.2.1) = none := by
    rw [List.find?_eq_none]
    intro r hr h2
    simp only [Bool.and_eq_true, Nat.ble_eq] at h2
    refine h1 (List.mem_flatMap.mpr ⟨r, hr, ?_⟩)
    rw [List.mem_range'_1]
    omega
  rw [this]

theorem pairs_order' : (let m := classMask; UD_PAIRS.all (fun p => !inMask m p.2.1 || orderB p.2.1 p.2.2)) = true := by
  decide +kernel

theorem pairs_order {p : Nat × Nat × Nat} (h : p ∈ UD_PAIRS) : orderB p.2.1 p.2.2 = true := by
  have := List.all_eq_true.mp pairs_order' p h
  rw [Bool.or_eq_true] at this
  rcases this with h | h
  · have := class_zero (c := p.2.1) (by simpa using h)
    rw [orderB_iff]; omega
  · exact h

theorem deep_order : deepPairs.all (fun p => match pairOf p.2.1 with
    | some q => orderB q.2 p.2.2
    | none => true) = true := by decide +kernel

theorem jamo_classes : UD_CCC.all (fun r => Nat.blt r.2.1 0x1100 || Nat.blt 0x11FF r.1) = true := by decide +kernel

theorem class_jamo {c : Nat} (h1 : 0x1100 ≤ c) (h2 : c ≤ 0x11FF) : combiningClass c = 0 := by
  unfold combiningClass
  have : UD_CCC.find? (fun r => Nat.ble r.1 c && Nat.ble c r.2.1) = none := by
    rw [List.find?_eq_none]
    intro r hr
    have := List.all_eq_true.mp jamo_classes r hr
    simp only [Bool.or_eq_true, Nat.blt_eq] at this
    simp only [Bool.and_eq_true, Nat.ble_eq]
    omega
  rw [this]

theorem pair_order {c b m : Nat} (h : pairOf c = some (b, m)) : combiningClass m = 0 ∨ combiningClass b ≤ combiningClass m :=
  (orderB_iff b m).mp (pairs_order (pairOf_mem h))

theorem pair_order2 {c b m b2 m2 : Nat} (h : pairOf c = some (b, m)) (h2 : pairOf b = some (b2, m2)) :
    combiningClass m = 0 ∨ combiningClass m2 ≤ combiningClass m := by
  have hd : (c, b, m) ∈ deepPairs := by
    unfold deepPairs
    simp only [List.mem_filter]
    refine ⟨pairOf_mem h, ?_⟩
    cases hb : inMask pairMask b with
    | true => rfl
    | false => rw [pairMask_iff] at hb; rw [hb] at h2; simp at h2
  have := List.all_eq_true.mp deep_order _ hd
  simp only [h2] at this
  exact (orderB_iff m2 m).mp this

theorem chain_inOrder {c : Nat} {l : List Nat} (h : Chain4 c l) : InOrder l := by
  cases h with
  | d0 => exact inOrder_single c
  | d1 h1 h2 => exact inOrder_cons (inOrder_single _) (pair_order h1)
  | d2 h1 h2 h3 => exact inOrder_cons (inOrder_cons (inOrder_single _) (pair_order2 h1 h2)) (pair_order h2)
  | d3 h1 h2 h3 h4 =>
    exact inOrder_cons (inOrder_cons (inOrder_cons (inOrder_single _) (pair_order2 h1 h2)) (pair_order2 h2 h3)) (pair_order h3)

/-- C107: every canonical decomposition of one code point is in canonical order. -/
theorem C107_one (c : Nat) (l : List Nat) (h : Canon c l) : InOrder l := by
  by_cases h2 : IsHangul c
  · unfold IsHangul at h2
    have h3 : IsHangul c := h2
    cases h with
    | atom _ _ h => exact absurd h3 h
    | single h _ => exact absurd h3 (singleOf_facts h).chan
    | pair h _ _ => exact absurd h3 (pairOf_facts h).chan
    | lv => exact inOrder_cons (inOrder_single _) (.inl (class_jamo (by omega) (by omega)))
    | lvt =>
      exact inOrder_cons (inOrder_cons (inOrder_single _) (.inl (class_jamo (by omega) (by omega))))
        (.inl (class_jamo (by omega) (by omega)))
  · by_cases h1 : singleOf c = none
    · exact chain_inOrder (canon_chain h h1 h2)
    · cases h with
      | atom _ h _ => exact absurd h h1
      | single hs h => exact chain_inOrder (canon_chain h (singleOf_facts hs).dsingle (singleOf_facts hs).dhan)
      | pair h _ _ => exact absurd (pairOf_facts h).csingle h1
      | lv h => exact absurd h h2
      | lvt h => exact absurd h h2

theorem canon_ne_nil {c : Nat} {l : List Nat} (h : Canon c l) : l ≠ [] := by
  induction h with
  | atom => simp
  | single _ _ ih => exact ih
  | pair _ _ _ ih _ => simp [ih]
  | lv => simp
  | lvt => simp

theorem inOrder_append {l k : List Nat} : InOrder (l ++ k) ↔ InOrder l ∧ InOrder k ∧
    ∀ p a b q, l = p ++ [a] → k = b :: q → combiningClass b = 0 ∨ combiningClass a ≤ combiningClass b := by
  constructor
  · intro h
    refine ⟨?_, ?_, ?_⟩
    · intro p a b q e; exact h p a b (q ++ k) (by rw [e]; simp)
    · intro p a b q e; exact h (l ++ p) a b q (by rw [e]; simp)
    · rintro p a b q rfl rfl; exact h p a b q (by simp)
  · rintro ⟨h1, h2, h3⟩ p a b q e
    rcases List.append_eq_append_iff.mp e with ⟨t, e1, e2⟩ | ⟨t, e1, e2⟩
    · exact h2 t a b q e2
    · cases t with
      | nil => exact h2 [] a b q e2.symm
      | cons x t =>
        cases t with
        | nil =>
          simp only [List.cons_append, List.nil_append, List.cons.injEq] at e2
          obtain ⟨rfl, e2⟩ := e2
          exact h3 p a b q e1 e2.symm
        | cons y t =>
          simp only [List.cons_append, List.cons.injEq] at e2
          obtain ⟨rfl, rfl, e2⟩ := e2
          exact h1 p a b t e1

/-- C107: the order has to be looked at only between neighbouring code points. -/
theorem C107_neighbours (cs ms : List Nat) (h : CanonSeq cs ms) :
    InOrder ms ↔ ∀ p c d q l k, cs = p ++ c :: d :: q → Canon c l → Canon d k → InOrder (l ++ k) := by
  induction h with
  | nil =>
    constructor
    · intro _ p c d q l k e
      have := congrArg List.length e
      simp at this
    · intro _ p a b q e
      have := congrArg List.length e
      simp at this
  | @cons c l cs ds h1 hs ih =>
    rw [inOrder_append, ih]
    constructor
    · rintro ⟨a1, a2, a3⟩ p x y q l2 k e hx hy
      cases p with
      | cons z p =>
        simp only [List.cons_append, List.cons.injEq] at e
        exact a2 p x y q l2 k e.2 hx hy
      | nil =>
        simp only [List.nil_append, List.cons.injEq] at e
        obtain ⟨rfl, rfl⟩ := e
        cases hs with
        | cons h2 h3 =>
          have e1 := h1.unique hx
          have e2 := h2.unique hy
          subst e1 e2
          rw [inOrder_append]
          refine ⟨a1, C107_one _ _ hy, ?_⟩
          intro p a b q e1 e2
          exact a3 p a b (q ++ _) e1 (by rw [e2]; rfl)
    · intro h
      refine ⟨C107_one _ _ h1, ?_, ?_⟩
      · intro p x y q l2 k e
        exact h (c :: p) x y q l2 k (by rw [e]; rfl)
      · intro p a b q e1 e2
        cases hs with
        | nil => cases e2
        | @cons d k cs es h2 h3 =>
          have := h [] c d cs l k rfl h1 h2
          rw [inOrder_append] at this
          cases k with
          | nil => exact absurd rfl (canon_ne_nil h2)
          | cons y k =>
            simp only [List.cons_append, List.cons.injEq] at e2
            exact this.2.2 p a b k e1 (by rw [e2.1])

/-! ### Canonical equivalence -/

theorem canonSeq_append {as bs cs ds : List Nat} (h : CanonSeq as bs) (h' : CanonSeq cs ds) : CanonSeq (as ++ cs) (bs ++ ds) := by
  induction h with
  | nil => exact h'
  | cons h1 _ ih => rw [List.cons_append, List.append_assoc]; exact .cons h1 ih

theorem lib_canonSeq {cs ds : List Char32} (h : LibText cs ds) :
    ∃ ms, CanonSeq (cs.map UInt32.toNat) ms ∧ CanonSeq (ds.map UInt32.toNat) ms := by
  induction h with
  | nil => exact ⟨[], .nil, .nil⟩
  | @keep c cs ds hk _ ih =>
    obtain ⟨ms, h1, h2⟩ := ih
    obtain ⟨l, hl⟩ := canon_total c.toNat
    exact ⟨l ++ ms, .cons hl h1, .cons hl h2⟩
  | @cons c l cs ds _ _ h3 _ _ ih =>
    obtain ⟨ms, h1, h2⟩ := ih
    refine ⟨l ++ ms, .cons h3 h1, ?_⟩
    rw [List.map_append]
    refine canonSeq_append ?_ h2
    have : (l.map UInt32.ofNat).map UInt32.toNat = l := by
      have := h3.lt c.toNat_lt
      rw [List.map_map, List.map_congr_left (g := id)]
      · simp
      · intro x hx; exact toNat_ofNat32 (this x hx)
    rw [this]
    exact canonSeq_self h3.atoms

/-- C107: whatever to_decomposed returns is canonically equivalent to its argument. -/
theorem C107_keeps (cs : List Nat) (hcs : ∀ c ∈ cs, c ≤ 0x10FFFF) (g : Nat) (t : Str)
    (h : toDecomposed (utf8 cs) (g + 1) = .ok t) : ∃ ds, (∀ d ∈ ds, d ≤ 0x10FFFF) ∧ t = utf8 ds ∧ CanonEquivalent cs ds := by
  have hn : ∀ x ∈ cs.map UInt32.ofNat, x.toNat ≤ 0x10FFFF := by
    intro x hx
    obtain ⟨c, hc, rfl⟩ := List.mem_map.mp hx
    have := hcs c hc
    rw [toNat_ofNat32 (by omega)]; exact this
  rw [← utf8_encodeAll hcs] at h
  rcases C54_cases (cs.map UInt32.ofNat) with ⟨es, hl⟩ | ⟨c, hc, l, h1, h2, h3, h4⟩
  · rw [C54_to_decomposed_partial _ _ hn hl g] at h
    have h := Except.ok.inj h
    obtain ⟨ms, h1, h2⟩ := lib_canonSeq hl
    rw [map_toNat_ofNat hcs] at h1
    have hb : ∀ x ∈ es.map UInt32.toNat, x ≤ 0x10FFFF := by
      intro x hx
      obtain ⟨e, he, rfl⟩ := List.mem_map.mp hx
      rw [(lib_chain hl).2] at he
      obtain ⟨c, hc, hx⟩ := List.mem_flatMap.mp he
      obtain ⟨y, hy, rfl⟩ := List.mem_map.mp hx
      have := hn c hc
      have hy' : y ≤ 0x10FFFF := by
        by_cases h1 : (chainOf c.toNat).length = 1
        · have hch := chainOf_spec c.toNat
          generalize chainOf c.toNat = l at *
          cases hch <;> simp at h1 hy
          omega
        · exact chain_bound (chainOf_spec _) h1 y hy
      rw [toNat_ofNat32 (by omega)]; exact hy'
    refine ⟨es.map UInt32.toNat, hb, ?_, sortMarks ms, (nfd_iff h1).mpr rfl, (nfd_iff h2).mpr rfl⟩
    rw [← h, ← utf8_encodeAll hb, map_ofNat_toNat]
  · rw [C54_false_diverges _ hn c hc l h1 h2 h3 h4] at h
    cases h

theorem Spec.CanonEquivalent.symm {as bs : List Nat} (h : CanonEquivalent as bs) : CanonEquivalent bs as := by
  obtain ⟨d, h1, h2⟩ := h; exact ⟨d, h2, h1⟩

theorem Spec.CanonEquivalent.trans {as bs cs : List Nat} (h : CanonEquivalent as bs) (h' : CanonEquivalent bs cs) :
    CanonEquivalent as cs := by
  obtain ⟨d, h1, h2⟩ := h
  obtain ⟨e, h3, h4⟩ := h'
  obtain ⟨f, _, hf, _⟩ := C107_spec bs
  have : d = e := by rw [hf d h2, hf e h3]
  subst this
  exact ⟨d, h1, h4⟩

/-- C107: texts with the same result of to_decomposed are canonically equivalent. -/
theorem C107_sound (as bs : List Nat) (ha : ∀ c ∈ as, c ≤ 0x10FFFF) (hb : ∀ c ∈ bs, c ≤ 0x10FFFF) (g : Nat) (t : Str)
    (h1 : toDecomposed (utf8 as) (g + 1) = .ok t) (h2 : toDecomposed (utf8 bs) (g + 1) = .ok t) : CanonEquivalent as bs := by
  obtain ⟨ds, hd, e1, h3⟩ := C107_keeps as ha g t h1
  obtain ⟨es, he, e2, h4⟩ := C107_keeps bs hb g t h2
  have := utf8_inj hd he (by rw [← e1, e2])
  subst this
  exact h3.trans h4.symm

/-- C107 (partial): for the texts of C107_exact, equality after to_decomposed is canonical equivalence. Missing: texts with other
code points or marks in another order, for which it is false (C107_false). -/
theorem C107_equivalence_partial (as bs : List Nat) (ha : ∀ c ∈ as, c ≤ 0x10FFFF ∧ Supported c) (hb : ∀ c ∈ bs, c ≤ 0x10FFFF ∧ Supported c)
    (ha2 : ∃ ms, CanonSeq as ms ∧ InOrder ms) (hb2 : ∃ ms, CanonSeq bs ms ∧ InOrder ms) (g : Nat) :
    toDecomposed (utf8 as) (g + 1) = toDecomposed (utf8 bs) (g + 1) ↔ CanonEquivalent as bs := by
  obtain ⟨ds, h1, h2, _⟩ := C107_spec as
  obtain ⟨es, h3, h4, _⟩ := C107_spec bs
  have r1 := (C107_exact as ds (fun c hc => (ha c hc).1) h1 g).mpr ⟨fun c hc => (ha c hc).2, ha2⟩
  have r2 := (C107_exact bs es (fun c hc => (hb c hc).1) h3 g).mpr ⟨fun c hc => (hb c hc).2, hb2⟩
  constructor
  · intro e
    exact C107_sound as bs (fun c hc => (ha c hc).1) (fun c hc => (hb c hc).1) g _ r1 (by rw [← e, r1])
  · rintro ⟨fs, h5, h6⟩
    rw [r1, r2, ← h2 fs h5, ← h4 fs h6]

/-! ### Texts of starters -/

theorem starters_table : (let m := classMask; UD_PAIRS.all (fun p => inMask m p.1 || Nat.beq p.1 0xF73 || Nat.beq p.1 0xF75 ||
    Nat.beq p.1 0xF81 || (!inMask m p.2.1 && !Nat.beq p.2.1 0xF73 && !Nat.beq p.2.1 0xF75 && !Nat.beq p.2.1 0xF81))) = true := by
  decide +kernel

theorem class_nonzero : UD_CCC.all (fun r => Nat.blt 0 r.2.2) = true := by decide +kernel

theorem mask_of_zero {c : Nat} (h : combiningClass c = 0) : inMask classMask c = false := by
  cases hm : inMask classMask c with
  | false => rfl
  | true =>
    unfold classMask at hm
    rw [inMask_iff] at hm
    obtain ⟨r, hr, hc⟩ := List.mem_flatMap.mp hm
    rw [List.mem_range'_1] at hc
    unfold combiningClass at h
    cases hf : UD_CCC.find? (fun r => Nat.ble r.1 c && Nat.ble c r.2.1) with
    | none =>
      rw [List.find?_eq_none] at hf
      have := hf r hr
      simp only [Bool.and_eq_true, Nat.ble_eq] at this
      omega
    | some r' =>
      rw [hf] at h
      have := List.all_eq_true.mp class_nonzero r' (List.mem_of_find?_eq_some hf)
      rw [Nat.blt_eq] at this
      simp only at h
      omega

theorem plain_base {c b m : Nat} (h : PlainStarter c) (h' : pairOf c = some (b, m)) : PlainStarter b := by
  have := List.all_eq_true.mp starters_table _ (pairOf_mem h')
  obtain ⟨h0, h1, h2, h3⟩ := h
  have n : ∀ x y : Nat, Nat.beq x y = false ↔ x ≠ y := by
    intro x y
    rw [← Bool.not_eq_true, Nat.beq_eq]
  simp only [Bool.or_eq_true, Bool.and_eq_true, Bool.not_eq_true', mask_of_zero h0, Nat.beq_eq, n] at this
  rcases this with (((h | h) | h) | h) | h
  · cases h
  · exact absurd h h1
  · exact absurd h h2
  · exact absurd h h3
  · exact ⟨class_zero h.1.1.1, h.1.1.2, h.1.2, h.2⟩

theorem chain_head {c : Nat} {l : List Nat} (h : PlainStarter c) (hl : Chain4 c l) : ∃ x k, l = x :: k ∧ combiningClass x = 0 := by
  cases hl with
  | d0 => exact ⟨_, _, rfl, h.1⟩
  | d1 h1 => exact ⟨_, _, rfl, (plain_base h h1).1⟩
  | d2 h1 h2 => exact ⟨_, _, rfl, (plain_base (plain_base h h1) h2).1⟩
  | d3 h1 h2 h3 => exact ⟨_, _, rfl, (plain_base (plain_base (plain_base h h1) h2) h3).1⟩

/-- C107: ordinary text. If every code point that is not a plain starter comes directly behind a starter without
decomposition (so: a letter with at most one separate mark, or a precomposed letter without), to_decomposed returns the
normalization form D. -/
theorem C107_plain (cs ds : List Nat) (hcs : ∀ c ∈ cs, c ≤ 0x10FFFF ∧ Supported c)
    (hp : ∀ p c d q, cs = p ++ c :: d :: q → PlainStarter d ∨ (Canon c [c] ∧ combiningClass c = 0)) (h : NFD cs ds) (g : Nat) :
    toDecomposed (utf8 cs) (g + 1) = .ok (utf8 ds) := by
  obtain ⟨ms, hm⟩ := canonSeq_total cs
  refine (C107_exact cs ds (fun c hc => (hcs c hc).1) h g).mpr ⟨fun c hc => (hcs c hc).2, ms, hm, ?_⟩
  rw [C107_neighbours cs ms hm]
  intro p c d q l k e hl hk
  have hs : Supported d := (hcs d (by rw [e]; simp)).2
  rw [inOrder_append]
  refine ⟨C107_one _ _ hl, C107_one _ _ hk, ?_⟩
  intro p' a b q' e1 e2
  rcases hp p c d q e with h1 | ⟨h1, h2⟩
  · obtain ⟨x, k', e3, h3⟩ := chain_head h1 (canon_chain hk hs.1 hs.2.1)
    rw [e2] at e3
    simp only [List.cons.injEq] at e3
    rw [e3.1]; exact .inl h3
  · have e3 := hl.unique h1
    rw [e1] at e3
    cases p' with
    | nil =>
      simp only [List.nil_append, List.cons.injEq] at e3
      rw [e3.1]; omega
    | cons y p' =>
      have := congrArg List.length e3
      simp at this

/-! ### Where it fails -/

theorem atom_canon {c : Nat} (h1 : pairOf c = none) (h2 : singleOf c = none) (h3 : ¬ IsHangul c) : Canon c [c] := .atom h1 h2 h3

theorem nfd_marks : NFD [0x61, 0x301, 0x323] [0x61, 0x323, 0x301] := by
  refine ⟨[0x61, 0x301, 0x323], canonSeq_self ?_, .step (.swap [0x61] 0x301 0x323 [] (by decide +kernel) (by decide +kernel)) (.refl _), ?_⟩
  · intro x hx
    simp only [List.mem_cons, List.not_mem_nil, or_false] at hx
    rcases hx with rfl | rfl | rfl <;> exact ⟨by decide +kernel, by decide +kernel, by unfold IsHangul; omega⟩
  · exact inOrder_cons (inOrder_cons (inOrder_single _) (.inr (by decide +kernel))) (.inr (by decide +kernel))

theorem nfd_marks' : NFD [0x61, 0x323, 0x301] [0x61, 0x323, 0x301] := by
  obtain ⟨ds, h1, h2, h3⟩ := C107_spec [0x61, 0x301, 0x323]
  have := h2 _ nfd_marks
  rwa [← this] at h3

theorem canonSeq_marks : CanonSeq [0x61, 0x301, 0x323] [0x61, 0x301, 0x323] := by
  apply canonSeq_self
  intro x hx
  simp only [List.mem_cons, List.not_mem_nil, or_false] at hx
  rcases hx with rfl | rfl | rfl <;> exact ⟨by decide +kernel, by decide +kernel, by unfold IsHangul; omega⟩

theorem dec_marks_example (g : Nat) :
    toDecomposed (utf8 [0x61, 0x323, 0x301]) (g + 1) = .ok (utf8 [0x61, 0x323, 0x301]) := by
  refine (C107_exact _ _ (by intro c hc; simp only [List.mem_cons, List.not_mem_nil, or_false] at hc; omega) nfd_marks' g).mpr ⟨?_, ?_⟩
  · intro c hc
    simp only [List.mem_cons, List.not_mem_nil, or_false] at hc
    have : ∀ c, Atom c → Supported c := fun c h =>
      ⟨h.2.1, h.2.2, fun l hl => by rw [hl.unique (.atom h.1 h.2.1 h.2.2)]; simp⟩
    rcases hc with rfl | rfl | rfl <;> exact this _ ⟨by decide +kernel, by decide +kernel, by unfold IsHangul; omega⟩
  · obtain ⟨ms, h1, h2, h3⟩ := nfd_marks'
    refine ⟨[0x61, 0x323, 0x301], canonSeq_self ?_, h3⟩
    intro x hx
    simp only [List.mem_cons, List.not_mem_nil, or_false] at hx
    rcases hx with rfl | rfl | rfl <;> exact ⟨by decide +kernel, by decide +kernel, by unfold IsHangul; omega⟩

/-- C107 is false as stated: to_decomposed never exchanges marks. The texts a ◌́ ◌̣ and a ◌̣ ◌́ are canonically equivalent,
but to_decomposed returns both unchanged. -/
theorem C107_false (g : Nat) :
    ¬ (∀ cs ds : List Nat, (∀ c ∈ cs, IsScalar c) → NFD cs ds → toDecomposed (utf8 cs) (g + 1) = .ok (utf8 ds)) ∧
    CanonEquivalent [0x61, 0x301, 0x323] [0x61, 0x323, 0x301] ∧
    toDecomposed (utf8 [0x61, 0x301, 0x323]) (g + 1) ≠ toDecomposed (utf8 [0x61, 0x323, 0x301]) (g + 1) := by
  have hx : ¬ toDecomposed (utf8 [0x61, 0x301, 0x323]) (g + 1) = .ok (utf8 [0x61, 0x323, 0x301]) := by
    rw [C107_exact _ _ (by intro c hc; simp only [List.mem_cons, List.not_mem_nil, or_false] at hc; omega) nfd_marks g]
    rintro ⟨_, ms, h1, h2⟩
    rw [← canonSeq_marks.unique h1] at h2
    have := h2 [0x61] 0x301 0x323 [] rfl
    revert this
    decide +kernel
  refine ⟨?_, ⟨_, nfd_marks, nfd_marks'⟩, ?_⟩
  · intro h
    refine hx (h _ _ ?_ nfd_marks)
    intro c hc
    simp only [List.mem_cons, List.not_mem_nil, or_false] at hc
    unfold IsScalar
    omega
  · rw [dec_marks_example g]
    exact hx

/-! ### The hypotheses can be met -/

theorem supported_atom {c : Nat} (h : Canon c [c]) (h1 : singleOf c = none) (h2 : ¬ IsHangul c) : Supported c :=
  ⟨h1, h2, fun l hl => by rw [hl.unique h]; simp⟩

theorem canon_E9 : Canon 0xE9 [0x65, 0x301] :=
  .pair (b := 0x65) (m := 0x301) (l := [0x65]) (k := [0x301]) (by decide +kernel)
    (.atom (by decide +kernel) (by decide +kernel) (by unfold IsHangul; omega))
    (.atom (by decide +kernel) (by decide +kernel) (by unfold IsHangul; omega))

theorem canonSeq_E9 : CanonSeq [0xE9, 0x78, 0x301] [0x65, 0x301, 0x78, 0x301] :=
  .cons (l := [0x65, 0x301]) canon_E9 (.cons (l := [0x78]) (.atom (by decide +kernel) (by decide +kernel) (by unfold IsHangul; omega))
    (.cons (l := [0x301]) (.atom (by decide +kernel) (by decide +kernel) (by unfold IsHangul; omega)) .nil))

/- é x ◌́ meets the hypotheses of C107_plain, so also those of C107_exact. -/
example (g : Nat) : toDecomposed (utf8 [0xE9, 0x78, 0x301]) (g + 1) = .ok (utf8 [0x65, 0x301, 0x78, 0x301]) := by
  refine C107_plain _ _ ?_ ?_ ⟨_, canonSeq_E9, .refl _, ?_⟩ g
  · intro c hc
    simp only [List.mem_cons, List.not_mem_nil, or_false] at hc
    rcases hc with rfl | rfl | rfl
    · exact ⟨by omega, by decide +kernel, by unfold IsHangul; omega, fun l hl => by rw [hl.unique canon_E9]; simp⟩
    · exact ⟨by omega, supported_atom (.atom (by decide +kernel) (by decide +kernel) (by unfold IsHangul; omega)) (by decide +kernel)
        (by unfold IsHangul; omega)⟩
    · exact ⟨by omega, supported_atom (.atom (by decide +kernel) (by decide +kernel) (by unfold IsHangul; omega)) (by decide +kernel)
        (by unfold IsHangul; omega)⟩
  · intro p c d q e
    match p with
    | [] =>
      simp only [List.nil_append, List.cons.injEq] at e
      rw [← e.2.1]
      exact .inl ⟨by decide +kernel, by omega, by omega, by omega⟩
    | [x] =>
      simp only [List.cons_append, List.nil_append, List.cons.injEq] at e
      rw [← e.2.1]
      exact .inr ⟨.atom (by decide +kernel) (by decide +kernel) (by unfold IsHangul; omega), by decide +kernel⟩
    | x :: y :: p =>
      have := congrArg List.length e
      simp at this
      omega
  · exact inOrder_cons (inOrder_cons (inOrder_cons (inOrder_single _) (.inr (by decide +kernel))) (.inl (by decide +kernel)))
      (.inr (by decide +kernel))

end Ystring
