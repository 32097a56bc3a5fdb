import Verif.Props.ComposeEquivalence
import Verif.Props.ComposeLaws
/-
C55 and C102, continued: to_composed on every text, including code points of plane 16.
-/
namespace Ystring
open Spec
attribute [local irreducible] TO_DECOMPOSED TO_COMPOSED UD_PAIRS UD_SINGLETONS

theorem or_one_lt (b : Nat) (hb : b < 2 ^ 21) : b ||| 1 < 2 ^ 21 := Nat.or_lt_two_pow hb (by decide)

theorem or_one (b : Nat) : b ||| 1 = b / 2 * 2 + 1 := by
  have h : b = 2 * (b / 2) + b % 2 := by omega
  have h2 : b ||| 1 = 2 * (b / 2) ||| 1 := by
    have := Nat.mod_two_eq_zero_or_one b
    apply Nat.eq_of_testBit_eq
    intro i
    rw [Nat.testBit_or, Nat.testBit_or]
    cases i with
    | zero => simp
    | succ i =>
      rw [Nat.testBit_succ, Nat.testBit_succ (x := 2 * (b / 2))]
      have : 2 * (b / 2) / 2 = b / 2 := by omega
      rw [this]
  rw [h2]
  have := Nat.two_pow_add_eq_or_of_lt (i := 1) (b := 1) (by decide) (b / 2)
  rw [Nat.pow_one] at this
  rw [← this]; omega

theorem key_high (b m : Nat) (hb : b < 2 ^ 21) (h1 : 2 ^ 20 ≤ m) (h2 : m < 2 ^ 21) :
    (b * 2 ^ 20 % 2 ^ 64) ||| m = (b ||| 1) * 2 ^ 20 + (m - 2 ^ 20) := by
  rw [Nat.mod_eq_of_lt (by omega)]
  have e : m = 2 ^ 20 * 1 ||| (m - 2 ^ 20) := by
    rw [← Nat.two_pow_add_eq_or_of_lt (by omega)]; omega
  rw [e, Nat.mul_comm b, ← Nat.or_assoc]
  have e2 : 2 ^ 20 * b ||| 2 ^ 20 * 1 = 2 ^ 20 * (b ||| 1) := by
    rw [Nat.mul_comm _ b, Nat.mul_comm _ 1, Nat.mul_comm _ (b ||| 1), ← Nat.shiftLeft_eq, ← Nat.shiftLeft_eq, ← Nat.shiftLeft_eq,
      Nat.shiftLeft_or_distrib]
  rw [e2, ← e, ← Nat.two_pow_add_eq_or_of_lt (by omega), Nat.mul_comm]

/-- the lookup of a pair whose second member lies in plane 16 -/
theorem findComposed_high (ch mark : Char32) (hc : ch.toNat < 2 ^ 21) (h1 : 2 ^ 20 ≤ mark.toNat) (h2 : mark.toNat < 2 ^ 21) :
    findComposed ch mark = composedByKey ((ch.toNat ||| 1) * 2 ^ 20 + (mark.toNat - 2 ^ 20)) := by
  unfold findComposed findComposedIn
  have e1 : mark < 0x300 ↔ mark.toNat < 0x300 := by rw [UInt32.lt_iff_toNat_lt]; rfl
  rw [if_neg (fun h' => by have := e1.mp h'; omega)]
  simp only
  rw [key_high _ _ hc h1 h2]
  have := or_one_lt _ hc
  exact lookup_eq _ (by omega)

/-- no overrun at a pair -/
def stepOkA (b m : Nat) : Prop := m < 0x300 ∨ b < 0x1D1BC ∨ (b = 0x1D1BC ∧ m ≤ 0x1D16F)

instance (b m : Nat) : Decidable (stepOkA b m) := by unfold stepOkA; infer_instance

theorem libCompositeAll_facts {b m c : Nat} (h : libCompositeAll b m = some c) : b < 0x1000 ∧ 0xC0 ≤ c ∧ c < 0x10000 := by
  unfold libCompositeAll at h
  obtain ⟨h1, h2⟩ := libComposite_facts h
  have f := composite_facts h2
  have hs := List.all_eq_true.mp pairs_small _ (composite_mem h2)
  simp only [Bool.or_eq_true, Nat.ble_eq, Nat.blt_eq] at hs
  refine ⟨?_, f.hc.1, by omega⟩
  unfold libPair at h1
  split at h1
  · exact h1
  · simp only [or_one] at h1; omega

theorem findComposed_all (b m : Nat) (hb : b ≤ 0x10FFFF) (hm : m ≤ 0x10FFFF) :
    findComposed (UInt32.ofNat b) (UInt32.ofNat m) =
      if stepOkA b m then .ok (UInt32.ofNat ((libCompositeAll b m).getD 0)) else .error .ub := by
  by_cases h : m < 0x100000
  · have e : libCompositeAll b m = libComposite b m := by unfold libCompositeAll libPair; rw [if_pos h]
    rw [e]
    rw [findComposed_eq _ _ (by rw [toNat_ofNat32 (by omega)]; omega) (by rw [toNat_ofNat32 (by omega)]; omega),
      toNat_ofNat32 (by omega), toNat_ofNat32 (by omega)]
    by_cases h1 : m < 0x300
    · rw [if_pos h1, if_pos (.inl h1)]
      have : libComposite b m = none := by
        cases hc : libComposite b m with
        | none => rfl
        | some c => have := (composite_facts (libComposite_facts hc).2).hm; omega
      rw [this]; rfl
    · rw [if_neg h1]
      unfold composedByKey
      by_cases h2 : 0x1D1BC1D16F < b * 2 ^ 20 + m
      · rw [if_pos h2, if_neg (by unfold stepOkA; omega)]
      · have hs : stepOkA b m := by unfold stepOkA; omega
        rw [if_neg h2, if_pos hs]
        obtain ⟨e1, e2⟩ := key_parts b m (by omega)
        rw [e1, e2]
        unfold libComposite
        by_cases h3 : b < 0x1000
        · rw [if_neg (by omega), if_pos h3]
        · rw [if_pos (by omega), if_neg h3]; rfl
  · have e : libCompositeAll b m = libComposite (b ||| 1) (m - 0x100000) := by
      unfold libCompositeAll libPair; rw [if_neg h]
    rw [e]
    rw [findComposed_high _ _ (by rw [toNat_ofNat32 (by omega)]; omega) (by rw [toNat_ofNat32 (by omega)]; omega)
      (by rw [toNat_ofNat32 (by omega)]; omega), toNat_ofNat32 (by omega), toNat_ofNat32 (by omega)]
    have ho := or_one b
    generalize hk : b ||| 1 = k at ho ⊢
    unfold composedByKey
    by_cases h2 : 0x1D1BC1D16F < k * 2 ^ 20 + (m - 2 ^ 20)
    · rw [if_pos h2, if_neg (by unfold stepOkA; omega)]
    · have hs : stepOkA b m := by unfold stepOkA; omega
      rw [if_neg h2, if_pos hs]
      obtain ⟨e1, e2⟩ := key_parts k (m - 2 ^ 20) (by omega)
      rw [e1, e2]
      unfold libComposite
      by_cases h3 : k < 0x1000
      · rw [if_neg (by omega), if_pos h3]
      · rw [if_pos (by omega), if_neg h3]; rfl

theorem uRuns_all (cs : List Nat) (hcs : ∀ c ∈ cs, c ≤ 0x10FFFF) : ∀ (cur : Nat) (f : Bool), cur ≤ 0x10FFFF →
    (NoOverrunFrom cur cs → uRuns (UInt32.ofNat cur) f (rfcEncode cur) (natUnits cs) =
      .ok ((composeRuns libCompositeAll cur f cs).map (fun p => (p.1, rfcEncode p.2)))) ∧
    (¬ NoOverrunFrom cur cs → uRuns (UInt32.ofNat cur) f (rfcEncode cur) (natUnits cs) = .error .ub) := by
  induction cs with
  | nil => intro cur f _; exact ⟨fun _ => rfl, fun h => absurd trivial h⟩
  | cons m cs ih =>
    intro cur f hcur
    have hm := hcs m (by simp)
    have ih := ih (fun c hc => hcs c (by simp [hc]))
    have e : uRuns (UInt32.ofNat cur) f (rfcEncode cur) (natUnits (m :: cs)) =
      (findComposed (UInt32.ofNat cur) (UInt32.ofNat m) >>= fun d => if d = 0 then
      (uRuns (UInt32.ofNat m) false (rfcEncode m) (natUnits cs) >>= fun ps => .ok ((f, rfcEncode cur) :: ps))
      else uRuns d true (encodeUtf8 d) (natUnits cs)) := rfl
    rw [e, findComposed_all cur m hcur hm]
    simp only [NoOverrunFrom, composeRuns]
    by_cases hok : stepOkA cur m
    case neg =>
      rw [if_neg hok]
      exact ⟨fun h => absurd h.1 hok, fun _ => rfl⟩
    case pos =>
      rw [if_pos hok, bind_ok']
      cases hl : libCompositeAll cur m with
      | none =>
        rw [Option.getD_none, if_pos (by rfl)]
        try rw [Option.getD_none]
        constructor
        · intro h
          rw [(ih m false hm).1 h.2]; rfl
        · intro h
          rw [(ih m false hm).2 (fun h' => h ⟨hok, h'⟩)]; rfl
      | some c =>
        have f := libCompositeAll_facts hl
        simp only [Option.getD_some]
        rw [if_neg (by rw [ofNat_eq_zero (by omega)]; omega), encode_ofNat (by omega)]
        constructor
        · intro h
          exact (ih c true (by omega)).1 h.2
        · intro h
          exact (ih c true (by omega)).2 (fun h' => h ⟨hok, h'⟩)

/-- C55: the exact result of to_composed on every text, including plane 16: as C55_exact, but a code point of plane 16 acts as
the code point 0x100000 below it, behind a character whose lowest bit is set. -/
theorem C55_exact_all (cs : List Nat) (h : ∀ c ∈ cs, c ≤ 0x10FFFF) :
    (NoOverrunAll cs → toComposed (utf8 cs) = .ok (utf8 (dropLost false (composePieces libCompositeAll cs)))) ∧
    (¬ NoOverrunAll cs → toComposed (utf8 cs) = .error .ub) := by
  cases cs with
  | nil => exact ⟨fun _ => rfl, fun hn => absurd trivial hn⟩
  | cons c cs =>
    have hc := h c (by simp)
    have hcs : ∀ x ∈ cs, x ≤ 0x10FFFF := fun x hx => h x (by simp [hx])
    obtain ⟨hu, he⟩ := natUnits_spec cs hcs
    obtain ⟨hu1, he1⟩ := natUnits_spec [c] (fun x hx => h x (by simp at hx; simp [hx]))
    have hu1 : IsSeq (rfcEncode c) (UInt32.ofNat c) := hu1 (rfcEncode c, UInt32.ofNat c) (by simp [natUnits])
    have e := toComposed_units (rfcEncode c, UInt32.ofNat c) (natUnits cs) [] hu1 hu not_hasSeqPrefix_nil
    simp only [List.append_nil, he] at e
    have e2 : utf8 (c :: cs) = rfcEncode c ++ utf8 cs := by simp [utf8]
    rw [← e2] at e
    rw [e]
    constructor
    · intro hok
      rw [(uRuns_all cs hcs c false hc).1 hok, bind_ok', dropLost_map]
      simp only [tailC, if_true]
      rw [← List.flatMap_def]; rfl
    · intro hok
      rw [(uRuns_all cs hcs c false hc).2 hok]; rfl

/-! ### canonical equivalence -/

/-- the number of code points of plane 16 -/
def high (l : List Nat) : Nat := l.countP (fun c => decide (0x100000 ≤ c))

theorem high_cons (a : Nat) (l : List Nat) : high (a :: l) = high l + if 0x100000 ≤ a then 1 else 0 := by
  unfold high
  rw [List.countP_cons]
  simp only [decide_eq_true_eq]

theorem high_append (k l : List Nat) : high (k ++ l) = high k + high l := List.countP_append

theorem high_insMark (a : Nat) (l : List Nat) : high (insMark a l) = high (a :: l) := by
  induction l with
  | nil => rfl
  | cons b l ih =>
    unfold insMark
    split
    · rw [high_cons b, ih, high_cons a, high_cons a, high_cons b]; omega
    · rfl

theorem high_sortMarks (l : List Nat) : high (sortMarks l) = high l := by
  induction l with
  | nil => rfl
  | cons a l ih => rw [sortMarks, high_insMark, high_cons, high_cons, ih]

theorem high_zero {l : List Nat} (h : ∀ x ∈ l, x < 0x100000) : high l = 0 := by
  unfold high
  rw [List.countP_eq_zero]
  intro x hx
  have := h x hx
  simp only [decide_eq_true_eq]; omega

theorem canon_low {c l} (h : Canon c l) (hc : c < 0x100000) : ∀ x ∈ l, x < 0x100000 := by
  induction h with
  | atom h1 h2 h3 => intro x hx; simp at hx; omega
  | single h _ ih => exact ih (by have := (singleOf_facts h).hd; omega)
  | pair h _ _ ih1 ih2 =>
    have f := pairOf_facts h
    have := f.hb; have := f.hm
    intro x hx
    rcases List.mem_append.mp hx with hx | hx
    · exact ih1 (by omega) x hx
    · exact ih2 (by omega) x hx
  | lv h h' => unfold IsHangul at h; intro x hx; simp at hx; omega
  | lvt h h' => unfold IsHangul at h; intro x hx; simp at hx; omega

theorem high_canon {c l} (h : Canon c l) : high l = high [c] := by
  by_cases hc : c < 0x100000
  · rw [high_zero (canon_low h hc), high_zero (by simpa using hc)]
  · cases h with
    | atom h1 h2 h3 => rfl
    | single h _ => have := (singleOf_facts h).hc; omega
    | pair h _ _ => have := (pairOf_facts h).hc; omega
    | lv h h' => unfold IsHangul at h; omega
    | lvt h h' => unfold IsHangul at h; omega

theorem high_canonSeq {cs ds : List Nat} (h : CanonSeq cs ds) : high ds = high cs := by
  induction h with
  | nil => rfl
  | @cons c l cs ds h1 _ ih => rw [high_append, high_canon h1, ih, ← high_append]; rfl

theorem high_dropLost (ps : List (Bool × Nat)) : ∀ pc, high (dropLost pc ps) ≤ high (ps.map (·.2)) := by
  induction ps with
  | nil => intro _; exact Nat.le_refl _
  | cons p ps ih =>
    obtain ⟨f, c⟩ := p
    intro pc
    cases f with
    | true =>
      have := ih true
      simp only [dropLost, List.map_cons, high_cons]; omega
    | false =>
      have := ih false
      simp only [dropLost, List.map_cons]
      split
      · rw [high_cons]; omega
      · rw [high_cons, high_cons]; omega

theorem high_runs (cs : List Nat) : ∀ cur f, high ((composeRuns libCompositeAll cur f cs).map (·.2)) ≤ high (cur :: cs) ∧
    (high ((composeRuns libCompositeAll cur f cs).map (·.2)) = high (cur :: cs) →
      composeRuns libCompositeAll cur f cs = composeRuns libComposite cur f cs) := by
  induction cs with
  | nil => intro cur f; exact ⟨Nat.le_refl _, fun _ => rfl⟩
  | cons m cs ih =>
    intro cur f
    by_cases hm : m < 0x100000
    · have e : libCompositeAll cur m = libComposite cur m := by unfold libCompositeAll libPair; rw [if_pos hm]
      simp only [composeRuns, e]
      cases hl : libComposite cur m with
      | none =>
        obtain ⟨h1, h2⟩ := ih m false
        simp only [List.map_cons]
        rw [high_cons, high_cons cur]
        exact ⟨by omega, fun h => by rw [h2 (by omega)]⟩
      | some c =>
        obtain ⟨h1, h2⟩ := ih c true
        obtain ⟨f1, f2, f3⟩ := libCompositeAll_facts (e.trans hl)
        simp only
        rw [high_cons c, if_neg (by omega)] at h1 h2
        rw [high_cons cur, high_cons m, if_neg (by omega), if_neg (by omega)]
        exact ⟨by omega, fun h => h2 (by omega)⟩
    · have e : libComposite cur m = none := by
        cases hl : libComposite cur m with
        | none => rfl
        | some c => have := (composite_facts (libComposite_facts hl).2).hm; omega
      simp only [composeRuns, e]
      cases hl : libCompositeAll cur m with
      | none =>
        obtain ⟨h1, h2⟩ := ih m false
        simp only [List.map_cons]
        rw [high_cons, high_cons cur]
        exact ⟨by omega, fun h => by rw [h2 (by omega)]⟩
      | some c =>
        obtain ⟨h1, h2⟩ := ih c true
        obtain ⟨f1, f2, f3⟩ := libCompositeAll_facts hl
        simp only
        rw [high_cons c, if_neg (by omega)] at h1
        rw [high_cons cur, high_cons m, if_pos (show 0x100000 ≤ m by omega), if_neg (show ¬ 0x100000 ≤ cur by omega)]
        exact ⟨by omega, fun h => by omega⟩

/-- C55: for every text on which to_composed returns, the result is canonically equivalent to the text if and only if no code
point is lost and no code point of plane 16 is taken for a mark. -/
theorem C55_equivalent_iff_all (cs : List Nat) (h : ∀ c ∈ cs, c ≤ 0x10FFFF) (hn : NoOverrunAll cs) :
    ∃ rs, toComposed (utf8 cs) = .ok (utf8 rs) ∧ (CanonEquivalent cs rs ↔ NothingLost cs ∧ NoAlias cs) := by
  refine ⟨_, (C55_exact_all cs h).1 hn, ?_⟩
  obtain ⟨ds, hd⟩ := canonSeq_total cs
  have hfull : CanonSeq ((composePieces libComposite cs).map (·.2)) ds := by
    cases hd with
    | nil => exact .nil
    | cons hc hd => exact composeRuns_canon _ (fun b m c hh => (libComposite_facts hh).2) _ _ _ _ _ hc hd
  constructor
  · rintro ⟨fs, h1, h2⟩
    obtain ⟨es, he⟩ := canonSeq_total (dropLost false (composePieces libCompositeAll cs))
    have e1 := (nfd_iff hd).mp h1
    have e2 := (nfd_iff he).mp h2
    have hsort : sortMarks es = sortMarks ds := by rw [← e1, ← e2]
    have hhigh : high (dropLost false (composePieces libCompositeAll cs)) = high cs := by
      rw [← high_canonSeq he, ← high_canonSeq hd, ← high_sortMarks es, ← high_sortMarks ds, hsort]
    have hal : NoAlias cs := by
      cases cs with
      | nil => rfl
      | cons c cs =>
        have l1 := high_dropLost (composePieces libCompositeAll (c :: cs)) false
        obtain ⟨l2, l3⟩ := high_runs cs c false
        exact l3 (Nat.le_antisymm l2 (by rw [← hhigh]; exact l1))
    refine ⟨?_, hal⟩
    rw [show composePieces libCompositeAll cs = composePieces libComposite cs from hal] at he
    have hlen : es.length = ds.length := by
      rw [← sortMarks_length es, ← sortMarks_length ds, hsort]
    exact (dropLost_canon _ false ds es hfull he).2 hlen
  · rintro ⟨hl, hal⟩
    unfold NothingLost at hl
    rw [show composePieces libCompositeAll cs = composePieces libComposite cs from hal, hl]
    exact ⟨sortMarks ds, (nfd_iff hd).mpr rfl, (nfd_iff hfull).mpr rfl⟩

/-- a text of plane 16 on which to_composed returns and loses a character -/
example : ∃ rs, toComposed (utf8 [0x41, 0x100308]) = .ok (utf8 rs) ∧ ¬ CanonEquivalent [0x41, 0x100308] rs := by
  obtain ⟨rs, h1, h2⟩ := C55_equivalent_iff_all [0x41, 0x100308] (by decide) (by
    refine ⟨.inr (.inl (by decide)), trivial⟩)
  exact ⟨rs, h1, fun h => absurd (h2.mp h).2 (by unfold NoAlias; decide +kernel)⟩

/-- a text of plane 16 that is kept -/
example : ∃ rs, toComposed (utf8 [0x41, 0x10FFFD, 0x61]) = .ok (utf8 rs) ∧ CanonEquivalent [0x41, 0x10FFFD, 0x61] rs := by
  obtain ⟨rs, h1, h2⟩ := C55_equivalent_iff_all [0x41, 0x10FFFD, 0x61] (by decide) (by
    refine ⟨.inr (.inl (by decide)), .inl (by decide), trivial⟩)
  exact ⟨rs, h1, h2.mpr ⟨by unfold NothingLost; decide +kernel, by unfold NoAlias; decide +kernel⟩⟩

/-- C102: to_composed(to_decomposed(c)) = c for a code point exactly if it has no canonical decomposition into two code points
or the first of them is below U+1000. -/
theorem C102_there_and_back_all (c g : Nat) (hc : c ≤ 0x10FFFF) :
    (∃ t, toDecomposed (utf8 [c]) (g + 1) = .ok t ∧ toComposed t = .ok (utf8 [c])) ↔
    ∀ b m, pairOf c = some (b, m) → b < 0x1000 := by
  by_cases h : c < 0x100000
  · exact C102_there_and_back c g h
  · have hp : ∀ b m, pairOf c ≠ some (b, m) := by
      intro b m e
      have := (pairOf_facts e).hc
      omega
    have e : chainOf c = [c] := by
      have hs := chainOf_spec c
      generalize chainOf c = l at *
      cases hs with
      | d0 _ => rfl
      | d1 h _ => exact absurd h (hp _ _)
      | d2 h _ _ => exact absurd h (hp _ _)
      | d3 h _ _ _ => exact absurd h (hp _ _)
    refine ⟨fun _ b m e => absurd e (hp b m), fun _ => ⟨utf8 [c], ?_, ?_⟩⟩
    · rw [dec_one hc (by rw [e]; simp), e]
    · exact (C55_exact_all [c] (by simpa using hc)).1 trivial

end Ystring
