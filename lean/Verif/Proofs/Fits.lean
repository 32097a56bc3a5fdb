import Verif.Props.Headers
import Verif.Props.Generate
import Verif.Props.GenerateClass
import Verif.Props.GenerateNorm
/-
The numbers in the generated headers fit in the types of the arrays, and a header declares only one list of arrays.
-/
namespace Ystring
open Gen Spec

/-! ### Case tables -/

theorem diffSetLoop_lt (major : Nat) (diff : Int) : ∀ (values : List (Nat × Nat)) (bits nbits : Nat) (rem : List (Nat × Nat)),
    (∀ p ∈ values, p.1 - major < 32) → bits < 2 ^ 32 → nbits < 2 ^ 32 →
    (diffSetLoop major diff values bits nbits rem).1 < 2 ^ 32 ∧ (diffSetLoop major diff values bits nbits rem).2.1 < 2 ^ 32
  | [], _, _, _, _, h1, h2 => ⟨h1, h2⟩
  | (v, w) :: values, bits, nbits, rem, hv, h1, h2 => by
    have hs : 1 <<< (v - major) < 2 ^ 32 := by
      rw [Nat.one_shiftLeft]
      exact Nat.pow_lt_pow_right (by decide) (hv (v, w) (.head _))
    have hx := Nat.xor_lt_two_pow h2 hs
    unfold diffSetLoop
    split
    · exact diffSetLoop_lt major diff values _ _ _ (fun p hp => hv p (.tail _ hp)) (Nat.or_lt_two_pow h1 hs) hx
    · exact diffSetLoop_lt major diff values _ _ _ (fun p hp => hv p (.tail _ hp)) h1 hx

theorem caseTables_fit (lines : List (Nat × Nat)) (hb : ∀ p ∈ lines, p.1 < 2 ^ 32 ∧ p.2 < 2 ^ 32) :
    (∀ r ∈ (caseTables lines).1, r.1 < 2 ^ 32 ∧ r.2.1 < 2 ^ 32 ∧ r.2.2.1 < 2 ^ 32 ∧ r.2.2.2 < 2 ^ 32) ∧
    (∀ m ∈ (caseTables lines).2, m.1 < 2 ^ 32 ∧ m.2 < 2 ^ 32) := by
  rw [caseTables_sets]
  refine ⟨?_, fun m hm => hb m ((caseSets_mem lines).2 m hm)⟩
  intro r hr
  obtain ⟨d, hd, rfl⟩ := List.mem_map.mp hr
  obtain ⟨m, vs, diff, rfl, hv, p, hp, hpd⟩ := (caseSets_mem lines).1 d hd
  have hbits := diffSetLoop_lt m diff vs 0 0xFFFFFFFF [] (fun q hq => by have := (hv q hq).2; omega) (by decide) (by decide)
  have h1 := hb p (hv p hp).1
  have h2 := (hv p hp).2
  obtain ⟨c1, c2⟩ := compactRow_bits (makeDiffSet m diff vs).1
  rw [c1, c2]
  refine ⟨?_, ?_, hbits.1, hbits.2⟩
  · show m < 2 ^ 32
    omega
  · unfold compactRow
    have : (makeDiffSet m diff vs).1.2.1 = diff := rfl
    split
    · rename_i h
      rw [this] at h ⊢
      show (2 ^ 32 + diff).toNat < 2 ^ 32
      omega
    · rename_i h
      rw [this] at h ⊢
      show diff.toNat < 2 ^ 32
      omega

theorem caseHeader_fits (k : CaseKind) (lines : List (Nat × Nat)) (hb : ∀ p ∈ lines, p.1 < 2 ^ 32 ∧ p.2 < 2 ^ 32) :
    ∀ d ∈ caseHeader k (caseTables lines).1 (caseTables lines).2, d.Fits := by
  obtain ⟨h1, h2⟩ := caseTables_fit lines hb
  intro d hd
  have t1 : typeBits (t!"CompactCharMapping") = 32 := by decide
  have t2 : typeBits (t!"CharMapping") = 32 := by decide
  simp only [caseHeader, List.mem_cons, List.not_mem_nil, or_false] at hd
  rcases hd with rfl | rfl
  · intro x hx n hn
    obtain ⟨r, hr, rfl⟩ := List.mem_map.mp hx
    have := h1 r hr
    simp only [t1]
    simp only [Init.values, List.mem_cons, List.not_mem_nil, or_false] at hn
    rcases hn with rfl | rfl | rfl | rfl
    · exact this.1
    · exact this.2.1
    · exact this.2.2.1
    · exact this.2.2.2
  · intro x hx n hn
    obtain ⟨r, hr, rfl⟩ := List.mem_map.mp hx
    have := h2 r hr
    simp only [t2]
    simp only [Init.values, List.mem_cons, List.not_mem_nil, or_false] at hn
    rcases hn with rfl | rfl
    · exact this.1
    · exact this.2

/-! ### Class tables -/

theorem tiles_mem {f : Nat → Nat} {b : Nat} : ∀ (rs : List ClassRange) (a : Nat), Tiles f a rs b → a ≤ b ∧ ∀ r ∈ rs, Good f r ∧ r.2.1 < b
  | [], a, h => ⟨Nat.le_of_eq h, by simp⟩
  | r :: rs, a, ⟨h1, h2, h3⟩ => by
    have ih := tiles_mem rs _ h3
    have := h2.le
    refine ⟨by omega, ?_⟩
    intro q hq
    rcases List.mem_cons.mp hq with rfl | hq
    · exact ⟨h2, by omega⟩
    · exact ih.2 q hq

theorem classHeader_fits (lines : List (Nat × Nat)) (ha : lines.Pairwise (fun a b => a.1 < b.1))
    (hk : ∀ l ∈ lines, l.1 < 2 ^ 21 ∧ 1 ≤ l.2 ∧ l.2 ≤ 30) : ∀ d ∈ classHeader (asciiTable lines) (classTable lines), d.Fits := by
  intro d hd
  have t1 : typeBits (t!"uint8_t") = 8 := by decide
  have t2 : typeBits (t!"uint32_t") = 32 := by decide
  simp only [classHeader, List.mem_cons, List.not_mem_nil, or_false] at hd
  rcases hd with rfl | rfl
  · intro x hx n hn
    obtain ⟨v, hv, rfl⟩ := List.mem_map.mp hx
    simp only [Init.values, List.mem_cons, List.not_mem_nil, or_false] at hn
    subst hn
    unfold asciiTable at hv
    obtain ⟨l, hl, rfl⟩ := List.mem_map.mp hv
    have := hk l ((List.takeWhile_sublist _).subset hl)
    simp only [t1]
    omega
  · intro x hx n hn
    obtain ⟨v, hv, rfl⟩ := List.mem_map.mp hx
    simp only [Init.values, List.mem_cons, List.not_mem_nil, or_false] at hn
    subst hn
    unfold classTable classTableWith at hv
    obtain ⟨r, hr, rfl⟩ := List.mem_map.mp hv
    have hasc : Ascends 0 lines := ascends_of_pairwise lines 0 ha (fun l hl => ⟨Nat.zero_le _, (hk l hl).2⟩)
    obtain ⟨b, hb, ht, _⟩ := classRanges_tiles (known := KNOWN_RANGES) hasc (fun l hl => (hk l hl).1)
    have hm := (tiles_mem _ _ (optimized_tiles ht)).2 r hr
    have h1 := encodeValue_eq r.2.1 r.2.2 hm.1.cls
    have h2 := classBits_lt r.2.2 hm.1.cls
    simp only [t2]
    omega

/-! ### Normalization tables -/

theorem shifted_lt {x y z : Nat} (hx : x < 2 ^ 20) (hy : y < 2 ^ 20) (hz : z < 2 ^ 20) : (x <<< 40) ||| (y <<< 20) ||| z < 2 ^ 64 := by
  refine Nat.or_lt_two_pow (Nat.or_lt_two_pow ?_ ?_) ?_
  · rw [Nat.shiftLeft_eq]; omega
  · rw [Nat.shiftLeft_eq]; omega
  · omega

theorem normalizationHeader_fits (rules : List (Nat × Nat × Nat)) (hr : ∀ r ∈ rules, RuleFits r) :
    ∀ d ∈ normalizationHeader (decomposedTable rules) (composedTable rules), d.Fits := by
  intro d hd
  have t1 : typeBits (t!"uint64_t") = 64 := by decide
  simp only [normalizationHeader, List.mem_cons, List.not_mem_nil, or_false] at hd
  rcases hd with rfl | rfl
  · intro x hx n hn
    obtain ⟨v, hv, rfl⟩ := List.mem_map.mp hx
    simp only [Init.values, List.mem_cons, List.not_mem_nil, or_false] at hn
    subst hn
    unfold decomposedTable at hv
    obtain ⟨r, hm, rfl⟩ := List.mem_map.mp hv
    obtain ⟨h1, h2, h3⟩ := hr r hm
    simp only [t1]
    exact shifted_lt h1 h2 h3
  · intro x hx n hn
    obtain ⟨v, hv, rfl⟩ := List.mem_map.mp hx
    simp only [Init.values, List.mem_cons, List.not_mem_nil, or_false] at hn
    subst hn
    unfold composedTable at hv
    obtain ⟨r, hm, rfl⟩ := List.mem_map.mp hv
    obtain ⟨h1, h2, h3⟩ := hr r ((List.mergeSort_perm _ _).mem_iff.mp hm)
    simp only [t1]
    exact shifted_lt h2 h3 h1

/-! ### A header declares one list of arrays -/

/-- A list with its separators ends where a token that is not a separator follows. -/
theorem nums_unique : ∀ (xs ys : List Nat) (a b : List CTok),
    commas (xs.map (fun n => [CTok.num n])) ++ .punct '}' :: a = commas (ys.map (fun n => [CTok.num n])) ++ .punct '}' :: b → xs = ys ∧ a = b
  | [], [], a, b, h => by simpa [commas] using h
  | [], [y], a, b, h => by simp [commas] at h
  | [], y :: z :: ys, a, b, h => by simp [commas] at h
  | [x], [], a, b, h => by simp [commas] at h
  | x :: z :: xs, [], a, b, h => by simp [commas] at h
  | [x], [y], a, b, h => by simpa [commas] using h
  | [x], y :: w :: ys, a, b, h => by simp [commas] at h
  | x :: z :: xs, [y], a, b, h => by simp [commas] at h
  | x :: z :: xs, y :: w :: ys, a, b, h => by
    simp only [List.map_cons, commas, List.cons_append, List.nil_append, List.cons.injEq, CTok.num.injEq, true_and] at h
    have := nums_unique (z :: xs) (w :: ys) a b (by simpa only [List.map_cons] using h.2)
    rw [h.1, this.1]
    exact ⟨rfl, this.2⟩

theorem init_unique (x y : Init) (a b : List CTok) (h : x.toks ++ a = y.toks ++ b) : x = y ∧ a = b := by
  cases x <;> cases y
  · simpa [Init.toks] using h
  · simp [Init.toks] at h
  · simp [Init.toks] at h
  · rename_i xs ys
    simp only [Init.toks, List.cons_append, List.append_assoc, List.cons.injEq, true_and, List.nil_append] at h
    have := nums_unique xs ys a b h
    rw [this.1]; exact ⟨rfl, this.2⟩

theorem init_head (x : Init) : ∃ t ts, x.toks = t :: ts ∧ t ≠ .punct '}' := by
  cases x with
  | num n => exact ⟨_, _, rfl, by simp⟩
  | struct ns => exact ⟨_, _, rfl, by decide⟩

/-- The elements of an array, with or without a comma after the last. -/
def itemToks (xs : List Init) (c : Bool) : List CTok :=
  commas (xs.map Init.toks) ++ (if c && !xs.isEmpty then [.punct ','] else [])

theorem itemToks_cons2 (x z : Init) (xs : List Init) (c : Bool) : itemToks (x :: z :: xs) c = x.toks ++ .punct ',' :: itemToks (z :: xs) c := by
  simp [itemToks, commas]

theorem items_unique : ∀ (xs ys : List Init) (c d : Bool) (a b : List CTok),
    itemToks xs c ++ .punct '}' :: a = itemToks ys d ++ .punct '}' :: b → xs = ys ∧ a = b
  | [], [], c, d, a, b, h => by simpa [itemToks, commas] using h
  | [], y :: ys, c, d, a, b, h => by
    obtain ⟨t, ts, ht, hne⟩ := init_head y
    cases ys with
    | nil => simp only [itemToks, List.map_nil, commas, List.map_cons, List.isEmpty_nil, Bool.not_true, Bool.and_false, ht] at h; simp at h; exact absurd h.1.symm hne
    | cons w ys => rw [itemToks_cons2, ht] at h; simp [itemToks, commas] at h; exact absurd h.1.symm hne
  | x :: xs, [], c, d, a, b, h => by
    obtain ⟨t, ts, ht, hne⟩ := init_head x
    cases xs with
    | nil => simp only [itemToks, List.map_nil, commas, List.map_cons, List.isEmpty_nil, Bool.not_true, Bool.and_false, ht] at h; simp at h; exact absurd h.1 hne
    | cons w xs => rw [itemToks_cons2, ht] at h; simp [itemToks, commas] at h; exact absurd h.1 hne
  | [x], [y], c, d, a, b, h => by
    simp only [itemToks, List.map_cons, List.map_nil, commas, List.append_assoc] at h
    obtain ⟨e, h'⟩ := init_unique _ _ _ _ h
    subst e
    clear h; rename _ = _ => h
    cases c <;> cases d <;> simp at h
    · exact ⟨rfl, h⟩
    · exact ⟨rfl, h⟩
  | [x], y :: w :: ys, c, d, a, b, h => by
    rw [itemToks_cons2] at h
    simp only [itemToks, List.map_cons, List.map_nil, commas, List.append_assoc, List.cons_append] at h
    obtain ⟨e, h'⟩ := init_unique _ _ _ _ h
    subst e
    clear h; rename _ = _ => h
    cases c
    · simp at h
    · simp only [List.isEmpty_cons, Bool.not_false, Bool.and_true, if_true, List.cons_append, List.nil_append, List.cons.injEq, true_and] at h
      obtain ⟨t, ts, ht, hne⟩ := init_head w
      cases ys with
      | nil => simp only [List.map_nil, commas, ht] at h; simp at h; exact absurd h.1.symm hne
      | cons z ys => simp only [List.map_cons, commas, ht] at h; simp at h; exact absurd h.1.symm hne
  | x :: w :: xs, [y], c, d, a, b, h => by
    rw [itemToks_cons2] at h
    simp only [itemToks, List.map_cons, List.map_nil, commas, List.append_assoc, List.cons_append] at h
    obtain ⟨e, h'⟩ := init_unique _ _ _ _ h
    subst e
    clear h; rename _ = _ => h
    cases d
    · simp at h
    · simp only [List.isEmpty_cons, Bool.not_false, Bool.and_true, if_true, List.cons_append, List.nil_append, List.cons.injEq, true_and] at h
      obtain ⟨t, ts, ht, hne⟩ := init_head w
      cases xs with
      | nil => simp only [List.map_nil, commas, ht] at h; simp at h; exact absurd h.1 hne
      | cons z ys => simp only [List.map_cons, commas, ht] at h; simp at h; exact absurd h.1 hne
  | x :: z :: xs, y :: w :: ys, c, d, a, b, h => by
    rw [itemToks_cons2, itemToks_cons2, List.append_assoc, List.append_assoc] at h
    obtain ⟨e, h'⟩ := init_unique _ _ _ _ h
    subst e
    clear h; rename _ = _ => h
    simp only [List.cons_append, List.cons.injEq, true_and] at h
    have := items_unique (z :: xs) (w :: ys) c d a b h
    rw [this.1]
    exact ⟨rfl, this.2⟩

theorem decls_unique : ∀ (ds es : List Decl) (cs cs' : List Bool), cs.length = ds.length → cs'.length = es.length →
    (List.zipWith Decl.toks ds cs).flatten ++ [CTok.punct '}'] = (List.zipWith Decl.toks es cs').flatten ++ [CTok.punct '}'] → ds = es
  | [], [], _, _, _, _, _ => rfl
  | [], e :: es, cs, c' :: cs', _, _, h => by simp [Decl.toks] at h
  | d :: ds, [], c :: cs, cs', _, _, h => by simp [Decl.toks] at h
  | [], e :: es, _, [], _, h, _ => by simp at h
  | d :: ds, _, [], _, h, _, _ => by simp at h
  | d :: ds, e :: es, _, [], _, h, _ => by simp at h
  | d :: ds, e :: es, c :: cs, c' :: cs', h1, h2, h => by
    obtain ⟨t, n, xs⟩ := d
    obtain ⟨t', n', ys⟩ := e
    simp only [List.zipWith_cons_cons, List.flatten_cons, Decl.toks, List.cons_append, List.nil_append, List.append_assoc, List.cons.injEq,
      CTok.word.injEq, true_and] at h
    obtain ⟨rfl, rfl, h⟩ := h
    have h' : itemToks xs c ++ .punct '}' :: (.punct ';' :: ((List.zipWith Decl.toks ds cs).flatten ++ [CTok.punct '}'])) =
        itemToks ys c' ++ .punct '}' :: (.punct ';' :: ((List.zipWith Decl.toks es cs').flatten ++ [CTok.punct '}'])) := by
      simp only [itemToks, List.append_assoc]
      exact h
    obtain ⟨e, h''⟩ := items_unique _ _ _ _ _ _ h'
    subst e
    simp only [List.cons.injEq, true_and] at h''
    rw [decls_unique ds es cs cs' (by simpa using h1) (by simpa using h2) h'']

end Ystring
