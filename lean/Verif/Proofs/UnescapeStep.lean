import Verif.Proofs.Unescape
/-
Lemmas for C57-C62: one escape sequence.
-/
namespace Ystring
open Spec

/-- The six ways a backslash can be followed. -/
inductive Shape : Str → Prop
  | bad {v : Str} : BadStart (0x5C :: v) → Shape v
  | hex {l : UInt8} {ds t : Str} : l = 0x78 ∨ l = 0x58 → 2 ≤ ds.length → (∀ d ∈ ds, IsHex d) → NoHexAhead t →
      Shape (l :: (ds ++ t))
  | short {ds t : Str} : (∀ d ∈ ds, IsHex d) → (ds.length = 4 ∨ (ds.length < 4 ∧ t = [])) → Shape (0x75 :: (ds ++ t))
  | long {ds t : Str} : (∀ d ∈ ds, IsHex d) → (ds.length = 8 ∨ (ds.length < 8 ∧ t = [])) → Shape (0x55 :: (ds ++ t))
  | oct {ds t : Str} : (∀ d ∈ ds, IsOct d) → 1 ≤ ds.length → ds.length ≤ 3 → (ds.length < 3 → NoOctAhead t) →
      Shape (ds ++ t)
  | other {c : UInt8} {t : Str} : c.toNat < 0x80 → ¬ (c = 0x78 ∨ c = 0x58) → c ≠ 0x75 → c ≠ 0x55 → ¬ IsOct c →
      Shape (c :: t)

theorem shape (v : Str) : Shape v := by
  cases v with
  | nil => exact .bad .alone
  | cons c u =>
    by_cases hx : c = 0x78 ∨ c = 0x58
    · obtain ⟨ds, t, rfl, h1, h2⟩ := run_split IsHex u
      by_cases h : ds.length < 2
      · exact .bad (.hex hx h h1 h2)
      · exact .hex hx (by omega) h1 h2
    by_cases hu : c = 0x75
    · subst hu
      obtain ⟨ds, t, rfl, h1, h2, h3⟩ := run_split_max IsHex 4 u
      by_cases h : ds.length = 4
      · exact .short h1 (.inl h)
      · cases t with
        | nil => exact .short h1 (.inr ⟨by omega, rfl⟩)
        | cons b t => exact .bad (.short (by omega) h1 (h3 (by omega) b t rfl))
    by_cases hU : c = 0x55
    · subst hU
      obtain ⟨ds, t, rfl, h1, h2, h3⟩ := run_split_max IsHex 8 u
      by_cases h : ds.length = 8
      · exact .long h1 (.inl h)
      · cases t with
        | nil => exact .long h1 (.inr ⟨by omega, rfl⟩)
        | cons b t => exact .bad (.long (by omega) h1 (h3 (by omega) b t rfl))
    by_cases ho : IsOct c
    · obtain ⟨ds, t, e, h1, h2, h3⟩ := run_split_max IsOct 3 (c :: u)
      have h0 : 1 ≤ ds.length := by
        cases ds with
        | nil => exact absurd ho (h3 (by simp) c u (by simpa using e.symm))
        | cons => simp
      rw [e]
      exact .oct h1 h0 h2 h3
    by_cases ha : c.toNat < 0x80
    · exact .other ha hx hu hU ho
    · exact .bad (.nonAscii (by omega))

/-! ### Reading the sequence -/

theorem charAt_after {q u : Str} {c : UInt8} : charAt (q ++ 0x5C :: c :: u) (q.length + 1) = .ok c := by
  unfold charAt
  rw [List.getElem?_append_right (by omega), show q.length + 1 - q.length = 1 by omega]
  rfl

theorem substr_after {q v : Str} {k : Nat} : substr (q ++ v) q.length k = .ok (v.take k) := by
  unfold substr
  rw [if_neg (by simp), List.drop_left]

theorem decode_hexlike {q v x : Str} {l : UInt8} {k : Nat} (hl : l = 0x78 ∨ l = 0x58 ∨ l = 0x55)
    (e : (0x5C :: l :: v).take k = x) : decodeEscaped (q ++ 0x5C :: l :: v) ⟨q.length, k⟩ =
      match parseEscapedHexChar x with
      | .ok ch => .ok (ch, ⟨q.length, k⟩)
      | .error e => .error e := by
  unfold decodeEscaped
  simp only [Subrange.start]
  rw [charAt_after]
  simp only [bind, Except.bind]
  rw [if_pos hl, substr_after, e]
  simp only
  cases parseEscapedHexChar x <;> rfl

theorem le_or {n m : Nat} {P : Prop} (h : n = m ∨ (n < m ∧ P)) : n = m ∨ (n ≤ m ∧ P) :=
  h.imp id (fun h => ⟨Nat.le_of_lt h.1, h.2⟩)

theorem decode_u {q v : Str} {k : Nat} : decodeEscaped (q ++ 0x5C :: 0x75 :: v) ⟨q.length, k⟩ =
    parseUtf16 (q ++ 0x5C :: 0x75 :: v) ⟨q.length, k⟩ := by
  unfold decodeEscaped
  simp only [Subrange.start]
  rw [charAt_after]
  simp only [bind, Except.bind]
  rw [if_neg (by decide), if_pos (by decide)]

theorem oct_not_letters (c : UInt8) (h : IsOct c) : ¬ (c = 0x78 ∨ c = 0x58 ∨ c = 0x55) ∧ c ≠ 0x75 ∧ c ≠ 0x61 ∧
    c ≠ 0x62 ∧ c ≠ 0x66 ∧ c ≠ 0x6E ∧ c ≠ 0x72 ∧ c ≠ 0x74 ∧ c ≠ 0x76 := by
  revert c; apply forall_u8; decide +kernel

theorem decode_oct {q ds t : Str} {k : Nat} (h : ∀ d ∈ ds, IsOct d) (h0 : 1 ≤ ds.length) (h3 : ds.length ≤ 3)
    (e : (0x5C :: (ds ++ t)).take k = 0x5C :: ds) :
    decodeEscaped (q ++ 0x5C :: (ds ++ t)) ⟨q.length, k⟩ = .ok (UInt32.ofNat (number 8 ds), ⟨q.length, k⟩) := by
  have hn := number_oct_lt h
  have hv : number 8 ds < 2 ^ 32 := by
    refine Nat.lt_of_lt_of_le hn ?_
    exact Nat.le_trans (Nat.pow_le_pow_right (by omega) h3) (by decide)
  cases ds with
  | nil => simp at h0
  | cons c ds =>
    obtain ⟨n1, n2, n3, n4, n5, n6, n7, n8, n9⟩ := oct_not_letters c (h c (by simp))
    rw [List.cons_append] at e ⊢
    unfold decodeEscaped
    simp only [Subrange.start]
    rw [charAt_after]
    simp only [bind, Except.bind]
    rw [if_neg n1, if_neg n2, if_neg n3, if_neg n4, if_neg n5, if_neg n6, if_neg n7, if_neg n8, if_neg n9,
      if_pos ((isOctDigit_iff c).mpr (h c (by simp))), substr_after]
    simp only [e]
    rw [parseEscapedOctChar_ok h (by simp) hv]

/-! ### Surrogates -/

theorem ofNat_lt32 {n m : Nat} (hn : n < 2 ^ 32) (hm : m < 2 ^ 32) : UInt32.ofNat n < UInt32.ofNat m ↔ n < m := by
  rw [UInt32.lt_iff_toNat_lt]
  simp only [UInt32.toNat_ofNat']
  rw [Nat.mod_eq_of_lt hn, Nat.mod_eq_of_lt hm]

theorem not_high {n : Nat} (hn : n < 2 ^ 32) :
    ((UInt32.ofNat n) < 0xD800 ∨ 0xDBFF < (UInt32.ofNat n)) ↔ ¬ HighSurrogate n := by
  have h1 := ofNat_lt32 (m := 0xD800) hn (by decide)
  have h2 := ofNat_lt32 (n := 0xDBFF) (m := n) (by decide) hn
  unfold HighSurrogate
  rw [show (0xD800 : UInt32) = UInt32.ofNat 0xD800 from rfl, show (0xDBFF : UInt32) = UInt32.ofNat 0xDBFF from rfl,
    h1, h2]
  omega

theorem not_low {n : Nat} (hn : n < 2 ^ 32) :
    ((UInt32.ofNat n) < 0xDC00 ∨ 0xDFFF < (UInt32.ofNat n)) ↔ ¬ LowSurrogate n := by
  have h1 := ofNat_lt32 (m := 0xDC00) hn (by decide)
  have h2 := ofNat_lt32 (n := 0xDFFF) (m := n) (by decide) hn
  unfold LowSurrogate
  rw [show (0xDC00 : UInt32) = UInt32.ofNat 0xDC00 from rfl, show (0xDFFF : UInt32) = UInt32.ofNat 0xDFFF from rfl,
    h1, h2]
  omega

theorem combine_nat (a b : Nat) (hb : b < 2 ^ 10) : (a <<< 10) ||| b = a * 1024 + b := by
  rw [Nat.shiftLeft_eq, Nat.mul_comm, ← Nat.two_pow_add_eq_or_of_lt (i := 10) hb]

theorem combine_toNat {n m : Nat} (hn : HighSurrogate n) (hm : LowSurrogate m) :
    (combineSurrogatePair (UInt32.ofNat n) (UInt32.ofNat m)).toNat = pairValue n m := by
  unfold HighSurrogate at hn
  unfold LowSurrogate at hm
  unfold combineSurrogatePair pairValue
  have e1 : (UInt32.ofNat n &&& 0x3FF).toNat = n - 0xD800 := by
    rw [UInt32.toNat_and, show (0x3FF : UInt32).toNat = 2 ^ 10 - 1 from rfl, Nat.and_two_pow_sub_one_eq_mod]
    simp; omega
  have e2 : (UInt32.ofNat m &&& 0x3FF).toNat = m - 0xDC00 := by
    rw [UInt32.toNat_and, show (0x3FF : UInt32).toNat = 2 ^ 10 - 1 from rfl, Nat.and_two_pow_sub_one_eq_mod]
    simp; omega
  rw [UInt32.toNat_add, UInt32.toNat_or, UInt32.toNat_shiftLeft, e1, e2,
    show (10 : UInt32).toNat % 32 = 10 from rfl, show (0x10000 : UInt32).toNat = 0x10000 from rfl]
  rw [Nat.mod_eq_of_lt (a := (n - 55296) <<< 10) (by rw [Nat.shiftLeft_eq]; omega),
    combine_nat _ _ (by omega)]
  omega

theorem take_seq {l : UInt8} {ds t : Str} {k : Nat} (h : 2 + ds.length = k) :
    (0x5C :: l :: (ds ++ t)).take k = 0x5C :: l :: ds := by
  subst h
  rw [Nat.add_comm]
  simp

theorem take_seq_end {l : UInt8} {ds : Str} {k : Nat} (h : 2 + ds.length ≤ k) :
    (0x5C :: l :: ds).take k = 0x5C :: l :: ds := by
  apply List.take_of_length_le
  simp; omega

theorem hex_lt32 {ds : Str} (h : ∀ d ∈ ds, IsHex d) (hl : ds.length ≤ 8) : number 16 ds < 2 ^ 32 := by
  refine Nat.lt_of_lt_of_le (number_hex_lt h) ?_
  exact Nat.le_trans (Nat.pow_le_pow_right (by omega) hl) (by decide)

theorem hex_lt16 {ds : Str} (h : ∀ d ∈ ds, IsHex d) (hl : ds.length ≤ 4) : number 16 ds < 0x10000 := by
  refine Nat.lt_of_lt_of_le (number_hex_lt h) ?_
  exact Nat.le_trans (Nat.pow_le_pow_right (by omega) hl) (by decide)

theorem hex_lt12 {ds : Str} (h : ∀ d ∈ ds, IsHex d) (hl : ds.length < 4) : number 16 ds < 0x1000 := by
  refine Nat.lt_of_lt_of_le (number_hex_lt h) ?_
  exact Nat.le_trans (Nat.pow_le_pow_right (by omega) (show ds.length ≤ 3 by omega)) (by decide)

/-- `parse_utf16` on something that is not a high surrogate. -/
theorem parse_plain {q ds t : Str} (h : ∀ d ∈ ds, IsHex d) (h0 : ds ≠ [])
    (hl : ds.length = 4 ∨ (ds.length < 4 ∧ t = [])) (hs : ¬ HighSurrogate (number 16 ds)) :
    parseUtf16 (q ++ 0x5C :: 0x75 :: (ds ++ t)) ⟨q.length, 6⟩ =
      .ok (UInt32.ofNat (number 16 ds), ⟨q.length, 6⟩) := by
  have hv := hex_lt32 h (by omega)
  have e : (0x5C :: 0x75 :: (ds ++ t)).take 6 = 0x5C :: 0x75 :: ds := by
    rcases hl with hl | ⟨hl, rfl⟩
    · exact take_seq (by omega)
    · rw [List.append_nil]; exact take_seq_end (by omega)
  unfold parseUtf16
  simp only
  rw [substr_after, e]
  simp only [bind, Except.bind]
  rw [parseEscapedHexChar_ok h h0 hv]
  simp only
  rw [if_pos ((not_high hv).mpr hs)]

theorem parse_none {q : Str} : parseUtf16 (q ++ [0x5C, 0x75]) ⟨q.length, 6⟩ = .error .ystring := by
  unfold parseUtf16
  simp only
  rw [substr_after]
  rfl

/-- `parse_utf16` on a high surrogate: what it does next. -/
theorem parse_high {q ds t : Str} (h : ∀ d ∈ ds, IsHex d) (hl : ds.length = 4) (hs : HighSurrogate (number 16 ds))
    (hf : q.length + 6 < SIZE_MOD) :
    parseUtf16 (q ++ 0x5C :: 0x75 :: (ds ++ t)) ⟨q.length, 6⟩ = (do
      let sub2 ← findFirstEscapedChar (t.take 6)
      if !sub2.nonempty ∨ sub2.offset ≠ 0 ∨ sub2.length ≠ 6 then .ok (UInt32.ofNat (number 16 ds), ⟨q.length, 6⟩)
      else
        let c ← charAt t 1
        if c ≠ 0x75 then .ok (UInt32.ofNat (number 16 ds), ⟨q.length, 6⟩)
        else
          let ch2 ← parseEscapedHexChar (t.take 6)
          if ch2 < 0xDC00 ∨ 0xDFFF < ch2 then .ok (UInt32.ofNat (number 16 ds), ⟨q.length, 6⟩)
          else .ok (combineSurrogatePair (UInt32.ofNat (number 16 ds)) ch2, ⟨q.length, 12⟩)) := by
  have hv := hex_lt32 h (by omega)
  have e : (0x5C :: 0x75 :: (ds ++ t)).take 6 = 0x5C :: 0x75 :: ds := take_seq (by omega)
  have hstop : Subrange.stop ⟨q.length, 6⟩ = q.length + 6 := by
    unfold Subrange.stop sizeAdd; simp only; rw [Nat.mod_eq_of_lt hf]
  have e2 : q ++ 0x5C :: 0x75 :: (ds ++ t) = (q ++ 0x5C :: 0x75 :: ds) ++ t := by simp
  have e3 : (q ++ 0x5C :: 0x75 :: ds).length = q.length + 6 := by simp; omega
  have e4 : substr (q ++ 0x5C :: 0x75 :: (ds ++ t)) (q.length + 6) 6 = .ok (t.take 6) := by
    rw [e2, ← e3]; exact substr_after
  have e5 : charAt (q ++ 0x5C :: 0x75 :: (ds ++ t)) (q.length + 6 + 1) = charAt t 1 := by
    rw [e2, ← e3]; unfold charAt; rw [List.getElem?_append_right (by omega), Nat.add_sub_cancel_left]
  unfold parseUtf16
  simp only [hstop]
  rw [substr_after, e, e4, e5]
  simp only [bind, Except.bind]
  rw [parseEscapedHexChar_ok h (by intro e; simp [e] at hl) hv]
  simp only
  rw [if_neg (by rw [not_high hv]; exact not_not_intro hs)]

theorem parse_pair {q ds es t : Str} (h : ∀ d ∈ ds, IsHex d) (hl : ds.length = 4) (hs : HighSurrogate (number 16 ds))
    (hf : q.length + 6 < SIZE_MOD) (h' : ∀ d ∈ es, IsHex d) (hl' : es.length = 4) (hs' : LowSurrogate (number 16 es)) :
    parseUtf16 (q ++ 0x5C :: 0x75 :: (ds ++ (0x5C :: 0x75 :: (es ++ t)))) ⟨q.length, 6⟩ =
      .ok (combineSurrogatePair (UInt32.ofNat (number 16 ds)) (UInt32.ofNat (number 16 es)), ⟨q.length, 12⟩) := by
  have hv := hex_lt32 h' (by omega)
  rw [parse_high h hl hs hf, take_seq (by omega)]
  have e1 : findFirstEscapedChar (0x5C :: 0x75 :: es) = .ok ⟨0, 6⟩ := by
    have := find_start (w := []) (p := []) (v := 0x75 :: es) (by simp)
    have h2 := after_u (q := []) (t := []) h' (.inl hl')
    simp at this h2
    rw [this, h2]
  rw [e1]
  simp only [bind, Except.bind]
  rw [if_neg (by simp [Subrange.nonempty])]
  have e2 : charAt (0x5C :: 0x75 :: (es ++ t)) 1 = .ok 0x75 := rfl
  rw [e2]
  simp only
  rw [if_neg (by simp), parseEscapedHexChar_ok h' (by intro e; simp [e] at hl') hv]
  simp only
  rw [if_neg (by rw [not_low hv]; exact not_not_intro hs')]

theorem parse_bad {q ds t : Str} (h : ∀ d ∈ ds, IsHex d) (hl : ds.length = 4) (hs : HighSurrogate (number 16 ds))
    (hf : q.length + 6 < SIZE_MOD) (hb : BadSecond t) :
    parseUtf16 (q ++ 0x5C :: 0x75 :: (ds ++ t)) ⟨q.length, 6⟩ = .error .ystring := by
  rw [parse_high h hl hs hf]
  rcases hb with rfl | ⟨p, w, e, hp, hw⟩
  · have e1 : findFirstEscapedChar (List.take 6 [0x5C, 0x75]) = .ok ⟨0, 6⟩ := by decide +kernel
    rw [e1]
    rfl
  · have : ∃ v, w = 0x5C :: v := by cases hw <;> exact ⟨_, rfl⟩
    obtain ⟨v, rfl⟩ := this
    rw [e]
    have h1 := find_start (w := []) (v := v) hp
    simp at h1
    rw [h1, after_bad hw]
    rfl

theorem shape_find {q v : Str} (h : ¬ BadStart (0x5C :: v)) :
    ∃ k, afterBackslash q v = .ok ⟨q.length, k⟩ ∧ k ≠ 0 := by
  cases shape v with
  | bad hb => exact absurd hb h
  | hex hl h2 hd ht => exact ⟨_, by rw [after_x hl hd ht, if_neg (by omega)], by omega⟩
  | short hd hl => exact ⟨_, after_u hd (le_or ‹_›), by omega⟩
  | long hd hl => exact ⟨_, after_U hd (le_or ‹_›), by omega⟩
  | oct hd h1 h3 ht =>
    rename_i ds t
    by_cases h : ds.length = 3
    · exact ⟨_, after_oct_end hd h1 (.inl h), by omega⟩
    · cases t with
      | nil => exact ⟨_, after_oct_end hd h1 (.inr ⟨h3, rfl⟩), by omega⟩
      | cons b t => exact ⟨_, after_oct_found hd h1 (ht (by omega) b t rfl) (by omega), by omega⟩
  | other ha hx hu hU ho => exact ⟨2, by rw [after_other (by rwa [Or.comm]) hu hU ho, if_pos ha], by omega⟩

theorem take_nil_of {n : Nat} {t : Str} (h : t.take (n + 1) = []) : t = [] := by
  cases t with
  | nil => rfl
  | cons => simp at h

theorem parse_lone {q ds t : Str} (h : ∀ d ∈ ds, IsHex d) (hl : ds.length = 4) (hs : HighSurrogate (number 16 ds))
    (hf : q.length + 6 < SIZE_MOD) (hn : ¬ LowEscapeAhead t) (hb : ¬ BadSecond t) :
    parseUtf16 (q ++ 0x5C :: 0x75 :: (ds ++ t)) ⟨q.length, 6⟩ =
      .ok (UInt32.ofNat (number 16 ds), ⟨q.length, 6⟩) := by
  rw [parse_high h hl hs hf]
  rcases find_split (fun b => b == 0x5C) (t.take 6) with hp | ⟨p, b, v, e, hp, hb'⟩
  · have hp : 0x5C ∉ t.take 6 := by intro hm; have := hp _ hm; simp at this
    have := find_none (w := []) hp
    simp only [List.nil_append, List.length_nil] at this
    rw [this]
    simp only [bind, Except.bind]
    rw [if_pos (by simp [Subrange.nonempty])]
  · have hp : 0x5C ∉ p := by intro hm; have := hp _ hm; simp at this
    have : b = 0x5C := by simpa using hb'
    subst this
    have hnb : ¬ BadStart (0x5C :: v) := fun hbs => hb (.inr ⟨p, _, e, hp, hbs⟩)
    have hfs := find_start (w := []) (v := v) hp
    simp only [List.nil_append, List.length_nil] at hfs
    by_cases hpn : p = []
    · subst hpn
      simp only [List.nil_append] at hfs e
      cases shape v with
      | bad hbs => exact absurd hbs hnb
      | @short es t' hd hl' =>
        rw [e, hfs, after_u hd (le_or ‹_›)]
        simp only [bind, Except.bind]
        rw [if_neg (by simp [Subrange.nonempty])]
        have ht : ∃ t'', t = 0x5C :: 0x75 :: t'' := by
          match t, e with
          | a :: b :: t'', e =>
            simp only [List.take_succ_cons, List.cons.injEq] at e
            exact ⟨t'', by rw [e.1, e.2.1]⟩
        obtain ⟨t'', rfl⟩ := ht
        have e2 : charAt (0x5C :: 0x75 :: t'') 1 = .ok 0x75 := rfl
        rw [e2]
        simp only
        rw [if_neg (by simp)]
        simp only [List.take_succ_cons, List.cons.injEq, true_and] at e
        have ht' : t' = [] := by
          rcases hl' with h4 | ⟨_, h⟩
          · have := congrArg List.length e
            simp [h4] at this
            exact List.length_eq_zero_iff.mp (by omega)
          · exact h
        subst ht'
        rw [List.append_nil] at e ⊢
        have h0 : es ≠ [] := by
          rintro rfl
          exact hb (.inl (by rw [take_nil_of e]))
        have hv := hex_lt32 hd (by omega)
        rw [parseEscapedHexChar_ok hd h0 hv]
        simp only
        rw [if_pos]
        rw [not_low hv]
        intro hlow
        by_cases h4 : es.length = 4
        · refine hn ⟨es, t''.drop 4, ?_, h4, hd, hlow⟩
          rw [← e, List.take_append_drop]
        · have := hex_lt12 hd (by omega)
          unfold LowSurrogate at hlow; omega
      | @hex l es t' hx h2 hd ht =>
        rw [e, hfs, after_x hx hd ht, if_neg (by omega)]
        simp only [bind, Except.bind]
        have ht : ∃ t'', t = 0x5C :: l :: t'' := by
          match t, e with
          | a :: b :: t'', e =>
            simp only [List.take_succ_cons, List.cons.injEq] at e
            exact ⟨t'', by rw [e.1, e.2.1]⟩
        obtain ⟨t'', rfl⟩ := ht
        split
        · rfl
        · have e2 : charAt (0x5C :: l :: t'') 1 = .ok l := rfl
          rw [e2]
          simp only
          rw [if_pos (by rcases hx with rfl | rfl <;> decide)]
      | long hd hl' =>
        rw [e, hfs, after_U hd (le_or ‹_›)]
        simp only [bind, Except.bind]
        rw [if_pos (by simp)]
      | @oct es t' hd h1 h3 ht =>
        have : ∃ k, afterBackslash [] (es ++ t') = .ok ⟨([] : Str).length, k⟩ ∧ k ≠ 6 := by
          by_cases h : es.length = 3
          · exact ⟨_, after_oct_end hd h1 (.inl h), by omega⟩
          · cases t' with
            | nil => exact ⟨_, after_oct_end hd h1 (.inr ⟨h3, rfl⟩), by omega⟩
            | cons b t => exact ⟨_, after_oct_found hd h1 (ht (by omega) b t rfl) (by omega), by omega⟩
        obtain ⟨k, hk, hk6⟩ := this
        rw [e, hfs, hk]
        simp only [bind, Except.bind]
        rw [if_pos (by simp [hk6])]
      | other ha hx hu hU ho =>
        rw [e, hfs, after_other (by rwa [Or.comm]) hu hU ho, if_pos ha]
        simp only [bind, Except.bind]
        rw [if_pos (by simp)]
    · obtain ⟨k, hk, _⟩ := shape_find (q := p) hnb
      rw [e, hfs, hk]
      simp only [bind, Except.bind]
      rw [if_pos (by simp [hpn])]

/-! ### One step of `unescape` -/

theorem encode_value {n : Nat} (h : n < 2 ^ 32) : encodeUtf8 (UInt32.ofNat n) = utf8OrNothing n := by
  have e : (UInt32.ofNat n).toNat = n := by simp; omega
  unfold utf8OrNothing
  split
  · rename_i hle
    rw [encodeUtf8_rfc _ (by rw [e]; exact hle), e]
  · rename_i hle
    rw [encodeUtf8_big _ (by rw [e]; exact hle)]

theorem encode_value_le {n : Nat} (h : n ≤ 0x10FFFF) : encodeUtf8 (UInt32.ofNat n) = rfcEncode n := by
  rw [encode_value (by omega)]
  unfold utf8OrNothing
  rw [if_pos h]

theorem other_not_letters (c : UInt8) (_ : c.toNat < 0x80) (hr : c ∉ reserved) :
    ¬ (c = 0x78 ∨ c = 0x58 ∨ c = 0x55) ∧ c ≠ 0x75 ∧ c ≠ 0x61 ∧
    c ≠ 0x62 ∧ c ≠ 0x66 ∧ c ≠ 0x6E ∧ c ≠ 0x72 ∧ c ≠ 0x74 ∧ c ≠ 0x76 := by
  simp only [reserved, List.mem_cons, List.not_mem_nil, or_false, not_or] at hr
  simp only [not_or]
  exact ⟨⟨hr.2.2.2.2.2.2.2.1, hr.2.2.2.2.2.2.2.2.1, hr.2.2.2.2.2.2.2.2.2.2.1⟩, hr.2.2.2.2.2.2.2.2.2.1, hr.1,
    hr.2.1, hr.2.2.1, hr.2.2.2.1, hr.2.2.2.2.1, hr.2.2.2.2.2.1, hr.2.2.2.2.2.2.1⟩

theorem oct_reserved (c : UInt8) (h : IsOct c) : reserved.contains c = true := by
  revert c; apply forall_u8; decide +kernel

theorem ascii_encode (c : UInt8) (h : c.toNat < 0x80) : encodeUtf8 c.toUInt32 = [c] := by
  revert c; apply forall_u8; decide +kernel

theorem other_not_letters' (c : UInt8) (h : c.toNat < 0x80) (hr : c ∉ reserved) :
    isOctDigit c = false ∧ ¬ IsOct c ∧ ¬ (c = 0x58 ∨ c = 0x78) ∧ c ≠ 0x55 ∧ encodeUtf8 c.toUInt32 = [c] := by
  have ho : ¬ IsOct c := fun ho => hr (by simpa using oct_reserved c ho)
  have := other_not_letters c h hr
  refine ⟨?_, ho, ?_, ?_, ascii_encode c h⟩
  · rw [Bool.eq_false_iff]; intro h; exact ho ((isOctDigit_iff c).mp h)
  · intro h; apply this.1; rcases h with h | h
    · exact .inr (.inl h)
    · exact .inl h
  · intro h; exact this.1 (.inr (.inr h))

/-- A complete escape sequence: what is found, and how it is decoded. -/
theorem step_ok {e s out : Str} (h : Escape e s out) : ∃ v k ch, e ++ s = 0x5C :: v ∧ k ≠ 0 ∧
    (∀ q, afterBackslash q v = .ok ⟨q.length, k⟩) ∧
    (∀ q : Str, q.length + 12 < SIZE_MOD → decodeEscaped (q ++ (e ++ s)) ⟨q.length, k⟩ = .ok (ch, ⟨q.length, e.length⟩)) ∧
    encodeUtf8 ch = out := by
  cases h with
  | @letter l c _ hm =>
    simp only [controlLetters, List.mem_cons, Prod.mk.injEq, List.not_mem_nil, or_false] at hm
    refine ⟨l :: s, 2, c.toUInt32, rfl, by omega, ?_, ?_, ?_⟩
    · intro q
      rcases hm with ⟨rfl, rfl⟩ | ⟨rfl, rfl⟩ | ⟨rfl, rfl⟩ | ⟨rfl, rfl⟩ | ⟨rfl, rfl⟩ | ⟨rfl, rfl⟩ | ⟨rfl, rfl⟩ <;>
      · rw [after_other (by decide) (by decide) (by decide) (by decide)]; rfl
    · intro q _
      rcases hm with ⟨rfl, rfl⟩ | ⟨rfl, rfl⟩ | ⟨rfl, rfl⟩ | ⟨rfl, rfl⟩ | ⟨rfl, rfl⟩ | ⟨rfl, rfl⟩ | ⟨rfl, rfl⟩ <;>
      · unfold decodeEscaped
        simp only [Subrange.start, List.cons_append, List.nil_append]
        rw [charAt_after]
        rfl
    · rcases hm with ⟨rfl, rfl⟩ | ⟨rfl, rfl⟩ | ⟨rfl, rfl⟩ | ⟨rfl, rfl⟩ | ⟨rfl, rfl⟩ | ⟨rfl, rfl⟩ | ⟨rfl, rfl⟩ <;>
        decide +kernel
  | @other b _ ha hr =>
    obtain ⟨n1, n2, n3, n4, n5, n6, n7, n8, n9⟩ := other_not_letters b ha hr
    obtain ⟨n10, n11, n12, n13, n14⟩ := other_not_letters' b ha hr
    refine ⟨b :: s, 2, b.toUInt32, rfl, by omega, ?_, ?_, n14⟩
    · intro q
      rw [after_other n12 n2 n13 n11, if_pos ha]
    · intro q _
      unfold decodeEscaped
      simp only [Subrange.start, List.cons_append, List.nil_append]
      rw [charAt_after]
      simp only [bind, Except.bind]
      rw [if_neg n1, if_neg n2, if_neg n3, if_neg n4, if_neg n5, if_neg n6, if_neg n7, if_neg n8, if_neg n9,
        if_neg (by simp [n10])]
      rfl
  | @oct ds _ h1 h3 hd ht =>
    have hv : number 8 ds < 512 := Nat.lt_of_lt_of_le (number_oct_lt hd)
      (Nat.le_trans (Nat.pow_le_pow_right (by omega) h3) (by decide))
    refine ⟨ds ++ s, 1 + ds.length, UInt32.ofNat (number 8 ds), rfl, by omega, ?_, ?_, ?_⟩
    · intro q
      by_cases h : ds.length = 3
      · rw [after_oct_end hd h1 (.inl h), h]
      · obtain ⟨b, t', rfl, hb⟩ := ht (by omega)
        exact after_oct_found hd h1 hb (by omega)
    · intro q _
      have := decode_oct (q := q) (t := s) (k := 1 + ds.length) hd h1 h3 (by rw [Nat.add_comm]; simp)
      rw [List.cons_append, this, List.length_cons, Nat.add_comm]
    · exact encode_value_le (by omega)
  | @hex l ds _ hl h2 hd ht hv =>
    refine ⟨l :: (ds ++ s), 2 + ds.length, UInt32.ofNat (number 16 ds), rfl, by omega, ?_, ?_, encode_value hv⟩
    · intro q
      rw [after_x hl hd ht, if_neg (by omega)]
    · intro q _
      have := decode_hexlike (q := q) (v := ds ++ s) (l := l) (by rcases hl with h | h <;> simp [h])
        (take_seq (l := l) (ds := ds) (t := s) rfl)
      rw [List.cons_append, List.cons_append, this, parseEscapedHexChar_ok hd (by intro e; simp [e] at h2) hv]
      simp only [List.length_cons]
      rw [show 2 + ds.length = ds.length + 1 + 1 by omega]
  | @long ds _ h8 hd =>
    have hv := hex_lt32 hd (by omega)
    refine ⟨0x55 :: (ds ++ s), 10, UInt32.ofNat (number 16 ds), rfl, by omega, ?_, ?_, encode_value hv⟩
    · intro q
      exact after_U hd (.inl h8)
    · intro q _
      have := decode_hexlike (q := q) (v := ds ++ s) (l := 0x55) (k := 10) (by simp)
        (take_seq (l := 0x55) (ds := ds) (t := s) (by omega))
      rw [List.cons_append, List.cons_append, this, parseEscapedHexChar_ok hd (by intro e; simp [e] at h8) hv]
      simp only [List.length_cons]
      rw [show ds.length + 1 + 1 = 10 by omega]
  | @short ds _ h4 hd hs =>
    have hv := hex_lt16 hd (by omega)
    refine ⟨0x75 :: (ds ++ s), 6, UInt32.ofNat (number 16 ds), rfl, by omega, ?_, ?_, encode_value_le (by omega)⟩
    · intro q
      exact after_u hd (.inl h4)
    · intro q _
      rw [List.cons_append, List.cons_append, decode_u, parse_plain hd (by intro e; simp [e] at h4) (.inl h4) hs]
      simp only [List.length_cons]
      rw [show ds.length + 1 + 1 = 6 by omega]
  | @pair ds es _ h4 hd hs h4' hd' hs' =>
    refine ⟨0x75 :: (ds ++ 0x5C :: 0x75 :: (es ++ s)), 6,
      combineSurrogatePair (UInt32.ofNat (number 16 ds)) (UInt32.ofNat (number 16 es)), by simp, by omega, ?_, ?_, ?_⟩
    · intro q
      exact after_u hd (.inl h4)
    · intro q hq
      have e : 0x5C :: 0x75 :: (ds ++ 0x5C :: 0x75 :: es) ++ s = 0x5C :: 0x75 :: (ds ++ (0x5C :: 0x75 :: (es ++ s))) := by
        simp
      rw [e, decode_u, parse_pair hd h4 hs (by omega) hd' h4' hs']
      simp only [List.length_cons, List.length_append]
      rw [show ds.length + (es.length + 1 + 1) + 1 + 1 = 12 by omega]
    · have hc := combine_toNat hs hs'
      have hle : pairValue (number 16 ds) (number 16 es) ≤ 0x10FFFF := by
        unfold pairValue; unfold HighSurrogate at hs; unfold LowSurrogate at hs'; omega
      rw [encodeUtf8_rfc _ (by rw [hc]; exact hle), hc]
  | @lone ds _ h4 hd hs hn hb =>
    have hv := hex_lt16 hd (by omega)
    refine ⟨0x75 :: (ds ++ s), 6, UInt32.ofNat (number 16 ds), rfl, by omega, ?_, ?_, encode_value_le (by omega)⟩
    · intro q
      exact after_u hd (.inl h4)
    · intro q hq
      rw [List.cons_append, List.cons_append, decode_u, parse_lone hd h4 hs (by omega) hn hb]
      simp only [List.length_cons]
      rw [show ds.length + 1 + 1 = 6 by omega]

/-- A malformed sequence. -/
theorem step_bad {s : Str} (h : Malformed s) : ∃ v, s = 0x5C :: v ∧
    ((∀ q, afterBackslash q v = .error .ystring) ∨
      ∃ k, k ≠ 0 ∧ (∀ q, afterBackslash q v = .ok ⟨q.length, k⟩) ∧
        ∀ q : Str, q.length + 12 < SIZE_MOD → decodeEscaped (q ++ s) ⟨q.length, k⟩ = .error .ystring) := by
  cases h with
  | bad hb =>
    have : ∃ v, s = 0x5C :: v := by cases hb <;> exact ⟨_, rfl⟩
    obtain ⟨v, rfl⟩ := this
    exact ⟨v, rfl, .inl fun q => after_bad hb⟩
  | @noDigit l hl =>
    refine ⟨[l], rfl, .inr ?_⟩
    rcases hl with rfl | rfl
    · exact ⟨6, by omega, fun q => after_u (ds := []) (by simp) (by simp), fun q _ => by
        rw [decode_u, parse_none]⟩
    · exact ⟨10, by omega, fun q => after_U (ds := []) (by simp) (by simp), fun q _ => by
        rw [decode_hexlike (x := [0x5C, 0x55]) (by simp) (by simp)]; rfl⟩
  | @high ds t h4 hd hs hb =>
    refine ⟨_, rfl, .inr ⟨6, by omega, fun q => after_u hd (.inl h4), fun q hq => ?_⟩⟩
    rw [decode_u, parse_bad hd h4 hs (by omega) hb]

/-- Undefined behaviour: an unassigned value is used, or the sequence ends behind the end of the string. -/
theorem step_ub {s : Str} (h : Undefined s) : ∃ v k, s = 0x5C :: v ∧ k ≠ 0 ∧
    (∀ q, afterBackslash q v = .ok ⟨q.length, k⟩) ∧
    ((∀ q : Str, decodeEscaped (q ++ s) ⟨q.length, k⟩ = .error .ub) ∨
      (s.length < k ∧ k ≤ 10 ∧ ∃ ch, ∀ q : Str, decodeEscaped (q ++ s) ⟨q.length, k⟩ = .ok (ch, ⟨q.length, k⟩))) := by
  cases h with
  | @oct ds h1 h3 hd =>
    refine ⟨ds, 4, rfl, by omega, ?_, .inr ⟨by simp; omega, by omega, UInt32.ofNat (number 8 ds), fun q => ?_⟩⟩
    · intro q
      have := after_oct_end (q := q) (t := []) hd h1 (.inr ⟨by omega, rfl⟩)
      rwa [List.append_nil] at this
    · have := decode_oct (q := q) (t := []) (k := 4) hd h1 (by omega) (by
        rw [List.append_nil]; exact List.take_of_length_le (by simp; omega))
      rwa [List.append_nil] at this
  | @short ds h1 h3 hd =>
    refine ⟨0x75 :: ds, 6, rfl, by omega, ?_, .inr ⟨by simp; omega, by omega, UInt32.ofNat (number 16 ds), fun q => ?_⟩⟩
    · intro q
      have := after_u (q := q) (t := []) hd (.inr ⟨by omega, rfl⟩)
      rwa [List.append_nil] at this
    · have h12 := hex_lt12 hd h3
      have := parse_plain (q := q) (t := []) hd (by intro e; simp [e] at h1) (.inr ⟨h3, rfl⟩)
        (by unfold HighSurrogate; omega)
      rw [List.append_nil] at this
      rw [decode_u, this]
  | @long ds h1 h3 hd =>
    have hv := hex_lt32 hd (by omega)
    refine ⟨0x55 :: ds, 10, rfl, by omega, ?_, .inr ⟨by simp; omega, by omega, UInt32.ofNat (number 16 ds), fun q => ?_⟩⟩
    · intro q
      have := after_U (q := q) (t := []) hd (.inr ⟨by omega, rfl⟩)
      rwa [List.append_nil] at this
    · rw [decode_hexlike (by simp) (take_seq_end (by omega)), parseEscapedHexChar_ok hd (by intro e; simp [e] at h1) hv]
  | @hex l ds t hl hd ht hv =>
    have h2 : 2 ≤ ds.length := by
      by_cases h : ds.length < 8
      · have := hex_lt32 hd (by omega); omega
      · omega
    refine ⟨l :: (ds ++ t), 2 + ds.length, rfl, by omega, fun q => ?_, .inl fun q => ?_⟩
    · rw [after_x hl hd ht, if_neg (by omega)]
    · rw [decode_hexlike (by rcases hl with h | h <;> simp [h]) (take_seq rfl), parseEscapedHexChar_ub hd hv]

/-- One of the three happens at every backslash. -/
theorem step_cases (v : Str) : (∃ e s out, 0x5C :: v = e ++ s ∧ Escape e s out) ∨ Malformed (0x5C :: v) ∨
    Undefined (0x5C :: v) := by
  cases shape v with
  | bad h => exact .inr (.inl (.bad h))
  | @hex l ds t hl h2 hd ht =>
    by_cases hv : number 16 ds < 2 ^ 32
    · exact .inl ⟨0x5C :: l :: ds, t, _, rfl, .hex hl h2 hd ht hv⟩
    · exact .inr (.inr (.hex hl hd ht (by omega)))
  | @short ds t hd hl =>
    by_cases h4 : ds.length = 4
    · by_cases hs : HighSurrogate (number 16 ds)
      · by_cases hb : BadSecond t
        · exact .inr (.inl (.high h4 hd hs hb))
        · by_cases hn : LowEscapeAhead t
          · obtain ⟨es, t', rfl, h4', hd', hs'⟩ := hn
            exact .inl ⟨0x5C :: 0x75 :: (ds ++ 0x5C :: 0x75 :: es), t', _, by simp, .pair h4 hd hs h4' hd' hs'⟩
          · exact .inl ⟨0x5C :: 0x75 :: ds, t, _, rfl, .lone h4 hd hs hn hb⟩
      · exact .inl ⟨0x5C :: 0x75 :: ds, t, _, rfl, .short h4 hd hs⟩
    · obtain ⟨hl', rfl⟩ : ds.length < 4 ∧ t = [] := by rcases hl with h | h; exact absurd h h4; exact h
      rw [List.append_nil]
      cases ds with
      | nil => exact .inr (.inl (.noDigit (.inl rfl)))
      | cons d ds => exact .inr (.inr (.short (by simp) hl' hd))
  | @long ds t hd hl =>
    by_cases h4 : ds.length = 8
    · exact .inl ⟨0x5C :: 0x55 :: ds, t, _, rfl, .long h4 hd⟩
    · obtain ⟨hl', rfl⟩ : ds.length < 8 ∧ t = [] := by rcases hl with h | h; exact absurd h h4; exact h
      rw [List.append_nil]
      cases ds with
      | nil => exact .inr (.inl (.noDigit (.inr rfl)))
      | cons d ds => exact .inr (.inr (.long (by simp) hl' hd))
  | @oct ds t hd h1 h3 ht =>
    by_cases h : ds.length = 3
    · exact .inl ⟨0x5C :: ds, t, _, rfl, .oct h1 h3 hd (by omega)⟩
    · cases t with
      | nil => rw [List.append_nil]; exact .inr (.inr (.oct h1 (by omega) hd))
      | cons b t =>
        exact .inl ⟨0x5C :: ds, b :: t, _, rfl, .oct h1 h3 hd (fun _ => ⟨b, t, rfl, ht (by omega) b t rfl⟩)⟩
  | @other c t ha hx hu hU ho =>
    by_cases hr : c ∈ reserved
    · have : c ∈ controlLetters.map Prod.fst := by
        simp only [reserved, List.mem_cons, List.not_mem_nil, or_false] at hr
        simp only [controlLetters, List.map_cons, List.map_nil, List.mem_cons, List.not_mem_nil, or_false]
        rcases hr with h | h | h | h | h | h | h | h | h | h | h | h | h | h | h | h | h | h | h
        · exact .inl h
        · exact .inr (.inl h)
        · exact .inr (.inr (.inl h))
        · exact .inr (.inr (.inr (.inl h)))
        · exact .inr (.inr (.inr (.inr (.inl h))))
        · exact .inr (.inr (.inr (.inr (.inr (.inl h)))))
        · exact .inr (.inr (.inr (.inr (.inr (.inr h)))))
        · exact absurd (.inl h) hx
        · exact absurd (.inr h) hx
        · exact absurd h hu
        · exact absurd h hU
        all_goals exact absurd (by rw [h]; decide) ho
      rw [List.mem_map] at this
      obtain ⟨⟨l, d⟩, hm, rfl⟩ := this
      exact .inl ⟨[0x5C, l], t, _, rfl, .letter hm⟩
    · exact .inl ⟨[0x5C, c], t, _, rfl, .other ha hr⟩

theorem escape_length {e s out : Str} (h : Escape e s out) : out.length ≤ e.length ∧ 2 ≤ e.length ∧ e.head? = some 0x5C := by
  have l4 : ∀ n, (rfcEncode n).length ≤ 4 := by
    intro n; unfold rfcEncode; repeat' split
    all_goals simp
  have lu : ∀ n, (utf8OrNothing n).length ≤ 4 := by
    intro n; unfold utf8OrNothing; split
    · exact l4 n
    · simp
  have ls : ∀ n, n < 0x80 → (rfcEncode n).length ≤ 1 := by
    intro n h; unfold rfcEncode; rw [if_pos h]; simp
  have ls2 : ∀ n, n < 0x800 → (rfcEncode n).length ≤ 2 := by
    intro n h; unfold rfcEncode; split
    · simp
    · simp
  cases h with
  | letter => simp
  | other => simp
  | @oct ds _ h1 h3 hd =>
    refine ⟨?_, by simp; omega, rfl⟩
    have hv : number 8 ds < 512 := Nat.lt_of_lt_of_le (number_oct_lt hd)
      (Nat.le_trans (Nat.pow_le_pow_right (by omega) h3) (by decide))
    have := ls2 _ (show number 8 ds < 0x800 by omega)
    simp; omega
  | @hex l ds _ _ h2 => refine ⟨?_, by simp, rfl⟩; have := lu (number 16 ds); simp; omega
  | @long ds => refine ⟨?_, by simp, rfl⟩; have := lu (number 16 ds); simp; omega
  | @short ds => refine ⟨?_, by simp, rfl⟩; have := l4 (number 16 ds); simp; omega
  | @pair ds es => refine ⟨?_, by simp, rfl⟩; have := l4 (pairValue (number 16 ds) (number 16 es)); simp; omega
  | @lone ds => refine ⟨?_, by simp, rfl⟩; have := l4 (number 16 ds); simp; omega

end Ystring
