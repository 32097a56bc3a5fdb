import Verif.Model.Utf8
import Verif.Spec.Utf8
namespace Ystring
open Spec

/-! ### Facts about single bytes, by complete enumeration -/

theorem forall_byte (p : UInt8 → Bool)
    (h : (List.range 256).all (fun n => p (UInt8.ofNat n)) = true) (b : UInt8) : p b = true := by
  rw [List.all_eq_true] at h
  have hb : b.toNat < 256 := b.toNat_lt
  have := h b.toNat (by simpa using hb)
  simpa using this

theorem and80 (b : UInt8) : b &&& 0x80 = 0 ↔ b.toNat < 0x80 := by
  have := forall_byte (fun b => decide (b &&& 0x80 = 0 ↔ b.toNat < 0x80)) (by decide +kernel) b
  exact of_decide_eq_true this

theorem andC0 (b : UInt8) : b &&& 0xC0 = 0x80 ↔ 0x80 ≤ b.toNat ∧ b.toNat < 0xC0 := by
  have := forall_byte (fun b => decide (b &&& 0xC0 = 0x80 ↔ 0x80 ≤ b.toNat ∧ b.toNat < 0xC0))
    (by decide +kernel) b
  exact of_decide_eq_true this

theorem andE0 (b : UInt8) : b &&& 0xE0 = 0xC0 ↔ 0xC0 ≤ b.toNat ∧ b.toNat < 0xE0 := by
  have := forall_byte (fun b => decide (b &&& 0xE0 = 0xC0 ↔ 0xC0 ≤ b.toNat ∧ b.toNat < 0xE0))
    (by decide +kernel) b
  exact of_decide_eq_true this

theorem andF0 (b : UInt8) : b &&& 0xF0 = 0xE0 ↔ 0xE0 ≤ b.toNat ∧ b.toNat < 0xF0 := by
  have := forall_byte (fun b => decide (b &&& 0xF0 = 0xE0 ↔ 0xE0 ≤ b.toNat ∧ b.toNat < 0xF0))
    (by decide +kernel) b
  exact of_decide_eq_true this

theorem andF8 (b : UInt8) : b &&& 0xF8 = 0xF0 ↔ 0xF0 ≤ b.toNat ∧ b.toNat < 0xF8 := by
  have := forall_byte (fun b => decide (b &&& 0xF8 = 0xF0 ↔ 0xF0 ≤ b.toNat ∧ b.toNat < 0xF8))
    (by decide +kernel) b
  exact of_decide_eq_true this

theorem and3F (b : UInt8) : (b &&& 0x3F).toNat = b.toNat % 64 := by
  have := forall_byte (fun b => decide ((b &&& 0x3F).toNat = b.toNat % 64)) (by decide +kernel) b
  exact of_decide_eq_true this
theorem and1F (b : UInt8) : (b &&& 0x1F).toNat = b.toNat % 32 := by
  have := forall_byte (fun b => decide ((b &&& 0x1F).toNat = b.toNat % 32)) (by decide +kernel) b
  exact of_decide_eq_true this
theorem and0F (b : UInt8) : (b &&& 0x0F).toNat = b.toNat % 16 := by
  have := forall_byte (fun b => decide ((b &&& 0x0F).toNat = b.toNat % 16)) (by decide +kernel) b
  exact of_decide_eq_true this
theorem and07 (b : UInt8) : (b &&& 0x07).toNat = b.toNat % 8 := by
  have := forall_byte (fun b => decide ((b &&& 0x07).toNat = b.toNat % 8)) (by decide +kernel) b
  exact of_decide_eq_true this

/-- appending six bits -/
theorem push6 (r : UInt32) (x : UInt8) (hr : r.toNat < 67108864) (hx : x.toNat < 64) :
    ((r <<< 6) ||| x.toUInt32).toNat = r.toNat * 64 + x.toNat := by
  rw [UInt32.toNat_or, UInt32.toNat_shiftLeft]
  simp only [UInt8.toNat_toUInt32]
  have h6 : (UInt32.toNat 6 % 32) = 6 := by decide
  rw [h6, Nat.shiftLeft_eq, Nat.mod_eq_of_lt (by omega)]
  have := Nat.two_pow_add_eq_or_of_lt (i := 6) (b := x.toNat) (by simpa using hx) r.toNat
  rw [Nat.mul_comm] at this
  rw [← this]

/-! ### Sequences -/

theorem Spec.IsSeq.ne_nil {u c} (h : IsSeq u c) : u ≠ [] := by cases h <;> simp
theorem Spec.IsSeq.length_pos {u c} (h : IsSeq u c) : 0 < u.length := by cases h <;> simp
theorem Spec.IsSeq.length_le {u c} (h : IsSeq u c) : u.length ≤ 4 := by cases h <;> simp

theorem Spec.IsSeq.lt {u c} (h : IsSeq u c) : c.toNat < 0x200000 := by
  cases h <;> (try simp only [IsCont] at *) <;> omega

theorem Spec.IsSeq.ne_invalid {u c} (h : IsSeq u c) : c ≠ INVALID_CHAR := by
  intro e
  have := h.lt
  rw [e] at this
  exact absurd this (by decide)

/-- The value is determined by the bytes. -/
theorem Spec.IsSeq.unique {u c d} (h : IsSeq u c) (h' : IsSeq u d) : c = d := by
  apply UInt32.toNat_inj.mp
  cases h <;> cases h' <;> omega

/-- Two sequences that are prefixes of the same string are equal. -/
theorem Spec.IsSeq.append_inj {u v c d s t} (h : IsSeq u c) (h' : IsSeq v d) (e : u ++ s = v ++ t) :
    u = v ∧ c = d ∧ s = t := by
  have key : u = v ∧ s = t := by
    cases h <;> cases h' <;> simp only [List.cons_append, List.nil_append, List.cons.injEq] at e <;>
      (obtain ⟨rfl, e⟩ := e) <;> simp_all <;> omega
  obtain ⟨rfl, rfl⟩ := key
  exact ⟨rfl, h.unique h', rfl⟩

theorem decodeNext_seq {u c} (h : IsSeq u c) (t : Str) : decodeNext (u ++ t) = .ok (c, t) := by
  cases h with
  | one h1 h2 =>
    rename_i b
    have : b.toUInt32 = c := by apply UInt32.toNat_inj.mp; simp [h2]
    simp [decodeNext, and80, h1, this]
  | two h1 h2 h3 h4 =>
    rename_i b x
    have hb := and1F b
    have hx := and3F x
    simp only [IsCont] at h3
    simp only [List.cons_append, List.nil_append, decodeNext, and80, andE0, andC0, decodeNextLoop,
      List.length_cons]
    rw [if_neg (by omega), if_pos (by omega), if_neg (by omega), if_pos (by omega)]
    congr 2
    apply UInt32.toNat_inj.mp
    rw [push6 _ _ (by simp only [UInt8.toNat_toUInt32]; omega) (by omega)]
    simp only [UInt8.toNat_toUInt32]
    omega
  | three h1 h2 h3 h4 h5 =>
    rename_i b x y
    have hb := and0F b
    have hx := and3F x
    have hy := and3F y
    simp only [IsCont] at h3 h4
    simp only [List.cons_append, List.nil_append, decodeNext, and80, andE0, andF0, andC0,
      decodeNextLoop, List.length_cons]
    rw [if_neg (by omega), if_neg (by omega), if_pos (by omega), if_neg (by omega),
      if_pos (by omega), if_pos (by omega)]
    congr 2
    apply UInt32.toNat_inj.mp
    have e1 := push6 (b &&& 0x0F).toUInt32 (x &&& 0x3F) (by simp only [UInt8.toNat_toUInt32]; omega) (by omega)
    simp only [UInt8.toNat_toUInt32] at e1
    rw [push6 _ _ (by omega) (by omega), e1]
    omega
  | four h1 h2 h3 h4 h5 h6 =>
    rename_i b x y z
    have hb := and07 b
    have hx := and3F x
    have hy := and3F y
    have hz := and3F z
    simp only [IsCont] at h3 h4 h5
    simp only [List.cons_append, List.nil_append, decodeNext, and80, andE0, andF0, andF8, andC0,
      decodeNextLoop, List.length_cons]
    rw [if_neg (by omega), if_neg (by omega), if_neg (by omega), if_pos (by omega),
      if_neg (by omega), if_pos (by omega), if_pos (by omega), if_pos (by omega)]
    congr 2
    apply UInt32.toNat_inj.mp
    have e1 := push6 (b &&& 0x07).toUInt32 (x &&& 0x3F) (by simp only [UInt8.toNat_toUInt32]; omega) (by omega)
    simp only [UInt8.toNat_toUInt32] at e1
    have e2 := push6 _ (y &&& 0x3F) (by rw [e1]; omega) (by omega)
    rw [push6 _ _ (by omega) (by omega), e2, e1]
    omega

/-- A sequence value exists for every lead byte with enough continuation bytes. -/
theorem seq_two {b x : UInt8} (h1 : 0xC0 ≤ b.toNat ∧ b.toNat < 0xE0) (h2 : 0x80 ≤ x.toNat ∧ x.toNat < 0xC0) :
    ∃ c, IsSeq [b, x] c :=
  ⟨UInt32.ofNat ((b.toNat - 0xC0) * 64 + (x.toNat - 0x80)), .two h1.1 h1.2 h2 (by
    rw [UInt32.toNat_ofNat_of_lt']; show _ < 4294967296; omega)⟩
theorem seq_three {b x y : UInt8} (h1 : 0xE0 ≤ b.toNat ∧ b.toNat < 0xF0)
    (h2 : 0x80 ≤ x.toNat ∧ x.toNat < 0xC0) (h3 : 0x80 ≤ y.toNat ∧ y.toNat < 0xC0) :
    ∃ c, IsSeq [b, x, y] c :=
  ⟨UInt32.ofNat ((b.toNat - 0xE0) * 4096 + (x.toNat - 0x80) * 64 + (y.toNat - 0x80)),
    .three h1.1 h1.2 h2 h3 (by rw [UInt32.toNat_ofNat_of_lt']; show _ < 4294967296; omega)⟩
theorem seq_four {b x y z : UInt8} (h1 : 0xF0 ≤ b.toNat ∧ b.toNat < 0xF8)
    (h2 : 0x80 ≤ x.toNat ∧ x.toNat < 0xC0) (h3 : 0x80 ≤ y.toNat ∧ y.toNat < 0xC0)
    (h4 : 0x80 ≤ z.toNat ∧ z.toNat < 0xC0) :
    ∃ c, IsSeq [b, x, y, z] c :=
  ⟨UInt32.ofNat ((b.toNat - 0xF0) * 262144 + (x.toNat - 0x80) * 4096 + (y.toNat - 0x80) * 64
      + (z.toNat - 0x80)),
    .four h1.1 h1.2 h2 h3 h4 (by rw [UInt32.toNat_ofNat_of_lt']; show _ < 4294967296; omega)⟩

theorem decodeNext_bad {s : Str} (h : ¬ HasSeqPrefix s) : decodeNext s = .ok (INVALID_CHAR, s) := by
  match s with
  | [] => rfl
  | b :: it =>
    simp only [decodeNext, and80, andE0, andF0, andF8]
    have hP : ∀ u t, b :: it = u ++ t → ¬ ∃ c, IsSeq u c := fun u t e ⟨c, hc⟩ => h ⟨u, c, t, hc, e⟩
    by_cases h1 : b.toNat < 0x80
    · exact absurd ⟨b.toUInt32, .one h1 (by simp)⟩ (hP [b] it rfl)
    rw [if_neg h1]
    by_cases h2 : 0xC0 ≤ b.toNat ∧ b.toNat < 0xE0
    · rw [if_pos h2]
      match it with
      | [] => rfl
      | x :: it =>
        simp only [List.length_cons]
        rw [if_neg (by omega)]
        simp only [decodeNextLoop, andC0]
        by_cases hx : 0x80 ≤ x.toNat ∧ x.toNat < 0xC0
        · exact absurd (seq_two h2 hx) (hP _ it rfl)
        · rw [if_neg hx]; rfl
    rw [if_neg h2]
    by_cases h3 : 0xE0 ≤ b.toNat ∧ b.toNat < 0xF0
    · rw [if_pos h3]
      match it with
      | [] => rfl
      | [x] => rfl
      | x :: y :: it =>
        simp only [List.length_cons]
        rw [if_neg (by omega)]
        simp only [decodeNextLoop, andC0]
        by_cases hx : 0x80 ≤ x.toNat ∧ x.toNat < 0xC0
        · rw [if_pos hx]
          by_cases hy : 0x80 ≤ y.toNat ∧ y.toNat < 0xC0
          · exact absurd (seq_three h3 hx hy) (hP _ it rfl)
          · rw [if_neg hy]; rfl
        · rw [if_neg hx]; rfl
    rw [if_neg h3]
    by_cases h4 : 0xF0 ≤ b.toNat ∧ b.toNat < 0xF8
    · rw [if_pos h4]
      match it with
      | [] => rfl
      | [x] => rfl
      | [x, y] => rfl
      | x :: y :: z :: it =>
        simp only [List.length_cons]
        rw [if_neg (by omega)]
        simp only [decodeNextLoop, andC0]
        by_cases hx : 0x80 ≤ x.toNat ∧ x.toNat < 0xC0
        · rw [if_pos hx]
          by_cases hy : 0x80 ≤ y.toNat ∧ y.toNat < 0xC0
          · rw [if_pos hy]
            by_cases hz : 0x80 ≤ z.toNat ∧ z.toNat < 0xC0
            · exact absurd (seq_four h4 hx hy hz) (hP _ it rfl)
            · rw [if_neg hz]; rfl
          · rw [if_neg hy]; rfl
        · rw [if_neg hx]; rfl
    rw [if_neg h4]

/-! ### Backwards -/

theorem stepBack_length (p r : Str) : stepBack p.length p r = .ok (p.reverse ++ r) := by
  induction p generalizing r with
  | nil => rfl
  | cons b p ih => simp [stepBack, ih]

theorem stepBack_append (p q r : Str) : stepBack p.length (p ++ q) r = .ok (p.reverse ++ r) := by
  induction p generalizing r with
  | nil => rfl
  | cons b p ih => simp [stepBack, ih]

/-- or-ing in a field above the bits already present -/
theorem orShift (a : UInt32) (x : UInt8) (k : Nat) (m : UInt32) (hk : k < 24) (hm : m.toNat = k)
    (ha : a.toNat < 2 ^ k) : (a ||| (x.toUInt32 <<< m)).toNat = a.toNat + x.toNat * 2 ^ k := by
  have hx := x.toNat_lt
  rw [UInt32.toNat_or, UInt32.toNat_shiftLeft, hm, Nat.mod_eq_of_lt (by omega : k < 32),
    UInt8.toNat_toUInt32, Nat.shiftLeft_eq]
  have h1 : x.toNat * 2 ^ k < 2 ^ 32 := by
    have : x.toNat * 2 ^ k < 2 ^ 8 * 2 ^ k := Nat.mul_lt_mul_of_pos_right (by omega) (Nat.two_pow_pos k)
    have h3 : 2 ^ 8 * 2 ^ k = 2 ^ (8 + k) := by rw [Nat.pow_add]
    have h4 : 2 ^ (8 + k) ≤ 2 ^ 32 := Nat.pow_le_pow_right (by omega) (by omega)
    omega
  rw [Nat.mod_eq_of_lt h1, Nat.or_comm, Nat.mul_comm,
    ← Nat.two_pow_add_eq_or_of_lt ha]
  omega

theorem orShift0 (x : UInt8) : ((0 : UInt32) ||| (x.toUInt32 <<< (UInt32.ofNat (0 * 6)))).toNat = x.toNat := by
  have := orShift 0 x 0 (UInt32.ofNat (0 * 6)) (by omega) (by decide) (by decide)
  have z : (0 : UInt32).toNat = 0 := rfl
  rw [this, z]; omega
theorem orShift6 (a : UInt32) (x : UInt8) (m : UInt32) (hm : m.toNat = 6) (ha : a.toNat < 64) :
    (a ||| (x.toUInt32 <<< m)).toNat = a.toNat + x.toNat * 64 := orShift a x 6 m (by omega) hm ha
theorem orShift12 (a : UInt32) (x : UInt8) (m : UInt32) (hm : m.toNat = 12) (ha : a.toNat < 4096) :
    (a ||| (x.toUInt32 <<< m)).toNat = a.toNat + x.toNat * 4096 := orShift a x 12 m (by omega) hm ha
theorem orShift18 (a : UInt32) (x : UInt8) (m : UInt32) (hm : m.toNat = 18) (ha : a.toNat < 262144) :
    (a ||| (x.toUInt32 <<< m)).toNat = a.toNat + x.toNat * 262144 := orShift a x 18 m (by omega) hm ha

theorem decodePrev_seq {u c} (h : IsSeq u c) (t : Str) :
    decodePrev (u.reverse ++ t) = .ok (c, t) := by
  cases h with
  | one h1 h2 =>
    rename_i b
    have : b.toUInt32 = c := by apply UInt32.toNat_inj.mp; simp [h2]
    simp [decodePrev, and80, h1, this]
  | two h1 h2 h3 h4 =>
    rename_i b x
    have hb := and1F b
    have hx := and3F x
    simp only [IsCont] at h3
    simp only [List.reverse_cons, List.reverse_nil, List.cons_append, List.nil_append, decodePrev,
      and80]
    rw [if_neg (by omega)]
    rw [decodePrevLoop.eq_def]; simp only [andC0]; rw [if_pos h3, if_neg (by omega)]
    rw [decodePrevLoop.eq_def]; simp only [andC0, andE0]
    rw [if_neg (by omega), if_pos ⟨⟨h1, h2⟩, trivial⟩]
    congr 2
    apply UInt32.toNat_inj.mp
    have e0 := orShift0 (x &&& 0x3F)
    rw [orShift6 _ _ 6 (by decide) (by rw [e0]; omega), e0]
    omega
  | three h1 h2 h3 h4 h5 =>
    rename_i b x y
    have hb := and0F b
    have hx := and3F x
    have hy := and3F y
    simp only [IsCont] at h3 h4
    simp only [List.reverse_cons, List.reverse_nil, List.cons_append, List.nil_append, decodePrev,
      and80]
    rw [if_neg (by omega)]
    rw [decodePrevLoop.eq_def]; simp only [andC0]; rw [if_pos h4, if_neg (by omega)]
    rw [decodePrevLoop.eq_def]; simp only [andC0]; rw [if_pos h3, if_neg (by omega)]
    rw [decodePrevLoop.eq_def]; simp only [andC0, andE0, andF0]
    rw [if_neg (by omega), if_neg (by omega), if_pos ⟨⟨h1, h2⟩, trivial⟩]
    congr 2
    apply UInt32.toNat_inj.mp
    have e0 := orShift0 (y &&& 0x3F)
    have e1 := orShift6 _ (x &&& 0x3F) (UInt32.ofNat ((0 + 1) * 6)) (by decide)
      (by rw [e0]; omega)
    rw [orShift12 _ _ 12 (by decide) (by rw [e1, e0]; omega), e1, e0]
    omega
  | four h1 h2 h3 h4 h5 h6 =>
    rename_i b x y z
    have hb := and07 b
    have hx := and3F x
    have hy := and3F y
    have hz := and3F z
    simp only [IsCont] at h3 h4 h5
    simp only [List.reverse_cons, List.reverse_nil, List.cons_append, List.nil_append, decodePrev,
      and80]
    rw [if_neg (by omega)]
    rw [decodePrevLoop.eq_def]; simp only [andC0]; rw [if_pos h5, if_neg (by omega)]
    rw [decodePrevLoop.eq_def]; simp only [andC0]; rw [if_pos h4, if_neg (by omega)]
    rw [decodePrevLoop.eq_def]; simp only [andC0]; rw [if_pos h3, if_neg (by omega)]
    rw [decodePrevLoop.eq_def]; simp only [andC0, andE0, andF0, andF8]
    rw [if_neg (by omega), if_neg (by omega), if_neg (by omega), if_pos ⟨⟨h1, h2⟩, trivial⟩]
    congr 2
    apply UInt32.toNat_inj.mp
    have e0 := orShift0 (z &&& 0x3F)
    have e1 := orShift6 _ (y &&& 0x3F) (UInt32.ofNat ((0 + 1) * 6)) (by decide)
      (by rw [e0]; omega)
    have e2 := orShift12 _ (x &&& 0x3F) (UInt32.ofNat ((0 + 1 + 1) * 6)) (by decide)
      (by rw [e1, e0]; omega)
    rw [orShift18 _ _ 18 (by decide) (by rw [e2, e1, e0]; omega), e2, e1, e0]
    omega


theorem decodePrev_ub {s : Str} (h : LongContRun s) : decodePrev s.reverse = .error .ub := by
  obtain ⟨t, w, rfl, ht, hw, hc⟩ := h
  match w, hw with
  | [a0, a1, a2, a3, a4, a5, a6], _ =>
    simp only [IsCont, List.mem_cons, List.not_mem_nil, or_false, forall_eq_or_imp, forall_eq] at hc
    obtain ⟨c0, c1, c2, c3, c4, c5, c6⟩ := hc
    cases hr : t.reverse with
    | nil => simp at hr; exact absurd hr ht
    | cons x r =>
      simp only [List.reverse_append, hr, List.reverse_cons, List.reverse_nil, List.cons_append,
        List.nil_append, decodePrev, and80]
      rw [if_neg (by omega)]
      rw [decodePrevLoop.eq_def]; simp only [andC0]; rw [if_pos c6, if_neg (by omega)]
      rw [decodePrevLoop.eq_def]; simp only [andC0]; rw [if_pos c5, if_neg (by omega)]
      rw [decodePrevLoop.eq_def]; simp only [andC0]; rw [if_pos c4, if_neg (by omega)]
      rw [decodePrevLoop.eq_def]; simp only [andC0]; rw [if_pos c3, if_neg (by omega)]
      rw [decodePrevLoop.eq_def]; simp only [andC0]; rw [if_pos c2, if_neg (by omega)]
      rw [decodePrevLoop.eq_def]; simp only [andC0]; rw [if_pos c1, if_neg (by omega)]
      rw [decodePrevLoop.eq_def]; simp only [andC0]; rw [if_pos c0, if_pos (by omega)]

theorem decodePrevLoop_bad (rest : Str) : ∀ (n : Nat) (r : Char32) (cur : UInt8) (p : Str),
    p.length = n → (∀ b ∈ p, IsCont b) →
    ¬ HasSeqSuffix (rest.reverse ++ (cur :: p)) → ¬ LongContRun (rest.reverse ++ (cur :: p)) →
    (n = 0 → 0x80 ≤ cur.toNat) →
    decodePrevLoop n r cur (cur :: p) rest = .ok (INVALID_CHAR, (cur :: p).reverse ++ rest) := by
  induction rest with
  | nil =>
    intro n r cur p hp hc hs hl hn
    rw [decodePrevLoop.eq_def]
    simp only [andC0, andE0, andF0, andF8]
    have hsb : stepBack (n + 1) (cur :: p) [] = .ok ((cur :: p).reverse ++ []) := by
      rw [← hp]; exact stepBack_length (cur :: p) []
    have hS : ∀ u, [] ++ u = cur :: p → ¬ ∃ c, IsSeq u c := fun u e ⟨c, hc⟩ =>
      hs ⟨u, c, [], hc, by simp [← e]⟩
    split
    · rw [hsb]; rfl
    · rw [if_neg, if_neg, if_neg, hsb]
      · rfl
      · rintro ⟨h1, h2⟩
        match p, hp with
        | [x, y, z], _ => exact hS _ rfl (seq_four h1 (hc x (by simp)) (hc y (by simp)) (hc z (by simp)))
        | [], h | [_], h | [_, _], h | _ :: _ :: _ :: _ :: _, h => simp at h; omega
      · rintro ⟨h1, h2⟩
        match p, hp with
        | [x, y], _ => exact hS _ rfl (seq_three h1 (hc x (by simp)) (hc y (by simp)))
        | [], h | [_], h | _ :: _ :: _ :: _, h => simp at h; omega
      · rintro ⟨h1, h2⟩
        match p, hp with
        | [x], _ => exact hS _ rfl (seq_two h1 (hc x (by simp)))
        | [], h | _ :: _ :: _, h => simp at h; omega
  | cons b rest ih =>
    intro n r cur p hp hc hs hl hn
    rw [decodePrevLoop.eq_def]
    simp only [andC0, andE0, andF0, andF8]
    have hsb : stepBack (n + 1) (cur :: p) (b :: rest) = .ok ((cur :: p).reverse ++ (b :: rest)) := by
      rw [← hp]; exact stepBack_length (cur :: p) (b :: rest)
    have hS : ∀ u, u = cur :: p → ¬ ∃ c, IsSeq u c := fun u e ⟨c, hc⟩ =>
      hs ⟨u, c, (b :: rest).reverse, hc, by rw [← e]⟩
    split
    · rename_i hcur
      rw [if_neg]
      · rw [ih (n + 1) _ b (cur :: p) (by simp [hp])
          (by intro x hx; rcases List.mem_cons.mp hx with rfl | hx; exact hcur; exact hc x hx)
          (by simpa using hs) (by simpa using hl) (by omega)]
        simp
      · intro h6
        apply hl
        refine ⟨(b :: rest).reverse ++ (cur :: p).take (n + 1 - 7), (cur :: p).drop (n + 1 - 7), ?_, ?_,
          ?_, ?_⟩
        · simp
        · simp
        · simp [hp]; omega
        · intro x hx
          rcases List.mem_cons.mp (List.mem_of_mem_drop hx) with rfl | hx
          · exact hcur
          · exact hc x hx
    · rw [if_neg, if_neg, if_neg, hsb]
      · rfl
      · rintro ⟨h1, h2⟩
        match p, hp with
        | [x, y, z], _ => exact hS _ rfl (seq_four h1 (hc x (by simp)) (hc y (by simp)) (hc z (by simp)))
        | [], h | [_], h | [_, _], h | _ :: _ :: _ :: _ :: _, h => simp at h; omega
      · rintro ⟨h1, h2⟩
        match p, hp with
        | [x, y], _ => exact hS _ rfl (seq_three h1 (hc x (by simp)) (hc y (by simp)))
        | [], h | [_], h | _ :: _ :: _ :: _, h => simp at h; omega
      · rintro ⟨h1, h2⟩
        match p, hp with
        | [x], _ => exact hS _ rfl (seq_two h1 (hc x (by simp)))
        | [], h | _ :: _ :: _, h => simp at h; omega

theorem decodePrev_bad {s : Str} (h : ¬ HasSeqSuffix s) (h' : ¬ LongContRun s) :
    decodePrev s.reverse = .ok (INVALID_CHAR, s.reverse) := by
  cases hr : s.reverse with
  | nil => rfl
  | cons b rest =>
    have hs : s = rest.reverse ++ [b] := by
      have := congrArg List.reverse hr; simpa using this
    simp only [decodePrev, and80]
    by_cases h1 : b.toNat < 0x80
    · exact absurd ⟨[b], b.toUInt32, rest.reverse, .one h1 (by simp), hs⟩ h
    · rw [if_neg h1, decodePrevLoop_bad rest 0 0 b [] rfl (by simp) (by rw [← hs]; exact h)
        (by rw [← hs]; exact h') (by omega)]
      rfl

end Ystring
