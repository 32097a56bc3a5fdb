import Verif.Model.Unescape
import Verif.Proofs.Escape
/-
Lemmas for C57-C62: digits, `std::from_chars`, and where `find_first_escaped_char` stops.
-/
namespace Ystring
open Spec

/-! ### Digits -/

theorem isHexDigitByte_iff (b : UInt8) : isHexDigitByte b = true ↔ IsHex b := by
  revert b; apply forall_u8; decide +kernel

theorem isOctDigit_iff (b : UInt8) : isOctDigit b = true ↔ IsOct b := by
  revert b; apply forall_u8; decide +kernel

theorem digitValue_hex (b : UInt8) : digitValue b < 16 ↔ IsHex b := by
  revert b; apply forall_u8; decide +kernel

theorem digitValue_oct (b : UInt8) : digitValue b < 8 ↔ IsOct b := by
  revert b; apply forall_u8; decide +kernel

theorem digitValue_eq (b : UInt8) (h : IsHex b) : digitValue b = (hexVal b).getD 0 := by
  revert b; apply forall_u8; decide +kernel

theorem Spec.IsOct.hex {b : UInt8} (h : IsOct b) : IsHex b :=
  (digitValue_hex b).mp (Nat.lt_trans ((digitValue_oct b).mpr h) (by decide))

theorem number_eq (base : Nat) : ∀ (ds : Str) (a : Nat), (∀ d ∈ ds, IsHex d) →
    ds.foldl (fun a c => a * base + digitValue c) a = ds.foldl (fun a d => a * base + (hexVal d).getD 0) a
  | [], _, _ => rfl
  | d :: ds, a, h => by
    simp only [List.foldl_cons]
    rw [digitValue_eq d (h d (by simp)), number_eq base ds _ (fun x hx => h x (by simp [hx]))]

theorem number_bound (base : Nat) : ∀ (ds : Str) (a : Nat), (∀ d ∈ ds, (hexVal d).getD 0 < base) →
    ds.foldl (fun a d => a * base + (hexVal d).getD 0) a < (a + 1) * base ^ ds.length
  | [], a, _ => by simp
  | d :: ds, a, h => by
    simp only [List.foldl_cons, List.length_cons]
    have h1 := number_bound base ds (a * base + (hexVal d).getD 0) (fun x hx => h x (by simp [hx]))
    have h2 := h d (by simp)
    have h3 : (a * base + (hexVal d).getD 0 + 1) * base ^ ds.length ≤ (a + 1) * base ^ (ds.length + 1) := by
      rw [Nat.pow_succ, Nat.mul_comm (base ^ ds.length), ← Nat.mul_assoc]
      apply Nat.mul_le_mul_right
      rw [Nat.add_mul]; omega
    omega

theorem number_hex_lt {ds : Str} (h : ∀ d ∈ ds, IsHex d) : number 16 ds < 16 ^ ds.length := by
  have := number_bound 16 ds 0 (fun d hd => by
    rw [← digitValue_eq d (h d hd)]; exact (digitValue_hex d).mpr (h d hd))
  simpa [number] using this

theorem number_oct_lt {ds : Str} (h : ∀ d ∈ ds, IsOct d) : number 8 ds < 8 ^ ds.length := by
  have := number_bound 8 ds 0 (fun d hd => by
    rw [← digitValue_eq d (Spec.IsOct.hex (h d hd))]; exact (digitValue_oct d).mpr (h d hd))
  simpa [number] using this

theorem takeWhile_append {α : Type} {f : α → Bool} {t : List α} (ht : ∀ b t', t = b :: t' → f b = false) :
    ∀ {ds : List α}, (∀ d ∈ ds, f d = true) → (ds ++ t).takeWhile f = ds
  | [], _ => by
    cases t with
    | nil => rfl
    | cons b t' => simp [ht b t' rfl]
  | d :: ds, h => by
    have := takeWhile_append ht (ds := ds) (fun x hx => h x (by simp [hx]))
    simp [h d (by simp), this]

theorem fromChars_hex {ds t : Str} (h : ∀ d ∈ ds, IsHex d) (ht : NoHexAhead t) :
    fromChars 16 (ds ++ t) = (ds.length,
      if ds.length = 0 ∨ 4294967296 ≤ number 16 ds then none else some (UInt32.ofNat (number 16 ds))) := by
  unfold fromChars
  rw [takeWhile_append (fun b t' e => by have := ht b t' e; rw [← digitValue_hex] at this; simpa using this)
    (fun d hd => by have := h d hd; rw [← digitValue_hex] at this; simpa using this)]
  simp only [number_eq 16 ds 0 h]
  rfl

/-- `t` is empty or starts with a byte that is not an octal digit. -/
def NoOctAhead (t : Str) : Prop := ∀ b t', t = b :: t' → ¬ IsOct b

theorem fromChars_oct {ds t : Str} (h : ∀ d ∈ ds, IsOct d) (ht : NoOctAhead t) :
    fromChars 8 (ds ++ t) = (ds.length,
      if ds.length = 0 ∨ 4294967296 ≤ number 8 ds then none else some (UInt32.ofNat (number 8 ds))) := by
  unfold fromChars
  rw [takeWhile_append (fun b t' e => by have := ht b t' e; rw [← digitValue_oct] at this; simpa using this)
    (fun d hd => by have := h d hd; rw [← digitValue_oct] at this; simpa using this)]
  simp only [number_eq 8 ds 0 (fun d hd => (Spec.IsOct.hex (h d hd)))]
  rfl

theorem parseEscapedHexChar_ok {c : UInt8} {ds : Str} (h : ∀ d ∈ ds, IsHex d) (h0 : ds ≠ [])
    (hv : number 16 ds < 2 ^ 32) : parseEscapedHexChar (0x5C :: c :: ds) = .ok (UInt32.ofNat (number 16 ds)) := by
  unfold parseEscapedHexChar parseEscaped
  rw [if_neg (by simp)]
  have := fromChars_hex (t := []) h (by intro b t' e; cases e)
  rw [List.append_nil] at this
  simp only [List.drop_succ_cons, List.drop_zero]
  rw [this, if_neg (by rw [List.length_eq_zero_iff]; simp at hv; intro h; rcases h with h | h; exact h0 h; omega)]
  cases ds with
  | nil => exact absurd rfl h0
  | cons d ds => rfl

theorem parseEscapedHexChar_ub {c : UInt8} {ds : Str} (h : ∀ d ∈ ds, IsHex d)
    (hv : 2 ^ 32 ≤ number 16 ds) : parseEscapedHexChar (0x5C :: c :: ds) = .error .ub := by
  unfold parseEscapedHexChar parseEscaped
  rw [if_neg (by simp)]
  have := fromChars_hex (t := []) h (by intro b t' e; cases e)
  rw [List.append_nil] at this
  simp only [List.drop_succ_cons, List.drop_zero]
  rw [this, if_pos (.inr (by simpa using hv))]
  cases ds with
  | nil => simp [number] at hv
  | cons d ds => rfl


theorem parseEscapedOctChar_ok {ds : Str} (h : ∀ d ∈ ds, IsOct d) (h0 : ds ≠ [])
    (hv : number 8 ds < 2 ^ 32) : parseEscapedOctChar (0x5C :: ds) = .ok (UInt32.ofNat (number 8 ds)) := by
  unfold parseEscapedOctChar parseEscaped
  rw [if_neg (by simp)]
  have := fromChars_oct (t := []) h (by intro b t' e; cases e)
  rw [List.append_nil] at this
  simp only [List.drop_succ_cons, List.drop_zero]
  rw [this, if_neg (by rw [List.length_eq_zero_iff]; simp at hv; intro h; rcases h with h | h; exact h0 h; omega)]
  cases ds with
  | nil => exact absurd rfl h0
  | cons d ds => rfl

/-! ### Runs of digits -/

/-- Every list is its longest prefix of bytes satisfying `f`, and the rest. -/
theorem run_split {α : Type} (f : α → Prop) [DecidablePred f] (s : List α) : ∃ ds t, s = ds ++ t ∧ (∀ d ∈ ds, f d) ∧
    ∀ b t', t = b :: t' → ¬ f b := by
  rcases find_split (fun b => !decide (f b)) s with h | ⟨p, b, t, rfl, h1, h2⟩
  · exact ⟨s, [], by simp, by simpa using h, by simp⟩
  · refine ⟨p, b :: t, rfl, by simpa using h1, ?_⟩
    intro c t' e
    cases e
    simpa using h2

/-- Every list is a prefix of at most `n` bytes satisfying `f` and the rest, with the prefix as long as
possible. -/
theorem run_split_max {α : Type} (f : α → Prop) [DecidablePred f] (n : Nat) (s : List α) : ∃ ds t, s = ds ++ t ∧
    (∀ d ∈ ds, f d) ∧ ds.length ≤ n ∧ (ds.length < n → ∀ b t', t = b :: t' → ¬ f b) := by
  obtain ⟨ds, t, rfl, h1, h2⟩ := run_split f s
  by_cases h : ds.length ≤ n
  · exact ⟨ds, t, rfl, h1, h, fun _ => h2⟩
  · refine ⟨ds.take n, ds.drop n ++ t, by rw [← List.append_assoc, List.take_append_drop],
      fun d hd => h1 d (List.mem_of_mem_take hd), by simp; omega, fun h' => ?_⟩
    simp at h'; omega

theorem findFirstByteWhere_found {w ds t : Str} {b : UInt8} {f : UInt8 → Bool} {end_ : Nat}
    (h : ∀ d ∈ ds, f d = false) (hb : f b = true) (hl : w.length + ds.length < end_) :
    findFirstByteWhere (w ++ (ds ++ b :: t)) w.length end_ f = w.length + ds.length := by
  unfold findFirstByteWhere
  simp only [List.drop_left]
  obtain ⟨m, hm⟩ : ∃ m, min (w ++ (ds ++ b :: t)).length end_ - w.length = ds.length + (m + 1) := by
    refine ⟨min (w ++ (ds ++ b :: t)).length end_ - w.length - ds.length - 1, ?_⟩
    simp
    omega
  rw [hm, List.take_append]
  rw [List.take_of_length_le (by omega), show ds.length + (m + 1) - ds.length = m + 1 by omega, List.take_succ_cons,
    stdFindIf_first hb h, if_pos (by simp)]

theorem findFirstByteWhere_end {w v : Str} {f : UInt8 → Bool} {end_ : Nat}
    (h : ∀ d ∈ v.take (end_ - w.length), f d = false) :
    findFirstByteWhere (w ++ v) w.length end_ f = end_ := by
  unfold findFirstByteWhere
  simp only [List.drop_left]
  have : ∀ d ∈ v.take (min (w ++ v).length end_ - w.length), f d = false := by
    intro d hd
    apply h
    by_cases hle : (w ++ v).length ≤ end_
    · have : v.take (end_ - w.length) = v := List.take_of_length_le (by simp at hle; omega)
      rw [this]; exact List.mem_of_mem_take hd
    · rwa [Nat.min_eq_right (by omega)] at hd
  rw [stdFindIf_none this, if_neg (by omega)]

/-! ### find_first_escaped_char -/

/-- `find_first_escaped_char` once the first backslash has been found: `q` are the bytes before it and `v` those
after it. -/
def afterBackslash (q v : Str) : Res Subrange :=
  match v with
  | [] => .error .ystring
  | c :: u =>
    let str := q ++ 0x5C :: c :: u
    let start := q.length
    if c = 0x58 ∨ c = 0x78 then
      checkLength start (findEndOfHexSequence str (start + 2) str.length) 4
    else if c = 0x75 then
      checkLength start (findEndOfHexSequence str (start + 2) (start + 6)) 6
    else if c = 0x55 then
      checkLength start (findEndOfHexSequence str (start + 2) (start + 10)) 10
    else if isOctDigit c then
      checkLength start (findEndOfOctSequence str (start + 1) (start + 4)) 2
    else if c &&& 0x80 = 0 then .ok ⟨start, 2⟩
    else .error .ystring

theorem find_none {w p : Str} (hp : 0x5C ∉ p) :
    findFirstEscapedChar (w ++ p) w.length = .ok ⟨w.length + p.length, 0⟩ := by
  unfold findFirstEscapedChar
  rw [if_neg (by simp), List.drop_left,
    stdFindIf_none (fun x hx => by simp; intro e; exact hp (e ▸ hx))]
  simp [Subrange.atOffset]

theorem find_start {w p v : Str} (hp : 0x5C ∉ p) :
    findFirstEscapedChar (w ++ (p ++ 0x5C :: v)) w.length = afterBackslash (w ++ p) v := by
  unfold findFirstEscapedChar
  rw [if_neg (by simp), List.drop_left,
    stdFindIf_first (by simp) (fun x hx => by simp; intro e; exact hp (e ▸ hx))]
  simp only
  rw [if_neg (by simp)]
  have : (w ++ (p ++ 0x5C :: v))[w.length + p.length + 1]? = v[0]? := by
    rw [List.getElem?_append_right (by omega), List.getElem?_append_right (by omega)]
    rw [show w.length + p.length + 1 - w.length - p.length = 1 by omega]
    simp
  rw [this]
  cases v with
  | nil => rfl
  | cons c u =>
    unfold afterBackslash
    simp only [List.getElem?_cons_zero, ← List.append_assoc, List.length_append]

theorem find_beyond {s : Str} {off : Nat} (h : s.length < off) : findFirstEscapedChar s off = .error .ub := by
  unfold findFirstEscapedChar
  rw [if_pos h]

theorem checkLength_ok {a b m : Nat} (h : m ≤ b) : checkLength a (a + b) m = .ok ⟨a, b⟩ := by
  unfold checkLength
  rw [if_neg (by omega), Nat.add_sub_cancel_left]

theorem checkLength_bad {a b m : Nat} (h : b < m) : checkLength a (a + b) m = .error .ystring := by
  unfold checkLength
  rw [if_pos (by omega)]

theorem hexEnd_found {q ds t : Str} {c b : UInt8} {n : Nat} (h : ∀ d ∈ ds, IsHex d) (hb : ¬ IsHex b)
    (hl : ds.length < n) :
    findEndOfHexSequence (q ++ 0x5C :: c :: (ds ++ b :: t)) (q.length + 2) (q.length + 2 + n) =
      q.length + (2 + ds.length) := by
  unfold findEndOfHexSequence
  have := findFirstByteWhere_found (w := q ++ [0x5C, c]) (ds := ds) (t := t) (b := b)
    (f := fun c => !isHexDigitByte c) (end_ := q.length + 2 + n)
    (fun d hd => by simp [(isHexDigitByte_iff d).mpr (h d hd)])
    (by
      have : isHexDigitByte b = false := by rw [Bool.eq_false_iff]; intro h; exact hb ((isHexDigitByte_iff b).mp h)
      simp [this]) (by simp; omega)
  simp at this
  rw [this]; omega

theorem hexEnd_end {q ds t : Str} {c : UInt8} {n : Nat} (h : ∀ d ∈ ds, IsHex d)
    (hl : ds.length = n ∨ (ds.length ≤ n ∧ t = [])) :
    findEndOfHexSequence (q ++ 0x5C :: c :: (ds ++ t)) (q.length + 2) (q.length + 2 + n) = q.length + (2 + n) := by
  unfold findEndOfHexSequence
  have := findFirstByteWhere_end (w := q ++ [0x5C, c]) (v := ds ++ t)
    (f := fun c => !isHexDigitByte c) (end_ := q.length + 2 + n)
    (fun d hd => by
      have : d ∈ ds := by
        rcases hl with hl | ⟨hl, rfl⟩
        · rw [List.take_append_of_le_length (by simp; omega)] at hd
          exact List.mem_of_mem_take hd
        · rw [List.append_nil] at hd; exact List.mem_of_mem_take hd
      simp [(isHexDigitByte_iff d).mpr (h d this)])
  simp at this
  rw [this]; omega

theorem octEnd_found {q ds t : Str} {b : UInt8} {n : Nat} (h : ∀ d ∈ ds, IsOct d) (hb : ¬ IsOct b)
    (hl : ds.length < n) :
    findEndOfOctSequence (q ++ 0x5C :: (ds ++ b :: t)) (q.length + 1) (q.length + 1 + n) =
      q.length + (1 + ds.length) := by
  unfold findEndOfOctSequence
  have := findFirstByteWhere_found (w := q ++ [0x5C]) (ds := ds) (t := t) (b := b)
    (f := fun c => !isOctDigit c) (end_ := q.length + 1 + n)
    (fun d hd => by simp [(isOctDigit_iff d).mpr (h d hd)])
    (by
      have : isOctDigit b = false := by rw [Bool.eq_false_iff]; intro h; exact hb ((isOctDigit_iff b).mp h)
      simp [this]) (by simp; omega)
  simp at this
  rw [this]; omega

theorem octEnd_end {q ds t : Str} {n : Nat} (h : ∀ d ∈ ds, IsOct d)
    (hl : ds.length = n ∨ (ds.length ≤ n ∧ t = [])) :
    findEndOfOctSequence (q ++ 0x5C :: (ds ++ t)) (q.length + 1) (q.length + 1 + n) = q.length + (1 + n) := by
  unfold findEndOfOctSequence
  have := findFirstByteWhere_end (w := q ++ [0x5C]) (v := ds ++ t)
    (f := fun c => !isOctDigit c) (end_ := q.length + 1 + n)
    (fun d hd => by
      have : d ∈ ds := by
        rcases hl with hl | ⟨hl, rfl⟩
        · rw [List.take_append_of_le_length (by simp; omega)] at hd
          exact List.mem_of_mem_take hd
        · rw [List.append_nil] at hd; exact List.mem_of_mem_take hd
      simp [(isOctDigit_iff d).mpr (h d this)])
  simp at this
  rw [this]; omega

theorem after_x {q ds t : Str} {l : UInt8} (hl : l = 0x78 ∨ l = 0x58) (h : ∀ d ∈ ds, IsHex d) (ht : NoHexAhead t) :
    afterBackslash q (l :: (ds ++ t)) =
      if ds.length < 2 then .error .ystring else .ok ⟨q.length, 2 + ds.length⟩ := by
  unfold afterBackslash
  simp only
  rw [if_pos (by rcases hl with rfl | rfl <;> decide)]
  have : findEndOfHexSequence (q ++ 0x5C :: l :: (ds ++ t)) (q.length + 2) (q ++ 0x5C :: l :: (ds ++ t)).length
      = q.length + (2 + ds.length) := by
    have e : (q ++ 0x5C :: l :: (ds ++ t)).length = q.length + 2 + (ds ++ t).length := by simp; omega
    rw [e]
    cases t with
    | nil =>
      rw [hexEnd_end h (.inr ⟨by simp, rfl⟩)]; simp
    | cons b t => exact hexEnd_found h (ht b t rfl) (by simp)
  rw [this]
  split
  · exact checkLength_bad (by omega)
  · exact checkLength_ok (by omega)

theorem after_u {q ds t : Str} (h : ∀ d ∈ ds, IsHex d) (hl : ds.length = 4 ∨ (ds.length ≤ 4 ∧ t = [])) :
    afterBackslash q (0x75 :: (ds ++ t)) = .ok ⟨q.length, 6⟩ := by
  unfold afterBackslash
  simp only
  rw [if_neg (by decide), if_pos (by decide), show q.length + 6 = q.length + 2 + 4 by omega, hexEnd_end h hl]
  exact checkLength_ok (by omega)

theorem after_u_bad {q ds t : Str} {b : UInt8} (h : ∀ d ∈ ds, IsHex d) (hb : ¬ IsHex b) (hl : ds.length < 4) :
    afterBackslash q (0x75 :: (ds ++ b :: t)) = .error .ystring := by
  unfold afterBackslash
  simp only
  rw [if_neg (by decide), if_pos (by decide), show q.length + 6 = q.length + 2 + 4 by omega, hexEnd_found h hb hl]
  exact checkLength_bad (by omega)

theorem after_U {q ds t : Str} (h : ∀ d ∈ ds, IsHex d) (hl : ds.length = 8 ∨ (ds.length ≤ 8 ∧ t = [])) :
    afterBackslash q (0x55 :: (ds ++ t)) = .ok ⟨q.length, 10⟩ := by
  unfold afterBackslash
  simp only
  rw [if_neg (by decide), if_neg (by decide), if_pos (by decide), show q.length + 10 = q.length + 2 + 8 by omega,
    hexEnd_end h hl]
  exact checkLength_ok (by omega)

theorem after_U_bad {q ds t : Str} {b : UInt8} (h : ∀ d ∈ ds, IsHex d) (hb : ¬ IsHex b) (hl : ds.length < 8) :
    afterBackslash q (0x55 :: (ds ++ b :: t)) = .error .ystring := by
  unfold afterBackslash
  simp only
  rw [if_neg (by decide), if_neg (by decide), if_pos (by decide), show q.length + 10 = q.length + 2 + 8 by omega,
    hexEnd_found h hb hl]
  exact checkLength_bad (by omega)

theorem oct_not_letter (c : UInt8) (h : IsOct c) : ¬ (c = 0x58 ∨ c = 0x78) ∧ c ≠ 0x75 ∧ c ≠ 0x55 := by
  revert c; apply forall_u8; decide +kernel

theorem after_oct_end {q ds t : Str} (h : ∀ d ∈ ds, IsOct d) (h0 : 1 ≤ ds.length)
    (hl : ds.length = 3 ∨ (ds.length ≤ 3 ∧ t = [])) :
    afterBackslash q (ds ++ t) = .ok ⟨q.length, 4⟩ := by
  have e := octEnd_end (q := q) h hl
  cases ds with
  | nil => simp at h0
  | cons c ds =>
    obtain ⟨n1, n2, n3⟩ := oct_not_letter c (h c (by simp))
    unfold afterBackslash
    simp only [List.cons_append]
    rw [if_neg n1, if_neg n2, if_neg n3, if_pos ((isOctDigit_iff c).mpr (h c (by simp))),
      show q.length + 4 = q.length + 1 + 3 by omega]
    rw [List.cons_append] at e
    rw [e]
    exact checkLength_ok (by omega)

theorem after_oct_found {q ds t : Str} {b : UInt8} (h : ∀ d ∈ ds, IsOct d) (h0 : 1 ≤ ds.length) (hb : ¬ IsOct b)
    (hl : ds.length < 3) :
    afterBackslash q (ds ++ b :: t) = .ok ⟨q.length, 1 + ds.length⟩ := by
  have e := octEnd_found (q := q) (t := t) h hb hl
  cases ds with
  | nil => simp at h0
  | cons c ds =>
    obtain ⟨n1, n2, n3⟩ := oct_not_letter c (h c (by simp))
    unfold afterBackslash
    simp only [List.cons_append]
    rw [if_neg n1, if_neg n2, if_neg n3, if_pos ((isOctDigit_iff c).mpr (h c (by simp))),
      show q.length + 4 = q.length + 1 + 3 by omega]
    rw [List.cons_append] at e
    rw [e]
    exact checkLength_ok (by simp; omega)

/-- ASCII, and none of xXuU and 0-7. -/
theorem after_other {q u : Str} {c : UInt8} (h : ¬ (c = 0x58 ∨ c = 0x78)) (h1 : c ≠ 0x75) (h2 : c ≠ 0x55)
    (h3 : ¬ IsOct c) :
    afterBackslash q (c :: u) = if c.toNat < 0x80 then .ok ⟨q.length, 2⟩ else .error .ystring := by
  unfold afterBackslash
  simp only
  rw [if_neg h, if_neg h1, if_neg h2, if_neg (by rw [isOctDigit_iff]; exact h3)]
  have : c &&& 0x80 = 0 ↔ c.toNat < 0x80 := by
    clear h h1 h2 h3
    revert c; apply forall_u8; decide +kernel
  by_cases hc : c.toNat < 0x80
  · rw [if_pos hc, if_pos (this.mpr hc)]
  · rw [if_neg hc, if_neg (fun h => hc (this.mp h))]

theorem after_bad {q v : Str} (h : BadStart (0x5C :: v)) : afterBackslash q v = .error .ystring := by
  generalize hs : (0x5C : UInt8) :: v = s at h
  cases h with
  | alone => cases hs; rfl
  | @nonAscii b t hb =>
    cases hs
    have hb' : ¬ (b = 0x58 ∨ b = 0x78) ∧ b ≠ 0x75 ∧ b ≠ 0x55 ∧ ¬ IsOct b := by
      revert b; apply forall_u8; decide +kernel
    rw [after_other hb'.1 hb'.2.1 hb'.2.2.1 hb'.2.2.2, if_neg (by omega)]
  | hex hl h2 h ht => cases hs; rw [after_x hl h ht, if_pos h2]
  | short h4 h hb => cases hs; exact after_u_bad h hb h4
  | long h8 h hb => cases hs; exact after_U_bad h hb h8

end Ystring
