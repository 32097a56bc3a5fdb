import Verif.Proofs.ThreadsRun
/- The functions that write: `encode_utf8` and `unescape` when they are alone. -/
namespace Ystring.Thr
open Ptr Spec

theorem bytes_take (m : Mem) {b e n : Nat} (h : b + n ≤ e) : (bytes m b e).take n = bytes m b (b + n) := by
  rw [bytes_append m (Nat.le_add_right b n) h, List.take_left' (by rw [bytes_length]; omega)]

theorem bytes_drop (m : Mem) (b e n : Nat) : (bytes m b e).drop n = bytes m (b + n) e := by
  by_cases h : b + n ≤ e
  · rw [bytes_append m (Nat.le_add_right b n) h, List.drop_left' (by rw [bytes_length]; omega)]
  · rw [bytes_nil m (show e ≤ b + n by omega), List.drop_eq_nil_of_le (by rw [bytes_length]; omega)]

theorem bytes_part (m : Mem) (b e i n : Nat) : ((bytes m b e).drop i).take n = bytes m (b + i) (b + i + min n (e - b - i)) := by
  rw [bytes_drop]
  by_cases h : b + i + n ≤ e
  · rw [bytes_take m h, show min n (e - b - i) = n by omega]
  · rw [List.take_of_length_le (by rw [bytes_length]; omega)]
    by_cases h2 : b + i ≤ e
    · congr 1; omega
    · rw [bytes_nil m (by omega), bytes_nil m (by omega)]

theorem bytes_get (m : Mem) {b e i : Nat} (h : b + i < e) : (bytes m b e)[i]? = some (m (b + i)) := by
  rw [← List.head?_drop, bytes_drop, bytes_cons m h]; rfl

theorem bytes_get_none (m : Mem) {b e i : Nat} (h : ¬ b + i < e) : (bytes m b e)[i]? = none := by
  rw [← List.head?_drop, bytes_drop, bytes_nil m (by omega)]; rfl

/-- a part of a buffer has been replaced -/
theorem bytes_written {m m' : Mem} {b e i k : Nat} {bs : Str} (h : b + i + k ≤ e)
    (ho : ∀ a, a < b + i ∨ b + i + k ≤ a → m' a = m a) (hb : bytes m' (b + i) (b + i + k) = bs) :
    bytes m' b e = (bytes m b e).take i ++ bs ++ (bytes m b e).drop (i + k) := by
  rw [bytes_take m (show b + i ≤ e by omega), bytes_drop, bytes_append m' (show b ≤ b + i by omega) (show b + i ≤ e by omega),
    bytes_append m' (show b + i ≤ b + i + k by omega) h, hb, List.append_assoc,
    bytes_agree (m := m') (m' := m) (fun a _ h2 => ho a (.inl h2)),
    bytes_agree (m := m') (m' := m) (fun a h1 _ => ho a (.inr h1)), Nat.add_assoc b i k]

theorem alone_store (m : Mem) {b e it : Nat} (x : UInt8) (h1 : b ≤ it) (h2 : it < e) :
    alone (store ⟨b, e⟩ it x) m = (.ok (), assign m it x) := by
  unfold store; rw [if_pos ⟨h1, h2⟩]; rfl

theorem alone_store_bad (m : Mem) {b e it : Nat} (x : UInt8) (h2 : ¬ it < e) :
    alone (store ⟨b, e⟩ it x) m = (.error .ub, m) := by
  unfold store; rw [if_neg (fun h => h2 h.2)]; rfl

theorem alone_load_bad (m : Mem) {b e it : Nat} (h2 : ¬ it < e) : alone (load ⟨b, e⟩ it) m = (.error .ub, m) := by
  unfold load; rw [if_neg (fun h => h2 h.2)]; rfl

theorem alone_ptr_bad (m : Mem) {b e it : Nat} (h2 : ¬ it ≤ e) : alone (ptr ⟨b, e⟩ it) m = (.error .ub, m) := by
  unfold ptr; rw [if_neg (fun h => h2 h.2)]; rfl

/-! ### encode_utf8 -/

theorem run_encodeLoop (b e : Nat) (chr : Char32) : ∀ (k shift : Nat) (m : Mem) (it : Nat), b ≤ it → it + k ≤ e →
    ∃ m', alone (encodeLoop ⟨b, e⟩ chr k shift it) m = (.ok (it + k), m') ∧
      (∀ a, a < it ∨ it + k ≤ a → m' a = m a) ∧ bytes m' it (it + k) = encodeTail chr k shift := by
  intro k
  induction k with
  | zero => intro shift m it _ _; exact ⟨m, rfl, fun _ _ => rfl, bytes_nil m (by omega)⟩
  | succ k ih =>
    intro shift m it hb he
    unfold encodeLoop encodeTail
    rw [alone_ok (alone_store m _ hb (by omega)), alone_ok (alone_ptr _ (by omega) (by omega))]
    obtain ⟨m', h1, h2, h3⟩ := ih (shift - 6)
      (assign m it (0x80 ||| ((chr >>> (UInt32.ofNat (shift - 6))) &&& 0x3F)).toUInt8) (it + 1) (by omega) (by omega)
    refine ⟨m', ?_, ?_, ?_⟩
    · rw [h1]; congr 2; omega
    · intro a ha
      rw [h2 a (by omega), assign_other _ _ (by omega)]
    · rw [bytes_cons m' (by omega), h2 it (by omega), assign_same, ← h3]
      congr 2; omega

theorem run_encodeDetail (b e : Nat) (chr : Char32) (k : Nat) (m : Mem) (it : Nat) (hb : b ≤ it) (he : it + k ≤ e) :
    ∃ m', alone (encodeDetail ⟨b, e⟩ chr k it) m = (.ok (it + k), m') ∧
      (∀ a, a < it ∨ it + k ≤ a → m' a = m a) ∧ bytes m' it (it + k) = Ystring.encodeDetail chr k := by
  unfold encodeDetail Ystring.encodeDetail
  by_cases h1 : k = 1
  · subst h1
    rw [if_pos rfl, if_pos rfl, alone_ok (alone_store m _ hb (by omega))]
    refine ⟨_, alone_ptr _ (by omega) (by omega), ?_, ?_⟩
    · intro a ha; rw [assign_other _ _ (by omega)]
    · rw [bytes_cons _ (by omega), bytes_nil _ (by omega), assign_same]
  · rw [if_neg h1, if_neg h1]
    by_cases h0 : k = 0
    · subst h0
      rw [if_neg (by simp), if_neg (by simp)]
      exact ⟨m, rfl, fun _ _ => rfl, bytes_nil m (by omega)⟩
    · rw [if_pos h0, if_pos h0, alone_ok (alone_store m _ hb (by omega)), alone_ok (alone_ptr _ (by omega) (by omega))]
      obtain ⟨m', h2, h3, h4⟩ := run_encodeLoop b e chr (k - 1) ((k - 1) * 6)
        (assign m it (((0xFF : UInt32) <<< (UInt32.ofNat (8 - k))) ||| (chr >>> (UInt32.ofNat ((k - 1) * 6)))).toUInt8) (it + 1)
        (by omega) (by omega)
      refine ⟨m', ?_, ?_, ?_⟩
      · rw [h2]; congr 2; omega
      · intro a ha
        rw [h3 a (by omega), assign_other _ _ (by omega)]
      · rw [bytes_cons m' (by omega), h3 it (by omega), assign_same]
        dsimp only
        rw [← h4]
        congr 2; omega

theorem run_encodeLoop_bad (b e : Nat) (chr : Char32) : ∀ (k shift : Nat) (m : Mem) (it : Nat), b ≤ it → it ≤ e → e < it + k →
    (alone (encodeLoop ⟨b, e⟩ chr k shift it) m).1 = .error .ub := by
  intro k
  induction k with
  | zero => intros; omega
  | succ k ih =>
    intro shift m it hb he h
    unfold encodeLoop
    by_cases h2 : it < e
    · rw [alone_ok (alone_store m _ hb h2), alone_ok (alone_ptr _ (by omega) (by omega))]
      exact ih _ _ _ (by omega) (by omega) (by omega)
    · rw [alone_err (alone_store_bad m _ h2)]

theorem run_encodeDetail_bad (b e : Nat) (chr : Char32) (k : Nat) (m : Mem) (it : Nat) (hb : b ≤ it) (he : it ≤ e) (h : e < it + k) :
    (alone (encodeDetail ⟨b, e⟩ chr k it) m).1 = .error .ub := by
  unfold encodeDetail
  by_cases h1 : k = 1
  · rw [if_pos h1, alone_err (alone_store_bad m _ (by omega))]
  · rw [if_neg h1, if_pos (by omega)]
    by_cases h2 : it < e
    · rw [alone_ok (alone_store m _ hb h2), alone_ok (alone_ptr _ (by omega) (by omega))]
      exact run_encodeLoop_bad b e chr _ _ _ _ (by omega) (by omega) (by omega)
    · rw [alone_err (alone_store_bad m _ h2)]

theorem run_encodeUtf8Buf (m : Mem) (b e : Nat) (chr : Char32) (h : b ≤ e) :
    ∃ m', alone (encodeUtf8Buf ⟨b, e⟩ chr) m = (.ok (Ystring.encodeUtf8Buf chr (e - b)).2, m') ∧
      bytes m' b e = (Ystring.encodeUtf8Buf chr (e - b)).1 ++ (bytes m b e).drop (Ystring.encodeUtf8Buf chr (e - b)).2 := by
  unfold encodeUtf8Buf Ystring.encodeUtf8Buf
  dsimp only
  generalize hk : (if getUtf8EncodedLength chr > e - b then 0 else getUtf8EncodedLength chr) = k
  have hk' : b + k ≤ e := by rw [← hk]; split <;> omega
  obtain ⟨m', h1, h2, h3⟩ := run_encodeDetail b e chr k m b (by omega) hk'
  refine ⟨m', alone_ok h1, ?_⟩
  have := bytes_written (b := b) (e := e) (i := 0) hk' h2 h3
  simpa using this

/-! ### The parts of `unescape` that read -/

theorem run_scan (m : Mem) (b e : Nat) (pred : UInt8 → Bool) : ∀ (k i : Nat), b + i + k ≤ e →
    alone (scan ⟨b, e⟩ pred k i) m
      = (.ok (if stdFindIf pred (bytes m (b + i) (b + i + k)) < k then some (i + stdFindIf pred (bytes m (b + i) (b + i + k))) else none), m) := by
  intro k
  induction k with
  | zero => intros; rfl
  | succ k ih =>
    intro i h
    unfold scan
    rw [alone_ok (alone_load m (by dsimp only; omega) (by dsimp only; omega)), bytes_cons m (by omega)]
    simp only [stdFindIf]
    split
    · rw [if_pos (by omega)]; rfl
    · rw [ih (i + 1) (by omega)]
      have e1 : b + (i + 1) = b + i + 1 := by omega
      have e2 : b + i + 1 + k = b + i + (k + 1) := by omega
      rw [e1, e2]
      generalize stdFindIf pred (bytes m (b + i + 1) (b + i + (k + 1))) = x
      by_cases hx : x < k
      · rw [if_pos hx, if_pos (by omega)]; congr 3; omega
      · rw [if_neg hx, if_neg (by omega)]

theorem run_findFirstByteWhere (m : Mem) (b e s t : Nat) (hb : b ≤ e) (pred : UInt8 → Bool) :
    alone (findFirstByteWhere ⟨b, e⟩ s t pred) m = (.ok (Ystring.findFirstByteWhere (bytes m b e) s t pred), m) := by
  unfold findFirstByteWhere Ystring.findFirstByteWhere
  simp only [bytes_length, bytes_part, bytes_length]
  by_cases h : b + s + (min (e - b) t - s) ≤ e
  · rw [alone_ok (run_scan m b e pred _ s h)]
    have e1 : min (min (e - b) t - s) (e - b - s) = min (e - b) t - s := by omega
    rw [e1]
    have e2 : b + s + (min (e - b) t - s) - (b + s) = min (e - b) t - s := by omega
    rw [e2]
    generalize stdFindIf pred (bytes m (b + s) (b + s + (min (e - b) t - s))) = x
    by_cases hx : x < min (e - b) t - s
    · rw [if_pos hx, if_pos hx]; rfl
    · rw [if_neg hx, if_neg hx]; rfl
  · have e1 : min (e - b) t - s = 0 := by omega
    rw [e1, alone_ok (show alone (scan ⟨b, e⟩ pred 0 s) m = (.ok none, m) from rfl)]
    rw [if_neg (by simp)]; rfl

theorem run_findFirstEscapedChar (m : Mem) (b e o : Nat) (hb : b ≤ e) :
    alone (findFirstEscapedChar ⟨b, e⟩ o) m = (Ystring.findFirstEscapedChar (bytes m b e) o, m) := by
  unfold findFirstEscapedChar Ystring.findFirstEscapedChar
  by_cases ho : o > e - b
  · rw [alone_err (alone_ptr_bad m (by dsimp only; omega)), if_pos (by rw [bytes_length]; omega)]
  rw [alone_ok (alone_ptr m (by dsimp only; omega) (by dsimp only; omega)), if_neg (by rw [bytes_length]; omega)]
  dsimp only
  rw [alone_ok (run_scan m b e _ _ o (by omega)), bytes_drop, bytes_length, show b + o + (e - b - o) = e by omega]
  have hle : stdFindIf (fun x => x == 0x5C) (bytes m (b + o) e) ≤ e - b - o := by
    have : ∀ l : Str, stdFindIf (fun x => x == 0x5C) l ≤ l.length := by
      intro l
      induction l with
      | nil => exact Nat.le_refl _
      | cons a l ih => simp only [stdFindIf]; split <;> simp <;> omega
    have := this (bytes m (b + o) e)
    rw [bytes_length] at this
    omega
  revert hle
  generalize stdFindIf (fun x => x == 0x5C) (bytes m (b + o) e) = x
  intro hle
  by_cases hx : x < e - b - o
  · rw [if_pos hx, if_neg (by omega)]
    dsimp only
    by_cases h1 : o + x + 1 = e - b
    · rw [if_pos h1, bytes_get_none m (by omega)]; rfl
    · rw [if_neg h1, alone_ok (alone_load m (by omega) (by omega)), bytes_get m (by omega)]
      dsimp only
      split
      · rw [alone_ok (run_findFirstByteWhere m b e _ _ hb _)]; rfl
      split
      · rw [alone_ok (run_findFirstByteWhere m b e _ _ hb _)]; rfl
      split
      · rw [alone_ok (run_findFirstByteWhere m b e _ _ hb _)]; rfl
      split
      · rw [alone_ok (run_findFirstByteWhere m b e _ _ hb _)]; rfl
      split <;> rfl
  · rw [if_neg hx, if_pos (by omega)]; rfl

theorem run_digits (m : Mem) (b e base : Nat) : ∀ (k a n v : Nat), b ≤ a → a + k ≤ e →
    alone (digits ⟨b, e⟩ base k a n v) m
      = (.ok (n + ((bytes m a (a + k)).takeWhile (fun c => decide (digitValue c < base))).length,
          ((bytes m a (a + k)).takeWhile (fun c => decide (digitValue c < base))).foldl (fun a c => a * base + digitValue c) v), m) := by
  intro k
  induction k with
  | zero => intro a n v _ _; rw [bytes_nil m (by omega)]; rfl
  | succ k ih =>
    intro a n v hb he
    unfold digits
    rw [alone_ok (alone_load m hb (by omega)), bytes_cons m (by omega), List.takeWhile_cons]
    by_cases h : digitValue (m a) < base
    · rw [if_pos h, if_pos (by simpa using h), ih (a + 1) _ _ (by omega) (by omega), show a + 1 + k = a + (k + 1) by omega]
      simp only [List.length_cons, List.foldl_cons]
      congr 3; omega
    · rw [if_neg h, if_neg (by simpa using h)]; rfl

theorem run_parseEscaped (m : Mem) (b e skip base : Nat) (hb : b ≤ e) :
    alone (parseEscaped skip base ⟨b, e⟩) m = (Ystring.parseEscaped skip base (bytes m b e), m) := by
  unfold parseEscaped Ystring.parseEscaped
  rw [bytes_length]
  by_cases h : e - b < skip
  · rw [alone_err (alone_ptr_bad m (by dsimp only; omega)), if_pos h]
  rw [alone_ok (alone_ptr m (by dsimp only; omega) (by dsimp only; omega)), if_neg h]
  dsimp only
  rw [alone_ok (run_digits m b e base _ _ 0 0 (by omega) (by omega)), bytes_drop, show b + skip + (e - (b + skip)) = e by omega]
  unfold fromChars
  dsimp only
  rw [Nat.zero_add]
  generalize (bytes m (b + skip) e).takeWhile (fun c => decide (digitValue c < base)) = d
  generalize d.foldl (fun a c => a * base + digitValue c) 0 = v
  cases d with
  | nil => rfl
  | cons c d =>
    rw [List.length_cons, if_neg (by omega)]
    by_cases hv : 4294967296 ≤ v
    · rw [if_pos hv, if_pos (.inr hv)]; rfl
    · rw [if_neg hv, if_neg (by omega)]; rfl

/-- `substr` -/
theorem run_subRange (m : Mem) (b e pos n : Nat) :
    (∃ b' e', b' ≤ e' ∧ alone (subRange ⟨b, e⟩ pos n) m = (.ok ⟨b', e'⟩, m) ∧ substr (bytes m b e) pos n = .ok (bytes m b' e')) ∨
    (alone (subRange ⟨b, e⟩ pos n) m = (.error .outOfRange, m) ∧ substr (bytes m b e) pos n = .error .outOfRange) := by
  unfold subRange substr
  rw [bytes_length]
  by_cases h : pos > e - b
  · right
    exact ⟨by rw [if_pos h]; rfl, if_pos h⟩
  · left
    refine ⟨b + pos, b + pos + min n (e - b - pos), by omega, by rw [if_neg h]; rfl, ?_⟩
    rw [if_neg h, bytes_part]

theorem run_parseUtf16 (m : Mem) (b e : Nat) (sub : Subrange) :
    alone (parseUtf16 ⟨b, e⟩ sub) m = (Ystring.parseUtf16 (bytes m b e) sub, m) := by
  unfold parseUtf16 Ystring.parseUtf16 parseEscapedHexChar
  obtain ⟨b1, e1, h1, ha, hl⟩ | ⟨ha, hl⟩ := run_subRange m b e sub.offset sub.length
  · rw [alone_ok ha, hl, alone_bind, run_parseEscaped m b1 e1 _ _ h1]
    simp only [bind, Except.bind]
    cases Ystring.parseEscaped 2 16 (bytes m b1 e1) with
    | error er => rfl
    | ok ch =>
      dsimp only
      split
      · rfl
      rw [← bind_def]
      obtain ⟨b2, e2, h2, ha, hl⟩ | ⟨ha, hl⟩ := run_subRange m b e sub.stop 6
      · rw [alone_ok ha, hl, ← bind_def, alone_bind, run_findFirstEscapedChar m b2 e2 0 h2]
        dsimp only
        cases Ystring.findFirstEscapedChar (bytes m b2 e2) with
        | error er => rfl
        | ok sub2 =>
          dsimp only
          split
          · rfl
          rw [← bind_def]
          unfold charAt
          by_cases h3 : b + (sub.stop + 1) < e
          · rw [alone_ok (alone_load m (by omega) h3), bytes_get m h3]
            dsimp only
            split
            · rfl
            rw [← bind_def, alone_bind, run_parseEscaped m b2 e2 _ _ h2]
            cases Ystring.parseEscaped 2 16 (bytes m b2 e2) with
            | error er => rfl
            | ok ch2 =>
              dsimp only
              split <;> rfl
          · rw [alone_err (alone_load_bad m h3), bytes_get_none m h3]
      · rw [alone_err ha, hl]
  · rw [alone_err ha, hl]; rfl

theorem ok_bind {α β : Type} (a : α) (f : α → Res β) : ((.ok a : Res α) >>= f) = f a := rfl
theorem err_bind {α β : Type} (e : Err) (f : α → Res β) : ((.error e : Res α) >>= f) = .error e := rfl

/-- a number in a part of the string -/
theorem run_number (m : Mem) (b e skip base : Nat) (sub : Subrange) :
    alone (do
      let r1 ← subRange ⟨b, e⟩ sub.start sub.length
      let ch ← parseEscaped skip base r1
      fin (.ok (ch, sub))) m
    = ((do
      let ch ← Ystring.parseEscaped skip base (← substr (bytes m b e) sub.start sub.length)
      .ok (ch, sub)), m) := by
  obtain ⟨b1, e1, h1, ha, hl⟩ | ⟨ha, hl⟩ := run_subRange m b e sub.start sub.length
  · rw [alone_ok ha, hl, ok_bind, alone_bind, run_parseEscaped m b1 e1 _ _ h1]
    cases Ystring.parseEscaped skip base (bytes m b1 e1) <;> rfl
  · rw [alone_err ha, hl]; rfl

theorem run_decodeEscaped (m : Mem) (b e : Nat) (sub : Subrange) :
    alone (decodeEscaped ⟨b, e⟩ sub) m = (Ystring.decodeEscaped (bytes m b e) sub, m) := by
  unfold decodeEscaped Ystring.decodeEscaped charAt parseEscapedHexChar parseEscapedOctChar
  by_cases h3 : b + (sub.start + 1) < e
  · have hl := alone_load m (show b ≤ b + (sub.start + 1) by omega) h3
    rw [alone_ok hl, bytes_get m h3, ok_bind]
    generalize m (b + (sub.start + 1)) = c at hl ⊢
    by_cases h : c = 0x78 ∨ c = 0x58 ∨ c = 0x55
    · rw [if_pos h, if_pos h]
      exact run_number m b e 2 16 sub
    rw [if_neg h, if_neg h]
    by_cases h : c = 0x75
    · rw [if_pos h, if_pos h]
      exact run_parseUtf16 m b e sub
    rw [if_neg h, if_neg h]
    by_cases h : c = 0x61
    · rw [if_pos h, if_pos h]; exact alone_fin _ _
    rw [if_neg h, if_neg h]
    by_cases h : c = 0x62
    · rw [if_pos h, if_pos h]; exact alone_fin _ _
    rw [if_neg h, if_neg h]
    by_cases h : c = 0x66
    · rw [if_pos h, if_pos h]; exact alone_fin _ _
    rw [if_neg h, if_neg h]
    by_cases h : c = 0x6E
    · rw [if_pos h, if_pos h]; exact alone_fin _ _
    rw [if_neg h, if_neg h]
    by_cases h : c = 0x72
    · rw [if_pos h, if_pos h]; exact alone_fin _ _
    rw [if_neg h, if_neg h]
    by_cases h : c = 0x74
    · rw [if_pos h, if_pos h]; exact alone_fin _ _
    rw [if_neg h, if_neg h]
    by_cases h : c = 0x76
    · rw [if_pos h, if_pos h]; exact alone_fin _ _
    rw [if_neg h, if_neg h]
    rw [alone_ok hl]
    by_cases h : isOctDigit c = true
    · rw [if_pos h, if_pos h]
      exact run_number m b e 1 8 sub
    · rw [if_neg h, if_neg h, alone_ok hl]; rfl
  · rw [alone_err (alone_load_bad m h3), bytes_get_none m h3]; rfl

/-! ### The parts that write -/

theorem run_copyLoop (b e : Nat) : ∀ (k : Nat) (m : Mem) (a d : Nat), b ≤ a → a + k ≤ e → b ≤ d → d + k ≤ e → (d ≤ a ∨ a + k ≤ d) →
    ∃ m', alone (copyLoop ⟨b, e⟩ k a d) m = (.ok (), m') ∧ (∀ x, x < d ∨ d + k ≤ x → m' x = m x) ∧
      bytes m' d (d + k) = bytes m a (a + k) := by
  intro k
  induction k with
  | zero =>
    intro m a d _ _ _ _ _
    exact ⟨m, rfl, fun _ _ => rfl, by rw [bytes_nil m (by omega), bytes_nil m (by omega)]⟩
  | succ k ih =>
    intro m a d h1 h2 h3 h4 h5
    unfold copyLoop
    rw [alone_ok (alone_load m h1 (by omega)), alone_ok (alone_store m _ h3 (by omega))]
    obtain ⟨m', g1, g2, g3⟩ := ih (assign m d (m a)) (a + 1) (d + 1) (by omega) (by omega) (by omega) (by omega) (by omega)
    refine ⟨m', g1, ?_, ?_⟩
    · intro x hx
      rw [g2 x (by omega), assign_other _ _ (by omega)]
    · rw [bytes_cons m' (by omega), bytes_cons m (by omega), g2 d (by omega), assign_same,
        show d + (k + 1) = d + 1 + k by omega, g3, show a + (k + 1) = a + 1 + k by omega]
      congr 1
      exact bytes_agree fun x hx1 hx2 => assign_other _ _ (by omega)

theorem run_copyLoop_bad (b e : Nat) : ∀ (k : Nat) (m : Mem) (a d : Nat), b ≤ a → a + k ≤ e → b ≤ d → d ≤ e → e < d + k →
    (alone (copyLoop ⟨b, e⟩ k a d) m).1 = .error .ub := by
  intro k
  induction k with
  | zero => intros; omega
  | succ k ih =>
    intro m a d h1 h2 h3 h4 h5
    unfold copyLoop
    rw [alone_ok (alone_load m h1 (by omega))]
    by_cases h : d < e
    · rw [alone_ok (alone_store m _ h3 h)]
      exact ih _ _ _ (by omega) (by omega) (by omega) (by omega) (by omega)
    · rw [alone_err (alone_store_bad m _ h)]

theorem run_copyIfMoved (m : Mem) (b e frm last to : Nat) (hb : b ≤ e) :
    (∃ m', alone (copyIfMoved ⟨b, e⟩ frm last to) m = (.ok (), m') ∧ Ystring.copyIfMoved (bytes m b e) frm last to = .ok (bytes m' b e)) ∨
    (∃ m', alone (copyIfMoved ⟨b, e⟩ frm last to) m = (.error .ub, m') ∧ Ystring.copyIfMoved (bytes m b e) frm last to = .error .ub) := by
  unfold copyIfMoved Ystring.copyIfMoved
  by_cases h : frm ≠ to
  · rw [if_pos h, if_pos h]
    unfold copyWithin writeAt
    rw [bytes_length]
    by_cases h2 : frm ≤ last ∧ last ≤ e - b ∧ ¬(frm ≤ to ∧ to < last)
    · obtain ⟨g1, g2, g3⟩ := h2
      have hl : (((bytes m b e).drop frm).take (last - frm)).length = last - frm := by
        rw [List.length_take, List.length_drop, bytes_length]; omega
      rw [if_pos (show frm ≤ last ∧ last ≤ e - b ∧ ¬(frm ≤ to ∧ to < last) from ⟨g1, g2, g3⟩), hl]
      rw [alone_ok (alone_ptr m (by dsimp only; omega) (by dsimp only; omega)),
        alone_ok (alone_ptr m (by dsimp only; omega) (by dsimp only; omega))]
      by_cases h4 : to + (last - frm) ≤ e - b
      · left
        rw [if_pos h4, alone_ok (alone_ptr m (by dsimp only; omega) (by dsimp only; omega)), if_pos (show frm ≤ last ∧ ¬(frm ≤ to ∧ to < last) from ⟨g1, g3⟩)]
        obtain ⟨m', k1, k2, k3⟩ := run_copyLoop b e (last - frm) m (b + frm) (b + to) (by omega) (by omega) (by omega) (by omega) (by omega)
        refine ⟨m', k1, ?_⟩
        rw [bytes_written (i := to) (k := last - frm) (by omega) k2 k3, bytes_part,
          show min (last - frm) (e - b - frm) = last - frm by omega]
      · right
        rw [if_neg h4]
        by_cases h5 : to ≤ e - b
        · rw [alone_ok (alone_ptr m (by dsimp only; omega) (by dsimp only; omega)), if_pos (show frm ≤ last ∧ ¬(frm ≤ to ∧ to < last) from ⟨g1, g3⟩)]
          have := run_copyLoop_bad b e (last - frm) m (b + frm) (b + to) (by omega) (by omega) (by omega) (by omega) (by omega)
          exact ⟨_, Prod.ext this rfl, rfl⟩
        · exact ⟨_, alone_err (alone_ptr_bad m (by dsimp only; omega)), rfl⟩
    · right
      rw [if_neg (show ¬ (frm ≤ last ∧ last ≤ e - b ∧ ¬(frm ≤ to ∧ to < last)) from h2)]
      by_cases c1 : b + frm ≤ e
      · rw [alone_ok (alone_ptr m (by omega) c1)]
        by_cases c2 : b + last ≤ e
        · rw [alone_ok (alone_ptr m (by omega) c2)]
          by_cases c3 : b + to ≤ e
          · rw [alone_ok (alone_ptr m (by omega) c3)]
            rw [if_neg (show ¬ (frm ≤ last ∧ ¬(frm ≤ to ∧ to < last)) from fun hc => h2 ⟨hc.1, by omega, hc.2⟩)]
            exact ⟨m, rfl, rfl⟩
          · exact ⟨_, alone_err (alone_ptr_bad m c3), rfl⟩
        · exact ⟨_, alone_err (alone_ptr_bad m c2), rfl⟩
      · exact ⟨_, alone_err (alone_ptr_bad m c1), rfl⟩
  · left
    rw [if_neg h, if_neg h]
    exact ⟨m, rfl, rfl⟩

theorem encodeDetail_length (c : Char32) (k : Nat) : (Ystring.encodeDetail c k).length = k := by
  have ht : ∀ k s, (encodeTail c k s).length = k := by
    intro k
    induction k with
    | zero => intro; rfl
    | succ k ih => intro s; simp [encodeTail, ih]
  unfold Ystring.encodeDetail
  split
  · simp; omega
  · split
    · simp [ht]; omega
    · simp; omega

/-- the loop, from any state of the buffer -/
theorem run_unescapeLoop (b e : Nat) (hb : b ≤ e) : ∀ (fuel : Nat) (m : Mem) (frm to : Nat),
    (∃ m' n, alone (unescapeLoop ⟨b, e⟩ fuel frm to) m = (.ok n, m') ∧
      Ystring.unescapeLoop fuel (bytes m b e) frm to = .ok (bytes m' b e, n)) ∨
    (∃ m' er, alone (unescapeLoop ⟨b, e⟩ fuel frm to) m = (.error er, m') ∧
      Ystring.unescapeLoop fuel (bytes m b e) frm to = .error er) := by
  intro fuel
  induction fuel with
  | zero => intro m frm to; exact .inr ⟨m, .diverge, rfl, rfl⟩
  | succ fuel ih =>
    intro m frm to
    unfold unescapeLoop Ystring.unescapeLoop
    rw [alone_bind, run_findFirstEscapedChar m b e frm hb]
    cases Ystring.findFirstEscapedChar (bytes m b e) frm with
    | error er => exact .inr ⟨m, er, rfl, rfl⟩
    | ok sub =>
      rw [ok_bind]
      dsimp only
      obtain ⟨m', h1, h2⟩ | ⟨m', h1, h2⟩ := run_copyIfMoved m b e frm sub.start to hb
      · rw [alone_ok h1, h2, ok_bind]
        generalize sizeAdd to (sizeSub sub.start frm) = to
        by_cases hn : (!sub.nonempty) = true
        · rw [if_pos hn, if_pos hn]
          exact .inl ⟨m', to, rfl, rfl⟩
        rw [if_neg hn, if_neg hn, alone_bind, run_decodeEscaped m' b e sub]
        cases Ystring.decodeEscaped (bytes m' b e) sub with
        | error er => exact .inr ⟨m', er, rfl, rfl⟩
        | ok x =>
          obtain ⟨ch, sub⟩ := x
          rw [ok_bind]
          dsimp only
          have hlen : (Ystring.encodeUtf8 ch).length = encodeUtf8Ret ch := encodeDetail_length _ _
          unfold writeAt
          rw [bytes_length, hlen]
          by_cases h3 : to + encodeUtf8Ret ch ≤ e - b
          · rw [if_pos h3, ok_bind, alone_ok (alone_ptr m' (by omega) (by omega))]
            obtain ⟨m2, k1, k2, k3⟩ := run_encodeDetail b e ch (encodeUtf8Ret ch) m' (b + to) (by omega) (by omega)
            rw [alone_ok k1]
            have := bytes_written (b := b) (e := e) (i := to) (by omega) k2 k3
            rw [show Ystring.encodeUtf8 ch = Ystring.encodeDetail ch (encodeUtf8Ret ch) from rfl, ← this]
            exact ih m2 _ _
          · rw [if_neg h3, err_bind]
            right
            by_cases h4 : b + to ≤ e
            · rw [alone_ok (alone_ptr m' (by omega) h4)]
              have := run_encodeDetail_bad b e ch (encodeUtf8Ret ch) m' (b + to) (by omega) h4 (by omega)
              exact ⟨_, .ub, alone_err (Prod.ext this rfl), rfl⟩
            · exact ⟨_, .ub, alone_err (alone_ptr_bad m' h4), rfl⟩
      · rw [alone_err h1, h2]
        exact .inr ⟨m', .ub, rfl, rfl⟩

end Ystring.Thr
