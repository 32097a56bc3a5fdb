import Verif.Spec.Pointers
import Verif.Proofs.Utf8
namespace Ystring.Ptr
open Ystring Ystring.Spec

theorem bytes_length (m : Mem) (i e : Nat) : (bytes m i e).length = e - i := by simp [bytes]

theorem bytes_nil (m : Mem) {i e : Nat} (h : e ≤ i) : bytes m i e = [] := by
  have : e - i = 0 := by omega
  simp [bytes, this]

theorem bytes_cons (m : Mem) {i e : Nat} (h : i < e) : bytes m i e = m i :: bytes m (i + 1) e := by
  obtain ⟨k, hk⟩ : ∃ k, e - i = k + 1 := ⟨e - i - 1, by omega⟩
  have h2 : e - (i + 1) = k := by omega
  simp [bytes, hk, h2, List.range'_succ]

theorem bytes_append (m : Mem) {a b c : Nat} (h : a ≤ b) (h2 : b ≤ c) : bytes m a c = bytes m a b ++ bytes m b c := by
  have : c - a = (b - a) + (c - b) := by omega
  have e2 : b = a + (b - a) := by omega
  unfold bytes
  rw [this, ← List.range'_append_1, List.map_append, ← e2]

theorem bytes_snoc (m : Mem) {i e : Nat} (h : i ≤ e) : bytes m i (e + 1) = bytes m i e ++ [m e] := by
  rw [bytes_append m h (Nat.le_succ e), bytes_cons m (Nat.lt_succ_self e), bytes_nil m (Nat.le_refl _)]

theorem bytes_agree {m m' : Mem} {i e : Nat} (h : AgreeOn m m' i e) : bytes m i e = bytes m' i e := by
  unfold bytes
  apply List.map_congr_left
  intro a ha
  simp [List.mem_range'_1] at ha
  exact h a ha.1 (by omega)

theorem decs_ok (r : Range) (k it : Nat) (h1 : r.first + k ≤ it) (h2 : it ≤ r.last) : decs r k it = .ok (it - k) := by
  induction k generalizing it with
  | zero => rfl
  | succ k ih =>
    have hd : dec r it = .ok (it - 1) := by unfold dec; rw [if_pos ⟨by omega, h2⟩]
    have := ih (it - 1) (by omega) (by omega)
    show (dec r it >>= fun i => decs r k i) = _
    rw [hd]
    show decs r k (it - 1) = _
    rw [this]; congr 1; omega

theorem incs_ok (r : Range) (k it : Nat) (h1 : r.first ≤ it) (h2 : it + k ≤ r.last) : incs r k it = .ok (it + k) := by
  induction k generalizing it with
  | zero => rfl
  | succ k ih =>
    have hd : inc r it = .ok (it + 1) := by unfold inc; rw [if_pos ⟨h1, by omega⟩]
    have := ih (it + 1) (by omega) (by omega)
    show (inc r it >>= fun i => incs r k i) = _
    rw [hd]
    show incs r k (it + 1) = _
    rw [this]; congr 1; omega

theorem load_ok (m : Mem) (b e it : Nat) (h1 : b ≤ it) (h2 : it < e) : load m ⟨b, e⟩ it = .ok (m it) := if_pos ⟨h1, h2⟩
theorem inc_ok (b e it : Nat) (h1 : b ≤ it) (h2 : it < e) : inc ⟨b, e⟩ it = .ok (it + 1) := if_pos ⟨h1, h2⟩
theorem dec_ok (b e it : Nat) (h1 : b < it) (h2 : it ≤ e) : dec ⟨b, e⟩ it = .ok (it - 1) := if_pos ⟨h1, h2⟩

/-- the outcome for iterators that are lists as an outcome for addresses -/
def lift {α β : Type} (f : α → β) : Res α → PRes β
  | .ok a => .ok (f a)
  | .error _ => .error .shift

/-- where an iterator is that has the bytes `rest` in front of it -/
def ahead {α : Type} (e : Nat) (p : α × Str) : α × Nat := (p.1, e - p.2.length)

theorem decodeNextLoop_eq (m : Mem) (b e s : Nat) (hb : b ≤ s) : ∀ (n i : Nat) (res : Char32) (it : Nat),
    it = s + i + 1 → it + n ≤ e →
    decodeNextLoop m ⟨b, e⟩ n i res it
      = lift (ahead e) (Ystring.decodeNextLoop n i res (bytes m s it).reverse (bytes m it e)) := by
  intro n
  induction n with
  | zero =>
    intro i res it hit he
    simp only [decodeNextLoop, Ystring.decodeNextLoop, lift, ahead, bytes_length]
    congr 2; omega
  | succ n ih =>
    intro i res it hit he
    have hl := load_ok m b e it (by omega) (by omega)
    rw [bytes_cons m (show it < e by omega)]
    simp only [decodeNextLoop, Ystring.decodeNextLoop, hl, inc_ok b e it (by omega) (by omega), bind, Except.bind]
    split
    · rw [ih (i + 1) _ (it + 1) (by omega) (by omega)]
      rw [bytes_snoc m (show s ≤ it by omega)]
      simp
    · rw [decs_ok ⟨b, e⟩ (i + 1) it (by simp; omega) (by simp; omega)]
      have hlen : i + 1 = (bytes m s it).reverse.length := by simp [bytes_length]; omega
      rw [hlen, stepBack_length]
      simp [lift, ahead, bytes_length]
      omega

theorem decodeNextLead_eq (m : Mem) (b e it : Nat) (hb : b ≤ it) (he : it < e) (mask : UInt8) (n : Nat) :
    decodeNextLead m ⟨b, e⟩ it mask n
      = lift (ahead e) (if n > (bytes m (it + 1) e).length then (do
          let it ← stepBack 1 [m it] (bytes m (it + 1) e)
          .ok (INVALID_CHAR, it))
        else Ystring.decodeNextLoop n 0 (m it &&& mask).toUInt32 [m it] (bytes m (it + 1) e)) := by
  simp only [decodeNextLead, load_ok m b e it hb he, inc_ok b e it hb he, bind, Except.bind, bytes_length]
  split
  · rw [dec_ok b e (it + 1) (by omega) (by omega)]
    simp only [stepBack, lift, ahead, List.length_cons, bytes_length]
    congr 2; omega
  · rw [decodeNextLoop_eq m b e it hb n 0 _ (it + 1) rfl (by omega)]
    rw [bytes_snoc m (Nat.le_refl it), bytes_nil m (Nat.le_refl it)]
    rfl

theorem decodeNext_eq (m : Mem) (b e it : Nat) (hb : b ≤ it) (he : it ≤ e) :
    decodeNext m ⟨b, e⟩ it = lift (ahead e) (Ystring.decodeNext (bytes m it e)) := by
  unfold decodeNext
  by_cases h : it = e
  · subst h
    simp [bytes_nil, Ystring.decodeNext, lift, ahead]
  · have hlt : it < e := by omega
    rw [if_neg h, bytes_cons m hlt]
    simp only [load_ok m b e it hb hlt, inc_ok b e it hb hlt, bind, Except.bind, Ystring.decodeNext,
      decodeNextLead_eq m b e it hb hlt]
    repeat' split
    all_goals first | rfl | skip
    all_goals simp [lift, ahead, bytes_length] <;> omega

/-- where an iterator is that has the bytes `rest` behind it -/
def behind {α : Type} (b : Nat) (p : α × Str) : α × Nat := (p.1, b + p.2.length)

theorem decodePrevLoop_eq (m : Mem) (b e s : Nat) (hs : s ≤ e) : ∀ (fuel n : Nat) (res : Char32) (it : Nat),
    b ≤ it → it - b < fuel → s = it + n + 1 →
    decodePrevLoop m ⟨b, e⟩ fuel n res it
      = lift (behind b) (Ystring.decodePrevLoop n res (m it) (bytes m it s) (bytes m b it).reverse) := by
  intro fuel
  induction fuel with
  | zero => intro n res it _ h; omega
  | succ fuel ih =>
    intro n res it hb hf hs'
    have hl := load_ok m b e it hb (by omega)
    have hlen : n + 1 = (bytes m it s).length := by simp [bytes_length]; omega
    rw [Ystring.decodePrevLoop.eq_def]
    simp only [decodePrevLoop, hl, bind, Except.bind]
    have hi := incs_ok ⟨b, e⟩ (n + 1) it hb (by simp; omega)
    have hsb : ∀ r, stepBack (n + 1) (bytes m it s) r = .ok ((bytes m it s).reverse ++ r) := by
      intro r; rw [hlen]; exact stepBack_length _ _
    split
    · by_cases h0 : it = b
      · rw [if_pos h0, hi]
        subst h0
        rw [bytes_nil m (Nat.le_refl _)]
        simp only [List.reverse_nil, hsb]
        simp [lift, behind, bytes_length]; omega
      · rw [if_neg h0]
        have hprev : (bytes m b it).reverse = m (it - 1) :: (bytes m b (it - 1)).reverse := by
          have : it = (it - 1) + 1 := by omega
          conv => lhs; rw [this, bytes_snoc m (show b ≤ it - 1 by omega)]
          simp
        rw [hprev]
        simp only []
        split
        · rfl
        · rw [dec_ok b e it (by omega) (by omega)]
          simp only []
          rw [ih (n + 1) _ (it - 1) (by omega) (by omega) (by omega)]
          have : bytes m (it - 1) s = m (it - 1) :: bytes m it s := by
            rw [bytes_cons m (show it - 1 < s by omega)]
            congr 2; omega
          rw [this]
    · have hb2 : ∀ c : Char32, (Except.ok (c, it) : PRes (Char32 × Nat))
          = lift (behind b) (Except.ok (c, (bytes m b it).reverse) : Res (Char32 × Str)) := by
        intro c; simp [lift, behind, bytes_length]; omega
      simp only [hi, hsb]
      repeat' split
      all_goals first | exact hb2 _ | skip
      all_goals simp [lift, behind, bytes_length] <;> omega

theorem prev_cons (m : Mem) {b it : Nat} (h : b < it) :
    (bytes m b it).reverse = m (it - 1) :: (bytes m b (it - 1)).reverse := by
  have : it = (it - 1) + 1 := by omega
  conv => lhs; rw [this, bytes_snoc m (show b ≤ it - 1 by omega)]
  simp

theorem decodePrev_eq (m : Mem) (b e it : Nat) (hb : b ≤ it) (he : it ≤ e) :
    decodePrev m ⟨b, e⟩ it = lift (behind b) (Ystring.decodePrev (bytes m b it).reverse) := by
  unfold decodePrev
  by_cases h : it = b
  · subst h
    simp [bytes_nil, Ystring.decodePrev, lift, behind]
  · rw [if_neg h, prev_cons m (show b < it by omega)]
    simp only [dec_ok b e it (by omega) he, bind, Except.bind, Ystring.decodePrev,
      load_ok m b e (it - 1) (by omega) (by omega)]
    split
    · simp [lift, behind, bytes_length]; omega
    · rw [decodePrevLoop_eq m b e it he _ 0 0 (it - 1) (by omega) (by show _ < e - b; omega) (by omega)]
      have : bytes m (it - 1) it = [m (it - 1)] := by
        rw [bytes_cons m (show it - 1 < it by omega), bytes_nil m (by omega)]
      rw [this]

theorem skipNextLoop_eq (m : Mem) (b e : Nat) : ∀ (fuel n it : Nat), b ≤ it → it ≤ e → e - it < fuel →
    skipNextLoop m ⟨b, e⟩ fuel n it = .ok (e - (skipCont n (bytes m it e)).length) := by
  intro fuel
  induction fuel with
  | zero => intro n it _ _ h; omega
  | succ fuel ih =>
    intro n it hb he hf
    unfold skipNextLoop
    by_cases h : it = e
    · subst h
      simp [bytes_nil, skipCont]
    · have hlt : it < e := by omega
      simp only [ne_eq, h, not_false_eq_true, if_true, load_ok m b e it hb hlt, inc_ok b e it hb hlt, bind, Except.bind]
      have hw : (Except.ok it : PRes Nat) = .ok (e - (bytes m it e).length) := by
        simp [bytes_length]; omega
      cases n with
      | zero =>
        have hz : skipCont 0 (bytes m it e) = bytes m it e := by cases bytes m it e <;> rfl
        simp only [hz]
        split <;> exact hw
      | succ n =>
        rw [bytes_cons m hlt, skipCont]
        split
        · simp only [Nat.zero_lt_succ, if_true, gt_iff_lt, Nat.add_sub_cancel]
          exact ih n (it + 1) (by omega) (by omega) (by omega)
        · rw [← bytes_cons m hlt]; exact hw

theorem skipNext_eq (m : Mem) (b e it : Nat) (hb : b ≤ it) (he : it ≤ e) :
    skipNext m ⟨b, e⟩ it = .ok (ahead e (Ystring.skipNext (bytes m it e))) := by
  unfold skipNext
  by_cases h : it = e
  · subst h
    simp [bytes_nil, Ystring.skipNext, ahead]
  · have hlt : it < e := by omega
    rw [if_neg h, bytes_cons m hlt]
    simp only [load_ok m b e it hb hlt, inc_ok b e it hb hlt, bind, Except.bind, Ystring.skipNext]
    split
    · simp [ahead, bytes_length]; omega
    · rw [skipNextLoop_eq m b e _ _ (it + 1) (by omega) (by omega) (by show _ < e - b + 1; omega)]
      rfl

theorem skipPrevLoop_eq (m : Mem) (b e s : Nat) (hs : s ≤ e) : ∀ (fuel n it : Nat),
    b < it → it - b ≤ fuel → it ≤ s → n = (s - it) % 4294967296 →
    skipPrevLoop m ⟨b, e⟩ fuel n it
      = lift (behind b) (Ystring.skipPrevLoop n (m (it - 1)) (bytes m (it - 1) s) (bytes m b (it - 1)).reverse) := by
  intro fuel
  induction fuel with
  | zero => intro n it _ h; omega
  | succ fuel ih =>
    intro n it hb hf hle hn
    rw [Ystring.skipPrevLoop.eq_def]
    simp only [skipPrevLoop, dec_ok b e it hb (by omega), load_ok m b e (it - 1) (by omega) (by omega), bind, Except.bind]
    split
    · by_cases h0 : it - 1 = b
      · rw [if_pos h0, h0, bytes_nil m (Nat.le_refl _)]
        simp [lift, behind]
      · rw [if_neg h0, prev_cons m (show b < it - 1 by omega)]
        simp only []
        rw [ih _ (it - 1) (by omega) (by omega) (by omega) (by omega)]
        have : bytes m (it - 1 - 1) s = m (it - 1 - 1) :: bytes m (it - 1) s := by
          rw [bytes_cons m (show it - 1 - 1 < s by omega)]
          congr 2; omega
        rw [this]
    · generalize hk : (if m (it - 1) &&& 128 = 0 then 1
        else if m (it - 1) &&& 224 = 192 then 2
        else if m (it - 1) &&& 240 = 224 then 3
        else if m (it - 1) &&& 248 = 240 then 4 else 4294967295) = k
      have hk1 : k ≤ 4294967295 := by rw [← hk]; repeat' split
                                      all_goals omega
      split
      · simp [lift, behind, bytes_length]; omega
      · rename_i hge
        have hks : it - 1 + k ≤ s := by
          have := Nat.mod_le (n + 1) 4294967296
          have := Nat.mod_le (s - it) 4294967296
          omega
        rw [incs_ok ⟨b, e⟩ k (it - 1) (by simp; omega) (by simp; omega)]
        have hsp := stepBack_append ((bytes m (it - 1) s).take k) ((bytes m (it - 1) s).drop k) (bytes m b (it - 1)).reverse
        rw [List.take_append_drop] at hsp
        have hlen : ((bytes m (it - 1) s).take k).length = k := by
          rw [List.length_take, bytes_length]; omega
        rw [hlen] at hsp
        simp only [hsp, lift, behind, List.length_append, List.length_reverse, hlen, bytes_length]
        congr 2; omega

theorem skipPrev_eq (m : Mem) (b e it : Nat) (hb : b ≤ it) (he : it ≤ e) :
    skipPrev m ⟨b, e⟩ it = lift (behind b) (Ystring.skipPrev (bytes m b it).reverse) := by
  unfold skipPrev
  by_cases h : it = b
  · subst h
    simp [bytes_nil, Ystring.skipPrev, lift, behind]
  · rw [if_neg h, prev_cons m (show b < it by omega)]
    simp only [Ystring.skipPrev]
    rw [skipPrevLoop_eq m b e it he _ 0 it (by omega) (by simp; omega) (Nat.le_refl _) (by simp)]
    have : bytes m (it - 1) it = [m (it - 1)] := by
      rw [bytes_cons m (show it - 1 < it by omega), bytes_nil m (by omega)]
    rw [this]

theorem store_ok (m : Mem) (b e it : Nat) (x : UInt8) (h1 : b ≤ it) (h2 : it < e) :
    store m ⟨b, e⟩ it x = .ok (fun i => if i = it then x else m i) := if_pos ⟨h1, h2⟩

theorem encodeLoop_eq (b e : Nat) (chr : Char32) : ∀ (k shift : Nat) (m : Mem) (it : Nat), b ≤ it → it + k ≤ e →
    ∃ m', encodeLoop ⟨b, e⟩ chr k shift m it = .ok (m', it + k) ∧
      (∀ a, a < it ∨ it + k ≤ a → m' a = m a) ∧ bytes m' it (it + k) = encodeTail chr k shift := by
  intro k
  induction k with
  | zero => intro shift m it _ _; exact ⟨m, rfl, fun _ _ => rfl, bytes_nil m (by omega)⟩
  | succ k ih =>
    intro shift m it hb he
    generalize hx : (0x80 ||| ((chr >>> (UInt32.ofNat (shift - 6))) &&& 0x3F)).toUInt8 = x
    obtain ⟨m', h1, h2, h3⟩ := ih (shift - 6) (fun i => if i = it then x else m i) (it + 1) (by omega) (by omega)
    refine ⟨m', ?_, fun a ha => ?_, ?_⟩
    · simp only [encodeLoop, hx, store_ok m b e it x hb (by omega), inc_ok b e it hb (by omega), bind, Except.bind, h1]
      congr 2; omega
    · rw [h2 a (by omega), if_neg (by omega)]
    · rw [bytes_cons m' (by omega), encodeTail, hx, h2 it (by omega), if_pos rfl]
      have : it + (k + 1) = it + 1 + k := by omega
      rw [this, h3]

theorem encodeDetail_eq (b e : Nat) (chr : Char32) (k : Nat) (m : Mem) (it : Nat) (hb : b ≤ it) (he : it + k ≤ e) :
    ∃ m', encodeDetail m ⟨b, e⟩ chr k it = .ok (m', it + k) ∧
      (∀ a, a < it ∨ it + k ≤ a → m' a = m a) ∧ bytes m' it (it + k) = Ystring.encodeDetail chr k := by
  unfold encodeDetail Ystring.encodeDetail
  by_cases h1 : k = 1
  · subst h1
    simp only [if_true, store_ok m b e it _ hb (by omega), inc_ok b e it hb (by omega), bind, Except.bind]
    refine ⟨_, rfl, fun a ha => if_neg (by omega), ?_⟩
    rw [bytes_cons _ (by omega), bytes_nil _ (Nat.le_refl _), if_pos rfl]
  · by_cases h0 : k = 0
    · subst h0
      exact ⟨m, rfl, fun _ _ => rfl, bytes_nil m (by omega)⟩
    · obtain ⟨k, rfl⟩ : ∃ j, k = j + 1 := ⟨k - 1, by omega⟩
      simp only [if_neg h1, ne_eq, h0, not_false_eq_true, if_true, Nat.add_sub_cancel]
      generalize (((0xFF : UInt32) <<< (UInt32.ofNat (8 - (k + 1)))) ||| (chr >>> (UInt32.ofNat (k * 6)))).toUInt8 = x
      obtain ⟨m', h1, h2, h3⟩ := encodeLoop_eq b e chr k (k * 6) (fun i => if i = it then x else m i) (it + 1) (by omega) (by omega)
      refine ⟨m', ?_, fun a ha => ?_, ?_⟩
      · simp only [store_ok m b e it x hb (by omega), inc_ok b e it hb (by omega), bind, Except.bind, h1]
        congr 2; omega
      · rw [h2 a (by omega), if_neg (by omega)]
      · rw [bytes_cons m' (by omega), h2 it (by omega), if_pos rfl]
        have : it + (k + 1) = it + 1 + k := by omega
        rw [this, h3]

theorem bytes_suffix (m : Mem) {i e : Nat} (h : i ≤ e) {u t : Str} (hu : bytes m i e = u ++ t) :
    t = bytes m (i + u.length) e ∧ i + u.length ≤ e ∧ t.length = e - (i + u.length) := by
  have hl := congrArg List.length hu
  rw [bytes_length, List.length_append] at hl
  have h2 := bytes_append m (Nat.le_add_right i u.length) (show i + u.length ≤ e by omega)
  rw [h2] at hu
  exact ⟨(List.append_inj_right hu (by simp [bytes_length])).symm, by omega, by omega⟩

theorem bytes_prefix (m : Mem) {i e : Nat} (h : i ≤ e) {t u : Str} (hu : bytes m i e = t ++ u) :
    t = bytes m i (e - u.length) ∧ i + u.length ≤ e ∧ i + t.length = e - u.length := by
  have hl := congrArg List.length hu
  rw [bytes_length, List.length_append] at hl
  have h2 := bytes_append m (show i ≤ e - u.length by omega) (Nat.sub_le e u.length)
  rw [h2] at hu
  exact ⟨(List.append_inj_left hu (by simp [bytes_length]; omega)).symm, by omega, by omega⟩

end Ystring.Ptr
