import Verif.Proofs.UnescapeStep
/-
Lemmas for C57-C59: the in-place loop of `unescape`. The buffer is always `a ++ j ++ rest`: the output so far,
bytes already read, and bytes still to be read.
-/
namespace Ystring
open Spec

theorem bind_ok {α β : Type} (x : α) (f : α → Res β) : ((Except.ok x : Res α) >>= f) = f x := rfl

theorem bind_err {α β : Type} (e : Err) (f : α → Res β) : ((Except.error e : Res α) >>= f) = .error e := rfl

theorem writeAt_append {a b x : Str} (h : x.length ≤ b.length) :
    writeAt (a ++ b) a.length x = .ok (a ++ (x ++ b.drop x.length)) := by
  unfold writeAt
  rw [if_pos (by simp; omega), List.take_left, List.drop_append, List.drop_eq_nil_of_le (by omega)]
  simp

theorem writeAt_length {b b' x : Str} {i : Nat} (h : writeAt b i x = .ok b') : b'.length = b.length := by
  unfold writeAt at h
  split at h
  · cases h; simp; omega
  · cases h

theorem copy_step (a j p t : Str) : ∃ j', j'.length = j.length ∧
    copyIfMoved (a ++ (j ++ (p ++ t))) (a.length + j.length) (a.length + j.length + p.length) a.length =
      .ok (a ++ (p ++ (j' ++ t))) := by
  unfold copyIfMoved
  by_cases hj : j = []
  · subst hj
    exact ⟨[], rfl, by rw [if_neg (by simp)]; rfl⟩
  · have hj' : 0 < j.length := List.length_pos_iff.mpr hj
    refine ⟨(j ++ p).drop p.length, by simp, ?_⟩
    rw [if_pos (by omega)]
    unfold copyWithin
    rw [if_pos ⟨by omega, by simp; omega, by omega⟩]
    have e : ((a ++ (j ++ (p ++ t))).drop (a.length + j.length)).take (a.length + j.length + p.length - (a.length + j.length)) = p := by
      have : a ++ (j ++ (p ++ t)) = (a ++ j) ++ (p ++ t) := by simp
      rw [this, ← List.length_append, List.drop_left, Nat.add_sub_cancel_left, List.take_left]
    rw [e, writeAt_append (by simp; omega)]
    congr 3
    have : j ++ (p ++ t) = (j ++ p) ++ t := by simp
    rw [this, List.drop_append_of_le_length (by simp)]

theorem sizeAdd_lt {a b : Nat} (h : a + b < SIZE_MOD) : sizeAdd a b = a + b := by
  unfold sizeAdd; rw [Nat.mod_eq_of_lt h]

theorem sizeSub_add (a b : Nat) (h : b < SIZE_MOD) : sizeSub (a + b) a = b := by
  unfold sizeSub
  rw [show a + b + SIZE_MOD - a = b + SIZE_MOD by omega, Nat.add_mod_right, Nat.mod_eq_of_lt h]

theorem stop_lt {a b : Nat} (h : a + b < SIZE_MOD) : Subrange.stop ⟨a, b⟩ = a + b := by
  unfold Subrange.stop; exact sizeAdd_lt h

/-- One iteration of the loop up to the decoding of the sequence, when the next backslash follows `p`. -/
theorem loop_iter {fuel : Nat} {a j p v : Str} {k : Nat} (hp : 0x5C ∉ p)
    (hk : k ≠ 0) (hf : ∀ q, afterBackslash q v = .ok ⟨q.length, k⟩)
    (hl : (a ++ (j ++ (p ++ 0x5C :: v))).length < SIZE_MOD) :
    ∃ j' : Str, j'.length = j.length ∧
      unescapeLoop (fuel + 1) (a ++ (j ++ (p ++ 0x5C :: v))) (a.length + j.length) a.length = (do
        let (ch, sub) ← decodeEscaped ((a ++ (p ++ j')) ++ 0x5C :: v) ⟨(a ++ (p ++ j')).length, k⟩
        let buf ← writeAt ((a ++ p) ++ (j' ++ 0x5C :: v)) (a ++ p).length (encodeUtf8 ch)
        unescapeLoop fuel buf sub.stop (sizeAdd (a ++ p).length (encodeUtf8Ret ch))) := by
  obtain ⟨j', hj', hc⟩ := copy_step a j p (0x5C :: v)
  refine ⟨j', hj', ?_⟩
  rw [unescapeLoop]
  have e0 : a ++ (j ++ (p ++ 0x5C :: v)) = (a ++ j) ++ (p ++ 0x5C :: v) := by simp
  have e1 : findFirstEscapedChar (a ++ (j ++ (p ++ 0x5C :: v))) (a.length + j.length) =
      .ok ⟨a.length + j.length + p.length, k⟩ := by
    rw [e0, ← List.length_append, find_start hp, hf]
    simp [Nat.add_assoc]
  rw [e1, bind_ok]
  dsimp only [Subrange.start]
  rw [hc, bind_ok]
  simp at hl
  rw [if_neg (by simp [Subrange.nonempty, hk]), sizeSub_add _ _ (by omega), sizeAdd_lt (by omega)]
  have e2 : a ++ (p ++ (j' ++ 0x5C :: v)) = (a ++ (p ++ j')) ++ 0x5C :: v := by simp
  have e3 : a.length + j.length + p.length = (a ++ (p ++ j')).length := by simp; omega
  have e4 : a ++ (p ++ (j' ++ 0x5C :: v)) = (a ++ p) ++ (j' ++ 0x5C :: v) := by simp
  have e5 : a.length + p.length = (a ++ p).length := by simp
  rw [e3, e5]
  simp only [← e2, ← e4]

/-- One iteration that consumes a complete escape sequence. -/
theorem loop_escape {fuel : Nat} {a j p e s out : Str} (hp : 0x5C ∉ p) (h : Escape e s out)
    (hl : (a ++ (j ++ (p ++ (e ++ s)))).length + 12 < SIZE_MOD) :
    ∃ j' : Str, j'.length + out.length = j.length + e.length ∧
      unescapeLoop (fuel + 1) (a ++ (j ++ (p ++ (e ++ s)))) (a.length + j.length) a.length =
        unescapeLoop fuel ((a ++ (p ++ out)) ++ (j' ++ s)) ((a ++ (p ++ out)).length + j'.length) (a ++ (p ++ out)).length := by
  obtain ⟨h1, h2, _⟩ := escape_length h
  obtain ⟨v, k, ch, hv, hk, hf, hd, ho⟩ := step_ok h
  rw [hv] at hl ⊢
  obtain ⟨j', hj', he⟩ := loop_iter (fuel := fuel) (a := a) (j := j) hp hk hf (by omega)
  rw [he, ← hv]
  have hl' := congrArg List.length hv
  simp at hl hl'
  rw [hd (a ++ (p ++ j')) (by simp; omega), bind_ok]
  dsimp only
  rw [ho, writeAt_append (by simp; omega), bind_ok]
  refine ⟨(j' ++ e).drop out.length, by simp; omega, ?_⟩
  have e1 : (j' ++ (e ++ s)).drop out.length = (j' ++ e).drop out.length ++ s := by
    rw [← List.append_assoc, List.drop_append_of_le_length (by simp; omega)]
  have hr : encodeUtf8Ret ch = out.length := by rw [← ho, encodeUtf8_length]; rfl
  rw [e1, hr, stop_lt (by simp; omega), sizeAdd_lt (by simp; omega)]
  congr 1
  · simp
  · simp; omega
  · simp; omega

theorem loop_reads {s o t : Str} (h : Reads Escape s o t) : ∀ (a j p : Str) (fuel : Nat), 0x5C ∉ p →
    (p ++ s).length < fuel → (a ++ (j ++ (p ++ s))).length + 12 < SIZE_MOD →
    ∃ a' j' p' fuel', 0x5C ∉ p' ∧ (p' ++ t).length < fuel' ∧ a' ++ p' = a ++ (p ++ o) ∧
      (a' ++ (j' ++ (p' ++ t))).length = (a ++ (j ++ (p ++ s))).length ∧
      unescapeLoop fuel (a ++ (j ++ (p ++ s))) (a.length + j.length) a.length =
        unescapeLoop fuel' (a' ++ (j' ++ (p' ++ t))) (a'.length + j'.length) a'.length := by
  induction h with
  | stop =>
    intro a j p fuel hp hf hl
    exact ⟨a, j, p, fuel, hp, hf, by simp, rfl, rfl⟩
  | @plain b s o t hb _ ih =>
    intro a j p fuel hp hf hl
    have := ih a j (p ++ [b]) fuel (by simp [hp]; exact fun h => hb h.symm) (by simpa using hf) (by simpa using hl)
    simpa using this
  | @escape e s out o t he _ ih =>
    intro a j p fuel hp hf hl
    cases fuel with
    | zero => omega
    | succ fuel =>
      obtain ⟨h1, h2, _⟩ := escape_length he
      obtain ⟨j1, hj1, e1⟩ := loop_escape (fuel := fuel) hp he hl
      obtain ⟨a', j', p', fuel', i1, i2, i3, i4, i5⟩ := ih (a ++ (p ++ out)) j1 [] fuel (by simp)
        (by simp at hf ⊢; omega) (by simp at hl ⊢; omega)
      refine ⟨a', j', p', fuel', i1, i2, ?_, ?_, ?_⟩
      · rw [i3]; simp
      · rw [i4]; simp; omega
      · rw [e1, ← i5]; rfl

theorem loop_end {a j p : Str} {fuel : Nat} (hp : 0x5C ∉ p) (hl : (a ++ (j ++ p)).length < SIZE_MOD) :
    ∃ j' : Str, j'.length = j.length ∧ unescapeLoop (fuel + 1) (a ++ (j ++ p)) (a.length + j.length) a.length =
      .ok (a ++ (p ++ j'), (a ++ p).length) := by
  obtain ⟨j', hj', hc⟩ := copy_step a j p []
  refine ⟨j', hj', ?_⟩
  rw [unescapeLoop]
  have e1 : findFirstEscapedChar (a ++ (j ++ p)) (a.length + j.length) =
      .ok ⟨a.length + j.length + p.length, 0⟩ := by
    rw [← List.append_assoc, ← List.length_append, find_none hp]
  rw [e1, bind_ok]
  dsimp only [Subrange.start]
  simp only [List.append_nil] at hc
  rw [hc, bind_ok]
  simp at hl
  have e2 : sizeAdd a.length (sizeSub (a.length + j.length + p.length) (a.length + j.length)) = (a ++ p).length := by
    rw [sizeSub_add _ _ (by omega), sizeAdd_lt (by omega), List.length_append]
  rw [if_pos (by simp [Subrange.nonempty]), e2]

theorem loop_bad {a j p t : Str} {fuel : Nat} (hp : 0x5C ∉ p) (h : Malformed t)
    (hl : (a ++ (j ++ (p ++ t))).length + 12 < SIZE_MOD) :
    unescapeLoop (fuel + 1) (a ++ (j ++ (p ++ t))) (a.length + j.length) a.length = .error .ystring := by
  obtain ⟨v, rfl, hb | ⟨k, hk, hf, hd⟩⟩ := step_bad h
  · rw [unescapeLoop]
    have e1 : findFirstEscapedChar (a ++ (j ++ (p ++ 0x5C :: v))) (a.length + j.length) = .error .ystring := by
      rw [← List.append_assoc, ← List.length_append, find_start hp, hb]
    rw [e1, bind_err]
  · obtain ⟨j', hj', he⟩ := loop_iter (fuel := fuel) (a := a) (j := j) hp hk hf (by omega)
    rw [he, hd _ (by simp at hl ⊢; omega), bind_err]

theorem loop_ub {a j p t : Str} {fuel : Nat} (hp : 0x5C ∉ p) (h : Undefined t) (hfu : 0 < fuel)
    (hl : (a ++ (j ++ (p ++ t))).length + 12 < SIZE_MOD) :
    unescapeLoop (fuel + 1) (a ++ (j ++ (p ++ t))) (a.length + j.length) a.length = .error .ub := by
  obtain ⟨v, k, rfl, hk, hf, hd | ⟨hlt, h10, ch, hd⟩⟩ := step_ub h
  · obtain ⟨j', hj', he⟩ := loop_iter (fuel := fuel) (a := a) (j := j) hp hk hf (by omega)
    rw [he, hd, bind_err]
  · obtain ⟨j', hj', he⟩ := loop_iter (fuel := fuel) (a := a) (j := j) hp hk hf (by omega)
    rw [he, hd, bind_ok]
    dsimp only
    cases hw : writeAt ((a ++ p) ++ (j' ++ 0x5C :: v)) (a ++ p).length (encodeUtf8 ch) with
    | error e =>
      unfold writeAt at hw
      split at hw
      · cases hw
      · cases hw; rw [bind_err]
    | ok b =>
      have hb := writeAt_length hw
      rw [bind_ok]
      obtain ⟨f, rfl⟩ : ∃ f, fuel = f + 1 := ⟨fuel - 1, by omega⟩
      simp at hl hb hlt
      rw [unescapeLoop, find_beyond (by rw [stop_lt (by simp; omega)]; simp; omega), bind_err]

/-! ### The outcome of `unescape` -/

theorem unescapeBuf_ok {s o : Str} (h : Reads Escape s o []) (hl : s.length + 12 < SIZE_MOD) :
    ∃ junk : Str, unescapeBuf s = .ok (o ++ junk, o.length) ∧ o.length + junk.length = s.length := by
  obtain ⟨a', j', p', fuel', i1, i2, i3, i4, i5⟩ := loop_reads h [] [] [] (s.length + 1) (by simp) (by simp)
    (by simpa using hl)
  obtain ⟨f, rfl⟩ : ∃ f, fuel' = f + 1 := ⟨fuel' - 1, by omega⟩
  simp only [List.append_nil, List.nil_append, List.length_nil, Nat.add_zero] at i2 i3 i4 i5
  obtain ⟨j'', hj'', he⟩ := loop_end (a := a') (j := j') (p := p') (fuel := f) i1 (by omega)
  refine ⟨j'', ?_, ?_⟩
  · unfold unescapeBuf
    rw [i5, he, ← i3]
    simp
  · rw [← i4, ← i3]; simp; omega

theorem unescape_of_buf_ok {s o junk : Str} (h : unescapeBuf s = .ok (o ++ junk, o.length)) :
    unescape s = .ok o := by
  unfold unescape
  rw [h, bind_ok]
  dsimp only [resize]
  rw [List.take_left]
  simp

theorem unescapeBuf_bad {s o t : Str} (h : Reads Escape s o t) (ht : Malformed t) (hl : s.length + 12 < SIZE_MOD) :
    unescapeBuf s = .error .ystring := by
  obtain ⟨a', j', p', fuel', i1, i2, i3, i4, i5⟩ := loop_reads h [] [] [] (s.length + 1) (by simp) (by simp)
    (by simpa using hl)
  obtain ⟨f, rfl⟩ : ∃ f, fuel' = f + 1 := ⟨fuel' - 1, by omega⟩
  simp only [List.nil_append, List.length_nil, Nat.add_zero] at i4 i5
  unfold unescapeBuf
  rw [i5, loop_bad i1 ht (by omega)]

theorem undefined_length {t : Str} (h : Undefined t) : 2 ≤ t.length := by
  cases h <;> simp <;> omega

theorem unescapeBuf_ub {s o t : Str} (h : Reads Escape s o t) (ht : Undefined t) (hl : s.length + 12 < SIZE_MOD) :
    unescapeBuf s = .error .ub := by
  obtain ⟨a', j', p', fuel', i1, i2, i3, i4, i5⟩ := loop_reads h [] [] [] (s.length + 1) (by simp) (by simp)
    (by simpa using hl)
  have := undefined_length ht
  obtain ⟨f, rfl⟩ : ∃ f, fuel' = f + 1 := ⟨fuel' - 1, by omega⟩
  simp only [List.nil_append, List.length_nil, Nat.add_zero] at i4 i5
  unfold unescapeBuf
  rw [i5, loop_ub i1 ht (by simp at i2; omega) (by omega)]

/-- Every string is read up to its end, a malformed or an undefined place. -/
theorem reads_cases : ∀ (n : Nat) (s : Str), s.length ≤ n → ∃ o t, Reads Escape s o t ∧
    (t = [] ∨ Malformed t ∨ Undefined t)
  | _, [], _ => ⟨[], [], .stop, .inl rfl⟩
  | 0, b :: s, h => by simp at h
  | n + 1, b :: s, h => by
    by_cases hb : b = 0x5C
    · subst hb
      rcases step_cases s with ⟨e, s', out, he, hx⟩ | hm | hu
      · obtain ⟨h1, h2, _⟩ := escape_length hx
        have hl := congrArg List.length he
        simp at hl h
        obtain ⟨o, t, hr, ht⟩ := reads_cases n s' (by omega)
        exact ⟨out ++ o, t, he ▸ .escape hx hr, ht⟩
      · exact ⟨[], _, .stop, .inr (.inl hm)⟩
      · exact ⟨[], _, .stop, .inr (.inr hu)⟩
    · obtain ⟨o, t, hr, ht⟩ := reads_cases n s (by simpa using h)
      exact ⟨b :: o, t, .plain hb hr, ht⟩

end Ystring
