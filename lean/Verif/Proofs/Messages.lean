import Verif.Model.Messages
import Verif.Proofs.UnescapeLoop
import Verif.Proofs.UnescapeNext
/-
Lemmas for C96: the texts of the exceptions.
-/
namespace Ystring
open Spec
namespace Msg

/-- The outcome without the text. -/
def forget {α : Type} : MRes α → Res α
  | .ok x => .ok x
  | .error (.thrown _) => .error .ystring
  | .error (.other e) => .error e

theorem forget_ok {α : Type} {m : MRes α} {x : α} (h : forget m = .ok x) : m = .ok x := by
  cases m with
  | ok y => cases h; rfl
  | error e => cases e <;> cases h

theorem forget_bind {α β : Type} (m : MRes α) (f : α → MRes β) : forget (m >>= f) = (forget m >>= fun x => forget (f x)) := by
  cases m with
  | ok y => rfl
  | error e => cases e <;> rfl

theorem forget_lift {α : Type} (t : Str) (r : Res α) : forget (lift t r) = r := by
  cases r with
  | ok y => rfl
  | error e => cases e <;> rfl

theorem lift_ok {α : Type} {t : Str} (x : α) : lift t (.ok x) = .ok x := rfl

theorem mbind_ok {α β : Type} (x : α) (f : α → MRes β) : ((Except.ok x : MRes α) >>= f) = f x := rfl

theorem mbind_err {α β : Type} (e : MErr) (f : α → MRes β) : ((Except.error e : MRes α) >>= f) = .error e := rfl

theorem forget_ite {α : Type} (p : Prop) [Decidable p] (a b : MRes α) : forget (if p then a else b) = if p then forget a else forget b := by
  split <;> rfl

theorem same_check (a b c : Nat) : forget (checkLength a b c) = Ystring.checkLength a b c := by
  unfold checkLength Ystring.checkLength
  rw [forget_ite]; rfl

theorem same_find (s : Str) (off : Nat) : forget (findFirstEscapedChar s off) = Ystring.findFirstEscapedChar s off := by
  unfold findFirstEscapedChar Ystring.findFirstEscapedChar
  rw [forget_ite]
  congr 1
  simp only
  rw [forget_ite]
  congr 1
  generalize off + stdFindIf _ _ = start
  cases s[start + 1]? with
  | none => rfl
  | some c =>
    simp only [forget_ite, same_check]
    rfl

theorem same_has (s : Str) : forget (hasEscapedChars s) = Ystring.hasEscapedChars s := by
  unfold hasEscapedChars Ystring.hasEscapedChars
  rw [forget_bind, same_find]; rfl

theorem same_parse (k b : Nat) (s : Str) : forget (parseEscaped k b s) = Ystring.parseEscaped k b s := forget_lift _ _

theorem same_utf16 (s : Str) (sub : Subrange) : forget (parseUtf16 s sub) = Ystring.parseUtf16 s sub := by
  unfold parseUtf16 Ystring.parseUtf16
  simp only [forget_bind, forget_lift, same_parse, forget_ite, same_find]
  rfl

theorem same_decode (s : Str) (sub : Subrange) : forget (decodeEscaped s sub) = Ystring.decodeEscaped s sub := by
  unfold decodeEscaped Ystring.decodeEscaped
  simp only [forget_bind, forget_lift, same_parse, forget_ite, same_utf16]
  rfl

theorem same_loop (fuel : Nat) : ∀ (b : Str) (f t : Nat), forget (unescapeLoop fuel b f t) = Ystring.unescapeLoop fuel b f t := by
  induction fuel with
  | zero => intros; rfl
  | succ n ih =>
    intro b f t
    rw [unescapeLoop, Ystring.unescapeLoop]
    simp only [forget_bind, forget_lift, forget_ite, same_find, same_decode, ih]
    rfl

theorem same_unescape (s : Str) : forget (unescape s) = Ystring.unescape s := by
  unfold unescape Ystring.unescape unescapeBuf
  simp only [forget_bind, same_loop]
  rfl

theorem same_hex (s : Str) (a b : Nat) : forget (extractHexChar s a b) = Ystring.extractHexChar s a b := by
  unfold extractHexChar Ystring.extractHexChar
  simp only
  generalize fromChars 16 _ = r
  obtain ⟨n, v⟩ := r
  rw [forget_ite]
  congr 1
  cases v <;> rfl

theorem same_ext16 (s : Str) : forget (extractUtf16Char s) = Ystring.extractUtf16Char s := by
  unfold extractUtf16Char Ystring.extractUtf16Char
  simp only [forget_bind, forget_lift, forget_ite, same_hex]
  rfl

theorem same_switch (b : UInt8) (s : Str) : forget (unescapeSwitch b s) = Ystring.unescapeSwitch b s := by
  unfold unescapeSwitch Ystring.unescapeSwitch extractOctChar popUtf8Codepoint
  simp only [forget_bind, forget_lift, forget_ite, same_hex, same_ext16]
  rfl

theorem forget_map {α β : Type} (m : MRes α) (f : α → β) : forget (m.map f) = (forget m).map f := by
  cases m with
  | ok y => rfl
  | error e => cases e <;> rfl

theorem same_next (s : Str) : forget (unescapeNext s) = (Ystring.unescapeNext s).result := by
  unfold unescapeNext Ystring.unescapeNext
  cases skipEscapedNewlines s with
  | nil => rfl
  | cons b t =>
    simp only
    by_cases hb : b ≠ 0x5C
    · rw [if_pos hb, if_pos hb, forget_map]
      unfold popUtf8Codepoint
      rw [forget_lift]
      cases Ystring.popUtf8Codepoint (b :: t) <;> rfl
    · rw [if_neg hb, if_neg hb]
      cases t with
      | nil => rfl
      | cons c t =>
        simp only
        rw [forget_map, same_switch]
        cases Ystring.unescapeSwitch c t <;> rfl

theorem same_append (s : Str) (c : Char32) : forget (append s c) = Ystring.append s c := forget_lift _ _

theorem same_replace (s : Str) (a b : Char32) (n : Int) : forget (replaceCodepoint s a b n) = Ystring.replaceCodepoint s a b n := by
  unfold replaceCodepoint Ystring.replaceCodepoint
  simp only [forget_ite, forget_lift]
  rfl

/-! ### Numbers -/

theorem ascii_append (a b : String) : ascii (a ++ b) = ascii a ++ ascii b := by
  unfold ascii
  rw [String.toList_append, List.map_append]

theorem printSize_toString (n : Nat) : printSize n = ascii (toString n) := by
  induction n using printSize.induct with
  | case1 n h =>
    rw [printSize, if_pos h]
    unfold ascii
    rw [Nat.toString_eq_repr, Nat.toList_repr, Nat.toDigits_of_lt_base h, List.map_singleton, Nat.toNat_digitChar_of_lt_ten h]
  | case2 n h ih =>
    rw [printSize, if_neg h, ih]
    unfold ascii
    rw [Nat.toString_eq_repr, Nat.toString_eq_repr, Nat.toList_repr, Nat.toList_repr, Nat.toDigits_of_base_le (n := n) (by omega) (by omega),
      List.map_append, List.map_singleton, Nat.toNat_digitChar_of_lt_ten (by omega)]

/-! ### find_first_escaped_char -/

/-- The text for a backslash at offset `n` that starts no escape sequence; `v` are the bytes behind it. -/
def badText (n : Nat) (v : Str) : Str :=
  ascii ((if v = [] then "Incomplete" else "Invalid") ++ " escape sequence at offset " ++ toString n)

theorem badText_nil (n : Nat) : badText n [] = ascii "Incomplete escape sequence at offset " ++ printSize n := by
  unfold badText
  rw [if_pos rfl, ascii_append, printSize_toString]
  rfl

theorem badText_cons (n : Nat) (c : UInt8) (v : Str) : badText n (c :: v) = ascii "Invalid escape sequence at offset " ++ printSize n := by
  unfold badText
  rw [if_neg (by simp), ascii_append, printSize_toString]
  rfl

theorem find_text {w p v : Str} (hp : 0x5C ∉ p) (hb : BadStart (0x5C :: v)) :
    findFirstEscapedChar (w ++ (p ++ 0x5C :: v)) w.length = .error (.thrown (badText (w.length + p.length) v)) := by
  have hs := same_find (w ++ (p ++ 0x5C :: v)) w.length
  rw [find_start hp, after_bad hb] at hs
  unfold findFirstEscapedChar at hs ⊢
  rw [if_neg (by simp), List.drop_left,
    stdFindIf_first (by simp) (fun x hx => by simp; intro e; exact hp (e ▸ hx))] at hs ⊢
  simp only at hs ⊢
  rw [if_neg (by simp)] at hs ⊢
  have : (w ++ (p ++ 0x5C :: v))[w.length + p.length + 1]? = v[0]? := by
    rw [List.getElem?_append_right (by omega), List.getElem?_append_right (by omega)]
    rw [show w.length + p.length + 1 - w.length - p.length = 1 by omega]
    simp
  rw [this] at hs ⊢
  cases v with
  | nil => rw [badText_nil]; rfl
  | cons c u =>
    rw [badText_cons]
    simp only [List.getElem?_cons_zero] at hs ⊢
    generalize findEndOfHexSequence _ _ _ = e1 at *
    have hk : ∀ a b n, forget (checkLength a b n) = .error .ystring → checkLength a b n = .error (invalidAt a) := by
      intro a b n h
      unfold checkLength at h ⊢
      split at h
      · rename_i h'; rw [if_pos h']
      · cases h
    split at hs
    · rename_i h; rw [if_pos h]; exact hk _ _ _ hs
    · rename_i h; rw [if_neg h]
      split at hs
      · rename_i h; rw [if_pos h]; exact hk _ _ _ hs
      · rename_i h; rw [if_neg h]
        split at hs
        · rename_i h; rw [if_pos h]; exact hk _ _ _ hs
        · rename_i h; rw [if_neg h]
          split at hs
          · rename_i h; rw [if_pos h]; exact hk _ _ _ hs
          · rename_i h; rw [if_neg h]
            split at hs
            · cases hs
            · rename_i h; rw [if_neg h]; rfl

/-! ### The loop of unescape -/

theorem loop_iter {fuel : Nat} {a j p v : Str} {k : Nat} (hp : 0x5C ∉ p)
    (hk : k ≠ 0) (hf : ∀ q, afterBackslash q v = .ok ⟨q.length, k⟩)
    (hl : (a ++ (j ++ (p ++ 0x5C :: v))).length < SIZE_MOD) :
    ∃ j' : Str, j'.length = j.length ∧
      unescapeLoop (fuel + 1) (a ++ (j ++ (p ++ 0x5C :: v))) (a.length + j.length) a.length = (do
        let (ch, sub) ← decodeEscaped ((a ++ (p ++ j')) ++ 0x5C :: v) ⟨(a ++ (p ++ j')).length, k⟩
        let buf ← lift [] (writeAt ((a ++ p) ++ (j' ++ 0x5C :: v)) (a ++ p).length (encodeUtf8 ch))
        unescapeLoop fuel buf sub.stop (sizeAdd (a ++ p).length (encodeUtf8Ret ch))) := by
  obtain ⟨j', hj', hc⟩ := copy_step a j p (0x5C :: v)
  refine ⟨j', hj', ?_⟩
  rw [unescapeLoop]
  have e0 : a ++ (j ++ (p ++ 0x5C :: v)) = (a ++ j) ++ (p ++ 0x5C :: v) := by simp
  have e1 : findFirstEscapedChar (a ++ (j ++ (p ++ 0x5C :: v))) (a.length + j.length) =
      .ok ⟨a.length + j.length + p.length, k⟩ := by
    apply forget_ok
    rw [same_find, e0, ← List.length_append, find_start hp, hf]
    simp [Nat.add_assoc]
  rw [e1, mbind_ok]
  dsimp only [Subrange.start]
  rw [hc, lift_ok, mbind_ok]
  simp at hl
  rw [if_neg (by simp [Subrange.nonempty, hk]), sizeSub_add _ _ (by omega), sizeAdd_lt (by omega)]
  have e2 : a ++ (p ++ (j' ++ 0x5C :: v)) = (a ++ (p ++ j')) ++ 0x5C :: v := by simp
  have e3 : a.length + j.length + p.length = (a ++ (p ++ j')).length := by simp; omega
  have e4 : a ++ (p ++ (j' ++ 0x5C :: v)) = (a ++ p) ++ (j' ++ 0x5C :: v) := by simp
  have e5 : a.length + p.length = (a ++ p).length := by simp
  rw [e3, e5]
  simp only [← e2, ← e4]

theorem loop_escape {fuel : Nat} {a j p e s out : Str} (hp : 0x5C ∉ p) (h : Escape e s out)
    (hl : (a ++ (j ++ (p ++ (e ++ s)))).length + 12 < SIZE_MOD) :
    ∃ j' : Str, j'.length + out.length = j.length + e.length ∧
      unescapeLoop (fuel + 1) (a ++ (j ++ (p ++ (e ++ s)))) (a.length + j.length) a.length =
        unescapeLoop fuel ((a ++ (p ++ out)) ++ (j' ++ s)) ((a ++ (p ++ out)).length + j'.length) (a ++ (p ++ out)).length := by
  obtain ⟨h1, h2, _⟩ := escape_length h
  obtain ⟨v, k, ch, hv, hk, hf, hd, ho⟩ := step_ok h
  rw [hv] at hl ⊢
  obtain ⟨j', hj', he⟩ := loop_iter (fuel := fuel) (a := a) (j := j) hp hk hf (by omega)
  rw [he, ← hv]
  have hl' := congrArg List.length hv
  simp at hl hl'
  rw [forget_ok ((same_decode _ _).trans (hd (a ++ (p ++ j')) (by simp; omega))), mbind_ok]
  dsimp only
  rw [ho, writeAt_append (by simp; omega), lift_ok, mbind_ok]
  refine ⟨(j' ++ e).drop out.length, by simp; omega, ?_⟩
  have e1 : (j' ++ (e ++ s)).drop out.length = (j' ++ e).drop out.length ++ s := by
    rw [← List.append_assoc, List.drop_append_of_le_length (by simp; omega)]
  have hr : encodeUtf8Ret ch = out.length := by rw [← ho, encodeUtf8_length]; rfl
  rw [e1, hr, stop_lt (by simp; omega), sizeAdd_lt (by simp; omega)]
  congr 1
  · simp
  · simp; omega
  · simp; omega

theorem loop_reads {s o t : Str} (h : Reads Escape s o t) : ∀ (a j p : Str) (fuel : Nat), 0x5C ∉ p →
    (p ++ s).length < fuel → (a ++ (j ++ (p ++ s))).length + 12 < SIZE_MOD →
    ∃ a' j' p' fuel', 0x5C ∉ p' ∧ (p' ++ t).length < fuel' ∧
      (a' ++ (j' ++ (p' ++ t))).length = (a ++ (j ++ (p ++ s))).length ∧
      unescapeLoop fuel (a ++ (j ++ (p ++ s))) (a.length + j.length) a.length =
        unescapeLoop fuel' (a' ++ (j' ++ (p' ++ t))) (a'.length + j'.length) a'.length := by
  induction h with
  | stop =>
    intro a j p fuel hp hf hl
    exact ⟨a, j, p, fuel, hp, hf, rfl, rfl⟩
  | @plain b s o t hb _ ih =>
    intro a j p fuel hp hf hl
    have := ih a j (p ++ [b]) fuel (by simp [hp]; exact fun h => hb h.symm) (by simpa using hf) (by simpa using hl)
    simpa using this
  | @escape e s out o t he _ ih =>
    intro a j p fuel hp hf hl
    cases fuel with
    | zero => omega
    | succ fuel =>
      obtain ⟨h1, h2, _⟩ := escape_length he
      obtain ⟨j1, hj1, e1⟩ := loop_escape (fuel := fuel) hp he hl
      obtain ⟨a', j', p', fuel', i1, i2, i4, i5⟩ := ih (a ++ (p ++ out)) j1 [] fuel (by simp)
        (by simp at hf ⊢; omega) (by simp at hl ⊢; omega)
      refine ⟨a', j', p', fuel', i1, i2, ?_, ?_⟩
      · rw [i4]; simp; omega
      · rw [e1, ← i5]; rfl

/-- The text when nothing but the first backslash of `t` is wrong. -/
theorem unescape_text {s o v : Str} (h : Reads Escape s o (0x5C :: v)) (hb : BadStart (0x5C :: v)) (hl : s.length + 12 < SIZE_MOD) :
    unescape s = .error (.thrown (badText (s.length - (0x5C :: v : Str).length) v)) := by
  obtain ⟨a', j', p', fuel', i1, i2, i4, i5⟩ := loop_reads h [] [] [] (s.length + 1) (by simp) (by simp)
    (by simpa using hl)
  obtain ⟨f, rfl⟩ : ∃ f, fuel' = f + 1 := ⟨fuel' - 1, by omega⟩
  simp only [List.nil_append, List.length_nil, Nat.add_zero] at i4 i5
  unfold unescape
  rw [i5, unescapeLoop, ← List.append_assoc, ← List.length_append, find_text i1 hb, mbind_err, mbind_err]
  congr 3
  simp at i4 ⊢
  omega

/-- The text when the decoding of the sequence throws. -/
theorem unescape_decode_text {s o v m : Str} {k : Nat} (h : Reads Escape s o (0x5C :: v)) (hl : s.length + 12 < SIZE_MOD)
    (hk : k ≠ 0) (hf : ∀ q, afterBackslash q v = .ok ⟨q.length, k⟩)
    (hd : ∀ q : Str, q.length + 12 < SIZE_MOD → decodeEscaped (q ++ 0x5C :: v) ⟨q.length, k⟩ = .error (.thrown m)) :
    unescape s = .error (.thrown m) := by
  obtain ⟨a', j', p', fuel', i1, i2, i4, i5⟩ := loop_reads h [] [] [] (s.length + 1) (by simp) (by simp)
    (by simpa using hl)
  obtain ⟨f, rfl⟩ : ∃ f, fuel' = f + 1 := ⟨fuel' - 1, by omega⟩
  simp only [List.nil_append, List.length_nil, Nat.add_zero] at i4 i5
  obtain ⟨j2, hj2, he⟩ := loop_iter (fuel := f) (a := a') (j := j') i1 hk hf (by omega)
  unfold unescape
  rw [i5, he, hd _ (by simp at i4 ⊢; omega)]
  rfl

theorem decode_u {q v : Str} {k : Nat} : decodeEscaped (q ++ 0x5C :: 0x75 :: v) ⟨q.length, k⟩ =
    parseUtf16 (q ++ 0x5C :: 0x75 :: v) ⟨q.length, k⟩ := by
  unfold decodeEscaped
  simp only [Subrange.start]
  rw [charAt_after, lift_ok, mbind_ok, if_neg (by decide), if_pos (by decide)]

theorem unescape_nodigit_text {s o : Str} {l : UInt8} (h : Reads Escape s o [0x5C, l]) (hl : l = 0x75 ∨ l = 0x55)
    (hs : s.length + 12 < SIZE_MOD) :
    unescape s = .error (.thrown (ascii "Cannot parse escaped char: " ++ [0x5C, l])) := by
  rcases hl with rfl | rfl
  · refine unescape_decode_text (k := 6) h hs (by omega) (fun q => after_u (ds := []) (by simp) (by simp)) ?_
    intro q _
    rw [decode_u]
    unfold parseUtf16
    rw [substr_after]
    rfl
  · refine unescape_decode_text (k := 10) h hs (by omega) (fun q => after_U (ds := []) (by simp) (by simp)) ?_
    intro q _
    unfold decodeEscaped
    simp only [Subrange.start]
    rw [charAt_after, lift_ok, mbind_ok, if_pos (by decide), substr_after]
    rfl

theorem unescape_high_text {s o ds t : Str} (h : Reads Escape s o (0x5C :: 0x75 :: (ds ++ t))) (h4 : ds.length = 4)
    (hd : ∀ d ∈ ds, IsHex d) (hh : HighSurrogate (number 16 ds)) (hs : s.length + 12 < SIZE_MOD) (m : Str)
    (hm : findFirstEscapedChar (t.take 6) = .error (.thrown m) ∨
      (t = [0x5C, 0x75] ∧ m = ascii "Cannot parse escaped char: " ++ [0x5C, 0x75])) :
    unescape s = .error (.thrown m) := by
  refine unescape_decode_text (k := 6) h hs (by omega) (fun q => after_u hd (.inl h4)) ?_
  intro q hq
  have hv := hex_lt32 hd (by omega)
  have e : (0x5C :: 0x75 :: (ds ++ t)).take 6 = 0x5C :: 0x75 :: ds := take_seq (by omega)
  have e2 : q ++ 0x5C :: 0x75 :: (ds ++ t) = (q ++ 0x5C :: 0x75 :: ds) ++ t := by simp
  have e3 : (q ++ 0x5C :: 0x75 :: ds).length = q.length + 6 := by simp; omega
  have e4 : substr (q ++ 0x5C :: 0x75 :: (ds ++ t)) (q.length + 6) 6 = .ok (t.take 6) := by
    rw [e2, ← e3]; exact substr_after
  have e5 : charAt (q ++ 0x5C :: 0x75 :: (ds ++ t)) (q.length + 6 + 1) = charAt t 1 := by
    rw [e2, ← e3]; unfold charAt; rw [List.getElem?_append_right (by omega), Nat.add_sub_cancel_left]
  rw [decode_u]
  unfold parseUtf16
  simp only [stop_lt (show q.length + 6 < SIZE_MOD by omega)]
  rw [substr_after, e, lift_ok, mbind_ok, forget_ok ((same_parse 2 16 _).trans
    (parseEscapedHexChar_ok hd (by intro e; simp [e] at h4) hv)), mbind_ok, if_neg (by rw [not_high hv]; exact not_not_intro hh),
    e4, e5, lift_ok, mbind_ok]
  rcases hm with hm | ⟨rfl, rfl⟩
  · rw [hm]; rfl
  · have e1 : findFirstEscapedChar (List.take 6 [0x5C, 0x75]) = .ok ⟨0, 6⟩ := by decide +kernel
    rw [e1]
    rfl

end Msg
end Ystring
