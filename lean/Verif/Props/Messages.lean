import Verif.Spec.Messages
import Verif.Proofs.Messages
import Verif.Props.UnescapeNext
import Verif.Props.Case
/-
Property theorems C96: the texts of the exceptions.

`Msg.f` is `f` with the text of the exception, behind the name of the source file and the line number: `.error (.thrown m)`.
-/
namespace Ystring
open Spec

/-- The outcome without the text of the exception. -/
def withoutText {α : Type} : Msg.MRes α → Res α
  | .ok x => .ok x
  | .error (.thrown _) => .error .ystring
  | .error (.other e) => .error e

theorem withoutText_eq {α : Type} (m : Msg.MRes α) : withoutText m = Msg.forget m := by
  cases m with
  | ok y => rfl
  | error e => cases e <;> rfl

/-- C96: but for the text, the outcome is that of the functions all other theorems are about. -/
theorem C96_same (s : Str) (off : Nat) (c d : Char32) (n : Int) :
    withoutText (Msg.findFirstEscapedChar s off) = findFirstEscapedChar s off ∧
    withoutText (Msg.hasEscapedChars s) = hasEscapedChars s ∧
    withoutText (Msg.unescape s) = unescape s ∧
    withoutText (Msg.unescapeNext s) = (unescapeNext s).result ∧
    withoutText (Msg.append s c) = append s c ∧
    withoutText (Msg.replaceCodepoint s c d n) = replaceCodepoint s c d n := by
  simp only [withoutText_eq]
  exact ⟨Msg.same_find s off, Msg.same_has s, Msg.same_unescape s, Msg.same_next s, Msg.same_append s c, Msg.same_replace s c d n⟩

theorem badText_eq (n : Nat) (v : Str) : Msg.badText n v = ascii (badBackslash n v) := rfl

theorem badStart_cons {t : Str} (h : BadStart t) : ∃ v, t = 0x5C :: v := by
  cases h <;> exact ⟨_, rfl⟩

/-- C96: `find_first_escaped_char` names the offset of the first backslash at or after `offset`, if it starts no escape
sequence. -/
theorem C96_find (w p v : Str) (hp : 0x5C ∉ p) (hb : BadStart (0x5C :: v)) :
    Msg.findFirstEscapedChar (w ++ (p ++ 0x5C :: v)) w.length =
      .error (.thrown (ascii (badBackslash (w.length + p.length) v))) :=
  Msg.find_text hp hb

/-- C96: `has_escaped_chars` names the offset of the first backslash, if it starts no escape sequence. -/
theorem C96_has (p v : Str) (hp : 0x5C ∉ p) (hb : BadStart (0x5C :: v)) :
    Msg.hasEscapedChars (p ++ 0x5C :: v) = .error (.thrown (ascii (badBackslash p.length v))) := by
  have := Msg.find_text (w := []) hp hb
  simp only [List.nil_append, List.length_nil, Nat.zero_add] at this
  unfold Msg.hasEscapedChars
  rw [this]
  rfl

/-- C96, in the case that a backslash starts no escape sequence: `unescape` names its offset in the string that was passed,
although the bytes in front of it have been moved. (Full claim: the text names the offset in all cases. It does not when the
error is found behind a high surrogate or when the string ends in `\u` or `\U`: `C96_unescape_exact`, `C96_false`.) -/
theorem C96_unescape_partial (s o v : Str) (h : Fits s) (hr : Reads Escape s o (0x5C :: v)) (hb : BadStart (0x5C :: v)) :
    ∃ p, s = p ++ 0x5C :: v ∧ Msg.unescape s = .error (.thrown (ascii (badBackslash p.length v))) := by
  have hsuf : ∀ {E : Str → Str → Str → Prop} {s o t : Str}, Reads E s o t → ∃ p, s = p ++ t := by
    intro E s o t h
    induction h with
    | stop => exact ⟨[], rfl⟩
    | plain _ _ ih => obtain ⟨p, rfl⟩ := ih; exact ⟨_ :: p, rfl⟩
    | @escape e _ _ _ _ _ _ ih => obtain ⟨p, rfl⟩ := ih; exact ⟨e ++ p, by simp⟩
  obtain ⟨p, hp⟩ := hsuf hr
  refine ⟨p, hp, ?_⟩
  have hl : s.length + 12 < SIZE_MOD := by unfold Fits PTRDIFF_MAX at h; unfold SIZE_MOD; omega
  rw [Msg.unescape_text hr hb hl, badText_eq, hp, List.length_append, Nat.add_sub_cancel]

/-- C96: the text in all cases. -/
theorem C96_unescape_exact (s : Str) (h : Fits s) (he : unescape s = .error .ystring) :
    ∃ o t m, Reads Escape s o t ∧ UnescapeText (s.length - t.length) t m ∧ Msg.unescape s = .error (.thrown (ascii m)) := by
  have hl : s.length + 12 < SIZE_MOD := by unfold Fits PTRDIFF_MAX at h; unfold SIZE_MOD; omega
  obtain ⟨o, t, hr, ⟨rfl, h1, _⟩ | ⟨hm, _⟩ | ⟨_, h1⟩⟩ := C58_exact s h
  · rw [he] at h1; cases h1
  · cases hm with
    | bad hb =>
      obtain ⟨v, rfl⟩ := badStart_cons hb
      exact ⟨o, _, _, hr, .start hb, Msg.unescape_text hr hb hl⟩
    | noDigit hll =>
      have := Msg.unescape_nodigit_text hr hll hl
      rcases hll with rfl | rfl
      · exact ⟨o, _, _, hr, .short, this⟩
      · exact ⟨o, _, _, hr, .long, this⟩
    | @high ds t h4 hd hs hb =>
      rcases hb with rfl | ⟨p, w, e, hp, hw⟩
      · exact ⟨o, _, _, hr, .secondShort h4 hd hs, Msg.unescape_high_text hr h4 hd hs hl _ (.inr ⟨rfl, rfl⟩)⟩
      · obtain ⟨v, rfl⟩ := badStart_cons hw
        refine ⟨o, _, _, hr, .second h4 hd hs e hp hw, Msg.unescape_high_text hr h4 hd hs hl _ (.inl ?_)⟩
        have := Msg.find_text (w := []) hp hw
        simp only [List.nil_append, List.length_nil, Nat.zero_add] at this
        rw [e, this]
        rfl
  · rw [he] at h1; cases h1

/-- C96 is false of `unescape` in general: the backslash at the end of `\uD800abc\`, at offset 9, is reported at offset 3; in
`\uD800abcde\n` nothing is malformed, but an incomplete sequence at offset 5 is reported; and for `ab\u` there is no offset. -/
theorem C96_false :
    Msg.unescape (ascii "\\uD800abc\\") = .error (.thrown (ascii "Incomplete escape sequence at offset 3")) ∧
    Msg.unescape (ascii "\\uD800abcde\\n") = .error (.thrown (ascii "Incomplete escape sequence at offset 5")) ∧
    Msg.unescape (ascii "ab\\u") = .error (.thrown (ascii "Cannot parse escaped char: \\u")) := by
  decide +kernel

/-- The hypotheses are met: `\n` has been replaced in front of the backslash. -/
example : Msg.unescape (ascii "a\\nb\\xg") = .error (.thrown (ascii "Invalid escape sequence at offset 4")) ∧
    Reads Escape (ascii "a\\nb\\xg") (ascii "a\nb") (ascii "\\xg") ∧ BadStart (ascii "\\xg") := by
  refine ⟨by decide +kernel, ?_, ?_⟩
  · exact .plain (by decide) (.escape (e := [0x5C, 0x6E]) (out := [0x0A]) (.letter (by decide)) (.plain (by decide) .stop))
  · exact .hex (l := 0x78) (ds := []) (t := [0x67]) (.inl rfl) (by simp) (by simp) (by
      intro b t e; injection e with e _; subst e; decide)

/-! ### unescape_next -/

/-- C96: `unescape_next` tells what is wrong. -/
theorem C96_next (s r : Str) (m : String) (h : DropsNewlines s r) (hm : NextText r m) :
    Msg.unescapeNext s = .error (.thrown (ascii m)) := by
  unfold Msg.unescapeNext
  rw [skip_spec h]
  have hhex : ∀ (ds t : Str) (mn mx : Nat), (∀ d ∈ ds, IsHex d) → ds.length < mn → mn ≤ mx → mx ≤ 8 → NoHexAhead t →
      Msg.extractHexChar (ds ++ t) mn mx = .error (.thrown (ascii (tooFewDigits mn ds.length))) := by
    intro ds t mn mx hd hlt hmm h8 ht
    have hs := Msg.same_hex (ds ++ t) mn mx
    rw [extractHex_spec hd (by omega) h8 (by omega) (fun _ => ht), if_pos hlt] at hs
    have e : ∃ t', (ds ++ t).take (if mx > (ds ++ t).length then (ds ++ t).length else mx) = ds ++ t' ∧ NoHexAhead t' := by
      refine ⟨t.take ((if mx > (ds ++ t).length then (ds ++ t).length else mx) - ds.length), ?_, ?_⟩
      · rw [List.take_append, List.take_of_length_le (by split; (simp); omega)]
      · intro b t' e
        cases t with
        | nil => simp at e
        | cons c t =>
          refine ht b t ?_
          generalize (if mx > (ds ++ c :: t).length then (ds ++ c :: t).length else mx) - ds.length = n at e
          cases n with
          | zero => simp at e
          | succ n => simp at e; rw [e.1]
    obtain ⟨t', e, ht'⟩ := e
    unfold Msg.extractHexChar
    simp only [e]
    rw [fromChars_hex hd ht']
    simp only
    rw [if_pos hlt]
    unfold Msg.tooFew tooFewDigits
    simp only [Msg.ascii_append, Msg.printSize_toString]
  have h16 : ∀ (ds t : Str), (∀ d ∈ ds, IsHex d) → ds.length < 4 → NoHexAhead t →
      Msg.extractUtf16Char (ds ++ t) = .error (.thrown (ascii (tooFewDigits 4 ds.length))) := by
    intro ds t hd hlt ht
    unfold Msg.extractUtf16Char
    rw [hhex ds t 4 4 hd hlt (by omega) (by omega) ht]
    rfl
  have hpop : ∀ (b : UInt8) (t : Str), ¬ HasSeqPrefix (b :: t) →
      Msg.popUtf8Codepoint (b :: t) = .error (.thrown (ascii "Invalid UTF-8 string.")) := by
    intro b t hn
    unfold Msg.popUtf8Codepoint
    rw [pop_bad (by simp) hn]
    rfl
  cases hm with
  | alone => rfl
  | @hex l t hl ht =>
    have := hhex [] t 1 8 (by simp) (by simp) (by omega) (by omega) ht
    rw [List.nil_append] at this
    simp only
    rw [if_neg (by simp)]
    unfold Msg.unescapeSwitch
    rcases hl with rfl | rfl <;>
    · simp (decide := true) only [if_neg, if_pos]
      rw [this]
      rfl
  | @short ds t h4 hd ht =>
    simp only
    rw [if_neg (by simp)]
    unfold Msg.unescapeSwitch
    simp (decide := true) only [if_neg, if_pos]
    rw [h16 ds t hd h4 ht]
    rfl
  | @long ds t h8 hd ht =>
    simp only
    rw [if_neg (by simp)]
    unfold Msg.unescapeSwitch
    simp (decide := true) only [if_neg, if_pos]
    rw [hhex ds t 8 8 hd h8 (by omega) (by omega) ht]
    rfl
  | @second ds es w t b h4 hd hs he hb hw =>
    simp only
    rw [if_neg (by simp)]
    unfold Msg.unescapeSwitch
    simp (decide := true) only [if_neg, if_pos]
    have e0 : Msg.extractHexChar (ds ++ 0x5C :: 0x75 :: (es ++ b :: (w ++ t))) 4 4 =
        .ok (UInt32.ofNat (number 16 ds), 0x5C :: 0x75 :: (es ++ b :: (w ++ t))) := by
      apply Msg.forget_ok
      rw [Msg.same_hex, extractHex_spec hd (by omega) (by omega) (by omega) (by omega), if_neg (by omega)]
    have e1 : (0x5C :: 0x75 :: (es ++ b :: (w ++ t))).take 6 = 0x5C :: 0x75 :: (es ++ b :: w) := by
      have := take_seq (l := 0x75) (ds := es ++ b :: w) (t := t) (k := 6) (by simp; omega)
      simpa using this
    have e2 : Msg.extractUtf16Char (ds ++ 0x5C :: 0x75 :: (es ++ b :: (w ++ t))) =
        .error (.thrown (ascii (tooFewDigits 4 es.length))) := by
      unfold Msg.extractUtf16Char
      rw [e0, Msg.mbind_ok]
      simp only
      rw [if_neg (by rw [not_high (hex_lt32 hd (by omega))]; exact not_not_intro hs), substr0, e1, Msg.lift_ok, Msg.mbind_ok,
        if_neg (by simp; omega)]
      have e3 : charAt (0x5C :: 0x75 :: (es ++ b :: w)) 0 = .ok 0x5C := rfl
      have e4 : charAt (0x5C :: 0x75 :: (es ++ b :: w)) 1 = .ok 0x75 := rfl
      rw [e3, e4, Msg.lift_ok, Msg.mbind_ok, Msg.lift_ok, Msg.mbind_ok, if_neg (by simp)]
      simp only [List.drop_succ_cons, List.drop_zero]
      rw [hhex es (b :: w) 4 4 he (by omega) (by omega) (by omega) (by
        intro c u e; injection e with e _; subst e; exact hb)]
      rfl
    rw [e2]
    rfl
  | @char b t hr hn =>
    simp only
    rw [if_neg (by simp)]
    obtain ⟨n1, n2, n3, n4, n5, n6, n7, n8, n9, n10, n11⟩ := not_reserved hr
    unfold Msg.unescapeSwitch
    rw [if_neg n1, if_neg n2, if_neg n3, if_neg n4, if_neg n5, if_neg n6, if_neg n7, if_neg n8, if_neg n9, if_neg n10,
      if_neg n11, hpop b t hn]
    rfl
  | @plain b t hb hn =>
    simp only
    rw [if_pos hb, hpop b t hn]
    rfl

/-- C96: these are all texts of `unescape_next`. -/
theorem C96_next_exact (s : Str) (h : (unescapeNext s).result = .error .ystring) :
    ∃ r m, DropsNewlines s r ∧ NextText r m ∧ Msg.unescapeNext s = .error (.thrown (ascii m)) := by
  have key : ∀ r, DropsNewlines s r → (∃ m, NextText r m) →
      ∃ r m, DropsNewlines s r ∧ NextText r m ∧ Msg.unescapeNext s = .error (.thrown (ascii m)) :=
    fun r hr ⟨m, hm⟩ => ⟨r, m, hr, hm, C96_next s r m hr hm⟩
  obtain ⟨r, hr, rfl | ⟨u, t, c, rfl, hu, hb⟩ | ⟨e, t, c, rfl, he⟩ | ⟨h0, hb, hn⟩ | hb⟩ := C60_cases s
  · rw [C60_end s hr] at h; cases h
  · rw [C60_plain s u t c hr hu hb] at h; cases h
  · rw [C60_escape s e t c hr he] at h; cases h
  · cases r with
    | nil => exact absurd rfl h0
    | cons b t => exact key _ hr ⟨_, .plain (by simpa using hb) hn⟩
  · refine key r hr ?_
    cases hb with
    | alone => exact ⟨_, .alone⟩
    | hex hl ht => exact ⟨_, .hex hl ht⟩
    | short h4 hd ht => exact ⟨_, .short h4 hd ht⟩
    | long h8 hd ht => exact ⟨_, .long h8 hd ht⟩
    | @high ds t h4 hd hs hb =>
      obtain ⟨w, t', rfl, hw, d, hdw, hn⟩ := hb
      obtain ⟨es, w', rfl, h1, h2⟩ := run_split IsHex w
      cases w' with
      | nil => simp at hdw; exact absurd (h1 d hdw) hn
      | cons b w' =>
        refine ⟨tooFewDigits 4 es.length, ?_⟩
        have := NextText.second (t := t') (w := w') h4 hd hs h1 (h2 b w' rfl) (by simp at hw; omega)
        simpa using this
    | char hr' hn => exact ⟨_, .char hr' hn⟩

example : Msg.unescapeNext (ascii "\\\n\\u12g") =
    .error (.thrown (ascii "Too few hex digits in escape sequence. Expected at least 4, got 2")) := by decide +kernel

/-! ### append and replace_codepoint -/

/-- C96: `append` names the value that is no code point. -/
theorem C96_append (s : Str) (c : Char32) (h : 0x10FFFF < c.toNat) :
    Msg.append s c = .error (.thrown (ascii ("Invalid code point: " ++ toString c.toNat))) := by
  unfold Msg.append
  rw [(C15_append s c).2 h, Msg.ascii_append, Msg.printSize_toString]
  rfl

/-- C96: `replace_codepoint` names the value that is no code point, the first one if both are none. -/
theorem C96_replace_codepoint (s : Str) (a b : Char32) (n : Int) :
    (0x10FFFF < a.toNat → Msg.replaceCodepoint s a b n =
      .error (.thrown (ascii ("Invalid from-code point: " ++ toString a.toNat)))) ∧
    (a.toNat ≤ 0x10FFFF → 0x10FFFF < b.toNat → Msg.replaceCodepoint s a b n =
      .error (.thrown (ascii ("Invalid to-code point: " ++ toString b.toNat)))) := by
  have hsz : ∀ c : Char32, (encodeUtf8Buf c 4).2 = 0 ↔ 0x10FFFF < c.toNat := by
    intro c
    have h0 : encodeUtf8Ret c ≠ 0 ↔ c.toNat ≤ 0x10FFFF := by
      have h1 := C15_append [] c
      unfold append at h1
      constructor
      · intro h
        refine Classical.byContradiction fun h' => ?_
        have := h1.2 (by omega)
        rw [if_pos h] at this; cases this
      · intro h h'
        have := h1.1 h
        rw [if_neg (by simp [h'])] at this; cases this
    have h4 : getUtf8EncodedLength c ≤ 4 := by
      unfold getUtf8EncodedLength; repeat' split
      all_goals omega
    unfold encodeUtf8Ret at h0
    unfold encodeUtf8Buf
    simp only
    rw [if_neg (by omega)]
    constructor
    · intro h; have := mt h0.mpr (by omega); omega
    · intro h; exact Classical.byContradiction fun h' => absurd (h0.mp h') (by omega)
  unfold Msg.replaceCodepoint
  simp only
  refine ⟨fun h => ?_, fun h1 h2 => ?_⟩
  · rw [if_pos ((hsz a).mpr h), Msg.ascii_append, Msg.printSize_toString]
  · rw [if_neg (fun h => by have := (hsz a).mp h; omega), if_pos ((hsz b).mpr h2), Msg.ascii_append, Msg.printSize_toString]

example : Msg.append (ascii "a") 0x110000 = .error (.thrown (ascii "Invalid code point: 1114112")) := by decide +kernel

end Ystring
