import Verif.Spec.UnescapeNext
import Verif.Proofs.UnescapeStep
import Verif.Proofs.Decompose
/-
Lemmas for C60, C61: one call of `unescape_next`.
-/
namespace Ystring
open Spec

theorem extractHex_spec {ds t : Str} {mn mx : Nat} (h : ∀ d ∈ ds, IsHex d) (hx : ds.length ≤ mx) (h8 : mx ≤ 8)
    (hm : 1 ≤ mn) (ht : ds.length < mx → NoHexAhead t) :
    extractHexChar (ds ++ t) mn mx =
      if ds.length < mn then .error .ystring else .ok (UInt32.ofNat (number 16 ds), t) := by
  have e : ∃ t', (ds ++ t).take (if mx > (ds ++ t).length then (ds ++ t).length else mx) = ds ++ t' ∧ NoHexAhead t' := by
    by_cases hd : ds.length = mx
    · refine ⟨[], ?_, by intro b t e; cases e⟩
      rw [if_neg (by simp; omega), ← hd, List.take_left, List.append_nil]
    · have ht := ht (by omega)
      refine ⟨t.take ((if mx > (ds ++ t).length then (ds ++ t).length else mx) - ds.length), ?_, ?_⟩
      · rw [List.take_append, List.take_of_length_le (by split; (simp); omega)]
      · intro b t' e
        cases t with
        | nil => simp at e
        | cons c t =>
          refine ht b t ?_
          generalize (if mx > (ds ++ c :: t).length then (ds ++ c :: t).length else mx) - ds.length = n at e
          cases n with
          | zero => simp at e
          | succ n => simp at e; rw [e.1]
  obtain ⟨t', e, ht'⟩ := e
  have hv := hex_lt32 h (by omega)
  unfold extractHexChar
  simp only [e]
  rw [fromChars_hex h ht']
  simp only
  by_cases hlt : ds.length < mn
  · rw [if_pos hlt, if_pos hlt]
  · rw [if_neg hlt, if_neg hlt, if_neg (by simp at hv; omega)]
    simp only
    rw [List.drop_left]

theorem extractOct_spec {ds t : Str} (h : ∀ d ∈ ds, IsOct d) (h1 : 1 ≤ ds.length) (hx : ds.length ≤ 3)
    (ht : ds.length < 3 → NoOctFollows t) :
    extractOctChar (ds ++ t) = .ok (UInt32.ofNat (number 8 ds), t) := by
  have e : ∃ t', (ds ++ t).take (min (ds ++ t).length 3) = ds ++ t' ∧ NoOctAhead t' := by
    by_cases hd : ds.length = 3
    · refine ⟨[], ?_, by intro b t e; cases e⟩
      rw [Nat.min_eq_right (by simp; omega), ← hd, List.take_left, List.append_nil]
    · have ht := ht (by omega)
      refine ⟨t.take (min (ds ++ t).length 3 - ds.length), ?_, ?_⟩
      · rw [List.take_append, List.take_of_length_le (by simp; omega)]
      · intro b t' e
        cases t with
        | nil => simp at e
        | cons c t =>
          refine ht b t ?_
          generalize min (ds ++ c :: t).length 3 - ds.length = n at e
          cases n with
          | zero => simp at e
          | succ n => simp at e; rw [e.1]
  obtain ⟨t', e, ht'⟩ := e
  have hv : number 8 ds < 512 := Nat.lt_of_lt_of_le (number_oct_lt h)
    (Nat.le_trans (Nat.pow_le_pow_right (by omega) hx) (by decide))
  unfold extractOctChar
  simp only [e]
  rw [fromChars_oct h ht']
  simp only
  rw [if_neg (by omega), if_neg (by omega)]
  simp only
  rw [List.drop_left]

theorem extractUtf16_plain {ds t : Str} (h : ∀ d ∈ ds, IsHex d) (h4 : ds.length = 4)
    (hs : ¬ HighSurrogate (number 16 ds)) :
    extractUtf16Char (ds ++ t) = .ok (UInt32.ofNat (number 16 ds), t) := by
  unfold extractUtf16Char
  rw [extractHex_spec h (by omega) (by omega) (by omega) (by omega), if_neg (by omega)]
  simp only [bind, Except.bind]
  rw [if_pos ((not_high (hex_lt32 h (by omega))).mpr hs)]

theorem extractUtf16_few {ds t : Str} (h : ∀ d ∈ ds, IsHex d) (h4 : ds.length < 4) (ht : NoHexAhead t) :
    extractUtf16Char (ds ++ t) = .error .ystring := by
  unfold extractUtf16Char
  rw [extractHex_spec h (by omega) (by omega) (by omega) (fun _ => ht), if_pos (by omega)]
  rfl

theorem extractUtf16_high {ds t : Str} (h : ∀ d ∈ ds, IsHex d) (h4 : ds.length = 4)
    (hs : HighSurrogate (number 16 ds)) :
    extractUtf16Char (ds ++ t) = (do
      let str2 ← substr t 0 6
      if str2.length < 6 then .ok (UInt32.ofNat (number 16 ds), t)
      else
        let c0 ← charAt str2 0
        let c1 ← charAt str2 1
        if c0 ≠ 0x5C ∨ c1 ≠ 0x75 then .ok (UInt32.ofNat (number 16 ds), t)
        else
          let (ch2, _) ← extractHexChar (str2.drop 2) 4 4
          if ch2 < 0xDC00 ∨ 0xDFFF < ch2 then .ok (UInt32.ofNat (number 16 ds), t)
          else .ok (combineSurrogatePair (UInt32.ofNat (number 16 ds)) ch2, t.drop 6)) := by
  unfold extractUtf16Char
  rw [extractHex_spec h (by omega) (by omega) (by omega) (by omega), if_neg (by omega)]
  simp only [bind, Except.bind]
  rw [if_neg (by rw [not_high (hex_lt32 h (by omega))]; exact not_not_intro hs)]

theorem substr0 (t : Str) : substr t 0 6 = .ok (t.take 6) := by
  unfold substr; rw [if_neg (by omega), List.drop_zero]

theorem extractUtf16_cont {ds w t : Str} (h : ∀ d ∈ ds, IsHex d) (h4 : ds.length = 4)
    (hs : HighSurrogate (number 16 ds)) (hw : w.length = 4) :
    extractUtf16Char (ds ++ 0x5C :: 0x75 :: (w ++ t)) = (do
      let (ch2, _) ← extractHexChar w 4 4
      if ch2 < 0xDC00 ∨ 0xDFFF < ch2 then .ok (UInt32.ofNat (number 16 ds), 0x5C :: 0x75 :: (w ++ t))
      else .ok (combineSurrogatePair (UInt32.ofNat (number 16 ds)) ch2, t)) := by
  have e1 : (0x5C :: 0x75 :: (w ++ t)).take 6 = 0x5C :: 0x75 :: w := take_seq (by omega)
  have e2 : (0x5C :: 0x75 :: (w ++ t)).drop 6 = t := by
    simp only [List.drop_succ_cons]; rw [← hw, List.drop_left]
  rw [extractUtf16_high h h4 hs, substr0, e1, e2]
  simp only [bind, Except.bind]
  rw [if_neg (by simp; omega)]
  have e3 : charAt (0x5C :: 0x75 :: w) 0 = .ok 0x5C := rfl
  have e4 : charAt (0x5C :: 0x75 :: w) 1 = .ok 0x75 := rfl
  rw [e3, e4]
  simp only [List.drop_succ_cons, List.drop_zero]
  rw [if_neg (by simp)]

theorem extractUtf16_pair {ds es t : Str} (h : ∀ d ∈ ds, IsHex d) (h4 : ds.length = 4)
    (hs : HighSurrogate (number 16 ds)) (h' : ∀ d ∈ es, IsHex d) (h4' : es.length = 4)
    (hs' : LowSurrogate (number 16 es)) :
    extractUtf16Char (ds ++ 0x5C :: 0x75 :: (es ++ t)) =
      .ok (combineSurrogatePair (UInt32.ofNat (number 16 ds)) (UInt32.ofNat (number 16 es)), t) := by
  rw [extractUtf16_cont h h4 hs h4']
  have := extractHex_spec (t := []) (mn := 4) (mx := 4) h' (by omega) (by omega) (by omega) (by omega)
  rw [List.append_nil, if_neg (by omega)] at this
  rw [this]
  simp only [bind, Except.bind]
  rw [if_neg (by rw [not_low (hex_lt32 h' (by omega))]; exact not_not_intro hs')]

theorem extractUtf16_bad {ds t : Str} (h : ∀ d ∈ ds, IsHex d) (h4 : ds.length = 4)
    (hs : HighSurrogate (number 16 ds)) (hb : BadPair t) : extractUtf16Char (ds ++ t) = .error .ystring := by
  obtain ⟨w, t', rfl, hw, d, hd, hn⟩ := hb
  rw [extractUtf16_cont h h4 hs hw]
  obtain ⟨es, w', rfl, h1, h2⟩ := run_split IsHex w
  have h3 : es.length < 4 := by
    simp at hw
    cases w' with
    | nil => simp at hd; exact absurd (h1 d hd) hn
    | cons => simp at hw; omega
  rw [extractHex_spec h1 (by omega) (by omega) (by omega) (fun _ => h2), if_pos h3]
  rfl

theorem extractUtf16_lone {ds t : Str} (h : ∀ d ∈ ds, IsHex d) (h4 : ds.length = 4)
    (hs : HighSurrogate (number 16 ds)) (hn : ¬ LowEscapeAhead t) (hb : ¬ BadPair t) :
    extractUtf16Char (ds ++ t) = .ok (UInt32.ofNat (number 16 ds), t) := by
  by_cases h6 : (t.take 6).length < 6
  · rw [extractUtf16_high h h4 hs, substr0]
    simp only [bind, Except.bind]
    rw [if_pos h6]
  · match t, h6 with
    | [], h6 => simp at h6
    | [_], h6 => simp at h6
    | a :: b :: t', h6 =>
      by_cases hab : a ≠ 0x5C ∨ b ≠ 0x75
      · rw [extractUtf16_high h h4 hs, substr0]
        simp only [bind, Except.bind]
        rw [if_neg h6]
        have e3 : charAt ((a :: b :: t').take 6) 0 = .ok a := rfl
        have e4 : charAt ((a :: b :: t').take 6) 1 = .ok b := rfl
        rw [e3, e4]
        simp only
        rw [if_pos hab]
      · obtain ⟨rfl, rfl⟩ : a = 0x5C ∧ b = 0x75 := by
          constructor
          · exact Decidable.byContradiction fun h => hab (.inl h)
          · exact Decidable.byContradiction fun h => hab (.inr h)
        have hl : 4 ≤ t'.length := by simp at h6; omega
        have et : t' = t'.take 4 ++ t'.drop 4 := (List.take_append_drop 4 t').symm
        have hl4 : (t'.take 4).length = 4 := by simp; omega
        have hall : ∀ d ∈ t'.take 4, IsHex d := by
          intro d hd
          apply Decidable.byContradiction
          intro hnd
          exact hb ⟨t'.take 4, t'.drop 4, by rw [← et], hl4, d, hd, hnd⟩
        have hlow : ¬ LowSurrogate (number 16 (t'.take 4)) := by
          intro hlow
          exact hn ⟨t'.take 4, t'.drop 4, by rw [← et], hl4, hall, hlow⟩
        have := extractUtf16_cont (t := t'.drop 4) h h4 hs hl4
        rw [← et] at this
        rw [this]
        have h2 := extractHex_spec (t := []) (mn := 4) (mx := 4) hall (by omega) (by omega) (by omega) (by omega)
        rw [List.append_nil, if_neg (by omega)] at h2
        rw [h2]
        simp only [bind, Except.bind]
        rw [if_pos ((not_low (hex_lt32 hall (by omega))).mpr hlow)]

theorem pop_seq {u : Str} {c : Char32} (h : IsSeq u c) (t : Str) : popUtf8Codepoint (u ++ t) = .ok (some c, t) := by
  unfold popUtf8Codepoint
  rw [safeDecodeNext_seq h]
  simp only [bind, Except.bind]
  rw [List.length_append, Nat.add_sub_cancel, List.drop_left]

theorem pop_bad {s : Str} (h0 : s ≠ []) (h : ¬ HasSeqPrefix s) : popUtf8Codepoint s = .error .ystring := by
  unfold popUtf8Codepoint
  rw [safeDecodeNext_bad h0 h]
  rfl

theorem not_reserved {b : UInt8} (h : b ∉ reserved) : b ≠ 0x61 ∧ b ≠ 0x62 ∧ b ≠ 0x66 ∧ b ≠ 0x6E ∧ b ≠ 0x72 ∧ b ≠ 0x74 ∧
    b ≠ 0x76 ∧ ¬ (b = 0x78 ∨ b = 0x58) ∧ b ≠ 0x55 ∧ b ≠ 0x75 ∧ ¬ (isOctDigit b = true) := by
  have ho : ¬ (isOctDigit b = true) := fun ho => h (by simpa using oct_reserved b ((isOctDigit_iff b).mp ho))
  simp only [reserved, List.mem_cons, List.not_mem_nil, or_false, not_or] at h
  exact ⟨h.1, h.2.1, h.2.2.1, h.2.2.2.1, h.2.2.2.2.1, h.2.2.2.2.2.1, h.2.2.2.2.2.2.1,
    not_or.mpr ⟨h.2.2.2.2.2.2.2.1, h.2.2.2.2.2.2.2.2.1⟩, h.2.2.2.2.2.2.2.2.2.2.1, h.2.2.2.2.2.2.2.2.2.1, ho⟩

theorem switch_char {b : UInt8} {t : Str} (h : b ∉ reserved) : unescapeSwitch b t = popUtf8Codepoint (b :: t) := by
  obtain ⟨n1, n2, n3, n4, n5, n6, n7, n8, n9, n10, n11⟩ := not_reserved h
  unfold unescapeSwitch
  rw [if_neg n1, if_neg n2, if_neg n3, if_neg n4, if_neg n5, if_neg n6, if_neg n7, if_neg n8, if_neg n9, if_neg n10,
    if_neg n11]

theorem switch_hex {l : UInt8} {t : Str} (h : l = 0x78 ∨ l = 0x58) : unescapeSwitch l t =
    (match extractHexChar t 1 8 with | .ok (ch, str) => .ok (some ch, str) | .error e => .error e) := by
  unfold unescapeSwitch
  rcases h with rfl | rfl <;>
  · simp only [bind, Except.bind]
    simp (decide := true) only [if_neg, if_pos]
    cases extractHexChar t 1 8 <;> rfl

theorem switch_long {t : Str} : unescapeSwitch 0x55 t =
    (match extractHexChar t 8 8 with | .ok (ch, str) => .ok (some ch, str) | .error e => .error e) := by
  unfold unescapeSwitch
  simp only [bind, Except.bind]
  simp (decide := true) only [if_neg, if_pos]
  cases extractHexChar t 8 8 <;> rfl

theorem switch_short {t : Str} : unescapeSwitch 0x75 t =
    (match extractUtf16Char t with | .ok (ch, str) => .ok (some ch, str) | .error e => .error e) := by
  unfold unescapeSwitch
  simp only [bind, Except.bind]
  simp (decide := true) only [if_neg, if_pos]
  cases extractUtf16Char t <;> rfl

theorem switch_oct {c : UInt8} {t : Str} (h : IsOct c) : unescapeSwitch c t =
    (match extractOctChar (c :: t) with | .ok (ch, str) => .ok (some ch, str) | .error e => .error e) := by
  obtain ⟨n1, n2, n3, n4, n5, n6, n7, n8, n9⟩ := oct_not_letters c h
  simp only [not_or] at n1
  unfold unescapeSwitch
  rw [if_neg n3, if_neg n4, if_neg n5, if_neg n6, if_neg n7, if_neg n8, if_neg n9,
    if_neg (not_or.mpr ⟨n1.1, n1.2.1⟩), if_neg n1.2.2, if_neg n2, if_pos ((isOctDigit_iff c).mpr h)]
  cases extractOctChar (c :: t) <;> rfl

theorem u32_of (b : UInt8) : b.toUInt32 = UInt32.ofNat b.toNat := by
  apply UInt32.toNat_inj.mp
  simp

theorem switch_letter {l c : UInt8} {t : Str} (h : (l, c) ∈ controlLetters) :
    unescapeSwitch l t = .ok (some (UInt32.ofNat c.toNat), t) := by
  simp only [controlLetters, List.mem_cons, Prod.mk.injEq, List.not_mem_nil, or_false] at h
  rcases h with ⟨rfl, rfl⟩ | ⟨rfl, rfl⟩ | ⟨rfl, rfl⟩ | ⟨rfl, rfl⟩ | ⟨rfl, rfl⟩ | ⟨rfl, rfl⟩ | ⟨rfl, rfl⟩ <;> rfl

theorem combine_ofNat {n m : Nat} (hn : HighSurrogate n) (hm : LowSurrogate m) :
    combineSurrogatePair (UInt32.ofNat n) (UInt32.ofNat m) = UInt32.ofNat (pairValue n m) := by
  apply UInt32.toNat_inj.mp
  rw [combine_toNat hn hm]
  have : pairValue n m ≤ 0x10FFFF := by
    unfold pairValue; unfold HighSurrogate at hn; unfold LowSurrogate at hm; omega
  simp; omega

/-- The `switch`, on a complete sequence. -/
theorem switch_ok {e t : Str} {c : Nat} (h : NextEscape e t c) : ∃ type rest, e ++ t = 0x5C :: type :: rest ∧
    unescapeSwitch type rest = .ok (some (UInt32.ofNat c), t) := by
  cases h with
  | @letter l c _ hm => exact ⟨l, t, rfl, switch_letter hm⟩
  | @oct ds _ h1 h3 hd ht =>
    cases ds with
    | nil => simp at h1
    | cons d ds =>
      refine ⟨d, ds ++ t, rfl, ?_⟩
      rw [switch_oct (hd d (by simp)), ← List.cons_append, extractOct_spec hd h1 h3 ht]
  | @hex l ds _ hl h1 h8 hd ht =>
    refine ⟨l, ds ++ t, rfl, ?_⟩
    rw [switch_hex hl, extractHex_spec hd h8 (by omega) (by omega) ht, if_neg (by omega)]
  | @long ds _ h8 hd =>
    refine ⟨0x55, ds ++ t, rfl, ?_⟩
    rw [switch_long, extractHex_spec hd (by omega) (by omega) (by omega) (by omega), if_neg (by omega)]
  | @short ds _ h4 hd hs =>
    refine ⟨0x75, ds ++ t, rfl, ?_⟩
    rw [switch_short, extractUtf16_plain hd h4 hs]
  | @pair ds es _ h4 hd hs h4' hd' hs' =>
    refine ⟨0x75, ds ++ 0x5C :: 0x75 :: (es ++ t), by simp, ?_⟩
    rw [switch_short, extractUtf16_pair hd h4 hs hd' h4' hs']
    simp only
    rw [combine_ofNat hs hs']
  | @lone ds _ h4 hd hs hn hb =>
    refine ⟨0x75, ds ++ t, rfl, ?_⟩
    rw [switch_short, extractUtf16_lone hd h4 hs hn hb]
  | @char b u _ c hr hu =>
    refine ⟨b, u ++ t, rfl, ?_⟩
    rw [switch_char hr, ← List.cons_append, pop_seq hu, UInt32.ofNat_toNat]

theorem switch_bad {r : Str} (h : BadNext r) : r = [0x5C] ∨ ∃ type rest, r = 0x5C :: type :: rest ∧
    unescapeSwitch type rest = .error .ystring := by
  cases h with
  | alone => exact .inl rfl
  | @hex l t hl ht =>
    refine .inr ⟨l, t, rfl, ?_⟩
    have := extractHex_spec (ds := []) (t := t) (mn := 1) (mx := 8) (by simp) (by simp) (by omega) (by omega) (fun _ => ht)
    rw [List.nil_append, if_pos (by simp)] at this
    rw [switch_hex hl, this]
  | @short ds t h4 hd ht =>
    refine .inr ⟨0x75, ds ++ t, rfl, ?_⟩
    rw [switch_short, extractUtf16_few hd h4 ht]
  | @long ds t h8 hd ht =>
    refine .inr ⟨0x55, ds ++ t, rfl, ?_⟩
    rw [switch_long, extractHex_spec hd (by omega) (by omega) (by omega) (fun _ => ht), if_pos h8]
  | @high ds t h4 hd hs hb =>
    refine .inr ⟨0x75, ds ++ t, rfl, ?_⟩
    rw [switch_short, extractUtf16_bad hd h4 hs hb]
  | @char b t hr hn =>
    refine .inr ⟨b, t, rfl, ?_⟩
    rw [switch_char hr, pop_bad (by simp) hn]

theorem next_cases (v : Str) : (∃ e t c, 0x5C :: v = e ++ t ∧ NextEscape e t c) ∨ BadNext (0x5C :: v) := by
  cases v with
  | nil => exact .inr .alone
  | cons b t =>
    by_cases hx : b = 0x78 ∨ b = 0x58
    · obtain ⟨ds, t', rfl, h1, h2, h3⟩ := run_split_max IsHex 8 t
      cases ds with
      | nil => exact .inr (.hex hx (h3 (by simp)))
      | cons d ds => exact .inl ⟨0x5C :: b :: d :: ds, t', _, rfl, .hex hx (by simp) h2 h1 h3⟩
    by_cases hU : b = 0x55
    · subst hU
      obtain ⟨ds, t', rfl, h1, h2, h3⟩ := run_split_max IsHex 8 t
      by_cases h : ds.length = 8
      · exact .inl ⟨0x5C :: 0x55 :: ds, t', _, rfl, .long h h1⟩
      · exact .inr (.long (by omega) h1 (h3 (by omega)))
    by_cases hu : b = 0x75
    · subst hu
      obtain ⟨ds, t', rfl, h1, h2, h3⟩ := run_split_max IsHex 4 t
      by_cases h : ds.length = 4
      · by_cases hs : HighSurrogate (number 16 ds)
        · by_cases hb : BadPair t'
          · exact .inr (.high h h1 hs hb)
          · by_cases hn : LowEscapeAhead t'
            · obtain ⟨es, t'', rfl, h4', hd', hs'⟩ := hn
              exact .inl ⟨0x5C :: 0x75 :: (ds ++ 0x5C :: 0x75 :: es), t'', _, by simp, .pair h h1 hs h4' hd' hs'⟩
            · exact .inl ⟨0x5C :: 0x75 :: ds, t', _, rfl, .lone h h1 hs hn hb⟩
        · exact .inl ⟨0x5C :: 0x75 :: ds, t', _, rfl, .short h h1 hs⟩
      · exact .inr (.short (by omega) h1 (h3 (by omega)))
    by_cases ho : IsOct b
    · obtain ⟨ds, t', e, h1, h2, h3⟩ := run_split_max IsOct 3 (b :: t)
      have h0 : 1 ≤ ds.length := by
        cases ds with
        | nil => exact absurd ho (h3 (by simp) b t (by simpa using e.symm))
        | cons => simp
      exact .inl ⟨0x5C :: ds, t', _, by rw [e]; rfl, .oct h0 h2 h1 h3⟩
    by_cases hr : b ∈ reserved
    · have : b ∈ controlLetters.map Prod.fst := by
        simp only [reserved, List.mem_cons, List.not_mem_nil, or_false] at hr
        simp only [controlLetters, List.map_cons, List.map_nil, List.mem_cons, List.not_mem_nil, or_false]
        rcases hr with h | h | h | h | h | h | h | h | h | h | h | h | h | h | h | h | h | h | h
        · exact .inl h
        · exact .inr (.inl h)
        · exact .inr (.inr (.inl h))
        · exact .inr (.inr (.inr (.inl h)))
        · exact .inr (.inr (.inr (.inr (.inl h))))
        · exact .inr (.inr (.inr (.inr (.inr (.inl h)))))
        · exact .inr (.inr (.inr (.inr (.inr (.inr h)))))
        · exact absurd (.inl h) hx
        · exact absurd (.inr h) hx
        · exact absurd h hu
        · exact absurd h hU
        all_goals exact absurd (by rw [h]; decide) ho
      rw [List.mem_map] at this
      obtain ⟨⟨l, d⟩, hm, rfl⟩ := this
      exact .inl ⟨[0x5C, l], t, _, rfl, .letter hm⟩
    · by_cases hp : HasSeqPrefix (b :: t)
      · obtain ⟨u, c, t', hu, e⟩ := hp
        cases u with
        | nil => exact absurd rfl hu.ne_nil
        | cons x u =>
          rw [List.cons_append] at e
          injection e with e1 e2
          subst e1 e2
          exact .inl ⟨0x5C :: b :: u, t', _, rfl, .char hr hu⟩
      · exact .inr (.char hr hp)

theorem skip_spec : ∀ {s r : Str}, DropsNewlines s r → skipEscapedNewlines s = r := by
  intro s r h
  induction h with
  | done hn =>
    rename_i s
    match s, hn with
    | [], _ => rfl
    | [_], _ => unfold skipEscapedNewlines; split <;> simp_all
    | a :: b :: t, hn =>
      unfold skipEscapedNewlines
      split
      · rename_i e; injection e with e1 e2; injection e2 with e2 e3; subst e1 e2; exact absurd rfl (hn t)
      · rfl
  | drop _ ih => rw [skipEscapedNewlines]; exact ih

theorem drops_exists : ∀ (n : Nat) (s : Str), s.length ≤ n → ∃ r, DropsNewlines s r
  | _, [], _ => ⟨[], .done (by simp)⟩
  | 0, _ :: _, h => by simp at h
  | n + 1, a :: s, h => by
    by_cases hh : ∃ t, a :: s = 0x5C :: 0x0A :: t
    · obtain ⟨t, e⟩ := hh
      have hl := congrArg List.length e
      simp at h hl
      obtain ⟨r, hr⟩ := drops_exists n t (by omega)
      exact ⟨r, e ▸ .drop hr⟩
    · exact ⟨_, .done (fun t e => hh ⟨t, e⟩)⟩

end Ystring
