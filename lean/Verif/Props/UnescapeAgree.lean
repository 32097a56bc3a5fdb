import Verif.Props.UnescapeNext
import Verif.Props.Codec
import Verif.Proofs.Kept
/-
Property theorems C98 (`unescape` and a loop with `unescape_next` give the same text) and C99 (`unescape` of two strings put
together).
-/
namespace Ystring
open Spec

/-! ### C98 -/

theorem escape_bytes_ascii {e t o : Str} (h : Escape e t o) : ∀ b ∈ e, b.toNat < 0x80 := by
  have hx : ∀ {ds : Str}, (∀ d ∈ ds, IsHex d) → ∀ d ∈ ds, d.toNat < 0x80 := by
    intro ds h d hd
    have := h d hd
    unfold IsHex hexVal at this
    revert this
    simp only
    repeat' split
    all_goals first | omega | (intro h; simp at h)
  have ho : ∀ {ds : Str}, (∀ d ∈ ds, IsOct d) → ∀ d ∈ ds, d.toNat < 0x80 := by
    intro ds h d hd
    have := h d hd
    unfold IsOct at this
    omega
  have hc : ∀ p ∈ controlLetters, p.1.toNat < 0x80 := by decide
  intro b hb
  cases h with
  | @letter l c _ h =>
    simp at hb
    rcases hb with rfl | rfl
    · decide
    · exact hc (_, _) h
  | other h1 h2 =>
    simp at hb
    rcases hb with rfl | rfl
    · decide
    · exact h1
  | oct _ _ h _ =>
    simp at hb
    rcases hb with rfl | hb
    · decide
    · exact ho h b hb
  | hex hl _ h _ _ =>
    simp at hb
    rcases hb with rfl | rfl | hb
    · decide
    · rcases hl with rfl | rfl <;> decide
    · exact hx h b hb
  | long _ h =>
    simp at hb
    rcases hb with rfl | rfl | hb
    · decide
    · decide
    · exact hx h b hb
  | short _ h _ =>
    simp at hb
    rcases hb with rfl | rfl | hb
    · decide
    · decide
    · exact hx h b hb
  | pair _ h _ _ h' _ =>
    simp at hb
    rcases hb with rfl | rfl | hb | rfl | rfl | hb
    · decide
    · decide
    · exact hx h b hb
    · decide
    · decide
    · exact hx h' b hb
  | lone _ h _ _ _ =>
    simp at hb
    rcases hb with rfl | rfl | hb
    · decide
    · decide
    · exact hx h b hb

theorem escape_head {e t o : Str} (h : Escape e t o) : ∃ r, e = 0x5C :: r := by cases h <;> exact ⟨_, rfl⟩

theorem escape_newline {e s o t : Str} (h : Escape e s o) (he : e ++ s = 0x5C :: 0x0A :: t) : e = [0x5C, 0x0A] := by
  have hn : ∀ {ds : Str} {P : UInt8 → Prop}, (∀ d ∈ ds, P d) → ¬ P 0x0A → 1 ≤ ds.length → ds ++ s ≠ 0x0A :: t := by
    intro ds P h1 h2 h3 e
    cases ds with
    | nil => simp at h3
    | cons d ds => injection e with e _; exact h2 (e ▸ h1 d (by simp))
  cases h with
  | @letter l c _ h =>
    simp at he
    rw [he.1]
  | other h1 h2 => simp at he; rw [he.1]
  | oct h1 _ h _ => exact absurd (by simpa using he) (hn h (by decide) h1)
  | hex hl => simp at he; rcases hl with rfl | rfl <;> exact absurd he.1 (by decide)
  | long => simp at he
  | short => simp at he
  | pair => simp at he
  | lone => simp at he

/-- The bytes before the first backslash are kept. -/
theorem reads_kept_plain {E : Str → Str → Str → Prop} (hE : ∀ e t o, E e t o → ∃ r, e = 0x5C :: r) :
    ∀ (u : Str) {s o : Str}, 0x5C ∉ u → Reads E (u ++ s) o [] → ∃ o', o = u ++ o' ∧ Reads E s o' []
  | [], s, o, _, h => ⟨o, rfl, h⟩
  | b :: u, s, o, hu, h => by
    generalize hs : b :: u ++ s = s' at h
    generalize ht : ([] : Str) = t at h
    cases h with
    | stop => subst ht; simp at hs
    | @plain b' s1 o1 _ hb h =>
      subst ht
      simp at hs
      obtain ⟨rfl, rfl⟩ := hs
      simp at hu
      obtain ⟨o', rfl, hr⟩ := reads_kept_plain hE u hu.2 h
      exact ⟨o', rfl, hr⟩
    | @escape e s1 out o1 _ he h =>
      obtain ⟨r, rfl⟩ := hE _ _ _ he
      simp at hs
      simp [hs.1] at hu

theorem first_not {P : UInt8 → Prop} [DecidablePred P] : ∀ {w : Str}, (∃ d ∈ w, ¬ P d) →
    ∃ ds b r, w = ds ++ b :: r ∧ (∀ d ∈ ds, P d) ∧ ¬ P b
  | [], h => by simp at h
  | x :: w, h => by
    by_cases hx : P x
    · have : ∃ d ∈ w, ¬ P d := by
        obtain ⟨d, hd, hn⟩ := h
        rcases List.mem_cons.mp hd with rfl | hd
        · exact absurd hx hn
        · exact ⟨d, hd, hn⟩
      obtain ⟨ds, b, r, rfl, h1, h2⟩ := first_not this
      exact ⟨x :: ds, b, r, rfl, by simpa using ⟨hx, h1⟩, h2⟩
    · exact ⟨[], x, w, rfl, by simp, hx⟩

theorem badPair_second {t : Str} (h : BadPair t) : BadSecond t := by
  obtain ⟨w, t', rfl, hw, hd⟩ := h
  obtain ⟨ds, b, r, rfl, h1, h2⟩ := first_not hd
  right
  refine ⟨[], 0x5C :: 0x75 :: (ds ++ b :: r), ?_, by simp, .short (by simp at hw; omega) h1 h2⟩
  show List.take 6 (0x5C :: 0x75 :: ((ds ++ b :: r) ++ t')) = _
  rw [List.take_succ_cons, List.take_succ_cons, List.take_left' hw]
  rfl

/-- A common escape sequence denotes the same character for `unescape_next`. -/
theorem common_next {e t o : Str} (h : CommonEscape e t o) : ∃ c, NextEscape e t c ∧ c < 2 ^ 32 ∧ o = utf8OrNothing c := by
  obtain ⟨h, hn, hx⟩ := h
  have h8 : ∀ {ds : Str}, (∀ d ∈ ds, IsHex d) → ds.length ≤ 8 → number 16 ds < 2 ^ 32 := fun h1 h2 => hex_lt32 h1 h2
  cases h with
  | @letter l c _ h =>
    refine ⟨c.toNat, .letter h, by have := c.toNat_lt; omega, ?_⟩
    have : ∀ p ∈ controlLetters, [p.2] = utf8OrNothing p.2.toNat := by decide
    exact this (l, c) h
  | @other b _ h1 h2 =>
    refine ⟨b.toUInt32.toNat, .char (u := []) h2 (.one h1 (by simp)), by simp; have := b.toNat_lt; omega, ?_⟩
    have : b.toUInt32.toNat = b.toNat := by simp
    rw [this]
    unfold utf8OrNothing rfcEncode
    rw [if_pos (by omega), if_pos h1]
    simp
  | @oct ds _ h1 h2 h3 h4 =>
    have hlt : number 8 ds < 512 := Nat.lt_of_lt_of_le (number_oct_lt h3)
      (Nat.pow_le_pow_right (by omega : 0 < 8) h2)
    refine ⟨number 8 ds, .oct h1 h2 h3 ?_, by omega, ?_⟩
    · intro hl b t' e
      obtain ⟨b', t'', e', hb⟩ := h4 hl
      rw [e] at e'; cases e'; exact hb
    · unfold utf8OrNothing; rw [if_pos (by omega)]
  | @hex l ds _ hl h1 h2 h3 h4 =>
    exact ⟨number 16 ds, .hex hl (by omega) (hx l ds hl rfl) h2 (fun _ => h3), h4, rfl⟩
  | @long ds _ h1 h2 => exact ⟨number 16 ds, .long h1 h2, h8 h2 (by omega), rfl⟩
  | @short ds _ h1 h2 h3 =>
    refine ⟨number 16 ds, .short h1 h2 h3, h8 h2 (by omega), ?_⟩
    have := hex_lt16 h2 (by omega)
    unfold utf8OrNothing; rw [if_pos (by omega)]
  | @pair ds es _ h1 h2 h3 h4 h5 h6 =>
    have hp : pairValue (number 16 ds) (number 16 es) ≤ 0x10FFFF := by
      unfold pairValue HighSurrogate LowSurrogate at *; omega
    exact ⟨_, .pair h1 h2 h3 h4 h5 h6, by omega, by unfold utf8OrNothing; rw [if_pos hp]⟩
  | @lone ds _ h1 h2 h3 h4 h5 =>
    refine ⟨number 16 ds, .lone h1 h2 h3 h4 (fun h => h5 (badPair_second h)), h8 h2 (by omega), ?_⟩
    unfold HighSurrogate at h3
    unfold utf8OrNothing; rw [if_pos (by omega)]

theorem encode_orNothing (c : Nat) (h : c < 2 ^ 32) : encodeUtf8 (UInt32.ofNat c) = utf8OrNothing c := by
  have hn : (UInt32.ofNat c).toNat = c := UInt32.toNat_ofNat_of_lt' h
  obtain ⟨h1, h2⟩ := C03_encode_rfc3629 (UInt32.ofNat c)
  rw [hn] at h1 h2
  unfold utf8OrNothing
  split
  · exact (h1 ‹_›).1
  · exact (h2 (by omega)).1

/-- `unescape` and a loop that calls `unescape_next` until nullopt give the same text, for every string of well-formed UTF-8 that is
made of plain characters and escape sequences accepted by `unescape`, other than an escaped newline and `\x` with more than
eight digits. -/
theorem C98_agree (s o : Str) (hf : Fits s) (hw : WellFormed s) (hr : Reads CommonEscape s o []) :
    unescape s = .ok o ∧ ∃ cs, NextAll s cs ∧ fromUtf32 cs = o := by
  refine ⟨(C59_exact s o hf).mpr (hr.mono fun _ _ _ h => h.1), ?_⟩
  clear hf
  generalize hl : s.length = n
  induction n using Nat.strongRecOn generalizing s o with
  | ind n ih =>
    by_cases hs : s = []
    · subst hs
      refine ⟨[], .done (by rw [C60_end [] (.done (by simp))]), ?_⟩
      obtain ⟨o', rfl, h'⟩ : ∃ o', o = [] ++ o' ∧ True := ⟨o, rfl, trivial⟩
      generalize hz : ([] : Str) = z at hr
      cases hr with
      | stop => rfl
      | plain => simp at hz
      | @escape e _ _ _ _ he =>
        obtain ⟨r, rfl⟩ := escape_head he.1
        simp at hz
    · obtain ⟨x, hx1, hx2⟩ := wellFormed_list hw
      cases x with
      | nil => simp at hx2; exact absurd hx2 hs
      | cons c x =>
        have hc := hx1 c (by simp)
        have hu := encodeUtf8_seq c hc
        simp only [List.flatMap_cons] at hx2
        generalize hw' : x.flatMap encodeUtf8 = s' at hx2
        by_cases hb : encodeUtf8 c = [0x5C]
        · -- an escape sequence
          rw [hb] at hx2
          subst hx2
          generalize hz : [0x5C] ++ s' = z at hr
          generalize ht : ([] : Str) = t at hr
          cases hr with
          | stop => subst ht; simp at hz
          | plain hne _ => simp at hz; exact absurd hz.1.symm hne
          | @escape e s1 out o1 _ he hr =>
            subst ht
            obtain ⟨r, rfl⟩ := escape_head he.1
            have hasc := escape_bytes_ascii he.1
            rw [hz] at hw
            have hw1 := (wellFormed_parts hw (ascii_valid hasc)).2
            obtain ⟨d, hd1, hd2, rfl⟩ := common_next he
            have hlen : s1.length < n := by
              have := congrArg List.length hz
              simp at this hl
              omega
            obtain ⟨cs, hn, rfl⟩ := ih _ hlen s1 o1 hw1 hr rfl
            have hdrop : DropsNewlines (0x5C :: r ++ s1) (0x5C :: r ++ s1) := by
              refine .done fun t ht => ?_
              exact he.2.1 (escape_newline he.1 ht)
            have hnx := C60_escape _ _ _ _ hdrop hd1
            refine ⟨UInt32.ofNat d :: cs, ?_, ?_⟩
            · exact .next (by rw [hnx]) (by rw [hnx]; exact hn)
            · rw [fromUtf32_eq, fromUtf32_eq, List.flatMap_cons, encode_orNothing d hd2]
        · -- a plain character
          have hno : 0x5C ∉ encodeUtf8 c := by
            intro hm
            rcases seq_ascii_or hu with ⟨b, hbb, _⟩ | hh
            · rw [hbb] at hm hb; simp at hm hb; exact hb hm.symm
            · exact absurd (hh _ hm) (by decide)
          subst hx2
          obtain ⟨o', rfl, hr'⟩ := reads_kept_plain (fun e t o h => escape_head h.1) _ hno hr
          have hw1 := (wellFormed_parts hw ⟨[c], by simpa using Decodes.cons hu .nil⟩).2
          have hlen : s'.length < n := by
            have := hu.length_pos
            simp at hl
            omega
          obtain ⟨cs, hn, rfl⟩ := ih _ hlen s' o' hw1 hr' rfl
          have hdrop : DropsNewlines (encodeUtf8 c ++ s') (encodeUtf8 c ++ s') := by
            refine .done fun t ht => ?_
            cases hq : encodeUtf8 c with
            | nil => exact hu.ne_nil hq
            | cons b u =>
              rw [hq] at ht hno
              injection ht with ht _
              simp [ht] at hno
          have hnx := C60_plain _ _ _ _ hdrop hu hb
          refine ⟨c :: cs, .next (by rw [hnx]) (by rw [hnx]; exact hn), ?_⟩
          rw [fromUtf32_eq, fromUtf32_eq, List.flatMap_cons]

theorem reads_common {s o t : Str} (h : Reads Escape s o t) (hn : ∀ p r, s ≠ p ++ 0x5C :: 0x0A :: r)
    (hx : ∀ p ds r, s = p ++ ds ++ r → (∀ d ∈ ds, IsHex d) → ds.length < 9) : Reads CommonEscape s o t := by
  induction h with
  | stop => exact .stop
  | @plain b s o t hb _ ih =>
    exact .plain hb (ih (fun p r e => hn (b :: p) r (by rw [e]; rfl))
      (fun p ds r e => hx (b :: p) ds r (by rw [e]; rfl)))
  | @escape e s out o t he _ ih =>
    refine .escape ⟨he, ?_, ?_⟩ (ih (fun p r h => hn (e ++ p) r (by rw [h]; simp))
      (fun p ds r h => hx (e ++ p) ds r (by rw [h]; simp)))
    · rintro rfl
      exact hn [] s rfl
    · rintro l ds hl rfl
      have hc : ∀ p ∈ controlLetters, p.1 ≠ 0x78 ∧ p.1 ≠ 0x58 := by decide
      have hd : ∀ d ∈ ds, IsHex d := by
        cases he with
        | letter h =>
          have := hc (_, _) h
          rcases hl with rfl | rfl
          · exact absurd rfl this.1
          · exact absurd rfl this.2
        | other _ h => rcases hl with rfl | rfl <;> exact absurd h (by decide)
        | oct h1 _ h _ =>
          have := h l (by simp)
          unfold IsOct at this
          rcases hl with rfl | rfl <;> exact absurd this (by decide)
        | hex _ _ h => exact h
        | long _ h => exact h
        | short _ h => exact h
        | pair => rcases hl with h | h <;> exact absurd h (by decide)
        | lone _ h => exact h
      have := hx [0x5C, l] ds s (by simp) hd
      omega

/-- The same with a condition on the bytes: for well-formed UTF-8 in which no backslash stands before a newline, and without nine
hexadecimal digits in a row, the loop with `unescape_next` ends and gives what `unescape` gives, if `unescape` returns. -/
theorem C98_agree_bytes (s o : Str) (hf : Fits s) (hw : WellFormed s) (hu : unescape s = .ok o)
    (hn : ∀ p r, s ≠ p ++ 0x5C :: 0x0A :: r)
    (hx : ∀ p ds r, s = p ++ ds ++ r → (∀ d ∈ ds, IsHex d) → ds.length < 9) :
    ∃ cs, NextAll s cs ∧ fromUtf32 cs = o :=
  (C98_agree s o hf hw (reads_common ((C59_exact s o hf).mp hu) hn hx)).2

theorem NextAll.unique {s : Str} {cs ds : List Char32} (h : NextAll s cs) (h' : NextAll s ds) : cs = ds := by
  induction h generalizing ds with
  | done h =>
    cases h' with
    | done => rfl
    | next h1 => rw [h] at h1; cases h1
  | next h _ ih =>
    cases h' with
    | done h1 => rw [h] at h1; cases h1
    | next h1 h2 =>
      rw [h] at h1
      cases h1
      rw [ih h2]

/-- The exceptions are real: `\` before a newline is a newline for `unescape` and nothing for `unescape_next`; `\x` takes all
digits for `unescape` and eight for `unescape_next`. -/
theorem C98_differ :
    (unescape [0x61, 0x5C, 0x0A, 0x62] = .ok [0x61, 0x0A, 0x62] ∧ NextAll [0x61, 0x5C, 0x0A, 0x62] [0x61, 0x62]) ∧
    (unescape [0x5C, 0x78, 0x30, 0x30, 0x30, 0x30, 0x30, 0x30, 0x30, 0x34, 0x31, 0x2E] = .ok [0x41, 0x2E] ∧
      NextAll [0x5C, 0x78, 0x30, 0x30, 0x30, 0x30, 0x30, 0x30, 0x30, 0x34, 0x31, 0x2E] [0x04, 0x31, 0x2E]) := by
  refine ⟨⟨by decide +kernel, ?_⟩, by decide +kernel, ?_⟩
  · exact .next (c := 0x61) (by decide +kernel) (.next (c := 0x62) (by decide +kernel) (.done (by decide +kernel)))
  · exact .next (c := 0x04) (by decide +kernel) (.next (c := 0x31) (by decide +kernel)
      (.next (c := 0x2E) (by decide +kernel) (.done (by decide +kernel))))

-- non-vacuity: a letter, é as `\xe9`, `\n`
example : Reads CommonEscape [0x61, 0x5C, 0x78, 0x65, 0x39, 0x5C, 0x6E] ([0x61] ++ rfcEncode 0xE9 ++ [0x0A]) [] :=
  .plain (by decide) (.escape (e := [0x5C, 0x78, 0x65, 0x39]) (out := rfcEncode 0xE9)
    ⟨.hex (.inl rfl) (by decide) (by decide) (by intro b t' e; cases e; decide) (by decide), by decide,
      by rintro l ds _ e; cases e; decide⟩
    (.escape (e := [0x5C, 0x6E]) (out := [0x0A]) ⟨.letter (by decide), by decide, by
      rintro l ds hl e; cases e; decide⟩ .stop))
example : WellFormed [0x61, 0x5C, 0x78, 0x65, 0x39, 0x5C, 0x6E] := wellFormed_ascii (by decide)

/-! ### C99 -/

theorem paired_more {e s o t : Str} (h : PairedEscape e s o) (ht : NoHexAhead t) : Escape e (s ++ t) o := by
  obtain ⟨h, hp⟩ := h
  cases h with
  | letter h => exact .letter h
  | other h1 h2 => exact .other h1 h2
  | oct h1 h2 h3 h4 =>
    refine .oct h1 h2 h3 fun hl => ?_
    obtain ⟨b, t', rfl, hb⟩ := h4 hl
    exact ⟨b, t' ++ t, rfl, hb⟩
  | hex hl h1 h2 h3 h4 =>
    refine .hex hl h1 h2 ?_ h4
    intro b t' e
    cases s with
    | nil => exact ht b t' e
    | cons x s => injection e with e _; exact h3 b s (by rw [e])
  | long h1 h2 => exact .long h1 h2
  | short h1 h2 h3 => exact .short h1 h2 h3
  | pair h1 h2 h3 h4 h5 h6 => exact .pair h1 h2 h3 h4 h5 h6
  | lone h1 h2 h3 h4 h5 => exact absurd h3 (hp _ rfl h1)

theorem reads_then {s o t o' r : Str} (h : Reads PairedEscape s o []) (ht : NoHexAhead t) (h' : Reads Escape t o' r) :
    Reads Escape (s ++ t) (o ++ o') r := by
  generalize hz : ([] : Str) = z at h
  induction h with
  | stop => subst hz; exact h'
  | plain hb _ ih => exact .plain hb (ih hz)
  | @escape e s out o _ he _ ih =>
    rw [List.append_assoc, List.append_assoc]
    exact .escape (paired_more he ht) (ih hz)

theorem Spec.Reads.trans {E : Str → Str → Str → Prop} {s o t o' r : Str} (h : Reads E s o t) (h' : Reads E t o' r) :
    Reads E s (o ++ o') r := by
  induction h with
  | stop => exact h'
  | plain hb _ ih => exact .plain hb (ih h')
  | escape he _ ih => rw [List.append_assoc]; exact .escape he (ih h')

/-- A text in front, `v` what it is read as: the result of `unescape`, whatever it is. -/
theorem unescape_prefix {u v t : Str} (hf : Fits (u ++ t)) (h : ∀ {o r : Str}, Reads Escape t o r → Reads Escape (u ++ t) (v ++ o) r) :
    unescape (u ++ t) = (fun x => v ++ x) <$> unescape t := by
  have hf' : Fits t := by unfold Fits at *; simp at hf; omega
  obtain ⟨o, r, hr, ⟨rfl, h1, _⟩ | ⟨hm, h1⟩ | ⟨hm, h1⟩⟩ := C58_exact t hf'
  · rw [h1, (C59_exact _ _ hf).mpr (h hr)]; rfl
  · rw [h1, C58_throws _ _ _ hf (h hr) hm]; rfl
  · rw [h1, C58_undefined _ _ _ hf (h hr) hm]; rfl

/-- If `s` is unescaped to `o` and has no escape sequence of a high surrogate without its partner, and `t` does not begin with a
hexadecimal digit, then unescaping `s + t` gives `o` and what unescaping `t` gives; it throws if that throws. -/
theorem C99_concat (s o t : Str) (hf : Fits (s ++ t)) (hr : Reads PairedEscape s o []) (ht : NoHexAhead t) :
    unescape s = .ok o ∧ unescape (s ++ t) = (fun x => o ++ x) <$> unescape t := by
  refine ⟨(C59_exact _ _ (by unfold Fits at *; simp at hf; omega)).mpr (hr.mono fun _ _ _ h => h.1), ?_⟩
  exact unescape_prefix hf fun h => reads_then hr ht h

/-- Escaped text in front of any text, also of malformed text, is restored and changes nothing else. -/
theorem C99_escaped_first (s r t : Str) (hs : Fits s) (hf : Fits (r ++ t)) (h : escapeJson s = .ok r) :
    unescape (r ++ t) = (fun x => s ++ x) <$> unescape t := by
  rw [C56_exact s hs] at h
  cases h
  refine unescape_prefix hf fun {o r} hr => ?_
  have : Reads PlainEscape (jsonEscaped s ++ t) s t := by
    clear hs hf hr
    induction s with
    | nil => exact .stop
    | cons b s ih =>
      rw [show jsonEscaped (b :: s) ++ t = jsonByte b ++ (jsonEscaped s ++ t) by simp [jsonEscaped]]
      exact jsonByte_reads b ih
  exact (this.mono fun _ _ _ => plainEscape).trans hr

/-- The same for a loop with `unescape_next`. -/
theorem C99_escaped_next (s r t : Str) (cs ds : List Char32) (hs : Fits s) (hd : Decodes s cs) (h : escapeJson s = .ok r)
    (ht : NextAll t ds) : NextAll (r ++ t) (cs ++ ds) := by
  rw [C56_exact s hs] at h
  cases h
  exact nextAll_escaped hd ht

/-- The conditions are needed: a hexadecimal digit extends `\x41`, and the text after a lone high surrogate is looked at. -/
theorem C99_needed :
    (unescape [0x5C, 0x78, 0x34, 0x31] = .ok [0x41] ∧ unescape [0x31] = .ok [0x31] ∧
      unescape [0x5C, 0x78, 0x34, 0x31, 0x31] = .ok [0xD0, 0x91]) ∧
    (unescape [0x5C, 0x75, 0x44, 0x38, 0x30, 0x30] = .ok [0xED, 0xA0, 0x80] ∧ unescape [0x5C, 0x75, 0x44, 0x43, 0x30, 0x30] = .ok [0xED, 0xB0, 0x80] ∧
      unescape [0x5C, 0x75, 0x44, 0x38, 0x30, 0x30, 0x5C, 0x75, 0x44, 0x43, 0x30, 0x30] = .ok [0xF0, 0x90, 0x80, 0x80]) := by
  decide +kernel

-- non-vacuity: `\n` and a letter in front of a text with an error, and of `\t`
example : Reads PairedEscape [0x5C, 0x6E, 0x61] [0x0A, 0x61] [] ∧ NoHexAhead [0x5C, 0x74] :=
  ⟨.escape (e := [0x5C, 0x6E]) (out := [0x0A]) ⟨.letter (by decide), by rintro ds e; simp at e⟩ (.plain (by decide) .stop),
    by intro b t' e; cases e; decide⟩
example : unescape [0x5C, 0x6E, 0x61, 0x5C, 0x74] = .ok [0x0A, 0x61, 0x09] ∧
    unescape [0x5C, 0x6E, 0x61, 0x5C] = .error .ystring := by decide +kernel

end Ystring
