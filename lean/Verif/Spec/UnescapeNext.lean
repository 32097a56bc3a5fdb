import Verif.Spec.Escape
/-
Independent specification of the escape sequences of `unescape_next`.
-/
namespace Ystring.Spec

/-- `r` is what remains of `s` after all leading escaped newlines (a backslash and a newline) are dropped. -/
inductive DropsNewlines : Str → Str → Prop
  | done {s : Str} : (∀ t, s ≠ 0x5C :: 0x0A :: t) → DropsNewlines s s
  | drop {s r : Str} : DropsNewlines s r → DropsNewlines (0x5C :: 0x0A :: s) r

/-- `t` is empty or starts with a byte that is not an octal digit. -/
def NoOctFollows (t : Str) : Prop := ∀ b t', t = b :: t' → ¬ IsOct b

/-- A `\u` with four bytes after it that are not all hexadecimal digits comes next. -/
def BadPair (t : Str) : Prop :=
  ∃ w t', t = 0x5C :: 0x75 :: (w ++ t') ∧ w.length = 4 ∧ ∃ d ∈ w, ¬ IsHex d

/-- `NextEscape e t c`: `e` is the escape sequence at the front of `e ++ t`, and denotes `c`. -/
inductive NextEscape : Str → Str → Nat → Prop
  | letter {l c : UInt8} {t : Str} : (l, c) ∈ controlLetters → NextEscape [0x5C, l] t c.toNat
  | oct {ds t : Str} : 1 ≤ ds.length → ds.length ≤ 3 → (∀ d ∈ ds, IsOct d) →
      (ds.length < 3 → NoOctFollows t) → NextEscape (0x5C :: ds) t (number 8 ds)
  | hex {l : UInt8} {ds t : Str} : l = 0x78 ∨ l = 0x58 → 1 ≤ ds.length → ds.length ≤ 8 → (∀ d ∈ ds, IsHex d) →
      (ds.length < 8 → NoHexAhead t) → NextEscape (0x5C :: l :: ds) t (number 16 ds)
  | long {ds t : Str} : ds.length = 8 → (∀ d ∈ ds, IsHex d) → NextEscape (0x5C :: 0x55 :: ds) t (number 16 ds)
  | short {ds t : Str} : ds.length = 4 → (∀ d ∈ ds, IsHex d) → ¬ HighSurrogate (number 16 ds) →
      NextEscape (0x5C :: 0x75 :: ds) t (number 16 ds)
  | pair {ds es t : Str} : ds.length = 4 → (∀ d ∈ ds, IsHex d) → HighSurrogate (number 16 ds) →
      es.length = 4 → (∀ d ∈ es, IsHex d) → LowSurrogate (number 16 es) →
      NextEscape (0x5C :: 0x75 :: (ds ++ 0x5C :: 0x75 :: es)) t (pairValue (number 16 ds) (number 16 es))
  | lone {ds t : Str} : ds.length = 4 → (∀ d ∈ ds, IsHex d) → HighSurrogate (number 16 ds) →
      ¬ LowEscapeAhead t → ¬ BadPair t → NextEscape (0x5C :: 0x75 :: ds) t (number 16 ds)
  /-- any other UTF-8 sequence stands for itself -/
  | char {b : UInt8} {u t : Str} {c : Char32} : b ∉ reserved → IsSeq (b :: u) c →
      NextEscape (0x5C :: b :: u) t c.toNat

/-- The bytes start with a backslash but not with an escape sequence. -/
inductive BadNext : Str → Prop
  | alone : BadNext [0x5C]
  | hex {l : UInt8} {t : Str} : l = 0x78 ∨ l = 0x58 → NoHexAhead t → BadNext (0x5C :: l :: t)
  | short {ds t : Str} : ds.length < 4 → (∀ d ∈ ds, IsHex d) → NoHexAhead t → BadNext (0x5C :: 0x75 :: (ds ++ t))
  | long {ds t : Str} : ds.length < 8 → (∀ d ∈ ds, IsHex d) → NoHexAhead t → BadNext (0x5C :: 0x55 :: (ds ++ t))
  | high {ds t : Str} : ds.length = 4 → (∀ d ∈ ds, IsHex d) → HighSurrogate (number 16 ds) →
      BadPair t → BadNext (0x5C :: 0x75 :: (ds ++ t))
  | char {b : UInt8} {t : Str} : b ∉ reserved → ¬ HasSeqPrefix (b :: t) → BadNext (0x5C :: b :: t)

/-- An escape sequence of `unescape` that is neither an escaped newline nor a `\x` with more than eight digits. -/
def CommonEscape (e t o : Str) : Prop :=
  Escape e t o ∧ e ≠ [0x5C, 0x0A] ∧ ∀ l ds, l = 0x78 ∨ l = 0x58 → e = 0x5C :: l :: ds → ds.length ≤ 8

/-- An escape sequence of `unescape` other than the escape sequence of a high surrogate that stands alone. -/
def PairedEscape (e t o : Str) : Prop :=
  Escape e t o ∧ ∀ ds, e = 0x5C :: 0x75 :: ds → ds.length = 4 → ¬ HighSurrogate (number 16 ds)

end Ystring.Spec
