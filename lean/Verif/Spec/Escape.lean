import Verif.Spec.Utf8
/-
Independent specification of JSON string escaping (RFC 8259, section 7) and of the escape sequences of
`unescape` / `unescape_next`. Nothing here refers to the model's functions.
-/
namespace Ystring.Spec

/-- The number of bytes fits in `ptrdiff_t`, as it does for every object in memory. -/
def Fits (s : Str) : Prop := (s.length : Int) ≤ PTRDIFF_MAX

/-! ### Digits and numbers -/

/-- The value of a hexadecimal digit, of either case. -/
def hexVal (b : UInt8) : Option Nat :=
  let n := b.toNat
  if 0x30 ≤ n ∧ n ≤ 0x39 then some (n - 0x30)            -- 0-9
  else if 0x41 ≤ n ∧ n ≤ 0x46 then some (n - 0x41 + 10)  -- A-F
  else if 0x61 ≤ n ∧ n ≤ 0x66 then some (n - 0x61 + 10)  -- a-f
  else none

def IsHex (b : UInt8) : Prop := (hexVal b).isSome = true
def IsOct (b : UInt8) : Prop := 0x30 ≤ b.toNat ∧ b.toNat ≤ 0x37

instance (b : UInt8) : Decidable (IsHex b) := by unfold IsHex; infer_instance
instance (b : UInt8) : Decidable (IsOct b) := by unfold IsOct; infer_instance

/-- The number written with the digits `ds`, most significant first. -/
def number (base : Nat) (ds : Str) : Nat := ds.foldl (fun a d => a * base + (hexVal d).getD 0) 0

/-- The UTF-8 encoding of a number, nothing if it is not a Unicode code point. -/
def utf8OrNothing (v : Nat) : Str := if v ≤ 0x10FFFF then rfcEncode v else []

def HighSurrogate (v : Nat) : Prop := 0xD800 ≤ v ∧ v ≤ 0xDBFF
def LowSurrogate (v : Nat) : Prop := 0xDC00 ≤ v ∧ v ≤ 0xDFFF

instance (v : Nat) : Decidable (HighSurrogate v) := by unfold HighSurrogate; infer_instance
instance (v : Nat) : Decidable (LowSurrogate v) := by unfold LowSurrogate; infer_instance

/-- The code point denoted by a surrogate pair (Unicode, table 3-5). -/
def pairValue (hi lo : Nat) : Nat := 0x10000 + (hi - 0xD800) * 0x400 + (lo - 0xDC00)

/-! ### JSON strings -/

/-- Characters with a two-character escape in JSON: `"`, `\`, `/`, and b, f, n, r, t. -/
def jsonLetters : List (UInt8 × UInt8) :=
  [(0x22, 0x22), (0x5C, 0x5C), (0x2F, 0x2F), (0x62, 0x08), (0x66, 0x0C), (0x6E, 0x0A), (0x72, 0x0D),
    (0x74, 0x09)]

/-- `JsonText s v`: the bytes `s` between the quotes of a JSON string are grammatical (RFC 8259, section 7,
reading bytes from 0x80 as parts of unescaped characters), and `v` are the bytes of the string value. Surrogate
escapes are left out: they are not needed here. -/
inductive JsonText : Str → Str → Prop
  | nil : JsonText [] []
  | unescaped {b : UInt8} {s v : Str} : 0x20 ≤ b.toNat → b ≠ 0x22 → b ≠ 0x5C → JsonText s v →
      JsonText (b :: s) (b :: v)
  | letter {l c : UInt8} {s v : Str} : (l, c) ∈ jsonLetters → JsonText s v →
      JsonText (0x5C :: l :: s) (c :: v)
  | hex {ds s v : Str} : ds.length = 4 → (∀ d ∈ ds, IsHex d) →
      ¬ HighSurrogate (number 16 ds) → ¬ LowSurrogate (number 16 ds) → JsonText s v →
      JsonText (0x5C :: 0x75 :: (ds ++ s)) (rfcEncode (number 16 ds) ++ v)

/-- What JSON requires to be escaped: control characters, the quote and the backslash. -/
def MustEscape (b : UInt8) : Prop := b.toNat < 0x20 ∨ b = 0x22 ∨ b = 0x5C

instance (b : UInt8) : Decidable (MustEscape b) := by unfold MustEscape; infer_instance

/-- Upper case hexadecimal digit. -/
def upperHex (n : Nat) : UInt8 := UInt8.ofNat (if n < 10 then 0x30 + n else 0x41 + (n - 10))

/-- The escaped form of one byte: the two-character form if there is one for a character that must be escaped,
else `\u00XX`. -/
def jsonByte (b : UInt8) : Str :=
  if b.toNat = 0x22 then [0x5C, 0x22]
  else if b.toNat = 0x5C then [0x5C, 0x5C]
  else if b.toNat = 0x08 then [0x5C, 0x62]
  else if b.toNat = 0x0C then [0x5C, 0x66]
  else if b.toNat = 0x0A then [0x5C, 0x6E]
  else if b.toNat = 0x0D then [0x5C, 0x72]
  else if b.toNat = 0x09 then [0x5C, 0x74]
  else if b.toNat < 0x20 then [0x5C, 0x75, 0x30, 0x30, upperHex (b.toNat / 16), upperHex (b.toNat % 16)]
  else [b]

/-- The escaped form of a string. -/
def jsonEscaped (s : Str) : Str := s.flatMap jsonByte

/-! ### Escape sequences -/

/-- Letters that denote a control character. -/
def controlLetters : List (UInt8 × UInt8) :=
  [(0x61, 0x07), (0x62, 0x08), (0x66, 0x0C), (0x6E, 0x0A), (0x72, 0x0D), (0x74, 0x09), (0x76, 0x0B)]

/-- ASCII characters with a special meaning after a backslash: abfnrtv, xXuU and 0-7. -/
def reserved : List UInt8 :=
  [0x61, 0x62, 0x66, 0x6E, 0x72, 0x74, 0x76, 0x78, 0x58, 0x75, 0x55,
    0x30, 0x31, 0x32, 0x33, 0x34, 0x35, 0x36, 0x37]

/-- `t` is empty or starts with a byte that is not a hexadecimal digit. -/
def NoHexAhead (t : Str) : Prop := ∀ b t', t = b :: t' → ¬ IsHex b

/-- `t` starts with a byte that is not an octal digit (in particular it is not empty). -/
def NonOctAhead (t : Str) : Prop := ∃ b t', t = b :: t' ∧ ¬ IsOct b

/-- The bytes start with a backslash that does not begin an escape sequence of `unescape`. -/
inductive BadStart : Str → Prop
  /-- a lone backslash -/
  | alone : BadStart [0x5C]
  /-- a backslash before a byte that is not ASCII -/
  | nonAscii {b : UInt8} {t : Str} : 0x80 ≤ b.toNat → BadStart (0x5C :: b :: t)
  /-- fewer than two hexadecimal digits after `\x` or `\X` -/
  | hex {l : UInt8} {ds t : Str} : l = 0x78 ∨ l = 0x58 → ds.length < 2 → (∀ d ∈ ds, IsHex d) →
      NoHexAhead t → BadStart (0x5C :: l :: (ds ++ t))
  /-- a byte that is not a hexadecimal digit among the four after `\u` -/
  | short {ds t : Str} {b : UInt8} : ds.length < 4 → (∀ d ∈ ds, IsHex d) → ¬ IsHex b →
      BadStart (0x5C :: 0x75 :: (ds ++ b :: t))
  /-- a byte that is not a hexadecimal digit among the eight after `\U` -/
  | long {ds t : Str} {b : UInt8} : ds.length < 8 → (∀ d ∈ ds, IsHex d) → ¬ IsHex b →
      BadStart (0x5C :: 0x55 :: (ds ++ b :: t))

/-- The escape of a low surrogate comes next. -/
def LowEscapeAhead (t : Str) : Prop :=
  ∃ ds t', t = 0x5C :: 0x75 :: (ds ++ t') ∧ ds.length = 4 ∧ (∀ d ∈ ds, IsHex d) ∧ LowSurrogate (number 16 ds)

/-- The first backslash among the six bytes after a high surrogate starts no escape sequence (when only those six
bytes are considered), or all that is left is a `\u` without digits. -/
def BadSecond (t : Str) : Prop :=
  t = [0x5C, 0x75] ∨ ∃ p w, t.take 6 = p ++ w ∧ 0x5C ∉ p ∧ BadStart w

/-- `Escape e t o`: `e` is a complete escape sequence of `unescape`, when followed by the bytes `t`, and it is
replaced by `o`. -/
inductive Escape : Str → Str → Str → Prop
  | letter {l c : UInt8} {t : Str} : (l, c) ∈ controlLetters → Escape [0x5C, l] t [c]
  | other {b : UInt8} {t : Str} : b.toNat < 0x80 → b ∉ reserved → Escape [0x5C, b] t [b]
  | oct {ds t : Str} : 1 ≤ ds.length → ds.length ≤ 3 → (∀ d ∈ ds, IsOct d) →
      (ds.length < 3 → NonOctAhead t) → Escape (0x5C :: ds) t (rfcEncode (number 8 ds))
  | hex {l : UInt8} {ds t : Str} : l = 0x78 ∨ l = 0x58 → 2 ≤ ds.length → (∀ d ∈ ds, IsHex d) →
      NoHexAhead t → number 16 ds < 2 ^ 32 → Escape (0x5C :: l :: ds) t (utf8OrNothing (number 16 ds))
  | long {ds t : Str} : ds.length = 8 → (∀ d ∈ ds, IsHex d) →
      Escape (0x5C :: 0x55 :: ds) t (utf8OrNothing (number 16 ds))
  | short {ds t : Str} : ds.length = 4 → (∀ d ∈ ds, IsHex d) → ¬ HighSurrogate (number 16 ds) →
      Escape (0x5C :: 0x75 :: ds) t (rfcEncode (number 16 ds))
  | pair {ds es t : Str} : ds.length = 4 → (∀ d ∈ ds, IsHex d) → HighSurrogate (number 16 ds) →
      es.length = 4 → (∀ d ∈ es, IsHex d) → LowSurrogate (number 16 es) →
      Escape (0x5C :: 0x75 :: (ds ++ 0x5C :: 0x75 :: es)) t
        (rfcEncode (pairValue (number 16 ds) (number 16 es)))
  | lone {ds t : Str} : ds.length = 4 → (∀ d ∈ ds, IsHex d) → HighSurrogate (number 16 ds) →
      ¬ LowEscapeAhead t → ¬ BadSecond t → Escape (0x5C :: 0x75 :: ds) t (rfcEncode (number 16 ds))

/-- The sequences everyone agrees on: those of the previous definition that denote a Unicode code point, without
unpaired high surrogates. -/
inductive PlainEscape : Str → Str → Str → Prop
  | letter {l c : UInt8} {t : Str} : (l, c) ∈ controlLetters → PlainEscape [0x5C, l] t [c]
  | other {b : UInt8} {t : Str} : b.toNat < 0x80 → b ∉ reserved → PlainEscape [0x5C, b] t [b]
  | oct {ds t : Str} : 1 ≤ ds.length → ds.length ≤ 3 → (∀ d ∈ ds, IsOct d) →
      (ds.length < 3 → NonOctAhead t) → PlainEscape (0x5C :: ds) t (rfcEncode (number 8 ds))
  | hex {l : UInt8} {ds t : Str} : l = 0x78 ∨ l = 0x58 → 2 ≤ ds.length → (∀ d ∈ ds, IsHex d) →
      NoHexAhead t → number 16 ds ≤ 0x10FFFF → PlainEscape (0x5C :: l :: ds) t (rfcEncode (number 16 ds))
  | long {ds t : Str} : ds.length = 8 → (∀ d ∈ ds, IsHex d) → number 16 ds ≤ 0x10FFFF →
      PlainEscape (0x5C :: 0x55 :: ds) t (rfcEncode (number 16 ds))
  | short {ds t : Str} : ds.length = 4 → (∀ d ∈ ds, IsHex d) → ¬ HighSurrogate (number 16 ds) →
      PlainEscape (0x5C :: 0x75 :: ds) t (rfcEncode (number 16 ds))
  | pair {ds es t : Str} : ds.length = 4 → (∀ d ∈ ds, IsHex d) → HighSurrogate (number 16 ds) →
      es.length = 4 → (∀ d ∈ es, IsHex d) → LowSurrogate (number 16 es) →
      PlainEscape (0x5C :: 0x75 :: (ds ++ 0x5C :: 0x75 :: es)) t
        (rfcEncode (pairValue (number 16 ds) (number 16 es)))

/-- `Reads E s o t`: reading `s` from the front, bytes other than the backslash are kept, escape sequences (`E`)
are replaced, which gives `o`, and the bytes `t` remain. -/
inductive Reads (E : Str → Str → Str → Prop) : Str → Str → Str → Prop
  | stop {t : Str} : Reads E t [] t
  | plain {b : UInt8} {s o t : Str} : b ≠ 0x5C → Reads E s o t → Reads E (b :: s) (b :: o) t
  | escape {e s out o t : Str} : E e s out → Reads E s o t → Reads E (e ++ s) (out ++ o) t

/-- The bytes start with a backslash, and `unescape` reports an error there. -/
inductive Malformed : Str → Prop
  | bad {t : Str} : BadStart t → Malformed t
  /-- `\u` or `\U` with no digit at the end of the string -/
  | noDigit {l : UInt8} : l = 0x75 ∨ l = 0x55 → Malformed [0x5C, l]
  /-- a high surrogate with something malformed after it -/
  | high {ds t : Str} : ds.length = 4 → (∀ d ∈ ds, IsHex d) → HighSurrogate (number 16 ds) →
      BadSecond t → Malformed (0x5C :: 0x75 :: (ds ++ t))

/-- The bytes start with a backslash, and what `unescape` does there is undefined. -/
inductive Undefined : Str → Prop
  /-- the string ends after one or two octal digits -/
  | oct {ds : Str} : 1 ≤ ds.length → ds.length < 3 → (∀ d ∈ ds, IsOct d) → Undefined (0x5C :: ds)
  /-- the string ends after one to three digits of `\u` -/
  | short {ds : Str} : 1 ≤ ds.length → ds.length < 4 → (∀ d ∈ ds, IsHex d) → Undefined (0x5C :: 0x75 :: ds)
  /-- the string ends after one to seven digits of `\U` -/
  | long {ds : Str} : 1 ≤ ds.length → ds.length < 8 → (∀ d ∈ ds, IsHex d) → Undefined (0x5C :: 0x55 :: ds)
  /-- the value of a `\x` sequence does not fit in 32 bits -/
  | hex {l : UInt8} {ds t : Str} : l = 0x78 ∨ l = 0x58 → (∀ d ∈ ds, IsHex d) → NoHexAhead t →
      2 ^ 32 ≤ number 16 ds → Undefined (0x5C :: l :: (ds ++ t))

end Ystring.Spec
