/-
Words and identifiers, for C94.
-/
namespace Ystring.Spec

/-- whitespace, or one of the characters that separate words: the punctuation of C++ -/
def Separates (c : Char) : Prop :=
  c ∈ "'!\"#$%&/()=?+*@.:,;<>^`-_[]{}".toList ∨
  c.toNat ∈ [9, 10, 11, 12, 13, 28, 29, 30, 31, 32, 0x85, 0xA0, 0x1680, 0x2000, 0x2001, 0x2002, 0x2003, 0x2004, 0x2005, 0x2006, 0x2007,
    0x2008, 0x2009, 0x200A, 0x2028, 0x2029, 0x202F, 0x205F, 0x3000]

/-- `ws` are the words of `s`: the longest runs of characters that do not separate words, in their order -/
inductive HasWords : List Char → List (List Char) → Prop
  | none {s} : (∀ c ∈ s, Separates c) → HasWords s []
  | word {p w r ws} : (∀ c ∈ p, Separates c) → w ≠ [] → (∀ c ∈ w, ¬ Separates c) →
      (∀ c, r.head? = some c → Separates c) → HasWords r ws → HasWords (p ++ w ++ r) (w :: ws)

/-- the words with single underscores between them -/
def underscored : List (List Char) → List Char
  | [] => []
  | w :: ws => w ++ ws.flatMap ('_' :: ·)

/-- an identifier of C++ (of ASCII characters) -/
def IsIdentifier (s : List Char) : Prop :=
  s ≠ [] ∧ (∀ c ∈ s, c.isAlphanum = true ∨ c = '_') ∧ ∀ c, s.head? = some c → c.isDigit = false

end Ystring.Spec
