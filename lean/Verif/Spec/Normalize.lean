import Verif.Model.Basic
import Verif.Spec.UnicodeData.Decompositions
/-
Specification of canonical decomposition and composition, read off UnicodeData16.0.0.txt.
-/
namespace Ystring.Spec

/-- the canonical decomposition of `c` into two code points, if it has one -/
def pairOf (c : Nat) : Option (Nat × Nat) := (UD_PAIRS.find? (fun p => Nat.beq p.1 c)).map (·.2)

/-- the canonical decomposition of `c` into one code point, if it has one -/
def singleOf (c : Nat) : Option Nat := (UD_SINGLETONS.find? (fun p => Nat.beq p.1 c)).map (·.2)

/-- the code point whose canonical decomposition is `b`, `m`, if there is one -/
def composite (b m : Nat) : Option Nat :=
  (UD_PAIRS.find? (fun p => Nat.beq p.2.1 b && Nat.beq p.2.2 m)).map (·.1)

/-- a Hangul syllable -/
def IsHangul (c : Nat) : Prop := 0xAC00 ≤ c ∧ c ≤ 0xD7A3

/-- `Canon c l`: `l` is the full (recursive) canonical decomposition of `c` (Unicode Standard, sections 3.7 and
3.12), without canonical reordering. -/
inductive Canon : Nat → List Nat → Prop
  | atom {c : Nat} : pairOf c = none → singleOf c = none → ¬ IsHangul c → Canon c [c]
  | single {c d : Nat} {l : List Nat} : singleOf c = some d → Canon d l → Canon c l
  | pair {c b m : Nat} {l k : List Nat} : pairOf c = some (b, m) → Canon b l → Canon m k → Canon c (l ++ k)
  | lv {c : Nat} : IsHangul c → (c - 0xAC00) % 28 = 0 →
      Canon c [0x1100 + (c - 0xAC00) / 588, 0x1161 + (c - 0xAC00) % 588 / 28]
  | lvt {c : Nat} : IsHangul c → (c - 0xAC00) % 28 ≠ 0 →
      Canon c [0x1100 + (c - 0xAC00) / 588, 0x1161 + (c - 0xAC00) % 588 / 28, 0x11A7 + (c - 0xAC00) % 28]

/-- `CanonText cs ds`: `ds` is the concatenation of the canonical decompositions of the code points `cs`. -/
inductive CanonText : List Char32 → List Char32 → Prop
  | nil : CanonText [] []
  | cons {c : Char32} {l : List Nat} {cs ds : List Char32} : Canon c.toNat l → CanonText cs ds →
      CanonText (c :: cs) (l.map UInt32.ofNat ++ ds)

/-- the same for texts given by numbers -/
inductive CanonSeq : List Nat → List Nat → Prop
  | nil : CanonSeq [] []
  | cons {c : Nat} {l cs ds : List Nat} : Canon c l → CanonSeq cs ds → CanonSeq (c :: cs) (l ++ ds)

/-- `LibText cs ds`: as `CanonText`, except that singletons and Hangul syllables are kept, and only decompositions
with at most three components are allowed. -/
inductive LibText : List Char32 → List Char32 → Prop
  | nil : LibText [] []
  | keep {c : Char32} {cs ds : List Char32} : singleOf c.toNat ≠ none ∨ IsHangul c.toNat → LibText cs ds →
      LibText (c :: cs) (c :: ds)
  | cons {c : Char32} {l : List Nat} {cs ds : List Char32} : singleOf c.toNat = none → ¬ IsHangul c.toNat →
      Canon c.toNat l → l.length ≤ 3 → LibText cs ds → LibText (c :: cs) (l.map UInt32.ofNat ++ ds)

/-! ### Composition -/

/-- Composition from left to right: while the code point read so far (`cur`) and the next one are a pair for `comp`,
they are replaced by the composite; otherwise `cur` is final. Every final code point carries a flag that tells whether
it was composed (`f`: the flag of `cur`). -/
def composeRuns (comp : Nat → Nat → Option Nat) : (cur : Nat) → (f : Bool) → List Nat → List (Bool × Nat)
  | cur, f, [] => [(f, cur)]
  | cur, f, m :: cs => match comp cur m with
    | some c => composeRuns comp c true cs
    | none => (f, cur) :: composeRuns comp m false cs

/-- the flagged result of composing a text -/
def composePieces (comp : Nat → Nat → Option Nat) : List Nat → List (Bool × Nat)
  | [] => []
  | c :: cs => composeRuns comp c false cs

/-- composition from left to right with all canonical pairs of UnicodeData -/
def composeText (cs : List Nat) : List Nat := (composePieces composite cs).map (·.2)

/-- the pairs that the library composes: those whose first code point is below U+1000 -/
def libComposite (b m : Nat) : Option Nat := if b < 0x1000 then composite b m else none

/-- the next piece is composed, or there is none -/
def endsHere {α : Type} : List (Bool × α) → Bool
  | [] => true
  | p :: _ => p.1

/-- What the library loses: every copied piece that directly follows a composed piece (`pc`: the previous piece was
composed) and is directly followed by a composed piece or by the end. -/
def dropLost {α : Type} : (pc : Bool) → List (Bool × α) → List α
  | _, [] => []
  | _, (true, c) :: ps => c :: dropLost true ps
  | pc, (false, c) :: ps => if pc && endsHere ps then dropLost false ps else c :: dropLost false ps

/-- no two adjacent code points `a`, `b` with `b ≥ U+0300` that come after the last pair (U+1D1BC, U+1D16F) -/
def NoOverrun (cs : List Nat) : Prop :=
  ∀ p a b q, cs = p ++ a :: b :: q → b < 0x300 ∨ a < 0x1D1BC ∨ (a = 0x1D1BC ∧ b ≤ 0x1D16F)

/-- What the library looks up for two code points: the key leaves 20 bits for the second, so bit 20 of a code point of plane
16 falls into the first. -/
def libPair (b m : Nat) : Nat × Nat := if m < 0x100000 then (b, m) else (b ||| 1, m - 0x100000)

/-- the pairs that the library composes, for any code points -/
def libCompositeAll (b m : Nat) : Option Nat := libComposite (libPair b m).1 (libPair b m).2

/-- as `NoOverrun`, for a text that begins with `cur`, with the composites that take the place of their parts -/
def NoOverrunFrom : (cur : Nat) → List Nat → Prop
  | _, [] => True
  | cur, m :: cs => (m < 0x300 ∨ cur < 0x1D1BC ∨ (cur = 0x1D1BC ∧ m ≤ 0x1D16F)) ∧
      NoOverrunFrom ((libCompositeAll cur m).getD m) cs

/-- as `NoOverrun`, for any code points -/
def NoOverrunAll : List Nat → Prop
  | [] => True
  | c :: cs => NoOverrunFrom c cs

/-- no code point of plane 16 is taken for a mark -/
def NoAlias (cs : List Nat) : Prop := composePieces libCompositeAll cs = composePieces libComposite cs

end Ystring.Spec
