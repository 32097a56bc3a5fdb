import Verif.Spec.Threads
/-
What the statements `C113_*` talk about: threads whose memory is changed by others while they are working, in any way.
-/
namespace Ystring.Spec
open Thr Ptr

/-- What happens next: a thread makes its next access to the memory, or something outside of the library (another process that has mapped
the memory, a device, a thread that does not keep to the rules) changes the memory to `m`. -/
inductive Event (ι : Type)
  | access (i : ι)
  | disturb (m : Mem)

variable {ι α : Type} [DecidableEq ι]

/-- the state after an event -/
def State.react (s : State ι α) : Event ι → State ι α
  | .access i => s.step i
  | .disturb m => ⟨s.left, m⟩

/-- the state after a history of events -/
def State.afterAll (s : State ι α) (history : List (Event ι)) : State ι α := history.foldl State.react s

/-- How many accesses a thread has made -/
def accesses (i : ι) : List (Event ι) → Nat
  | [] => 0
  | .access j :: h => (if j = i then 1 else 0) + accesses i h
  | .disturb _ :: h => accesses i h

/-- the number of bytes -/
def Range.size (r : Range) : Nat := r.last - r.first

/-- The largest number of accesses to the memory that a call makes -/
def Call.bound : Call → Nat
  | decodeNext _ _ => 8
  | decodePrev _ _ => 15
  | skipNext it last => last - it
  | isValidUtf8 r | toUtf32 r | contains r _ | findFirstWhere r _ _ | toLower r | toUpper r | toTitle r =>
    2 * Range.size r + 8
  | countCodepoints r => 2 * Range.size r
  | findLastWhere r _ _ => 3 * Range.size r + 15
  | compare r r' | equal r r' | less r r' | startsWith r r' => 2 * Range.size r + 2 * Range.size r' + 8
  | endsWith r r' => 3 * Range.size r + 3 * Range.size r' + 15
  | findFirst r r' _ => (Range.size r + 1) * (2 * Range.size r + 2 * Range.size r' + 8)
  | findLast r r' _ => (Range.size r + 1) * (3 * Range.size r + 3 * Range.size r' + 15)
  | skipPrev first it => it - first + 1
  | replaceInvalidUtf8 r _ => 11 * Range.size r
  | escapeJson r => 4 * Range.size r
  | encodeUtf8 _ _ => 4
  | unescape r => (Range.size r + 12) * (2 * Range.size r + 21)
  | countChars r => 10 * Range.size r
  | getCharPos r pos | getCharRange r pos => if pos ≥ 0 then 10 * Range.size r else 3 * Range.size r + 15
  | reverse r => 4 * Range.size r + 15
  | getCodepoint r pos => if pos ≥ 0 then 2 * Range.size r + 8 else 6 * Range.size r + 15
  | getCodepointPos r pos => if pos ≥ 0 then 2 * Range.size r else 6 * Range.size r
  | toComposed r => 3 * Range.size r + 8
  | trimStartWhere r _ => 2 * Range.size r + 8
  | trimEndWhere r _ => 3 * Range.size r + 15
  | trimWhere r _ => 5 * Range.size r + 23
  | findFirstNewline _ r _ => 2 * Range.size r + 16
  | findLastNewline _ r _ => 3 * Range.size r + 30
  | getCharSubstring r _ _ => 20 * Range.size r + 30
  | getCodepointSubstring r _ _ => 12 * Range.size r

/-- The strings and buffers are not larger than what a machine with 64-bit addresses has. -/
def Call.Fits (c : Call) : Prop := ∀ r ∈ c.args ++ c.buffers, Range.size r + 12 < 2 ^ 64

/-- The calls that are defined whatever the bytes of their arguments are: not the ones that decode backwards (seven continuation bytes behind another byte, C64), and
not `unescape` (C58) and `to_composed` (C55); `find_first_where`, `find_first` and
`find_first_newline` need an offset in the string, and a position is not the smallest
`ptrdiff_t`. -/
def Call.Robust : Call → Prop
  | decodePrev _ _ | findLastWhere _ _ _ | endsWith _ _ | findLast _ _ _ | unescape _ | reverse _ | toComposed _ => False
  | trimEndWhere _ _ | trimWhere _ _ | findLastNewline _ _ _ => False
  | getCharSubstring _ i j => i ≥ 0 ∧ j ≥ 0
  | getCodepointSubstring _ i j => i > PTRDIFF_MIN ∧ j > PTRDIFF_MIN
  | getCharPos _ pos | getCharRange _ pos | getCodepoint _ pos => pos ≥ 0
  | getCodepointPos _ pos => pos ≠ PTRDIFF_MIN
  | findFirstWhere r _ offset | findFirst r _ offset | findFirstNewline _ r offset => offset ≤ Range.size r
  | _ => True

end Ystring.Spec
