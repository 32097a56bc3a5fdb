import Verif.Model.ThreadsViews
import Verif.Model.View
import Verif.Spec.Pointers
/-
What the statements about threads (`C111_*`) talk about: any number of threads, each of them in one call of a function of the library, that
share a memory. A schedule says which thread makes its next access to the memory. (In C++ a program without data races has no other
executions than these.)
-/
namespace Ystring.Spec
open Thr Ptr

/-- The memory after an assignment -/
def assign (m : Mem) (a : Nat) (x : UInt8) : Mem := fun i => if i = a then x else m i

/-- What a call does if it is alone: its outcome, and the memory afterwards -/
def alone {α : Type} : Prog α → Mem → Res α × Mem
  | .done r, m => (r, m)
  | .load a k, m => alone (k (m a)) m
  | .store a x p, m => alone p (assign m a x)

/-- What each of the threads still has to do, and the memory -/
structure State (ι α : Type) where
  left : ι → Prog α
  mem : Mem

variable {ι α : Type} [DecidableEq ι]

/-- Thread `i` makes its next access to the memory. -/
def State.step (s : State ι α) (i : ι) : State ι α :=
  match s.left i with
  | .done _ => s
  | .load a k => ⟨fun j => if j = i then k (s.mem a) else s.left j, s.mem⟩
  | .store a x p => ⟨fun j => if j = i then p else s.left j, assign s.mem a x⟩

/-- The threads make accesses in this order. -/
def State.after (s : State ι α) (schedule : List ι) : State ι α := schedule.foldl State.step s

/-- The next access of a thread is a read of the byte at `a`. -/
def WillRead (p : Prog α) (a : Nat) : Prop := ∃ k, p = .load a k

/-- The next access of a thread is an assignment to the byte at `a`. -/
def WillWrite (p : Prog α) (a : Nat) : Prop := ∃ x q, p = .store a x q

/-- A data race: two threads are about to access the same byte, and at least one of them writes. -/
def State.Race (s : State ι α) : Prop :=
  ∃ i j a, i ≠ j ∧ WillWrite (s.left i) a ∧ (WillRead (s.left j) a ∨ WillWrite (s.left j) a)

/-! ### The calls -/

/-- A call of a function of the library. Strings are given by where they are in memory. The comparisons and searches for a string are those of
the namespace `case_insensitive`. `behind` is what is in memory behind the table of newlines (C22). -/
inductive Call
  | decodeNext (it last : Nat)
  | decodePrev (first it : Nat)
  | skipNext (it last : Nat)
  | isValidUtf8 (str : Range)
  | toUtf32 (str : Range)
  | contains (str : Range) (chr : Char32)
  | countCodepoints (str : Range)
  | findFirstWhere (str : Range) (pred : Char32 → Bool) (offset : Nat)
  | findLastWhere (str : Range) (pred : Char32 → Bool) (offset : Nat)
  | toLower (str : Range)
  | toUpper (str : Range)
  | compare (str cmp : Range)
  | skipPrev (first it : Nat)
  | toTitle (str : Range)
  | equal (str cmp : Range)
  | less (str cmp : Range)
  | startsWith (str cmp : Range)
  | endsWith (str cmp : Range)
  | findFirst (str cmp : Range) (offset : Nat)
  | findLast (str cmp : Range) (offset : Nat)
  | replaceInvalidUtf8 (str : Range) (chr : Char32)
  | escapeJson (str : Range)
  | encodeUtf8 (dst : Range) (c : Char32)
  | unescape (str : Range)
  | countChars (str : Range)
  | getCharPos (str : Range) (pos : Int)
  | getCharRange (str : Range) (pos : Int)
  | reverse (str : Range)
  | getCodepoint (str : Range) (pos : Int)
  | getCodepointPos (str : Range) (pos : Int)
  | toComposed (str : Range)
  | trimStartWhere (str : Range) (pred : Char32 → Bool)
  | trimEndWhere (str : Range) (pred : Char32 → Bool)
  | trimWhere (str : Range) (pred : Char32 → Bool)
  | findFirstNewline (behind : List Char32) (str : Range) (offset : Nat)
  | findLastNewline (behind : List Char32) (str : Range) (offset : Nat)
  | getCharSubstring (str : Range) (startIndex endIndex : Int)
  | getCodepointSubstring (str : Range) (startIndex endIndex : Int)

/-- What the calls return: numbers, truth values, new strings, a code point and where the iterator is, a code point and where it was found,
where a string was found, and views of a part of a string -/
inductive Value
  | bool (b : Bool)
  | num (n : Nat)
  | int (n : Int)
  | text (s : Str)
  | codepoints (s : List Char32)
  | decoded (c : Char32) (it : Nat)
  | skipped (b : Bool) (it : Nat)
  | found (sub : Subrange) (c : Char32)
  | range (sub : Subrange)
  | view (v : Range)

/-- apply `f` to the result of a call -/
def Prog.map {β : Type} (f : β → α) (p : Prog β) : Prog α := p >>= fun b => .done (.ok (f b))

/-- The accesses that a call makes -/
def Call.prog : Call → Prog Value
  | decodeNext it last => Prog.map (fun x => .decoded x.1 x.2) (Thr.decodeNext ⟨it, last⟩ it)
  | decodePrev first it => Prog.map (fun x => .decoded x.1 x.2) (Thr.decodePrev ⟨first, it⟩ it)
  | skipNext it last => Prog.map (fun x => .skipped x.1 x.2) (Thr.skipNext ⟨it, last⟩ it)
  | isValidUtf8 r => Prog.map .bool (Thr.isValidUtf8 r)
  | toUtf32 r => Prog.map .codepoints (Thr.toUtf32 r)
  | contains r c => Prog.map .bool (Thr.contains r c)
  | countCodepoints r => Prog.map .num (Thr.countCodepoints r)
  | findFirstWhere r pred o => Prog.map (fun x => .found x.1 x.2) (Thr.findFirstWhere r pred o)
  | findLastWhere r pred o => Prog.map (fun x => .found x.1 x.2) (Thr.findLastWhere r pred o)
  | toLower r => Prog.map .text (Thr.toLower r)
  | toUpper r => Prog.map .text (Thr.toUpper r)
  | compare r r' => Prog.map .int (Thr.compare r r')
  | skipPrev first it => Prog.map (fun x => .skipped x.1 x.2) (Thr.skipPrev ⟨first, it⟩ it)
  | toTitle r => Prog.map .text (Thr.toTitle r)
  | equal r r' => Prog.map .bool (Thr.equal r r')
  | less r r' => Prog.map .bool (Thr.less r r')
  | startsWith r r' => Prog.map .bool (Thr.startsWith r r')
  | endsWith r r' => Prog.map .bool (Thr.endsWith r r')
  | findFirst r r' o => Prog.map .range (Thr.findFirst r r' o)
  | findLast r r' o => Prog.map .range (Thr.findLast r r' o)
  | replaceInvalidUtf8 r c => Prog.map .text (Thr.replaceInvalidUtf8 r c)
  | escapeJson r => Prog.map .text (Thr.escapeJson r)
  | encodeUtf8 r c => Prog.map .num (Thr.encodeUtf8Buf r c)
  | unescape r => Prog.map .num (Thr.unescape r)
  | countChars r => Prog.map .num (Thr.countChars r)
  | getCharPos r pos => Prog.map .num (Thr.getCharPos r pos)
  | getCharRange r pos => Prog.map .range (Thr.getCharRange r pos)
  | reverse r => Prog.map .text (Thr.reverse r)
  | getCodepoint r pos => Prog.map (fun x => .found x.1 x.2) (Thr.getCodepoint r pos)
  | getCodepointPos r pos => Prog.map .num (Thr.getCodepointPos r pos)
  | toComposed r => Prog.map .text (Thr.toComposed r)
  | trimStartWhere r pred => Prog.map .view (Thr.trimStartWhere r pred)
  | trimEndWhere r pred => Prog.map .view (Thr.trimEndWhere r pred)
  | trimWhere r pred => Prog.map .view (Thr.trimWhere r pred)
  | findFirstNewline b r o => Prog.map .range (Thr.findFirstNewline b r o)
  | findLastNewline b r o => Prog.map .range (Thr.findLastNewline b r o)
  | getCharSubstring r i j => Prog.map .view (Thr.getCharSubstring r i j)
  | getCodepointSubstring r i j => Prog.map .view (Thr.getCodepointSubstring r i j)

/-- The strings that a call may read -/
def Call.args : Call → List Range
  | decodeNext it last => [⟨it, last⟩]
  | decodePrev first it => [⟨first, it⟩]
  | skipNext it last => [⟨it, last⟩]
  | isValidUtf8 r | toUtf32 r | contains r _ | countCodepoints r | findFirstWhere r _ _ | findLastWhere r _ _ | toLower r | toUpper r => [r]
  | toTitle r | replaceInvalidUtf8 r _ | escapeJson r => [r]
  | countChars r | getCharPos r _ | getCharRange r _ | reverse r | getCodepoint r _ | getCodepointPos r _ | toComposed r => [r]
  | trimStartWhere r _ | trimEndWhere r _ | trimWhere r _ | findFirstNewline _ r _ | findLastNewline _ r _ => [r]
  | getCharSubstring r _ _ | getCodepointSubstring r _ _ => [r]
  | skipPrev first it => [⟨first, it⟩]
  | compare r r' | equal r r' | less r r' | startsWith r r' | endsWith r r' | findFirst r r' _ | findLast r r' _ => [r, r']
  | encodeUtf8 _ _ => []
  | unescape r => [r]

/-- The buffers that a call may change -/
def Call.buffers : Call → List Range
  | encodeUtf8 r _ => [r]
  | unescape r => [r]
  | _ => []

/-- The byte at `a` is in one of the ranges. -/
def InSome (rs : List Range) (a : Nat) : Prop := ∃ r ∈ rs, r.first ≤ a ∧ a < r.last

/-- The ranges are ranges: the end does not come before the start. -/
def Call.Proper (c : Call) : Prop := ∀ r ∈ c.args ++ c.buffers, r.first ≤ r.last

/-- No call changes what another one uses; they may read the same strings. -/
def Independent (call : ι → Call) : Prop :=
  ∀ i j, i ≠ j → ∀ a, InSome (call i).buffers a → ¬ InSome (call j).args a ∧ ¬ InSome (call j).buffers a

/-- the contents of a string -/
def text (m : Mem) (r : Range) : Str := bytes m r.first r.last

/-- A string of the caller as a view with its address -/
def viewOf (m : Mem) (r : Range) : View := ⟨some r.first, text m r⟩

/-- Where the bytes of a view are; the null pointer is address 0. -/
def placeOf (v : View) : Range := ⟨v.data.getD 0, v.data.getD 0 + v.text.length⟩

/-- What a call returns for the strings that are in memory when it begins: the functions on strings of the other statements -/
def Call.outcome (m : Mem) : Call → Res Value
  | decodeNext it last => (Ystring.decodeNext (bytes m it last)).map fun x => .decoded x.1 (last - x.2.length)
  | decodePrev first it => (Ystring.decodePrev (bytes m first it).reverse).map fun x => .decoded x.1 (first + x.2.length)
  | skipNext it last =>
    .ok (.skipped (Ystring.skipNext (bytes m it last)).1 (last - (Ystring.skipNext (bytes m it last)).2.length))
  | isValidUtf8 r => (Ystring.isValidUtf8 (text m r)).map .bool
  | toUtf32 r => (Ystring.toUtf32 (text m r)).map .codepoints
  | contains r c => (Ystring.contains (text m r) c).map .bool
  | countCodepoints r => (Ystring.countCodepoints (text m r)).map .num
  | findFirstWhere r pred o => (Ystring.findFirstWhere (text m r) pred o).map fun x => .found x.1 x.2
  | findLastWhere r pred o => (Ystring.findLastWhere (text m r) pred o).map fun x => .found x.1 x.2
  | toLower r => (Ystring.toLower (text m r)).map .text
  | toUpper r => (Ystring.toUpper (text m r)).map .text
  | compare r r' => (Ystring.CI.compare (text m r) (text m r')).map .int
  | skipPrev first it => (Ystring.skipPrev (bytes m first it).reverse).map fun x => .skipped x.1 (first + x.2.length)
  | toTitle r => (Ystring.toTitle (text m r)).map .text
  | equal r r' => (Ystring.CI.equal (text m r) (text m r')).map .bool
  | less r r' => (Ystring.CI.less (text m r) (text m r')).map .bool
  | startsWith r r' => (Ystring.CI.startsWith (text m r) (text m r')).map .bool
  | endsWith r r' => (Ystring.CI.endsWith (text m r) (text m r')).map .bool
  | findFirst r r' o => (Ystring.CI.findFirst (text m r) (text m r') o).map .range
  | findLast r r' o => (Ystring.CI.findLast (text m r) (text m r') o).map .range
  | replaceInvalidUtf8 r c => (Ystring.replaceInvalidUtf8 (text m r) c).map .text
  | escapeJson r => (Ystring.escapeJson (text m r)).map .text
  | encodeUtf8 r c => .ok (.num (Ystring.encodeUtf8Buf c (r.last - r.first)).2)
  | unescape r => (Ystring.unescapeBuf (text m r)).map fun x => .num x.2
  | countChars r => (Ystring.countChars (text m r)).map .num
  | getCharPos r pos => (Ystring.getCharPos (text m r) pos).map .num
  | getCharRange r pos => (Ystring.getCharRange (text m r) pos).map .range
  | reverse r => (Ystring.reverse (text m r)).map .text
  | getCodepoint r pos => (Ystring.getCodepoint (text m r) pos).map fun x => .found x.1 x.2
  | getCodepointPos r pos => (Ystring.getCodepointPos (text m r) pos).map .num
  | toComposed r => (Ystring.toComposed (text m r)).map .text
  | trimStartWhere r pred => (Ystring.trimStartWhereV (viewOf m r) pred).map fun v => .view (placeOf v)
  | trimEndWhere r pred => (Ystring.trimEndWhereV (viewOf m r) pred).map fun v => .view (placeOf v)
  | trimWhere r pred => (Ystring.trimWhereV (viewOf m r) pred).map fun v => .view (placeOf v)
  | findFirstNewline b r o => (Ystring.findFirstNewline b (text m r) o).map .range
  | findLastNewline b r o => (Ystring.findLastNewline b (text m r) o).map .range
  | getCharSubstring r i j => (Ystring.getCharSubstringV (viewOf m r) i j).map fun v => .view (placeOf v)
  | getCodepointSubstring r i j => (Ystring.getCodepointSubstringV (viewOf m r) i j).map fun v => .view (placeOf v)

/-- What a call leaves in its buffer, `m` being the memory at its start -/
def Call.leaves (m m' : Mem) : Call → Prop
  | encodeUtf8 r c => ∃ t, text m' r = (Ystring.encodeUtf8Buf c (r.last - r.first)).1 ++ t ∧ t <:+ text m r
  | unescape r => ∀ buf n, Ystring.unescapeBuf (text m r) = .ok (buf, n) → text m' r = buf
  | _ => True

/-- All the threads are about to begin with their calls. -/
def begin (call : ι → Call) (m : Mem) : State ι Value := ⟨fun i => (call i).prog, m⟩

end Ystring.Spec
