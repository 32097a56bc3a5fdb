import Verif.Model.CaseInsensitive
/-
The functions that walk through a string once more, with the number of bytes they read: every evaluation of `*it` for a new
position of `it` counts 1 (several tests of the same `*it` without moving `it` count once). Not counted: moving iterators,
arithmetic, table searches, callbacks and appending to results, all of which take place at most a constant number of times per byte read.
The results are those of the other models (`C108_same...`).
-/
namespace Ystring.Cost

/-- The outcome of a computation (as in include/Ystring/DecodeUtf8.hpp:24-80) together with the number of bytes it read. -/
structure Counted (α : Type) where
  val : Res α
  reads : Nat

/-- Nothing is read, as in include/Ystring/DecodeUtf8.hpp:29. -/
protected def Counted.pure {α : Type} (a : α) : Counted α := ⟨.ok a, 0⟩

/-- One statement after the other, as in include/Ystring/DecodeUtf8.hpp:31-36; an exception ends the computation. -/
protected def Counted.bind {α β : Type} (x : Counted α) (f : α → Counted β) : Counted β :=
  match x.val with
  | .ok a => ⟨(f a).val, x.reads + (f a).reads⟩
  | .error e => ⟨.error e, x.reads⟩

instance : Monad Counted where
  pure := Counted.pure
  bind := Counted.bind

/-- `*it` at a new position (include/Ystring/DecodeUtf8.hpp:31) -/
def read : Counted Unit := ⟨.ok (), 1⟩

/-- a computation that reads nothing, for example the exception in include/Ystring/DecodeUtf8.hpp:189 -/
def lift {α : Type} (r : Res α) : Counted α := ⟨r, 0⟩

/-! ### DecodeUtf8.hpp -/

/-- include/Ystring/DecodeUtf8.hpp:63-77 -/
def decodeNextLoop : (n i : Nat) → (result : Char32) → (passed it : Str) → Counted (Char32 × Str)
  | 0, _, result, _, it => lift (.ok (result, it))
  | _ + 1, _, _, _, [] => lift (.error .ub)
  | n + 1, i, result, passed, c :: it => do
    read
    if c &&& 0xC0 = 0x80 then
      decodeNextLoop n (i + 1) (result <<< 6 ||| (c &&& 0x3F).toUInt32) (c :: passed) it
    else
      let it ← lift (stepBack (i + 1) passed (c :: it))
      lift (.ok (INVALID_CHAR, it))

/-- include/Ystring/DecodeUtf8.hpp:57-77 -/
def decodeNextCont (b : UInt8) (it : Str) (result : UInt8) (n : Nat) : Counted (Char32 × Str) :=
  if n > it.length then do
    let it ← lift (stepBack 1 [b] it)
    lift (.ok (INVALID_CHAR, it))
  else decodeNextLoop n 0 result.toUInt32 [b] it

/-- include/Ystring/DecodeUtf8.hpp:25-80 -/
def decodeNext : Str → Counted (Char32 × Str)
  | [] => lift (.ok (INVALID_CHAR, []))
  | b :: it => do
    read
    if b &&& 0x80 = 0 then lift (.ok (b.toUInt32, it))
    else if b &&& 0xE0 = 0xC0 then decodeNextCont b it (b &&& 0x1F) 1
    else if b &&& 0xF0 = 0xE0 then decodeNextCont b it (b &&& 0x0F) 2
    else if b &&& 0xF8 = 0xF0 then decodeNextCont b it (b &&& 0x07) 3
    else lift (.ok (INVALID_CHAR, b :: it))

/-- include/Ystring/DecodeUtf8.hpp:95-118; `*it` has been read when the loop is entered (line 91), and is read after `--it`
(line 104). -/
def decodePrevLoop : (n : Nat) → (result : Char32) → (cur : UInt8) → (passed rest : Str) → Counted (Char32 × Str)
  | n, result, cur, passed, rest =>
    if cur &&& 0xC0 = 0x80 then
      match rest with
      | [] => do
        let it ← lift (stepBack (n + 1) passed [])
        lift (.ok (INVALID_CHAR, it))
      | b :: rest' =>
        if n * 6 ≥ 32 then lift (.error .ub)
        else do
          read
          decodePrevLoop (n + 1)
            (result ||| ((cur &&& 0x3F).toUInt32 <<< (UInt32.ofNat (n * 6)))) b (b :: passed) rest'
    else if cur &&& 0xE0 = 0xC0 ∧ n = 1 then lift (.ok (result ||| ((cur &&& 0x1F).toUInt32 <<< 6), rest))
    else if cur &&& 0xF0 = 0xE0 ∧ n = 2 then lift (.ok (result ||| ((cur &&& 0x0F).toUInt32 <<< 12), rest))
    else if cur &&& 0xF8 = 0xF0 ∧ n = 3 then lift (.ok (result ||| ((cur &&& 0x07).toUInt32 <<< 18), rest))
    else do
      let it ← lift (stepBack (n + 1) passed rest)
      lift (.ok (INVALID_CHAR, it))

/-- include/Ystring/DecodeUtf8.hpp:82-119 -/
def decodePrev : Str → Counted (Char32 × Str)
  | [] => lift (.ok (INVALID_CHAR, []))
  | b :: rest => do
    read
    if b &&& 0x80 = 0 then lift (.ok (b.toUInt32, rest))
    else decodePrevLoop 0 0 b [b] rest

/-- include/Ystring/DecodeUtf8.hpp:142-143: `*it` is read before `n-- > 0` is evaluated. -/
def skipCont : (n : Nat) → Str → Counted Str
  | _, [] => lift (.ok [])
  | 0, b :: it => do
    read
    lift (.ok (b :: it))
  | n + 1, b :: it => do
    read
    if b &&& 0xC0 = 0x80 then skipCont n it else lift (.ok (b :: it))

/-- include/Ystring/DecodeUtf8.hpp:121-146 -/
def skipNext : Str → Counted (Bool × Str)
  | [] => lift (.ok (false, []))
  | c :: it => do
    read
    if c &&& 0x80 = 0 then lift (.ok (true, it))
    else
      let n :=
        if c &&& 0xE0 = 0xC0 then 1
        else if c &&& 0xF0 = 0xE0 then 2
        else if c &&& 0xF8 = 0xF0 then 3
        else 4294967295
      let it ← skipCont n it
      lift (.ok (true, it))

/-- include/Ystring/DecodeUtf8.hpp:155-179; `*it` has been read when the loop is entered. -/
def skipPrevLoop : (n : Nat) → (cur : UInt8) → (passed rest : Str) → Counted (Bool × Str)
  | n, cur, passed, rest =>
    if cur &&& 0xC0 = 0x80 then
      match rest with
      | [] => lift (.ok (true, []))
      | b :: rest' => do
        read
        skipPrevLoop ((n + 1) % 4294967296) b (b :: passed) rest'
    else
      let m :=
        if cur &&& 0x80 = 0 then 1
        else if cur &&& 0xE0 = 0xC0 then 2
        else if cur &&& 0xF0 = 0xE0 then 3
        else if cur &&& 0xF8 = 0xF0 then 4
        else 4294967295
      if m ≥ (n + 1) % 4294967296 then lift (.ok (true, rest))
      else do
        let it ← lift (stepBack m passed rest)
        lift (.ok (true, it))

/-- include/Ystring/DecodeUtf8.hpp:148-180 -/
def skipPrev : Str → Counted (Bool × Str)
  | [] => lift (.ok (false, []))
  | b :: rest => do
    read
    skipPrevLoop 0 b [b] rest

/-- include/Ystring/DecodeUtf8.hpp:182-191 -/
def safeDecodeNext (it : Str) : Counted (Option (Char32 × Str)) :=
  if it = [] then lift (.ok none)
  else do
    let (ch, it) ← decodeNext it
    if ch = INVALID_CHAR then lift (.error .ystring)
    else lift (.ok (some (ch, it)))

/-- include/Ystring/DecodeUtf8.hpp:193-202 -/
def safeDecodePrev (it : Str) : Counted (Option (Char32 × Str)) :=
  if it = [] then lift (.ok none)
  else do
    let (ch, it) ← decodePrev it
    if ch = INVALID_CHAR then lift (.error .ystring)
    else lift (.ok (some (ch, it)))

/-! ### Algorithms.cpp -/

/-- src/Ystring/Algorithms.cpp:49-54 -/
def containsLoop (chr : Char32) : (fuel : Nat) → (it : Str) → Counted Bool
  | 0, _ => lift (.error .diverge)
  | fuel + 1, it => do
    match ← safeDecodeNext it with
    | none => lift (.ok false)
    | some (ch, it) => if ch = chr then lift (.ok true) else containsLoop chr fuel it

/-- src/Ystring/Algorithms.cpp:45-55 -/
def contains (str : Str) (chr : Char32) : Counted Bool := containsLoop chr (str.length + 1) str

/-- src/Ystring/Algorithms.cpp:75-76 -/
def countCodepointsLoop : (fuel : Nat) → (it : Str) → (result : Nat) → Counted Nat
  | 0, _, _ => lift (.error .diverge)
  | fuel + 1, it, result => do
    match ← skipNext it with
    | (false, _) => lift (.ok result)
    | (true, it) => countCodepointsLoop fuel it (result + 1)

/-- src/Ystring/Algorithms.cpp:70-78 -/
def countCodepoints (str : Str) : Counted Nat := countCodepointsLoop (str.length + 1) str 0

/-- src/Ystring/Algorithms.cpp:345-349 -/
def isValidUtf8Loop : (fuel : Nat) → (it : Str) → Counted Bool
  | 0, _ => lift (.error .diverge)
  | fuel + 1, it =>
    if it ≠ [] then do
      let (ch, it) ← decodeNext it
      if ch = INVALID_CHAR then lift (.ok false)
      else isValidUtf8Loop fuel it
    else lift (.ok true)

/-- src/Ystring/Algorithms.cpp:342-351 -/
def isValidUtf8 (str : Str) : Counted Bool := isValidUtf8Loop (str.length + 1) str

/-- include/Ystring/Algorithms.hpp:139-144 -/
def findFirstWhereLoop (str : Str) (pred : Char32 → Bool) : (fuel : Nat) → (it prev : Str) → Counted (Subrange × Char32)
  | 0, _, _ => lift (.error .diverge)
  | fuel + 1, it, prev => do
    match ← safeDecodeNext it with
    | none => lift (.ok (⟨npos, 0⟩, INVALID_CHAR))
    | some (ch, it) =>
      if pred ch then lift (.ok (⟨posOf str prev, posOf str it - posOf str prev⟩, ch))
      else findFirstWhereLoop str pred fuel it it

/-- include/Ystring/Algorithms.hpp:131-146 -/
def findFirstWhere (str : Str) (pred : Char32 → Bool) (offset : Nat := 0) : Counted (Subrange × Char32) := do
  let it ← lift (iterAt str offset)
  findFirstWhereLoop str pred (str.length + 1) it it

/-- include/Ystring/Algorithms.hpp:205-210 -/
def findLastWhereLoop (pred : Char32 → Bool) : (fuel : Nat) → (it stop : Str) → Counted (Subrange × Char32)
  | 0, _, _ => lift (.error .diverge)
  | fuel + 1, it, stop => do
    match ← safeDecodePrev it with
    | none => lift (.ok (⟨npos, 0⟩, INVALID_CHAR))
    | some (ch, it) =>
      if pred ch then lift (.ok (⟨it.length, stop.length - it.length⟩, ch))
      else findLastWhereLoop pred fuel it it

/-- include/Ystring/Algorithms.hpp:196-212 -/
def findLastWhere (str : Str) (pred : Char32 → Bool) (offset : Nat := npos) : Counted (Subrange × Char32) :=
  let offset := min offset str.length
  let it := (str.take offset).reverse
  findLastWhereLoop pred (str.length + 1) it it

/-- src/Ystring/Algorithms.cpp:97-107; `mem`: see `pointerView`. -/
def findFirstNewline (mem : List Char32) (str : Str) (offset : Nat := 0) : Counted Subrange := do
  let (s, c) ← findFirstWhere str (u32Contains (pointerView NEWLINES mem)) offset
  if c ≠ 0x0D then lift (.ok s)
  else
    let it ← lift (iterAt str s.stop)
    match ← safeDecodeNext it with
    | none => lift (.ok s)
    | some (ch, it) =>
      if ch = 0x0A then lift (.ok ⟨s.start, sizeSub (posOf str it) s.start⟩) else lift (.ok s)

/-- src/Ystring/Algorithms.cpp:295-299 -/
def nextCharLoop : (fuel : Nat) → (it stop : Str) → Counted Str
  | 0, _, _ => lift (.error .diverge)
  | fuel + 1, it, stop => do
    match ← safeDecodeNext it with
    | none => lift (.ok stop)
    | some (ch, it) => if isMark ch then nextCharLoop fuel it it else lift (.ok stop)

/-- src/Ystring/Algorithms.cpp:287-302 -/
def getNextCharRange (str : Str) (offset : Nat) : Counted Subrange := do
  let it ← lift (iterAt str offset)
  match ← safeDecodeNext it with
  | none => lift (.ok ⟨offset, 0⟩)
  | some (_, it) =>
    let stop ← nextCharLoop (str.length + 1) it it
    lift (.ok ⟨offset, sizeSub (posOf str stop) offset⟩)

/-- src/Ystring/Algorithms.cpp:308-311 -/
def prevCharLoop : (fuel : Nat) → (it : Str) → Counted Str
  | 0, _ => lift (.error .diverge)
  | fuel + 1, it => do
    match ← safeDecodePrev it with
    | none => lift (.ok it)
    | some (ch, it) => if isMark ch then prevCharLoop fuel it else lift (.ok it)

/-- src/Ystring/Algorithms.cpp:304-315 -/
def getPrevCharRange (str : Str) (offset : Nat) : Counted Subrange := do
  let it ← lift (revIterAt str offset)
  let it ← prevCharLoop (str.length + 1) it
  lift (.ok ⟨it.length, sizeSub offset it.length⟩)

/-- src/Ystring/Algorithms.cpp:61-66 -/
def countCharsLoop (str : Str) : (fuel offset count : Nat) → Counted Nat
  | 0, _, _ => lift (.error .diverge)
  | fuel + 1, offset, count =>
    if offset ≠ str.length then do
      let range ← getNextCharRange str offset
      countCharsLoop str fuel range.stop (count + 1)
    else lift (.ok count)

/-- src/Ystring/Algorithms.cpp:57-68 -/
def countChars (str : Str) : Counted Nat := countCharsLoop str (str.length + 1) 0 0

/-- src/Ystring/Algorithms.cpp:172-178 -/
def getCharPosFwd (str : Str) : (pos offset : Nat) → Counted Nat
  | 0, offset => lift (.ok offset)
  | pos + 1, offset => do
    let range ← getNextCharRange str offset
    if !range.nonempty then lift (.ok npos)
    else getCharPosFwd str pos range.stop

/-- src/Ystring/Algorithms.cpp:183-189 -/
def getCharPosBwd (str : Str) : (pos offset : Nat) → Counted Nat
  | 0, offset => lift (.ok offset)
  | pos + 1, offset => do
    let range ← getPrevCharRange str offset
    if !range.nonempty then lift (.ok npos)
    else getCharPosBwd str pos range.start

/-- src/Ystring/Algorithms.cpp:166-193 -/
def getCharPos (str : Str) (pos : Int) : Counted Nat :=
  if pos ≥ 0 then getCharPosFwd str pos.toNat 0
  else getCharPosBwd str (-pos).toNat str.length

/-- src/Ystring/Algorithms.cpp:235-236 and 263-264 -/
def skipNextN : (pos : Nat) → (it : Str) → Counted (Nat × Str)
  | 0, it => lift (.ok (0, it))
  | pos + 1, it => do
    match ← skipNext it with
    | (false, it) => lift (.ok (pos + 1, it))
    | (true, it) => skipNextN pos it

/-- src/Ystring/Algorithms.cpp:246-247 and 271-272 -/
def skipPrevN : (pos : Nat) → (it : Str) → Counted (Nat × Str)
  | 0, it => lift (.ok (0, it))
  | pos + 1, it => do
    match ← skipPrev it with
    | (false, it) => lift (.ok (pos + 1, it))
    | (true, it) => skipPrevN pos it

/-- src/Ystring/Algorithms.cpp:256-277 -/
def getCodepointPos (str : Str) (pos : Int) : Counted Nat :=
  if pos = PTRDIFF_MIN then lift (.error .ub)
  else if (pos.natAbs : Int) > str.length then lift (.ok npos)
  else if pos ≥ 0 then do
    match ← skipNextN pos.toNat str with
    | (0, it) => lift (.ok (posOf str it))
    | _ => lift (.ok npos)
  else do
    match ← skipPrevN (-pos).toNat str.reverse with
    | (0, it) => lift (.ok it.length)
    | _ => lift (.ok npos)

/-- src/Ystring/Algorithms.cpp:432-441 -/
def replaceInvalidLoop (repl : Str) : (fuel : Nat) → (it prev result : Str) → Counted Str
  | 0, _, _, _ => lift (.error .diverge)
  | fuel + 1, it, prev, result =>
    if it ≠ [] then do
      let (ch, it) ← decodeNext it
      if ch ≠ INVALID_CHAR then replaceInvalidLoop repl fuel it prev result
      else
        let result := result ++ prev.take (prev.length - it.length) ++ repl
        let (_, it) ← skipNext it
        replaceInvalidLoop repl fuel it it result
    else lift (.ok (result ++ prev))

/-- src/Ystring/Algorithms.cpp:424-443 -/
def replaceInvalidUtf8 (str : Str) (chr : Char32 := REPLACEMENT_CHARACTER) : Counted Str :=
  replaceInvalidLoop (encodeUtf8Buf chr 4).1 (str.length + 1) str str []

/-- src/Ystring/Algorithms.cpp:456-463 -/
def reverseLoop (str : Str) : (fuel offset : Nat) → (result : Str) → Counted Str
  | 0, _, _ => lift (.error .diverge)
  | fuel + 1, offset, result =>
    if offset ≠ 0 then do
      let range ← getPrevCharRange str offset
      reverseLoop str fuel range.start (result ++ (str.drop range.start).take (range.stop - range.start))
    else lift (.ok result)

/-- src/Ystring/Algorithms.cpp:452-465 -/
def reverse (str : Str) : Counted Str := reverseLoop str (str.length + 1) str.length []

/-- include/Ystring/TokenIterator.hpp:29-39 -/
def next (finder : Str → Counted Subrange) (t : TokenIterator) : Counted (Bool × TokenIterator) :=
  let find (str : Str) : Counted (Bool × TokenIterator) := do
    let token ← finder str
    if !token.nonempty then lift (.ok (true, ⟨str, ⟨npos, token.length⟩⟩))
    else lift (.ok (true, ⟨str, token⟩))
  if t.token.nonempty then do
    let str ← lift (substr t.str t.token.stop)
    find str
  else if t.token.start ≠ 0 then lift (.ok (false, t))
  else find t.str

/-- include/Ystring/Algorithms.hpp:517-522 -/
def splitLoop (finder : Str → Counted Subrange) (params : SplitParams) : (fuel : Nat) → TokenIterator →
    List Str → Counted (TokenIterator × List Str)
  | 0, _, _ => lift (.error .diverge)
  | fuel + 1, it, result =>
    if result.length < params.maxSplits then do
      let (more, it) ← next finder it
      if more then do
        let part ← lift it.part
        if !params.ignoreEmpty || !part.isEmpty then splitLoop finder params fuel it (result ++ [part])
        else splitLoop finder params fuel it result
      else lift (.ok (it, result))
    else lift (.ok (it, result))

/-- include/Ystring/Algorithms.hpp:509-530 -/
def splitWhere (str : Str) (finder : Str → Counted Subrange) (params : SplitParams := {}) : Counted (List Str) := do
  let (it, result) ← splitLoop finder params (str.length + 2) (TokenIterator.mk' str) []
  if it.toBool then do
    let remainder ← lift it.remainder
    if !params.ignoreEmpty || !remainder.isEmpty then lift (.ok (result ++ [remainder]))
    else lift (.ok result)
  else lift (.ok result)

/-- src/Ystring/Algorithms.cpp:467-474 -/
def splitChars (str : Str) (chars : List Char32) (params : SplitParams := {}) : Counted (List Str) :=
  splitWhere str (fun s => do let r ← findFirstWhere s (u32Contains chars); lift (.ok r.1)) params

/-- src/Ystring/Algorithms.cpp:485-491; `mem`: see `pointerView`. -/
def splitLines (mem : List Char32) (str : Str) (params : SplitParams := {}) : Counted (List Str) :=
  splitWhere str (fun s => findFirstNewline mem s) params

/-- include/Ystring/Algorithms.hpp:562-570 -/
def trimEndWhere (str : Str) (pred : Char32 → Bool) : Counted Str := do
  let (sub, _) ← findLastWhere str (fun c => !pred c)
  if !sub.nonempty then lift (.ok [])
  else lift (substr str 0 sub.stop)

/-- include/Ystring/Algorithms.hpp:585-593 -/
def trimStartWhere (str : Str) (pred : Char32 → Bool) : Counted Str := do
  let (sub, _) ← findFirstWhere str (fun c => !pred c)
  if !sub.nonempty then lift (.ok [])
  else lift (substr str sub.start)

/-- include/Ystring/Algorithms.hpp:599-605 -/
def trimWhere (str : Str) (pred : Char32 → Bool) : Counted Str := do
  trimEndWhere (← trimStartWhere str pred) pred

/-! ### ConvertCase.cpp -/

/-- src/Ystring/ConvertCase.cpp:122-123 -/
def toLowerLoop : (fuel : Nat) → (it result : Str) → Counted Str
  | 0, _, _ => lift (.error .diverge)
  | fuel + 1, it, result => do
    match ← safeDecodeNext it with
    | none => lift (.ok result)
    | some (ch, it) =>
      let result ← lift (append result (toLowerChar ch))
      toLowerLoop fuel it result

/-- src/Ystring/ConvertCase.cpp:116-125 -/
def toLower (str : Str) : Counted Str := toLowerLoop (str.length + 1) str []

/-- src/Ystring/ConvertCase.cpp:134-155 -/
def toTitleLoop : (fuel : Nat) → (it result : Str) → (precededByLetter : Bool) → Counted Str
  | 0, _, _, _ => lift (.error .diverge)
  | fuel + 1, it, result, precededByLetter => do
    match ← safeDecodeNext it with
    | none => lift (.ok result)
    | some (ch, it) =>
      if !isLetter ch then
        let result ← lift (append result ch)
        toTitleLoop fuel it result false
      else if precededByLetter then
        let result ← lift (append result (toLowerChar ch))
        toTitleLoop fuel it result precededByLetter
      else if ch ≠ 0xDF then
        let result ← lift (append result (toTitleChar ch))
        toTitleLoop fuel it result true
      else
        toTitleLoop fuel it (result ++ [0x53, 0x73]) true

/-- src/Ystring/ConvertCase.cpp:127-157 -/
def toTitle (str : Str) : Counted Str := toTitleLoop (str.length + 1) str [] false

/-- src/Ystring/ConvertCase.cpp:165-171 -/
def toUpperLoop : (fuel : Nat) → (it result : Str) → Counted Str
  | 0, _, _ => lift (.error .diverge)
  | fuel + 1, it, result => do
    match ← safeDecodeNext it with
    | none => lift (.ok result)
    | some (ch, it) =>
      if ch ≠ 0xDF then
        let result ← lift (append result (toUpperChar ch))
        toUpperLoop fuel it result
      else
        toUpperLoop fuel it (result ++ [0x53, 0x53])

/-- src/Ystring/ConvertCase.cpp:159-173 -/
def toUpper (str : Str) : Counted Str := toUpperLoop (str.length + 1) str []

/-- src/Ystring/Utf32.cpp:35-36 -/
def toUtf32Loop : (fuel : Nat) → (it : Str) → (result : List Char32) → Counted (List Char32)
  | 0, _, _ => lift (.error .diverge)
  | fuel + 1, it, result => do
    match ← safeDecodeNext it with
    | none => lift (.ok result)
    | some (ch, it) => toUtf32Loop fuel it (result ++ [ch])

/-- src/Ystring/Utf32.cpp:30-38 -/
def toUtf32 (str : Str) : Counted (List Char32) := toUtf32Loop (str.length + 1) str []

/-! ### Case-insensitive functions -/

/-- src/Ystring/Algorithms.cpp:519-530 -/
def compareLoop : (fuel : Nat) → (sIt cIt : Str) → Counted Int
  | 0, _, _ => lift (.error .diverge)
  | fuel + 1, sIt, cIt => do
    let s ← safeDecodeNext sIt
    let c ← safeDecodeNext cIt
    match s, c with
    | none, none => lift (.ok 0)
    | some _, none => lift (.ok 1)
    | none, some _ => lift (.ok (-1))
    | some (sCh, sIt), some (cCh, cIt) =>
      let result := caseInsensitiveCompare sCh cCh
      if result ≠ 0 then lift (.ok result)
      else compareLoop fuel sIt cIt

/-- src/Ystring/Algorithms.cpp:515-531 -/
def compare (str cmp : Str) : Counted Int := compareLoop (str.length + 1) str cmp

/-- src/Ystring/Algorithms.cpp:544-555 -/
def equalLoop : (fuel : Nat) → (sIt cIt : Str) → Counted Bool
  | 0, _, _ => lift (.error .diverge)
  | fuel + 1, sIt, cIt => do
    let s ← safeDecodeNext sIt
    let c ← safeDecodeNext cIt
    match s, c with
    | some (sCh, sIt), some (cCh, cIt) =>
      if !caseInsensitiveEqual sCh cCh then lift (.ok false)
      else equalLoop fuel sIt cIt
    | none, none => lift (.ok true)
    | some _, none => lift (.ok false)
    | none, some _ => lift (.ok false)

/-- src/Ystring/Algorithms.cpp:540-556 -/
def equal (str cmp : Str) : Counted Bool := equalLoop (str.length + 1) str cmp

/-- src/Ystring/Algorithms.cpp:656-667 -/
def lessLoop : (fuel : Nat) → (sIt cIt : Str) → Counted Bool
  | 0, _, _ => lift (.error .diverge)
  | fuel + 1, sIt, cIt => do
    let s ← safeDecodeNext sIt
    let c ← safeDecodeNext cIt
    match s, c with
    | some (sCh, sIt), some (cCh, cIt) =>
      let result := caseInsensitiveCompare sCh cCh
      if result ≠ 0 then lift (.ok (result < 0))
      else lessLoop fuel sIt cIt
    | s, c => lift (.ok (s.isNone && c.isSome))

/-- src/Ystring/Algorithms.cpp:652-668 -/
def less (str cmp : Str) : Counted Bool := lessLoop (str.length + 1) str cmp

/-- src/Ystring/AlgorithmUtilities.hpp:40-62 -/
def nextMismatch : (fuel : Nat) → (beg1 beg2 : Str) → Counted (Str × Str)
  | 0, _, _ => lift (.error .diverge)
  | fuel + 1, beg1, beg2 => do
    match ← safeDecodeNext beg1 with
    | none => lift (.ok (beg1, beg2))
    | some (ch1, it1) =>
      match ← safeDecodeNext beg2 with
      | none => lift (.ok (beg1, beg2))
      | some (ch2, it2) =>
        if !caseInsensitiveEqual ch1 ch2 then lift (.ok (beg1, beg2))
        else nextMismatch fuel it1 it2

/-- src/Ystring/AlgorithmUtilities.hpp:64-86 -/
def prevMismatch : (fuel : Nat) → (end1 end2 : Str) → Counted (Str × Str)
  | 0, _, _ => lift (.error .diverge)
  | fuel + 1, end1, end2 => do
    match ← safeDecodePrev end1 with
    | none => lift (.ok (end1, end2))
    | some (ch1, it1) =>
      match ← safeDecodePrev end2 with
      | none => lift (.ok (end1, end2))
      | some (ch2, it2) =>
        if !caseInsensitiveEqual ch1 ch2 then lift (.ok (end1, end2))
        else prevMismatch fuel it1 it2

/-- src/Ystring/Algorithms.cpp:736-741 -/
def startsWith (str cmp : Str) : Counted Bool := do
  let (_, itCmp) ← nextMismatch (str.length + 1) str cmp
  lift (.ok (itCmp == []))

/-- src/Ystring/Algorithms.cpp:533-538 -/
def endsWith (str cmp : Str) : Counted Bool := do
  let (_, itCmp) ← prevMismatch (str.length + 1) str.reverse cmp.reverse
  lift (.ok (itCmp == []))

/-- src/Ystring/Algorithms.cpp:570-581 -/
def findFirstLoop (str : Str) (chCmp : Char32) (itCmp : Str) : (fuel : Nat) → (itStr itStrNext : Str) →
    Counted Subrange
  | 0, _, _ => lift (.error .diverge)
  | fuel + 1, itStr, itStrNext => do
    match ← safeDecodeNext itStrNext with
    | none => lift (.ok Subrange.default)
    | some (chStr, itStrNext) =>
      if caseInsensitiveEqual chStr chCmp then
        let (a, b) ← nextMismatch (str.length + 1) itStrNext itCmp
        if b = [] then lift (.ok ⟨posOf str itStr, posOf str a - posOf str itStr⟩)
        else findFirstLoop str chCmp itCmp fuel itStrNext itStrNext
      else findFirstLoop str chCmp itCmp fuel itStrNext itStrNext

/-- src/Ystring/Algorithms.cpp:558-582 -/
def findFirst (str cmp : Str) (offset : Nat := 0) : Counted Subrange := do
  match ← safeDecodeNext cmp with
  | none => lift (.ok Subrange.default)
  | some (chCmp, itCmp) =>
    let itStr ← lift (iterAt str offset)
    findFirstLoop str chCmp itCmp (str.length + 1) itStr itStr

/-- src/Ystring/Algorithms.cpp:618-629 -/
def findLastLoop (str : Str) (chCmp : Char32) (itCmp : Str) : (fuel : Nat) → (itStr itStrPrev : Str) →
    Counted Subrange
  | 0, _, _ => lift (.error .diverge)
  | fuel + 1, itStr, itStrPrev => do
    match ← safeDecodePrev itStrPrev with
    | none => lift (.ok Subrange.default)
    | some (chStr, itStrPrev) =>
      if caseInsensitiveEqual chStr chCmp then
        let (a, b) ← prevMismatch (str.length + 1) itStrPrev itCmp
        if b = [] then lift (.ok ⟨a.length, itStr.length - a.length⟩)
        else findLastLoop str chCmp itCmp fuel itStrPrev itStrPrev
      else findLastLoop str chCmp itCmp fuel itStrPrev itStrPrev

/-- src/Ystring/Algorithms.cpp:604-630 -/
def findLast (str cmp : Str) (offset : Nat := npos) : Counted Subrange := do
  match ← safeDecodePrev cmp.reverse with
  | none => lift (.ok Subrange.default)
  | some (chCmp, itCmp) =>
    let offset := min offset str.length
    let itStr := (str.take offset).reverse
    findLastLoop str chCmp itCmp (str.length + 1) itStr itStr

end Ystring.Cost
