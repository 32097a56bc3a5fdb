import Verif.Model.InOut
import Verif.Model.Unescape
import Verif.Model.CodepointSet
/-
The functions that change their arguments, with memory allocations that may fail. Whether the k-th request for memory can be met is
given by a function `mem`; a request that needs no new memory (because the capacity of a string is large enough, for instance) is one
that can be met. `std::string` and `std::vector` keep their contents if they cannot get the memory they need (strong exception guarantee
of `push_back`, `append` and `emplace_back` at the end).
-/
namespace Ystring

/-- What a function throws: an exception of the library or the standard library (or one of the other things in `Err`), as in the rest of
the model, or `std::bad_alloc`. include/Ystring/YstringException.hpp:19-23 -/
inductive Fail where
  | lib (e : Err)
  | badAlloc
  deriving DecidableEq

/-- A function with an argument of type `σ` that is passed by reference, as for include/Ystring/Algorithms.hpp:47: it is given the memory, the
number of requests so far and the value of the argument. -/
def Mem (σ α : Type) : Type := (Nat → Bool) → Nat → σ → Except Fail α × σ × Nat

namespace Mem

/-- `return` (include/Ystring/Algorithms.hpp:47) -/
def pure {σ α} (a : α) : Mem σ α := fun _ k s => (.ok a, s, k)

/-- Sequence: after an exception the following statements are not executed (src/Ystring/Algorithms.cpp:33-35). -/
def bind {σ α β} (m : Mem σ α) (f : α → Mem σ β) : Mem σ β := fun mem k s =>
  match m mem k s with
  | (.ok a, s, k) => f a mem k s
  | (.error e, s, k) => (.error e, s, k)

instance {σ} : Monad (Mem σ) where
  pure := Mem.pure
  bind := Mem.bind

/-- `throw` of something that needs no memory, or undefined behaviour. (src/Ystring/Unescape.cpp:361) -/
def fail {σ α} (e : Fail) : Mem σ α := fun _ k s => (.error e, s, k)

/-- A request for memory (src/Ystring/Char32Set.cpp:18). -/
def request {σ} : Mem σ Unit := fun mem k s => if mem k then (.ok (), s, k + 1) else (.error .badAlloc, s, k + 1)

/-- The value of the argument (src/Ystring/Algorithms.cpp:447). -/
def get {σ} : Mem σ σ := fun _ k s => (.ok s, s, k)

/-- Assignment to the argument (src/Ystring/Algorithms.cpp:448). -/
def set {σ} (s : σ) : Mem σ Unit := fun _ k _ => (.ok (), s, k)

/-- `YSTRING_THROW`, which makes a string for the message (include/Ystring/YstringException.hpp:26-34; all messages are too long to be stored
without allocation). -/
def throwY {σ α} : Mem σ α := do
  request
  fail (.lib .ystring)

/-- A call whose result is known from the rest of the model, and which needs memory only for the exception that it may throw
(include/Ystring/DecodeUtf8.hpp:182-191, for instance). -/
def lift {σ α} (r : Res α) : Mem σ α :=
  match r with
  | .ok a => Mem.pure a
  | .error .ystring => throwY
  | .error e => fail (.lib e)

/-- `try { m } catch (YstringException&) { handler; throw; }`: src/Ystring/Unescape.cpp:327-363. Other exceptions are not caught. -/
def tryCatch {σ α} (m : Mem σ α) (handler : Mem σ Unit) : Mem σ α := fun mem k s =>
  match m mem k s with
  | (.error (.lib .ystring), s, k) =>
    match handler mem k s with
    | (.ok _, s, k) => (.error (.lib .ystring), s, k)
    | (.error e, s, k) => (.error e, s, k)
  | r => r

end Mem

/-! ### Strings -/

/-- `std::back_inserter(str)`: one `push_back` after the other, src/Ystring/EncodeUtf8.hpp:22-41. -/
def pushBytes : List UInt8 → Mem Str Unit
  | [] => pure ()
  | b :: bs => do
    Mem.request
    Mem.set ((← Mem.get) ++ [b])
    pushBytes bs

/-- src/Ystring/Algorithms.cpp:31-36 -/
def appendMem (chr : Char32) : Mem Str Unit := do
  pushBytes (encodeUtf8 chr)
  if encodeUtf8Ret chr ≠ 0 then pure () else Mem.throwY

/-- src/Ystring/Algorithms.cpp:429-442: `result` is a local variable; each `append` may need memory. -/
def replaceInvalidLoopMem (repl : Str) : (fuel : Nat) → (it prev result : Str) → Mem Str Str
  | 0, _, _, _ => Mem.fail (.lib .diverge)
  | fuel + 1, it, prev, result =>
    if it ≠ [] then do
      let (ch, it) ← Mem.lift (decodeNext it)
      if ch ≠ INVALID_CHAR then replaceInvalidLoopMem repl fuel it prev result
      else
        Mem.request
        let result := result ++ prev.take (prev.length - it.length)
        Mem.request
        let result := result ++ repl
        let it := (skipNext it).2
        replaceInvalidLoopMem repl fuel it it result
    else do
      Mem.request
      pure (result ++ prev)

/-- src/Ystring/Algorithms.cpp:445-450 (and 424-428); the assignment moves the string and needs no memory. -/
def replaceInvalidUtf8Mem (chr : Char32 := REPLACEMENT_CHARACTER) : Mem Str Unit := do
  let str ← Mem.get
  if !(← Mem.lift (isValidUtf8 str)) then
    let s ← replaceInvalidLoopMem (encodeUtf8Buf chr 4).1 (str.length + 1) str str []
    Mem.set s
  else pure ()

/-- include/Ystring/DecodeUtf8.hpp:213-222 -/
def popUtf8CodepointMem : Mem Str (Option Char32) := do
  let str ← Mem.get
  let (r, rest) ← Mem.lift (popUtf8Codepoint str)
  Mem.set rest
  pure r

/-- include/Ystring/DecodeUtf8.hpp:233-242 -/
def popLastUtf8CodepointMem : Mem Str (Option Char32) := do
  let str ← Mem.get
  let (r, rest) ← Mem.lift (popLastUtf8Codepoint str)
  Mem.set rest
  pure r

/-! ### CodepointSet -/

namespace CodepointSet

/-- src/Ystring/Char32Set.cpp:16-19 -/
def addRangeMem (first last : Char32) : Mem CodepointSet Unit := do
  Mem.request
  Mem.set ((← Mem.get).addRange first last)

/-- src/Ystring/Char32Set.cpp:21-27: a range is extended without a request for memory. -/
def addCodepointMem (cp : Char32) : Mem CodepointSet Unit := do
  let set ← Mem.get
  match set.ranges.getLast? with
  | some r =>
    if r.2 + 1 = cp then Mem.set { set with ranges := set.ranges.dropLast ++ [(r.1, cp)] }
    else addRangeMem cp cp
  | none => addRangeMem cp cp

/-- src/Ystring/Char32Set.cpp:29-33 -/
def addCodepointsMem : List Char32 → Mem CodepointSet Unit
  | [] => pure ()
  | c :: cs => do
    addCodepointMem c
    addCodepointsMem cs

end CodepointSet

/-! ### unescape_next -/

/-- The arguments of `unescape_next` that are changed: the view, and what is stored through `did_unescape`.
src/Ystring/Unescape.cpp:298-299 -/
structure NextArgs where
  str : Str
  didUnescape : Option Bool
  deriving DecidableEq

/-- Assignment to `str`, `remove_prefix` (src/Ystring/Unescape.cpp:257). -/
def setStr (str : Str) : Mem NextArgs Unit := do Mem.set { (← Mem.get) with str }

/-- Assignment to `*did_unescape` (src/Ystring/Unescape.cpp:307). -/
def setDid (b : Bool) : Mem NextArgs Unit := do Mem.set { (← Mem.get) with didUnescape := some b }

/-- src/Ystring/Unescape.cpp:239-259 -/
def extractHexCharMem (minLength maxLength : Nat) : Mem NextArgs Char32 := do
  let (ch, rest) ← Mem.lift (extractHexChar (← Mem.get).str minLength maxLength)
  setStr rest
  pure ch

/-- src/Ystring/Unescape.cpp:261-279; the second call of `extract_hex_char` changes the local view `str2`. -/
def extractUtf16CharMem : Mem NextArgs Char32 := do
  let ch ← extractHexCharMem 4 4
  if ch < 0xD800 ∨ 0xDBFF < ch then pure ch
  else
    let str := (← Mem.get).str
    let str2 ← Mem.lift (substr str 0 6)
    if str2.length < 6 then pure ch
    else
      let c0 ← Mem.lift (charAt str2 0)
      let c1 ← Mem.lift (charAt str2 1)
      if c0 ≠ 0x5C ∨ c1 ≠ 0x75 then pure ch
      else
        let (ch2, _) ← Mem.lift (extractHexChar (str2.drop 2) 4 4)
        if ch2 < 0xDC00 ∨ 0xDFFF < ch2 then pure ch
        else
          setStr (str.drop 6)
          pure (combineSurrogatePair ch ch2)

/-- src/Ystring/Unescape.cpp:281-296 -/
def extractOctCharMem : Mem NextArgs Char32 := do
  let (ch, rest) ← Mem.lift (extractOctChar (← Mem.get).str)
  setStr rest
  pure ch

/-- `pop_utf8_codepoint(str)`: include/Ystring/DecodeUtf8.hpp:213-222 -/
def popNextMem : Mem NextArgs (Option Char32) := do
  let (r, rest) ← Mem.lift (popUtf8Codepoint (← Mem.get).str)
  setStr rest
  pure r

/-- src/Ystring/Unescape.cpp:329-357; `str` is `rest` (line 323). -/
def unescapeSwitchMem (type : UInt8) (rest : Str) : Mem NextArgs (Option Char32) :=
  if type = 0x61 then pure (some 0x07)
  else if type = 0x62 then pure (some 0x08)
  else if type = 0x66 then pure (some 0x0C)
  else if type = 0x6E then pure (some 0x0A)
  else if type = 0x72 then pure (some 0x0D)
  else if type = 0x74 then pure (some 0x09)
  else if type = 0x76 then pure (some 0x0B)
  else if type = 0x78 ∨ type = 0x58 then some <$> extractHexCharMem 1 8
  else if type = 0x55 then some <$> extractHexCharMem 8 8
  else if type = 0x75 then some <$> extractUtf16CharMem
  else do
    setStr (type :: rest)
    if isOctDigit type then some <$> extractOctCharMem else popNextMem

/-- src/Ystring/Unescape.cpp:298-364 -/
def unescapeNextMem : Mem NextArgs (Option Char32) := do
  let str := skipEscapedNewlines (← Mem.get).str
  setStr str
  match str with
  | [] => do
    setDid false
    pure none
  | b :: t =>
    if b ≠ 0x5C then do
      setDid false
      popNextMem
    else
      match t with
      | [] => Mem.throwY
      | type :: rest => do
        setStr rest
        setDid true
        Mem.tryCatch (unescapeSwitchMem type rest) (setStr (b :: t))

end Ystring
