import Verif.Model.Algorithms
/-
The functions that change their arguments, with the values of these arguments after the call, also after an exception. The other
model files have the same functions with the result of a call that returns; Props/InOut.lean proves that they agree.
-/
namespace Ystring

/-- What the caller observes: what the function returns or throws, and the arguments of reference type afterwards, as for
include/Ystring/DecodeUtf8.hpp:183 and include/Ystring/Algorithms.hpp:47. (After undefined behaviour the latter mean nothing.) -/
structure Outcome (σ α : Type) where
  result : Res α
  after : σ
  deriving DecidableEq

/-- include/Ystring/DecodeUtf8.hpp:182-191: `it` and `ch` are changed. -/
def safeDecodeNextIO (it : Str) (ch : Char32) : Outcome (Str × Char32) Bool :=
  if it = [] then ⟨.ok false, it, ch⟩
  else
    match decodeNext it with
    | .error e => ⟨.error e, it, ch⟩
    | .ok (ch, it) => if ch = INVALID_CHAR then ⟨.error .ystring, it, ch⟩ else ⟨.ok true, it, ch⟩

/-- include/Ystring/DecodeUtf8.hpp:193-202: `it` and `ch` are changed; `it` is given by `[begin, it)` reversed. -/
def safeDecodePrevIO (it : Str) (ch : Char32) : Outcome (Str × Char32) Bool :=
  if it = [] then ⟨.ok false, it, ch⟩
  else
    match decodePrev it with
    | .error e => ⟨.error e, it, ch⟩
    | .ok (ch, it) => if ch = INVALID_CHAR then ⟨.error .ystring, it, ch⟩ else ⟨.ok true, it, ch⟩

/-- include/Ystring/DecodeUtf8.hpp:213-222. The local variable `ch` is not initialised; 0 stands for its value, which is not read. -/
def popUtf8CodepointIO (str : Str) : Outcome Str (Option Char32) :=
  match safeDecodeNextIO str 0 with
  | ⟨.error e, _, _⟩ => ⟨.error e, str⟩
  | ⟨.ok false, _, _⟩ => ⟨.ok none, str⟩
  | ⟨.ok true, it, ch⟩ => ⟨.ok (some ch), str.drop (str.length - it.length)⟩

/-- include/Ystring/DecodeUtf8.hpp:233-242 -/
def popLastUtf8CodepointIO (str : Str) : Outcome Str (Option Char32) :=
  match safeDecodePrevIO str.reverse 0 with
  | ⟨.error e, _, _⟩ => ⟨.error e, str⟩
  | ⟨.ok false, _, _⟩ => ⟨.ok none, str⟩
  | ⟨.ok true, it, ch⟩ => ⟨.ok (some ch), str.take (str.length - (str.length - it.length))⟩

/-- src/Ystring/Algorithms.cpp:31-36: `encode_utf8` inserts the bytes first; then its return value is tested. -/
def appendIO (str : Str) (chr : Char32) : Outcome Str Unit :=
  let str := str ++ encodeUtf8 chr
  if encodeUtf8Ret chr ≠ 0 then ⟨.ok (), str⟩ else ⟨.error .ystring, str⟩

/-- src/Ystring/Algorithms.cpp:445-450: `str` is assigned to when the right hand side has been computed. -/
def replaceInvalidUtf8IO (str : Str) (chr : Char32 := REPLACEMENT_CHARACTER) : Outcome Str Unit :=
  match isValidUtf8 str with
  | .error e => ⟨.error e, str⟩
  | .ok true => ⟨.ok (), str⟩
  | .ok false =>
    match replaceInvalidUtf8 str chr with
    | .error e => ⟨.error e, str⟩
    | .ok s => ⟨.ok (), s⟩

end Ystring
