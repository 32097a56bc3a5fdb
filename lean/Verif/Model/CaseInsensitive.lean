import Verif.Model.Algorithms
/-
Model of the functions in namespace `case_insensitive`: src/Ystring/Algorithms.cpp:513-742, and the mismatch
functions of src/Ystring/AlgorithmUtilities.hpp.
-/
namespace Ystring.CI

/-- src/Ystring/Algorithms.cpp:519-530 -/
def compareLoop : (fuel : Nat) → (sIt cIt : Str) → Res Int
  | 0, _, _ => .error .diverge
  | fuel + 1, sIt, cIt => do
    let s ← safeDecodeNext sIt
    let c ← safeDecodeNext cIt
    match s, c with
    | none, none => .ok 0
    | some _, none => .ok 1
    | none, some _ => .ok (-1)
    | some (sCh, sIt), some (cCh, cIt) =>
      let result := caseInsensitiveCompare sCh cCh
      if result ≠ 0 then .ok result
      else compareLoop fuel sIt cIt

/-- src/Ystring/Algorithms.cpp:515-531 -/
def compare (str cmp : Str) : Res Int := compareLoop (str.length + 1) str cmp

/-- src/Ystring/Algorithms.cpp:544-555 -/
def equalLoop : (fuel : Nat) → (sIt cIt : Str) → Res Bool
  | 0, _, _ => .error .diverge
  | fuel + 1, sIt, cIt => do
    let s ← safeDecodeNext sIt
    let c ← safeDecodeNext cIt
    match s, c with
    | some (sCh, sIt), some (cCh, cIt) =>
      if !caseInsensitiveEqual sCh cCh then .ok false
      else equalLoop fuel sIt cIt
    | none, none => .ok true
    | some _, none => .ok false
    | none, some _ => .ok false

/-- src/Ystring/Algorithms.cpp:540-556 -/
def equal (str cmp : Str) : Res Bool := equalLoop (str.length + 1) str cmp

/-- src/Ystring/Algorithms.cpp:656-667 -/
def lessLoop : (fuel : Nat) → (sIt cIt : Str) → Res Bool
  | 0, _, _ => .error .diverge
  | fuel + 1, sIt, cIt => do
    let s ← safeDecodeNext sIt
    let c ← safeDecodeNext cIt
    match s, c with
    | some (sCh, sIt), some (cCh, cIt) =>
      let result := caseInsensitiveCompare sCh cCh
      if result ≠ 0 then .ok (result < 0)
      else lessLoop fuel sIt cIt
    | s, c => .ok (s.isNone && c.isSome)

/-- src/Ystring/Algorithms.cpp:652-668 -/
def less (str cmp : Str) : Res Bool := lessLoop (str.length + 1) str cmp

/-- src/Ystring/AlgorithmUtilities.hpp:40-62: the bytes from the two iterators returned on. -/
def nextMismatch : (fuel : Nat) → (beg1 beg2 : Str) → Res (Str × Str)
  | 0, _, _ => .error .diverge
  | fuel + 1, beg1, beg2 => do
    match ← safeDecodeNext beg1 with
    | none => .ok (beg1, beg2)
    | some (ch1, it1) =>
      match ← safeDecodeNext beg2 with
      | none => .ok (beg1, beg2)
      | some (ch2, it2) =>
        if !caseInsensitiveEqual ch1 ch2 then .ok (beg1, beg2)
        else nextMismatch fuel it1 it2

/-- src/Ystring/AlgorithmUtilities.hpp:64-86: arguments and results are reversed prefixes. -/
def prevMismatch : (fuel : Nat) → (end1 end2 : Str) → Res (Str × Str)
  | 0, _, _ => .error .diverge
  | fuel + 1, end1, end2 => do
    match ← safeDecodePrev end1 with
    | none => .ok (end1, end2)
    | some (ch1, it1) =>
      match ← safeDecodePrev end2 with
      | none => .ok (end1, end2)
      | some (ch2, it2) =>
        if !caseInsensitiveEqual ch1 ch2 then .ok (end1, end2)
        else prevMismatch fuel it1 it2

/-- src/Ystring/Algorithms.cpp:736-741 -/
def startsWith (str cmp : Str) : Res Bool := do
  let (_, itCmp) ← nextMismatch (str.length + 1) str cmp
  .ok (itCmp == [])

/-- src/Ystring/Algorithms.cpp:533-538 -/
def endsWith (str cmp : Str) : Res Bool := do
  let (_, itCmp) ← prevMismatch (str.length + 1) str.reverse cmp.reverse
  .ok (itCmp == [])

/-- src/Ystring/Algorithms.cpp:570-581. `itStr`, `itStrNext`: the bytes that remain; `itCmp`, `chCmp`: the
first code point of `cmp` and what follows it. -/
def findFirstLoop (str : Str) (chCmp : Char32) (itCmp : Str) : (fuel : Nat) → (itStr itStrNext : Str) →
    Res Subrange
  | 0, _, _ => .error .diverge
  | fuel + 1, itStr, itStrNext => do
    match ← safeDecodeNext itStrNext with
    | none => .ok Subrange.default
    | some (chStr, itStrNext) =>
      if caseInsensitiveEqual chStr chCmp then
        let (a, b) ← nextMismatch (str.length + 1) itStrNext itCmp
        if b = [] then .ok ⟨posOf str itStr, posOf str a - posOf str itStr⟩
        else findFirstLoop str chCmp itCmp fuel itStrNext itStrNext
      else findFirstLoop str chCmp itCmp fuel itStrNext itStrNext

/-- src/Ystring/Algorithms.cpp:558-582 -/
def findFirst (str cmp : Str) (offset : Nat := 0) : Res Subrange := do
  match ← safeDecodeNext cmp with
  | none => .ok Subrange.default
  | some (chCmp, itCmp) =>
    let itStr ← iterAt str offset
    findFirstLoop str chCmp itCmp (str.length + 1) itStr itStr

/-- src/Ystring/Algorithms.cpp:618-629; all iterators are reversed prefixes. -/
def findLastLoop (str : Str) (chCmp : Char32) (itCmp : Str) : (fuel : Nat) → (itStr itStrPrev : Str) →
    Res Subrange
  | 0, _, _ => .error .diverge
  | fuel + 1, itStr, itStrPrev => do
    match ← safeDecodePrev itStrPrev with
    | none => .ok Subrange.default
    | some (chStr, itStrPrev) =>
      if caseInsensitiveEqual chStr chCmp then
        let (a, b) ← prevMismatch (str.length + 1) itStrPrev itCmp
        if b = [] then .ok ⟨a.length, itStr.length - a.length⟩
        else findLastLoop str chCmp itCmp fuel itStrPrev itStrPrev
      else findLastLoop str chCmp itCmp fuel itStrPrev itStrPrev

/-- src/Ystring/Algorithms.cpp:604-630 -/
def findLast (str cmp : Str) (offset : Nat := npos) : Res Subrange := do
  match ← safeDecodePrev cmp.reverse with
  | none => .ok Subrange.default
  | some (chCmp, itCmp) =>
    let offset := min offset str.length
    let itStr := (str.take offset).reverse
    findLastLoop str chCmp itCmp (str.length + 1) itStr itStr

/-- src/Ystring/Algorithms.cpp:584-593 -/
def findFirstOf (str : Str) (chars : List Char32) (offset : Nat := 0) : Res (Subrange × Char32) :=
  findFirstWhere str (u32CaseInsensitiveContains chars) offset

/-- src/Ystring/Algorithms.cpp:595-602 -/
def findFirstOfSet (str : Str) (chars : CodepointSet) (offset : Nat := 0) : Res (Subrange × Char32) :=
  findFirstWhere str chars.caseInsensitiveContains offset

/-- src/Ystring/Algorithms.cpp:632-641 -/
def findLastOf (str : Str) (chars : List Char32) (offset : Nat := npos) : Res (Subrange × Char32) :=
  findLastWhere str (u32CaseInsensitiveContains chars) offset

/-- src/Ystring/Algorithms.cpp:643-650 -/
def findLastOfSet (str : Str) (chars : CodepointSet) (offset : Nat := npos) : Res (Subrange × Char32) :=
  findLastWhere str chars.caseInsensitiveContains offset

/-- src/Ystring/Algorithms.cpp:678-686: the final `str` and `result`. -/
def replaceFwdLoop («from» to : Str) : (maxReplacements : Nat) → (str result : Str) → Res (Str × Str)
  | 0, str, result => .ok (str, result)
  | n + 1, str, result => do
    let m ← findFirst str «from»
    if !m.nonempty then .ok (str, result)
    else do
      let t ← substr str 0 m.start
      let rest ← substr str m.stop
      replaceFwdLoop «from» to n rest (result ++ t ++ to)

/-- src/Ystring/Algorithms.cpp:695-702: `matches`. -/
def replaceMatches («from» : Str) : (maxReplacements : Nat) → (tmpStr : Str) → (ms : List Subrange) →
    Res (List Subrange)
  | 0, _, ms => .ok ms
  | n + 1, tmpStr, ms => do
    let m ← findLast tmpStr «from»
    if !m.nonempty then .ok ms
    else do
      let tmpStr ← substr tmpStr 0 m.start
      replaceMatches «from» n tmpStr (ms ++ [m])

/-- src/Ystring/Algorithms.cpp:704-710; the list is `matches` in reverse order. -/
def replaceBwdLoop (str to : Str) : List Subrange → (start : Nat) → (result : Str) → Res (Nat × Str)
  | [], start, result => .ok (start, result)
  | m :: ms, start, result => do
    let t ← substr str start (sizeSub m.start start)
    replaceBwdLoop str to ms m.stop (result ++ t ++ to)

/-- src/Ystring/Algorithms.cpp:670-716 -/
def replace (str «from» to : Str) (maxReplacements : Int := PTRDIFF_MAX) : Res Str :=
  if maxReplacements ≥ 0 then do
    let (str, result) ← replaceFwdLoop «from» to maxReplacements.toNat str []
    if str ≠ [] then .ok (result ++ str) else .ok result
  else do
    let ms ← replaceMatches «from» (-maxReplacements).toNat str []
    let (start, result) ← replaceBwdLoop str to ms.reverse 0 []
    if start ≠ str.length then do
      let t ← substr str start
      .ok (result ++ t)
    else .ok result

/-- src/Ystring/Algorithms.cpp:718-725 -/
def splitChars (str : Str) (chars : List Char32) (params : SplitParams := {}) : Res (List Str) :=
  splitWhere str (fun s => do let r ← findFirstOf s chars; .ok r.1) params

/-- src/Ystring/Algorithms.cpp:727-734 -/
def split (str sep : Str) (params : SplitParams := {}) : Res (List Str) :=
  splitWhere str (fun s => findFirst s sep) params

end Ystring.CI
