import Verif.Model.CaseInsensitive
import Verif.Model.Escape
import Verif.Model.Unescape
/-
The functions that compute with `size_t` and `ptrdiff_t`, for any width of these types: `W` is `SIZE_MAX + 1`
(2^32 or 2^64, for instance), `size_t` is arithmetic modulo `W`, `ptrdiff_t` has the values from `-W/2` to `W/2 - 1`. In the other
models `W` is 2^64. Functions and loops without such computations are those of the other models. `std::string_view::npos` is `W - 1`.
As there, the default value `npos` of the length in `substr` stands for "to the end of the string".
-/
namespace Ystring.Wd

variable (W : Nat)

/-- `std::string_view::npos` (include/Ystring/Algorithms.hpp:199) -/
def nposW : Nat := W - 1

/-- `PTRDIFF_MIN` (least value of the type at include/Ystring/Algorithms.hpp:247) -/
def ptrdiffMin : Int := -(W / 2 : Nat)

/-- `PTRDIFF_MAX` (include/Ystring/Algorithms.hpp:247) -/
def ptrdiffMax : Int := (W / 2 : Nat) - 1

/-- `a - b` on `size_t`, as in src/Ystring/AlgorithmUtilities.cpp:62 -/
def sizeSub (a b : Nat) : Nat := (a + W - b) % W

/-- `a + b` on `size_t`, as in include/Ystring/Subrange.hpp:41 -/
def sizeAdd (a b : Nat) : Nat := (a + b) % W

/-- include/Ystring/Subrange.hpp:39-42 -/
def stop (r : Subrange) : Nat := sizeAdd W r.offset r.length

/-! ### Searching -/

/-- include/Ystring/Algorithms.hpp:139-144 -/
def findFirstWhereLoop (str : Str) (pred : Char32 → Bool) : (fuel : Nat) → (it prev : Str) → Res (Subrange × Char32)
  | 0, _, _ => .error .diverge
  | fuel + 1, it, prev => do
    match ← safeDecodeNext it with
    | none => .ok (⟨nposW W, 0⟩, INVALID_CHAR)
    | some (ch, it) =>
      if pred ch then .ok (⟨posOf str prev, posOf str it - posOf str prev⟩, ch)
      else findFirstWhereLoop str pred fuel it it

/-- include/Ystring/Algorithms.hpp:131-146 -/
def findFirstWhere (str : Str) (pred : Char32 → Bool) (offset : Nat := 0) : Res (Subrange × Char32) := do
  let it ← iterAt str offset
  findFirstWhereLoop W str pred (str.length + 1) it it

/-- include/Ystring/Algorithms.hpp:205-210 -/
def findLastWhereLoop (pred : Char32 → Bool) : (fuel : Nat) → (it stop : Str) → Res (Subrange × Char32)
  | 0, _, _ => .error .diverge
  | fuel + 1, it, stop => do
    match ← safeDecodePrev it with
    | none => .ok (⟨nposW W, 0⟩, INVALID_CHAR)
    | some (ch, it) =>
      if pred ch then .ok (⟨it.length, stop.length - it.length⟩, ch)
      else findLastWhereLoop pred fuel it it

/-- include/Ystring/Algorithms.hpp:196-212 -/
def findLastWhere (str : Str) (pred : Char32 → Bool) (offset : Nat := nposW W) : Res (Subrange × Char32) :=
  let offset := min offset str.length
  let it := (str.take offset).reverse
  findLastWhereLoop W pred (str.length + 1) it it

/-- src/Ystring/Algorithms.cpp:109-115 -/
def findFirstOf (str : Str) (chars : List Char32) (offset : Nat := 0) : Res (Subrange × Char32) :=
  findFirstWhere W str (u32Contains chars) offset

/-- src/Ystring/Algorithms.cpp:148-155 -/
def findLastOf (str : Str) (chars : List Char32) (offset : Nat := nposW W) : Res (Subrange × Char32) :=
  findLastWhere W str (u32Contains chars) offset

/-- src/Ystring/Algorithms.cpp:125-134 -/
def findLast (str cmp : Str) (offset : Nat := nposW W) : Subrange :=
  let offset := min offset str.length
  let its := searchLast (str.take offset) cmp
  ⟨its.1, its.2 - its.1⟩

/-- src/Ystring/Algorithms.cpp:97-107; `mem`: see `pointerView`. -/
def findFirstNewline (mem : List Char32) (str : Str) (offset : Nat := 0) : Res Subrange := do
  let (s, c) ← findFirstOf W str (pointerView NEWLINES mem) offset
  if c ≠ 0x0D then .ok s
  else
    let it ← iterAt str (stop W s)
    match ← safeDecodeNext it with
    | none => .ok s
    | some (ch, it) =>
      if ch = 0x0A then .ok ⟨s.start, sizeSub W (posOf str it) s.start⟩ else .ok s

/-- src/Ystring/Algorithms.cpp:136-146; `mem`: see `pointerView`. -/
def findLastNewline (mem : List Char32) (str : Str) (offset : Nat := nposW W) : Res Subrange := do
  let (s, c) ← findLastOf W str (pointerView NEWLINES mem) offset
  if c ≠ 0x0A then .ok s
  else
    let it ← revIterAt str s.start
    match ← safeDecodePrev it with
    | none => .ok s
    | some (ch, it) =>
      if ch = 0x0D then .ok ⟨it.length, sizeSub W (stop W s) it.length⟩ else .ok s

/-! ### Characters -/

/-- src/Ystring/Algorithms.cpp:287-302 -/
def getNextCharRange (str : Str) (offset : Nat) : Res Subrange := do
  let it ← iterAt str offset
  match ← safeDecodeNext it with
  | none => .ok ⟨offset, 0⟩
  | some (_, it) =>
    let stop ← nextCharLoop (str.length + 1) it it
    .ok ⟨offset, sizeSub W (posOf str stop) offset⟩

/-- src/Ystring/Algorithms.cpp:304-315 -/
def getPrevCharRange (str : Str) (offset : Nat) : Res Subrange := do
  let it ← revIterAt str offset
  let it ← prevCharLoop (str.length + 1) it
  .ok ⟨it.length, sizeSub W offset it.length⟩

/-- src/Ystring/Algorithms.cpp:61-66 (`++count` on `size_t`) -/
def countCharsLoop (str : Str) : (fuel offset count : Nat) → Res Nat
  | 0, _, _ => .error .diverge
  | fuel + 1, offset, count =>
    if offset ≠ str.length then do
      let range ← getNextCharRange W str offset
      countCharsLoop str fuel (stop W range) (sizeAdd W count 1)
    else .ok count

/-- src/Ystring/Algorithms.cpp:57-68 -/
def countChars (str : Str) : Res Nat := countCharsLoop W str (str.length + 1) 0 0

/-- src/Ystring/Algorithms.cpp:75-76 (`++result` on `size_t`) -/
def countCodepointsLoop : (fuel : Nat) → (it : Str) → (result : Nat) → Res Nat
  | 0, _, _ => .error .diverge
  | fuel + 1, it, result =>
    match skipNext it with
    | (false, _) => .ok result
    | (true, it) => countCodepointsLoop fuel it (sizeAdd W result 1)

/-- src/Ystring/Algorithms.cpp:70-78 -/
def countCodepoints (str : Str) : Res Nat := countCodepointsLoop W (str.length + 1) str 0

/-- src/Ystring/Algorithms.cpp:172-178 -/
def getCharPosFwd (str : Str) : (pos offset : Nat) → Res Nat
  | 0, offset => .ok offset
  | pos + 1, offset => do
    let range ← getNextCharRange W str offset
    if !range.nonempty then .ok (nposW W)
    else getCharPosFwd str pos (stop W range)

/-- src/Ystring/Algorithms.cpp:183-189 -/
def getCharPosBwd (str : Str) : (pos offset : Nat) → Res Nat
  | 0, offset => .ok offset
  | pos + 1, offset => do
    let range ← getPrevCharRange W str offset
    if !range.nonempty then .ok (nposW W)
    else getCharPosBwd str pos range.start

/-- src/Ystring/Algorithms.cpp:166-193 -/
def getCharPos (str : Str) (pos : Int) : Res Nat :=
  if pos ≥ 0 then getCharPosFwd W str pos.toNat 0
  else getCharPosBwd W str (-pos).toNat str.length

/-- src/Ystring/Algorithms.cpp:195-219 -/
def getCharRange (str : Str) (pos : Int) : Res Subrange :=
  if pos ≥ 0 then do
    let offset ← getCharPos W str pos
    if offset = nposW W then .ok ⟨str.length, 0⟩
    else getNextCharRange W str offset
  else if pos < -1 then do
    let offset ← getCharPos W str (pos + 1)
    if offset = nposW W then .ok ⟨0, 0⟩
    else getPrevCharRange W str offset
  else getPrevCharRange W str str.length

/-! ### Code points by index -/

/-- src/Ystring/Algorithms.cpp:256-277. `std::abs` of the least value is undefined. -/
def getCodepointPos (str : Str) (pos : Int) : Res Nat :=
  if pos = ptrdiffMin W then .error .ub
  else if (pos.natAbs : Int) > str.length then .ok (nposW W)
  else if pos ≥ 0 then
    match skipNextN pos.toNat str with
    | (0, it) => .ok (posOf str it)
    | _ => .ok (nposW W)
  else do
    match ← skipPrevN (-pos).toNat str.reverse with
    | (0, it) => .ok it.length
    | _ => .ok (nposW W)

/-! ### Substrings, insertion -/

/-- src/Ystring/AlgorithmUtilities.cpp:32-37 -/
def getCappedCharPos (str : Str) (pos : Int) : Res Nat := do
  let p ← getCharPos W str pos
  if p ≠ nposW W then .ok p
  else .ok (if pos > 0 then str.length else 0)

/-- src/Ystring/AlgorithmUtilities.cpp:39-44 -/
def getCappedCodepointPos (str : Str) (pos : Int) : Res Nat := do
  let p ← getCodepointPos W str pos
  if p ≠ nposW W then .ok p
  else .ok (if pos > 0 then str.length else 0)

/-- src/Ystring/AlgorithmUtilities.cpp:46-76 -/
def getCharSubstringRange (str : Str) (startIndex endIndex : Int) : Res Subrange := do
  let endIndex := adjustEnd startIndex endIndex
  if startIndex ≥ 0 ∧ endIndex ≥ 0 then
    let s ← getCappedCharPos W str startIndex
    let e ← getCappedCharPos W (← substr str s) (endIndex - startIndex)
    .ok ⟨s, e⟩
  else if startIndex < 0 ∧ endIndex < 0 then
    let e ← getCappedCharPos W str endIndex
    let s ← getCappedCharPos W (← substr str 0 e) (startIndex - endIndex)
    .ok ⟨s, sizeSub W e s⟩
  else if startIndex ≥ 0 ∧ endIndex < 0 then
    let s ← getCappedCharPos W str startIndex
    let e ← getCappedCharPos W (← substr str s) endIndex
    .ok ⟨s, sizeSub W e s⟩
  else
    let s ← getCappedCharPos W str startIndex
    let e ← getCappedCharPos W str endIndex
    .ok ⟨s, if e > s then e - s else 0⟩

/-- src/Ystring/AlgorithmUtilities.cpp:78-108 -/
def getCodepointSubstringRange (str : Str) (startIndex endIndex : Int) : Res Subrange := do
  let endIndex := adjustEnd startIndex endIndex
  if startIndex ≥ 0 ∧ endIndex ≥ 0 then
    let s ← getCappedCodepointPos W str startIndex
    let e ← getCappedCodepointPos W (← substr str s) (endIndex - startIndex)
    .ok ⟨s, e⟩
  else if startIndex < 0 ∧ endIndex < 0 then
    let e ← getCappedCodepointPos W str endIndex
    let s ← getCappedCodepointPos W (← substr str 0 e) (startIndex - endIndex)
    .ok ⟨s, sizeSub W e s⟩
  else if startIndex ≥ 0 ∧ endIndex < 0 then
    let s ← getCappedCodepointPos W str startIndex
    let e ← getCappedCodepointPos W (← substr str s) endIndex
    .ok ⟨s, e⟩
  else
    let s ← getCappedCodepointPos W str startIndex
    let e ← getCappedCodepointPos W str endIndex
    .ok ⟨s, max s e⟩

/-- src/Ystring/Algorithms.cpp:221-227 -/
def getCharSubstring (str : Str) (startIndex : Int) (endIndex : Int := ptrdiffMax W) : Res Str := do
  let range ← getCharSubstringRange W str startIndex endIndex
  substr str range.offset range.length

/-- src/Ystring/Algorithms.cpp:279-285 -/
def getCodepointSubstring (str : Str) (startIndex : Int) (endIndex : Int := ptrdiffMax W) : Res Str := do
  let range ← getCodepointSubstringRange W str startIndex endIndex
  substr str range.offset range.length

/-- src/Ystring/AlgorithmUtilities.cpp:110-121 -/
def insertAtOffset (str : Str) (offset : Nat) (codepoints : Str) : Res Str :=
  if codepoints = [] then .ok str
  else if offset = nposW W then .error .ystring
  else do
    let a ← substr str 0 offset
    let b ← substr str offset
    .ok (a ++ codepoints ++ b)

/-- src/Ystring/AlgorithmUtilities.cpp:123-132 -/
def insertCodepointAtOffset (str : Str) (offset : Nat) (codepoint : Char32) : Res Str :=
  if offset = nposW W then .error .ystring
  else do
    let result ← substr str 0 offset
    let result ← append result codepoint
    let b ← substr str offset
    .ok (result ++ b)

/-- src/Ystring/AlgorithmUtilities.cpp:134-142 -/
def replaceSubrange (str : Str) (range : Subrange) (repl : Str) : Res Str := do
  let a ← substr str 0 range.start
  let b ← substr str (stop W range)
  .ok (a ++ repl ++ b)

/-- src/Ystring/Algorithms.cpp:317-321 -/
def insertChar (str : Str) (pos : Int) (chr : Char32) : Res Str := do
  insertCodepointAtOffset W str (← getCharPos W str pos) chr

/-- src/Ystring/Algorithms.cpp:323-327 -/
def insertChars (str : Str) (pos : Int) (sub : Str) : Res Str := do
  insertAtOffset W str (← getCharPos W str pos) sub

/-- src/Ystring/Algorithms.cpp:329-333 -/
def insertCodepoint (str : Str) (pos : Int) (codepoint : Char32) : Res Str := do
  insertCodepointAtOffset W str (← getCodepointPos W str pos) codepoint

/-- src/Ystring/Algorithms.cpp:335-340 -/
def insertCodepoints (str : Str) (pos : Int) (codepoints : Str) : Res Str := do
  insertAtOffset W str (← getCodepointPos W str pos) codepoints

/-- src/Ystring/Algorithms.cpp:391-397 -/
def replaceChars (str : Str) (start stop : Int) (repl : Str) : Res Str := do
  replaceSubrange W str (← getCharSubstringRange W str start stop) repl

/-- src/Ystring/Algorithms.cpp:399-405 -/
def replaceCodepoints (str : Str) (start stop : Int) (repl : Str) : Res Str := do
  replaceSubrange W str (← getCodepointSubstringRange W str start stop) repl

/-! ### replace, reverse -/

/-- src/Ystring/AlgorithmUtilities.cpp:19-28 -/
def findLastNLoop (str cmp : Str) : (fuel : Nat) → (it maxCount : Nat) → (result : List Subrange) → Res (List Subrange)
  | 0, _, _, _ => .error .diverge
  | fuel + 1, it, maxCount, result =>
    let m := searchLast (str.take it) cmp
    if m.1 = m.2 then .ok result
    else
      let result := result ++ [⟨m.1, cmp.length⟩]
      let maxCount := sizeSub W maxCount 1
      if maxCount = 0 then .ok result
      else findLastNLoop str cmp fuel m.1 maxCount result

/-- src/Ystring/Algorithms.cpp:378-384 -/
def replaceBwdLoop (str to : Str) : List Subrange → (prev : Nat) → (result : Str) → Res (Nat × Str)
  | [], prev, result => .ok (prev, result)
  | m :: ms, prev, result => do
    let result ←
      if m.offset ≠ prev then do
        let t ← substr str prev (sizeSub W m.offset prev)
        .ok (result ++ t)
      else .ok result
    replaceBwdLoop str to ms (stop W m) (result ++ to)

/-- src/Ystring/Algorithms.cpp:353-389 (and src/Ystring/AlgorithmUtilities.cpp:12-30) -/
def replace (str «from» to : Str) (maxReplacements : Int := ptrdiffMax W) : Res Str :=
  if maxReplacements ≥ 0 then
    let (it, result) := replaceFwdLoop «from» to maxReplacements.toNat str []
    if it ≠ [] then .ok (result ++ it) else .ok result
  else if maxReplacements = ptrdiffMin W then .error .ub
  else do
    let ms ← findLastNLoop W str «from» (str.length + 1) str.length (-maxReplacements).toNat []
    let (prev, result) ← replaceBwdLoop W str to ms.reverse 0 []
    if prev ≠ str.length then do
      let t ← substr str prev str.length
      .ok (result ++ t)
    else .ok result

/-- src/Ystring/Algorithms.cpp:407-422 -/
def replaceCodepoint (str : Str) («from» to : Char32) (maxReplacements : Int := ptrdiffMax W) : Res Str :=
  let (f, fSize) := encodeUtf8Buf «from» 4
  let (t, tSize) := encodeUtf8Buf to 4
  if fSize = 0 then .error .ystring
  else if tSize = 0 then .error .ystring
  else replace W str f t maxReplacements

/-- src/Ystring/Algorithms.cpp:456-463 -/
def reverseLoop (str : Str) : (fuel offset : Nat) → (result : Str) → Res Str
  | 0, _, _ => .error .diverge
  | fuel + 1, offset, result =>
    if offset ≠ 0 then do
      let range ← getPrevCharRange W str offset
      reverseLoop str fuel range.start (result ++ (str.drop range.start).take (stop W range - range.start))
    else .ok result

/-- src/Ystring/Algorithms.cpp:452-465 -/
def reverse (str : Str) : Res Str := reverseLoop W str (str.length + 1) str.length []

/-! ### TokenIterator, split and trim -/

/-- include/Ystring/TokenIterator.hpp:29-39 -/
def next (finder : Str → Res Subrange) (t : TokenIterator) : Res (Bool × TokenIterator) :=
  let find (str : Str) : Res (Bool × TokenIterator) := do
    let token ← finder str
    if !token.nonempty then .ok (true, ⟨str, ⟨nposW W, token.length⟩⟩)
    else .ok (true, ⟨str, token⟩)
  if t.token.nonempty then do
    let str ← substr t.str (stop W t.token)
    find str
  else if t.token.start ≠ 0 then .ok (false, t)
  else find t.str

/-- include/Ystring/TokenIterator.hpp:58-63 -/
def remainder (t : TokenIterator) : Res Str :=
  if t.token.nonempty ∨ t.token.start = 0 then substr t.str (stop W t.token)
  else .ok []

/-- include/Ystring/Algorithms.hpp:517-522 -/
def splitLoop (finder : Str → Res Subrange) (maxSplits : Nat) (ignoreEmpty : Bool) : (fuel : Nat) → TokenIterator →
    List Str → Res (TokenIterator × List Str)
  | 0, _, _ => .error .diverge
  | fuel + 1, it, result =>
    if result.length < maxSplits then do
      let (more, it) ← next W finder it
      if more then do
        let part ← it.part
        if !ignoreEmpty || !part.isEmpty then splitLoop finder maxSplits ignoreEmpty fuel it (result ++ [part])
        else splitLoop finder maxSplits ignoreEmpty fuel it result
      else .ok (it, result)
    else .ok (it, result)

/-- include/Ystring/Algorithms.hpp:509-530; the parameters (lines 457-467) are given one by one. -/
def splitWhere (str : Str) (finder : Str → Res Subrange) (maxSplits : Nat := nposW W) (ignoreEmpty : Bool := false) :
    Res (List Str) := do
  let (it, result) ← splitLoop W finder maxSplits ignoreEmpty (str.length + 2) (TokenIterator.mk' str) []
  if it.toBool then do
    let remainder ← remainder W it
    if !ignoreEmpty || !remainder.isEmpty then .ok (result ++ [remainder])
    else .ok result
  else .ok result

/-- src/Ystring/Algorithms.cpp:467-474 -/
def splitChars (str : Str) (chars : List Char32) (maxSplits : Nat := nposW W) (ignoreEmpty : Bool := false) : Res (List Str) :=
  splitWhere W str (fun s => do let r ← findFirstOf W s chars; .ok r.1) maxSplits ignoreEmpty

/-- src/Ystring/Algorithms.cpp:476-483 -/
def split (str sep : Str) (maxSplits : Nat := nposW W) (ignoreEmpty : Bool := false) : Res (List Str) :=
  splitWhere W str (fun s => findFirst s sep) maxSplits ignoreEmpty

/-- src/Ystring/Algorithms.cpp:485-491; `mem`: see `pointerView`. -/
def splitLines (mem : List Char32) (str : Str) (maxSplits : Nat := nposW W) (ignoreEmpty : Bool := false) : Res (List Str) :=
  splitWhere W str (fun s => findFirstNewline W mem s) maxSplits ignoreEmpty

/-- include/Ystring/Algorithms.hpp:562-570 -/
def trimEndWhere (str : Str) (pred : Char32 → Bool) : Res Str := do
  let (sub, _) ← findLastWhere W str (fun c => !pred c)
  if !sub.nonempty then .ok []
  else substr str 0 (stop W sub)

/-- include/Ystring/Algorithms.hpp:585-593 -/
def trimStartWhere (str : Str) (pred : Char32 → Bool) : Res Str := do
  let (sub, _) ← findFirstWhere W str (fun c => !pred c)
  if !sub.nonempty then .ok []
  else substr str sub.start

/-- include/Ystring/Algorithms.hpp:599-605 -/
def trimWhere (str : Str) (pred : Char32 → Bool) : Res Str := do
  trimEndWhere W (← trimStartWhere W str pred) pred

/-! ### Escape.cpp and Unescape.cpp -/

/-- src/Ystring/Escape.cpp:45-83 -/
def escapeJsonLoop (str : Str) : (fuel : Nat) → (offset : Nat) → (result : Str) → Res Str
  | 0, _, _ => .error .diverge
  | fuel + 1, offset, result => do
    let sub ← findFirstEscapableChar str offset
    if sub.nonempty then
      let result := result ++ (str.drop offset).take (sub.offset - offset)
      match str[sub.offset]? with
      | none => .error .ub
      | some c => escapeJsonLoop str fuel (stop W sub) (result ++ escapeSequence c)
    else .ok (result ++ str.drop offset)

/-- src/Ystring/Escape.cpp:43-84 -/
def escapeJson (str : Str) : Res Str := escapeJsonLoop W str (str.length + 1) 0 []

/-- src/Ystring/Unescape.cpp:90-111 -/
def parseUtf16 (str : Str) (sub : Subrange) : Res (Char32 × Subrange) := do
  let ch ← parseEscapedHexChar (← substr str sub.offset sub.length)
  if ch < 0xD800 ∨ 0xDBFF < ch then .ok (ch, sub)
  else
    let str2 ← substr str (stop W sub) 6
    let sub2 ← findFirstEscapedChar str2
    if !sub2.nonempty ∨ sub2.offset ≠ 0 ∨ sub2.length ≠ 6 then .ok (ch, sub)
    else
      let c ← charAt str (sizeAdd W (stop W sub) 1)
      if c ≠ 0x75 then .ok (ch, sub)
      else
        let ch2 ← parseEscapedHexChar str2
        if ch2 < 0xDC00 ∨ 0xDFFF < ch2 then .ok (ch, sub)
        else .ok (combineSurrogatePair ch ch2, ⟨sub.offset, 12⟩)

/-- src/Ystring/Unescape.cpp:188-226 -/
def decodeEscaped (sv : Str) (sub : Subrange) : Res (Char32 × Subrange) := do
  let c ← charAt sv (sizeAdd W sub.start 1)
  if c = 0x78 ∨ c = 0x58 ∨ c = 0x55 then
    let ch ← parseEscapedHexChar (← substr sv sub.start sub.length)
    .ok (ch, sub)
  else if c = 0x75 then parseUtf16 W sv sub
  else if c = 0x61 then .ok (0x07, sub)
  else if c = 0x62 then .ok (0x08, sub)
  else if c = 0x66 then .ok (0x0C, sub)
  else if c = 0x6E then .ok (0x0A, sub)
  else if c = 0x72 then .ok (0x0D, sub)
  else if c = 0x74 then .ok (0x09, sub)
  else if c = 0x76 then .ok (0x0B, sub)
  else if isOctDigit c then
    let ch ← parseEscapedOctChar (← substr sv sub.start sub.length)
    .ok (ch, sub)
  else .ok (c.toUInt32, sub)

/-- src/Ystring/Unescape.cpp:178-229 -/
def unescapeLoop : (fuel : Nat) → (buf : Str) → (frm to : Nat) → Res (Str × Nat)
  | 0, _, _, _ => .error .diverge
  | fuel + 1, buf, frm, to => do
    let sub ← findFirstEscapedChar buf frm
    let buf ← copyIfMoved buf frm sub.start to
    let to := sizeAdd W to (sizeSub W sub.start frm)
    if !sub.nonempty then .ok (buf, to)
    else
      let (ch, sub) ← decodeEscaped W buf sub
      let buf ← writeAt buf to (encodeUtf8 ch)
      unescapeLoop fuel buf (stop W sub) (sizeAdd W to (encodeUtf8Ret ch))

/-- src/Ystring/Unescape.cpp:233-237 (and 173-231) -/
def unescape (str : Str) : Res Str := do
  let (buf, n) ← unescapeLoop W (str.length + 1) str 0 0
  .ok (resize buf n)

/-! ### Case-insensitive functions -/

/-- src/Ystring/Algorithms.cpp:570-581 -/
def ciFindFirstLoop (str : Str) (chCmp : Char32) (itCmp : Str) : (fuel : Nat) → (itStr itStrNext : Str) → Res Subrange
  | 0, _, _ => .error .diverge
  | fuel + 1, itStr, itStrNext => do
    match ← safeDecodeNext itStrNext with
    | none => .ok ⟨nposW W, 0⟩
    | some (chStr, itStrNext) =>
      if caseInsensitiveEqual chStr chCmp then
        let (a, b) ← CI.nextMismatch (str.length + 1) itStrNext itCmp
        if b = [] then .ok ⟨posOf str itStr, posOf str a - posOf str itStr⟩
        else ciFindFirstLoop str chCmp itCmp fuel itStrNext itStrNext
      else ciFindFirstLoop str chCmp itCmp fuel itStrNext itStrNext

/-- src/Ystring/Algorithms.cpp:558-582 -/
def ciFindFirst (str cmp : Str) (offset : Nat := 0) : Res Subrange := do
  match ← safeDecodeNext cmp with
  | none => .ok ⟨nposW W, 0⟩
  | some (chCmp, itCmp) =>
    let itStr ← iterAt str offset
    ciFindFirstLoop W str chCmp itCmp (str.length + 1) itStr itStr

/-- src/Ystring/Algorithms.cpp:618-629 -/
def ciFindLastLoop (str : Str) (chCmp : Char32) (itCmp : Str) : (fuel : Nat) → (itStr itStrPrev : Str) → Res Subrange
  | 0, _, _ => .error .diverge
  | fuel + 1, itStr, itStrPrev => do
    match ← safeDecodePrev itStrPrev with
    | none => .ok ⟨nposW W, 0⟩
    | some (chStr, itStrPrev) =>
      if caseInsensitiveEqual chStr chCmp then
        let (a, b) ← CI.prevMismatch (str.length + 1) itStrPrev itCmp
        if b = [] then .ok ⟨a.length, itStr.length - a.length⟩
        else ciFindLastLoop str chCmp itCmp fuel itStrPrev itStrPrev
      else ciFindLastLoop str chCmp itCmp fuel itStrPrev itStrPrev

/-- src/Ystring/Algorithms.cpp:604-630 -/
def ciFindLast (str cmp : Str) (offset : Nat := nposW W) : Res Subrange := do
  match ← safeDecodePrev cmp.reverse with
  | none => .ok ⟨nposW W, 0⟩
  | some (chCmp, itCmp) =>
    let offset := min offset str.length
    let itStr := (str.take offset).reverse
    ciFindLastLoop W str chCmp itCmp (str.length + 1) itStr itStr

/-- src/Ystring/Algorithms.cpp:678-686 -/
def ciReplaceFwdLoop («from» to : Str) : (maxReplacements : Nat) → (str result : Str) → Res (Str × Str)
  | 0, str, result => .ok (str, result)
  | n + 1, str, result => do
    let m ← ciFindFirst W str «from»
    if !m.nonempty then .ok (str, result)
    else do
      let t ← substr str 0 m.start
      let rest ← substr str (stop W m)
      ciReplaceFwdLoop «from» to n rest (result ++ t ++ to)

/-- src/Ystring/Algorithms.cpp:695-702 -/
def ciReplaceMatches («from» : Str) : (maxReplacements : Nat) → (tmpStr : Str) → (ms : List Subrange) → Res (List Subrange)
  | 0, _, ms => .ok ms
  | n + 1, tmpStr, ms => do
    let m ← ciFindLast W tmpStr «from»
    if !m.nonempty then .ok ms
    else do
      let tmpStr ← substr tmpStr 0 m.start
      ciReplaceMatches «from» n tmpStr (ms ++ [m])

/-- src/Ystring/Algorithms.cpp:704-710 -/
def ciReplaceBwdLoop (str to : Str) : List Subrange → (start : Nat) → (result : Str) → Res (Nat × Str)
  | [], start, result => .ok (start, result)
  | m :: ms, start, result => do
    let t ← substr str start (sizeSub W m.start start)
    ciReplaceBwdLoop str to ms (stop W m) (result ++ t ++ to)

/-- src/Ystring/Algorithms.cpp:670-716 -/
def ciReplace (str «from» to : Str) (maxReplacements : Int := ptrdiffMax W) : Res Str :=
  if maxReplacements ≥ 0 then do
    let (str, result) ← ciReplaceFwdLoop W «from» to maxReplacements.toNat str []
    if str ≠ [] then .ok (result ++ str) else .ok result
  else do
    let ms ← ciReplaceMatches W «from» (-maxReplacements).toNat str []
    let (start, result) ← ciReplaceBwdLoop W str to ms.reverse 0 []
    if start ≠ str.length then do
      let t ← substr str start
      .ok (result ++ t)
    else .ok result

/-- src/Ystring/Algorithms.cpp:727-734 -/
def ciSplit (str sep : Str) (maxSplits : Nat := nposW W) (ignoreEmpty : Bool := false) : Res (List Str) :=
  splitWhere W str (fun s => ciFindFirst W s sep) maxSplits ignoreEmpty

end Ystring.Wd
