import Verif.Model.Basic
/-
Model of src/Ystring/Escape.cpp.
-/
namespace Ystring

/-- src/Ystring/Escape.cpp:18-25 -/
def toDigit (c : UInt8) : UInt8 :=
  if c < 10 then 0x30 + c
  else if c < 36 then 0x41 + (c - 10)
  else 0x3F

/-- src/Ystring/Escape.cpp:31-34: the predicate passed to `std::find_if`. -/
def isEscapable (c : UInt8) : Bool := c < 32 || c == 0x22 || c == 0x5C

/-- src/Ystring/Escape.cpp:28-36. `str.begin() + offset` with `offset > str.size()` is undefined. -/
def findFirstEscapableChar (str : Str) (offset : Nat := 0) : Res Subrange :=
  if offset > str.length then .error .ub
  else
    let it := offset + stdFindIf isEscapable (str.drop offset)
    .ok ⟨it, if it = str.length then 0 else 1⟩

/-- src/Ystring/Escape.cpp:38-41 -/
def hasEscapableChars (str : Str) : Res Bool := do
  let sub ← findFirstEscapableChar str
  .ok sub.nonempty

/-- src/Ystring/Escape.cpp:50-79: the bytes appended for the byte `c = str[sub.offset]`. -/
def escapeSequence (c : UInt8) : Str :=
  0x5C ::
    (if c = 0x08 then [0x62]
     else if c = 0x0C then [0x66]
     else if c = 0x0A then [0x6E]
     else if c = 0x0D then [0x72]
     else if c = 0x09 then [0x74]
     else if c = 0x22 then [0x22]
     else if c = 0x5C then [0x5C]
     else [0x75, 0x30, 0x30, toDigit ((c &&& 0xF0) >>> 4), toDigit (c &&& 0xF)])

/-- src/Ystring/Escape.cpp:45-83: the `while` loop and the final append. -/
def escapeJsonLoop (str : Str) : (fuel : Nat) → (offset : Nat) → (result : Str) → Res Str
  | 0, _, _ => .error .diverge
  | fuel + 1, offset, result => do
    let sub ← findFirstEscapableChar str offset
    if sub.nonempty then
      let result := result ++ (str.drop offset).take (sub.offset - offset)
      match str[sub.offset]? with
      | none => .error .ub
      | some c => escapeJsonLoop str fuel sub.stop (result ++ escapeSequence c)
    else .ok (result ++ str.drop offset)

/-- src/Ystring/Escape.cpp:43-84 -/
def escapeJson (str : Str) : Res Str := escapeJsonLoop str (str.length + 1) 0 []

end Ystring
