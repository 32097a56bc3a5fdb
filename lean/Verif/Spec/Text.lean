import Verif.Model.Codegen
/-
Words for texts, used in the specifications of the template engine and of the table generators. Of the model only the type `Txt` of texts and the type
`Val` of the values of a dictionary are used.
-/
namespace Ystring.Spec
open Ystring.Gen

/-- Python's white space: the characters with the property White_Space, and the separators U+001C–U+001F. -/
def blankChar (c : Char) : Bool :=
  c.toNat ∈ [0x9, 0xA, 0xB, 0xC, 0xD, 0x1C, 0x1D, 0x1E, 0x1F, 0x20, 0x85, 0xA0, 0x1680, 0x2000, 0x2001, 0x2002, 0x2003, 0x2004, 0x2005, 0x2006, 0x2007, 0x2008,
    0x2009, 0x200A, 0x2028, 0x2029, 0x202F, 0x205F, 0x3000]

/-- Nothing but white space. -/
def blankText (s : Txt) : Bool := s.all blankChar

/-- The text without the white space at its end. -/
def cutBlanks : Txt → Txt
  | [] => []
  | c :: cs => if blankText (c :: cs) then [] else c :: cutBlanks cs

/-- The texts with `sep` between each two. -/
def joinedBy (sep : Txt) (ls : List Txt) : Txt := (ls.intersperse sep).flatten

/-- A number in decimal. -/
def decimal (n : Int) : Txt := (if n < 0 then ['-'] else []) ++ Nat.toDigits 10 n.natAbs

/-- The values that count as false. -/
def falseValues : List Val := [.none, .str [], .list [], .int 0, .bool false]

/-- A condition holds. -/
def isTrue (v : Val) : Bool := v ∉ falseValues

end Ystring.Spec
