import Verif.Spec.Text
/-
What a header with tables says in C++, and what a file of the Unicode database says. Nothing but the type `Txt` is taken from the model.
-/
namespace Ystring.Spec
open Ystring.Gen

/-- The value of a hexadecimal digit: its place in one of the two lists. -/
def hexDigitOf (c : Char) : Option Nat :=
  (t!"0123456789ABCDEF").idxOf? c <|> (t!"0123456789abcdef").idxOf? c

/-- The value of a sequence of hexadecimal digits, of which `n` is the value of those before. -/
def hexFrom : Nat → Txt → Option Nat
  | n, [] => some n
  | n, c :: cs => match hexDigitOf c with
    | some d => hexFrom (16 * n + d) cs
    | none => none

/-- The value of a hexadecimal number. -/
def hexValue (s : Txt) : Option Nat := if s = [] then none else hexFrom 0 s

/-! ### Tokens of C++ -/

/-- Tokens: identifiers and keywords, hexadecimal numbers, other characters. -/
inductive CTok
  | word (w : Txt)
  | num (n : Nat)
  | punct (c : Char)
  deriving DecidableEq, Repr

/-- The token for a sequence of letters, digits and underscores. -/
def wordTok : Txt → CTok
  | '0' :: 'x' :: ds => match hexValue ds with
    | some n => .num n
    | none => .word ('0' :: 'x' :: ds)
  | w => .word w

/-- The token that has ended. -/
def flushTok (w : Txt) : List CTok := if w = [] then [] else [wordTok w]

/-- The tokens in a line; `w` is the word that has begun. White space separates tokens, and `//` begins a comment. (There are no other comments, and no strings
and characters, in the headers.) -/
def lexFrom : Txt → Txt → List CTok
  | w, [] => flushTok w
  | w, c :: cs =>
    if c.isAlphanum || c = '_' then lexFrom (w ++ [c]) cs
    else if c = ' ' || c = '\t' then flushTok w ++ lexFrom [] cs
    else if c = '/' && cs.head? = some '/' then flushTok w
    else flushTok w ++ .punct c :: lexFrom [] cs

/-- The tokens in a line; preprocessing directives are not taken into account. -/
def lexLine (line : Txt) : List CTok :=
  if (line.dropWhile (fun c => c = ' ' || c = '\t')).head? = some '#' then [] else lexFrom [] line

/-- The tokens of a text, given by its lines. -/
def lexLines (lines : List Txt) : List CTok := lines.flatMap lexLine

/-! ### Declarations -/

/-- What stands in the braces of an array: numbers, or structures with numbers. -/
inductive Init
  | num (n : Nat)
  | struct (ns : List Nat)
  deriving DecidableEq, Repr

/-- Lists of tokens separated by commas. -/
def commas : List (List CTok) → List CTok
  | [] => []
  | [x] => x
  | x :: xs => x ++ .punct ',' :: commas xs

/-- The tokens of an element. -/
def Init.toks : Init → List CTok
  | .num n => [.num n]
  | .struct ns => .punct '{' :: (commas (ns.map (fun n => [.num n])) ++ [.punct '}'])

/-- An array. -/
structure Decl where
  type : Txt
  name : Txt
  items : List Init
  deriving DecidableEq, Repr

/-- The declaration `constexpr type name[] = { ... };`; a comma is allowed after the last element. -/
def Decl.toks (d : Decl) (comma : Bool) : List CTok :=
  [.word (t!"constexpr"), .word d.type, .word d.name, .punct '[', .punct ']', .punct '=', .punct '{'] ++
    (commas (d.items.map Init.toks) ++ (if comma && !d.items.isEmpty then [.punct ','] else []) ++ [.punct '}', .punct ';'])

/-- The header declares the arrays in the namespace `ystring`, and nothing else. -/
def Declares (text : Txt) (ds : List Decl) : Prop :=
  ∃ (lines : List Txt) (cs : List Bool), text = joinedBy ['\n'] lines ∧ (∀ l ∈ lines, '\n' ∉ l) ∧ lines ≠ [] ∧ cs.length = ds.length ∧
    lexLines lines = [.word (t!"namespace"), .word (t!"ystring"), .punct '{'] ++
      ((List.zipWith Decl.toks ds cs).flatten ++ [.punct '}'])

/-! ### The Unicode database -/

/-- The fields of a line that are used here. Categories are numbered in the order of `CATEGORIES`, from 1. -/
structure Entry where
  id : Nat
  category : Nat
  /-- there is a tag before the decomposition -/
  tagged : Bool
  decomposition : List Nat
  upper : Option Nat
  lower : Option Nat
  title : Option Nat
  deriving DecidableEq, Repr

/-- The abbreviations of the general categories. -/
def CATEGORIES : List Txt := [
  t!"Lu", t!"Ll", t!"Lt", t!"Lm", t!"Lo", t!"Mn", t!"Mc", t!"Me", t!"Nd", t!"Nl", t!"No", t!"Pc", t!"Pd", t!"Ps", t!"Pe", t!"Pi", t!"Pf", t!"Po",
  t!"Sm", t!"Sc", t!"Sk", t!"So", t!"Zs", t!"Zl", t!"Zp", t!"Cc", t!"Cf", t!"Cs", t!"Co", t!"Cn"]

/-- A field with a code point that may be missing. -/
def IsOptional (field : Txt) (x : Option Nat) : Prop :=
  match x with
  | none => field = []
  | some n => hexValue field = some n

/-- A field with a decomposition: code points separated by spaces, or a tag and anything. -/
def IsDecomposition (field : Txt) (tagged : Bool) (ns : List Nat) : Prop :=
  if tagged then ∃ s, field = '<' :: s
  else ∃ ws : List Txt, field = joinedBy [' '] ws ∧ ws.map hexValue = ns.map some

/-- The line with the fields of an entry. -/
def IsLine (line : Txt) (e : Entry) : Prop :=
  ∃ f0 f1 f2 f3 f4 f5 f6 f7 f8 f9 f10 f11 f12 f13 f14 : Txt,
    line = joinedBy [';'] [f0, f1, f2, f3, f4, f5, f6, f7, f8, f9, f10, f11, f12, f13, f14] ∧
    (∀ f ∈ [f0, f1, f2, f3, f4, f5, f6, f7, f8, f9, f10, f11, f12, f13, f14], ';' ∉ f ∧ '\n' ∉ f) ∧
    hexValue f0 = some e.id ∧ (1 ≤ e.category ∧ CATEGORIES[e.category - 1]? = some f2) ∧ IsDecomposition f5 e.tagged e.decomposition ∧
    IsOptional f12 e.upper ∧ IsOptional f13 e.lower ∧ IsOptional f14 e.title

/-- A file of the database: a line for each entry. -/
inductive Database : List Entry → Txt → Prop
  | nil : Database [] []
  | cons {e : Entry} {line : Txt} {es : List Entry} {text : Txt} (h : IsLine line e) (ht : Database es text) :
      Database (e :: es) (line ++ '\n' :: text)

/-! ### The headers for a database -/

/-- The three case tables. -/
inductive CaseKind
  | upper | lower | title
  deriving DecidableEq, Repr

/-- The argument of the script. -/
def CaseKind.arg : CaseKind → Txt
  | .upper => t!"upper"
  | .lower => t!"lower"
  | .title => t!"title"

/-- The name in the header. -/
def CaseKind.caps : CaseKind → Txt
  | .upper => t!"UPPER"
  | .lower => t!"LOWER"
  | .title => t!"TITLE"

/-- The field of the database. -/
def CaseKind.field : CaseKind → Entry → Option Nat
  | .upper, e => e.upper
  | .lower, e => e.lower
  | .title, e => e.title

/-- The code points that have a mapping, and the mappings. -/
def CaseKind.pairs (k : CaseKind) (es : List Entry) : List (Nat × Nat) := es.filterMap (fun e => (k.field e).map (fun w => (e.id, w)))

/-- The arrays for the case tables: rows of four and of two numbers. -/
def caseHeader (k : CaseKind) (compact : List (Nat × Nat × Nat × Nat)) (mappings : List (Nat × Nat)) : List Decl := [
  ⟨t!"CompactCharMapping", t!"COMPACT_" ++ k.caps ++ t!"_CASE", compact.map (fun r => .struct [r.1, r.2.1, r.2.2.1, r.2.2.2])⟩,
  ⟨t!"CharMapping", k.caps ++ t!"_CASE", mappings.map (fun m => .struct [m.1, m.2])⟩]

/-- The arrays for the character classes. -/
def classHeader (ascii all : List Nat) : List Decl := [
  ⟨t!"uint8_t", t!"ASCII_CHAR_CLASSES", ascii.map .num⟩,
  ⟨t!"uint32_t", t!"COMPLETE_CHAR_CLASSES", all.map .num⟩]

/-- The arrays for normalization. -/
def normalizationHeader (decomposed composed : List Nat) : List Decl := [
  ⟨t!"uint64_t", t!"TO_DECOMPOSED", decomposed.map .num⟩,
  ⟨t!"uint64_t", t!"TO_COMPOSED", composed.map .num⟩]

/-- The numbers in an element. -/
def Init.values : Init → List Nat
  | .num n => [n]
  | .struct ns => ns

/-- The bits of the numbers in arrays of the given type (the members of the structures are of type char32_t). -/
def typeBits (type : Txt) : Nat := if type = t!"uint8_t" then 8 else if type = t!"uint64_t" then 64 else 32

/-- The numbers can be stored in the array; otherwise the header would not compile. -/
def Decl.Fits (d : Decl) : Prop := ∀ x ∈ d.items, ∀ n ∈ x.values, n < 2 ^ typeBits d.type

end Ystring.Spec
