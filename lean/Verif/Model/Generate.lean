import Verif.Model.ConvertCase
/-
Model of the table generators in tools/unicode_character_tables, which make the tables of src/Ystring from a Unicode
database. The input is the list of the fields that the scripts use, in file order (reading the file
and printing are in Model/Headers.lean, `codegen.make_text` in Model/Codegen.lean).
-/
namespace Ystring.Gen

/-! ### make_case_convert_file.py -/

/-- tools/unicode_character_tables/make_case_convert_file.py:24-28: the effect of one pass of the loop on `diffs`
(a Python `dict`, which keeps insertion order). -/
def countDiff : List (Int × Nat) → Int → List (Int × Nat)
  | [], d => [(d, 1)]
  | (e, n) :: diffs, d => if e = d then (e, n + 1) :: diffs else (e, n) :: countDiff diffs d

/-- tools/unicode_character_tables/make_case_convert_file.py:22-33: (best_diff, max_count) -/
def mostPrevalentDiff (values : List (Nat × Nat)) : Int × Nat :=
  let diffs := values.foldl (fun diffs p => countDiff diffs ((p.2 : Int) - p.1)) []
  diffs.foldl (fun best x => if x.2 > best.2 then x else best) (0, 0)

/-- tools/unicode_character_tables/make_case_convert_file.py:40-45: (bit_set, nbit_set, remainder) -/
def diffSetLoop (major : Nat) (diff : Int) : List (Nat × Nat) → Nat → Nat → List (Nat × Nat) → Nat × Nat × List (Nat × Nat)
  | [], bits, nbits, remainder => (bits, nbits, remainder)
  | (v, w) :: values, bits, nbits, remainder =>
    if (w : Int) - v = diff then
      diffSetLoop major diff values (bits ||| (1 <<< (v - major))) (nbits ^^^ (1 <<< (v - major))) remainder
    else
      diffSetLoop major diff values bits (nbits ^^^ (1 <<< (v - major))) (remainder ++ [(v, w)])

/-- tools/unicode_character_tables/make_case_convert_file.py:36-46 -/
def makeDiffSet (major : Nat) (diff : Int) (values : List (Nat × Nat)) : (Nat × Int × Nat × Nat) × List (Nat × Nat) :=
  let r := diffSetLoop major diff values 0 0xFFFFFFFF []
  ((major, diff, r.1, r.2.1), r.2.2)

/-- tools/unicode_character_tables/make_case_convert_file.py:79-84: the row that is printed for a diff set -/
def compactRow (d : Nat × Int × Nat × Nat) : CompactRow :=
  if d.2.1 < 0 then (d.1, (2 ^ 32 + d.2.1).toNat, d.2.2.1, d.2.2.2) else (d.1, d.2.1.toNat, d.2.2.1, d.2.2.2)

/-- tools/unicode_character_tables/make_case_convert_file.py:113-118: the effect on `chars`, a `dict` from `major` to
lists -/
def addChar : List (Nat × List (Nat × Nat)) → Nat × Nat → List (Nat × List (Nat × Nat))
  | [], p => [(p.1 / 32 * 32, [p])]
  | (m, l) :: chars, p => if m = p.1 / 32 * 32 then (m, l ++ [p]) :: chars else (m, l) :: addChar chars p

/-- tools/unicode_character_tables/make_case_convert_file.py:121-128: one pass of the loop, on (diff_sets, mappings) -/
def caseStep (acc : List (Nat × Int × Nat × Nat) × List (Nat × Nat)) (x : Nat × List (Nat × Nat)) :
    List (Nat × Int × Nat × Nat) × List (Nat × Nat) :=
  let dc := mostPrevalentDiff x.2
  if dc.2 > 2 then
    let r := makeDiffSet x.1 dc.1 x.2
    (acc.1 ++ [r.1], acc.2 ++ r.2)
  else (acc.1, acc.2 ++ x.2)

/-- tools/unicode_character_tables/make_case_convert_file.py:98-130: the tables that are printed for a database in which
`lines` are the code points with a mapping and their mappings -/
def caseTables (lines : List (Nat × Nat)) : List CompactRow × List (Nat × Nat) :=
  let chars := lines.foldl addChar []
  let r := (chars.mergeSort (fun a b => a.1 ≤ b.1)).foldl caseStep ([], [])
  (r.1.map compactRow, r.2)

/-! ### make_char_class_file.py

A general category is represented by its number in the dictionary `Classes` (lines 54-85): Lu is 1, ..., Cn is 30. -/

/-- The classes of ranges: a category (a string of length 2), `XLu` / `XLl` (alternating upper and lower case, ending
in the given one, 1 or 2), or two categories (a string of length 4: all but the last code point, the last one).
tools/unicode_character_tables/make_char_class_file.py:54-85, 126-127. -/
inductive RangeClass
  | one (k : Nat)
  | alternating (k : Nat)
  | two (k last : Nat)
  deriving DecidableEq, Repr

/-- (first, last, class): the triples of tools/unicode_character_tables/make_char_class_file.py:182. -/
abbrev ClassRange := Nat × Nat × RangeClass

/-- tools/unicode_character_tables/make_char_class_file.py:130-131 -/
def KNOWN_RANGES : List Nat := [0x4DB5, 0x9FCC, 0xD7A3, 0xDB7F, 0xDBFF, 0xDFFF, 0xF8FF,
  0x2A6D6, 0x2B734, 0x2B81D, 0xFFFFD, 0x10FFFD]

/-- tools/unicode_character_tables/make_char_class_file.py:159-166 -/
def encodeValue (index : Nat) : RangeClass → Nat
  | .one k => (index <<< 11) + k
  | .two k last => (index <<< 11) + ((k <<< 5) ||| last)
  | .alternating k => (index <<< 11) + (0x400 ||| k)

/-- tools/unicode_character_tables/make_char_class_file.py:170-173: the variables of the loop; `next` is `range_end + 1` -/
structure RangeState where
  ranges : List ClassRange
  rangeClass : Option Nat
  rangeStart : Nat
  next : Nat

/-- tools/unicode_character_tables/make_char_class_file.py:181-182 and 188-189: the pending range is appended -/
def RangeState.flush (s : RangeState) : List ClassRange :=
  match s.rangeClass with
  | some k => s.ranges ++ [(s.rangeStart, s.next - 1, .one k)]
  | none => s.ranges

/-- tools/unicode_character_tables/make_char_class_file.py:178-187: one pass of the loop, for a line with code point
`l.1` and category `l.2`; `known` is `KnownRanges` -/
def rangeStep (known : List Nat) (s : RangeState) (l : Nat × Nat) : RangeState :=
  if (l.1 = s.next ∨ l.1 ∈ known) ∧ s.rangeClass = some l.2 then { s with next := l.1 + 1 }
  else
    let ranges := s.flush
    let ranges := if l.1 ≠ s.next then ranges ++ [(s.next, l.1 - 1, .one 30)] else ranges
    ⟨ranges, some l.2, l.1, l.1 + 1⟩

/-- tools/unicode_character_tables/make_char_class_file.py:169-190 (`range_start` and `range_end` are -1 before the first
line; the former is not used before it is set) -/
def classRanges (known : List Nat) (lines : List (Nat × Nat)) : List ClassRange :=
  (lines.foldl (rangeStep known) ⟨[], none, 0, 0⟩).flush

/-- tools/unicode_character_tables/make_char_class_file.py:196-207: one pass of the loop; `new_ranges` is in reverse order -/
def alternatingStep : List ClassRange → ClassRange → List ClassRange
  | [], r => [r]
  | q :: qs, r =>
    if r.1 = r.2.1 ∧ r.2.2 = .one 1 then
      if q.2.1 + 1 = r.1 ∧ (q.2.2 = .alternating 2 ∨ (q.2.2 = .one 2 ∧ q.1 = q.2.1)) then
        (q.1, r.2.1, .alternating 1) :: qs
      else r :: q :: qs
    else if r.1 = r.2.1 ∧ r.2.2 = .one 2 then
      if q.2.1 + 1 = r.1 ∧ (q.2.2 = .alternating 1 ∨ (q.2.2 = .one 1 ∧ q.1 = q.2.1)) then
        (q.1, r.2.1, .alternating 2) :: qs
      else r :: q :: qs
    else r :: q :: qs

/-- tools/unicode_character_tables/make_char_class_file.py:193-208 (`ranges[0]` of an empty list is an error; here the
result is empty) -/
def optimizeAlternating (ranges : List ClassRange) : List ClassRange := (ranges.foldl alternatingStep []).reverse

/-- tools/unicode_character_tables/make_char_class_file.py:214-218: one pass of the loop; `new_ranges` is in reverse order.
A range of a single code point always has a category (`Tiles`, Proofs/GenerateClass), so the strings that are
concatenated have length 2. -/
def unassignedStep : List ClassRange → ClassRange → List ClassRange
  | [], r => [r]
  | q :: qs, r =>
    match q.2.2, r.2.2 with
    | .one k, .one last => if r.1 = r.2.1 then (q.1, r.2.1, .two k last) :: qs else r :: q :: qs
    | _, _ => r :: q :: qs

/-- tools/unicode_character_tables/make_char_class_file.py:211-219 -/
def optimizeUnassigned (ranges : List ClassRange) : List ClassRange := (ranges.foldl unassignedStep []).reverse

/-- tools/unicode_character_tables/make_char_class_file.py:222-231 and 264-269: the values of COMPLETE_CHAR_CLASSES for a
database in which `lines` are the code points and their categories (the layout in rows of five is in Model/Headers.lean) -/
def classTableWith (known : List Nat) (lines : List (Nat × Nat)) : List Nat :=
  (optimizeUnassigned (optimizeAlternating (classRanges known lines))).map (fun r => encodeValue r.2.1 r.2.2)

/-- tools/unicode_character_tables/make_char_class_file.py:264-269: COMPLETE_CHAR_CLASSES, with the set `KnownRanges` of the
script -/
def classTable (lines : List (Nat × Nat)) : List Nat := classTableWith KNOWN_RANGES lines

/-- tools/unicode_character_tables/make_char_class_file.py:234-248: the values of ASCII_CHAR_CLASSES -/
def asciiTable (lines : List (Nat × Nat)) : List Nat :=
  (lines.takeWhile (fun l => l.1 < 128)).map (fun l => l.2 - 1)

/-! ### make_normalization_file.py -/

/-- A line of the database: the code point, whether the decomposition field begins with '<' (a compatibility
decomposition), and the code points in the field. tools/unicode_character_tables/make_normalization_file.py:40-54. -/
structure DecompLine where
  id : Nat
  tagged : Bool
  values : List Nat
  deriving DecidableEq, Repr

/-- tools/unicode_character_tables/make_normalization_file.py:40-54: the rules (c, a, b) -/
def getRules (lines : List DecompLine) : List (Nat × Nat × Nat) :=
  lines.filterMap fun l =>
    if l.values = [] ∨ l.tagged then none
    else match l.values with
      | [a, b] => some (l.id, a, b)
      | _ => none

/-- tools/unicode_character_tables/make_normalization_file.py:57-58 -/
def encodeDecomposed (rule : Nat × Nat × Nat) : Nat := (rule.1 <<< 40) ||| (rule.2.1 <<< 20) ||| rule.2.2

/-- tools/unicode_character_tables/make_normalization_file.py:61-62 -/
def encodeComposed (rule : Nat × Nat × Nat) : Nat := (rule.2.1 <<< 40) ||| (rule.2.2 <<< 20) ||| rule.1

/-- tools/unicode_character_tables/make_normalization_file.py:65-74: the values of TO_DECOMPOSED -/
def decomposedTable (rules : List (Nat × Nat × Nat)) : List Nat := rules.map encodeDecomposed

/-- tools/unicode_character_tables/make_normalization_file.py:78: the comparison of keys (tuples) -/
def ruleLE (p q : Nat × Nat × Nat) : Bool := p.2.1 < q.2.1 ∨ (p.2.1 = q.2.1 ∧ p.2.2 ≤ q.2.2)

/-- tools/unicode_character_tables/make_normalization_file.py:77-87: the values of TO_COMPOSED -/
def composedTable (rules : List (Nat × Nat × Nat)) : List Nat := (rules.mergeSort ruleLE).map encodeComposed

end Ystring.Gen
