import Verif.Spec.Find
/-
Functions on lists of code points, to which the functions on strings correspond (C89).
-/
namespace Ystring.Spec

/-- The code points before the first one that satisfies `sep`, and those after it. -/
def cutAt (sep : Char32 → Bool) (cs : List Char32) : Option (List Char32 × List Char32) :=
  match cs.dropWhile (fun c => !sep c) with
  | _ :: b => some (cs.takeWhile fun c => !sep c, b)
  | [] => none

/-- LF, VT, FF, CR, NEL, LINE SEPARATOR and PARAGRAPH SEPARATOR -/
def newline (c : Char32) : Bool :=
  c == 0x0A || c == 0x0B || c == 0x0C || c == 0x0D || c == 0x85 || c == 0x2028 || c == 0x2029

/-- The first line, and what follows its newline. CR LF is one newline. -/
def cutLine (cs : List Char32) : Option (List Char32 × List Char32) :=
  match cs.dropWhile (fun c => !newline c) with
  | 0x0D :: 0x0A :: b => some (cs.takeWhile fun c => !newline c, b)
  | _ :: b => some (cs.takeWhile fun c => !newline c, b)
  | [] => none

/-- What is before the first `k` consecutive code points that satisfy `hit`, and what is after them. -/
def cutSub (k : Nat) (hit : List Char32 → Bool) : List Char32 → Option (List Char32 × List Char32)
  | [] => none
  | c :: cs =>
    if k ≤ (c :: cs).length && hit ((c :: cs).take k) then some ([], (c :: cs).drop k)
    else (cutSub k hit cs).map fun x => (c :: x.1, x.2)

/-- `l0 ++ sep ++ l1 ++ sep ++ ... ++ lk` -/
def joinLists (sep : List Char32) : List (List Char32) → List Char32
  | [] => []
  | [l] => l
  | l :: m :: ls => l ++ sep ++ joinLists sep (m :: ls)

/-- The lists without the empty ones if `ignore` is set. -/
def keepLists (ignore : Bool) (ls : List (List Char32)) : List (List Char32) := if ignore then ls.filter (· ≠ []) else ls

/-- Cut off one piece after the other, at most `n`. Empty pieces do not count and are left out if `ignore` is set. (`fuel`
only bounds the recursion; the length of the list is enough.) -/
def cutAll (first : List Char32 → Option (List Char32 × List Char32)) (ignore : Bool) :
    (fuel n : Nat) → List Char32 → List (List Char32)
  | 0, _, cs => keepLists ignore [cs]
  | _, 0, cs => keepLists ignore [cs]
  | fuel + 1, n + 1, cs =>
    match first cs with
    | none => keepLists ignore [cs]
    | some (a, b) => if ignore && a.isEmpty then cutAll first ignore fuel (n + 1) b else a :: cutAll first ignore fuel n b

end Ystring.Spec
