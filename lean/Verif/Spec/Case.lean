import Verif.Spec.UnicodeData.CaseMappings
import Verif.Model.Basic
/-
Specification of the simple case mappings: read off UnicodeData16.0.0.txt.
-/
namespace Ystring.Spec

/-- value of a finite map given as an association list, the identity elsewhere -/
def lookup (l : List (Nat × Nat)) (c : Nat) : Nat :=
  match l.find? (fun p => p.1 == c) with
  | some p => p.2
  | none => c

/-- Simple_Uppercase_Mapping (field 12) -/
def simpleUpper (c : Nat) : Nat := lookup UD_UPPER c
/-- Simple_Lowercase_Mapping (field 13) -/
def simpleLower (c : Nat) : Nat := lookup UD_LOWER c
/-- Simple_Titlecase_Mapping (field 14; no code point has field 12 but not field 14) -/
def simpleTitle (c : Nat) : Nat := lookup UD_TITLE c

end Ystring.Spec
