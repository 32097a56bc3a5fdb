import Verif.Model.View
import Verif.Spec.Split
/-
Vocabulary for the property of returned views (C87).
-/
namespace Ystring.Spec

/-- The views of the pieces of a text that starts at the address `d`, each at the address of the piece in the text. -/
def locate (d : Nat) : List (Str × Str) → Str → List View
  | [], last => [⟨some d, last⟩]
  | (p, t) :: ps, last => ⟨some d, p⟩ :: locate (d + p.length + t.length) ps last

/-- The views, without the empty ones if `ignore` is set. -/
def keepViews (ignore : Bool) (vs : List View) : List View := if ignore then vs.filter (fun v => v.text ≠ []) else vs

/-- `w` is the part of `v` at a certain address. -/
def PartOf (w v : View) : Prop :=
  ∃ d a b, v.data = some d ∧ v.text = a ++ w.text ++ b ∧ w.data = some (d + a.length)

/-- Views that follow each other in memory without overlapping. -/
def Ascending : List View → Prop
  | [] => True
  | v :: vs => (∀ w ∈ vs, ∃ d e, v.data = some d ∧ w.data = some e ∧ d + v.text.length ≤ e) ∧ Ascending vs

end Ystring.Spec
