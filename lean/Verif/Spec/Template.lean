import Verif.Spec.Text
/-
What a template means. A template is a sequence of lines: plain lines, lines with one key, and conditional blocks whose directives stand on lines of their own.
-/
namespace Ystring.Spec
open Ystring.Gen

mutual
/-- A template. -/
inductive Tmpl
  | nil
  /-- a line without keys -/
  | plain (text : Txt) (rest : Tmpl)
  /-- the line `pre[[[key]]]post` -/
  | expand (pre key post : Txt) (rest : Tmpl)
  /-- `[[[IF key]]]`, indented by `ind`, the lines of `body`, and the other branches up to `[[[ENDIF]]]` -/
  | cond (ind key : Txt) (body : Tmpl) (more : Clauses) (rest : Tmpl)

/-- What follows the first branch of a conditional block. -/
inductive Clauses
  | endif (ind : Txt)
  | els (ind : Txt) (body : Tmpl) (ind' : Txt)
  | elif (ind key : Txt) (body : Tmpl) (more : Clauses)
end

mutual
/-- The lines of a template. -/
def Tmpl.render : Tmpl → List Txt
  | .nil => []
  | .plain text rest => text :: rest.render
  | .expand pre key post rest => (pre ++ t!"[[[" ++ key ++ t!"]]]" ++ post) :: rest.render
  | .cond ind key body more rest => (ind ++ t!"[[[IF " ++ key ++ t!"]]]") :: (body.render ++ (more.render ++ rest.render))

/-- The lines of the other branches. -/
def Clauses.render : Clauses → List Txt
  | .endif ind => [ind ++ t!"[[[ENDIF]]]"]
  | .els ind body ind' => (ind ++ t!"[[[ELSE]]]") :: (body.render ++ [ind' ++ t!"[[[ENDIF]]]"])
  | .elif ind key body more => (ind ++ t!"[[[ELIF " ++ key ++ t!"]]]") :: (body.render ++ more.render)
end

/-- Keys consist of letters, digits and underscores, and are not mistaken for directives. -/
def IsKey (key : Txt) : Prop :=
  key ≠ [] ∧ (∀ c ∈ key, c.isAlphanum ∨ c = '_') ∧ ¬ (t!"ELSE") <+: key ∧ ¬ (t!"ENDIF") <+: key

/-- Text in a template: one line without `[[[`. -/
def IsText (s : Txt) : Prop := '\n' ∉ s ∧ ¬ (t!"[[[") <:+: s

/-- White space in front of a directive. -/
def IsIndent (s : Txt) : Prop := '\n' ∉ s ∧ blankText s = true

mutual
/-- The parts of the template are keys, text and white space. -/
def Tmpl.Good : Tmpl → Prop
  | .nil => True
  | .plain text rest => IsText text ∧ rest.Good
  | .expand pre key post rest => (IsText pre ∧ pre.getLast? ≠ some '[') ∧ IsKey key ∧ IsText post ∧ rest.Good
  | .cond ind key body more rest => (IsIndent ind ∧ IsKey key) ∧ body.Good ∧ more.Good ∧ rest.Good

/-- The parts of the other branches are keys, text and white space. -/
def Clauses.Good : Clauses → Prop
  | .endif ind => IsIndent ind
  | .els ind body ind' => IsIndent ind ∧ body.Good ∧ IsIndent ind'
  | .elif ind key body more => (IsIndent ind ∧ IsKey key) ∧ body.Good ∧ more.Good
end

/-- The lines that stand for a value. -/
def block : Val → List Txt
  | .none => []
  | .str s => if s = [] then [] else [s]
  | .list ls => ls
  | .int n => [decimal n]
  | .bool b => [if b then t!"True" else t!"False"]

/-- The white space at the beginning of a line that is not blank. -/
def indent (s : Txt) : Txt :=
  if s.all (fun c => c = '\t' || c = ' ') then [] else s.takeWhile (fun c => c = '\t' || c = ' ')

/-- What is put before the second and following lines of a list: the indentation, and spaces up to the column of the list. -/
def margin (line : Txt) (column : Nat) : Txt := indent line ++ List.replicate (column - (indent line).length) ' '

/-- The lines made from `pre[[[key]]]post` where `key` has the lines `b`, if the key is thought to be `off` columns further to the right than it is; and
the displacement of the following line. A line with nothing but a key without lines is left out, but its length is not. -/
def expandLine (off : Nat) (pre : Txt) (b : List Txt) (post : Txt) : List Txt × Nat :=
  match b with
  | [] => if blankText pre ∧ post = [] then ([], off + pre.length) else ([cutBlanks (pre ++ post)], 0)
  | [l] => ([cutBlanks (pre ++ l ++ post)], 0)
  | l :: ls =>
    let m := margin (pre ++ l) (off + pre.length)
    ((pre ++ l) :: (ls.dropLast.map (fun l => if l = [] then [] else m ++ l) ++ [cutBlanks (m ++ ls.getLastD [] ++ post)]), 0)

/-- The value of a key; there must be one. -/
def valueOf (d : List (Txt × Val)) (key : Txt) : Except PyErr Val :=
  match d.lookup key with
  | some v => .ok v
  | none => .error .key

/-- The white space in front of the directive that ends the branch before. -/
def Clauses.indent : Clauses → Txt
  | .endif ind => ind
  | .els ind _ _ => ind
  | .elif ind _ _ _ => ind

/-- What follows is displaced by the white space in front of a directive that is reached. -/
def displaced (ind : Txt) (r : List Txt × Nat) : List Txt × Nat := (r.1, r.2 + ind.length)

mutual
/-- The lines made from a template, and the displacement of what follows. Only the keys in the branches that are taken, and the conditions up to them, must have
values. -/
def Tmpl.eval (d : List (Txt × Val)) (off : Nat) : Tmpl → Except PyErr (List Txt × Nat)
  | .nil => .ok ([], off)
  | .plain text rest => do
    let r ← rest.eval d 0
    .ok (cutBlanks text :: r.1, r.2)
  | .expand pre key post rest => do
    let v ← valueOf d key
    let l := expandLine off pre (block v) post
    let r ← rest.eval d l.2
    .ok (l.1 ++ r.1, r.2)
  | .cond ind key body more rest => do
    let v ← valueOf d key
    let l ← if isTrue v then (body.eval d (off + ind.length)).map (displaced more.indent) else more.eval d (off + ind.length)
    let r ← rest.eval d l.2
    .ok (l.1 ++ r.1, r.2)

/-- The lines made from the other branches. -/
def Clauses.eval (d : List (Txt × Val)) (off : Nat) : Clauses → Except PyErr (List Txt × Nat)
  | .endif _ => .ok ([], off)
  | .els _ body ind' => (body.eval d off).map (displaced ind')
  | .elif _ key body more => do
    let v ← valueOf d key
    if isTrue v then (body.eval d off).map (displaced more.indent) else more.eval d off
end

/-- The lines that are meant by `pre[[[key]]]post` where `key` has the lines `b`: nothing if there is nothing else than a key without lines, and
otherwise the lines of `b`, aligned below the first one. -/
def meantLine (pre : Txt) (b : List Txt) (post : Txt) : List Txt := (expandLine 0 pre b post).1

mutual
/-- The lines that are meant by a template. -/
def Tmpl.meant (d : List (Txt × Val)) : Tmpl → Except PyErr (List Txt)
  | .nil => .ok []
  | .plain text rest => do .ok (cutBlanks text :: (← rest.meant d))
  | .expand pre key post rest => do
    let v ← valueOf d key
    .ok (meantLine pre (block v) post ++ (← rest.meant d))
  | .cond _ key body more rest => do
    let v ← valueOf d key
    let l ← if isTrue v then body.meant d else more.meant d
    .ok (l ++ (← rest.meant d))

/-- The lines that are meant by the other branches. -/
def Clauses.meant (d : List (Txt × Val)) : Clauses → Except PyErr (List Txt)
  | .endif _ => .ok []
  | .els _ body _ => body.meant d
  | .elif _ key body more => do
    let v ← valueOf d key
    if isTrue v then body.meant d else more.meant d
end

mutual
/-- No directive is indented, and no line consists of white space and a key without lines. -/
def Tmpl.Tidy (d : List (Txt × Val)) : Tmpl → Prop
  | .nil => True
  | .plain _ rest => rest.Tidy d
  | .expand pre key post rest =>
    (pre = [] ∨ blankText pre = false ∨ post ≠ [] ∨ ∀ v, valueOf d key = .ok v → block v ≠ []) ∧ rest.Tidy d
  | .cond ind _ body more rest => ind = [] ∧ body.Tidy d ∧ more.Tidy d ∧ rest.Tidy d

/-- The same for the other branches. -/
def Clauses.Tidy (d : List (Txt × Val)) : Clauses → Prop
  | .endif ind => ind = []
  | .els ind body ind' => ind = [] ∧ body.Tidy d ∧ ind' = []
  | .elif ind _ body more => ind = [] ∧ body.Tidy d ∧ more.Tidy d
end

end Ystring.Spec

namespace Ystring.Spec
open Ystring.Gen

/-- Lines with the given strings: they are separated by `sep`, and lines other than the last are ended with `nl`. -/
def wrapped (sep nl : Txt) : List (List Txt) → List Txt
  | [] => []
  | [g] => [joinedBy sep g]
  | g :: gs => (joinedBy sep g ++ nl) :: wrapped sep nl gs

end Ystring.Spec
