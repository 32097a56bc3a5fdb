import Verif.Spec.Template
/-
What any template means, with tags anywhere in its lines: a template is a sequence of texts, tags `[[[...]]]` and line breaks; conditional directives
bracket parts of this sequence, within a line or over several lines.
-/
namespace Ystring.Spec
open Ystring.Gen

/-! ### The pieces of a template -/

inductive Piece
  | text (s : Txt)
  | newline
  /-- `[[[inner]]]` -/
  | tag (inner : Txt)

/-- The pieces of one line: there is a (possibly empty) text before each tag. A tag starts at the first `[[[` and ends at the next `]]]`. -/
inductive LinePieces : Txt → List Piece → Prop
  | blank : LinePieces [] []
  | text {s} : s ≠ [] → ¬ (t!"[[[") <:+: s → LinePieces s [.text s]
  | tag {pre inner post ps} : ¬ (t!"[[[") <:+: (pre ++ t!"[[") → ¬ (t!"]]]") <:+: (inner ++ t!"]]") → LinePieces post ps →
      LinePieces (pre ++ t!"[[[" ++ inner ++ t!"]]]" ++ post) (.text pre :: .tag inner :: ps)

/-- The pieces of a template. -/
inductive Pieces : Txt → List Piece → Prop
  | line {l ps} : '\n' ∉ l → LinePieces l ps → Pieces l (ps ++ [.newline])
  | lines {l ps t qs} : '\n' ∉ l → LinePieces l ps → Pieces t qs → Pieces (l ++ '\n' :: t) (ps ++ .newline :: qs)

/-- A line with a `[[[` that is not followed by `]]]`: `pre` consists of texts and complete tags. -/
inductive Unterminated : Txt → Prop
  | here {pre rest} : ¬ (t!"[[[") <:+: (pre ++ t!"[[") → ¬ (t!"]]]") <:+: rest → Unterminated (pre ++ t!"[[[" ++ rest)
  | later {pre inner post} : ¬ (t!"[[[") <:+: (pre ++ t!"[[") → ¬ (t!"]]]") <:+: (inner ++ t!"]]") → Unterminated post →
      Unterminated (pre ++ t!"[[[" ++ inner ++ t!"]]]" ++ post)

/-! ### The meaning of tags -/

/-- Tags that are not conditional directives. -/
inductive Tag
  /-- the value of a key -/
  | value (key : Txt)
  | assign (key value : Txt)
  /-- an assignment without key or without `=` -/
  | malformed
  /-- `>`: remember the column -/
  | mark
  /-- `|`: go to the column -/
  | tab
  /-- `<`: forget the column -/
  | unmark

/-- Only white space. -/
def Spaces (s : Txt) : Prop := ∀ c ∈ s, blankChar c = true

/-- No white space, and not empty. -/
def Word (s : Txt) : Prop := s ≠ [] ∧ ∀ c ∈ s, blankChar c = false

/-- `s` consists of one word, `key`. -/
def OneWord (s key : Txt) : Prop := Word key ∧ ∃ a b, Spaces a ∧ Spaces b ∧ s = a ++ key ++ b

/-- What begins like a directive. -/
def Directive (s : Txt) : Prop :=
  (t!"IF ") <+: s ∨ (t!"ELIF ") <+: s ∨ (t!"ELSE") <+: s ∨ (t!"ENDIF") <+: s ∨ (t!"SET ") <+: s

/-- The meaning of `[[[inner]]]` if it is no conditional directive. -/
inductive Means : Txt → Tag → Prop
  | value {key} : ¬ Directive key → key ≠ t!"|" → key ≠ t!">" → key ≠ t!"<" → Means key (.value key)
  | assign {a c key v} : Spaces a → blankChar c = false → '=' ∉ c :: key → Means (t!"SET " ++ a ++ c :: key ++ '=' :: v) (.assign (c :: key) v)
  | noKey {a v} : Spaces a → Means (t!"SET " ++ a ++ '=' :: v) .malformed
  | noValue {s} : '=' ∉ s → Means (t!"SET " ++ s) .malformed
  | mark : Means (t!">") .mark
  | tab : Means (t!"|") .tab
  | unmark : Means (t!"<") .unmark

/-! ### Programs -/

mutual
/-- A template in which the conditional directives match. -/
inductive Prog
  | done
  | text (s : Txt) (rest : Prog)
  | newline (rest : Prog)
  | tag (inner : Txt) (meaning : Tag) (rest : Prog)
  /-- `[[[inner]]]` is `IF key` -/
  | cond (inner key : Txt) (body : Prog) (more : Branches) (rest : Prog)

/-- What follows a branch. (The engine accepts further branches after `ELSE`.) -/
inductive Branches
  | endif (inner : Txt)
  | els (inner : Txt) (body : Prog) (more : Branches)
  /-- `[[[inner]]]` is `ELIF key` -/
  | elif (inner key : Txt) (body : Prog) (more : Branches)
end

mutual
def Prog.pieces : Prog → List Piece
  | .done => []
  | .text s rest => .text s :: rest.pieces
  | .newline rest => .newline :: rest.pieces
  | .tag inner _ rest => .tag inner :: rest.pieces
  | .cond inner _ body more rest => .tag inner :: (body.pieces ++ (more.pieces ++ rest.pieces))

def Branches.pieces : Branches → List Piece
  | .endif inner => [.tag inner]
  | .els inner body more => .tag inner :: (body.pieces ++ more.pieces)
  | .elif inner _ body more => .tag inner :: (body.pieces ++ more.pieces)
end

mutual
/-- The tags mean what the program says. -/
def Prog.Good : Prog → Prop
  | .done => True
  | .text _ rest => rest.Good
  | .newline rest => rest.Good
  | .tag inner meaning rest => Means inner meaning ∧ rest.Good
  | .cond inner key body more rest => (∃ s, inner = t!"IF " ++ s ∧ OneWord s key) ∧ body.Good ∧ more.Good ∧ rest.Good

def Branches.Good : Branches → Prop
  | .endif inner => (t!"ENDIF") <+: inner
  | .els inner body more => (t!"ELSE") <+: inner ∧ body.Good ∧ more.Good
  | .elif inner key body more => (∃ s, inner = t!"ELIF " ++ s ∧ OneWord s key) ∧ body.Good ∧ more.Good
end

/-! ### Evaluation -/

/-- What has been printed. -/
structure Page where
  /-- the finished lines -/
  lines : List Txt
  /-- the line that is being printed -/
  line : Txt
  /-- the length of the line, as the engine counts it -/
  column : Nat
  marks : List Txt
  dict : List (Txt × Val)

/-- The value of `key` or `key(parameters)`. -/
def look (d : List (Txt × Val)) (key : Txt) : Except PyErr Val :=
  if '(' ∈ key then
    let name := key.takeWhile (· ≠ '(')
    if ')' ∈ key.drop (name.length + 1) then valueOf d name else .error .codegen
  else valueOf d key

/-- The last line of a text. -/
def lastLine (s : Txt) : Txt := (s.reverse.takeWhile (· ≠ '\n')).reverse

/-- Text is added to the line. If it has line breaks, all but its last line goes to the finished lines. (The column is then two too large.) -/
def Page.write (p : Page) (s : Txt) : Page :=
  if '\n' ∈ s then
    { p with lines := p.lines ++ [p.line ++ s.take (s.length - (lastLine s).length - 1)], line := lastLine s, column := (lastLine s).length + 2 }
  else { p with line := p.line ++ s, column := p.column + s.length }

/-- The lines of a list are printed below each other, from the column on. (The column is not counted if there is just one.) -/
def Page.writeLines (p : Page) : List Txt → Page
  | [] => p
  | [l] => { p with line := p.line ++ l }
  | l :: ls =>
    let m := margin (p.line ++ l) p.column
    Page.write { p with
      lines := p.lines ++ (p.line ++ l) :: ls.dropLast.map (fun l => if l = [] then [] else m ++ l), line := [], column := 0 } (m ++ ls.getLastD [])

/-- The page with the value of a key. -/
def Page.put (p : Page) : Val → Page
  | .none => p
  | .str s => if s = [] then p else p.write s
  | .list ls => p.writeLines ls
  | .int n => p.write (decimal n)
  | .bool b => p.write (if b then t!"True" else t!"False")

/-- Nothing but white space on the line. -/
def Page.blank (p : Page) : Bool := blankText p.line

/-- The end of a line. `drop`: the line break is left out, together with the white space on the line. -/
def Page.endLine (p : Page) (drop : Bool) : Page :=
  if drop then { p with line := [] }
  else { p with lines := p.lines ++ [cutBlanks p.line], line := [], column := 0 }

/-- The effect of a tag; the `Bool` says whether a line break directly after it is left out: that is so after a directive, or a value without lines, on a
line that is blank. -/
def Tag.eval (p : Page) : Tag → Except PyErr (Page × Bool)
  | .value key => do
    let v ← look p.dict key
    .ok (p.put v, block v = [] && p.blank)
  | .assign key v => .ok ({ p with dict := (key, .str v) :: p.dict }, p.blank)
  | .malformed => .error .codegen
  | .mark => .ok ({ p with marks := margin p.line p.column :: p.marks }, false)
  | .tab => match p.marks with
    | [] => .error .index
    | m :: _ => .ok ({ p with line := p.line ++ m.drop p.column }, false)
  | .unmark => match p.marks with
    | [] => .error .index
    | _ :: ms => .ok ({ p with marks := ms }, false)

mutual
/-- A part that is not printed. Its only effect: a line break that is left out after a directive in it takes the white space on the line with it. -/
def Prog.skip (p : Page) (drop : Bool) : Prog → Page × Bool
  | .done => (p, drop)
  | .text _ rest => rest.skip p false
  | .newline rest => rest.skip (if drop then { p with line := [] } else p) false
  | .tag _ _ rest => rest.skip p false
  | .cond _ _ body more rest =>
    let q := body.skip p p.blank
    let r := more.skip q.1
    rest.skip r r.blank

/-- Branches that are not printed. -/
def Branches.skip (p : Page) : Branches → Page
  | .endif _ => p
  | .els _ body more => more.skip (body.skip p false).1
  | .elif _ _ body more => more.skip (body.skip p false).1
end

/-- The branches after the one that is printed. -/
def Branches.leave (p : Page) : Branches → Page
  | .endif _ => p
  | .els _ body more => more.skip (body.skip p p.blank).1
  | .elif _ _ body more => more.skip (body.skip p p.blank).1

mutual
/-- The page after a program; `drop` says whether a line break at its beginning is left out. -/
def Prog.eval (p : Page) (drop : Bool) : Prog → Except PyErr (Page × Bool)
  | .done => .ok (p, drop)
  | .text s rest => rest.eval (p.write s) false
  | .newline rest => rest.eval (p.endLine drop) false
  | .tag _ meaning rest => do
    let q ← meaning.eval p
    rest.eval q.1 q.2
  | .cond _ key body more rest => do
    let v ← look p.dict key
    let r ← if isTrue v then do
        let q ← body.eval p p.blank
        .ok (more.leave q.1)
      else more.eval (body.skip p p.blank).1
    rest.eval r r.blank

/-- The branches, if none has been printed yet. -/
def Branches.eval (p : Page) : Branches → Except PyErr Page
  | .endif _ => .ok p
  | .els _ body more => do
    let q ← body.eval p p.blank
    .ok (more.leave q.1)
  | .elif _ key body more => do
    let v ← look p.dict key
    if isTrue v then
      let q ← body.eval p p.blank
      .ok (more.leave q.1)
    else more.eval (body.skip p p.blank).1
end

/-- The lines that a program prints. -/
def Prog.print (T : Prog) (d : List (Txt × Val)) : Except PyErr (List Txt) := do
  let q ← T.eval ⟨[], [], 0, [], d⟩ false
  .ok q.1.lines

end Ystring.Spec
