/-
Model of tools/unicode_character_tables/codegen.py, the template engine with which the scripts print the tables. A Python `str` is
a list of characters.
-/
namespace Ystring.Gen

/-- A Python `str`, as in tools/unicode_character_tables/codegen.py:15. -/
abbrev Txt := List Char

/-- `t!"abc"` is the list of the characters of the literal. -/
macro "t!" s:str : term => do
  let cs := s.getString.toList.map Lean.Syntax.mkCharLit
  `([$(cs.toArray),*])

/-- What a script raises: `codegen.Error` (tools/unicode_character_tables/codegen.py:11), `KeyError` (line 69), `ValueError` (line 107, of the
unpacking) or `IndexError` (line 225). -/
inductive PyErr
  | codegen | key | value | index
  deriving DecidableEq, Repr

/-- Python's `str.isspace` for one character, used in tools/unicode_character_tables/codegen.py:90. -/
def isSpace (c : Char) : Bool :=
  let n := c.toNat
  (9 ≤ n && n ≤ 13) || (28 ≤ n && n ≤ 32) || n = 0x85 || n = 0xA0 || n = 0x1680 || (0x2000 ≤ n && n ≤ 0x200A) ||
  n = 0x2028 || n = 0x2029 || n = 0x202F || n = 0x205F || n = 0x3000

/-- tools/unicode_character_tables/codegen.py:89-90 -/
def isEmptyOrSpace (s : Txt) : Bool := s.all isSpace

/-- `str.rstrip()`: tools/unicode_character_tables/codegen.py:160. -/
def rstrip (s : Txt) : Txt := (s.reverse.dropWhile isSpace).reverse

/-- `str.lstrip()`: tools/unicode_character_tables/codegen.py:41. -/
def lstrip (s : Txt) : Txt := s.dropWhile isSpace

/-- `str.strip()`: tools/unicode_character_tables/make_case_convert_file.py:109. -/
def strip (s : Txt) : Txt := rstrip (lstrip s)

/-- `s.split(c)` for a single character: tools/unicode_character_tables/codegen.py:16. -/
def splitChar (c : Char) : Txt → List Txt
  | [] => [[]]
  | x :: xs =>
    if x = c then [] :: splitChar c xs
    else match splitChar c xs with
      | l :: ls => (x :: l) :: ls
      | [] => [[x]]

/-- The words of `s.split()`; `w` is the word that has begun. tools/unicode_character_tables/make_normalization_file.py:50. -/
def wordsFrom : Txt → Txt → List Txt
  | w, [] => if w = [] then [] else [w]
  | w, x :: xs => if isSpace x then (if w = [] then wordsFrom [] xs else w :: wordsFrom [] xs) else wordsFrom (w ++ [x]) xs

/-- `s.split()` (tools/unicode_character_tables/make_normalization_file.py:50). `s.split(None, 2)` gives two strings exactly if this does, and then the
same ones (tools/unicode_character_tables/codegen.py:31). -/
def words (s : Txt) : List Txt := wordsFrom [] s

/-- `s.find(pat)` together with the slices before and after the occurrence: tools/unicode_character_tables/codegen.py:19-27. -/
def breakOn (pat : Txt) : Txt → Option (Txt × Txt)
  | [] => none
  | c :: cs =>
    if pat.isPrefixOf (c :: cs) then some ([], (c :: cs).drop pat.length)
    else (breakOn pat cs).map (fun r => (c :: r.1, r.2))

/-- `s.join(ls)`: tools/unicode_character_tables/codegen.py:287. -/
def joinTxt (sep : Txt) : List Txt → Txt
  | [] => []
  | [l] => l
  | l :: ls => l ++ sep ++ joinTxt sep ls

/-! ### The template -/

/-- The tokens: tools/unicode_character_tables/codegen.py:15-44. `unterminated` stands for the `raise` in line 29 and `notAPair` for a tuple that cannot
be unpacked in line 107; both end the processing when they are reached. -/
inductive Token
  | text (s : Txt) | newline | ifTok (key : Txt) | elifTok (key : Txt) | align | push | pop | elseTok | endif
  | set (s : Txt) | expand (key : Txt) | unterminated | notAPair
  deriving DecidableEq, Repr

/-- tools/unicode_character_tables/codegen.py:30-43: the token between `[[[` and `]]]`; `rest` is `line[start:]` and `inner` is `line[start:end]` -/
def tagToken (rest inner : Txt) : Token :=
  if (t!"IF ").isPrefixOf rest then
    match words inner with
    | [_, key] => .ifTok key
    | _ => .notAPair
  else if (t!"ELIF ").isPrefixOf rest then
    match words inner with
    | [_, key] => .elifTok key
    | _ => .notAPair
  else if inner = t!"|" then .align
  else if inner = t!">" then .push
  else if inner = t!"<" then .pop
  else if (t!"ELSE").isPrefixOf rest then .elseTok
  else if (t!"ENDIF").isPrefixOf rest then .endif
  else if (t!"SET ").isPrefixOf rest then .set (lstrip (inner.drop 4))
  else .expand inner

/-- tools/unicode_character_tables/codegen.py:17-44, for what is left of the line (`line[start:]`); each pass removes at least six characters -/
def lineTokens : (fuel : Nat) → Txt → List Token
  | 0, _ => []
  | fuel + 1, line =>
    match breakOn (t!"[[[") line with
    | none => (if line ≠ [] then [.text line] else []) ++ [.newline]
    | some (pre, rest) =>
      .text pre ::
        match breakOn (t!"]]]") rest with
        | none => [.unterminated]
        | some (inner, post) => tagToken rest inner :: lineTokens fuel post

/-- tools/unicode_character_tables/codegen.py:15-44 -/
def tokenize (tmpl : Txt) : List Token := (splitChar '\n' tmpl).flatMap (fun line => lineTokens (line.length + 1) line)

/-- The values of a dictionary: tools/unicode_character_tables/codegen.py:164-180. -/
inductive Val
  | none | str (s : Txt) | list (ls : List Txt) | int (n : Int) | bool (b : Bool)
  deriving DecidableEq, Repr

/-- The truth of a value: tools/unicode_character_tables/codegen.py:185. -/
def Val.truthy : Val → Bool
  | .none => false
  | .str s => s ≠ []
  | .list ls => ls ≠ []
  | .int n => n ≠ 0
  | .bool b => b

/-- The scopes: tools/unicode_character_tables/codegen.py:100, 182-188. -/
inductive Scope
  | active | inactive | done
  deriving DecidableEq, Repr

/-- The variables of a `TemplateProcessor`, tools/unicode_character_tables/codegen.py:93-102. `cur` is `"".join(self.cur_line)` (the list is used in no
other way); the last element of `scope` and `alignments` comes first. `line_no`, which is used only in messages, is left out. -/
structure Proc where
  lines : List Txt
  cur : Txt
  column : Nat
  scope : List Scope
  alignments : List Txt
  dict : List (Txt × Val)
  deriving DecidableEq, Repr

/-- `self.scope[-1]` (tools/unicode_character_tables/codegen.py:127); the list is never empty -/
def Proc.top (p : Proc) : Scope := p.scope.headD .active

/-- tools/unicode_character_tables/codegen.py:268-273 -/
def Proc.indentation (p : Proc) : Txt :=
  if p.cur.all (fun c => c = '\t' || c = ' ') then [] else p.cur.takeWhile (fun c => c = '\t' || c = ' ')

/-- tools/unicode_character_tables/codegen.py:275-277 -/
def Proc.alignment (p : Proc) : Txt := p.indentation ++ List.replicate (p.column - p.indentation.length) ' '

/-- tools/unicode_character_tables/codegen.py:243-252; `text.rfind("\n")` is the end of the last part but one -/
def Proc.addText (p : Proc) (text : Txt) : Proc :=
  let parts := splitChar '\n' text
  if parts.length = 1 then { p with cur := p.cur ++ text, column := p.column + text.length }
  else
    let pre := joinTxt ['\n'] parts.dropLast
    { p with lines := p.lines ++ [p.cur ++ pre], cur := parts.getLastD [], column := text.length - pre.length + 1 }

/-- tools/unicode_character_tables/codegen.py:227-241 -/
def Proc.addLines (p : Proc) (ls : List Txt) : Proc :=
  match ls with
  | [] => p
  | l :: ls =>
    let p := { p with cur := p.cur ++ l }
    if ls = [] then p
    else
      let align := p.alignment
      let p := { p with lines := p.lines ++ [p.cur], cur := [], column := 0 }
      let p := { p with lines := p.lines ++ ls.dropLast.map (fun l => if l ≠ [] then align ++ l else []) }
      p.addText (align ++ ls.getLastD [])

/-- tools/unicode_character_tables/codegen.py:254-262; the parameters in parentheses are not used by `DictExpander` -/
def splitKey (text : Txt) : Except PyErr Txt :=
  match breakOn ['('] text with
  | none => .ok text
  | some (key, rest) => match breakOn [')'] rest with
    | none => .error .codegen
    | some _ => .ok key

/-- tools/unicode_character_tables/codegen.py:264-266 and 68-69 -/
def Proc.expandKey (p : Proc) (key : Txt) : Except PyErr Val := do
  let key ← splitKey key
  match p.dict.lookup key with
  | some v => .ok v
  | none => .error .key

/-- `str(n)` for an `int`: tools/unicode_character_tables/codegen.py:179. -/
def intText (n : Int) : Txt := (toString n).toList

/-- tools/unicode_character_tables/codegen.py:164-180; the scope is active -/
def Proc.handleExpand (p : Proc) (key : Txt) : Except PyErr (Proc × Bool) := do
  match ← p.expandKey key with
  | .none => .ok (p, false)
  | .str s => .ok (if s = [] then (p, false) else (p.addText s, true))
  | .list ls => .ok (if ls = [] then (p, false) else (p.addLines ls, true))
  | .int n => .ok (p.addText (intText n), true)
  | .bool b => .ok (p.addText (if b then t!"True" else t!"False"), true)

/-- tools/unicode_character_tables/codegen.py:182-188 -/
def Proc.handleIf (p : Proc) (key : Txt) : Except PyErr Proc := do
  if p.top ≠ .active then .ok { p with scope := .done :: p.scope }
  else if (← p.expandKey key).truthy then .ok { p with scope := .active :: p.scope }
  else .ok { p with scope := .inactive :: p.scope }

/-- tools/unicode_character_tables/codegen.py:190-193 -/
def Proc.handleEndif (p : Proc) : Except PyErr Proc :=
  if p.scope.length = 1 then .error .codegen else .ok { p with scope := p.scope.tail }

/-- tools/unicode_character_tables/codegen.py:195-201 -/
def Proc.handleElif (p : Proc) (key : Txt) : Except PyErr Proc := do
  if p.scope.length = 1 then .error .codegen
  else if p.top = .active then .ok { p with scope := .done :: p.scope.tail }
  else if p.top = .inactive then
    if (← p.expandKey key).truthy then .ok { p with scope := .active :: p.scope.tail } else .ok p
  else .ok p

/-- tools/unicode_character_tables/codegen.py:203-209 -/
def Proc.handleElse (p : Proc) : Except PyErr Proc :=
  if p.scope.length = 1 then .error .codegen
  else if p.top = .active then .ok { p with scope := .done :: p.scope.tail }
  else if p.top = .inactive then .ok { p with scope := .active :: p.scope.tail }
  else .ok p

/-- tools/unicode_character_tables/codegen.py:211-216 and 71-72 -/
def Proc.handleSet (p : Proc) (text : Txt) : Except PyErr Proc :=
  match breakOn ['='] text with
  | none => .error .codegen
  | some (key, value) => if key = [] then .error .codegen else .ok { p with dict := (key, .str value) :: p.dict }

/-- tools/unicode_character_tables/codegen.py:156-162 -/
def Proc.handleNewline (p : Proc) : Proc :=
  if p.top ≠ .active then p else { p with lines := p.lines ++ [rstrip p.cur], cur := [], column := 0 }

/-- tools/unicode_character_tables/codegen.py:107-149: one token; the `Bool` is `ignore_newline` -/
def Proc.step (p : Proc) (ignore : Bool) (t : Token) : Except PyErr (Proc × Bool) :=
  if t = .unterminated then .error .codegen
  else if t = .notAPair then .error .value
  else if ignore && t = .newline then .ok (if isEmptyOrSpace p.cur then { p with cur := [] } else p, false)
  else match t with
    | .newline => .ok (p.handleNewline, false)
    | .ifTok key => do let p ← p.handleIf key; .ok (p, isEmptyOrSpace p.cur)
    | .endif => do let p ← p.handleEndif; .ok (p, isEmptyOrSpace p.cur)
    | t =>
      if p.top = .done then .ok (p, false)
      else match t with
        | .elifTok key => do let p ← p.handleElif key; .ok (p, isEmptyOrSpace p.cur)
        | .elseTok => do let p ← p.handleElse; .ok (p, isEmptyOrSpace p.cur)
        | t =>
          if p.top = .inactive then .ok (p, false)
          else match t with
            | .text s => .ok (p.addText s, false)
            | .expand key => do let (p, b) ← p.handleExpand key; .ok (p, !b && isEmptyOrSpace p.cur)
            | .set s => do let p ← p.handleSet s; .ok (p, isEmptyOrSpace p.cur)
            | .push => .ok ({ p with alignments := p.alignment :: p.alignments }, false)
            | .align => match p.alignments with
              | [] => .error .index
              | a :: _ => .ok ({ p with cur := p.cur ++ a.drop p.column }, false)
            | .pop => match p.alignments with
              | [] => .error .index
              | _ :: as => .ok ({ p with alignments := as }, false)
            | _ => .error .codegen

/-- tools/unicode_character_tables/codegen.py:107-149: the loop -/
def Proc.run (p : Proc) (ignore : Bool) : List Token → Except PyErr Proc
  | [] => .ok p
  | t :: ts => do
    let (p, ignore) ← p.step ignore t
    p.run ignore ts

/-- tools/unicode_character_tables/codegen.py:280-283 with 94-154; errors are raised again with the number of the line -/
def makeLines (tmpl : Txt) (dict : List (Txt × Val)) : Except PyErr (List Txt) := do
  let p ← Proc.run ⟨[], [], 0, [.active], [], dict⟩ false (tokenize tmpl)
  if p.scope.length ≠ 1 then .error .codegen else .ok p.lines

/-- tools/unicode_character_tables/codegen.py:286-287 -/
def makeText (tmpl : Txt) (dict : List (Txt × Val)) : Except PyErr Txt := do .ok (joinTxt ['\n'] (← makeLines tmpl dict))

/-! ### LineBuilder -/

/-- tools/unicode_character_tables/codegen.py:290-295; `cur` keeps the list, whose elements are counted and removed -/
structure LineBuilder where
  lineWidth : Nat
  lines : List Txt
  cur : List Txt
  curWidth : Nat
  deriving DecidableEq, Repr

/-- tools/unicode_character_tables/codegen.py:341-343 -/
def LineBuilder.addText (b : LineBuilder) (strings : List Txt) : LineBuilder :=
  { b with cur := b.cur ++ strings.filter (· ≠ []), curWidth := b.curWidth + (strings.map List.length).sum }

/-- tools/unicode_character_tables/codegen.py:331-334 -/
def LineBuilder.newline (b : LineBuilder) : LineBuilder :=
  { b with lines := b.lines ++ [b.cur.flatten], cur := [], curWidth := 0 }

/-- tools/unicode_character_tables/codegen.py:297-316. The call in line 316 finds a line with one element, or an empty one, and does not
call itself again; `fuel` is the number of nested calls (`PyErr.index` if it is exceeded). -/
def LineBuilder.append : (fuel : Nat) → LineBuilder → (text sep newlineSep firstSep : Txt) → Except PyErr LineBuilder
  | 0, _, _, _, _, _ => .error .index
  | fuel + 1, b, text, sep, newlineSep, firstSep =>
    if b.curWidth = 0 then .ok (b.addText [firstSep, text])
    else if b.curWidth + text.length + sep.length ≤ b.lineWidth then .ok (b.addText [sep, text])
    else if b.curWidth + newlineSep.length ≤ b.lineWidth then
      .ok (({ b with cur := b.cur ++ [newlineSep] }).newline.addText [text])
    else if b.cur.length = 1 then .ok (({ b with cur := b.cur ++ [newlineSep] }).newline.addText [text])
    else match b.cur.getLast? with
      | none => .error .index
      | some last =>
        let b := { b with cur := b.cur.take (b.cur.length - 2) ++ [newlineSep] }
        append fuel (b.newline.addText [last]) text sep newlineSep []

/-- tools/unicode_character_tables/codegen.py:325-327, the loop -/
def LineBuilder.appendAll (sep newlineSep : Txt) : LineBuilder → List Txt → Except PyErr LineBuilder
  | b, [] => .ok b
  | b, s :: ss => do appendAll sep newlineSep (← b.append 2 s sep newlineSep []) ss

/-- tools/unicode_character_tables/codegen.py:318-329; the separators for the first string are given -/
def LineBuilder.join (b : LineBuilder) (strings : List Txt) (sep newlineSep firstSep firstNewlineSep : Txt) :
    Except PyErr LineBuilder :=
  match strings with
  | [] => .ok b
  | s :: ss => do LineBuilder.appendAll sep newlineSep (← b.append 2 s firstSep firstNewlineSep []) ss

/-- tools/unicode_character_tables/codegen.py:336-339 -/
def LineBuilder.build (b : LineBuilder) : List Txt := if b.cur ≠ [] then b.newline.lines else b.lines

/-- tools/unicode_character_tables/codegen.py:346-349 -/
def joinLines (strings : List Txt) (lineWidth : Nat := 80) (sep : Txt := [' ']) (newlineSep firstSep firstNewlineSep : Txt := []) :
    Except PyErr (List Txt) := do
  .ok (← LineBuilder.join ⟨lineWidth, [], [], 0⟩ strings sep newlineSep firstSep firstNewlineSep).build

end Ystring.Gen
