import Verif.Run
/-
How Python reads source text, as far as generated code goes (The Python Language Reference, sections 2, 6.2-6.7, 7, 8.7, 8.8 and
10): names, numbers, literals, calls, lists, dictionaries, sums, assignments, class and function statements.  Whether an argument is
passed twice is not checked.  What lies outside of this (other operators, parentheses around expressions, triple quotes, prefixes of literals other than `r`, numbers with letters, letters
outside of ASCII, tabs) is rejected here.

The reader works character by character and token by token.
-/
namespace Soapfish

/-! ### Tokens -/

inductive Tok where
  | name (s : Str)
  | kw (s : Str)
  | num (s : Str)
  | str (raw : Bool) (quote : Char) (s : Str)
  | op (c : Char)
  deriving DecidableEq

/-- Digits without a leading zero, or digits with one point. -/
def isUnsigned (s : Str) : Bool :=
  isNumeral s || (s.all (fun c => isDigitC c || c = '.') && s.any isDigitC && s.count '.' = 1)

/-- A sign in front of a number counts as part of it. -/
def isNumber (s : Str) : Bool :=
  match s with
  | '-' :: r => isUnsigned r
  | _ => isUnsigned s

/-- What the characters read last may be the beginning of.  `bol n`: after `n` blanks at the beginning of a line; `shut q`: after an
empty literal, where a third quote would begin a literal of another kind. -/
inductive LexMode where
  | bol (n : Nat)
  | idle
  | name (acc : Str)
  | num (acc : Str)
  | str (raw : Bool) (quote : Char) (acc : Str) (escape : Bool)
  | shut (quote : Char)
  | comment
  | minus
  | dot
  | bad
  deriving DecidableEq

/-- Lines with their indentation; the current line; the number of open brackets. -/
structure PyLex where
  done : List (Nat × List Tok) := []
  indent : Nat := 0
  toks : List Tok := []
  depth : Nat := 0
  mode : LexMode := .bol 0
  deriving DecidableEq

namespace PyLex

def push (s : PyLex) (t : Tok) : PyLex := { s with toks := s.toks ++ [t], mode := .idle }

/-- A name or keyword -/
def nameTok (s : Str) : Tok := if s ∈ kwlist then .kw s else .name s

/-- A line ends, unless there are open brackets or it is empty. -/
def newline (s : PyLex) : PyLex :=
  match s.depth with
  | _ + 1 => { s with mode := .idle }
  | 0 => match s.toks with
    | [] => { s with mode := .bol 0 }
    | _ :: _ => { s with done := s.done ++ [(s.indent, s.toks)], indent := 0, toks := [], mode := .bol 0 }

def isQuote (c : Char) : Bool := c = '\'' || c = '"'

/-- A character where a token may begin. -/
def begin (s : PyLex) (c : Char) : PyLex :=
  if isLetterC c then { s with mode := .name [c] }
  else if isDigitC c then { s with mode := .num [c] }
  else if isQuote c then { s with mode := .str false c [] false }
  else if c = ' ' then { s with mode := .idle }
  else if c = '\n' then s.newline
  else if c = '#' then { s with mode := .comment }
  else if c = '-' then { s with mode := .minus }
  else if c = '.' then { s with mode := .dot }
  else if c = '(' || c = '[' || c = '{' then { s.push (.op c) with depth := s.depth + 1 }
  else if c = ')' || c = ']' || c = '}' then
    match s.depth with
    | n + 1 => { s.push (.op c) with depth := n }
    | 0 => { s with mode := .bad }
  else if c = ',' || c = '=' || c = ':' || c = '+' || c = '@' then s.push (.op c)
  else { s with mode := .bad }

def step (s : PyLex) (c : Char) : PyLex :=
  match s.mode with
  | .bol n =>
    if c = ' ' then { s with mode := .bol (n + 1) }
    else if c = '\n' then { s with mode := .bol 0 }
    else if c = '#' then { s with mode := .comment }
    else begin { s with indent := n, mode := .idle } c
  | .idle => s.begin c
  | .name acc =>
    if isLetterC c || isDigitC c then { s with mode := .name (acc ++ [c]) }
    else if isQuote c && decide (acc = ['r']) then { s with mode := .str true c [] false }
    else (s.push (nameTok acc)).begin c
  | .num acc =>
    if isLetterC c || isDigitC c || c = '.' then { s with mode := .num (acc ++ [c]) }
    else if isNumber acc then (s.push (.num acc)).begin c
    else { s with mode := .bad }
  | .str raw q acc esc =>
    if c = '\n' || c = '\r' || c = Char.ofNat 0 then { s with mode := .bad }
    else if esc then { s with mode := .str raw q (acc ++ [c]) false }
    else if c = '\\' then { s with mode := .str raw q (acc ++ [c]) true }
    else if c = q then
      match acc with
      | [] => { s.push (.str raw q acc) with mode := .shut q }
      | _ :: _ => s.push (.str raw q acc)
    else { s with mode := .str raw q (acc ++ [c]) false }
  | .shut q => if c = q then { s with mode := .bad } else begin { s with mode := .idle } c
  | .comment =>
    if c = '\n' then s.newline
    else if c = '\r' || c = Char.ofNat 0 then { s with mode := .bad }
    else s
  | .minus => if isDigitC c || c = '.' then { s with mode := .num ['-', c] } else (s.push (.op '-')).begin c
  | .dot => if isDigitC c then { s with mode := .num ['.', c] } else (s.push (.op '.')).begin c
  | .bad => s

def run (s : PyLex) (t : Str) : PyLex := t.foldl step s

end PyLex

/-- The lines of a text that ends with a newline. -/
def lexPython (t : Str) : Option (List (Nat × List Tok)) :=
  let s := PyLex.run {} t
  if s.mode = .bol 0 ∧ s.depth = 0 then some s.done else none

/-! ### Expressions -/

/-- `str` has the text between the quotes as it stands in the source; `const` is True, False or None. -/
inductive PyExpr where
  | name (s : Str)
  | const (s : Str)
  | num (s : Str)
  | str (raw : Bool) (quote : Char) (s : Str)
  | attr (e : PyExpr) (n : Str)
  | call (f : PyExpr) (args : List (Option Str × PyExpr))
  | list (l : List PyExpr)
  | dict (l : List (PyExpr × PyExpr))
  | add (a b : PyExpr)

/-- What is open: the line itself (with the target of an assignment, or after a colon), a call, a list, a dictionary; `acc` is the left operand of the
sum around it. -/
inductive PyFrame where
  | top (target : Option PyExpr) (colon : Bool)
  | call (acc : Option PyExpr) (f : PyExpr) (args : List (Option Str × PyExpr)) (key : Option Str)
  | list (acc : Option PyExpr) (items : List PyExpr)
  | dict (acc : Option PyExpr) (items : List (PyExpr × PyExpr)) (key : Option PyExpr)

/-- The innermost frame, the others, the left operand of a sum, the last operand, and whether a dot has been read. -/
structure Parse where
  frame : PyFrame
  outer : List PyFrame := []
  acc : Option PyExpr := none
  cur : Option PyExpr := none
  dot : Bool := false

namespace Parse

/-- The value of the sum -/
def value (p : Parse) : Option PyExpr :=
  match p.dot, p.cur, p.acc with
  | false, some e, none => some e
  | false, some e, some a => some (.add a e)
  | _, _, _ => none

/-- An operand -/
def operand (p : Parse) (e : PyExpr) : Option Parse :=
  match p.dot, p.cur, p.frame with
  | _, _, .top _ true => none
  | false, none, _ => some { p with cur := some e }
  | _, _, _ => none

/-- Back to the frame around -/
def close (p : Parse) (acc : Option PyExpr) (e : PyExpr) : Option Parse :=
  match p.outer with
  | f :: fs => some { frame := f, outer := fs, acc := acc, cur := some e }
  | [] => none

/-- Nothing has been read since the last comma. -/
def fresh (p : Parse) : Bool := p.acc.isNone && p.cur.isNone && !p.dot

def step (p : Parse) : Tok → Option Parse
  | .name n =>
    match p.dot, p.cur with
    | true, some e => some { p with cur := some (.attr e n), dot := false }
    | _, _ => p.operand (.name n)
  | .kw k => if k = py"True" ∨ k = py"False" ∨ k = py"None" then p.operand (.const k) else none
  | .num s => p.operand (.num s)
  | .str raw q s => p.operand (.str raw q s)
  | .op '.' =>
    match p.dot, p.cur, p.frame with
    | _, _, .top _ true => none
    | false, some _, _ => some { p with dot := true }
    | _, _, _ => none
  | .op '(' =>
    match p.dot, p.cur, p.frame with
    | _, _, .top _ true => none
    | false, some f, _ => some { frame := .call p.acc f [] none, outer := p.frame :: p.outer }
    | _, _, _ => none
  | .op '[' =>
    match p.dot, p.cur, p.frame with
    | _, _, .top _ true => none
    | false, none, _ => some { frame := .list p.acc [], outer := p.frame :: p.outer }
    | _, _, _ => none
  | .op '{' =>
    match p.dot, p.cur, p.frame with
    | _, _, .top _ true => none
    | false, none, _ => some { frame := .dict p.acc [] none, outer := p.frame :: p.outer }
    | _, _, _ => none
  | .op ',' =>
    match p.value, p.frame with
    | some v, .call acc f args key => some { frame := .call acc f (args ++ [(key, v)]) none, outer := p.outer }
    | some v, .list acc items => some { frame := .list acc (items ++ [v]), outer := p.outer }
    | some v, .dict acc items (some k) => some { frame := .dict acc (items ++ [(k, v)]) none, outer := p.outer }
    | _, _ => none
  | .op ')' =>
    match p.value, p.fresh, p.frame with
    | some v, _, .call acc f args key => p.close acc (.call f (args ++ [(key, v)]))
    | none, true, .call acc f args none => p.close acc (.call f args)
    | _, _, _ => none
  | .op ']' =>
    match p.value, p.fresh, p.frame with
    | some v, _, .list acc items => p.close acc (.list (items ++ [v]))
    | none, true, .list acc items => p.close acc (.list items)
    | _, _, _ => none
  | .op '}' =>
    match p.value, p.fresh, p.frame with
    | some v, _, .dict acc items (some k) => p.close acc (.dict (items ++ [(k, v)]))
    | none, true, .dict acc items none => p.close acc (.dict items)
    | _, _, _ => none
  | .op '=' =>
    match p.value, p.frame with
    | some (.name k), .call acc f args none => some { frame := .call acc f args (some k), outer := p.outer }
    | some (.name k), .top none false => some { frame := .top (some (.name k)) false, outer := p.outer }
    | some (.attr e n), .top none false => some { frame := .top (some (.attr e n)) false, outer := p.outer }
    | _, _ => none
  | .op ':' =>
    match p.value, p.frame with
    | some v, .dict acc items none => some { frame := .dict acc items (some v), outer := p.outer }
    | some _, .top none false => some { p with frame := .top none true }
    | _, _ => none
  | .op '+' =>
    match p.value, p.frame with
    | _, .top _ true => none
    | some v, _ => some { p with acc := some v, cur := none }
    | none, _ => none
  | .op _ => none

def run : Option Parse → List Tok → Option Parse
  | p, [] => p
  | none, _ => none
  | some p, t :: ts => run (p.step t) ts

end Parse

/-- The target of the assignment if there is one, the expression, and whether a colon follows. -/
def parseExpr (ts : List Tok) : Option (Option PyExpr × PyExpr × Bool) :=
  match Parse.run (some { frame := .top none false }) ts with
  | some p => match p.frame, p.outer, p.value with
    | .top target colon, [], some v => some (target, v, colon)
    | _, _, _ => none
  | none => none

/-! ### Lines -/

/-- A line: `class …:` or `def …:` with the header as if it were a call, an assignment, `return …`, a decorator, `pass`, an expression, an import. -/
inductive PyLine where
  | block (kw : Str) (head : PyExpr)
  | assign (target value : PyExpr)
  | ret (e : PyExpr)
  | decorator (e : PyExpr)
  | pass
  | expr (e : PyExpr)
  | imports (ts : List Tok)

/-- The name of a parameter, which may have a default value. -/
def paramName : Option Str × PyExpr → Option Str
  | (some k, _) => some k
  | (none, .name n) => some n
  | _ => none

/-- The names of all parameters -/
def paramNames : List (Option Str × PyExpr) → Option (List Str)
  | [] => some []
  | a :: l => match paramName a, paramNames l with
    | some n, some ns => some (n :: ns)
    | _, _ => none

/-- A function has parameters with different names; a class may have anything between its parentheses. -/
def headOk (kw : Str) (args : List (Option Str × PyExpr)) : Bool :=
  if kw = py"def" then match paramNames args with
    | some ns => decide ns.Nodup
    | none => false
  else true

/-- After `class` or `def`. -/
def parseBlock (kw : Str) (ts : List Tok) : Option PyLine :=
  match parseExpr ts with
  | some (none, .call (.name n) args, true) => if headOk kw args then some (.block kw (.call (.name n) args)) else none
  | _ => none

def parseLine : List Tok → Option PyLine
  | [.kw k] => if k = py"pass" then some .pass else none
  | .kw k :: ts =>
    if k = py"class" ∨ k = py"def" then parseBlock k ts
    else if k = py"from" ∨ k = py"import" then some (.imports ts)
    else if k = py"return" then
      match parseExpr ts with
      | some (none, e, false) => some (.ret e)
      | _ => none
    else none
  | .op '@' :: ts =>
    match parseExpr ts with
    | some (none, e, false) => some (.decorator e)
    | _ => none
  | ts =>
    match parseExpr ts with
    | some (some t, e, false) => some (.assign t e)
    | some (none, e, false) => some (.expr e)
    | _ => none

def parseLines : List (Nat × List Tok) → Option (List (Nat × PyLine))
  | [] => some []
  | (n, ts) :: l =>
    match parseLine ts, parseLines l with
    | some a, some r => some ((n, a) :: r)
    | _, _ => none

def PyLine.opens : PyLine → Bool
  | .block _ _ => true
  | _ => false

/-- The indentations of the open blocks after a line, if it may stand there: deeper than the line before if this opens a block, and
otherwise as deep as a block that is open. -/
def nestStep (open_ : List Nat) (opened : Bool) (n : Nat) : Option (List Nat) :=
  match opened, open_ with
  | true, m :: ms => if m < n then some (n :: m :: ms) else none
  | true, [] => none
  | false, ms => match ms.dropWhile (fun m => n < m) with
    | m :: ms => if m = n then some (m :: ms) else none
    | [] => none

def nested : List Nat → Bool → List (Nat × PyLine) → Bool
  | _, opened, [] => !opened
  | open_, opened, (n, l) :: rest =>
    match nestStep open_ opened n with
    | some open_ => nested open_ l.opens rest
    | none => false

/-- The lines of a module with their indentation, if Python can read it. -/
def readPython (t : Str) : Option (List (Nat × PyLine)) :=
  match lexPython t with
  | some ls => match parseLines ls with
    | some r => if nested [0] false r then some r else none
    | none => none
  | none => none

end Soapfish
