import Verif.Model.Templates

/-!
# The code generator of the BLAS interface

python/jinja_code_generator.py:22-31 reads a function list (`FunctionList.yml`), renders a Jinja template with
`trim_blocks=True, lstrip_blocks=True` and writes the result next to the template.  The part of Jinja the templates use is
modelled: text, `{{ … }}` with the expressions listed in `Inn` and `Mid`, `{% for … %}`/`{% endfor %}`, and the whitespace
rules.  Texts are lists of characters.  Not modelled: YAML (the data are given as lists) and the file system.
-/

namespace BB.Gen

/-- One entry of the function list (FunctionList.yml:3-6 …). -/
structure Fn where
  ret : Text
  name : Text
  args : List Text
deriving DecidableEq, Repr

/-- The data: the entries of each list of the YAML file.  A list that does not exist is empty (Jinja's undefined value
iterates like an empty list). -/
abbrev Data := Text → List Fn

/-! ### Lexer with the whitespace rules -/

inductive Tok
  | txt (t : Text)
  | block (body : Text)
  | var (body : Text)
deriving DecidableEq, Repr

def isWs (c : Char) : Bool := c = ' ' || c = '\n' || c = '\t' || c = '\r'

/-- The text up to the first `{%` or `{{`, which of the two it is, and the rest. -/
def findTag : Text → Option (Text × Bool × Text)
  | '{' :: '%' :: r => some ([], true, r)
  | '{' :: '{' :: r => some ([], false, r)
  | [] => none
  | c :: r =>
    match findTag r with
    | some (t, b, r) => some (c :: t, b, r)
    | none => none

/-- The text up to the closing `c}`, and the rest. -/
def findClose (c : Char) : Text → Option (Text × Text)
  | [] => none
  | d :: r =>
    if d = c ∧ r.head? = some '}' then some ([], r.tail)
    else match findClose c r with
      | some (t, r) => some (d :: t, r)
      | none => none

/-- The part after the last newline. -/
def lastLine (t : Text) : Text := (t.reverse.takeWhile (· ≠ '\n')).reverse

/-- `lstrip_blocks`: blanks between the beginning of the line and a block tag are dropped. -/
def lstripBlock (lineStart : Bool) (t : Text) : Text :=
  if (t.contains '\n' || lineStart) && (lastLine t).all (fun c => c = ' ' || c = '\t') then
    (t.reverse.dropWhile (· ≠ '\n')).reverse
  else t

/-- All white space at the end is dropped (`{%-`). -/
def rstrip (t : Text) : Text := (t.reverse.dropWhile isWs).reverse

/-- `lineStart`: the tag before has swallowed a newline.  One unit of fuel for every tag. -/
def lex : Nat → Bool → Text → Option (List Tok)
  | 0, _, _ => none
  | n + 1, ls, s =>
    match findTag s with
    | none => some [.txt s]
    | some (t, isBlock, r) =>
      match findClose (if isBlock then '%' else '}') (if r.head? = some '-' ∨ r.head? = some '+' then r.tail else r) with
      | none => none
      | some (body, rest) =>
        -- whitespace before the tag
        let t := if r.head? = some '-' then rstrip t
          else if r.head? = some '+' then t
          else if isBlock then lstripBlock ls t else t
        -- whitespace after the tag: `-%}` drops all, `trim_blocks` drops one newline after a block
        let strip := body.getLast? = some '-'
        let rest' := if strip then rest.dropWhile isWs
          else if isBlock ∧ rest.head? = some '\n' then rest.tail else rest
        let ls' := if strip then (rest.takeWhile isWs).getLast? = some '\n' else isBlock ∧ rest.head? = some '\n'
        let body := if strip then body.dropLast else body
        match lex n ls' rest' with
        | none => none
        | some ts => some (.txt t :: (if isBlock then .block body else .var body) :: ts)

/-- `keep_trailing_newline=False` (the default): one newline at the end of the template is ignored. -/
def chomp (s : Text) : Text := if s.getLast? = some '\n' then s.dropLast else s

/-! ### Parser -/

/-- Words of a tag. -/
def words : Text → List Text
  | [] => []
  | c :: r =>
    if isWs c then words r
    else match r, words r with
      | d :: _, w :: ws => if isWs d then [c] :: w :: ws else (c :: w) :: ws
      | _, ws => [c] :: ws

/-- What occurs in a loop over arguments: text, `{{ argument }}`, `{{loop.index0}}`, `{{ "…" if not loop.last }}`. -/
inductive Inn
  | txt (t : Text)
  | arg
  | index
  | sep (t : Text)
deriving DecidableEq, Repr

/-- What occurs in a loop over functions: text, `{{ function.return_value }}`, `{{ function.name }}`, a loop over the
arguments of the function. -/
inductive Mid
  | txt (t : Text)
  | ret
  | name
  | forArgs (body : List Inn)
deriving DecidableEq, Repr

/-- What occurs at the top: text, a loop over one of the function lists. -/
inductive Top
  | txt (t : Text)
  | forFns (key : Text) (body : List Mid)
deriving DecidableEq, Repr

/-- State of the parser: what has been read at each level (in reverse), and the loops that are open. -/
structure PState where
  tops : List Top := []
  fns : Option (Text × List Mid) := none
  args : Option (List Inn) := none

/-- A variable tag in the innermost loop. -/
def parseInn (body : Text) : Option Inn :=
  match words body with
  | [w] => if w = text "argument" then some .arg else if w = text "loop.index0" then some .index else none
  | w :: ws =>
    if w.head? = some '"' then
      let r := (body.dropWhile (· ≠ '"')).tail
      if words ((r.dropWhile (· ≠ '"')).tail) = [text "if", text "not", text "loop.last"] ∧ ws ≠ [] then
        some (.sep (r.takeWhile (· ≠ '"')))
      else none
    else none
  | [] => none

/-- A variable tag in a loop over functions. -/
def parseMid (body : Text) : Option Mid :=
  if words body = [text "function.return_value"] then some .ret
  else if words body = [text "function.name"] then some .name
  else none

def parseTok (s : PState) : Tok → Option PState
  | .txt t =>
    if t = [] then some s
    else match s.args, s.fns with
      | some is, _ => some { s with args := some (.txt t :: is) }
      | none, some (k, ms) => some { s with fns := some (k, .txt t :: ms) }
      | none, none => some { s with tops := .txt t :: s.tops }
  | .var b =>
    match s.args, s.fns with
    | some is, _ => (parseInn b).map fun i => { s with args := some (i :: is) }
    | none, some (k, ms) => (parseMid b).map fun m => { s with fns := some (k, m :: ms) }
    | none, none => none
  | .block b =>
    match words b with
    | [w] =>
      if w = text "endfor" then
        match s.args, s.fns with
        | some is, some (k, ms) => some { s with args := none, fns := some (k, .forArgs is.reverse :: ms) }
        | none, some (k, ms) => some { s with fns := none, tops := .forFns k ms.reverse :: s.tops }
        | _, none => none
      else none
    | [f, x, i, k] =>
      if f = text "for" ∧ i = text "in" then
        if x = text "function" then
          match s.fns with
          | none => some { s with fns := some (k, []) }
          | some _ => none
        else if x = text "argument" ∧ k = text "function.argument_list" then
          match s.fns, s.args with
          | some _, none => some { s with args := some [] }
          | _, _ => none
        else none
      else none
    | _ => none

def parseToks : List Tok → PState → Option (List Top)
  | [], s =>
    match s.fns, s.args with
    | none, none => some s.tops.reverse
    | _, _ => none
  | t :: ts, s =>
    match parseTok s t with
    | none => none
    | some s => parseToks ts s

/-- `env.get_template` (jinja_code_generator.py:26-27). -/
def parse (template : Text) : Option (List Top) :=
  match lex (template.length + 1) true (chomp template) with
  | none => none
  | some ts => parseToks ts {}

/-! ### Rendering -/

def renderInn (a : Text) (i : Nat) (last : Bool) : Inn → Text
  | .txt t => t
  | .arg => a
  | .index => Nat.toDigits 10 i
  | .sep t => if last then [] else t

/-- `{% for argument in function.argument_list %}`; `i` is `loop.index0`. -/
def renderArgs (body : List Inn) : Nat → List Text → Text
  | _, [] => []
  | i, a :: as => body.flatMap (renderInn a i as.isEmpty) ++ renderArgs body (i + 1) as

def renderMid (f : Fn) : Mid → Text
  | .txt t => t
  | .ret => f.ret
  | .name => f.name
  | .forArgs b => renderArgs b 0 f.args

def renderTop (d : Data) : Top → Text
  | .txt t => t
  | .forFns k b => (d k).flatMap fun f => b.flatMap (renderMid f)

/-- `template.render(data)` (jinja_code_generator.py:30-31); `none`: the template is outside the modelled part. -/
def generate (template : Text) (d : Data) : Option Text := (parse template).map fun ts => ts.flatMap (renderTop d)

end BB.Gen
