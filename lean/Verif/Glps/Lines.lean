import Verif.Glps.Eval

/-!
# Line numbers in messages

Model of the line counter of the scanner (/repo/src/glps.l:43, 49; started at 1 by /repo/src/glps_parser.cpp:537) and of
`last_line` (/repo/src/glps_parser.h:175, /repo/src/glps_parser.cpp:49-57, 545-549), on top of `Verif.Glps.Lex` and
`Verif.Glps.Eval`.  The action of a whole statement runs when its `;` has been read, because the parser needs no further token
to reduce it.  Where the scanner stands when an expression fails depends on whether the parser has had to look at the next token,
and where it stands at a syntax error on the tables of bison; both are parameters here (`Look`).
-/

namespace Flame.Glps

variable {N : Type}

/-- How often `yylineno++` runs in a match that is ignored: the rules for comments and for line breaks (/repo/src/glps.l:43, 49). -/
def breaks : Name → Nat
  | c :: _ => if c == '#' || c == '\n' then 1 else 0
  | [] => 0

/-- The scanner with its line counter: the tokens with the counter at their end, whether the end of the text was reached, and the
counter there or at the error. -/
def lexL (strtod : Name → Option N) : Nat → Nat → Name → List (Tok N × Nat) × Bool × Nat
  | 0, line, _ => ([], false, line)
  | fuel + 1, line, s =>
    match scan1 strtod s with
    | .eof => ([], true, line)
    | .bad => ([], false, line)
    | .skip rest => lexL strtod fuel (line + breaks s) rest
    | .tok t rest =>
      let r := lexL strtod fuel line rest
      ((t, line) :: r.1, r.2)

/-- The tokens of a text with line numbers (`glps_set_lineno(1, scanner)`, /repo/src/glps_parser.cpp:537). -/
def lexLines (strtod : Name → Option N) (s : Name) : List (Tok N × Nat) × Bool × Nat := lexL strtod (s.length + 1) 1 s

/-- A statement with the lines of its first token and of its `;`. -/
structure Placed (N : Type) where
  stmt : Stmt N
  first : Nat
  semi : Nat

/-- `file` (/repo/src/glps.y:82-83) with the lines of the statements, as `pFile`. -/
def fileL : Nat → List (Tok N × Nat) → List (Placed N)
  | 0, _ => []
  | _ + 1, [] => []
  | n + 1, t :: ts =>
    match pStmt ((t :: ts).map Prod.fst) with
    | none => []
    | some (s, r) =>
      let k := (t :: ts).length - r.length
      ⟨s, t.2, (((t :: ts).take k).getLast?.map Prod.snd).getD 0⟩ :: fileL n ((t :: ts).drop k)

/-- All statements with their lines. -/
def allL (ts : List (Tok N × Nat)) : List (Placed N) := fileL (ts.length + 1) ts

/-- `parse_context` with `last_line` and the lines printed by `glps_call1` (/repo/src/glps_parser.cpp:495). -/
structure LCtx (N : Type) where
  ctx : Ctx N
  lastLine : Nat
  printed : List Nat

/-- Why an expression of a statement fails, if one does (see `exec`). -/
def failOf (a : Arith N) (c : Ctx N) : Stmt N → Option Fail
  | .assign _ e => match evalE a c e with | .error f => some f | .ok _ => none
  | .element _ _ ps => match evalProps a c ps with | .error f => some f | .ok _ => none
  | .line _ _ es =>
    match evalList a c es with
    | .error f => some f
    | .ok ts => match appendLine ts with | .error f => some f | .ok _ => none
  | .func _ e => match evalE a c e with | .error f => some f | .ok _ => none
  | .command _ => none

/-- `last_line` after a failing expression: `glps_verror` sets it with the first message (/repo/src/glps_parser.cpp:51-56); the
operations that write to `last_error` themselves do not (/repo/src/glps_ops.cpp:87, 118, 163, 200), and `glps_verror` then keeps
their message. -/
def failLine (c : LCtx N) (line : Nat) : Fail → Nat
  | .soft _ => if c.ctx.err.isNone then line else c.lastLine
  | .hard _ => c.lastLine

/-- A statement is a call of `print`. -/
def isPrint : Stmt N → Bool
  | .func f _ => f = "print".toList
  | _ => false

/-- `exec` with line numbers; `line` is where the scanner stands when an expression fails. -/
def execL (a : Arith N) (c : LCtx N) (p : Placed N) (line : Nat) : LCtx N × Bool :=
  match failOf a c.ctx p.stmt with
  | some f => (⟨(exec a c.ctx p.stmt).1, failLine c line f, c.printed⟩, (exec a c.ctx p.stmt).2)
  | none =>
    let c' := (exec a c.ctx p.stmt).1
    (⟨c', if c.ctx.err.isNone && c'.err.isSome then p.semi else c.lastLine,
      if isPrint p.stmt then c.printed ++ [p.semi] else c.printed⟩, (exec a c.ctx p.stmt).2)

/-- `execAll` with line numbers; the statements come with the line where the scanner stands if an expression fails. -/
def runL (a : Arith N) : LCtx N → List (Placed N × Nat) → LCtx N × Bool
  | c, [] => (c, true)
  | c, x :: xs =>
    match execL a c x.1 x.2 with
    | (c', true) => runL a c' xs
    | (c', false) => (c', false)

/-- What the model leaves open: the line at which the failure of an expression of statement number `i` is noticed, and the line of a
syntax error. -/
structure Look where
  expr : Nat → Nat
  syn : Nat

/-- `parse_common` (/repo/src/glps_parser.cpp:524-557) with line numbers, as `parseCtx`.  If all tokens before an error of the
scanner form complete statements, that error is the first message. -/
def parseL (a : Arith N) (strtod : Name → Option N) (look : Look) (c : LCtx N) (text : Name) : LCtx N :=
  let l := lexLines strtod text
  let full := (pAll (l.1.map Prod.fst)).2
  match runL a c ((allL l.1).zipIdx.map (fun x => (x.1, look.expr x.2))) with
  | (c', false) => c'
  | (c', true) =>
    if l.2.1 && full then c'
    else ⟨c'.ctx.note .malformed, if c'.ctx.err.isNone then (if full then l.2.2 else look.syn) else c'.lastLine, c'.printed⟩

/-- A new context (/repo/src/glps_ops.cpp:207-209: `last_line(0)`) with variables. -/
def LCtx.new (c : Ctx N) : LCtx N := ⟨c, 0, []⟩

end Flame.Glps
