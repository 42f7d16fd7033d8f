import Verif.Glps.Lex

/-!
# The grammar of lattice files

Model of /repo/src/glps.y.  bison builds a deterministic parser from the rules and the precedence
declarations (lines 64-66: `+ -` left, then `* /` left, then unary minus); the model is the
corresponding precedence climbing parser on the token list.  `Verif/Glps/Grammar.lean` relates it to
the grammar rules.  Not modelled: bison's limit on the parser stack (YYMAXDEPTH, 10000 symbols by
default).
-/

namespace Flame.Glps

variable {N : Type}

mutual
/-- Expression trees: the rules of `expr` (/repo/src/glps.y:110-120); parentheses leave no trace. -/
inductive Exp (N : Type)
  | num (x : N)
  | str (s : Name)
  | var (n : Name)
  | bin (op : Char) (l r : Exp N)
  | neg (e : Exp N)
  | call (f : Name) (e : Exp N)
  | vec (es : Exps N)
  deriving DecidableEq
/-- Lists of expressions: `expr_list`, `line_list` (/repo/src/glps.y:106-108, 122-124). -/
inductive Exps (N : Type)
  | nil
  | cons (e : Exp N) (es : Exps N)
  deriving DecidableEq
end

/-- The expressions as a list. -/
def Exps.toList : Exps N → List (Exp N)
  | .nil => []
  | .cons e es => e :: es.toList

/-- Statements: the rules of `entry` (/repo/src/glps.y:85-99). -/
inductive Stmt (N : Type)
  | assign (n : Name) (e : Exp N)
  | element (label etype : Name) (props : List (Name × Exp N))
  | line (label etype : Name) (names : List (Exp N))
  | func (f : Name) (e : Exp N)
  | command (k : Name)
  deriving DecidableEq

/-- Precedence of a binary operator, 0 if it is none (/repo/src/glps.y:64-65). -/
def prec (c : Char) : Nat :=
  if c == '+' || c == '-' then 1 else if c == '*' || c == '/' then 2 else 0

/-- The token list starts with the character token `c`. -/
def atSym (c : Char) : List (Tok N) → Bool
  | .sym d :: _ => d == c
  | _ => false

mutual
/-- `expr` with operators of precedence at least `p` (/repo/src/glps.y:110-120). -/
def pExpr : Nat → Nat → List (Tok N) → Option (Exp N × List (Tok N))
  | 0, _, _ => none
  | fuel + 1, p, ts =>
    match pUnary fuel ts with
    | none => none
    | some (l, r) => pLoop fuel p l r
/-- Continue after the left operand `l`: reduce or shift according to the precedence of the next
token (/repo/src/glps.y:64-66, 114-117).  Left associativity: the right operand only takes
operators of higher precedence. -/
def pLoop : Nat → Nat → Exp N → List (Tok N) → Option (Exp N × List (Tok N))
  | 0, _, _, _ => none
  | fuel + 1, p, l, ts =>
    match ts with
    | .sym c :: r =>
      if prec c ≠ 0 ∧ p ≤ prec c then
        match pExpr fuel (prec c + 1) r with
        | none => none
        | some (e, r') => pLoop fuel p (.bin c l e) r'
      else some (l, ts)
    | _ => some (l, ts)
/-- Operand: unary minus binds tighter than all binary operators (`%prec NEG`,
/repo/src/glps.y:66, 118); the other alternatives of `expr` (lines 110-113, 119-120, 126). -/
def pUnary : Nat → List (Tok N) → Option (Exp N × List (Tok N))
  | 0, _ => none
  | fuel + 1, ts =>
    match ts with
    | [] => none
    | .num x :: r => some (.num x, r)
    | .str s :: r => some (.str s, r)
    | .kw k :: r =>
      if atSym '(' r then
        match pExpr fuel 0 r.tail with
        | none => none
        | some (e, r') => if atSym ')' r' then some (.call k e, r'.tail) else none
      else some (.var k, r)
    | .sym c :: r =>
      if c = '-' then
        match pUnary fuel r with
        | none => none
        | some (e, r') => some (.neg e, r')
      else if c = '(' then
        match pExpr fuel 0 r with
        | none => none
        | some (e, r') => if atSym ')' r' then some (e, r'.tail) else none
      else if c = '[' then
        match pList fuel ']' r with
        | none => none
        | some (es, r') => some (.vec es, r')
      else none
/-- `expr_list` or `line_list` followed by its closing bracket (/repo/src/glps.y:95, 106-108,
122-126): empty, or expressions separated by commas with an optional comma at the end. -/
def pList : Nat → Char → List (Tok N) → Option (Exps N × List (Tok N))
  | 0, _, _ => none
  | fuel + 1, close, ts =>
    if atSym close ts then some (.nil, ts.tail)
    else
      match pExpr fuel 0 ts with
      | none => none
      | some (e, r) =>
        if atSym ',' r then
          match pList fuel close r.tail with
          | none => none
          | some (es, r') => some (.cons e es, r')
        else if atSym close r then some (.cons e .nil, r.tail)
        else none
end

/-- Recursion depth sufficient for a token list (`Verif.Glps.Grammar`, `pExpr_stable`). -/
def fuelFor (ts : List (Tok N)) : Nat := 3 * ts.length + 3

/-- `properties` (/repo/src/glps.y:101-104) up to the `;`; `n` bounds the number of properties. -/
def pProps : Nat → List (Tok N) → Option (List (Name × Exp N) × List (Tok N))
  | 0, _ => none
  | n + 1, ts =>
    if atSym ',' ts then
      match ts.tail with
      | .kw k :: r =>
        if atSym '=' r then
          match pExpr (fuelFor r.tail) 0 r.tail with
          | none => none
          | some (e, r') =>
            match pProps n r' with
            | none => none
            | some (ps, r'') => some ((k, e) :: ps, r'')
        else none
      | _ => none
    else some ([], ts)

/-- The `;` that ends every statement. -/
def endStmt (s : Stmt N) (ts : List (Tok N)) : Option (Stmt N × List (Tok N)) :=
  if atSym ';' ts then some (s, ts.tail) else none

/-- One `entry` (/repo/src/glps.y:85-99). -/
def pStmt : List (Tok N) → Option (Stmt N × List (Tok N))
  | .kw k :: r =>
    if atSym '=' r then
      match pExpr (fuelFor r.tail) 0 r.tail with
      | none => none
      | some (e, r') => endStmt (.assign k e) r'
    else if atSym ':' r then
      match r.tail with
      | .kw t :: r2 =>
        if atSym '=' r2 then
          if atSym '(' r2.tail then
            match pList (fuelFor r2.tail.tail) ')' r2.tail.tail with
            | none => none
            | some (es, r') => endStmt (.line k t es.toList) r'
          else none
        else
          match pProps (r2.length + 1) r2 with
          | none => none
          | some (ps, r') => endStmt (.element k t ps) r'
      | _ => none
    else if atSym '(' r then
      match pExpr (fuelFor r.tail) 0 r.tail with
      | none => none
      | some (e, r') => if atSym ')' r' then endStmt (.func k e) r'.tail else none
    else endStmt (.command k) r
  | _ => none

/-- `file` (/repo/src/glps.y:82-83): the statements up to the end of the tokens (`true`) or up to
the first syntax error (`false`). -/
def pFile : Nat → List (Tok N) → List (Stmt N) × Bool
  | 0, _ => ([], false)
  | _ + 1, [] => ([], true)
  | n + 1, t :: ts =>
    match pStmt (t :: ts) with
    | none => ([], false)
    | some (s, r) =>
      let q := pFile n r
      (s :: q.1, q.2)

/-- All statements of a token list. -/
def pAll (ts : List (Tok N)) : List (Stmt N) × Bool := pFile (ts.length + 1) ts

end Flame.Glps
