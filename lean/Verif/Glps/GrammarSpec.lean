import Verif.Glps.Syntax

/-!
# The grammar of lattice files as a relation

The rules of /repo/src/glps.y:82-126 with the precedence declarations of lines 64-66 resolved the
usual way: `DerE p` are the expressions whose outermost binary operator, if not in parentheses, has
precedence at least `p`; the left operand of an operator of precedence `q` has level `q`, the right
operand level `q + 1`; the operand of a unary minus is no binary operation.
-/

namespace Flame.Glps

variable {N : Type}

mutual
/-- Operands (/repo/src/glps.y:110-113, 118-120, 126). -/
inductive DerU : List (Tok N) → Exp N → Prop
  | num (x : N) : DerU [.num x] (.num x)
  | str (s : Name) : DerU [.str s] (.str s)
  | var (k : Name) : DerU [.kw k] (.var k)
  | neg {ts e} (h : DerU ts e) : DerU (.sym '-' :: ts) (.neg e)
  | paren {ts e} (h : DerE 0 ts e) : DerU (.sym '(' :: (ts ++ [.sym ')'])) e
  | call (k : Name) {ts e} (h : DerE 0 ts e) : DerU (.kw k :: .sym '(' :: (ts ++ [.sym ')'])) (.call k e)
  | vec {ts es} (h : DerL ts es) : DerU (.sym '[' :: (ts ++ [.sym ']'])) (.vec es)
/-- Expressions (/repo/src/glps.y:64-66, 114-117). -/
inductive DerE : Nat → List (Tok N) → Exp N → Prop
  | unary {p ts e} (h : DerU ts e) : DerE p ts e
  | bin {p : Nat} {c : Char} {tl tr : List (Tok N)} {l r : Exp N} (hc : prec c ≠ 0) (hp : p ≤ prec c)
      (hl : DerE (prec c) tl l) (hr : DerE (prec c + 1) tr r) :
      DerE p (tl ++ .sym c :: tr) (.bin c l r)
/-- Lists (/repo/src/glps.y:106-108, 122-124). -/
inductive DerL : List (Tok N) → Exps N → Prop
  | nil : DerL [] .nil
  | one {ts e} (h : DerE 0 ts e) : DerL ts (.cons e .nil)
  | cons {ts ts' e es} (h : DerE 0 ts e) (h' : DerL ts' es) : DerL (ts ++ .sym ',' :: ts') (.cons e es)
end

/-- Properties (/repo/src/glps.y:101-104). -/
inductive DerP : List (Tok N) → List (Name × Exp N) → Prop
  | nil : DerP [] []
  | cons (k : Name) {te e tp ps} (h : DerE 0 te e) (h' : DerP tp ps) :
      DerP (.sym ',' :: .kw k :: .sym '=' :: (te ++ tp)) ((k, e) :: ps)

/-- Statements (/repo/src/glps.y:85-99). -/
inductive DerS : List (Tok N) → Stmt N → Prop
  | assign (k : Name) {te e} (h : DerE 0 te e) :
      DerS (.kw k :: .sym '=' :: (te ++ [.sym ';'])) (.assign k e)
  | element (k t : Name) {tp ps} (h : DerP tp ps) :
      DerS (.kw k :: .sym ':' :: .kw t :: (tp ++ [.sym ';'])) (.element k t ps)
  | line (k t : Name) {tl es} (h : DerL tl es) :
      DerS (.kw k :: .sym ':' :: .kw t :: .sym '=' :: .sym '(' :: (tl ++ [.sym ')', .sym ';']))
        (.line k t es.toList)
  | func (k : Name) {te e} (h : DerE 0 te e) :
      DerS (.kw k :: .sym '(' :: (te ++ [.sym ')', .sym ';'])) (.func k e)
  | command (k : Name) : DerS [.kw k, .sym ';'] (.command k)

/-- Files (/repo/src/glps.y:82-83). -/
inductive DerF : List (Tok N) → List (Stmt N) → Prop
  | nil : DerF [] []
  | cons {ts s ts' ss} (h : DerS ts s) (h' : DerF ts' ss) : DerF (ts ++ ts') (s :: ss)

/-- No binary operator of precedence at least `p` comes next. -/
def Stop (p : Nat) : List (Tok N) → Prop
  | .sym c :: _ => prec c = 0 ∨ prec c < p
  | _ => True

/-! ### Writing expressions with as few parentheses as possible -/

/-- Put parentheses around if `b`. -/
def wrapP (b : Bool) (ts : List (Tok N)) : List (Tok N) :=
  if b then .sym '(' :: (ts ++ [.sym ')']) else ts

mutual
/-- The tokens of an expression at level `p` (0: anything may stand here; 2: an operand of `*`; 3: an
operand of unary minus). -/
def showE : Nat → Exp N → List (Tok N)
  | _, .num x => [.num x]
  | _, .str s => [.str s]
  | _, .var k => [.kw k]
  | p, .bin c l r => wrapP (decide (prec c < p)) (showE (prec c) l ++ .sym c :: showE (prec c + 1) r)
  | _, .neg e => .sym '-' :: showE 3 e
  | _, .call f e => .kw f :: .sym '(' :: (showE 0 e ++ [.sym ')'])
  | _, .vec es => .sym '[' :: (showL es ++ [.sym ']'])
/-- The tokens of a list. -/
def showL : Exps N → List (Tok N)
  | .nil => []
  | .cons e .nil => showE 0 e
  | .cons e es => showE 0 e ++ .sym ',' :: showL es
end

mutual
/-- Every binary operation uses one of `+ - * /`. -/
def Exp.Wf : Exp N → Prop
  | .bin c l r => (c = '+' ∨ c = '-' ∨ c = '*' ∨ c = '/') ∧ l.Wf ∧ r.Wf
  | .neg e => e.Wf
  | .call _ e => e.Wf
  | .vec es => es.Wf
  | _ => True
/-- For lists. -/
def Exps.Wf : Exps N → Prop
  | .nil => True
  | .cons e es => e.Wf ∧ es.Wf
end

end Flame.Glps
