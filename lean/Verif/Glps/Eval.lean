import Verif.Glps.Syntax

/-!
# Evaluating lattice files

Model of the semantic actions (/repo/src/glps_parser.cpp), the operation table
(/repo/src/glps_ops.cpp) and `GLPSParser` (/repo/src/config.cpp:197-422).

Simplifications: numbers are an abstract type with abstract arithmetic (`Arith`); nested parsing and
the file system are abstract functions (`Arith.parse`, `Arith.file`, `Arith.h5file`); error messages are
kinds, line numbers are modelled in `Verif.Glps.Lines`; the text printed by `print(...)` is the list of printed values;
a statement that cannot be scanned or parsed has no effect other than its error; allocation failures
are not modelled; the names of pre-set variables contain no NUL character
(/repo/src/config.cpp:208 passes them as C strings).
-/

namespace Flame.Glps

mutual
/-- `Config::value_t` (/repo/src/flame/config.h:70-75) with configurations as values; sharing
between them is invisible by C01. -/
inductive CV (N : Type)
  | num (x : N)
  | vec (xs : List N)
  | str (s : Name)
  | cfgs (l : List (Cf N))
/-- `Config` (/repo/src/flame/config.h:84-85) as a value: own map and inherited map (empty if
null). -/
inductive Cf (N : Type)
  | mk (own inh : List (Name × CV N))
end

variable {N : Type}

/-- The own map. -/
def Cf.own : Cf N → SMap Name (CV N)
  | .mk o _ => o

/-- The inherited map. -/
def Cf.inh : Cf N → SMap Name (CV N)
  | .mk _ i => i

/-- Lookup, `Config::getAny` (/repo/src/config.cpp:57-67). -/
def Cf.look (c : Cf N) (k : Name) : Option (CV N) :=
  match c.own.find k with
  | some v => some v
  | none => c.inh.find k

/-- `expr_value_t` (/repo/src/glps_parser.h:83-89). -/
inductive Val (N : Type)
  | num (x : N)
  | vec (xs : List N)
  | str (s : Name)
  | line (l : List Name)
  | conf (c : Cf N)

/-- `glps_expr_type` of a complete expression (/repo/src/glps_parser.h:19-28).  The types Variable,
Element and Invalid never reach a finished expression. -/
inductive Ty | number | vector | string | config | line
  deriving DecidableEq, Repr

/-- `expr_t`: a type tag and a value, which could disagree (/repo/src/glps_parser.h:99-105). -/
structure TV (N : Type) where
  ty : Ty
  val : Val N

/-- Kinds of errors (messages of /repo/src/glps_parser.cpp, /repo/src/glps_ops.cpp): bad characters or
syntax, undefined name, no matching operation, failing operation, exception in an operation, wrong
type in a vector, in a line, in an assignment, redefinition, wrong LINE keyword, unknown command,
unknown function, empty label. -/
inductive PErr
  | malformed | undefined | noOverload | opFailed | exception | vectorElem | lineElem | badAssign
  | redefined | notLine | badCommand | badFunction | emptyLabel
  deriving DecidableEq, Repr

/-- Result of an operation function: value, return code 1 after overwriting `last_error`
(/repo/src/glps_ops.cpp:86-89, 117-120, 160-165, 198-201), or an exception. -/
inductive OpRes (N : Type)
  | ok (v : Val N)
  | fail
  | throw

/-- Numbers and the outside world: `pi`, arithmetic, `isfinite`, the range test and the conversion to
`unsigned` of a beamline factor (/repo/src/glps_ops.cpp:117-121), the library functions, and the
functions that touch files (lines 140-203). -/
structure Arith (N : Type) where
  pi : N
  neg : N → N
  add : N → N → N
  sub : N → N → N
  mul : N → N → N
  div : N → N → N
  finite : N → Bool
  badFactor : N → Bool
  trunc : N → Nat
  sin : N → N
  cos : N → N
  tan : N → N
  asin : N → N
  acos : N → N
  atan : N → N
  degToRad : N
  radToDeg : N
  parse : Name → Option (Cf N)
  file : Name → Option (Option Name)
  h5file : Name → Option (Option Name)

/-- A one argument numeric operation, e.g. `unary_sin` (/repo/src/glps_ops.cpp:16-66): `boost::get`
throws when the value is not a number. -/
def num1 (f : N → N) : List (Val N) → OpRes N
  | [.num x] => .ok (.num (f x))
  | _ => .throw

/-- A two argument numeric operation, e.g. `binary_add` (/repo/src/glps_ops.cpp:68-82). -/
def num2 (f : N → N → N) : List (Val N) → OpRes N
  | [.num x, .num y] => .ok (.num (f x y))
  | _ => .throw

/-- `binary_div` (/repo/src/glps_ops.cpp:83-92). -/
def divOp (a : Arith N) : List (Val N) → OpRes N
  | [.num x, .num y] => if a.finite (a.div x y) then .ok (.num (a.div x y)) else .fail
  | _ => .throw

/-- `unary_bl_negate` (/repo/src/glps_ops.cpp:96-106). -/
def blNeg : List (Val N) → OpRes N
  | [.line l] => .ok (.line l.reverse)
  | _ => .throw

/-- The copy loop of `binary_bl_mult` (/repo/src/glps_ops.cpp:131-134). -/
def repLine (l : List Name) : Nat → List Name
  | 0 => []
  | n + 1 => l ++ repLine l n

/-- The body of `binary_bl_mult` (/repo/src/glps_ops.cpp:108-138). -/
def blScale (a : Arith N) (x : N) (l : List Name) : OpRes N :=
  if a.badFactor x then .fail else .ok (.line (repLine l (a.trunc x)))

/-- `binary_bl_mult<0,1>` (/repo/src/glps_ops.cpp:108-138). -/
def blMulL (a : Arith N) : List (Val N) → OpRes N
  | [.num x, .line l] => blScale a x l
  | _ => .throw

/-- `binary_bl_mult<1,0>` (/repo/src/glps_ops.cpp:108-138). -/
def blMulR (a : Arith N) : List (Val N) → OpRes N
  | [.line l, .num x] => blScale a x l
  | _ => .throw

/-- `unary_parse` (/repo/src/glps_ops.cpp:140-152); every failure is an exception. -/
def parseOp (a : Arith N) : List (Val N) → OpRes N
  | [.str s] => match a.parse s with | none => .throw | some c => .ok (.conf c)
  | _ => .throw

/-- `unary_file`, `unary_h5file` (/repo/src/glps_ops.cpp:154-203): exception, "does not exist", or
the resolved path. -/
def pathOp (f : Name → Option (Option Name)) : List (Val N) → OpRes N
  | [.str s] =>
    match f s with
    | none => .throw
    | some none => .fail
    | some (some p) => .ok (.str p)
  | _ => .throw

/-- `operation_t` (/repo/src/glps_parser.h:143-152). -/
structure Oper (N : Type) where
  name : Name
  args : List Ty
  res : Ty
  fn : List (Val N) → OpRes N

/-- The table filled by `parse_context::parse_context` (/repo/src/glps_ops.cpp:207-246), in
registration order (the order of equal keys in a `std::multimap`). -/
def opTable (a : Arith N) : List (Oper N) :=
  [ ⟨"-".toList, [.number], .number, num1 a.neg⟩,
    ⟨"sin".toList, [.number], .number, num1 a.sin⟩,
    ⟨"cos".toList, [.number], .number, num1 a.cos⟩,
    ⟨"tan".toList, [.number], .number, num1 a.tan⟩,
    ⟨"asin".toList, [.number], .number, num1 a.asin⟩,
    ⟨"acos".toList, [.number], .number, num1 a.acos⟩,
    ⟨"atan".toList, [.number], .number, num1 a.atan⟩,
    ⟨"arcsin".toList, [.number], .number, num1 a.asin⟩,
    ⟨"arccos".toList, [.number], .number, num1 a.acos⟩,
    ⟨"arctan".toList, [.number], .number, num1 a.atan⟩,
    ⟨"deg2rad".toList, [.number], .number, num1 (fun x => a.mul x a.degToRad)⟩,
    ⟨"rad2deg".toList, [.number], .number, num1 (fun x => a.mul x a.radToDeg)⟩,
    ⟨"+".toList, [.number, .number], .number, num2 a.add⟩,
    ⟨"-".toList, [.number, .number], .number, num2 a.sub⟩,
    ⟨"*".toList, [.number, .number], .number, num2 a.mul⟩,
    ⟨"/".toList, [.number, .number], .number, divOp a⟩,
    ⟨"-".toList, [.line], .line, blNeg⟩,
    ⟨"*".toList, [.number, .line], .line, blMulL a⟩,
    ⟨"*".toList, [.line, .number], .line, blMulR a⟩,
    ⟨"parse".toList, [.string], .config, parseOp a⟩,
    ⟨"file".toList, [.string], .string, pathOp a.file⟩,
    ⟨"dir".toList, [.string], .string, pathOp a.file⟩,
    ⟨"h5file".toList, [.string], .string, pathOp a.h5file⟩ ]

/-- How the evaluation of an expression fails: `soft` errors go through `glps_error`, which keeps an
earlier message; `hard` ones have overwritten `last_error` already
(/repo/src/glps_parser.cpp:49-57, /repo/src/glps_ops.cpp:87, 118, 163, 200). -/
inductive Fail
  | soft (e : PErr)
  | hard (e : PErr)
  deriving DecidableEq, Repr

/-- `glps_add_op` (/repo/src/glps_parser.cpp:320-383): the first operation of that name whose
argument types agree with the types of the arguments. -/
def addOp (a : Arith N) (name : Name) (args : List (TV N)) : Except Fail (TV N) :=
  match (opTable a).find? (fun o => o.name = name ∧ o.args = args.map TV.ty) with
  | none => .error (.soft .noOverload)
  | some o =>
    match o.fn (args.map TV.val) with
    | .ok v => .ok ⟨o.res, v⟩
    | .fail => .error (.hard .opFailed)
    | .throw => .error (.soft .exception)

/-- `parse_element` (/repo/src/glps_parser.h:129-134). -/
structure PElem (N : Type) where
  label : Name
  etype : Name
  props : SMap Name (TV N)

/-- `parse_line` (/repo/src/glps_parser.h:136-141). -/
structure PLine where
  label : Name
  etype : Name
  names : List Name

/-- `parse_context` (/repo/src/glps_parser.h:154-195). -/
structure Ctx (N : Type) where
  vars : List (Name × TV N)
  elements : List (PElem N)
  lines : List PLine
  varIdx : SMap Name Nat
  elemIdx : SMap Name Nat
  lineIdx : SMap Name Nat
  err : Option PErr
  out : List (TV N)

/-- A new context (/repo/src/glps_ops.cpp:207-209). -/
def Ctx.empty : Ctx N :=
  { vars := [], elements := [], lines := [], varIdx := [], elemIdx := [], lineIdx := [], err := none,
    out := [] }

/-- The value of a name in an expression, `glps_add_value(glps_expr_var)`
(/repo/src/glps_parser.cpp:228-269): variable, then element, then line, then `pi`. -/
def lookupName (a : Arith N) (c : Ctx N) (n : Name) : Except Fail (TV N) :=
  match c.varIdx.find n with
  | some i =>
    match c.vars[i]? with
    | some v => .ok v.2
    | none => .error (.soft .exception)
  | none =>
    match c.elemIdx.find n with
    | some _ => .ok ⟨.line, .line [n]⟩
    | none =>
      match c.lineIdx.find n with
      | some i =>
        match c.lines[i]? with
        | some l => .ok ⟨.line, .line l.names⟩
        | none => .error (.soft .exception)
      | none => if n = "pi".toList then .ok ⟨.number, .num a.pi⟩ else .error (.soft .undefined)

/-- `glps_append_vector` (/repo/src/glps_parser.cpp:190-212), called from the last list item to the
first (the rule is right recursive, /repo/src/glps.y:122-124): push back at the end. -/
def appendVec : List (TV N) → Except Fail (List N)
  | [] => .ok []
  | t :: ts =>
    match appendVec ts with
    | .error e => .error e
    | .ok acc =>
      match t.ty, t.val with
      | .number, .num x => .ok (acc ++ [x])
      | _, _ => .error (.soft .vectorElem)

/-- `glps_append_expr` (/repo/src/glps_parser.cpp:145-188), called from the last list item to the
first: a line is appended in reversed order. -/
def appendLine : List (TV N) → Except Fail (List Name)
  | [] => .ok []
  | t :: ts =>
    match appendLine ts with
    | .error e => .error e
    | .ok acc =>
      match t.ty, t.val with
      | .line, .line l => .ok (acc ++ l.reverse)
      | _, _ => .error (.soft .lineElem)

mutual
/-- The actions of `expr` (/repo/src/glps.y:110-120); the vector is reversed by `glps_add_value`
(/repo/src/glps_parser.cpp:278-289). -/
def evalE (a : Arith N) (c : Ctx N) : Exp N → Except Fail (TV N)
  | .num x => .ok ⟨.number, .num x⟩
  | .str s => .ok ⟨.string, .str s⟩
  | .var n => lookupName a c n
  | .bin op l r =>
    match evalE a c l with
    | .error e => .error e
    | .ok x =>
      match evalE a c r with
      | .error e => .error e
      | .ok y => addOp a [op] [x, y]
  | .neg e =>
    match evalE a c e with
    | .error e => .error e
    | .ok x => addOp a ['-'] [x]
  | .call f e =>
    match evalE a c e with
    | .error e => .error e
    | .ok x => addOp a f [x]
  | .vec es =>
    match evalEs a c es with
    | .error e => .error e
    | .ok ts =>
      match appendVec ts with
      | .error e => .error e
      | .ok acc => .ok ⟨.vector, .vec acc.reverse⟩
/-- The expressions of a list are evaluated from left to right. -/
def evalEs (a : Arith N) (c : Ctx N) : Exps N → Except Fail (List (TV N))
  | .nil => .ok []
  | .cons e es =>
    match evalE a c e with
    | .error e => .error e
    | .ok t =>
      match evalEs a c es with
      | .error e => .error e
      | .ok ts => .ok (t :: ts)
end

/-- A list of expressions from left to right. -/
def evalList (a : Arith N) (c : Ctx N) : List (Exp N) → Except Fail (List (TV N))
  | [] => .ok []
  | e :: es =>
    match evalE a c e with
    | .error e => .error e
    | .ok t =>
      match evalList a c es with
      | .error e => .error e
      | .ok ts => .ok (t :: ts)

/-- The properties of an element (/repo/src/glps.y:101-104): expressions are evaluated from left to
right, `glps_append_kv` (/repo/src/glps_parser.cpp:129-143) is called from right to left and
overwrites. -/
def evalProps (a : Arith N) (c : Ctx N) : List (Name × Exp N) → Except Fail (SMap Name (TV N))
  | [] => .ok []
  | (k, e) :: ps =>
    match evalE a c e with
    | .error e => .error e
    | .ok t =>
      match evalProps a c ps with
      | .error e => .error e
      | .ok m => .ok (m.insert k t)

/-- `glps_error` (/repo/src/glps_parser.cpp:41-57): an earlier error is kept. -/
def Ctx.note (c : Ctx N) (e : PErr) : Ctx N :=
  { c with err := match c.err with | some e' => some e' | none => some e }

/-- A failing expression: the error is recorded and parsing is given up (`PERR`,
/repo/src/glps.y:74). -/
def Ctx.abort (c : Ctx N) : Fail → Ctx N
  | .soft e => c.note e
  | .hard e => { c with err := some e }

/-- ASCII lower case, for `strcasecmp`. -/
def lower (s : Name) : Name :=
  s.map (fun c => if 'A' ≤ c ∧ c ≤ 'Z' then Char.ofNat (c.toNat + 32) else c)

/-- `glps_assign` (/repo/src/glps_parser.cpp:386-426). -/
def doAssign (c : Ctx N) (n : Name) (v : TV N) : Ctx N :=
  if v.ty = .line then c.note .badAssign
  else if (c.varIdx.find n).isSome then c.note .redefined
  else { c with vars := c.vars ++ [(n, v)], varIdx := c.varIdx.insert n c.vars.length }

/-- `glps_add_element` (/repo/src/glps_parser.cpp:428-449). -/
def doElement (c : Ctx N) (label etype : Name) (props : SMap Name (TV N)) : Ctx N :=
  if label.isEmpty || etype.isEmpty then c.note .emptyLabel
  else if (c.elemIdx.find label).isSome then c.note .redefined
  else { c with elements := c.elements ++ [⟨label, etype, props⟩]
                elemIdx := c.elemIdx.insert label c.elements.length }

/-- `glps_add_line` (/repo/src/glps_parser.cpp:451-476): the accumulated names are reversed. -/
def doLine (c : Ctx N) (label etype : Name) (acc : List Name) : Ctx N :=
  if lower etype ≠ lower "LINE".toList then c.note .notLine
  else if (c.lineIdx.find label).isSome then c.note .redefined
  else { c with lines := c.lines ++ [⟨label, etype, acc.reverse⟩]
                lineIdx := c.lineIdx.insert label c.lines.length }

/-- `glps_call1` (/repo/src/glps_parser.cpp:486-521). -/
def doCall (c : Ctx N) (f : Name) (v : TV N) : Ctx N :=
  if f ≠ "print".toList then c.note .badFunction else { c with out := c.out ++ [v] }

/-- `glps_command` (/repo/src/glps_parser.cpp:478-484). -/
def doCommand (c : Ctx N) (k : Name) : Ctx N :=
  if k ≠ "END".toList then c.note .badCommand else c

/-- One statement; the flag tells whether parsing goes on. -/
def exec (a : Arith N) (c : Ctx N) : Stmt N → Ctx N × Bool
  | .assign n e =>
    match evalE a c e with
    | .error f => (c.abort f, false)
    | .ok v => (doAssign c n v, true)
  | .element l t ps =>
    match evalProps a c ps with
    | .error f => (c.abort f, false)
    | .ok m => (doElement c l t m, true)
  | .line l t es =>
    match evalList a c es with
    | .error f => (c.abort f, false)
    | .ok ts =>
      match appendLine ts with
      | .error f => (c.abort f, false)
      | .ok acc => (doLine c l t acc, true)
  | .func f e =>
    match evalE a c e with
    | .error f => (c.abort f, false)
    | .ok v => (doCall c f v, true)
  | .command k => (doCommand c k, true)

/-- All statements of a file, up to the first one that makes the parser give up. -/
def execAll (a : Arith N) : Ctx N → List (Stmt N) → Ctx N × Bool
  | c, [] => (c, true)
  | c, s :: ss =>
    match exec a c s with
    | (c', true) => execAll a c' ss
    | (c', false) => (c', false)

/-- The context after scanning and parsing a text, `parse_common`
(/repo/src/glps_parser.cpp:524-557). -/
def parseCtx (a : Arith N) (strtod : Name → Option N) (c : Ctx N) (text : Name) : Ctx N :=
  let l := lexAll strtod text
  let p := pAll l.1
  match execAll a c p.1 with
  | (c', false) => c'
  | (c', true) => if l.2 && p.2 then c' else c'.note .malformed

/-- The type tag and value stored by `store_ctxt_var` (/repo/src/config.cpp:199-219); nested
configurations are ignored. -/
def varOf : CV N → Option (TV N)
  | .num x => some ⟨.number, .num x⟩
  | .vec xs => some ⟨.vector, .vec xs⟩
  | .str s => some ⟨.string, .str s⟩
  | .cfgs _ => none

/-- One turn of `fill_vars` (/repo/src/config.cpp:206-210): no test for an existing definition. -/
def pushVar (c : Ctx N) (n : Name) (v : TV N) : Ctx N :=
  { c with vars := c.vars ++ [(n, v)], varIdx := c.varIdx.insert n c.vars.length }

/-- `GLPSParser::Pvt::fill_vars` (/repo/src/config.cpp:255-262). -/
def fillVars (c : Ctx N) : SMap Name (CV N) → Ctx N
  | [] => c
  | (n, v) :: m =>
    match varOf v with
    | none => fillVars c m
    | some t => fillVars (pushVar c n t) m

/-- Errors of `fill_context` (/repo/src/config.cpp:242-243, 277-278, 292-294, 304-308). -/
inductive FErr | noLines | unknownUse | emptyLine | illegalValue
  deriving DecidableEq, Repr

/-- Outcome of a parse: parse error, error while building the configuration, undefined behaviour
(vector access out of range), or a configuration. -/
inductive Outcome (N : Type)
  | perr (e : PErr)
  | ferr (e : FErr)
  | ub
  | ok (c : Cf N)

/-- `assign_expr_to_Config` (/repo/src/config.cpp:221-245). -/
def cvOf (t : TV N) : Option (CV N) :=
  match t.ty, t.val with
  | .number, .num x => some (.num x)
  | .string, .str s => some (.str s)
  | .vector, .vec xs => some (.vec xs)
  | .config, .conf c => some (.cfgs [c])
  | _, _ => none

/-- The loop over all variables (/repo/src/config.cpp:270-274), and over all properties of an
element (lines 324-328): `none` is the exception of line 243. -/
def assignAll (m : SMap Name (CV N)) : List (Name × TV N) → Option (SMap Name (CV N))
  | [] => some m
  | (n, t) :: ts =>
    match cvOf t with
    | none => none
    | some v => assignAll (m.insert n v) ts

/-- The configuration of one line member (/repo/src/config.cpp:318-334): `none` is an exception,
`some none` an access out of range.  `element_idx[*it]` yields 0 for an unknown name. -/
def elemCf (c : Ctx N) (top : SMap Name (CV N)) (n : Name) : Option (Option (Cf N)) :=
  match c.elements[(c.elemIdx.find n).getD 0]? with
  | none => some none
  | some e =>
    match assignAll [] e.props with
    | none => none
    | some own =>
      some (some (.mk ((own.insert "type".toList (.str e.etype)).insert "name".toList (.str e.label)) top))

/-- The loop over the line members (/repo/src/config.cpp:314-335). -/
def elemCfs (c : Ctx N) (top : SMap Name (CV N)) : List Name → Option (Option (List (Cf N)))
  | [] => some (some [])
  | n :: ns =>
    match elemCf c top n with
    | none => none
    | some none => some none
    | some (some e) =>
      match elemCfs c top ns with
      | none => none
      | some none => some none
      | some (some es) => some (some (e :: es))

/-- The line to be used (/repo/src/config.cpp:280-300). -/
def selectLine (c : Ctx N) : Except FErr (Option PLine) :=
  match c.elemIdx.find "USE".toList with
  | some i =>
    match c.elements[i]? with
    | none => .ok none
    | some e =>
      match c.lineIdx.find e.etype with
      | none => .error .unknownUse
      | some j => .ok (c.lines[j]?)
  | none => .ok c.lines.getLast?

/-- `GLPSParser::Pvt::fill_context` (/repo/src/config.cpp:264-342). -/
def fillContext (c : Ctx N) (lattice : Bool) : Outcome N :=
  match assignAll [] c.vars with
  | none => .ferr .illegalValue
  | some top =>
    if lattice then
      if c.lines.isEmpty then .ferr .noLines
      else
        match selectLine c with
        | .error e => .ferr e
        | .ok none => .ub
        | .ok (some l) =>
          if l.names.isEmpty then .ferr .emptyLine
          else
            match elemCfs c top l.names with
            | none => .ferr .illegalValue
            | some none => .ub
            | some (some es) =>
              .ok (.mk ((top.insert "name".toList (.str l.label)).insert "elements".toList (.cfgs es)) [])
    else .ok (.mk top [])

/-- `GLPSParser::setVar` (/repo/src/config.cpp:351-355). -/
def setVar (m : SMap Name (CV N)) (n : Name) (v : CV N) : SMap Name (CV N) := m.insert n v

/-- What follows parsing: an error is thrown, otherwise the configuration is built
(/repo/src/glps_parser.cpp:545-550, /repo/src/config.cpp:401, 411, 421). -/
def finish (c : Ctx N) (lattice : Bool) : Outcome N :=
  match c.err with
  | some e => .perr e
  | none => fillContext c lattice

/-- `GLPSParser::parse_file`, `parse_byte` (/repo/src/config.cpp:393-422). -/
def parseText (a : Arith N) (strtod : Name → Option N) (vars : SMap Name (CV N)) (text : Name)
    (lattice : Bool) : Outcome N :=
  finish (parseCtx a strtod (fillVars Ctx.empty vars) text) lattice

end Flame.Glps
