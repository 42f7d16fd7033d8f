import Verif.Python.Convert
import Verif.Machine.Model

/-!
# The calls of the Python class `Machine` and of `GLPSParse`

Model of `PyGLPSParse2Config`, `PyGLPSParse` (/repo/python/flame/modconfig.cpp:186-280) and of `PyMachine_init`,
`PyMachine_allocState`, `PyMachine_reconfigure` (/repo/python/flame/modmachine.cpp:20-33, 86-116, 194-218).  Python
objects are those of `Verif/Python/Convert.lean`.  Directories (`path`) are not modelled, texts of messages neither.
-/

namespace Flame.Python

open Flame.Glps (Name CV Cf Arith Outcome parseText setVar)
open Flame.Mach (CView World Machine)

variable {N : Type}

/-- How a machine reads a configuration: `get<std::string>(name)` and `get<Config::vector_t>("elements")`
(/repo/src/flame/config.h:121-129, /repo/src/base.cpp:88, 104, 115, 205). -/
def cfView : CView (Cf N) where
  str c k :=
    match c.look k.toList with
    | some (.str s) => .ok (String.ofList s)
    | _ => .error .keyError
  elems c :=
    match c.look "elements".toList with
    | some (.cfgs l) => .ok l
    | _ => .error .keyError

/-- What Python sees of a failed call: `KeyError`, `ValueError`, `RuntimeError`, or the exception that Python itself
had raised before (`CATCH3` leaves an active exception alone, /repo/python/flame/pyflame.h:24). -/
inductive Exc
  | key | value | runtime | raised
  deriving DecidableEq, Repr

/-- Outcome of a call: a result, an exception, or undefined behaviour. -/
inductive Res (α : Type)
  | ok (a : α)
  | exc (e : Exc)
  | crash

/-- `CATCH2(std::invalid_argument, ValueError)`, `CATCH()` for the exceptions of `List2Config`
(/repo/python/flame/modconfig.cpp:25, 36, 39, 48, 70, 83, 153). -/
def convExc : Err → Exc
  | .tooDeep => .runtime
  | .badItem | .pyError => .raised
  | .badElem | .badValue | .notList => .value

/-- The same with `CATCH()` only: no `ValueError` (/repo/python/flame/modmachine.cpp:115, /repo/python/flame/modconfig.cpp:279). -/
def convExcOnly (e : Err) : Exc :=
  match convExc e with
  | .value => .runtime
  | x => x

/-- The handlers of `PyMachine_reconfigure` for exceptions of the machine (/repo/python/flame/modmachine.cpp:216-217): a
`key_error` becomes `RuntimeError`. -/
def machExc : Flame.Mach.Err → Exc
  | .invalidArg => .value
  | _ => .runtime

/-- The handlers of `PyMachine_init` (/repo/python/flame/modmachine.cpp:30-32). -/
def initExc : Flame.Mach.Err → Exc
  | .keyError => .key
  | .invalidArg => .value
  | _ => .runtime

/-- `PyMapping_Items` of a dictionary. -/
def items (d : List (Py N × Py N)) : List (Py N) := d.map (fun p => .tuple [p.1, p.2])

/-- `PyArg_ParseTupleAndKeywords` with `"k"`: an integer becomes `unsigned long` without check of its size. -/
def ulong (i : Int) : Nat := (i % 18446744073709551616).toNat

/-- `PyMachine_reconfigure` (/repo/python/flame/modmachine.cpp:194-218).  The depth of 3 leaves one level. -/
def pyReconfigure {X S : Type} (w : World (Cf N) X S) (m : Machine (Cf N) X S) (index : Int) (conf : List (Py N × Py N))
    (replace : Bool) : Machine (Cf N) X S × Res Unit :=
  match m.elems[ulong index]? with
  | none => (m, .exc .value)
  | some old =>
    match list2Config 1 (items conf) (if replace then .mk [] [] else old.conf) with
    | .error e => (m, .exc (convExc e))
    | .ok newconf =>
      match m.reconfigure cfView w (ulong index) newconf with
      | (m', .ok _) => (m', .ok ())
      | (m', .err e) => (m', .exc (machExc e))
      | (m', .ub) => (m', .crash)

/-- `Config::push_scope` (/repo/src/config.cpp:109-124) as values: everything visible becomes inherited. -/
def pushScope (c : Cf N) : Cf N := .mk [] (SMap.merge c.own c.inh)

/-- The configuration that `PyMachine_allocState` gives to the state (/repo/python/flame/modmachine.cpp:86-110).  That
`push_scope` may also write into the configuration of the machine is left out: it changes no lookup there (C02). -/
def pyAllocConf (conf : Cf N) (d : Option (Py N)) (inherit : Bool) : Except Exc (Cf N) :=
  match d with
  | none => .ok conf
  | some (.dict l) =>
    match list2Config 4 (items l) (if inherit then pushScope conf else .mk [] []) with
    | .error e => .error (convExcOnly e)
    | .ok c => .ok c
  | some _ => .error .value

/-- `PyMachine_allocState` (/repo/python/flame/modmachine.cpp:86-116) with `Machine::allocState`
(/repo/src/base.cpp:194-198); `alloc` is the constructor of the state, which may throw. -/
def pyAllocState {S : Type} (alloc : Cf N → Except Flame.Mach.Err S) (conf : Cf N) (d : Option (Py N)) (inherit : Bool) :
    Except Exc S :=
  match pyAllocConf conf d inherit with
  | .error e => .error e
  | .ok c =>
    match alloc c with
    | .error _ => .error .runtime
    | .ok s => .ok s

/-- What is given as `config`: an object with `read` (with what it returns, if that is a buffer), a buffer, a text, or
anything else. -/
inductive Src (N : Type)
  | file (content : Option Name)
  | bytes (s : Name)
  | text (s : Name)
  | obj (o : Py N)

/-- Failure of `PyGLPSParse2Config`: a C++ exception (as Python sees it after `invalid_argument` is mapped to
`ValueError`), or a null pointer with an active exception. -/
inductive Fail
  | throws (e : Exc)
  | null (e : Exc)
  | ub
  deriving DecidableEq, Repr

/-- The loop over `extra` (/repo/python/flame/modconfig.cpp:201-226).  Arrays are numbers for `PyNumber_Check`, and
`PyNumber_Float` accepts those with a single entry. -/
def extraLoop : List (Py N × Py N) → SMap Name (CV N) → Except Fail (SMap Name (CV N))
  | [], m => .ok m
  | (k, v) :: r, m =>
    match k with
    | .str key =>
      match v with
      | .num x => extraLoop r (setVar m (cstr key) (.num x))
      | .arr _ [x] => extraLoop r (setVar m (cstr key) (.num x))
      | .arr _ _ | .badArr | .badNum => .error (.throws .raised)
      | .str s => extraLoop r (setVar m (cstr key) (.str (cstr s)))
      | _ => .error (.null .value)
    | _ => .error (.throws .raised)

/-- `extra` (/repo/python/flame/modconfig.cpp:196-230). -/
def extraVars : Option (Py N) → Except Fail (SMap Name (CV N))
  | none => .ok []
  | some (.dict l) => extraLoop l []
  | some _ => .error (.null .value)

/-- The result of the parser as the Python caller gets it: every error is thrown as `std::runtime_error`
(/repo/src/glps_parser.cpp:545-550, /repo/src/config.cpp:264-341). -/
def ofOutcome : Outcome N → Except Fail (Cf N)
  | .ok c => .ok c
  | .perr _ | .ferr _ => .error (.throws .runtime)
  | .ub => .error .ub

/-- `PyGLPSParse2Config` (/repo/python/flame/modconfig.cpp:186-273). -/
def parse2Config (a : Arith N) (strtod : Name → Option N) (conf : Src N) (extra : Option (Py N)) : Except Fail (Cf N) :=
  match extraVars extra with
  | .error e => .error e
  | .ok vars =>
    match conf with
    | .file none => .error (.null .raised)
    | .file (some s) => ofOutcome (parseText a strtod vars s true)
    | .bytes s => ofOutcome (parseText a strtod vars s true)
    | .text s => ofOutcome (parseText a strtod vars (cstr s) true)
    | .obj (.dict l) => (list2conf (.list (items l))).mapError (fun e => .throws (convExc e))
    | .obj (.list l) => (list2conf (.list l)).mapError (fun e => .throws (convExc e))
    | .obj _ => .error (.throws .value)

/-- `PyGLPSParse` (/repo/python/flame/modconfig.cpp:275-280): `conf2dict` accepts the null pointer (line 134); other than
in `Machine` an invalid argument becomes `RuntimeError`. -/
def pyParse (a : Arith N) (strtod : Name → Option N) (conf : Src N) (extra : Option (Py N)) : Res (Py N) :=
  match parse2Config a strtod conf extra with
  | .ok c => .ok (cfPy c)
  | .error (.null e) => .exc e
  | .error (.throws .value) => .exc .runtime
  | .error (.throws e) => .exc e
  | .error .ub => .crash

/-- `PyMachine_init` (/repo/python/flame/modmachine.cpp:20-33): `*C` without a check for the null pointer. -/
def pyMachine {X S : Type} (a : Arith N) (strtod : Name → Option N) (w : World (Cf N) X S) (conf : Src N)
    (extra : Option (Py N)) : Res (Machine (Cf N) X S) :=
  match parse2Config a strtod conf extra with
  | .error (.null _) => .crash
  | .error (.throws e) => .exc e
  | .error .ub => .crash
  | .ok c =>
    match Machine.new cfView w c with
    | .ok m => .ok m
    | .err e => .exc (initExc e)
    | .ub => .crash

end Flame.Python
