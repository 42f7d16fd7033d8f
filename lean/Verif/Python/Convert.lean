import Verif.Glps.Eval

/-!
# Python objects and configurations

Model of `List2Config`, `conf2dict`, `list2conf` (/repo/python/flame/modconfig.cpp:22-157).  Text is a list of
characters (the UTF-8 encoding in between is not modelled; a text that cannot be encoded is not represented).  Of the
sequences other than arrays and strings only lists and tuples are represented.
-/

namespace Flame.Python

open Flame.Glps (Name CV Cf)

/-- Python objects as far as the conversion tells them apart: numbers, numbers without conversion to `float`, arrays (shape
and entries in row order), arrays that cannot be converted to doubles, text, lists, tuples, dictionaries (items in order),
anything else. -/
inductive Py (N : Type)
  | num (x : N)
  | badNum
  | arr (shape : List Nat) (xs : List N)
  | badArr
  | str (s : Name)
  | list (l : List (Py N))
  | tuple (l : List (Py N))
  | dict (l : List (Py N × Py N))
  | other

/-- Errors: nesting too deep (line 25), an item is no pair (line 36), a conversion by Python fails (lines 39, 48), an
element is neither dictionary nor list (line 70), a value of another kind (line 83), the argument is no list (line 153). -/
inductive Err
  | tooDeep | badItem | pyError | badElem | badValue | notList
  deriving DecidableEq, Repr

variable {N : Type}

/-- `std::string` from a C string. -/
def cstr (s : Name) : Name := s.takeWhile (· != '\x00')

/-- `PyArg_ParseTuple(item, "sO", &kname, &value)` (/repo/python/flame/modconfig.cpp:35); `"s"` refuses text with a NUL. -/
def parseItem : Py N → Option (Name × Py N)
  | .tuple [.str k, v] => if '\x00' ∈ k then none else some (k, v)
  | _ => none

/-- The items of an element (/repo/python/flame/modconfig.cpp:65-71): those of a dictionary as a list of tuples, or a list. -/
def elemItems : Py N → Option (List (Py N))
  | .dict l => some (l.map (fun p => .tuple [p.1, p.2]))
  | .list l => some l
  | _ => none

/-- `Config::new_scope` (/repo/src/config.cpp:91-107) as values. -/
def newScope (c : Cf N) : Cf N :=
  .mk [] (if c.own.isEmpty then c.inh else if c.inh.isEmpty then c.own else SMap.merge c.own c.inh)

/-- `Config::set`, `Config::swap` of a new value (/repo/src/flame/config.h:174-199). -/
def setVal (c : Cf N) (k : Name) (v : CV N) : Cf N := .mk (SMap.insert c.own k v) c.inh

/-- The elements of a list (/repo/python/flame/modconfig.cpp:62-77); `sub` is the recursive call. -/
def convElems (sub : List (Py N) → Cf N → Except Err (Cf N)) (c : Cf N) : List (Py N) → Except Err (List (Cf N))
  | [] => .ok []
  | e :: es =>
    match elemItems e with
    | none => .error .badElem
    | some its =>
      match sub its (newScope c) with
      | .error x => .error x
      | .ok r =>
        match convElems sub c es with
        | .error x => .error x
        | .ok rs => .ok (r :: rs)

/-- A value (/repo/python/flame/modconfig.cpp:38-84). -/
def convVal (sub : List (Py N) → Cf N → Except Err (Cf N)) (c : Cf N) : Py N → Except Err (CV N)
  | .arr shape xs => if 2 < shape.length then .error .pyError else .ok (.vec xs)
  | .badArr => .error .pyError
  | .num x => .ok (.num x)
  | .badNum => .error .pyError
  | .str s => .ok (.str (cstr s))
  | .list l => (convElems sub c l).map .cfgs
  | .tuple l => (convElems sub c l).map .cfgs
  | .dict _ => .error .badValue
  | .other => .error .badValue

/-- The loop over the items (/repo/python/flame/modconfig.cpp:27-85). -/
def convItems (sub : List (Py N) → Cf N → Except Err (Cf N)) : List (Py N) → Cf N → Except Err (Cf N)
  | [], c => .ok c
  | it :: its, c =>
    match parseItem it with
    | none => .error .badItem
    | some (k, v) =>
      match convVal sub c v with
      | .error x => .error x
      | .ok w => convItems sub its (setVal c k w)

/-- `List2Config` (/repo/python/flame/modconfig.cpp:22-86) with `4 - depth` levels left. -/
def list2Config : Nat → List (Py N) → Cf N → Except Err (Cf N)
  | 0, _, _ => .error .tooDeep
  | n + 1, its, c => convItems (list2Config n) its c

/-- `list2conf` (/repo/python/flame/modconfig.cpp:150-157). -/
def list2conf : Py N → Except Err (Cf N)
  | .list l => list2Config 4 l (.mk [] [])
  | _ => .error .notList

mutual
/-- `confval` (/repo/python/flame/modconfig.cpp:98-128). -/
def cvPy : CV N → Py N
  | .num x => .num x
  | .str s => .str (cstr s)
  | .vec xs => .arr [xs.length] xs
  | .cfgs l => .list (cfsPy l)
/-- `conf2dict` (/repo/python/flame/modconfig.cpp:132-148). -/
def cfPy : Cf N → Py N
  | .mk own _ => .list (ownPy own)
/-- The loop of `conf2dict` (/repo/python/flame/modconfig.cpp:138-145). -/
def ownPy : List (Name × CV N) → List (Py N)
  | [] => []
  | (k, v) :: m => .tuple [.str (cstr k), cvPy v] :: ownPy m
/-- The loop for a list of configurations (/repo/python/flame/modconfig.cpp:122-125). -/
def cfsPy : List (Cf N) → List (Py N)
  | [] => []
  | c :: l => cfPy c :: cfsPy l
end

end Flame.Python
