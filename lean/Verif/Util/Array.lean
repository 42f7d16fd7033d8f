import Verif.Util.NdIndex

/-!
# Array attributes of a state in Python

Model of `StateBase::ArrayInfo` (/repo/src/flame/base.h:51-99) and of reading and writing attributes
(/repo/python/flame/modstate.cpp:66-258).  Memory is a map from addresses to values; the entries are
8 bytes wide and arrays are assumed not to overlap partially.  Addresses and strides are integers
because numpy strides may be negative.
-/

namespace Flame.Util

/-- Array part of `StateBase::ArrayInfo` (/repo/src/flame/base.h:51-72); `ndim` is the length of the
lists. -/
structure Info where
  ptr : Int
  dim : List Nat
  stride : List Int
  deriving DecidableEq, Repr

/-- Offset of an index (/repo/src/flame/base.h:86-90). -/
def offset : List Int → List Nat → Int
  | s :: ss, d :: ds => offset ss ds + d * s
  | _, _ => 0

/-- `ArrayInfo::raw` (/repo/src/flame/base.h:84-92). -/
def Info.raw (a : Info) (d : List Nat) : Int := a.ptr + offset a.stride d

/-- `ArrayInfo::inbounds` (/repo/src/flame/base.h:74-82). -/
def Info.inbounds (a : Info) (d : List Nat) : Bool := (List.zipWith (fun i l => decide (i < l)) d a.dim).all id

/-- Memory of a process, in cells of one array entry. -/
abbrev Mem (V : Type) := Int → V

/-- `*dest = value`. -/
def Mem.put {V : Type} (m : Mem V) (p : Int) (v : V) : Mem V := fun q => if q = p then v else m q

/-- A numpy array: its data and description. -/
structure PyArr (V : Type) where
  info : Info
  mem : Mem V

/-- The entry at an index. -/
def PyArr.entry {V : Type} (a : PyArr V) (idx : List Nat) : V := a.mem (a.info.raw idx)

/-- Strides of an array made by `PyArray_SimpleNew`: row major, entries of 8 bytes. -/
def cStrides : List Nat → List Int
  | [] => []
  | _ :: ds => (8 * (ds.prod : Nat) : Int) :: cStrides ds

/-- Reading an array attribute (/repo/python/flame/modstate.cpp:91-131).  `junk` is the content of the
newly allocated array. -/
def getArr {V : Type} (m : Mem V) (info : Info) (junk : Mem V) : PyArr V :=
  let pyinfo : Info := ⟨0, info.dim, cStrides info.dim⟩
  ⟨pyinfo, (visits info.dim).foldl (fun pm idx => pm.put (pyinfo.raw idx) (m (info.raw idx))) junk⟩

/-- The additional copy for one and two dimensions (/repo/python/flame/modstate.cpp:233-254). -/
def setExtra {V : Type} (m : Mem V) (info : Info) (val : PyArr V) : Mem V :=
  match info.dim with
  | [n] => (List.range n).foldl (fun m i => m.put (info.raw [i]) (val.entry [i])) m
  | [n, k] => (List.range n).foldl (fun m i =>
      (List.range k).foldl (fun m j => m.put (info.raw [i, j]) (val.entry [i, j])) m) m
  | _ => m

/-- Writing an array attribute (/repo/python/flame/modstate.cpp:186-256) after `PyArray_FromObject` has
turned the value into an array of the right type: `none` is the `ValueError` of lines 200-207. -/
def setArr {V : Type} (m : Mem V) (info : Info) (val : PyArr V) : Option (Mem V) :=
  if info.dim.length ≠ val.info.dim.length then none
  else if info.dim ≠ val.info.dim then none
  else some (setExtra ((visits info.dim).foldl (fun m idx => m.put (info.raw idx) (val.entry idx)) m) info val)

/-- Python values given for a scalar: float, integer, anything else, or nothing (`del state.attr`). -/
inductive PyVal (F : Type)
  | float (x : F)
  | int (n : Int)
  | other
  | deleted

/-- Result of writing a scalar: stored value and whether a Python error was set, or undefined
behaviour. -/
inductive SetRes (V : Type)
  | done (v : V) (error : Bool)
  | ub
  deriving DecidableEq

/-- Writing a `double` scalar (/repo/python/flame/modstate.cpp:155-165, 182).  `ofInt` is
`PyLong_AsDouble` (`none`: overflow, reported after storing -1).  `PyFloat_Check` on the null pointer of
`del` is undefined. -/
def setDouble {F : Type} (ofInt : Int → Option F) (minusOne : F) (old : F) : PyVal F → SetRes F
  | .float x => .done x false
  | .int n =>
    match ofInt n with
    | some x => .done x false
    | none => .done minusOne true
  | .other => .done old true
  | .deleted => .ub

/-- Writing a `size_t` scalar (/repo/python/flame/modstate.cpp:167-177, 182), 64 bits.  `trunc` is the
conversion from `double` (`none`: not representable, undefined).  `PyLong_AsUnsignedLongLong` returns the
largest value together with an error if the integer does not fit. -/
def setSizet {F : Type} (trunc : F → Option Nat) (old : Nat) : PyVal F → SetRes Nat
  | .float x =>
    match trunc x with
    | some n => .done n false
    | none => .ub
  | .int n => if 0 ≤ n ∧ n < 2 ^ 64 then .done n.toNat false else .done (2 ^ 64 - 1) true
  | .other => .done old true
  | .deleted => .ub

end Flame.Util
