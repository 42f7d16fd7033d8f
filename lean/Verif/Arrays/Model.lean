import Verif.Util.Array
import Verif.Moment.Model

/-!
# Introspection: `getArray`

Model of `StateBase::getArray` and its overrides.  Addresses are numbers of bytes; where the parts of a state lie is
described by a `Layout`.  `unsigned` indices are natural numbers: an index is reduced only after it has been compared with
everything below, so that the subtractions never wrap.
-/

namespace Flame.Arrays

open Flame.Util (Info Mem)
open Flame.Moment (MSt Particle)

/-- `ArrayInfo::Type` (/repo/src/flame/base.h:57-59). -/
inductive AType
  | double
  | sizet
  deriving DecidableEq, Repr

/-- `StateBase::ArrayInfo` (/repo/src/flame/base.h:51-72).  `arr` holds `ptr`, `ndim`, `dim`, `stride`. -/
structure AInfo where
  name : String
  type : AType
  arr : Info
  deriving DecidableEq, Repr

/-- Outcome of `getArray`: true with the mailbox, false, or undefined behaviour (element 0 of an empty vector). -/
inductive Got
  | yes (a : AInfo)
  | no
  | ub
  deriving DecidableEq, Repr

/-- Where `next_elem` and `pos` of a `StateBase` lie (/repo/src/flame/base.h:36-39). -/
structure BaseLayout where
  nextElem : Int
  pos : Int

/-- A parameter without dimensions. -/
def scalar (name : String) (type : AType) (ptr : Int) : Got := .yes ⟨name, type, ⟨ptr, [], []⟩⟩

/-- `StateBase::getArray` (/repo/src/base.cpp:37-54). -/
def baseArray (L : BaseLayout) : Nat → Got
  | 0 => scalar "next_elem" .sizet L.nextElem
  | 1 => scalar "pos" .double L.pos
  | _ => .no

/-- `MatrixState::getArray` (/repo/src/linear.cpp:59-72); `state` is the address of entry (0,0) of the 6 by 6 matrix. -/
def matrixArray (L : BaseLayout) (state : Int) : Nat → Got
  | 0 => .yes ⟨"state", .double, ⟨state, [6, 6], [8 * 6, 8]⟩⟩
  | n + 1 => baseArray L n

/-- `VectorState::getArray` (/repo/src/linear.cpp:109-120). -/
def vectorArray (L : BaseLayout) (state : Int) : Nat → Got
  | 0 => .yes ⟨"state", .double, ⟨state, [6], [8]⟩⟩
  | n + 1 => baseArray L n

/-- Where the parts of a `MomentState` lie (/repo/src/flame/moment.h:112-123): the first double of each; `szM` and `szV`
are the sizes of a matrix and of a vector object. -/
structure Layout extends BaseLayout where
  env1 : Int
  m1 : Int
  tm : Int
  env0 : Int
  rms : Int
  m0 : Int
  ref : Int
  real : Int
  cavi : Int
  szM : Int
  szV : Int

/-- Size of a `Particle`: twelve doubles (/repo/src/flame/moment.h:22-33). -/
def szP : Int := 96

/-- A member of all particles (for instance /repo/src/moment.cpp:448-456); `off` is its place in `Particle`
(/repo/src/flame/moment.h:22-33). -/
def member (L : Layout) (s : MSt) (name : String) (off : Int) : Got :=
  match s.real with
  | [] => .ub
  | _ => .yes ⟨name, .double, ⟨L.real + off, [s.real.length], [szP]⟩⟩

/-- A vector of matrices (/repo/src/moment.cpp:318-353). -/
def matrices (L : Layout) {α : Type} (name : String) (ptr : Int) : List α → Got
  | [] => .ub
  | l => .yes ⟨name, .double, ⟨ptr, [7, 7, l.length], [8 * 7, 8, L.szM]⟩⟩

/-- A vector of vectors (/repo/src/moment.cpp:370-382). -/
def vectors (L : Layout) {α : Type} (name : String) (ptr : Int) : List α → Got
  | [] => .ub
  | l => .yes ⟨name, .double, ⟨ptr, [7, l.length], [8, L.szV]⟩⟩

/-- `MomentState::getArray` (/repo/src/moment.cpp:306-547). -/
def momentArray (L : Layout) (s : MSt) : Nat → Got
  | 0 => .yes ⟨"moment1_env", .double, ⟨L.env1, [7, 7], [8 * 7, 8]⟩⟩
  | 1 => matrices L "moment1" L.m1 s.moment1
  | 2 => matrices L "transmat" L.tm s.transmat
  | 3 => .yes ⟨"moment0_env", .double, ⟨L.env0, [7], [8]⟩⟩
  | 4 => .yes ⟨"moment0_rms", .double, ⟨L.rms, [7], [8]⟩⟩
  | 5 => vectors L "moment0" L.m0 s.moment0
  | 6 => scalar "ref_IonZ" .double (L.ref + 0)
  | 7 => scalar "ref_IonQ" .double (L.ref + 8)
  | 8 => scalar "ref_IonEs" .double (L.ref + 16)
  | 9 => scalar "ref_IonW" .double (L.ref + 24)
  | 10 => scalar "ref_gamma" .double (L.ref + 32)
  | 11 => scalar "ref_beta" .double (L.ref + 40)
  | 12 => scalar "ref_bg" .double (L.ref + 48)
  | 13 => scalar "ref_SampleFreq" .double (L.ref + 56)
  | 14 => scalar "ref_SampleIonK" .double (L.ref + 72)
  | 15 => scalar "ref_phis" .double (L.ref + 80)
  | 16 => scalar "ref_IonEk" .double (L.ref + 88)
  | 17 => member L s "IonZ" 0
  | 18 => member L s "IonEs" 16
  | 19 => member L s "IonW" 24
  | 20 => member L s "gamma" 32
  | 21 => member L s "beta" 40
  | 22 => member L s "bg" 48
  | 23 => member L s "SampleFreq" 56
  | 24 => member L s "SampleIonK" 72
  | 25 => member L s "phis" 80
  | 26 => member L s "IonEk" 88
  | 27 => member L s "IonQ" 8
  | 28 => scalar "last_caviphi0" .double L.cavi
  | n + 29 => baseArray L.toBaseLayout n

/-! ## attributes in Python -/

/-- What an address holds. -/
inductive Cell
  | num (x : ℝ)
  | nat (n : Nat)

/-- The dictionary of attribute names, as its lookup. -/
abbrev Attrs := String → Option Nat

/-- The loop of `wrapstate` (/repo/python/flame/modstate.cpp:354-377) from index `i` on, for at most `fuel` rounds: `none` if
it has not ended or is undefined.  All types are supported, and none of the arrays has more than three dimensions, so that
nothing is skipped; the test is kept. -/
def wrapFrom (get : Nat → Got) : (fuel : Nat) → (i : Nat) → Attrs → Option Attrs
  | 0, _, _ => none
  | fuel + 1, i, attrs =>
    match get i with
    | .no => some attrs
    | .ub => none
    | .yes a =>
      if a.arr.dim.length > 3 then wrapFrom get fuel (i + 1) attrs
      else wrapFrom get fuel (i + 1) (fun k => if k = a.name then some i else attrs k)

/-- What reading an attribute gives: a scalar, an array, `PyObject_GenericGetAttr`, a Python exception, or undefined
behaviour. -/
inductive PyGot
  | scalar (c : Cell)
  | array (a : Flame.Util.PyArr Cell)
  | generic
  | error
  | ub

/-- `PyState_getattro` (/repo/python/flame/modstate.cpp:66-132). -/
def getattr (attrs : Attrs) (get : Nat → Got) (mem junk : Mem Cell) (name : String) : PyGot :=
  match attrs name with
  | none => .generic
  | some i =>
    match get i with
    | .no => .error
    | .ub => .ub
    | .yes a => if a.arr.dim.length = 0 then .scalar (mem a.arr.ptr) else .array (Flame.Util.getArr mem a.arr junk)

/-- `PyState_setattro` (/repo/python/flame/modstate.cpp:134-258) for arrays, after the conversion of the value to an array of
the right type, and for scalars after the conversion of the value (see `Flame.Util.setDouble`, `Flame.Util.setSizet`).
`none`: a Python exception, undefined behaviour or no such parameter. -/
def setattr (attrs : Attrs) (get : Nat → Got) (mem : Mem Cell) (name : String) (val : Cell ⊕ Flame.Util.PyArr Cell) :
    Option (Mem Cell) :=
  match attrs name with
  | none => none
  | some i =>
    match get i with
    | .yes a =>
      match val with
      | .inl c => if a.arr.dim.length = 0 then some (mem.put a.arr.ptr c) else none
      | .inr v => if a.arr.dim.length = 0 then none else Flame.Util.setArr mem a.arr v
    | _ => none

end Flame.Arrays
