import Verif.Machine.Model
import Verif.Arrays.Model
import Verif.Vaccel.Setting
import Verif.Vaccel.Link

/-!
# Measurement and orbit records of the virtual accelerator

Model of /repo/vaccel/flamemeasure.cpp and /repo/vaccel/flameorbit.cpp with `Sim::get_measure` (/repo/vaccel/flamedev.cpp) and
the simulation of `Sim::run` (/repo/vaccel/flame.cpp).  Records are initialised, settings changed and simulations run one
after the other: all but the initialisation happens under the lock of the `Sim` (C46), and records are initialised before the
threads of an IOC start.  One `Sim`.  Doubles are real numbers.
-/

namespace Flame.Vaccel

open Flame.Mach
open Flame.Arrays (Got AInfo AType Cell)
open Flame.Util (Mem)

variable {C X S : Type}

/-- How states present their parameters: `getArray`, and the memory of a state object. -/
structure Params (S : Type) where
  get : S → Nat → Got
  mem : S → Mem Cell

/-- `Sim` (/repo/vaccel/flame.h:46-81) with its `Machine`.  An observer is its number; `seen` holds the `last` of each
(/repo/vaccel/flame.h:36-44).  `measures` maps element indices to observers. -/
structure Sim (C X S : Type) where
  name : String
  m : Machine C X S
  measures : Nat → Option Nat
  seen : List (Option (St S))
  valid : Bool

/-- The constructor (/repo/vaccel/flame.cpp:12-28) and `flamePrepare` (/repo/vaccel/flame.cpp:96-123). -/
def Sim.fresh (name : String) (m : Machine C X S) : Sim C X S := ⟨name, m, fun _ => none, [], false⟩

/-- Result of a call: a value, an exception, a failing assertion or undefined behaviour, an endless loop. -/
inductive Res (α : Type)
  | ok (a : α)
  | thrown
  | broken
  | endless

/-- `Sim::get_measure` (/repo/vaccel/flamedev.cpp:26-38). -/
def Sim.getMeasure (q : Sim C X S) (index : Nat) : Res (Sim C X S × Nat) :=
  match q.measures index with
  | some o => .ok (q, o)
  | none =>
    match q.m.elems[index]? with
    | none => .thrown
    | some e =>
      if e.obs.isSome then .broken
      else
        let o := q.seen.length
        .ok ({ q with
          m := { q.m with elems := q.m.elems.set index { e with obs := some o } }
          measures := fun i => if i = index then some o else q.measures i
          seen := q.seen ++ [none] }, o)

/-- The search for the parameter (/repo/vaccel/flamemeasure.cpp:77-97, flameorbit.cpp:71-91) from `idx` on, in a state made
from an empty configuration.  After `fuel` rounds the index, an `unsigned`, would wrap. -/
def paramIndex (get : Nat → Got) (param : String) (ndim : Nat) : (fuel : Nat) → (idx : Nat) → Res Nat
  | 0, _ => .endless
  | fuel + 1, idx =>
    match get idx with
    | .ub => .broken
    | .no => .thrown
    | .yes a =>
      if a.name = param then
        if a.type ≠ .double then .thrown
        else if a.arr.dim.length ≠ ndim then .thrown
        else .ok idx
      else paramIndex get param ndim fuel (idx + 1)

/-- `allocState(empty)` and the search. -/
def lookupParam (v : Params S) (alloc : Except Err S) (param : String) (ndim : Nat) : Res Nat :=
  match alloc with
  | .error _ => .thrown
  | .ok s => paramIndex (v.get s) param ndim (2 ^ 32) 0

/-- `SimDevMeasScalar` (/repo/vaccel/flamemeasure.cpp:20-29). -/
structure Meas where
  elem : Nat
  param : String
  paramIndex : Nat
  dims : List Nat
  measure : Nat
  deriving DecidableEq

/-- `SimDevOrbit` (/repo/vaccel/flameorbit.cpp:12-21); the iterators `start` and `end` stand for the elements between them. -/
structure Orbit where
  elems : List Nat
  param : String
  paramIndex : Nat
  dims : List Nat
  deriving DecidableEq

/-- The body of `measure_init_common` (/repo/vaccel/flamemeasure.cpp:48-99) after the pattern has matched; the link may be
refused after the observer has been installed. -/
def measureInit (v : Params S) (alloc : Except Err S) (q : Sim C X S) (g : MeasGroups) : Sim C X S × Res Meas :=
  if String.ofList g.sim ≠ q.name then (q, .thrown)
  else
    match instOf g.inst, dimsOf g.dim0 g.dim1 with
    | some inst, some dims =>
      match q.m.find (String.ofList g.elem) inst with
      | none => (q, .thrown)
      | some pos =>
        match q.m.elems[pos]? with
        | none => (q, .broken)
        | some e =>
          match q.getMeasure e.index with
          | .thrown => (q, .thrown)
          | .broken => (q, .broken)
          | .endless => (q, .endless)
          | .ok (q', o) =>
            match lookupParam v alloc (String.ofList g.param) dims.length with
            | .thrown => (q', .thrown)
            | .broken => (q', .broken)
            | .endless => (q', .endless)
            | .ok idx => (q', .ok ⟨e.index, String.ofList g.param, idx, dims, o⟩)
    | _, _ => (q, .thrown)

/-- The loop over the elements of a type (/repo/vaccel/flameorbit.cpp:62-65). -/
def measureAll (q : Sim C X S) : List Nat → Sim C X S × Res Unit
  | [] => (q, .ok ())
  | pos :: l =>
    match q.m.elems[pos]? with
    | none => (q, .broken)
    | some e =>
      match q.getMeasure e.index with
      | .thrown => (q, .thrown)
      | .broken => (q, .broken)
      | .endless => (q, .endless)
      | .ok (q', _) => measureAll q' l

/-- The body of `orbit_init_common` (/repo/vaccel/flameorbit.cpp:37-93). -/
def orbitInit (v : Params S) (alloc : Except Err S) (q : Sim C X S) (g : OrbitGroups) : Sim C X S × Res Orbit :=
  if String.ofList g.sim ≠ q.name then (q, .thrown)
  else
    match dimsOf g.dim0 g.dim1 with
    | none => (q, .thrown)
    | some dims =>
      let range := q.m.equalRangeType (String.ofList g.type)
      if range = [] then (q, .thrown)
      else
        match measureAll q range with
        | (q', .thrown) => (q', .thrown)
        | (q', .broken) => (q', .broken)
        | (q', .endless) => (q', .endless)
        | (q', .ok ()) =>
          match lookupParam v alloc (String.ofList g.param) dims.length with
          | .thrown => (q', .thrown)
          | .broken => (q', .broken)
          | .endless => (q', .endless)
          | .ok idx => (q', .ok ⟨range, String.ofList g.param, idx, dims⟩)

/-- `VIOCObserver::view` (/repo/vaccel/flamemeasure.cpp:12-18). -/
def viewOne (seen : List (Option (St S))) (o : Nat) (s : St S) : List (Option (St S)) :=
  match seen[o]? with
  | none => seen
  | some none => seen.set o (some s.clone)
  | some (some l) => seen.set o (some (l.assign s))

/-- The calls of observers during a run. -/
def viewAll (seen : List (Option (St S))) : List (Event S) → List (Option (St S))
  | [] => seen
  | .visit _ :: t => viewAll seen t
  | .view o _ s :: t => viewAll (viewOne seen o s) t

/-- The simulation (/repo/vaccel/flame.cpp:54-63): `allocState()` uses an empty configuration
(/repo/src/flame/base.h:264-267), `propagate` goes from element 0 through at most `INT_MAX` elements
(/repo/src/flame/base.h:252).  Time and message are not modelled. -/
def Sim.simulate (alloc : Except Err S) (q : Sim C X S) : Option (Sim C X S) :=
  match alloc with
  | .error _ => some { q with valid := false }
  | .ok s =>
    (propagate q.m.elems ⟨0, false, s⟩ 0 (2 ^ 31 - 1)).map (fun r =>
      { q with m := { q.m with elems := r.elems }, seen := viewAll q.seen r.trace, valid := r.err.isNone })

/-- `prec->val` and whether there is an alarm. -/
structure Reading where
  val : ℝ
  alarm : Bool

/-- What a state kept by an observer gives (/repo/vaccel/flamemeasure.cpp:125-135, flameorbit.cpp:132-142). -/
inductive Fetched
  | value (x : ℝ)
  | nothing
  | ub

/-- Reading a `double` from memory; what is not a double is undefined. -/
def fetch (v : Params S) (last : Option (St S)) (paramIndex : Nat) (dims : List Nat) : Fetched :=
  match last with
  | none => .nothing
  | some s =>
    match v.get s.payload paramIndex with
    | .ub => .ub
    | .no => .nothing
    | .yes a =>
      if dims.length = a.arr.dim.length ∧ a.arr.inbounds dims = true then
        match v.mem s.payload (a.arr.raw dims) with
        | .num x => .value x
        | .nat _ => .ub
      else .nothing

/-- `measure_read_ai` (/repo/vaccel/flamemeasure.cpp:113-152).  `none`: undefined behaviour. -/
noncomputable def measureRead (v : Params S) (q : Sim C X S) (p : Meas) (r : Rec ℝ) : Option Reading :=
  match q.seen[p.measure]? with
  | none => none
  | some last =>
    match fetch v last p.paramIndex p.dims with
    | .ub => none
    | .value x => some ⟨r.toVal x, !q.valid⟩
    | .nothing => some ⟨r.toVal 0, true⟩

/-- `pbuf`, `nord` and the alarm. -/
structure Wave where
  buf : List ℝ
  nord : Nat
  alarm : Bool

/-- The loop of `orbit_read_wf` (/repo/vaccel/flameorbit.cpp:119-143) at entry `i`; `buf` has `nelm` entries. -/
def orbitLoop (v : Params S) (q : Sim C X S) (paramIndex : Nat) (dims : List Nat) :
    List Nat → (i : Nat) → (buf : List ℝ) → (valid : Bool) → Option Wave
  | [], i, buf, valid => some ⟨buf, i, !valid⟩
  | pos :: l, i, buf, valid =>
    match q.m.elems[pos]? with
    | none => none
    | some e =>
      if i = buf.length then some ⟨buf, i, true⟩
      else
        match (q.measures e.index).bind (fun o => q.seen[o]?) with
        | none => none
        | some last =>
          match fetch v last paramIndex dims with
          | .ub => none
          | .value x => orbitLoop v q paramIndex dims l (i + 1) (buf.set i x) valid
          | .nothing => orbitLoop v q paramIndex dims l (i + 1) buf false

/-- `orbit_read_wf` (/repo/vaccel/flameorbit.cpp:108-152). -/
def orbitRead (v : Params S) (q : Sim C X S) (p : Orbit) (buf : List ℝ) : Option Wave :=
  orbitLoop v q p.paramIndex p.dims p.elems 0 buf q.valid

/-- The loop of `orbit_index_wf` (/repo/vaccel/flameorbit.cpp:165-174). -/
def indexLoop (q : Sim C X S) : List Nat → (i : Nat) → (buf : List ℝ) → Option Wave
  | [], i, buf => some ⟨buf, i, false⟩
  | pos :: l, i, buf =>
    if i = buf.length then some ⟨buf, i, true⟩
    else
      match q.m.elems[pos]? with
      | none => none
      | some e => indexLoop q l (i + 1) (buf.set i (e.index : ℝ))

/-- `orbit_index_wf` (/repo/vaccel/flameorbit.cpp:156-180). -/
def indexRead (q : Sim C X S) (p : Orbit) (buf : List ℝ) : Option Wave := indexLoop q p.elems 0 buf

/-! ## histories -/

/-- What happens to an IOC: a record is initialised with a link, the configuration of an element changes
(`setting_change_ao`, /repo/vaccel/flameset.cpp:98-104), a simulation runs. -/
inductive Op (C : Type)
  | measure (g : MeasGroups)
  | orbit (g : OrbitGroups)
  | change (idx : Nat) (c : C)
  | simulate

/-- An IOC: the simulation and the records that are connected, in the order of their initialisation. -/
structure Ioc (C X S : Type) where
  sim : Sim C X S
  meas : List Meas
  orbits : List Orbit

/-- What the IOC works with: the configurations, the registry, the parameters of states, the state from an empty
configuration. -/
structure World (C X S : Type) where
  cv : CView C
  w : Mach.World C X S
  v : Params S
  alloc : Except Err S

/-- One of these; `none`: a failing assertion, undefined behaviour, an endless loop.  A link that is refused leaves the record
without effect. -/
def Ioc.step (W : World C X S) (q : Ioc C X S) : Op C → Option (Ioc C X S)
  | .measure g =>
    match measureInit W.v W.alloc q.sim g with
    | (s, .ok p) => some { q with sim := s, meas := q.meas ++ [p] }
    | (s, .thrown) => some { q with sim := s }
    | _ => none
  | .orbit g =>
    match orbitInit W.v W.alloc q.sim g with
    | (s, .ok p) => some { q with sim := s, orbits := q.orbits ++ [p] }
    | (s, .thrown) => some { q with sim := s }
    | _ => none
  | .change idx c =>
    match q.sim.m.reconfigure W.cv W.w idx c with
    | (_, .ub) => none
    | (m', _) => some { q with sim := { q.sim with m := m' } }
  | .simulate => (q.sim.simulate W.alloc).map (fun s => { q with sim := s })

/-- A history. -/
def Ioc.runs (W : World C X S) : Ioc C X S → List (Op C) → Option (Ioc C X S)
  | q, [] => some q
  | q, o :: l =>
    match q.step W o with
    | none => none
    | some q' => q'.runs W l

end Flame.Vaccel
