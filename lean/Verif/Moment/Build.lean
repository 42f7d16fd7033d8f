import Verif.Moment.Model

/-!
# Construction of moment states and elements

The constructor of `MomentState`, the constructors of the element types and `registerMoment`
(/repo/src/moment.cpp:67-197, 549-559, 777, 814, 828, 923-930, 1464-1495).
-/

namespace Flame.Moment

open Flame.Mach (Cls St Err World WOp Out)
open Flame.Linear (LVal LCfg getNum getNumD getVec)

open Classical in
/-- `(size_t)` of a double (/repo/src/moment.cpp:84); out of range it is undefined behaviour. -/
noncomputable def toSize (x : ℝ) : Option Nat := if -1 < x ∧ x < 2 ^ 64 then some ⌊x⌋.toNat else none

/-- The reference particle before its charge is set (/repo/src/moment.cpp:69, 92-95 and /repo/src/flame/moment.h:35-43). -/
noncomputable def newRef (c : LCfg) (Z Q : ℝ) : Particle :=
  Particle.recalc
    { IonZ := Z, IonQ := Q, IonEs := getNumD c "IonEs" 0, IonW := 0, gamma := 0, beta := 0, bg := 0,
      SampleFreq := getNumD c "SampleFreq" 80500000, SampleLambda := 0, SampleIonK := 0, phis := 0,
      IonEk := getNumD c "IonEk" 0 }

/-- One charge state with its moments, number `num` of the configuration (/repo/src/moment.cpp:153-176). -/
noncomputable def newCharge (c : LCfg) (ref : Particle) (num : Nat) (Z Q : ℝ) : Except Err (Particle × Vec × Mat) :=
  match loadStorage 7 c (getStrD c "vector_variable" "moment0" ++ toString num) with
  | .error e => .error e
  | .ok v =>
    match loadStorage 49 c (getStrD c "matrix_variable" "initial" ++ toString num) with
    | .error e => .error e
    | .ok S =>
      let p := { ref with IonZ := Z, IonQ := Q, phis := vecOf v 4, IonEk := ref.IonEk + vecOf v 5 * MeVtoeV }
      .ok (p.recalc, vecOf v, matOf S)

/-- A state of the given charge states (/repo/src/moment.cpp:72-74, 158-159, 194-196); `pos` is 0
(/repo/src/base.cpp:22-27). -/
noncomputable def stateOf (ref : Particle) (l : List (Particle × Vec × Mat)) : MSt :=
  MSt.calcRms
    { pos := 0, ref := ref, real := l.map (fun (q : Particle × Vec × Mat) => q.1),
      moment0 := l.map (fun (q : Particle × Vec × Mat) => q.2.1),
      moment1 := l.map (fun (q : Particle × Vec × Mat) => q.2.2), transmat := l.map (fun _ => 1), moment0_env := 0,
      moment0_rms := 0, moment1_env := 1, last_caviphi0 := 0 }

/-- A list of charge states: from number `num` on (/repo/src/moment.cpp:143-177). -/
noncomputable def newCharges (c : LCfg) (ref : Particle) : Nat → List (ℝ × ℝ) → Except Err (List (Particle × Vec × Mat))
  | _, [] => .ok []
  | num, (Z, Q) :: l =>
    match newCharge c ref num Z Q with
    | .error e => .error e
    | .ok q =>
      match newCharges c ref (num + 1) l with
      | .error e => .error e
      | .ok r => .ok (q :: r)

/-- `tryGet<double>` (/repo/src/flame/config.h:150-160). -/
def optNum (c : LCfg) (k : String) : Option ℝ :=
  match getNum c k with
  | .ok x => some x
  | .error _ => none

/-- The charge states kept: all of them or the selected one (/repo/src/moment.cpp:133-141). -/
def chosen {α : Type} (cstate : Option Nat) (l : List α) : List α :=
  match cstate with
  | none => l
  | some i => (l.drop i).take 1

/-- The part of the constructor for a configuration with a list of charge states (/repo/src/moment.cpp:104-123, 133-141,
147-177). -/
noncomputable def newMany (c : LCfg) (cstate : Option Nat) (ics : List ℝ) : Except Err MSt :=
  if ics = [] then .error .invalidArg
  else if ics.length ≤ cstate.getD 0 then .error .invalidArg
  else
    match getVec c "NCharge" with
    | .error e => .error e
    | .ok nchg =>
      if nchg.length ≠ ics.length then .error .invalidArg
      else
        let ref := newRef c (getNumD c "IonZ" (ics.headD 0)) (getNumD c "IonQ" (nchg.headD 0))
        match newCharges c ref (cstate.getD 0) (chosen cstate (ics.zip nchg)) with
        | .error e => .error e
        | .ok l => .ok (stateOf ref l)

/-- The part of the constructor for a configuration without a list of charge states (/repo/src/moment.cpp:97-102, 130-131,
178-192).  If there is no suitable centroid, `ublas` leaves zeros; if there is no suitable covariance, it leaves memory
as it is, `junk`. -/
noncomputable def newSingle (junk : Mat) (c : LCfg) : MSt :=
  let ref := newRef c (getNumD c "IonZ" 0) (getNumD c "IonQ" 1)
  let v := match loadStorage 7 c (getStrD c "vector_variable" "moment0") with
    | .ok v => vecOf v
    | .error _ => 0
  let S := match loadStorage 49 c (getStrD c "matrix_variable" "initial") with
    | .ok S => matOf S
    | .error _ => junk
  stateOf ref [(ref, v, S)]

/-- `MomentState::MomentState` (/repo/src/moment.cpp:67-197). -/
noncomputable def newState (junk : Mat) (c : LCfg) : Out MSt :=
  match toSize ((optNum c "cstate").getD 0) with
  | none => .ub
  | some i =>
    match getVec c "IonChargeStates" with
    | .error _ => if (optNum c "cstate").isSome then .err .invalidArg else .ok (newSingle junk c)
    | .ok ics =>
      match newMany c ((optNum c "cstate").map (fun _ => i)) ics with
      | .error e => .err e
      | .ok s => .ok s

/-- The constructors of the elements (/repo/src/moment.cpp:549-559, 777, 814, 828, 871, 923-930 and
/repo/src/base.cpp:56-62).  Undefined behaviour of the constructor of the initial state of a source is represented by the
error `logic`, which has no other source here. -/
noncomputable def build (env : Env) (junk : Mat) (t : MType) (c : LCfg) : Except Err MDat :=
  let d : MDat :=
    { conf := c, length := getNumD c "L" 0, dx := getNumD c "dx" 0 * MtoMM, dy := getNumD c "dy" 0 * MtoMM,
      pitch := getNumD c "pitch" 0, yaw := getNumD c "yaw" 0, roll := getNumD c "roll" 0,
      skipcache := @decide (getNumD c "skipcache" 0 ≠ 0) (Classical.propDecidable _), fitMode := 0, istate := none,
      refIn := none, refOut := env.junk, realIn := [], realOut := [], transfer := [] }
  match t with
  | .source =>
    match newState junk c with
    | .ub => .error .logic
    | .err e => .error e
    | .ok s => .ok { d with istate := some s }
  | .marker => .ok { d with length := 0 }
  | .bpm => .ok { d with length := 0 }
  | .orbtrim => .ok { d with length := 0 }
  | .sbend =>
    match getFlag env c "HdipoleFitMode" 1 with
    | .error e => .error e
    | .ok n => if n = 0 ∨ n = 1 then .ok { d with fitMode := n } else .error .runtime
  | _ => .ok d

/-- Position of a type in `registerMoment`; the identity of its class. -/
def MType.index : MType → Nat
  | .source => 1
  | .marker => 2
  | .bpm => 3
  | .drift => 4
  | .orbtrim => 5
  | .sbend => 6
  | .quadrupole => 7
  | .sextupole => 8
  | .solenoid => 9
  | .edipole => 12
  | .equad => 13
  | .tmatrix => 14

/-- The classes of the moment simulation (/repo/src/moment.cpp:771-1460). -/
noncomputable def cls (env : Env) (junk : Mat) (base : Nat) (t : MType) : Cls LCfg MDat MSt where
  id := base + t.index
  typeName := t.name
  build := build env junk t
  assign := assign
  advance := advance env t

/-- `registerMoment` (/repo/src/moment.cpp:1464-1495).  The classes of the RF cavity and the stripper are parameters. -/
noncomputable def registry (env : Env) (junk : Mat) (base : Nat) (cavity stripper : Cls LCfg MDat MSt) :
    World LCfg MDat MSt :=
  WOp.runAll World.empty
    [.state "MomentMatrix" base,
     .element "MomentMatrix" "source" (cls env junk base .source),
     .element "MomentMatrix" "marker" (cls env junk base .marker),
     .element "MomentMatrix" "bpm" (cls env junk base .bpm),
     .element "MomentMatrix" "drift" (cls env junk base .drift),
     .element "MomentMatrix" "orbtrim" (cls env junk base .orbtrim),
     .element "MomentMatrix" "sbend" (cls env junk base .sbend),
     .element "MomentMatrix" "quadrupole" (cls env junk base .quadrupole),
     .element "MomentMatrix" "sextupole" (cls env junk base .sextupole),
     .element "MomentMatrix" "solenoid" (cls env junk base .solenoid),
     .element "MomentMatrix" "rfcavity" cavity,
     .element "MomentMatrix" "stripper" stripper,
     .element "MomentMatrix" "edipole" (cls env junk base .edipole),
     .element "MomentMatrix" "equad" (cls env junk base .equad),
     .element "MomentMatrix" "tmatrix" (cls env junk base .tmatrix)]

end Flame.Moment
