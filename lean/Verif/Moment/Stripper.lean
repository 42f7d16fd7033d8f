import Verif.Moment.Build
import Mathlib.Analysis.SpecialFunctions.Pow.Real

/-!
# The charge stripper

`ElementStripper` (/repo/src/chg_stripper.cpp, /repo/src/flame/chg_stripper.h).
-/

namespace Flame.Moment

open Flame.Mach (Cls St Err)
open Flame.Linear (LVal LCfg getNum getNumD getVec)

/-- The parameters read from the configuration (/repo/src/flame/chg_stripper.h:62-74).  They are members of the element,
but set before every use. -/
structure Foil where
  IonZ : ℝ
  IonMass : ℝ
  IonProton : ℝ
  E1Para : ℝ
  lambda : ℝ
  upara : ℝ
  Para : List ℝ
  E0Para : List ℝ

/-- `get<std::vector<double> >(name, def)` (/repo/src/flame/config.h:139-148). -/
def getVecD (c : LCfg) (k : String) (dflt : List ℝ) : List ℝ :=
  match getVec c k with
  | .ok v => v
  | .error _ => dflt

/-- Reading of the parameters (/repo/src/chg_stripper.cpp:79-90) and their defaults
(/repo/src/flame/chg_stripper.h:38-51). -/
noncomputable def foilOf (c : LCfg) : Foil where
  IonZ := getNumD c "Stripper_IonZ" (78 / 238)
  IonMass := getNumD c "Stripper_IonMass" 238
  IonProton := getNumD c "Stripper_IonProton" 92
  E1Para := getNumD c "Stripper_E1Para" (28874 / 10000000)
  lambda := getNumD c "Stripper_lambda" (5574 / 1000)
  upara := getNumD c "Stripper_upara" (26903 / 10000)
  Para := getVecD c "Stripper_Para" [3, 20, 16623000]
  E0Para := getVecD c "Stripper_E0Para" [16348000, 100547 / 100000, -10681 / 100000]

/-- `Gaussian` (/repo/src/chg_stripper.cpp:10-14).  For `d = 0` the code divides by zero. -/
noncomputable def gaussian (x mean d : ℝ) : ℝ :=
  1 / Real.sqrt (2 * Real.pi) / d * Real.exp (-(1 / 2) * ((x - mean) * (x - mean)) / (d * d))

/-- The radicand in `StripperCharge` (/repo/src/chg_stripper.cpp:22, 24-25). -/
noncomputable def stripperRadicand (f : Foil) (beta : ℝ) : ℝ :=
  let q1 := f.IonProton * (1 - Real.exp (-(83275 / 1000) * (beta / f.IonProton ^ (447 / 1000 : ℝ))))
  let y := q1 / f.IonProton
  q1 * (7535 / 100000 + 19 / 100 * y - 2654 / 10000 * (y * y))

/-- `StripperCharge` (/repo/src/chg_stripper.cpp:17-26): mean charge and its standard deviation. -/
noncomputable def stripperCharge (f : Foil) (beta : ℝ) : ℝ × ℝ :=
  let q1 := f.IonProton * (1 - Real.exp (-(83275 / 1000) * (beta / f.IonProton ^ (447 / 1000 : ℝ))))
  let q := q1 * (1 - Real.exp (-(12905 / 1000) + 2124 / 10000 * f.IonProton
    - 122 / 100000 * (f.IonProton * f.IonProton)))
  (q, Real.sqrt (stripperRadicand f beta))

/-- `ChargeStripper` (/repo/src/chg_stripper.cpp:29-37). -/
noncomputable def chargeStripper (f : Foil) (beta : ℝ) (chg : List ℝ) : List ℝ :=
  chg.map (fun z => gaussian (z * f.IonMass) (stripperCharge f beta).1 (stripperCharge f beta).2)

/-- The energy behind the foil (/repo/src/chg_stripper.cpp:49, 121). -/
noncomputable def foilEk (f : Foil) (ek : ℝ) : ℝ := (ek - f.Para.getD 2 0) * f.E0Para.getD 1 0 + f.E0Para.getD 0 0

/-- `Stripper_Propagate_ref` (/repo/src/chg_stripper.cpp:40-52). -/
noncomputable def stripRef (f : Foil) (ref : Particle) : Particle :=
  { ref with IonZ := f.IonZ, IonEk := foilEk f ref.IonEk }.recalc

/-- Mean of a quantity of the particles with the charges as weights (/repo/src/chg_stripper.cpp:107-118).  Without charge
the code divides by zero. -/
noncomputable def recombined (real : List Particle) (q : Particle → ℝ) : ℝ :=
  (real.map (fun p => p.IonQ * q p)).sum / totQ real

/-- The covariance of the recombined beam (/repo/src/chg_stripper.cpp:106-115, 122). -/
noncomputable def recombinedCov (s : MSt) : Mat := fun i j =>
  (List.zipWith (fun p (q : Vec × Mat) =>
    p.IonQ * (q.2 i j + (q.1 i - s.moment0_env i) * (q.1 j - s.moment0_env j)))
    s.real (List.zip s.moment0 s.moment1)).sum / totQ s.real

/-- One turn of the loops that scale row and column `a` (/repo/src/chg_stripper.cpp:130-132, 143-145, 146-147). -/
def growStep (a k : Fin 7) (g : ℝ) (M : Mat) : Mat :=
  let M := setAt M k a (M k a * g)
  setAt M a k (M a k * g)

/-- Growth of the energy spread (/repo/src/chg_stripper.cpp:124-133).  If there is no spread before the foil, the code
divides by zero. -/
noncomputable def growEnergy (f : Foil) (M : Mat) : Mat :=
  let sd := Real.sqrt (1 / 3) * f.Para.getD 1 0 / 100 * f.Para.getD 0 0 * f.E0Para.getD 2 0
  let g := Real.sqrt ((M 5 5 + f.E1Para * f.E1Para + sd * sd) / M 5 5)
  (List.finRange 6).foldl (fun M k => growStep 5 k.castSucc g M) M

/-- Growth of the divergences (/repo/src/chg_stripper.cpp:135-148).  If there is no divergence before the foil, the code
divides by zero. -/
noncomputable def growAngles (f : Foil) (M : Mat) : Mat :=
  let sd := Real.sqrt (f.upara / (f.lambda * f.lambda)) * (1 / 1000)
  let gx := Real.sqrt ((M 1 1 + sd * sd) / M 1 1)
  let gy := Real.sqrt ((M 3 3 + sd * sd) / M 3 3)
  (List.finRange 6).foldl (fun M k => growStep 3 k.castSucc gy (growStep 1 k.castSucc gx M)) M

/-- One of the new charge states (/repo/src/chg_stripper.cpp:170-177).  All fields are set. -/
noncomputable def strippedParticle (ref : Particle) (ek phis : ℝ) (z q : ℝ) : Particle :=
  { Particle.recalc
      { IonZ := z, IonQ := q, IonEs := ref.IonEs, IonW := 0, gamma := 0, beta := 0, bg := 0,
        SampleFreq := ref.SampleFreq, SampleLambda := 0, SampleIonK := 0, phis := 0, IonEk := ek } with
    phis := phis }

/-- The part of `Stripper_GetMat` behind the weights (/repo/src/chg_stripper.cpp:102-183). -/
noncomputable def stripped (f : Foil) (chg weights : List ℝ) (s : MSt) : MSt :=
  let ref := stripRef f s.ref
  let ek := foilEk f (recombined s.real (·.IonEk))
  let phis := recombined s.real (·.phis)
  let S := growAngles f (growEnergy f (recombinedCov s))
  MSt.calcRms
    { s with
      ref := ref
      real := List.zipWith (strippedParticle ref ek phis) chg weights
      moment0 := chg.map (fun _ => s.moment0_env)
      moment1 := chg.map (fun _ => S)
      transmat := chg.map (fun _ => 1) }

open Classical in
/-- `Stripper_GetMat` (/repo/src/chg_stripper.cpp:54-184).  The elements 0, 1, 2 of 'Stripper_Para' and 'Stripper_E0Para'
are read without a check of the size, and with the model "baron" the first charge state; if they are missing, this is
undefined behaviour, represented by the error `logic`.  If the standard deviation of the charges is zero or the root of a
negative number, or a power of a number of protons that is not positive is asked for, the code goes on with weights that are not
numbers; the model stops with the error `logic` as well.  It has no other source here. -/
noncomputable def stripperGetMat (c : LCfg) (s : MSt) : Except Err MSt :=
  match getVec c "IonChargeStates", getVec c "NCharge" with
  | .ok chg, .ok n =>
    let mdl := getStrD c "charge_model" "baron"
    let f := foilOf c
    if mdl = "off" ∧ chg.length ≠ n.length then .error .runtime
    else if mdl ≠ "off" ∧ mdl ≠ "baron" then .error .runtime
    else if f.Para.length < 3 ∨ f.E0Para.length < 3 then .error .logic
    else if mdl = "off" then .ok (stripped f chg n s)
    else
      match s.real with
      | [] => .error .logic
      | p :: _ =>
        if f.IonProton ≤ 0 ∨ stripperRadicand f p.beta ≤ 0 then .error .logic
        else .ok (stripped f chg (chargeStripper f p.beta chg) s)
  | _, _ => .error .keyError

/-- `ElementStripper::advance` (/repo/src/chg_stripper.cpp:186-198). -/
noncomputable def advanceStripper (d : MDat) (s : St MSt) : MDat × St MSt × Option Err :=
  let S := s.payload.recalc.calcRms
  if s.retreat then (d, { s with payload := S }, some .runtime)
  else
    match stripperGetMat d.conf S with
    | .error e => (d, { s with payload := S }, some e)
    | .ok S => (d, { s with payload := S }, none)

/-- The class of the stripper (/repo/src/flame/chg_stripper.h:54-94, /repo/src/moment.cpp:1488).  The constructor is that of
a marker: the one of the base class, and no length. -/
noncomputable def stripperCls (env : Env) (junk : Mat) (base : Nat) : Cls LCfg MDat MSt where
  id := base + 11
  typeName := "stripper"
  build := build env junk .marker
  assign := assign
  advance := advanceStripper

end Flame.Moment
