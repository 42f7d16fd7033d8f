import Verif.Machine.Spec
import Mathlib.Data.Matrix.Mul
import Mathlib.Analysis.SpecialFunctions.Trigonometric.Basic

/-!
# The linear simulations "Vector" and "TransferMatrix"

Model of /repo/src/linear.cpp and /repo/src/flame/linear.h on top of the machine model (`Verif/Machine`).  Doubles are
real numbers.
-/

namespace Flame.Linear

open Flame.Mach (Cls St Err World WOp)

/-- 6x6 matrices, the transfer matrices (/repo/src/flame/linear.h:41-43). -/
abbrev Mat := Matrix (Fin 6) (Fin 6) ℝ

/-- Vectors (/repo/src/flame/state/vector.h:25-31). -/
abbrev Vec := Fin 6 → ℝ

/-- Values of a configuration (/repo/src/flame/config.h:70-75) as far as they matter here. -/
inductive LVal
  | num (x : ℝ)
  | vec (xs : List ℝ)
  | str (x : String)
  | other

/-- Configurations by their lookups (`Verif/Config`). -/
abbrev LCfg := String → Option LVal

/-- `get<double>(name)` (/repo/src/flame/config.h:121-129): a wrong type is a `key_error` too. -/
def getNum (c : LCfg) (k : String) : Except Err ℝ :=
  match c k with
  | some (.num x) => .ok x
  | _ => .error .keyError

/-- `get<double>(name, def)` (/repo/src/flame/config.h:139-148). -/
def getNumD (c : LCfg) (k : String) (d : ℝ) : ℝ :=
  match c k with
  | some (.num x) => x
  | _ => d

/-- `get<std::vector<double> >(name)` (/repo/src/flame/config.h:121-129). -/
def getVec (c : LCfg) (k : String) : Except Err (List ℝ) :=
  match c k with
  | some (.vec xs) => .ok xs
  | _ => .error .keyError

/-- `MtoMM` (/repo/src/linear.cpp:19). -/
noncomputable def MtoMM : ℝ := 1000

/-- `std::copy(I.begin(), I.end(), data.begin())` into a vector. -/
def copyVec (xs : List ℝ) (v : Vec) : Vec := fun i => (xs[(i : Nat)]?).getD (v i)

/-- `std::copy(I.begin(), I.end(), data.begin())` into the row-major storage of a matrix. -/
def copyMat (xs : List ℝ) (M : Mat) : Mat := fun i j => (xs[6 * (i : Nat) + (j : Nat)]?).getD (M i j)

/-- `VectorState::VectorState` (/repo/src/linear.cpp:74-86): the initial coordinates. -/
def initVec (c : LCfg) : Except Err Vec :=
  match getVec c "initial" with
  | .ok I => if 6 < I.length then .error .invalidArg else .ok (copyVec I 0)
  | .error .keyError => .ok 0
  | .error .badCast => .ok 0
  | .error e => .error e

/-- `MatrixState::MatrixState` (/repo/src/linear.cpp:22-36): the initial matrix. -/
def initMat (c : LCfg) : Except Err Mat :=
  match getVec c "initial" with
  | .ok I => if 36 < I.length then .error .invalidArg else .ok (copyMat I 1)
  | .error .keyError => .ok 1
  | .error .badCast => .error .invalidArg
  | .error e => .error e

/-- The two states: how a transfer matrix acts (`prod(transfer, s.state)`, /repo/src/flame/linear.h:57) and the
constructor. -/
structure Kind (σ : Type) where
  prod : Mat → σ → σ
  init : LCfg → Except Err σ

/-- `VectorState`. -/
def vector : Kind Vec := ⟨fun M v => M.mulVec v, initVec⟩

/-- `MatrixState`. -/
def matrix : Kind Mat := ⟨fun M A => M * A, initMat⟩

/-- Fields of the states: `pos` (/repo/src/flame/base.h:37) and `state`. -/
structure LSt (σ : Type) where
  pos : ℝ
  state : σ

/-- Assignment to one entry. -/
def setAt (M : Mat) (i j : Fin 6) (v : ℝ) : Mat := fun a b => if a = i ∧ b = j then v else M a b

/-- `Get2by2Matrix` (/repo/src/linear.cpp:125-166) for the rows and columns `i`, `j` = `ind`, `ind+1`. -/
noncomputable def get2by2 (L K : ℝ) (i j : Fin 6) (M : Mat) : Mat :=
  if 0 < K then
    let sqrtK := Real.sqrt K
    let psi := sqrtK * L
    let cs := Real.cos psi
    let sn := Real.sin psi
    let M := setAt (setAt M j j cs) i i cs
    let M := setAt M i j (if sqrtK ≠ 0 then sn / sqrtK else L)
    setAt M j i (if sqrtK ≠ 0 then -sqrtK * sn else 0)
  else
    let sqrtK := Real.sqrt (-K)
    let psi := sqrtK * L
    let cs := Real.cosh psi
    let sn := Real.sinh psi
    let M := setAt (setAt M j j cs) i i cs
    let M := setAt M i j (if sqrtK ≠ 0 then sn / sqrtK else L)
    setAt M j i (if sqrtK ≠ 0 then sqrtK * sn else 0)

/-- `ElementDrift` (/repo/src/linear.cpp:217-235); `L` in mm. -/
def driftT (L : ℝ) : Mat := setAt (setAt 1 0 1 L) 2 3 L

/-- `ElementSBend` (/repo/src/linear.cpp:238-263); `L` in mm, `K` in 1/mm^2.  For `phi = 0` the radius is infinite and the
quotient 0, as here.  For `L = 0` the code gets NaN, which is not represented: no statement is made for it. -/
noncomputable def sbendT (L phi K : ℝ) : Mat :=
  let rho := L / phi
  let Kx := K + 1 / (rho * rho)
  let Ky := -K
  get2by2 L Ky 2 3 (get2by2 L Kx 0 1 1)

/-- `ElementQuad` (/repo/src/linear.cpp:266-289); `L` in mm, `K` in 1/mm^2. -/
noncomputable def quadT (L K : ℝ) : Mat := get2by2 L (-K) 2 3 (get2by2 L K 0 1 1)

/-- `ElementSolenoid` (/repo/src/linear.cpp:292-347); `L` in mm, `K` in 1/mm. -/
noncomputable def solenoidT (L K : ℝ) : Mat :=
  let C := Real.cos (K * L)
  let S := Real.sin (K * L)
  let M : Mat := 1
  let M := setAt (setAt (setAt (setAt M 3 3 (C * C)) 2 2 (C * C)) 1 1 (C * C)) 0 0 (C * C)
  let M := setAt M 0 1 (if K ≠ 0 then S * C / K else L)
  let M := setAt M 0 2 (S * C)
  let M := setAt M 0 3 (if K ≠ 0 then S * S / K else 0)
  let M := setAt M 1 0 (-K * S * C)
  let M := setAt M 1 2 (-K * (S * S))
  let M := setAt M 1 3 (S * C)
  let M := setAt M 2 0 (-S * C)
  let M := setAt M 2 1 (if K ≠ 0 then -(S * S) / K else 0)
  let M := setAt M 2 3 (if K ≠ 0 then S * C / K else L)
  let M := setAt M 3 0 (K * (S * S))
  let M := setAt M 3 1 (-S * C)
  setAt M 3 2 (-K * S * C)

/-- `ElementGeneric` (/repo/src/linear.cpp:350-365). -/
def genericT (c : LCfg) : Except Err Mat :=
  match getVec c "transfer" with
  | .error e => .error e
  | .ok I => if 36 < I.length then .error .invalidArg else .ok (copyMat I 1)

/-- Fields of an element: `length` (/repo/src/flame/base.h:199, /repo/src/base.cpp:59), `transfer`, and `istate` of a
source. -/
structure LDat (σ : Type) where
  length : ℝ
  transfer : Mat
  istate : Option σ

/-- The element types registered for both simulations (/repo/src/linear.cpp:369-394). -/
inductive LType
  | source | marker | drift | sbend | quadrupole | solenoid | generic
  deriving DecidableEq, Repr

/-- `type_name()`. -/
def LType.name : LType → String
  | .source => "source"
  | .marker => "marker"
  | .drift => "drift"
  | .sbend => "sbend"
  | .quadrupole => "quadrupole"
  | .solenoid => "solenoid"
  | .generic => "generic"

/-- The transfer matrix computed by the constructors; identity for source and marker (/repo/src/linear.cpp:169-365,
/repo/src/flame/linear.h:23-26). -/
noncomputable def transferOf (t : LType) (c : LCfg) : Except Err Mat :=
  let L := getNumD c "L" 0 * MtoMM
  match t with
  | .source => .ok 1
  | .marker => .ok 1
  | .drift => .ok (driftT L)
  | .sbend =>
    match getNum c "phi" with
    | .error e => .error e
    | .ok phi => .ok (sbendT L phi (getNumD c "K" 0 / (MtoMM * MtoMM)))
  | .quadrupole => .ok (quadT L (getNumD c "K" 0 / (MtoMM * MtoMM)))
  | .solenoid => .ok (solenoidT L (getNumD c "K" 0 / MtoMM))
  | .generic => genericT c

/-- Constructor of the subclass part. -/
noncomputable def build {σ : Type} (k : Kind σ) (t : LType) (c : LCfg) : Except Err (LDat σ) :=
  match transferOf t c with
  | .error e => .error e
  | .ok M =>
    if t = .source then
      match k.init c with
      | .error e => .error e
      | .ok s => .ok ⟨getNumD c "L" 0, M, some s⟩
    else .ok ⟨getNumD c "L" 0, M, none⟩

/-- `LinearElementBase::advance` (/repo/src/flame/linear.h:29-33, 53-58) and `ElementSource::advance`
(/repo/src/linear.cpp:177-182), which assigns `istate` with its `pos` of 0. -/
def advance {σ : Type} (k : Kind σ) (d : LDat σ) (s : St (LSt σ)) : LDat σ × St (LSt σ) × Option Err :=
  match d.istate with
  | some i => (d, { s with payload := ⟨0, i⟩ }, none)
  | none => (d, { s with payload := ⟨s.payload.pos + d.length, k.prod d.transfer s.payload.state⟩ }, none)

/-- `assign` of the elements (/repo/src/flame/linear.h:45-50, /repo/src/base.cpp:74-80): `istate` is not copied. -/
def assign {σ : Type} (old new : LDat σ) : LDat σ := ⟨new.length, new.transfer, old.istate⟩

/-- The element classes; `base` keeps the dynamic types of the two simulations apart. -/
noncomputable def cls {σ : Type} (k : Kind σ) (base : Nat) (t : LType) : Cls LCfg (LDat σ) (LSt σ) where
  id := base + (match t with
    | .source => 0 | .marker => 1 | .drift => 2 | .sbend => 3 | .quadrupole => 4 | .solenoid => 5 | .generic => 6)
  typeName := t.name
  build := build k t
  assign := assign
  advance := advance k

/-- `registerLinear` (/repo/src/linear.cpp:369-394), the part for one of the two simulation types. -/
noncomputable def registry {σ : Type} (k : Kind σ) (base : Nat) (sim : String) : World LCfg (LDat σ) (LSt σ) :=
  WOp.runAll World.empty
    [.state sim base,
     .element sim "source" (cls k base .source),
     .element sim "marker" (cls k base .marker),
     .element sim "drift" (cls k base .drift),
     .element sim "sbend" (cls k base .sbend),
     .element sim "quadrupole" (cls k base .quadrupole),
     .element sim "solenoid" (cls k base .solenoid),
     .element sim "generic" (cls k base .generic)]

end Flame.Linear
