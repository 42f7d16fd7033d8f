import Verif.Linear.Model
import Mathlib.LinearAlgebra.Matrix.NonsingularInverse
import Mathlib.Data.List.Basic

/-!
# The moment simulation "MomentMatrix"

Model of /repo/src/moment.cpp, /repo/src/moment_sup.cpp and /repo/src/flame/moment.h on top of the machine model
(`Verif/Machine`).  Doubles are real numbers.  A quotient by zero is zero here and infinite or NaN in the code: theorems
that depend on a quotient assume its divisor to be non-zero.  The RF cavity is in `Verif/Cavity`, the charge stripper in
`Verif/Moment/Stripper`.
-/

namespace Flame.Moment

open Flame.Mach (Cls St Err World WOp)
open Flame.Linear (LVal LCfg getNum getNumD getVec)

/-- `MomentState::matrix_t` with `maxsize` = 7 (/repo/src/flame/moment.h:90, 103-106). -/
abbrev Mat := Matrix (Fin 7) (Fin 7) ℝ

/-- `MomentState::vector_t` (/repo/src/flame/moment.h:99-101).  The coordinates are `PS_X`, `PS_PX`, `PS_Y`, `PS_PY`,
`PS_S`, `PS_PS` and a seventh one that carries the orbit terms (/repo/src/flame/moment.h:91-94). -/
abbrev Vec := Fin 7 → ℝ

/-- `MtoMM` (/repo/src/flame/constants.h:13). -/
def MtoMM : ℝ := 1000

/-- `MeVtoeV` (/repo/src/flame/constants.h:14). -/
def MeVtoeV : ℝ := 1000000

/-- `C0` (/repo/src/flame/constants.h:25). -/
def C0 : ℝ := 299792458

/-- `Particle` (/repo/src/flame/moment.h:21-33). -/
structure Particle where
  IonZ : ℝ
  IonQ : ℝ
  IonEs : ℝ
  IonW : ℝ
  gamma : ℝ
  beta : ℝ
  bg : ℝ
  SampleFreq : ℝ
  SampleLambda : ℝ
  SampleIonK : ℝ
  phis : ℝ
  IonEk : ℝ

/-- What an element needs from outside: `parse` is `boost::lexical_cast<double>` of a text, `file` the parsed contents of
a curve file (fixed during a history; the modification time in /repo/src/moment_sup.cpp:398 is not modelled), `junk`
stands for the NaN-filled particle of the default constructor (/repo/src/flame/moment.h:35-43) where such a particle is
copied into a state. -/
structure Env where
  parse : String → Option ℝ
  file : String → Except Err LCfg
  junk : Particle

open Classical in
/-- `Particle::recalc` (/repo/src/flame/moment.h:47-54). -/
noncomputable def Particle.recalc (p : Particle) : Particle :=
  let IonW := p.IonEs + p.IonEk
  let gamma := if p.IonEs ≠ 0 then IonW / p.IonEs else 1
  let beta := Real.sqrt (1 - 1 / (gamma * gamma))
  let bg := if beta ≠ 0 then beta * gamma else 1
  let SampleLambda := C0 / p.SampleFreq * MtoMM
  let SampleIonK := 2 * Real.pi / (beta * SampleLambda)
  { p with IonW := IonW, gamma := gamma, beta := beta, bg := bg, SampleLambda := SampleLambda,
           SampleIonK := SampleIonK }

/-- `Particle::Brho` (/repo/src/flame/moment.h:56). -/
noncomputable def Particle.Brho (p : Particle) : ℝ := p.beta * p.IonW / (C0 * p.IonZ)

/-- `operator==` (/repo/src/flame/moment.h:61-67). -/
def Particle.same (l r : Particle) : Prop :=
  l.IonEk = r.IonEk ∧ l.IonEs = r.IonEs ∧ l.IonZ = r.IonZ ∧ l.IonQ = r.IonQ ∧ l.phis = r.phis ∧
    l.SampleFreq = r.SampleFreq

/-- `MomentState` (/repo/src/flame/moment.h:112-123) and `pos` (/repo/src/flame/base.h:37). -/
structure MSt where
  pos : ℝ
  ref : Particle
  real : List Particle
  moment0 : List Vec
  moment1 : List Mat
  transmat : List Mat
  moment0_env : Vec
  moment0_rms : Vec
  moment1_env : Mat
  last_caviphi0 : ℝ

/-- `MomentState::recalc` (/repo/src/flame/moment.h:131-134). -/
noncomputable def MSt.recalc (s : MSt) : MSt :=
  { s with ref := s.ref.recalc, real := s.real.map Particle.recalc }

/-- First loop of `calc_rms`, the total charge (/repo/src/moment.cpp:209-211). -/
noncomputable def totQ (real : List Particle) : ℝ := (real.map (·.IonQ)).sum

/-- First loop of `calc_rms` and the division (/repo/src/moment.cpp:210-217).  The case `n==0` assigns, the others add. -/
noncomputable def env0 (real : List Particle) (m0 : List Vec) : Vec := fun j =>
  (List.zipWith (fun p v => v j * p.IonQ) real m0).sum / totQ real

/-- Second part of `calc_rms` (/repo/src/moment.cpp:219-228): only the first six rows and columns are filled. -/
noncomputable def env1 (real : List Particle) (m0 : List Vec) (m1 : List Mat) : Mat := fun i j =>
  if i < 6 ∧ j < 6 then
    (List.zipWith (fun p (q : Vec × Mat) =>
      p.IonQ * (q.2 i j + (q.1 i - env0 real m0 i) * (q.1 j - env0 real m0 j))) real (List.zip m0 m1)).sum / totQ real
  else 0

/-- `MomentState::calc_rms` (/repo/src/moment.cpp:201-233). -/
noncomputable def MSt.calcRms (s : MSt) : MSt :=
  { s with
    moment0_env := env0 s.real s.moment0
    moment1_env := env1 s.real s.moment0 s.moment1
    moment0_rms := fun j => Real.sqrt (env1 s.real s.moment0 s.moment1 j j) }

/-- Assignment to one entry of a matrix. -/
def setAt (M : Mat) (i j : Fin 7) (v : ℝ) : Mat := fun a b => if a = i ∧ b = j then v else M a b

open Classical in
/-- `inverse` (/repo/src/moment_sup.cpp:22-36).  A singular matrix is an exception; rounding is not modelled. -/
noncomputable def inverse (M : Mat) : Except Err Mat := if M.det = 0 then .error .runtime else .ok M⁻¹

/-- `RotMat` (/repo/src/moment_sup.cpp:38-73). -/
noncomputable def rotMat (dx dy thx thy thz : ℝ) : Mat :=
  let m11 := Real.cos (-thy) * Real.cos thz
  let m12 := Real.sin thx * Real.sin (-thy) * Real.cos thz + Real.cos thx * Real.sin thz
  let m13 := -Real.cos thx * Real.sin (-thy) * Real.cos thz + Real.sin thx * Real.sin thz
  let m21 := -Real.cos (-thy) * Real.sin thz
  let m22 := -Real.sin thx * Real.sin (-thy) * Real.sin thz + Real.cos thx * Real.cos thz
  let m23 := Real.cos thx * Real.sin (-thy) * Real.sin thz + Real.sin thx * Real.cos thz
  let m31 := Real.sin (-thy)
  let m32 := -Real.sin thx * Real.cos (-thy)
  let m33 := Real.cos thx * Real.cos (-thy)
  let R : Mat := setAt (setAt (setAt 1 0 0 m11) 0 2 m12) 0 4 m13
  let R := setAt (setAt (setAt R 2 0 m21) 2 2 m22) 2 4 m23
  let R := setAt (setAt (setAt R 4 0 m31) 4 2 m32) 4 4 m33
  let R := setAt (setAt (setAt R 1 1 m11) 1 3 m12) 1 5 m13
  let R := setAt (setAt (setAt R 3 1 m21) 3 3 m22) 3 5 m23
  let R := setAt (setAt (setAt R 5 1 m31) 5 3 m32) 5 5 m33
  let T : Mat := setAt (setAt 1 0 6 (-dx)) 2 6 (-dy)
  R * T

/-- `numeric_table` (/repo/src/flame/util.h:75-92): its lines and the number of its columns. -/
structure Table where
  cols : Nat
  rows : List (List ℝ)

/-- `ElementRFCavity::RawParams` (/repo/src/flame/rf_cavity.h:56-61) without the name and the aperture, which are not used. -/
structure RawParams where
  type : String
  length : ℝ
  E0 : ℝ
  Tfit : List ℝ
  Sfit : List ℝ

/-- Fields of `ElementRFCavity` (/repo/src/flame/rf_cavity.h:62-96) and its use of `misalign`, `misalign_inv` of
`MomentElementBase`.  `RefNrm` and `SynComplex` carry their `have_` flags; `EkLim` and `NrLim` only cause warnings and are
left out, like `DataPath`, which is not used, and `CavTLMLineTab`, which is always computed before use.  `phi_ref` is `none`
while it is NaN. -/
structure Cav where
  lattice : List RawParams
  mlptable : Table
  cavData : Table
  cavType : String
  dataFile : String
  synAccTab : List ℝ
  refNrm : Option ℝ
  synComplex : Option (List ℝ)
  fRF : ℝ
  ionFys : ℝ
  phiRef : Option ℝ
  cRm : ℝ
  cavi : Nat
  forcettfcalc : Bool
  mpoleLevel : Nat
  emitGrowth : Nat
  misalign : List (Mat × Mat)

/-- Fields of `MomentElementBase` (/repo/src/flame/moment.h:178-188), of its base class (`conf`, `length`,
/repo/src/flame/base.h:196-223) and of the subclasses: `HdipoleFitMode` of a bend, `istate` of a source.
`refIn` is `none` for the initial `last_ref_in`, which is unequal to everything since it is NaN.  `misalign` and
`misalign_inv` are always computed before use and not represented.  `cav` are the fields of an RF cavity. -/
structure MDat where
  conf : LCfg
  length : ℝ
  dx : ℝ
  dy : ℝ
  pitch : ℝ
  yaw : ℝ
  roll : ℝ
  skipcache : Bool
  fitMode : Nat
  istate : Option MSt
  refIn : Option Particle
  refOut : Particle
  realIn : List Particle
  realOut : List Particle
  transfer : List Mat
  cav : Option Cav := none

/-- `MomentElementBase::get_misalign` (/repo/src/moment.cpp:593-630): the matrices before and behind the element.  If
`ref.IonEs` is zero but the particle moves, the code gets NaN and the model an exception. -/
noncomputable def getMisalign (d : MDat) (ref real : Particle) : Except Err (Mat × Mat) :=
  let scl : Mat := setAt 1 4 4 (1 / -real.SampleIonK)
  let scl := setAt scl 5 5 (1 / (real.beta * real.beta * real.gamma * ref.IonEs / MeVtoeV))
  match inverse scl with
  | .error e => .error e
  | .ok sclInv =>
    let T : Mat := setAt (setAt 1 4 6 (-d.length / 2 * MtoMM)) 5 6 1
    match inverse T with
    | .error e => .error e
    | .ok Tinv =>
      let R := rotMat d.dx d.dy d.pitch d.yaw d.roll
      let M := sclInv * (Tinv * (R * (T * scl)))
      match inverse R with
      | .error e => .error e
      | .ok Rinv =>
        let T := setAt (setAt T 4 6 (d.length / 2 * MtoMM)) 5 6 1
        match inverse T with
        | .error e => .error e
        | .ok Tinv => .ok (M, sclInv * (Tinv * (Rinv * (T * scl))))

/-- The use of `get_misalign` in the elements, for instance /repo/src/moment.cpp:1113-1115. -/
noncomputable def aligned (d : MDat) (ref real : Particle) (T : Mat) : Except Err Mat :=
  match getMisalign d ref real with
  | .error e => .error e
  | .ok (M, IM) => .ok (IM * (T * M))

/-- A loop over the charge states that may throw. -/
def forEach {α β : Type} (f : α → Except Err β) : List α → Except Err (List β)
  | [] => .ok []
  | a :: as =>
    match f a with
    | .error e => .error e
    | .ok b =>
      match forEach f as with
      | .error e => .error e
      | .ok bs => .ok (b :: bs)

/-! ## matrices of /repo/src/moment_sup.cpp -/

open Classical in
/-- `GetQuadMatrix` (/repo/src/moment_sup.cpp:76-117) for the rows and columns `i`, `j` = `ind`, `ind+1`. -/
noncomputable def quadPlane (L K : ℝ) (i j : Fin 7) (M : Mat) : Mat :=
  if 0 < K then
    let sqrtK := Real.sqrt K
    let psi := sqrtK * L
    let cs := Real.cos psi
    let sn := Real.sin psi
    let M := setAt (setAt M j j cs) i i cs
    let M := setAt M i j (if sqrtK ≠ 0 then sn / sqrtK else L)
    setAt M j i (if sqrtK ≠ 0 then -sqrtK * sn else 0)
  else
    let sqrtK := Real.sqrt (-K)
    let psi := sqrtK * L
    let cs := Real.cosh psi
    let sn := Real.sinh psi
    let M := setAt (setAt M j j cs) i i cs
    let M := setAt M i j (if sqrtK ≠ 0 then sn / sqrtK else L)
    setAt M j i (if sqrtK ≠ 0 then sqrtK * sn else 0)

open Classical in
/-- `GetSextMatrix` (/repo/src/moment_sup.cpp:119-190).  `M` is the matrix to be filled; in the thick lens model entries
that are not assigned keep their old value.  `dr` is computed from `Dx` alone (line 125).  `copysign(1, K3)` is taken
to be 1 for `K3 = 0`. -/
noncomputable def sextM (L K3 Dx Dy D2x D2y D2xy : ℝ) (thinlens dstkick : Bool) (M : Mat) : Mat :=
  let dr := Real.sqrt (Dx * Dx + Dx * Dx)
  let M :=
    if thinlens then
      let T : Mat := setAt (setAt 1 0 1 (L / 2)) 2 3 (L / 2)
      let P : Mat := setAt (setAt 1 1 0 (-K3 * L * Dx)) 1 2 (K3 * L * Dy)
      let P := setAt (setAt P 3 0 (K3 * L * Dy)) 3 2 (K3 * L * Dx)
      T * (P * T)
    else
      let sqrtK := Real.sqrt (|K3| * dr)
      let psi := sqrtK * L
      let sg : ℝ := if K3 < 0 then -1 else 1
      let Dx := Dx * sg
      let Dy := Dy * sg
      let cs := Real.cos psi
      let sn := Real.sin psi
      let ch := Real.cosh psi
      let sh := Real.sinh psi
      if sqrtK ≠ 0 then
        let a := ((dr + Dx) * cs + (dr - Dx) * ch) / (2 * dr)
        let M := setAt (setAt M 1 1 a) 0 0 a
        let M := setAt M 0 1 (((dr + Dx) * sn + (dr - Dx) * sh) / (2 * sqrtK * dr))
        let b := Dy * (-cs + ch) / (2 * dr)
        let M := setAt (setAt (setAt (setAt M 3 1 b) 2 0 b) 1 3 b) 0 2 b
        let M := setAt M 0 3 (Dy * (-sn + sh) / (2 * sqrtK * dr))
        let M := setAt M 1 0 (sqrtK * (-(dr + Dx) * sn + (dr - Dx) * sh) / (2 * dr))
        let c := Dy * sqrtK * (sn + sh) / (2 * dr)
        let M := setAt (setAt M 3 0 c) 1 2 c
        let M := setAt M 2 1 (Dy * (-sn + sh) / (2 * sqrtK * dr))
        let e := ((dr - Dx) * cs + (dr + Dx) * ch) / (2 * dr)
        let M := setAt (setAt M 3 3 e) 2 2 e
        let M := setAt M 2 3 (((dr - Dx) * sn + (dr + Dx) * sh) / (2 * sqrtK * dr))
        setAt M 3 2 (sqrtK * (-(dr - Dx) * sn + (dr + Dx) * sh) / (2 * dr))
      else setAt (setAt M 0 1 L) 2 3 L
  if dstkick then setAt (setAt M 1 6 (-K3 * L * (D2x - D2y))) 3 6 (2 * K3 * L * D2xy) else M

/-- `GetEdgeMatrix` (/repo/src/moment_sup.cpp:192-200). -/
noncomputable def edgeM (rho phi : ℝ) : Mat :=
  setAt (setAt 1 1 0 (Real.tan phi / rho)) 3 2 (-Real.tan phi / rho)

/-- `GetEEdgeMatrix` (/repo/src/moment_sup.cpp:203-214). -/
noncomputable def eedgeM (fringeX fringeY kappa : ℝ) : Mat :=
  let M : Mat := setAt 1 1 0 fringeX
  let M := setAt M 1 1 (Real.sqrt (1 + kappa))
  let M := setAt M 3 2 fringeY
  setAt M 5 5 (1 + kappa)

open Classical in
/-- `GetSBendMatrix` (/repo/src/moment_sup.cpp:217-273).  For `phi = 0` the radius is infinite and `1/rho` zero, as here
(`L / 0 = 0`, `1 / 0 = 0`), but then `Kx*rho` is not.  For `Kx = 0` the code divides by zero. -/
noncomputable def sbendM (L phi phi1 phi2 K IonEs refGamma qmrel dipBeta dipGamma dd dipIonK : ℝ) (M : Mat) : Mat :=
  let rho := L / phi
  let Kx := K + 1 / (rho * rho)
  let Ky := -K
  let M := quadPlane L Kx 0 1 M
  let M := quadPlane L Ky 2 3 M
  let dx := if Kx = 0 then L * L / (2 * rho)
    else if 0 < Kx then (1 - Real.cos (Real.sqrt Kx * L)) / (rho * Kx)
    else (1 - Real.cosh (Real.sqrt (-Kx) * L)) / (rho * Kx)
  let sx := if Kx = 0 then L / rho
    else if 0 < Kx then Real.sin (Real.sqrt Kx * L) / (rho * Real.sqrt Kx)
    else Real.sin (Real.sqrt (-Kx) * L) / (rho * Real.sqrt (-Kx))
  let pz := dipBeta * dipBeta * dipGamma * IonEs / MeVtoeV
  let M := setAt M 0 5 (dx / pz)
  let M := setAt M 1 5 (sx / pz)
  let M := setAt M 4 0 (sx * dipIonK)
  let M := setAt M 4 1 (dx * dipIonK)
  let M := setAt M 4 5 (((L / rho - sx) / (Kx * rho) - L / (refGamma * refGamma)) * dipIonK / pz)
  let M := setAt M 4 6 (((L / rho - sx) / (Kx * rho) * dd - L / (refGamma * refGamma) * (dd + qmrel)) * dipIonK)
  let M := setAt M 0 6 (dx * dd)
  let M := setAt M 1 6 (sx * dd)
  edgeM rho phi2 * (M * edgeM rho phi1)

open Classical in
/-- `GetSolMatrix` (/repo/src/moment_sup.cpp:276-320). -/
noncomputable def solM (L K : ℝ) (M : Mat) : Mat :=
  let C := Real.cos (K * L)
  let S := Real.sin (K * L)
  let M := setAt (setAt (setAt (setAt M 3 3 (C * C)) 2 2 (C * C)) 1 1 (C * C)) 0 0 (C * C)
  let M := setAt M 0 1 (if K ≠ 0 then S * C / K else L)
  let M := setAt M 0 2 (S * C)
  let M := setAt M 0 3 (if K ≠ 0 then S * S / K else 0)
  let M := setAt M 1 0 (-K * S * C)
  let M := setAt M 1 2 (-K * (S * S))
  let M := setAt M 1 3 (S * C)
  let M := setAt M 2 0 (-S * C)
  let M := setAt M 2 1 (if K ≠ 0 then -(S * S) / K else 0)
  let M := setAt M 2 3 (if K ≠ 0 then S * C / K else L)
  let M := setAt M 3 0 (K * (S * S))
  let M := setAt M 3 1 (-S * C)
  setAt M 3 2 (-K * S * C)

open Classical in
/-- `GetEBendMatrix` (/repo/src/moment_sup.cpp:323-383).  For `Kx < 0` the code takes the root of a negative number; for
`Kx = 0` it divides by zero. -/
noncomputable def ebendM (L phi fringeX fringeY kappa Kx Ky IonEs realGamma eta0 h deltaK deltaKZ SampleIonK : ℝ)
    (M : Mat) : Mat :=
  let rho := L / phi
  let scl := (realGamma - 1) * IonEs / MeVtoeV
  let M := quadPlane L Kx 0 1 M
  let M := quadPlane L Ky 2 3 M
  let dx := if Kx = 0 then 0
    else if 0 < Kx then (1 - Real.cos (Real.sqrt Kx * L)) / (rho * Kx)
    else (1 - Real.cosh (Real.sqrt (-Kx) * L)) / (rho * Kx)
  let sx := if Kx = 0 then 0 else Real.sin (Real.sqrt Kx * L) / Real.sqrt Kx
  let Nk := ((1 + 2 * eta0) * (1 + 2 * eta0) + h) / (2 * (1 + eta0) * (1 + 2 * eta0))
  let Nt := 1 + h / ((1 + 2 * eta0) * (1 + 2 * eta0))
  let CorT := -realGamma / (1 + realGamma)
  let tx := sx / rho * Nt * CorT
  let txp := dx * Nt * CorT
  let tzp := (-L / (2 * (1 + eta0) * (1 + 2 * eta0)) + ((L - sx) / Kx / (rho * rho)) * Nk * Nt) * CorT
  let M := setAt M 0 5 (dx * Nk / scl)
  let M := setAt M 1 5 (sx / rho * Nk / scl)
  let M := setAt M 4 0 (-tx * SampleIonK)
  let M := setAt M 4 1 (-txp * SampleIonK)
  let M := setAt M 4 5 (-tzp * SampleIonK / scl)
  let Nkz := (1 + 2 * eta0 - h) / (2 * (1 + eta0) * (1 + 2 * eta0))
  let M := setAt M 0 6 (dx * (Nk * deltaK + Nkz * deltaKZ))
  let M := setAt M 1 6 (sx / rho * (Nk * deltaK + Nkz * deltaKZ))
  eedgeM fringeX fringeY kappa * (M * eedgeM fringeX fringeY kappa)

/-- The longitudinal entry of the elements without acceleration, for instance /repo/src/moment.cpp:1110-1111. -/
noncomputable def slip (p : Particle) (L : ℝ) : ℝ :=
  -2 * Real.pi / (p.SampleLambda * p.IonEs / MeVtoeV * (p.bg * p.bg * p.bg)) * L

/-! ## configuration -/

/-- `get<std::string>(name)` (/repo/src/flame/config.h:121-129). -/
def getStr (c : LCfg) (k : String) : Except Err String :=
  match c k with
  | some (.str x) => .ok x
  | _ => .error .keyError

/-- `get<std::string>(name, def)` (/repo/src/flame/config.h:139-148). -/
def getStrD (c : LCfg) (k d : String) : String :=
  match c k with
  | some (.str x) => x
  | _ => d

open Classical in
/-- `boost::lexical_cast<unsigned>` of a double followed by the comparison of line 650
(/repo/src/moment.cpp:648-654).  A negative number is cast to a different unsigned one and so refused by the comparison. -/
noncomputable def asUnsigned (x : ℝ) : Except Err Nat :=
  if 0 ≤ x ∧ x < 2 ^ 32 ∧ ((⌊x⌋.toNat : ℕ) : ℝ) = x then .ok ⌊x⌋.toNat else .error .runtime

/-- `MomentElementBase::get_flag` (/repo/src/moment.cpp:632-656). -/
noncomputable def getFlag (env : Env) (c : LCfg) (name : String) (dflt : Nat) : Except Err Nat :=
  let check : ℝ :=
    match (match getStr c name with
      | .ok t => env.parse t
      | .error _ => none) with
    | some x => x
    | none =>
      match getNum c name with
      | .ok x => x
      | .error _ => dflt
  asUnsigned check

/-- `load_storage` (/repo/src/moment.cpp:28-46) with `T` true: exactly `n` values. -/
def loadStorage (n : Nat) (c : LCfg) (name : String) : Except Err (List ℝ) :=
  match getVec c name with
  | .ok xs => if xs.length = n then .ok xs else .error .invalidArg
  | .error _ => .error .invalidArg

/-- Row-major contents of a matrix. -/
def matOf (xs : List ℝ) : Mat := fun i j => xs.getD (7 * (i : Nat) + (j : Nat)) 0

/-- Contents of a vector. -/
def vecOf (xs : List ℝ) : Vec := fun i => xs.getD (i : Nat) 0

open Classical in
/-- `static_cast<unsigned>` of a double for values in range. -/
noncomputable def toUnsigned (x : ℝ) : Option Nat :=
  if -1 < x ∧ x < 2 ^ 32 then some ⌊x⌋.toNat else none

/-- One turn of the loop of `GetCurveData` (/repo/src/moment_sup.cpp:420-453): curve number `n`; `prev` is the size of the
curve before it.  A range whose end is before its start, or one out of the range of `unsigned`, is undefined behaviour,
represented by the error `logic`, which has no other source here. -/
noncomputable def oneCurve (c src : LCfg) (range : Option (List ℝ)) (n : Nat) (prev : Nat) :
    Except Err (List ℝ × Nat × ℝ) :=
  match getVec src ("curve" ++ toString n) with
  | .error _ => .error .runtime
  | .ok cv =>
    let part : Except Err (List ℝ) :=
      match range with
      | none => .ok cv
      | some [a, b] =>
        match toUnsigned a, toUnsigned b with
        | some s, some e =>
          if cv.length < s ∨ cv.length < e then .error .runtime
          else if e < s then .error .logic
          else .ok ((cv.take e).drop s)
        | _, _ => .error .logic
      | some _ => .error .runtime
    match part with
    | .error e => .error e
    | .ok p =>
      if n ≠ 0 ∧ prev ≠ cv.length then .error .runtime
      else .ok (p, cv.length, getNumD c ("scl_fac" ++ toString n) 0)

/-- The loop of `GetCurveData` (/repo/src/moment_sup.cpp:419-453) from curve `n` on, `k` of them: scale and curve. -/
noncomputable def curveLoop (c src : LCfg) (range : Option (List ℝ)) : Nat → Nat → Nat → Except Err (List (ℝ × List ℝ))
  | 0, _, _ => .ok []
  | k + 1, n, prev =>
    match oneCurve c src range n prev with
    | .error e => .error e
    | .ok (cv, sz, scl) =>
      match curveLoop c src range k (n + 1) sz with
      | .error e => .error e
      | .ok r => .ok ((scl, cv) :: r)

/-- `GetCurveData` (/repo/src/moment_sup.cpp:385-454).  `defpath` is "." (line 15). -/
noncomputable def curveData (env : Env) (c : LCfg) (ncurve : Nat) : Except Err (List (ℝ × List ℝ)) :=
  let range := match getVec c "use_range" with
    | .ok r => some r
    | .error _ => none
  match getStr c "CurveFile" with
  | .error _ => curveLoop c c range ncurve 0 0
  | .ok f =>
    match env.file (getStrD c "Eng_Data_Dir" "." ++ "/" ++ f) with
    | .error _ => .error .runtime
    | .ok src => curveLoop c src range ncurve 0 0

/-- Values of all curves at place `j`, each times `f` of its scale. -/
noncomputable def curveSum (cs : List (ℝ × List ℝ)) (j : Nat) (f : ℝ → ℝ) : ℝ :=
  (cs.map (fun q => f (q.1 * q.2.getD j 0))).sum

/-- `Curves[0].size()`. -/
def curveLen (cs : List (ℝ × List ℝ)) : Nat := ((cs.head?).map (fun q => q.2.length)).getD 0

/-- Product of slices: `transfer = prod(tmstep, transfer)` for `j = 0, 1, ...` (/repo/src/moment.cpp:1077-1089). -/
def slices (n : Nat) (f : Nat → Mat) : Mat := (List.range n).foldl (fun M j => f j * M) 1

/-! ## elements -/

/-- The element types registered for the simulation (/repo/src/moment.cpp:1464-1495) except the RF cavity and the
stripper. -/
inductive MType
  | source | marker | bpm | drift | orbtrim | sbend | quadrupole | sextupole | solenoid | edipole | equad | tmatrix
  deriving DecidableEq, Repr

/-- `type_name()`. -/
def MType.name : MType → String
  | .source => "source"
  | .marker => "marker"
  | .bpm => "bpm"
  | .drift => "drift"
  | .orbtrim => "orbtrim"
  | .sbend => "sbend"
  | .quadrupole => "quadrupole"
  | .sextupole => "sextupole"
  | .solenoid => "solenoid"
  | .edipole => "edipole"
  | .equad => "equad"
  | .tmatrix => "tmatrix"

/-- `ElementDrift::recompute_matrix` for one charge state (/repo/src/moment.cpp:855-859); `L` in mm. -/
noncomputable def driftM (p : Particle) (L : ℝ) : Mat := setAt (setAt (setAt 1 0 1 L) 2 3 L) 4 5 (slip p L)

/-- Quadrupole field of strength `K` over length `L` (/repo/src/moment.cpp:1099-1111 and 1081-1086). -/
noncomputable def quadM (p : Particle) (L K : ℝ) : Mat :=
  setAt (quadPlane L (-K) 2 3 (quadPlane L K 0 1 1)) 4 5 (slip p L)

/-- Solenoid field of strength `K` over length `L` (/repo/src/moment.cpp:1262-1270 and 1245-1250). -/
noncomputable def solenoidM (p : Particle) (L K : ℝ) : Mat := setAt (solM L K 1) 4 5 (slip p L)

open Classical in
/-- `ElementOrbTrim::recompute_matrix` (/repo/src/moment.cpp:877-911). -/
noncomputable def orbtrimRec (d : MDat) (ref : Particle) (real : List Particle) : Except Err (List Mat) :=
  let c := d.conf
  let xyrotate := getNumD c "xyrotate" 0 * Real.pi / 180
  let ecpi := ref.IonZ * C0 / Real.sqrt (ref.IonW * ref.IonW - ref.IonEs * ref.IonEs)
  let thx := if getNumD c "realpara" 0 = 1 then getNumD c "tm_xkick" 0 * ecpi else getNumD c "theta_x" 0
  let thy := if getNumD c "realpara" 0 = 1 then getNumD c "tm_ykick" 0 * ecpi else getNumD c "theta_y" 0
  forEach (fun p =>
    let T : Mat := setAt (setAt 1 1 6 (thx * p.IonZ / ref.IonZ)) 3 6 (thy * p.IonZ / ref.IonZ)
    match aligned d ref p T with
    | .error e => .error e
    | .ok M => .ok (if xyrotate ≠ 0 then M * rotMat 0 0 0 0 xyrotate else M)) real

/-- One charge state of `ElementSBend::recompute_matrix` for `L != 0` (/repo/src/moment.cpp:1021-1044). -/
noncomputable def sbendOne (d : MDat) (L phi phi1 phi2 K : ℝ) (ref p : Particle) : Except Err Mat :=
  let qmrel := (p.IonZ - ref.IonZ) / ref.IonZ
  if d.fitMode = 0 then
    match getNum d.conf "bg" with
    | .error e => .error e
    | .ok bg =>
      let Ek := (Real.sqrt (bg * bg + 1) - 1) * ref.IonEs
      let g := (Ek + ref.IonEs) / ref.IonEs
      let b := Real.sqrt (1 - 1 / (g * g))
      let dd := (ref.gamma - g) / (b * b * g) - qmrel
      let k := 2 * Real.pi / (b * ref.SampleLambda)
      aligned d ref p (sbendM L phi phi1 phi2 K ref.IonEs ref.gamma qmrel b g dd k 1)
  else
    aligned d ref p
      (sbendM L phi phi1 phi2 K ref.IonEs ref.gamma qmrel ref.beta ref.gamma (-qmrel) ref.SampleIonK 1)

open Classical in
/-- `ElementSBend::recompute_matrix` (/repo/src/moment.cpp:1010-1047). -/
noncomputable def sbendRec (d : MDat) (ref : Particle) (real : List Particle) : Except Err (List Mat) :=
  match getNum d.conf "L", getNum d.conf "phi", getNum d.conf "phi1", getNum d.conf "phi2" with
  | .ok L, .ok phi, .ok phi1, .ok phi2 =>
    forEach (fun p =>
      if L * MtoMM ≠ 0 then
        sbendOne d (L * MtoMM) (phi * Real.pi / 180) (phi1 * Real.pi / 180) (phi2 * Real.pi / 180)
          (getNumD d.conf "K" 0 / (MtoMM * MtoMM)) ref p
      else .ok 1) real
  | _, _, _, _ => .error .keyError

/-- `ElementQuad::recompute_matrix` (/repo/src/moment.cpp:1063-1118). -/
noncomputable def quadRec (env : Env) (d : MDat) (ref : Particle) (real : List Particle) : Except Err (List Mat) :=
  match getNum d.conf "L" with
  | .error e => .error e
  | .ok L0 =>
    let L := L0 * MtoMM
    match getFlag env d.conf "ncurve" 0 with
    | .error e => .error e
    | .ok n =>
      if n = 0 then
        match getNum d.conf "B2" with
        | .error e => .error e
        | .ok B2 => forEach (fun p => aligned d ref p (quadM p L (B2 / p.Brho / (MtoMM * MtoMM)))) real
      else
        match curveData env d.conf n with
        | .error e => .error e
        | .ok cs =>
          let m := curveLen cs
          forEach (fun p => aligned d ref p
            (slices m (fun j => quadM p (L / m) (curveSum cs j (fun x => x / p.Brho / (MtoMM * MtoMM)))))) real

/-- `ElementSolenoid::recompute_matrix` (/repo/src/moment.cpp:1227-1278). -/
noncomputable def solenoidRec (env : Env) (d : MDat) (ref : Particle) (real : List Particle) : Except Err (List Mat) :=
  match getNum d.conf "L" with
  | .error e => .error e
  | .ok L0 =>
    let L := L0 * MtoMM
    match getFlag env d.conf "ncurve" 0 with
    | .error e => .error e
    | .ok n =>
      if n = 0 then
        match getNum d.conf "B" with
        | .error e => .error e
        | .ok B => forEach (fun p => aligned d ref p (solenoidM p L (B / (2 * p.Brho) / MtoMM))) real
      else
        match curveData env d.conf n with
        | .error e => .error e
        | .ok cs =>
          let m := curveLen cs
          forEach (fun p => aligned d ref p
            (slices m (fun j => solenoidM p (L / m) (curveSum cs j (fun x => x / (2 * p.Brho) / MtoMM))))) real

/-- The rotation by 90 degrees of a vertical electrostatic dipole (/repo/src/moment.cpp:1340-1349). -/
def rot90 : Mat :=
  let R : Mat := setAt (setAt (setAt (setAt 1 0 0 0) 1 1 0) 2 2 0) 3 3 0
  setAt (setAt (setAt (setAt R 0 2 (-1)) 1 3 (-1)) 2 0 1) 3 1 1

open Classical in
/-- One charge state of `ElementEDipole::recompute_matrix` for `L != 0` (/repo/src/moment.cpp:1321-1359). -/
noncomputable def edipoleOne (d : MDat) (ver : Bool) (L phi fx fy kappa spher dipBeta : ℝ) (ref p : Particle) :
    Except Err Mat :=
  let eta0 := (1 / Real.sqrt (1 - dipBeta * dipBeta) - 1) / 2
  let Erho := p.beta * p.beta / p.IonZ
  let Erho0 := dipBeta * dipBeta / ref.IonZ
  let eL := Erho / Erho0 * L
  let rho := eL / phi
  let Kx := (1 - spher + (1 + 2 * eta0) * (1 + 2 * eta0)) / (rho * rho)
  let Ky := spher / (rho * rho)
  let deltaK := (Erho / Erho0 - 1) - (p.IonEk - ref.IonEk) / p.IonEk
  let deltaKZ := ref.IonZ / p.IonZ - 1
  let k := 2 * Real.pi / (p.beta * p.SampleLambda)
  let M := ebendM eL phi fx fy kappa Kx Ky ref.IonEs p.gamma eta0 1 deltaK deltaKZ k 1
  let M := if ver then rot90 * M * rot90.transpose else M
  aligned d ref p M

open Classical in
/-- `ElementEDipole::recompute_matrix` (/repo/src/moment.cpp:1294-1362). -/
noncomputable def edipoleRec (env : Env) (d : MDat) (ref : Particle) (real : List Particle) : Except Err (List Mat) :=
  match getNum d.conf "ver", getNum d.conf "L", getNum d.conf "phi", getNum d.conf "spher" with
  | .ok ver, .ok L, .ok phi, .ok spher =>
    match getFlag env d.conf "HdipoleFitMode" 1 with
    | .error e => .error e
    | .ok mode =>
      if mode ≠ 0 ∧ mode ≠ 1 then .error .runtime
      else
        let dipBeta := if mode ≠ 0 then ref.beta else getNumD d.conf "beta" ref.beta
        forEach (fun p =>
          if L * MtoMM ≠ 0 then
            edipoleOne d (decide (ver = 1)) (L * MtoMM) (phi * Real.pi / 180) (getNumD d.conf "fringe_x" 0 / MtoMM)
              (getNumD d.conf "fringe_y" 0 / MtoMM) (getNumD d.conf "asym_fac" 0) spher dipBeta ref p
          else .ok 1) real
  | _, _, _, _ => .error .keyError

/-- `ElementEQuad::recompute_matrix` (/repo/src/moment.cpp:1378-1438). -/
noncomputable def equadRec (env : Env) (d : MDat) (ref : Particle) (real : List Particle) : Except Err (List Mat) :=
  match getNum d.conf "L" with
  | .error e => .error e
  | .ok L0 =>
    let L := L0 * MtoMM
    match getFlag env d.conf "ncurve" 0 with
    | .error e => .error e
    | .ok n =>
      if n = 0 then
        match getNum d.conf "V", getNum d.conf "radius" with
        | .ok V0, .ok R =>
          forEach (fun p => aligned d ref p
            (quadM p L (2 * V0 / (C0 * p.beta * (R * R)) / p.Brho / (MtoMM * MtoMM)))) real
        | _, _ => .error .keyError
      else
        match curveData env d.conf n with
        | .error e => .error e
        | .ok cs =>
          let m := curveLen cs
          forEach (fun p => aligned d ref p
            (slices m (fun j => quadM p (L / m)
              (curveSum cs j (fun x => 2 * x / (C0 * p.beta) / p.Brho / (MtoMM * MtoMM)))))) real

/-- `recompute_matrix`: the transfer matrices for a state after `recalc`, one per charge state.  None of the classes here
changes the state.  (/repo/src/moment.cpp:760-767, 848-861, 1454-1459 and the functions above.) -/
noncomputable def recompute (env : Env) (t : MType) (d : MDat) (ref : Particle) (real : List Particle) :
    Except Err (List Mat) :=
  match t with
  | .drift => .ok (real.map (fun p => driftM p (d.length * MtoMM)))
  | .orbtrim => orbtrimRec d ref real
  | .sbend => sbendRec d ref real
  | .quadrupole => quadRec env d ref real
  | .solenoid => solenoidRec env d ref real
  | .edipole => edipoleRec env d ref real
  | .equad => equadRec env d ref real
  | .tmatrix => forEach (fun _ =>
      match loadStorage 49 d.conf "matrix" with
      | .error e => .error e
      | .ok xs => .ok (matOf xs)) real
  | _ => .ok (real.map (fun _ => 1))

/-- `MomentElementBase::check_cache` (/repo/src/moment.cpp:728-736). -/
def hit (d : MDat) (s : MSt) : Prop :=
  d.skipcache = false ∧ (∃ r, d.refIn = some r ∧ r.same s.ref) ∧ List.Forall₂ Particle.same d.realIn s.real

/-- `resize_cache` (/repo/src/moment.cpp:753-758): old matrices are kept, new ones are identities. -/
def resize (n : Nat) (l : List Mat) : List Mat := l.take n ++ List.replicate (n - l.length) 1

/-- `moment1[k] = T moment1[k] T^t` (/repo/src/moment.cpp:703-704). -/
def congr (T S : Mat) : Mat := T * S * T.transpose

/-- Forward part of `advance` (/repo/src/moment.cpp:696-707): centroids, covariances and `transmat`.  The lists of a state
have the same length (/repo/src/flame/moment.h:114). -/
def forward (T : List Mat) (s : MSt) : MSt :=
  { s with
    moment0 := List.zipWith (fun M v => M.mulVec v) T s.moment0
    moment1 := List.zipWith congr T s.moment1
    transmat := T }

/-- The loop of the backward part of `advance` (/repo/src/moment.cpp:712-722).  If a matrix cannot be inverted, the
charge states before it have already been moved. -/
noncomputable def backLoop : List Mat → List Vec → List Mat → List Mat → List Vec × List Mat × List Mat × Option Err
  | T :: Ts, v :: vs, S :: Ss, X :: Xs =>
    match inverse T with
    | .error e => (v :: vs, S :: Ss, X :: Xs, some e)
    | .ok I =>
      let r := backLoop Ts vs Ss Xs
      (I.mulVec v :: r.1, congr I S :: r.2.1, I :: r.2.2.1, r.2.2.2)
  | _, vs, Ss, Xs => (vs, Ss, Xs, none)

/-- Backward part of `advance` (/repo/src/moment.cpp:708-723). -/
noncomputable def backward (T : List Mat) (s : MSt) : MSt × Option Err :=
  let r := backLoop T s.moment0 s.moment1 s.transmat
  ({ s with moment0 := r.1, moment1 := r.2.1, transmat := r.2.2.1 }, r.2.2.2)

/-- The direction as a sign. -/
def sign (retreat : Bool) : ℝ := if retreat then -1 else 1

/-- Phase advance over the length of the element (/repo/src/moment.cpp:676-684). -/
def Particle.drifted (p : Particle) (retreat : Bool) (length : ℝ) : Particle :=
  { p with phis := p.phis + sign retreat * (p.SampleIonK * length * MtoMM) }

/-- What `advance` does with the particles (/repo/src/moment.cpp:666-694): the element with its caches, the particles, or
an exception of `recompute_matrix`.  If that throws, `last_*_in` and the sizes are already updated; which of the
matrices have been is not represented (the old ones are kept).  On a cache hit `last_real_out` is copied over the
particles. -/
noncomputable def particles (rec : MDat → Particle → List Particle → Except Err (List Mat)) (move : Particle → Particle)
    (d : MDat) (s : MSt) (isHit : Bool) : MDat × Except Err (Particle × List Particle) :=
  if isHit then (d, .ok (d.refOut, d.realOut ++ s.real.drop d.realOut.length))
  else
    let d1 := { d with refIn := some s.ref, realIn := s.real, transfer := resize s.real.length d.transfer }
    match rec d1 s.ref s.real with
    | .error e => (d1, .error e)
    | .ok T =>
      let ref := move s.ref.recalc
      let real := s.real.map (fun p => move p.recalc)
      ({ d1 with transfer := T, refOut := ref, realOut := real }, .ok (ref, real))

open Classical in
/-- `MomentElementBase::advance` (/repo/src/moment.cpp:658-726). -/
noncomputable def advanceBase (rec : MDat → Particle → List Particle → Except Err (List Mat)) (d : MDat) (s : St MSt) :
    MDat × St MSt × Option Err :=
  let S := s.payload.recalc
  match particles rec (·.drifted s.retreat d.length) d S (decide (hit d S)) with
  | (d', .error e) => (d', { s with payload := S }, some e)
  | (d', .ok (ref, real)) =>
    let S := { S with ref := ref, real := real, pos := S.pos + sign s.retreat * d.length }
    if s.retreat then
      match backward d'.transfer S with
      | (S, some e) => (d', { s with payload := S }, some e)
      | (S, none) => (d', { s with payload := S.calcRms }, none)
    else (d', { s with payload := (forward d'.transfer S).calcRms }, none)

/-- The phases behind a bend: the phase advance and the change of the longitudinal centroid
(/repo/src/moment.cpp:972-984, 991-1004). -/
def bendPhis (retreat : Bool) (length : ℝ) : List Particle → List Vec → List Vec → List Particle
  | p :: ps, v :: vs, w :: ws =>
    { p with phis := p.phis + (sign retreat * (p.SampleIonK * length * MtoMM) + (w 4 - v 4)) } ::
      bendPhis retreat length ps vs ws
  | ps, _, _ => ps

open Classical in
/-- `ElementSBend::advance` (/repo/src/moment.cpp:940-1008).  If a matrix cannot be inverted, the phases of all particles
are left as they are (in the code those of the charge states before it have been moved). -/
noncomputable def advanceBend (rec : MDat → Particle → List Particle → Except Err (List Mat)) (d : MDat) (s : St MSt) :
    MDat × St MSt × Option Err :=
  let S := s.payload.recalc
  match particles rec id d S (decide (hit d S)) with
  | (d', .error e) => (d', { s with payload := S }, some e)
  | (d', .ok (ref, real)) =>
    let S := { S with ref := ref.drifted s.retreat d.length, real := real, pos := S.pos + sign s.retreat * d.length }
    if s.retreat then
      match backward d'.transfer S with
      | (S', some e) => (d', { s with payload := S' }, some e)
      | (S', none) =>
        (d', { s with payload :=
          { S' with real := bendPhis s.retreat d.length S'.real S.moment0 S'.moment0 }.calcRms }, none)
    else
      let S' := forward d'.transfer S
      (d', { s with payload :=
        { S' with real := bendPhis s.retreat d.length S'.real S.moment0 S'.moment0 }.calcRms }, none)

open Classical in
/-- `static_cast<int>` towards zero of a non-negative value; a negative number of steps means none
(/repo/src/moment.cpp:1139, 1171). -/
noncomputable def toSteps (x : ℝ) : Nat := ⌊x⌋.toNat

/-- The inner loop of `ElementSext::advance` (/repo/src/moment.cpp:1171-1190): centroid, covariance, `transmat`,
`transfer`. -/
noncomputable def sextLoop (p : Particle) (dL K : ℝ) (thin dst : Bool) : Nat → Vec × Mat × Mat × Mat → Vec × Mat × Mat × Mat
  | 0, x => x
  | n + 1, (v, S, X, T) =>
    let T := setAt (sextM dL K (v 0) (v 2) (S 0 0) (S 2 2) (S 0 2) thin dst T) 4 5 (slip p dL)
    sextLoop p dL K thin dst n (T.mulVec v, congr T S, T * X, T)

open Classical in
/-- One charge state of `ElementSext::advance` (/repo/src/moment.cpp:1157-1197): centroid, covariance, `transmat`. -/
noncomputable def sextOne (d : MDat) (B3 L stp : ℝ) (thin dst : Bool) (ref p : Particle) (v : Vec) (S : Mat) :
    Except Err (Vec × Mat × Mat) :=
  match getMisalign d ref p with
  | .error e => .error e
  | .ok (M, IM) =>
    let K := B3 / p.Brho / (MtoMM * MtoMM * MtoMM)
    let r := sextLoop p (L / stp) K thin dst (toSteps stp) (M.mulVec v, congr M S, 1, 1)
    .ok (IM.mulVec r.1, congr IM r.2.1, IM * (r.2.2.1 * M))

open Classical in
/-- `ElementSext::advance` (/repo/src/moment.cpp:1135-1211).  The parameters are read before anything else.  A failure of
`get_misalign` leaves the charge states before it moved, which is not represented (all are kept). -/
noncomputable def advanceSext (d : MDat) (s : St MSt) : MDat × St MSt × Option Err :=
  match getNum d.conf "B3", getNum d.conf "L" with
  | .ok B3, .ok L0 =>
    let stp := (toSteps (getNumD d.conf "step" 1) : ℝ)
    let thin : Bool := decide (getNumD d.conf "thinlens" 0 = 1)
    let dst : Bool := decide (getNumD d.conf "dstkick" 1 = 1)
    let S := s.payload.recalc
    let d := { d with refIn := some S.ref, realIn := S.real, transfer := resize S.real.length d.transfer }
    if s.retreat then (d, { s with payload := S }, some .runtime)
    else
      match forEach (fun (q : Particle × Vec × Mat) =>
          sextOne d B3 (L0 * MtoMM) stp thin dst S.ref q.1 q.2.1 q.2.2) (S.real.zip (S.moment0.zip S.moment1)) with
      | .error e => (d, { s with payload := S }, some e)
      | .ok (rs : List (Vec × Mat × Mat)) =>
        let ref := S.ref.recalc.drifted false d.length
        let real := S.real.map (fun p => p.recalc.drifted false d.length)
        let d := { d with refOut := ref, realOut := real }
        (d, { s with payload :=
          { S with ref := ref, real := real, pos := S.pos + d.length, moment0 := rs.map (fun (q : Vec × Mat × Mat) => q.1),
                   moment1 := rs.map (fun (q : Vec × Mat × Mat) => q.2.1),
                   transmat := rs.map (fun (q : Vec × Mat × Mat) => q.2.2) }.calcRms }, none)
  | _, _ => (d, s, some .keyError)

/-- `ElementSource::advance` (/repo/src/moment.cpp:779-785) with `MomentState::assign` (/repo/src/moment.cpp:248-263) and
`StateBase::assign` (/repo/src/base.cpp:32-35). -/
def advanceSource (d : MDat) (s : St MSt) : MDat × St MSt × Option Err :=
  match d.istate with
  | none => (d, s, none)
  | some i => if s.retreat then (d, s, none) else (d, { s with payload := i }, none)

/-- `advance` of the element types. -/
noncomputable def advance (env : Env) (t : MType) (d : MDat) (s : St MSt) : MDat × St MSt × Option Err :=
  match t with
  | .source => advanceSource d s
  | .sbend => advanceBend (recompute env .sbend) d s
  | .sextupole => advanceSext d s
  | t => advanceBase (recompute env t) d s

/-- `assign` of the element types (/repo/src/moment.cpp:563-580, 800-804, 934-938, /repo/src/base.cpp:74-80): every field
is taken from the new element.  `istate.assign` keeps `next_elem` and `retreat` of the initial state, which are never
used. -/
def assign (_old new : MDat) : MDat := new

end Flame.Moment
