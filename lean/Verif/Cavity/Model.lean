import Verif.Cavity.Fits
import Verif.Moment.Build
import Verif.Util.Table

/-!
# The RF cavity

Model of `ElementRFCavity` (/repo/src/rf_cavity.cpp, /repo/src/flame/rf_cavity.h).  The error `logic` stands for undefined
behaviour, for a failed `assert`, and for infinite numbers or NaN where the code goes on with them: behind a particle that
has come to rest nothing is defined.  Log messages are left out.
-/

namespace Flame.Cavity

open Flame.Mach (Cls St Err)
open Flame.Linear (LVal LCfg getNum getNumD getVec)
open Flame.Moment

/-- `AU` (/repo/src/flame/constants.h:27). -/
noncomputable def AU : ℝ := 931.49432e6 / MeVtoeV

/-- `MU0` (/repo/src/flame/constants.h:29). -/
noncomputable def MU0 : ℝ := 4 * Real.pi * 1e-7

/-! ## energy and phase -/

/-- What `GetCavBoost` carries along: `IonW`, `IonFy` and `CaviIonK`; the last is `none` if it is infinite. -/
structure Boost where
  W : ℝ
  fy : ℝ
  k : Option ℝ

open Classical in
/-- One step of `GetCavBoost` (/repo/src/rf_cavity.cpp:1492-1504) over an interval with the fields `E0`, `E1`; `none` if the
wave number is infinite, since then everything is NaN.  `Es = 0` gives an infinite `IonGamma` and `IonBeta` 1. -/
noncomputable def boostStep (Z Es scl lam dz E0 E1 : ℝ) (b : Boost) : Option Boost :=
  match b.k with
  | none => none
  | some k =>
    let fy := b.fy + k * dz
    let W := b.W + Z * scl * (E0 + E1) / 2 * Real.cos ((b.fy + fy) / 2) * dz / MtoMM
    if W - Es < 0 then some { W := Es, fy := fy, k := none }
    else
      let g := W / Es
      if Es ≠ 0 ∧ g * g ≤ 1 then some { W := W, fy := fy, k := none }
      else some { W := W, fy := fy, k := some (2 * Real.pi / (Real.sqrt (1 - 1 / (g * g)) * lam)) }

/-- The loop of `GetCavBoost` (/repo/src/rf_cavity.cpp:1491-1506) over the fields. -/
noncomputable def boostLoop (Z Es scl lam dz : ℝ) : List ℝ → Boost → Option Boost
  | E0 :: E1 :: l, b =>
    match boostStep Z Es scl lam dz E0 E1 b with
    | none => none
    | some b' => boostLoop Z Es scl lam dz (E1 :: l) b'
  | _, b => some b

/-- Positions and fields of a field map: its first two columns (/repo/src/rf_cavity.cpp:1476, 1494). -/
def positions (t : Table) : List ℝ := t.rows.map (·.getD 0 0)
def fields (t : Table) : List ℝ := t.rows.map (·.getD 1 0)

/-- Extent of a field map (/repo/src/rf_cavity.cpp:1250, 1476). -/
noncomputable def extent (t : Table) : ℝ := (positions t).getLastD 0 - (positions t).headD 0

open Classical in
/-- `GetCavBoost` (/repo/src/rf_cavity.cpp:1467-1507): `IonW` and `IonFy`. -/
noncomputable def getCavBoost (cavData : Table) (fRF : ℝ) (p : Particle) (IonFy0 EfieldScl : ℝ) : Except Err (ℝ × ℝ) :=
  let n := cavData.rows.length
  if n ≤ 1 then .error .logic
  else
    let dz := extent cavData / ((n : ℝ) - 1)
    let lam := C0 / fRF * MtoMM
    let k := if p.beta = 0 then none else some (2 * Real.pi * fRF / (p.beta * C0 * MtoMM))
    match boostLoop p.IonZ p.IonEs EfieldScl lam dz (fields cavData) { W := p.IonW, fy := IonFy0, k := k } with
    | none => .error .logic
    | some b => .ok (b.W, b.fy)

open Classical in
/-- `GetCavPhase` (/repo/src/rf_cavity.cpp:612-648).  `pow` of a kinetic energy that is not positive is infinite or NaN. -/
noncomputable def getCavPhase (cavi : Nat) (ref : Particle) (IonFys multip : ℝ) (P : List ℝ) : Except Err ℝ :=
  let Ek := (ref.IonW - ref.IonEs) / MeVtoeV
  let done : ℝ → Except Err ℝ := fun Fyc => .ok (IonFys - Fyc - ref.phis * multip)
  if Ek ≤ 0 then .error .logic
  else
    match cavi with
    | 1 => done (4.394 * rpow Ek (-0.4965) - 4.731)
    | 2 => done (5.428 * rpow Ek (-0.5008) + 1.6)
    | 3 => done (22.35 * rpow Ek (-0.5348) + 2.026)
    | 4 => done (41.43 * rpow Ek (-0.5775) + 2.59839)
    | 5 => done (5.428 * rpow Ek (-0.5008) + 1.6)
    | 0 =>
      match P with
      | a :: b :: c :: _ => done (a * rpow Ek b - c)
      | _ => .error .logic
    | _ => .error .runtime

open Classical in
/-- `GetCavPhaseComplex` (/repo/src/rf_cavity.cpp:651-671). -/
noncomputable def getCavPhaseComplex (ref : Particle) (IonFys scale multip : ℝ) (P : List ℝ) : Except Err ℝ :=
  let Ek := (ref.IonW - ref.IonEs) / MeVtoeV
  if P.length % 5 ≠ 0 then .error .runtime
  else if Ek ≤ 0 then .error .logic
  else
    let Fyc := ((List.range (P.length / 5)).map (fun i =>
      (P.getD (5 * i) 0 * rpow Ek (P.getD (5 * i + 1) 0) + P.getD (5 * i + 2) 0 * Real.log Ek
        + P.getD (5 * i + 3) 0 * Real.exp (-Ek) + P.getD (5 * i + 4) 0) * ipow scale i)).sum
    .ok (IonFys - Fyc - ref.phis * multip)

open Classical in
/-- The driven phase in `PropagateLongRFCav` (/repo/src/rf_cavity.cpp:1524-1540). -/
noncomputable def drivenPhase (c : LCfg) (cav : Cav) (ref : Particle) (multip EfieldScl : ℝ) : Except Err ℝ :=
  let fsync := getNumD c "syncflag" 1
  if 1 ≤ fsync then
    match cav.refNrm, cav.synComplex with
    | some r, some P =>
      if cav.cavi = 0 ∧ fsync = 1 then getCavPhaseComplex ref cav.ionFys (EfieldScl * ref.IonZ / r) multip P
      else getCavPhase cav.cavi ref cav.ionFys multip cav.synAccTab
    | _, _ => getCavPhase cav.cavi ref cav.ionFys multip cav.synAccTab
  else
    match getNum c "phi" with
    | .error e => .error e
    | .ok phi => .ok (phi * Real.pi / 180)

/-- A particle behind the cavity (/repo/src/rf_cavity.cpp:1556-1558, 1665-1667). -/
noncomputable def boosted (p : Particle) (W fy0 fy multip : ℝ) : Particle :=
  let p := Particle.recalc { p with IonW := W, IonEk := W - p.IonEs }
  { p with phis := p.phis + (fy - fy0) / multip }

/-- `PropagateLongRFCav` (/repo/src/rf_cavity.cpp:1510-1559): the reference particle and `phi_ref`. -/
noncomputable def propagateLong (c : LCfg) (cav : Cav) (ref : Particle) : Except Err (Particle × ℝ) :=
  let multip := cav.fRF / ref.SampleFreq
  match getNum c "scl_fac" with
  | .error e => .error e
  | .ok scl =>
    match drivenPhase c cav ref multip scl with
    | .error e => .error e
    | .ok caviFy =>
      let fy0 := multip * ref.phis + caviFy
      match getCavBoost cav.cavData cav.fRF ref fy0 scl with
      | .error e => .error e
      | .ok (W, fy) => .ok (boosted ref W fy0 fy multip, caviFy)

/-! ## matrices -/

/-- Transverse drift, focusing kick, vertical kick, acceleration (/repo/src/rf_cavity.cpp:1100-1101, 1115-1116, 1137,
1208-1209); longitudinal drift and kick (1043, 1045). -/
noncomputable def driftT (l : ℝ) : Mat := setAt (setAt 1 0 1 l) 2 3 l
noncomputable def focusT (a b : ℝ) : Mat := setAt (setAt 1 1 0 a) 3 2 b
noncomputable def kickT (a : ℝ) : Mat := setAt 1 3 6 a
noncomputable def accelT (a : ℝ) : Mat := setAt (setAt 1 1 1 a) 3 3 a
noncomputable def driftL (a : ℝ) : Mat := setAt 1 4 5 a
noncomputable def kickL (a : ℝ) : Mat := setAt 1 5 4 a

/-- The last lines of `GenCavMat2` and `GetCavMatGeneric` (/repo/src/rf_cavity.cpp:1222-1227, 1448-1453). -/
def combine (trans lon : Mat) : Mat :=
  setAt (setAt (setAt (setAt trans 4 4 (lon 4 4)) 4 5 (lon 4 5)) 5 4 (lon 5 4)) 5 5 (lon 5 5)

/-- `gamma`, `beta` and the wave number at a total energy. -/
structure Kin where
  gamma : ℝ
  beta : ℝ
  k : ℝ

open Classical in
/-- For instance /repo/src/rf_cavity.cpp:1244-1246.  At rest the wave number is infinite. -/
noncomputable def kin (Es W lam : ℝ) : Except Err Kin :=
  let g := W / Es
  if g * g ≤ 1 then .error .logic
  else
    let b := Real.sqrt (1 - 1 / (g * g))
    .ok { gamma := g, beta := b, k := 2 * Real.pi / (b * lam) }

/-- Strength of an electric and of a magnetic kick, without the aperture (/repo/src/rf_cavity.cpp:1107, 1158). -/
noncomputable def eKick (Z V0 beta gamma T S fy : ℝ) : ℝ :=
  Z * V0 / (beta * beta) / gamma / 1 / AU * (T * Real.cos fy - S * Real.sin fy)
noncomputable def hKick (Z V0 beta gamma T S fy : ℝ) : ℝ :=
  -MU0 * C0 * Z * V0 / beta / gamma / 1 / AU *
    (T * Real.cos (fy + Real.pi / 2) - S * Real.sin (fy + Real.pi / 2))

/-- `CavTLMLineType`, one line (/repo/src/flame/rf_cavity.h:33-47); position and type are those of the lattice. -/
structure Line where
  E0 : ℝ
  T : ℝ
  S : ℝ
  Accel : ℝ

open Classical in
/-- A multipole line: by reflection the first gap may use another multipole, and one of its factors changes sign
(/repo/src/rf_cavity.cpp:902-975). -/
noncomputable def poleLine (cav : Cav) (E0 s k0 k1 : ℝ) (first second : Pole) (flipT : Bool) : Except Err Line :=
  if s < 0 then
    match transitFacMultipole cav.forcettfcalc cav.mlptable cav.cavi first k0 with
    | .error e => .error e
    | .ok (T, S) => .ok (if flipT then ⟨E0, -T, S, 0⟩ else ⟨E0, T, -S, 0⟩)
  else
    match transitFacMultipole cav.forcettfcalc cav.mlptable cav.cavi second k1 with
    | .error e => .error e
    | .ok (T, S) => .ok ⟨E0, T, S, 0⟩

open Classical in
/-- One turn of the loop of `GetCavMatParams` (/repo/src/rf_cavity.cpp:892-991): `s` behind the element. -/
noncomputable def lineOf (cav : Cav) (k0 k1 : ℝ) (a b c : Kin) (s : ℝ) (P : RawParams) : Except Err Line :=
  match P.type with
  | "drift" => .ok ⟨0, 0, 0, 0⟩
  | "EFocus1" => poleLine cav P.E0 s k0 k1 .EFocus2 .EFocus1 false
  | "EFocus2" => poleLine cav P.E0 s k0 k1 .EFocus1 .EFocus2 false
  | "EDipole" => if 1 ≤ cav.mpoleLevel then poleLine cav P.E0 s k0 k1 .EDipole .EDipole false else .ok ⟨P.E0, 0, 0, 0⟩
  | "EQuad" => if 2 ≤ cav.mpoleLevel then poleLine cav P.E0 s k0 k1 .EQuad .EQuad false else .ok ⟨P.E0, 0, 0, 0⟩
  | "HMono" => if 2 ≤ cav.mpoleLevel then poleLine cav P.E0 s k0 k1 .HMono .HMono true else .ok ⟨P.E0, 0, 0, 0⟩
  | "HDipole" => if 1 ≤ cav.mpoleLevel then poleLine cav P.E0 s k0 k1 .HDipole .HDipole true else .ok ⟨P.E0, 0, 0, 0⟩
  | "HQuad" => if 2 ≤ cav.mpoleLevel then poleLine cav P.E0 s k0 k1 .HQuad .HQuad true else .ok ⟨P.E0, 0, 0, 0⟩
  | "AccGap" =>
    .ok ⟨0, 0, 0, if s < 0 then a.beta * a.gamma / (b.beta * b.gamma) else b.beta * b.gamma / (c.beta * c.gamma)⟩
  | _ => .error .runtime

/-- The loop of `GetCavMatParams` (/repo/src/rf_cavity.cpp:890-992), `s` before the element: every element with the position
behind it and its line. -/
noncomputable def linesFrom (cav : Cav) (k0 k1 : ℝ) (a b c : Kin) : ℝ → List RawParams →
    Except Err (List (RawParams × ℝ × Line))
  | _, [] => .ok []
  | s, P :: l =>
    match lineOf cav k0 k1 a b c (s + P.length) P with
    | .error e => .error e
    | .ok x =>
      match linesFrom cav k0 k1 a b c (s + P.length) l with
      | .error e => .error e
      | .ok r => .ok ((P, s + P.length, x) :: r)

/-- `GetCavMatParams` (/repo/src/rf_cavity.cpp:881-998). -/
noncomputable def getCavMatParams (cav : Cav) (k0 k1 : ℝ) (a b c : Kin) : Except Err (List (RawParams × ℝ × Line)) :=
  if cav.lattice = [] then .error .runtime
  else linesFrom cav k0 k1 a b c ((positions cav.cavData).headD 0) cav.lattice

/-- Variables of the transverse loop of `GenCavMat2` (/repo/src/rf_cavity.cpp:1074-1086). -/
structure Trans where
  seg : Nat
  beta : ℝ
  gamma : ℝ
  fy : ℝ
  kfac : ℝ
  M : Mat

open Classical in
/-- One turn of the transverse loop of `GenCavMat2` (/repo/src/rf_cavity.cpp:1088-1215). -/
noncomputable def transStep (mpole : Nat) (Z scl Rm lam : ℝ) (a b c : Kin) (q : RawParams × ℝ × Line) (t : Trans) :
    Except Err Trans :=
  let P := q.1
  let x := q.2.2
  let V0 := x.E0 * scl
  match P.type with
  | "drift" => .ok { t with fy := t.fy + t.kfac * P.length, M := driftT P.length * t.M }
  | "EFocus1" =>
    let f := eKick Z V0 t.beta t.gamma x.T x.S t.fy / Rm
    .ok { t with M := focusT f f * t.M }
  | "EFocus2" =>
    let f := eKick Z V0 t.beta t.gamma x.T x.S t.fy / Rm
    .ok { t with M := focusT f f * t.M }
  | "EDipole" =>
    .ok (if 1 ≤ mpole then { t with M := kickT (eKick Z V0 t.beta t.gamma x.T x.S t.fy) * t.M } else t)
  | "EQuad" =>
    let f := eKick Z V0 t.beta t.gamma x.T x.S t.fy / Rm
    .ok (if 2 ≤ mpole then { t with M := focusT f (-f) * t.M } else t)
  | "HMono" =>
    let f := hKick Z V0 t.beta t.gamma x.T x.S t.fy / Rm
    .ok (if 2 ≤ mpole then { t with M := focusT f f * t.M } else t)
  | "HDipole" =>
    .ok (if 1 ≤ mpole then { t with M := kickT (hKick Z V0 t.beta t.gamma x.T x.S t.fy) * t.M } else t)
  | "HQuad" =>
    let beta := if q.2.1 < 0 then (a.beta + b.beta) / 2 else (b.beta + c.beta) / 2
    let gamma := if q.2.1 < 0 then (a.gamma + b.gamma) / 2 else (b.gamma + c.gamma) / 2
    let f := hKick Z V0 beta gamma x.T x.S t.fy / Rm
    .ok (if 2 ≤ mpole then { t with beta := beta, gamma := gamma, M := focusT f (-f) * t.M } else t)
  | "AccGap" =>
    match [a, b, c][t.seg + 1]? with
    | none => .error .logic
    | some g =>
      .ok { t with seg := t.seg + 1, beta := g.beta, gamma := g.gamma, kfac := 2 * Real.pi / (g.beta * lam),
                   M := accelT x.Accel * t.M }
  | _ => .error .runtime

/-- A loop that may throw. -/
def foldE {α β : Type} (f : α → β → Except Err β) : List α → β → Except Err β
  | [], b => .ok b
  | a :: l, b =>
    match f a b with
    | .error e => .error e
    | .ok b' => foldE f l b'

/-- The longitudinal part of `GenCavMat2` (/repo/src/rf_cavity.cpp:1025-1068): drift, kick, drift, kick, drift. -/
noncomputable def lonM (Z Es dis lam : ℝ) (a b c : Kin) (g1 g2 : Gap) (fy1 fy2 : ℝ) : Mat :=
  let slip : Kin → ℝ → ℝ := fun q L =>
    -2 * Real.pi / lam * (1 / ((q.beta * q.gamma) * (q.beta * q.gamma) * (q.beta * q.gamma)) * MeVtoeV / Es * L)
  let kick : Gap → ℝ → ℝ := fun g u => -Z * g.V0 * g.T * Real.sin u - Z * g.V0 * g.S * Real.cos u
  let L1 := dis + g1.Ecen
  let L2 := g2.Ecen - g1.Ecen
  let L3 := dis - g2.Ecen
  driftL (slip c L3) * (kickL (kick g2 (fy2 + (b.k + c.k) / 2 * g2.Ecen)) *
    (driftL (slip b L2) * (kickL (kick g1 (fy1 + (a.k + b.k) / 2 * L1)) * driftL (slip a L1))))

/-- `EvalGapModel` (/repo/src/rf_cavity.cpp:674-689): energy, kinematics and phase behind the gap. -/
noncomputable def evalGapModel (dis W0 Z Es fy0 k lam : ℝ) (g : Gap) : Except Err (ℝ × Kin × ℝ) :=
  let u := fy0 + k * g.Ecen
  let W := W0 + Z * g.V0 * g.T * Real.cos u * MeVtoeV - Z * g.V0 * g.S * Real.sin u * MeVtoeV
  match kin Es W lam with
  | .error e => .error e
  | .ok q =>
    .ok (W, q, u + q.k * (dis - g.Ecen) +
      Z * g.V0 * k * (g.Tp * Real.sin u + g.Sp * Real.cos u) / (2 * (W0 - Es) / MeVtoeV))

/-- `GetCavMat` and `GenCavMat2` (/repo/src/rf_cavity.cpp:1231-1290, 1001-1228). -/
noncomputable def getCavMat (cav : Cav) (label : Nat) (Rm Z Es scl fy0 Ek : ℝ) : Except Err Mat :=
  let lam := C0 / cav.fRF * MtoMM
  let dis := extent cav.cavData / 2
  match kin Es (Ek + Es) lam with
  | .error e => .error e
  | .ok a =>
    match transFacts cav.forcettfcalc cav.cavData label a.beta a.k 1 scl with
    | .error e => .error e
    | .ok g1 =>
      match evalGapModel dis (Ek + Es) Z Es fy0 a.k lam g1 with
      | .error e => .error e
      | .ok (W1, b, fy1) =>
        match transFacts cav.forcettfcalc cav.cavData label b.beta b.k 2 scl with
        | .error e => .error e
        | .ok g2 =>
          match evalGapModel dis W1 Z Es fy1 b.k lam g2 with
          | .error e => .error e
          | .ok (_, c, _) =>
            match getCavMatParams cav ((a.k + b.k) / 2) ((b.k + c.k) / 2) a b c with
            | .error e => .error e
            | .ok lines =>
              match foldE (transStep cav.mpoleLevel Z scl Rm lam a b c) lines
                  { seg := 0, beta := a.beta, gamma := a.gamma, fy := fy0, kfac := a.k, M := 1 } with
              | .error e => .error e
              | .ok t => .ok (combine t.M (lonM Z Es dis lam a b c { g1 with Ecen := g1.Ecen - dis } g2 fy0 fy1))

/-- Variables of the loop of `GetCavMatGeneric` (/repo/src/rf_cavity.cpp:1301-1313). -/
structure Gen where
  W : ℝ
  gamma : ℝ
  beta : ℝ
  fy : ℝ
  kfac : ℝ
  M : Mat
  lon : Mat

open Classical in
/-- One turn of the loop of `GetCavMatGeneric` (/repo/src/rf_cavity.cpp:1318-1441). -/
noncomputable def genStep (mpole : Nat) (Z Es scl Rm lam : ℝ) (P : RawParams) (t : Gen) : Except Err Gen :=
  let V0 := P.E0 * scl
  let T := calFitPow t.kfac P.Tfit
  let S := calFitPow t.kfac P.Sfit
  match P.type with
  | "drift" =>
    .ok { t with
      fy := t.fy + t.kfac * P.length
      M := driftT P.length * t.M
      lon := driftL (-2 * Real.pi / lam *
        (1 / ((t.beta * t.gamma) * (t.beta * t.gamma) * (t.beta * t.gamma)) * MeVtoeV / Es * P.length)) * t.lon }
  | "EFocus" =>
    let f := eKick Z V0 t.beta t.gamma T S t.fy / Rm
    .ok { t with M := focusT f f * t.M }
  | "EDipole" => .ok (if 1 ≤ mpole then { t with M := kickT (eKick Z V0 t.beta t.gamma T S t.fy) * t.M } else t)
  | "EQuad" =>
    let f := eKick Z V0 t.beta t.gamma T S t.fy / Rm
    .ok (if 2 ≤ mpole then { t with M := focusT f (-f) * t.M } else t)
  | "HMono" =>
    let f := hKick Z V0 t.beta t.gamma T S t.fy / Rm
    .ok (if 2 ≤ mpole then { t with M := focusT f f * t.M } else t)
  | "HDipole" => .ok (if 1 ≤ mpole then { t with M := kickT (hKick Z V0 t.beta t.gamma T S t.fy) * t.M } else t)
  | "HQuad" =>
    let f := hKick Z V0 t.beta t.gamma T S t.fy / Rm
    .ok (if 2 ≤ mpole then { t with M := focusT f (-f) * t.M } else t)
  | "AccGap" =>
    let W := t.W + Z * V0 * MeVtoeV * T * Real.cos t.fy - Z * V0 * MeVtoeV * S * Real.sin t.fy
    match kin Es W lam with
    | .error e => .error e
    | .ok q =>
      .ok { W := W, gamma := q.gamma, beta := q.beta, fy := t.fy, kfac := q.k,
            M := accelT (t.beta * t.gamma / (q.beta * q.gamma)) * t.M,
            lon := kickL (-Z * V0 * T * Real.sin t.fy - Z * V0 * S * Real.cos t.fy) * t.lon }
  | _ => .error .runtime

open Classical in
/-- `GetCavMatGeneric` (/repo/src/rf_cavity.cpp:1293-1454). -/
noncomputable def getCavMatGeneric (cav : Cav) (Z Es scl fy0 Ek : ℝ) : Except Err Mat :=
  let lam := C0 / cav.fRF * MtoMM
  match kin Es (Ek + Es) lam with
  | .error e => .error e
  | .ok a =>
    if cav.cRm ≤ 0 then .error .logic
    else
      match foldE (genStep cav.mpoleLevel Z Es scl cav.cRm lam) cav.lattice
          { W := Ek + Es, gamma := a.gamma, beta := a.beta, fy := fy0, kfac := a.k, M := 1, lon := 1 } with
      | .error e => .error e
      | .ok t => .ok (combine t.M t.lon)

/-- The change of the phase coordinate between the frequencies (/repo/src/rf_cavity.cpp:1691-1694). -/
noncomputable def jump (multip : ℝ) (M : Mat) : Mat :=
  (List.finRange 7).foldl (fun M i =>
    let M := setAt M i 4 (M i 4 * multip)
    setAt M 4 i (M 4 i / multip)) M

/-- Label and aperture by cavity (/repo/src/rf_cavity.cpp:1632-1654); the exception at the end cannot be reached. -/
noncomputable def labelOf : Nat → Except Err (Nat × ℝ)
  | 1 => .ok (41, 17)
  | 2 => .ok (85, 17)
  | 3 => .ok (29, 20)
  | 4 => .ok (53, 20)
  | 5 => .ok (53, 20)
  | 0 => .ok (0, 0)
  | _ => .error .logic

open Classical in
/-- `InitRFCav` (/repo/src/rf_cavity.cpp:1625-1700): a charge state behind the cavity and its matrix. -/
noncomputable def initRFCav (c : LCfg) (cav : Cav) (phiRef : ℝ) (real : Particle) : Except Err (Particle × Mat) :=
  match labelOf cav.cavi with
  | .error e => .error e
  | .ok (label, Rm) =>
    let multip := cav.fRF / real.SampleFreq
    let fy0 := multip * real.phis + phiRef
    match getNum c "scl_fac" with
    | .error e => .error e
    | .ok scl =>
      match getCavBoost cav.cavData cav.fRF { real with IonW := real.IonEk + real.IonEs } fy0 scl with
      | .error e => .error e
      | .ok (W, fy) =>
        let real' := boosted real W fy0 fy multip
        match (if 0 < cav.cavi then getCavMat cav label Rm real.IonZ real.IonEs scl fy0 real.IonEk
          else getCavMatGeneric cav real.IonZ real.IonEs scl fy0 real.IonEk) with
        | .error e => .error e
        | .ok M => .ok (real', if multip ≠ 1 then jump multip M else M)

/-- `ElementRFCavity::recompute_matrix` (/repo/src/flame/rf_cavity.h:292-314): the reference particle, `phi_ref` and the
charge states with their matrices.  `SampleIonK` keeps its old value.  The drift matrix that is stored first is overwritten. -/
noncomputable def recomputeCav (c : LCfg) (cav : Cav) (ref : Particle) (real : List Particle) :
    Except Err (Particle × ℝ × List (Particle × Mat)) :=
  match propagateLong c cav ref with
  | .error e => .error e
  | .ok (ref', phiRef) =>
    match forEach (fun p =>
        match initRFCav c cav phiRef p with
        | .error e => .error e
        | .ok (p', M) => .ok ({ p' with SampleIonK := p.SampleIonK }, M)) real with
    | .error e => .error e
    | .ok l => .ok (ref', phiRef, l)

/-! ## construction -/

/-- The files of a cavity: `table` is `numeric_table_cache::fetch` (see `Verif/Util`), `lines` the parsed lines of a
"thinlenlon" file (/repo/src/rf_cavity.cpp:769-803), `generic` the parsed data file of a generic cavity and its elements
(/repo/src/rf_cavity.cpp:807-829).  They are fixed during a history. -/
structure Files where
  table : String → Except Err Table
  lines : String → Except Err (List RawParams)
  generic : String → Except Err (LCfg × List LCfg)

/-- One element of the data file of a generic cavity (/repo/src/rf_cavity.cpp:832-864): the lattice and `SynAccTab`.
`attrs` is read without a look at its size. -/
noncomputable def genericElem (e : LCfg) (acc : List RawParams × List ℝ) : Except Err (List RawParams × List ℝ) :=
  match getStr e "type", getNum e "L" with
  | .ok ty, .ok L =>
    if ty = "drift" then .ok (acc.1 ++ [{ type := ty, length := L, E0 := 0, Tfit := [], Sfit := [] }], acc.2)
    else
      match getNum e "V0" with
      | .error err => .error err
      | .ok V0 =>
        let attrs := match getVec e "attr" with
          | .ok a => a
          | .error _ => []
        if attrs.length < 20 then .error .logic
        else
          let P : RawParams := { type := ty, length := L, E0 := V0, Tfit := attrs.take 10, Sfit := (attrs.drop 10).take 10 }
          if ty = "AccGap" ∧ acc.2 = [] then
            if attrs.length < 23 then .error .logic
            else .ok (acc.1 ++ [P], (attrs.drop 20).take 3)
          else .ok (acc.1 ++ [P], acc.2)
  | _, _ => .error .keyError

/-- The cavity types with files of their own: `cavi` and the label in the file names (/repo/src/rf_cavity.cpp:720-739). -/
def shipped : String → Option (Nat × String)
  | "0.041QWR" => some (1, "41")
  | "0.085QWR" => some (2, "85")
  | "0.29HWR" => some (3, "29")
  | "0.53HWR" => some (4, "53")
  | _ => none

/-- The files of such a cavity (/repo/src/rf_cavity.cpp:747-804).  What is stored from a file with a fault is not
represented. -/
noncomputable def loadShipped (files : Files) (dir lab : String) (cav : Cav) : Cav × Option Err :=
  match files.table (dir ++ "/axisData_" ++ lab ++ ".txt") with
  | .error _ => (cav, some .runtime)
  | .ok t =>
    let cav := { cav with cavData := t }
    if t.rows = [] ∨ t.cols < 2 then (cav, some .runtime)
    else
      match files.table (dir ++ "/Multipole" ++ lab ++ "/CaviMlp_" ++ lab ++ ".txt") with
      | .error _ => (cav, some .runtime)
      | .ok m =>
        let cav := { cav with mlptable := m }
        if m.rows = [] ∨ m.cols < 7 then (cav, some .runtime)
        else
          match files.lines (dir ++ "/Multipole" ++ lab ++ "/thinlenlon_" ++ lab ++ ".txt") with
          | .error _ => (cav, some .runtime)
          | .ok l => ({ cav with lattice := cav.lattice ++ l }, none)

/-- The file of a generic cavity (/repo/src/rf_cavity.cpp:805-878), likewise. -/
noncomputable def loadGeneric (files : Files) (cav : Cav) : Cav × Option Err :=
  match files.generic cav.dataFile with
  | .error e => (cav, some e)
  | .ok (top, els) =>
    match foldE genericElem els (cav.lattice, cav.synAccTab) with
    | .error e => (cav, some e)
    | .ok (lattice, synAccTab) =>
      let cav := { cav with lattice := lattice, synAccTab := synAccTab }
      match getVec top "Ez" with
      | .error _ => (cav, some .runtime)
      | .ok Ez =>
        match Flame.Util.readvec Ez 2 0 with
        | none => (cav, some .logic)
        | some (n, _, m) =>
          ({ cav with
              cavData := { cols := 2, rows := (List.range n).map (fun i => [m i 0, m i 1]) }
              cRm := (optNum top "Rm").getD cav.cRm
              refNrm := optNum top "RefNorm"
              synComplex := match getVec top "SyncFit" with
                | .ok v => some v
                | .error _ => none }, none)

/-- `LoadCavityFile` (/repo/src/rf_cavity.cpp:699-879).  `defpath` is ".". -/
noncomputable def loadCavity (env : Env) (files : Files) (c : LCfg) (cav : Cav) : Cav × Option Err :=
  match getNum c "f" with
  | .error e => (cav, some e)
  | .ok f =>
    let cav := { cav with fRF := f }
    match getNum c "phi" with
    | .error e => (cav, some e)
    | .ok phi =>
      let cav := { cav with
        ionFys := phi * Real.pi / 180
        phiRef := none
        cRm := getNumD c "Rm" 0
        forcettfcalc := @decide (getNumD c "forcettfcalc" 0 ≠ 0) (Classical.propDecidable _) }
      match getFlag env c "MpoleLevel" 2 with
      | .error e => (cav, some e)
      | .ok m =>
        let cav := { cav with mpoleLevel := m }
        match getFlag env c "EmitGrowth" 0 with
        | .error e => (cav, some e)
        | .ok g =>
          let cav := { cav with emitGrowth := g }
          if 2 < m ∨ 1 < g then (cav, some .runtime)
          else
            match getStr c "cavtype" with
            | .error e => (cav, some e)
            | .ok ty =>
              let cav := { cav with cavType := ty }
              let dir := getStrD c "Eng_Data_Dir" "."
              match shipped ty with
              | some (i, lab) => loadShipped files dir lab { cav with cavi := i }
              | none =>
                if ty = "Generic" then
                  match getStr c "datafile" with
                  | .error e => (cav, some e)
                  | .ok f => loadGeneric files { cav with dataFile := dir ++ "/" ++ f, cavi := 0 }
                else (cav, some .runtime)

/-- A cavity before its constructor has run. -/
noncomputable def noCav : Cav :=
  { lattice := [], mlptable := ⟨0, []⟩, cavData := ⟨0, []⟩, cavType := "", dataFile := "", synAccTab := [], refNrm := none,
    synComplex := none, fRF := 0, ionFys := 0, phiRef := none, cRm := 0, cavi := 0, forcettfcalc := false, mpoleLevel := 0,
    emitGrowth := 0, misalign := [] }

/-- `ElementRFCavity::ElementRFCavity` (/repo/src/rf_cavity.cpp:692-696). -/
noncomputable def buildCavity (env : Env) (files : Files) (junk : Mat) (c : LCfg) : Except Err MDat :=
  match build env junk .drift c with
  | .error e => .error e
  | .ok d =>
    match loadCavity env files c noCav with
    | (_, some e) => .error e
    | (cav, none) => .ok { d with cav := some cav }

/-! ## advance -/

/-- `operator<=` (/repo/src/flame/moment.h:74-80). -/
def alike (l r : Particle) : Prop :=
  l.IonEk = r.IonEk ∧ l.IonEs = r.IonEs ∧ l.IonZ = r.IonZ ∧ l.IonQ = r.IonQ ∧ l.SampleFreq = r.SampleFreq

/-- `check_backward` (/repo/src/moment.cpp:738-751).  Before the first propagation `last_ref_out` is NaN. -/
def checkBackward (d : MDat) (s : MSt) : Prop :=
  d.refIn ≠ none ∧ alike d.refOut s.ref ∧ List.Forall₂ alike d.realOut s.real

/-- What is loaded again before the matrices are computed (/repo/src/flame/rf_cavity.h:173-186). -/
noncomputable def reload (env : Env) (files : Files) (c : LCfg) (cav : Cav) : Cav × Option Err :=
  match getStr c "cavtype" with
  | .error e => (cav, some e)
  | .ok ty =>
    if cav.cavType ≠ ty then loadCavity env files c { cav with lattice := [], synAccTab := [] }
    else if cav.cavType = "Generic" then
      match getStr c "datafile" with
      | .error e => (cav, some e)
      | .ok f =>
        if cav.dataFile ≠ getStrD c "Eng_Data_Dir" "." ++ "/" ++ f then
          loadCavity env files c { cav with lattice := [], synAccTab := [] }
        else (cav, none)
    else (cav, none)

/-- `fDeltaPhi` and `f2DeltaPhi` (/repo/src/rf_cavity.cpp:1587-1589). -/
noncomputable def phaseForm (u : ℝ) : ℝ := 15 / (u * u) * (3 / (u * u) * (Real.sin u / u - Real.cos u) - Real.sin u / u)

open Classical in
/-- `kpX`, which is also `kpY` (/repo/src/rf_cavity.cpp:1573, 1576-1583, 1586, 1597): `pin`, `pout` are the charge state in front of
and behind the cavity. -/
noncomputable def kickPer (cav : Cav) (ref pin pout : Particle) (betaf gammaf : ℝ) : ℝ :=
  let lam := C0 / cav.fRF * MtoMM
  let ab := (pout.beta + pin.beta) / 2
  let ag := (pout.gamma + pin.gamma) / 2
  let cs := Real.cos cav.ionFys
  let E0TL := if -0.0001 < cs ∧ cs < 0.0001 then 0 else (pout.IonW - pin.IonW) / cs / ref.IonZ
  let kpX := -Real.pi * |ref.IonZ| * E0TL / ref.IonEs / ((ab * ag) * (ab * ag)) / betaf / gammaf / lam
  kpX

open Classical in
/-- `deltaAveXp2f` or `deltaAveYp2f` (/repo/src/rf_cavity.cpp:1584, 1587-1591, 1598); NaN, written `none`, unless the phase
spread `v` is positive. -/
noncomputable def angleGrowth (cav : Cav) (kp v x2 cx : ℝ) : Option ℝ :=
  let cs := Real.cos cav.ionFys
  let sn := Real.sin cav.ionFys
  let D := Real.sqrt v
  let g := 0.5 * (1 + (sn * sn - cs * cs) * phaseForm (2 * D))
  if 0 < v then some (kp * kp * (g - (sn * phaseForm D) * (sn * phaseForm D)) * (x2 + cx * cx)) else none

open Classical in
/-- `deltaAveZp2` (/repo/src/rf_cavity.cpp:1604-1608); NaN if the phase spread is negative. -/
noncomputable def energyGrowth (cav : Cav) (kp ab ag v : ℝ) : Option ℝ :=
  let cs := Real.cos cav.ionFys
  let sn := Real.sin cav.ionFys
  let D := Real.sqrt v
  let kpZ := -2 * kp * (ag * ag)
  let ionK := 2 * Real.pi / (ab * (C0 / cav.fRF * MtoMM))
  if 0 ≤ v then some ((kpZ * D) * (kpZ * D) * (D * D / (ionK * ionK)) * (cs * cs / 8 + D * sn / 576)) else none

open Classical in
/-- An increase factor (/repo/src/rf_cavity.cpp:1592-1594, 1599-1602, 1610-1612): NaN is not greater than zero.  `none` if the
factor is infinite or NaN. -/
noncomputable def increase (d : Option ℝ) (old : ℝ) : Option ℝ :=
  match d with
  | none => some 1
  | some d => if 0 < d + old then (if 0 < old then some (Real.sqrt ((d + old) / old)) else none) else some 1

open Classical in
/-- The three factors of `calRFcaviEmitGrowth` (/repo/src/rf_cavity.cpp:1562-1612); `M` is the covariance in front.  `none` if
one of them is not a number, and also if a denominator in the formulas is zero, where some of them may still be numbers. -/
noncomputable def emitFactors (cav : Cav) (ref pin pout : Particle) (betaf gammaf x2 cx y2 cy : ℝ) (M : Mat) :
    Option (ℝ × ℝ × ℝ) :=
  let ab := (pout.beta + pin.beta) / 2
  let ag := (pout.gamma + pin.gamma) / 2
  let kp := kickPer cav ref pin pout betaf gammaf
  let lt := 1 / (ag - 1) / ref.IonEs * MeVtoeV
  if cav.fRF = 0 ∨ ref.IonZ = 0 ∨ ref.IonEs = 0 ∨ ab = 0 ∨ ag = 0 ∨ betaf = 0 ∨ gammaf = 0 ∨ ag = 1 then none
  else
    match increase (angleGrowth cav kp (M 4 4) x2 cx) (M 1 1), increase (angleGrowth cav kp (M 4 4) y2 cy) (M 3 3),
        increase (energyGrowth cav kp ab ag (M 4 4)) (M 5 5 * (lt * lt)) with
    | some a, some b, some c => some (a, b, c)
    | _, _, _ => none

/-- `calRFcaviEmitGrowth` (/repo/src/rf_cavity.cpp:1562-1622).  See `cavGrown` for the case without factors. -/
noncomputable def emitGrowth (cav : Cav) (ref pin pout : Particle) (betaf gammaf x2 cx y2 cy : ℝ) (M : Mat) : Mat :=
  match emitFactors cav ref pin pout betaf gammaf x2 cx y2 cy M with
  | none => M
  | some (facX, facY, facZ) =>
    (List.finRange 7).foldl (fun M k =>
      let M := setAt M 1 k (M 1 k * facX)
      let M := setAt M k 1 (M k 1 * facX)
      let M := setAt M 3 k (M 3 k * facY)
      let M := setAt M k 3 (M k 3 * facY)
      let M := setAt M 5 k (M 5 k * facZ)
      setAt M k 5 (M k 5 * facZ)) M

/-- One charge state in the forward part of `advance` (/repo/src/flame/rf_cavity.h:224-267): the stored matrix, the centroid,
the covariance and `transmat`. -/
noncomputable def cavOne (cav : Cav) (ref : Particle) (T : Mat) (mis : Mat × Mat) (p pin pout : Particle) (v : Vec) (S : Mat) :
    Mat × Vec × Mat × Mat :=
  let v1 := mis.1.mulVec v
  let T0 := setAt (setAt T 4 6 0) 5 6 0
  let v2 := T0.mulVec v1
  let s0 := p.phis - ref.phis
  let s1 := (p.IonEk - ref.IonEk) / MeVtoeV
  let T1 := setAt (setAt T0 4 6 (-v2 4 + s0)) 5 6 (-v2 5 + s1)
  let v3 : Vec := fun i => if i = 4 then s0 else if i = 5 then s1 else v2 i
  let S2 := congr T1 (congr mis.1 S)
  let S3 := if cav.emitGrowth ≠ 0 then emitGrowth cav ref pin pout p.beta p.gamma (S 0 0) (v1 0) (S 2 2) (v1 2) S2 else S2
  (T1, mis.2.mulVec v3, congr mis.2 S3, mis.2 * (T1 * mis.1))

/-- All entries of the covariance of a charge state are numbers (/repo/src/flame/rf_cavity.h:224-261). -/
def grownOne (cav : Cav) (ref : Particle) (T : Mat) (mis : Mat × Mat) (p pin pout : Particle) (v : Vec) (S : Mat) : Prop :=
  cav.emitGrowth ≠ 0 →
    let v1 := mis.1.mulVec v
    emitFactors cav ref pin pout p.beta p.gamma (S 0 0) (v1 0) (S 2 2) (v1 2)
      (congr (cavOne cav ref T mis p pin pout v S).1 (congr mis.1 S)) ≠ none

/-- `fmod` with a positive second argument. -/
noncomputable def fmod (x y : ℝ) : ℝ := x - y * (if 0 ≤ x then (⌊x / y⌋ : ℝ) else (⌈x / y⌉ : ℝ))

/-- `last_caviphi0` (/repo/src/flame/rf_cavity.h:288). -/
noncomputable def caviphi (env : Env) (cav : Cav) : ℝ :=
  match cav.phiRef with
  | none => env.junk.IonW
  | some x => fmod (x * 180 / Real.pi) 360

/-- The loop over the charge states (/repo/src/flame/rf_cavity.h:224-268); `ends` are the charge states in front of and
behind the cavity. -/
noncomputable def cavLoop (cav : Cav) (ref : Particle) : List Mat → List (Mat × Mat) → List Particle →
    List (Particle × Particle) → List Vec → List Mat → List (Mat × Vec × Mat × Mat)
  | T :: Ts, m :: ms, p :: ps, e :: es, v :: vs, S :: Ss =>
    cavOne cav ref T m p e.1 e.2 v S :: cavLoop cav ref Ts ms ps es vs Ss
  | _, _, _, _, _, _ => []

/-- All entries of all covariances are numbers.  Otherwise the code carries on with them; the model reports an error. -/
def cavGrown (cav : Cav) (ref : Particle) : List Mat → List (Mat × Mat) → List Particle →
    List (Particle × Particle) → List Vec → List Mat → Prop
  | T :: Ts, m :: ms, p :: ps, e :: es, v :: vs, S :: Ss =>
    grownOne cav ref T m p e.1 e.2 v S ∧ cavGrown cav ref Ts ms ps es vs Ss
  | _, _, _, _, _, _ => True

/-- `last_real_in` and `last_real_out`.  The second list is shorter after an exception; beyond its end the code reads memory
outside of it, and only if the growth of the emittance is asked for. -/
def ends (env : Env) (d : MDat) : List (Particle × Particle) :=
  d.realIn.zip (d.realOut ++ List.replicate (d.realIn.length - d.realOut.length) env.junk)

/-- The forward part of `advance` (/repo/src/flame/rf_cavity.h:221-268, 288-289). -/
noncomputable def cavForward (env : Env) (cav : Cav) (d : MDat) (S : MSt) : MDat × MSt :=
  let rs := cavLoop cav S.ref d.transfer cav.misalign S.real (ends env d) S.moment0 S.moment1
  ({ d with transfer := rs.map (fun q => q.1), cav := some cav },
   MSt.calcRms { S with
    pos := S.pos + d.length, moment0 := rs.map (fun q => q.2.1), moment1 := rs.map (fun q => q.2.2.1),
    transmat := rs.map (fun q => q.2.2.2), last_caviphi0 := caviphi env cav })

open Classical in
/-- Whether the covariances are numbers behind `cavForward`. -/
noncomputable def cavFault (env : Env) (cav : Cav) (d : MDat) (S : MSt) : Option Err :=
  if cavGrown cav S.ref d.transfer cav.misalign S.real (ends env d) S.moment0 S.moment1 then none else some .logic

/-- `misalign.resize` in `resize_cache` (/repo/src/moment.cpp:755-757). -/
def resizeMis (n : Nat) (l : List (Mat × Mat)) : List (Mat × Mat) := l.take n ++ List.replicate (n - l.length) (1, 1)

/-- A particle taken back (/repo/src/flame/rf_cavity.h:202-206). -/
def takenBack (pin pout p : Particle) : Particle := { p with phis := p.phis - (pout.phis - pin.phis), IonEk := pin.IonEk }

open Classical in
/-- `ElementRFCavity::advance` (/repo/src/flame/rf_cavity.h:157-290).  If a file cannot be loaded or a matrix cannot be
computed, the particles are kept as they were (in the code the reference particle and the charge states before the fault have
been moved).  If a covariance is not a number, the model stops (`cavFault`).  If there are not as many particles in `last_real_in` as in `last_real_out`, the code reads beyond the end. -/
noncomputable def advanceCavity (env : Env) (files : Files) (d : MDat) (s : St MSt) : MDat × St MSt × Option Err :=
  match d.cav with
  | none => (d, s, some .logic)
  | some cav =>
    let S := s.payload.recalc
    if s.retreat then
      if ¬ checkBackward d S then (d, { s with payload := S }, some .runtime)
      else if d.realIn.length ≠ d.realOut.length then (d, { s with payload := S }, some .logic)
      else
        let ref := takenBack (d.refIn.getD d.refOut) d.refOut S.ref
        let real := List.zipWith (fun (q : Particle × Particle) p => takenBack q.1 q.2 p) (d.realIn.zip d.realOut) S.real
        match forEach (fun p => getMisalign d ref p) real with
        | .error e => (d, { s with payload := { S with ref := ref, real := real } }, some e)
        | .ok mis =>
          let cav := { cav with misalign := mis }
          let S := MSt.recalc { S with ref := ref, real := real, pos := S.pos - d.length }
          let d := { d with cav := some cav }
          match backward (List.zipWith (fun T (m : Mat × Mat) => m.2 * (T * m.1)) d.transfer mis) S with
          | (S, some e) => (d, { s with payload := S }, some e)
          | (S, none) => (d, { s with payload := MSt.calcRms { S with last_caviphi0 := caviphi env cav } }, none)
    else if hit d S then
      let S := { S with ref := d.refOut, real := d.realOut ++ S.real.drop d.realOut.length }
      let r := cavForward env cav d S
      (r.1, { s with payload := r.2 }, cavFault env cav d S)
    else
      let d := { d with refIn := some S.ref, realIn := S.real, transfer := resize S.real.length d.transfer,
                        cav := some { cav with misalign := resizeMis S.real.length cav.misalign } }
      match reload env files d.conf { cav with misalign := resizeMis S.real.length cav.misalign } with
      | (cav, some e) => ({ d with cav := some cav }, { s with payload := S }, some e)
      | (cav, none) =>
        match recomputeCav d.conf cav S.ref S.real with
        | .error e => ({ d with cav := some cav }, { s with payload := S }, some e)
        | .ok (ref, phiRef, l) =>
          match forEach (fun p => getMisalign d ref p) (l.map (fun q => q.1)) with
          | .error e => ({ d with cav := some cav }, { s with payload := S }, some e)
          | .ok mis =>
            let cav := { cav with phiRef := some phiRef, misalign := mis }
            let S := MSt.recalc { S with ref := ref, real := l.map (fun q => q.1) }
            let d := { d with transfer := l.map (fun q => q.2), refOut := S.ref, realOut := S.real, cav := some cav }
            let r := cavForward env cav d S
            (r.1, { s with payload := r.2 }, cavFault env cav d S)

/-- `ElementRFCavity::assign` (/repo/src/flame/rf_cavity.h:139-155): the members not named there keep their old value. -/
def assignCavity (old new : MDat) : MDat :=
  match old.cav, new.cav with
  | some o, some n =>
    { new with cav := some { n with cavType := o.cavType, dataFile := o.dataFile, synAccTab := o.synAccTab,
                                    refNrm := o.refNrm, synComplex := o.synComplex } }
  | _, _ => new

/-- The class of the RF cavity, registered by `registerMoment` (/repo/src/moment.cpp:1486). -/
noncomputable def cavityCls (env : Env) (files : Files) (junk : Mat) (base : Nat) : Cls LCfg MDat MSt where
  id := base + 10
  typeName := "rfcavity"
  build := buildCavity env files junk
  assign := assignCavity
  advance := advanceCavity env files

end Flame.Cavity
