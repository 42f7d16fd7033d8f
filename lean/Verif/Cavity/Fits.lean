import Verif.Moment.Model
import Mathlib.Analysis.SpecialFunctions.Pow.Real

/-!
# Transit time factors of RF cavities

Model of `ipow`, `PwrSeries`, `calFitPow`, `calTransfac`, `TransFacts` and `TransitFacMultipole` of
/repo/src/rf_cavity.cpp.  The error `logic` stands for undefined behaviour.  The log messages are left out.
-/

namespace Flame.Cavity

open Flame.Mach (Err)
open Flame.Moment (MtoMM MeVtoeV Table)

/-- The loop of `ipow` (/repo/src/rf_cavity.cpp:29-35): `exp`, `base`, `result`. -/
noncomputable def ipowLoop (exp : Nat) (base result : ℝ) : ℝ :=
  if exp = 0 then result
  else ipowLoop (exp / 2) (base * base) (if exp % 2 = 1 then result * base else result)
termination_by exp
decreasing_by omega

/-- `ipow` (/repo/src/rf_cavity.cpp:26-38).  For a negative exponent the loop would not end; there are none. -/
noncomputable def ipow (base : ℝ) (exp : Nat) : ℝ := ipowLoop exp base 1

/-- `PwrSeries` (/repo/src/rf_cavity.cpp:213-229); the ten coefficients as a list. -/
noncomputable def pwrSeries (beta : ℝ) (a : List ℝ) : ℝ :=
  (List.range' 1 (a.length - 1)).foldl (fun f k => f + a.getD k 0 * beta ^ k) (a.getD 0 0)

/-- `calFitPow` (/repo/src/rf_cavity.cpp:1456-1465). -/
noncomputable def calFitPow (kfac : ℝ) (Tfit : List ℝ) : ℝ :=
  (List.range Tfit.length).foldl (fun res ii => res + Tfit.getD ii 0 * ipow kfac (Tfit.length - ii - 1)) 0

/-- Electric centre, transit time factors and amplitude. -/
structure Gap where
  Ecen : ℝ
  T : ℝ
  Tp : ℝ
  S : ℝ
  Sp : ℝ
  V0 : ℝ

/-- Sum over the intervals of a field map, `f` of interval `k`. -/
noncomputable def intervals (n : Nat) (f : Nat → ℝ) : ℝ := ((List.range (n - 1)).map f).sum

open Classical in
/-- `calTransfac` (/repo/src/rf_cavity.cpp:132-210) for the column `EM` of a table over `z`; the check of the column is in
`column` below.  `round((n-1)/2)` is `n/2` rounded down.  With `half` and a table of one line the code reads before the
beginning of the table.  Fields that vanish everywhere are divided by zero: the code goes on with NaN and the
model stops. -/
noncomputable def calTransfac (tz EM : List ℝ) (gaplabel : Nat) (IonK : ℝ) (half : Bool) : Except Err Gap :=
  let n := if half then tz.length / 2 else tz.length
  if n = 0 then .error .logic
  else
    let len := tz.getD (tz.length - 1) 0
    let dz := (tz.getD (n - 1) 0 - tz.getD 0 0) / ((n : ℝ) - 1)
    let z0 : Nat → ℝ := fun k => if k < n then tz.getD k 0 - tz.getD 0 0 else tz.getD k 0
    let e : Nat → ℝ := fun k => EM.getD k 0
    let eml := intervals n (fun k => (|e k| + |e (k + 1)|) / 2 * dz)
    let em_mom := intervals n (fun k => (z0 k + z0 (k + 1)) / 2 * (|e k| + |e (k + 1)|) / 2 * dz)
    if eml = 0 then .error .logic
    else
      let Ecenter := em_mom / eml
      let z : Nat → ℝ := fun k => z0 k - Ecenter
      let T := intervals n (fun k => (e k + e (k + 1)) / 2 * Real.cos (IonK * (z k + z (k + 1)) / 2) * dz) / eml
      let Tp := -intervals n (fun k =>
        (z k + z (k + 1)) / 2 * (e k + e (k + 1)) / 2 * Real.sin (IonK * (z k + z (k + 1)) / 2) * dz) / eml
      let S := intervals n (fun k =>
        (e k + e (k + 1)) / 2 * Real.sin (IonK * (z k + z (k + 1)) / 2) * (z (k + 1) - z k)) / eml
      let Sp := intervals n (fun k =>
        (z k + z (k + 1)) / 2 * (e k + e (k + 1)) / 2 * Real.cos (IonK * (z k + z (k + 1)) / 2) * dz) / eml
      let V0 := eml / MeVtoeV / MtoMM
      .ok (if gaplabel = 2 then { Ecen := len - Ecenter, T := -T, Tp := -Tp, S := S, Sp := Sp, V0 := V0 }
        else { Ecen := Ecenter, T := T, Tp := Tp, S := S, Sp := Sp, V0 := V0 })

/-- Columns of a table for `calTransfac` (/repo/src/rf_cavity.cpp:140-156); `no` counts from 1. -/
def column (t : Table) (no : Nat) : Except Err (List ℝ × List ℝ) :=
  if t.rows = [] ∨ t.cols ≤ no - 1 then .error .runtime
  else .ok (t.rows.map (·.getD 0 0), t.rows.map (·.getD (no - 1) 0))

/-- `calTransfac` of a table. -/
noncomputable def tableFactors (t : Table) (no gaplabel : Nat) (IonK : ℝ) (half : Bool) : Except Err Gap :=
  match column t no with
  | .error e => .error e
  | .ok (z, EM) => calTransfac z EM gaplabel IonK half

/-- `pow` for a positive base. -/
noncomputable def rpow (x y : ℝ) : ℝ := Real.rpow x y

/-- Ranges of the fits by cavity label (/repo/src/rf_cavity.cpp:247, 287, 324, 361). -/
noncomputable def fitRange : Nat → Option (ℝ × ℝ)
  | 41 => some (0.025, 0.08)
  | 85 => some (0.05, 0.25)
  | 29 => some (0.15, 0.4)
  | 53 => some (0.3, 0.6)
  | _ => none

/-- The fits of `TransFacts` (/repo/src/rf_cavity.cpp:253-396), by cavity label and gap. -/
noncomputable def gapFit (beta EfieldScl : ℝ) : Nat → Nat → Except Err Gap
  | 41, 0 => .ok
    { Ecen := 120,
      T := 0,
      Tp := 0,
      S := pwrSeries beta [-4.109, 399.9, -1.269e4, 1.991e5, -1.569e6, 4.957e6, 0, 0, 0, 0],
      Sp := pwrSeries beta [61.98, -1.073e4, 4.841e5, 9.284e6, 8.379e7, -2.926e8, 0, 0, 0, 0],
      V0 := 0.98477 * EfieldScl }
  | 41, 1 => .ok
    { Ecen := 0.0006384 * rpow beta (-1.884) + 86.69,
      T := pwrSeries beta [0.9232, -123.2, 3570, -5.476e4, 4.316e5, -1.377e6, 0, 0, 0, 0],
      Tp := pwrSeries beta [1.699, 924.7, -4.062e4, 7.528e5, -6.631e6, 2.277e7, 0, 0, 0, 0],
      S := 0,
      Sp := pwrSeries beta [-1.571, 25.59, 806.6, -2.98e4, 3.385e5, -1.335e6, 0, 0, 0, 0],
      V0 := 0.492385 * EfieldScl }
  | 41, 2 => .ok
    { Ecen := -0.0006384 * rpow beta (-1.884) + 33.31,
      T := pwrSeries beta [-0.9232, 123.2, -3570, 5.476e4, -4.316e5, 1.377e6, 0, 0, 0, 0],
      Tp := pwrSeries beta [-1.699, -924.7, 4.062e4, -7.528e5, 6.631e6, -2.277e7, 0, 0, 0, 0],
      S := 0,
      Sp := pwrSeries beta [-1.571, 25.59, 806.6, -2.98e4, 3.385e5, -1.335e6, 0, 0, 0, 0],
      V0 := 0.492385 * EfieldScl }
  | 85, 0 => .ok
    { Ecen := 150,
      T := 0,
      Tp := 0,
      S := pwrSeries beta [-6.811, 343.9, -6385, 6.477e4, -3.914e5, 1.407e6, -2.781e6, 2.326e6, 0, 0],
      Sp := pwrSeries beta [162.7, -1.631e4, 4.315e5, -5.344e6, 3.691e7, -1.462e8, 3.109e8, -2.755e8, 0, 0],
      V0 := 1.967715 * EfieldScl }
  | 85, 1 => .ok
    { Ecen := 0.0002838 * rpow beta (-2.13) + 76.5,
      T := 0.0009467 * rpow beta (-1.855) - 1.002,
      Tp := pwrSeries beta [24.44, -334, 2468, -1.017e4, 2.195e4, -1.928e4, 0, 0, 0, 0],
      S := 0,
      Sp := -0.0009751 * rpow beta (-1.898) + 0.001568,
      V0 := 0.9838574 * EfieldScl }
  | 85, 2 => .ok
    { Ecen := -0.0002838 * rpow beta (-2.13) + 73.5,
      T := -0.0009467 * rpow beta (-1.855) + 1.002,
      Tp := pwrSeries beta [-24.44, 334, -2468, 1.017e4, -2.195e4, 1.928e4, 0, 0, 0, 0],
      S := 0,
      Sp := -0.0009751 * rpow beta (-1.898) + 0.001568,
      V0 := 0.9838574 * EfieldScl }
  | 29, 0 => .ok
    { Ecen := 150,
      T := 0,
      Tp := 0,
      S := pwrSeries beta [-4.285, 58.08, -248, 486, -405.6, 76.54, 0, 0, 0, 0],
      Sp := pwrSeries beta [888, -2.043e4, 1.854e5, -9.127e5, 2.695e6, -4.791e6, 4.751e6, -2.025e6, 0, 0],
      V0 := 2.485036 * EfieldScl }
  | 29, 1 => .ok
    { Ecen := 0.01163 * rpow beta (-2.001) + 91.77,
      T := 0.02166 * rpow beta (-1.618) - 1.022,
      Tp := pwrSeries beta [-11.25, 534.7, -3917, 1.313e4, -2.147e4, 1.389e4, 0, 0, 0, 0],
      S := 0,
      Sp := pwrSeries beta [-0.8283, -4.409, 78.77, -343.9, 645.1, -454.4, 0, 0, 0, 0],
      V0 := 1.242518 * EfieldScl }
  | 29, 2 => .ok
    { Ecen := -0.01163 * rpow beta (-2.001) + 58.23,
      T := -0.02166 * rpow beta (-1.618) + 1.022,
      Tp := pwrSeries beta [11.25, -534.7, 3917, -1.313e4, 2.147e4, -1.389e4, 0, 0, 0, 0],
      S := 0,
      Sp := pwrSeries beta [-0.8283, -4.409, 78.77, -343.9, 645.1, -454.4, 0, 0, 0, 0],
      V0 := 1.242518 * EfieldScl }
  | 53, 0 => .ok
    { Ecen := 250,
      T := 0,
      Tp := 0,
      S := pwrSeries beta [-4.222, 26.64, -38.49, -17.73, 84.12, -52.93, 0, 0, 0, 0],
      Sp := pwrSeries beta [-1261, -1.413e4, 5.702e4, -1.111e5, 1.075e5, -4.167e4, 0, 0, 0, 0],
      V0 := 4.25756986 * EfieldScl }
  | 53, 1 => .ok
    { Ecen := 0.01219 * rpow beta (-2.348) + 137.8,
      T := 0.04856 * rpow beta (-1.68) - 1.018,
      Tp := pwrSeries beta [-3.612, 422.8, -1973, 4081, -4109, 1641, 0, 0, 0, 0],
      S := 0,
      Sp := -0.03969 * rpow beta (-1.775) + 0.009034,
      V0 := 2.12878493 * EfieldScl }
  | 53, 2 => .ok
    { Ecen := -0.01219 * rpow beta (-2.348) + 112.2,
      T := -0.04856 * rpow beta (-1.68) + 1.018,
      Tp := pwrSeries beta [3.612, -422.8, 1973, -4081, 4109, -1641, 0, 0, 0, 0],
      S := 0,
      Sp := -0.03969 * rpow beta (-1.775) + 0.009034,
      V0 := 2.12878493 * EfieldScl }
  | _, _ => .error .runtime

open Classical in
/-- `TransFacts` (/repo/src/rf_cavity.cpp:232-404). -/
noncomputable def transFacts (forcettfcalc : Bool) (cavData : Table) (cavilabel : Nat) (beta CaviIonK : ℝ) (gaplabel : Nat)
    (EfieldScl : ℝ) : Except Err Gap :=
  let byTable : Except Err Gap :=
    match tableFactors cavData 2 gaplabel CaviIonK true with
    | .error e => .error e
    | .ok g => .ok { g with V0 := g.V0 * EfieldScl }
  if forcettfcalc then byTable
  else
    match fitRange cavilabel with
    | none => .error .runtime
    | some (lo, hi) => if beta < lo ∨ hi < beta then byTable else gapFit beta EfieldScl cavilabel gaplabel

/-- Multipoles. -/
inductive Pole
  | EFocus1 | EFocus2 | EDipole | EQuad | HMono | HDipole | HQuad
  deriving DecidableEq, Repr

/-- `get_column` (/repo/src/rf_cavity.cpp:106-129). -/
def Pole.column : Pole → Nat
  | .EFocus1 => 3
  | .EFocus2 => 4
  | .EDipole => 2
  | .EQuad => 5
  | .HMono => 7
  | .HDipole => 6
  | .HQuad => 8

/-- Ranges of the multipole fits by cavity (/repo/src/rf_cavity.cpp:418-421). -/
noncomputable def poleRange : Nat → Option (ℝ × ℝ)
  | 1 => some (0.025, 0.055)
  | 2 => some (0.006, 0.035)
  | 3 => some (0.01687155, 0.0449908)
  | 4 => some (0.0112477, 0.0224954)
  | _ => none

/-- The coefficients of `T` and `S` in `TransitFacMultipole` (/repo/src/rf_cavity.cpp:427-608).  For the half wave
resonators the dipoles are an exception.  For other cavities the code leaves `T` and `S` unset; there are none. -/
noncomputable def poleFit : Pole → Nat → Except Err (List ℝ × List ℝ)
  | .EFocus1, 1 => .ok
     ([1.256386e2, -3.108322e4, 3.354464e6, -2.089452e8, 8.280687e9, -2.165867e11, 3.739846e12, -4.112154e13,
       2.613462e14, -7.316972e14],
      [1.394183e2, -3.299673e4, 3.438044e6, -2.070369e8, 7.942886e9, -2.013750e11, 3.374738e12, -3.605780e13,
       2.229446e14, -6.079177e14])
  | .EFocus1, 2 => .ok
     ([-9.450041e-1, -3.641390e1, 9.926186e3, -1.449193e6, 1.281752e8, -7.150297e9, 2.534164e11, -5.535252e12,
       6.794778e13, -3.586197e14],
      [9.928055e-2, -5.545119e1, 1.280168e4, -1.636888e6, 1.279801e8, -6.379800e9, 2.036575e11, -4.029152e12,
       4.496323e13, -2.161712e14])
  | .EFocus1, 3 => .ok
     ([-1.000000, 2.778823e-7, 6.820327e1, 4.235106e-3, -1.926935e3, 1.083516e1, 2.996807e4, 6.108642e3, -3.864554e5,
       6.094390e5],
      [-4.530303e-10, 1.625011e-7, -2.583224e-5, 2.478684e1, -1.431967e-1, -1.545412e3, -1.569820e2, 3.856713e4,
       -3.159828e4, -2.700076e5])
  | .EFocus1, 4 => .ok
     ([-1.000000, -2.406447e-7, 9.480040e1, -7.659927e-3, -4.926996e3, -3.504383e1, 1.712590e5, -1.964643e4,
       -4.142976e6, 6.085390e6],
      [3.958048e-11, -2.496811e-8, 7.027794e-6, -8.662787e1, 1.246098e-1, 9.462491e3, 4.481784e2, -4.552412e5,
       3.026543e5, 8.798256e6])
  | .EFocus2, 1 => .ok
     ([1.038803, -9.121320, 8.943931e2, -5.619149e4, 2.132552e6, -5.330725e7, 8.799404e8, -9.246033e9, 5.612073e10,
       -1.499544e11],
      [1.305154e-2, -2.585211, 2.696971e2, -1.488249e4, 5.095765e5, -1.154148e7, 1.714580e8, -1.604935e9, 8.570757e9,
       -1.983302e10])
  | .EFocus2, 2 => .ok
     ([9.989307e-1, 7.299233e-1, -2.932580e2, 3.052166e4, -2.753614e6, 1.570331e8, -5.677804e9, 1.265012e11,
       -1.584238e12, 8.533351e12],
      [-3.040839e-3, 2.016667, -4.313590e2, 5.855139e4, -4.873584e6, 2.605444e8, -8.968899e9, 1.923697e11,
       -2.339920e12, 1.233014e13])
  | .EFocus2, 3 => .ok
     ([1.000000, -4.410575e-6, -8.884752e1, -7.927594e-2, 4.663277e3, -2.515405e2, -1.797134e5, -1.904305e5,
       8.999378e6, -2.951362e7],
      [6.387813e-8, -2.300899e-5, 3.676251e-3, -1.703282e2, 2.066461e1, 1.704569e4, 2.316653e4, -1.328926e6,
       4.853676e6, 1.132796e6])
  | .EFocus2, 4 => .ok
     ([1.000000, -5.025186e-6, -1.468976e2, -2.520376e-1, 2.048799e4, -2.224267e3, -2.532091e6, -4.613480e6,
       3.611911e8, -1.891951e9],
      [-1.801149e-8, 1.123280e-5, -3.126902e-3, 4.655245e2, -5.431878e1, -1.477730e5, -1.922110e5, 2.795761e7,
       -1.290046e8, -4.656951e8])
  | .EDipole, 1 => .ok
     ([-1.005885, 1.526489, -1.047651e2, 1.125013e4, -4.669147e5, 1.255841e7, -2.237287e8, 2.535541e9, -1.656906e10,
       4.758398e10],
      [-2.586200e-2, 5.884367, -6.407538e2, 3.888964e4, -1.488484e6, 3.782592e7, -6.361033e8, 6.817810e9,
       -4.227114e10, 1.155597e11])
  | .EDipole, 2 => .ok
     ([-9.999028e-1, -6.783669e-2, 1.415756e2, -2.950990e3, 2.640980e5, -1.570742e7, 5.770450e8, -1.303686e10,
       1.654958e11, -9.030017e11],
      [2.108581e-4, -3.700608e-1, 2.851611e1, -3.502994e3, 2.983061e5, -1.522679e7, 4.958029e8, -1.002040e10,
       1.142835e11, -5.617061e11])
  | .EQuad, 1 => .ok
     ([1.038941, -9.238897, 9.127945e2, -5.779110e4, 2.206120e6, -5.544764e7, 9.192347e8, -9.691159e9, 5.896915e10,
       -1.578312e11],
      [1.248096e-1, -2.923507e1, 3.069331e3, -1.848380e5, 7.094882e6, -1.801113e8, 3.024208e9, -3.239241e10,
       2.008767e11, -5.496217e11])
  | .EQuad, 2 => .ok
     ([1.000003, -1.015639e-3, -1.215634e2, 1.720764e1, 3.921401e3, 2.674841e5, -1.236263e7, 3.128128e8, -4.385795e9,
       2.594631e10],
      [-1.756250e-5, 2.603597e-1, -2.551122, -4.840638e1, -2.870201e4, 1.552398e6, -5.135200e7, 1.075958e9,
       -1.277425e10, 6.540748e10])
  | .EQuad, 3 => .ok
     ([1.000000, 6.239107e-6, -1.697479e2, 3.444883e-2, 1.225241e4, -1.663533e2, -5.526645e5, -3.593353e5,
       2.749580e7, -9.689870e7],
      [2.128708e-7, -7.985618e-5, 1.240259e-2, -3.211339e2, 7.098731e1, 3.474652e4, 8.187145e4, -3.731688e6,
       1.802053e7, -1.819958e7])
  | .EQuad, 4 => .ok
     ([9.998746e-1, -2.431292e-5, -5.019138e2, -1.176338, 1.006054e5, -9.908805e3, -1.148028e7, -1.922707e7,
       1.432258e9, -7.054482e9],
      [6.003340e-8, -1.482633e-2, 1.037590e-2, -2.235440e3, 1.790006e2, 6.456882e5, 6.261020e5, -1.055477e8,
       4.110502e8, 2.241301e9])
  | .HMono, 1 => .ok
     ([1.703336, -1.671357e2, 1.697657e4, -9.843253e5, 3.518178e7, -8.043084e8, 1.165760e10, -1.014721e11,
       4.632851e11, -7.604796e11],
      [1.452657e1, -3.409550e3, 3.524921e5, -2.106663e7, 8.022856e8, -2.019481e10, 3.360597e11, -3.565836e12,
       2.189668e13, -5.930241e13])
  | .HMono, 2 => .ok
     ([1.003228, -1.783406, 1.765330e2, -5.326467e4, 4.242623e6, -2.139672e8, 6.970488e9, -1.411958e11, 1.617248e12,
       -8.000662e12],
      [-1.581533e-3, 1.277444, -2.742508e2, 3.966879e4, -3.513478e6, 1.962939e8, -6.991916e9, 1.539708e11,
       -1.910236e12, 1.021016e13])
  | .HMono, 3 => .ok
     ([9.999990e-1, 3.477993e-4, -2.717994e2, 4.554376, 3.083481e4, 8.441315e3, -2.439843e6, 1.322379e6, 1.501750e8,
       -6.822135e8],
      [1.709084e-6, -6.240506e-4, 1.013278e-1, -2.649338e2, 5.944163e2, 4.588900e4, 7.110518e5, -2.226574e7,
       1.658524e8, -3.976459e8])
  | .HMono, 4 => .ok
     ([1.000000, -4.358956e-5, -7.923870e2, -2.472669, 2.241378e5, -2.539286e4, -3.385480e7, -6.375134e7, 5.652166e9,
       -3.355877e10],
      [1.163146e-7, -7.302018e-5, 2.048587e-2, -3.689694e2, 3.632907e2, 1.757838e5, 1.327057e6, -9.520645e7,
       9.406709e8, -2.139562e9])
  | .HDipole, 1 => .ok
     ([6.853803e-1, 7.075414e1, -7.117391e3, 3.985674e5, -1.442888e7, 3.446369e8, -5.420826e9, 5.414689e10,
       -3.116216e11, 7.869717e11],
      [1.021102, -2.441117e2, 2.575274e4, -1.569273e6, 6.090118e7, -1.562284e9, 2.649289e10, -2.864139e11,
       1.791634e12, -4.941947e12])
  | .HDipole, 2 => .ok
     ([1.014129, -8.016304, 1.631339e3, -2.561826e5, 2.115355e7, -1.118723e9, 3.821029e10, -8.140248e11, 9.839613e12,
       -5.154137e13],
      [-4.688714e-3, 3.299051, -8.101936e2, 1.163814e5, -1.017331e7, 5.607330e8, -1.967300e10, 4.261388e11,
       -5.194592e12, 2.725370e13])
  | .HQuad, 1 => .ok
     ([-1.997432, 2.439177e2, -2.613724e4, 1.627837e6, -6.429625e7, 1.676173e9, -2.885455e10, 3.163675e11,
       -2.005326e12, 5.600545e12],
      [-2.470704, 5.862902e2, -6.135071e4, 3.711527e6, -1.431267e8, 3.649414e9, -6.153570e10, 6.617859e11,
       -4.119861e12, 1.131390e13])
  | .HQuad, 2 => .ok
     ([-1.000925, 5.170302e-1, 9.311761e1, 1.591517e4, -1.302247e6, 6.647808e7, -2.215417e9, 4.603390e10,
       -5.420873e11, 2.764042e12],
      [3.119419e-4, -4.540868e-1, 5.433028e1, -7.571946e3, 6.792565e5, -3.728390e7, 1.299263e9, -2.793705e10,
       3.377097e11, -1.755126e12])
  | .HQuad, 3 => .ok
     ([-9.999997e-1, -1.049624e-4, 2.445420e2, -1.288731, -2.401575e4, -1.972894e3, 1.494708e6, 2.898145e5,
       -8.782506e7, 3.566907e8],
      [-7.925695e-7, 2.884963e-4, -4.667266e-2, 2.950936e2, -2.712131e2, -4.260259e4, -3.199682e5, 1.103376e7,
       -7.304474e7, 1.479036e8])
  | .HQuad, 4 => .ok
     ([-1.000000, 4.357777e-5, 7.605879e2, 2.285787, -2.009415e5, 2.149581e4, 2.773856e7, 4.886782e7, -4.127019e9,
       2.299278e10],
      [-1.483304e-7, 9.278457e-5, -2.592071e-2, 1.690272e3, -4.545599e2, -6.192487e5, -1.632321e6, 1.664856e8,
       -1.124066e9, -3.121299e8])
  | _, _ => .error .runtime

open Classical in
/-- `TransitFacMultipole` (/repo/src/rf_cavity.cpp:407-609): `T` and `S`. -/
noncomputable def transitFacMultipole (forcettfcalc : Bool) (mlptable : Table) (cavi : Nat) (flabel : Pole) (CaviIonK : ℝ) :
    Except Err (ℝ × ℝ) :=
  let byTable : Except Err (ℝ × ℝ) :=
    match tableFactors mlptable flabel.column 0 CaviIonK false with
    | .error e => .error e
    | .ok g => .ok (g.T, g.S)
  if forcettfcalc then byTable
  else if ∃ lo hi, poleRange cavi = some (lo, hi) ∧ (CaviIonK < lo ∨ hi < CaviIonK) then byTable
  else
    match poleFit flabel cavi with
    | .error e => .error e
    | .ok (a, b) => .ok (pwrSeries CaviIonK a, pwrSeries CaviIonK b)

end Flame.Cavity
