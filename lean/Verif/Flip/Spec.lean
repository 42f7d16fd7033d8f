import Verif.Scale.Spec

/-! # A beam line seen in a mirror: the terms of C98

Nothing here mentions functions of the elements, only settings, states and the calls of `propagate`. -/

namespace Flame.Flip.Spec

open Flame.Linear (LCfg LVal)
open Flame.Mach (Run)
open Flame.Moment (MSt)
open Flame.Scale.Spec (Call)

/-- The sign that a coordinate gets in a mirror that exchanges left and right: `x` and `x'` are reversed. -/
def side : Fin 7 → ℝ := ![-1, -1, 1, 1, 1, 1, 1]

/-- A vector seen in the mirror. -/
def imageV (v : Fin 7 → ℝ) : Fin 7 → ℝ := fun i => side i * v i

/-- A matrix seen in the mirror. -/
def imageM (M : Matrix (Fin 7) (Fin 7) ℝ) : Matrix (Fin 7) (Fin 7) ℝ := fun i j => side i * M i j * side j

/-- `S'` is the beam `S` seen in the mirror. -/
structure MirroredBeam (S S' : MSt) : Prop where
  pos : S'.pos = S.pos
  ref : S'.ref = S.ref
  real : S'.real = S.real
  moment0 : S'.moment0 = S.moment0.map imageV
  moment1 : S'.moment1 = S.moment1.map imageM
  transmat : S'.transmat = S.transmat.map imageM
  moment0_env : S'.moment0_env = imageV S.moment0_env
  moment0_rms : S'.moment0_rms = S.moment0_rms
  moment1_env : S'.moment1_env = imageM S.moment1_env
  last_caviphi0 : S'.last_caviphi0 = S.last_caviphi0

/-- A number with the other sign; anything else as it is. -/
noncomputable def reverse : LVal → LVal
  | .num x => .num (-x)
  | v => v

/-- The settings that change their sign: the horizontal offset, the roll and the yaw of every element, the field of a solenoid and
the factors of its field curves, the strength of a sextupole, the angles of a bend and of a horizontal electrostatic dipole,
the horizontal kick and the rotation of a corrector. -/
def Reversed (ty : String) (c : LCfg) (k : String) : Prop :=
  k ∈ ["dx", "roll", "yaw"] ∨
  (ty = "solenoid" ∧ (k = "B" ∨ ∃ n : ℕ, k = "scl_fac" ++ toString n)) ∨
  (ty = "sextupole" ∧ k = "B3") ∨
  (ty = "sbend" ∧ k ∈ ["phi", "phi1", "phi2"]) ∨
  (ty = "edipole" ∧ c "ver" ≠ some (.num 1) ∧ k = "phi") ∨
  (ty = "orbtrim" ∧ k ∈ ["theta_x", "tm_xkick", "xyrotate"])

/-- A text among the settings, or the one used instead. -/
def text (c : LCfg) (k dflt : String) : String :=
  match c k with
  | some (.str x) => x
  | _ => dflt

/-- Several charge states are given. -/
def Several (c : LCfg) : Prop := ∃ xs, c "IonChargeStates" = some (.vec xs)

/-- The settings that are vectors and matrices of the coordinates: a given transfer matrix, and the centroids and covariances of a
source, whose names are settings as well. -/
def IsMoments (ty : String) (c : LCfg) (k : String) : Prop :=
  (ty = "tmatrix" ∧ k = "matrix") ∨
  (ty = "source" ∧ ∃ name, (name = text c "vector_variable" "moment0" ∨ name = text c "matrix_variable" "initial") ∧
    ((Several c ∧ ∃ n : ℕ, k = name ++ toString n) ∨ (¬ Several c ∧ k = name)))

/-- The components of a vector or the rows of a matrix seen in the mirror; a list of another length is of no use, and only has the same
length. -/
def MirroredNumbers (xs xs' : List ℝ) : Prop :=
  xs'.length = xs.length ∧
  (xs.length = 7 → ∀ i : Fin 7, xs'.getD i 0 = side i * xs.getD i 0) ∧
  (xs.length = 49 → ∀ i j : Fin 7, xs'.getD (7 * (i : ℕ) + (j : ℕ)) 0 = side i * xs.getD (7 * (i : ℕ) + (j : ℕ)) 0 * side j)

/-- A setting of coordinates seen in the mirror. -/
def MirroredValue (v v' : Option LVal) : Prop :=
  (∃ xs xs', v = some (.vec xs) ∧ v' = some (.vec xs') ∧ MirroredNumbers xs xs') ∨ ((∀ xs, v ≠ some (.vec xs)) ∧ v' = v)

/-- The settings that the elements read, apart from `IsMoments`, the name and the type. -/
def keys : List String :=
  ["B", "B2", "B3", "CurveFile", "EmitGrowth", "Eng_Data_Dir", "HdipoleFitMode", "IonChargeStates", "IonEk", "IonEs", "IonQ", "IonZ", "K", "L",
   "MpoleLevel", "NCharge", "Rm", "SampleFreq", "Stripper_E0Para", "Stripper_E1Para", "Stripper_IonMass", "Stripper_IonProton", "Stripper_IonZ",
   "Stripper_Para", "Stripper_lambda", "Stripper_upara", "V", "asym_fac", "beta", "bg", "cavtype", "charge_model", "cstate", "datafile", "dstkick",
   "dx", "dy", "f", "forcettfcalc", "fringe_x", "fringe_y", "matrix_variable", "ncurve", "phi", "phi1", "phi2", "pitch", "radius", "realpara",
   "roll", "scl_fac", "skipcache", "spher", "step", "syncflag", "theta_x", "theta_y", "thinlens", "tm_xkick", "tm_ykick", "use_range",
   "vector_variable", "ver", "xyrotate", "yaw"]

/-- A setting that matters to some element.  The others may differ: a lattice may give the moments of the source as global variables, which
then are settings of all elements. -/
def Read (k : String) : Prop := k ∈ keys ∨ ∃ n : ℕ, k = "curve" ++ toString n ∨ k = "scl_fac" ++ toString n

/-- The element of type `ty` with the settings `c'` is that with the settings `c` seen in the mirror.  A source without a list of
charge states has to be given its covariance (otherwise its memory is not initialised, see C54). -/
structure MirroredElement (ty : String) (c c' : LCfg) : Prop where
  reversed : ∀ k, Reversed ty c k → c' k = (c k).map reverse
  moments : ∀ k, IsMoments ty c k → MirroredValue (c k) (c' k)
  rest : ∀ k, Read k → ¬ Reversed ty c k → ¬ IsMoments ty c k → c' k = c k
  given : ty = "source" → ¬ Several c → ∃ xs, c (text c "matrix_variable" "initial") = some (.vec xs) ∧ xs.length = 49

/-- The same call for the beam seen in the mirror. -/
def MirroredCall (x y : Call MSt) : Prop :=
  y.watch = x.watch ∧ y.start = x.start ∧ y.max = x.max ∧ MirroredBeam x.state.payload y.state.payload

/-- Two results of `propagate` that differ by the mirror: the same exception or none, the same place, the beam seen in the mirror, and the
same visits with views in the mirror. -/
def SameButMirror {C X : Type} (r r' : Run C X MSt) : Prop :=
  r'.err = r.err ∧ r'.st.nextElem = r.st.nextElem ∧ MirroredBeam r.st.payload r'.st.payload ∧
    List.Forall₂ (Flame.Cavity.Spec.Seen MirroredBeam) r.trace r'.trace

end Flame.Flip.Spec
