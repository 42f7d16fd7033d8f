import Verif.Linear.Model
import Mathlib.Data.Matrix.Mul
import Mathlib.LinearAlgebra.Matrix.Notation
import Mathlib.Analysis.Real.Sqrt
import Mathlib.Analysis.Complex.Trigonometric
import Mathlib.LinearAlgebra.Matrix.Determinant.Basic

/-!
# What a user of the moment simulation relies on

Definitions used in the statements of C30, C31, C33-C40, C53 and C54.  Nothing here mentions the model, apart from
the type of configurations.
-/

namespace Flame.Moment.Spec

/-- A beam as a finite collection of weighted points of phase space. -/
abbrev Cloud := List (ℝ × (Fin 7 → ℝ))

/-- Total weight. -/
def weight (X : Cloud) : ℝ := (X.map Prod.fst).sum

/-- Weighted mean. -/
noncomputable def mean (X : Cloud) : Fin 7 → ℝ := fun i => (X.map (fun q => q.1 * q.2 i)).sum / weight X

/-- Weighted covariance. -/
noncomputable def cov (X : Cloud) : Matrix (Fin 7) (Fin 7) ℝ := fun i j =>
  (X.map (fun q => q.1 * ((q.2 i - mean X i) * (q.2 j - mean X j)))).sum / weight X

/-- Every point is moved by the same matrix. -/
def push (T : Matrix (Fin 7) (Fin 7) ℝ) (X : Cloud) : Cloud := X.map (fun q => (q.1, T.mulVec q.2))

/-- Symmetric and positive semidefinite. -/
def Covariance {n : Nat} (S : Matrix (Fin n) (Fin n) ℝ) : Prop :=
  S.transpose = S ∧ ∀ x : Fin n → ℝ, 0 ≤ ∑ i, ∑ j, x i * S i j * x j

/-- The part of a matrix that belongs to phase space proper. -/
def phaseSpace (M : Matrix (Fin 7) (Fin 7) ℝ) : Matrix (Fin 6) (Fin 6) ℝ := fun i j => M i.castSucc j.castSucc

/-- What is done with an element in the course of time: a beam passes, or it is given a new configuration. -/
inductive Use (D S : Type)
  | pass (s : S)
  | reconf (d : D)

/-- What comes out of an element that keeps its internal state from pass to pass. -/
def outputs {D S E : Type} (adv : D → S → D × S × Option E) (assign : D → D → D) : D → List (Use D S) → List (S × Option E)
  | _, [] => []
  | d, .pass s :: h => (adv d s).2 :: outputs adv assign (adv d s).1 h
  | d, .reconf d' :: h => outputs adv assign (assign d d') h

/-- What comes out if the element is thrown away and built anew from the current configuration before every pass. -/
def rebuilt {D S E : Type} (adv : D → S → D × S × Option E) (build : D → D) : D → List (Use D S) → List (S × Option E)
  | _, [] => []
  | d, .pass s :: h => (adv (build d) s).2 :: rebuilt adv build d h
  | _, .reconf d' :: h => rebuilt adv build d' h

/-- Between two configurations all beams come from the same side, or the element is one for which `ok` holds.  The
optional argument is the side of the passes since the last configuration. -/
def oneWay {D S : Type} (ok : D → Prop) (back : S → Bool) : D → Option Bool → List (Use D S) → Prop
  | _, _, [] => True
  | d, o, .pass s :: h => (ok d ∨ o = none ∨ o = some (back s)) ∧ oneWay ok back d (some (back s)) h
  | _, _, .reconf d' :: h => oneWay ok back d' none h

/-- Centroids and covariances after the transfer matrices `T`, one per charge state. -/
def movedBy (T : List (Matrix (Fin 7) (Fin 7) ℝ)) (m0 : List (Fin 7 → ℝ)) (m1 : List (Matrix (Fin 7) (Fin 7) ℝ))
    (m0' : List (Fin 7 → ℝ)) (m1' : List (Matrix (Fin 7) (Fin 7) ℝ)) : Prop :=
  T.length = m0.length ∧ m0' = List.zipWith (fun M v => M.mulVec v) T m0 ∧
  T.length = m1.length ∧ m1' = List.zipWith (fun M S => M * S * M.transpose) T m1

/-- The length of an element as configured: some types have none. -/
noncomputable def lengthOf (type : String) (c : String → Option Flame.Linear.LVal) : ℝ :=
  if type = "marker" ∨ type = "bpm" ∨ type = "orbtrim" ∨ type = "stripper" then 0
  else match c "L" with
    | some (.num x) => x
    | _ => 0

/-- `k` is what remains of `x` without its fraction. -/
def Truncated (x : ℝ) (k : ℕ) : Prop := (k ≤ x ∧ x < k + 1) ∨ (k = 0 ∧ -1 < x ∧ x < 0)

/-- The numbers of the charge states to be set up, of `n` configured ones: all, or the one 'cstate' selects. -/
def Selects (c : String → Option Flame.Linear.LVal) (n : ℕ) (sel : List ℕ) : Prop :=
  ((∀ x, c "cstate" ≠ some (.num x)) ∧ sel = List.range n) ∨
  ∃ x k, c "cstate" = some (.num x) ∧ Truncated x k ∧ k < 2 ^ 64 ∧ sel = [k]

/-- The text of parameter `k` or `d`. -/
def textOr (c : String → Option Flame.Linear.LVal) (k d : String) : String :=
  match c k with
  | some (.str x) => x
  | _ => d

/-- The number of parameter `k` or `d`. -/
def numOr (c : String → Option Flame.Linear.LVal) (k : String) (d : ℝ) : ℝ :=
  match c k with
  | some (.num x) => x
  | _ => d

/-- Charge state number `i` has a centroid of 7 values and a covariance of 49 values. -/
def Moments (c : String → Option Flame.Linear.LVal) (i : ℕ) (v S : List ℝ) : Prop :=
  c (textOr c "vector_variable" "moment0" ++ toString i) = some (.vec v) ∧ v.length = 7 ∧
  c (textOr c "matrix_variable" "initial" ++ toString i) = some (.vec S) ∧ S.length = 49

/-- Coordinates in the frame of an element that is shifted by `dx`, `dy` and then rolled by the angle `a`. -/
noncomputable def inFrame (dx dy a : ℝ) (v : Fin 7 → ℝ) : Fin 7 → ℝ :=
  ![Real.cos a * (v 0 - dx * v 6) + Real.sin a * (v 2 - dy * v 6), Real.cos a * v 1 + Real.sin a * v 3,
    -Real.sin a * (v 0 - dx * v 6) + Real.cos a * (v 2 - dy * v 6), -Real.sin a * v 1 + Real.cos a * v 3,
    v 4, v 5, v 6]

/-- The place of a particle relative to a point at distance `z` behind it on the axis; `k` converts the longitudinal
coordinate to a length. -/
def place (k z : ℝ) (v : Fin 7 → ℝ) : Fin 3 → ℝ := ![v 0, v 2, k * v 4 - z * v 6]

/-- The momentum of a particle in units of the design momentum; `q` converts the longitudinal coordinate. -/
def direction (q : ℝ) (v : Fin 7 → ℝ) : Fin 3 → ℝ := ![v 1, v 3, q * v 5 + v 6]

/-- First about the first axis by `a`, then about the second by `b`, then about the third by `c`. -/
noncomputable def turned (a b c : ℝ) : Matrix (Fin 3) (Fin 3) ℝ :=
  !![Real.cos c, Real.sin c, 0; -Real.sin c, Real.cos c, 0; 0, 0, 1] *
  (!![Real.cos b, 0, Real.sin b; 0, 1, 0; -Real.sin b, 0, Real.cos b] *
   !![1, 0, 0; 0, Real.cos a, Real.sin a; 0, -Real.sin a, Real.cos a])

/-- A rotation of space. -/
def Rotation (r : Matrix (Fin 3) (Fin 3) ℝ) : Prop := r * r.transpose = 1 ∧ r.det = 1

/-- The form of phase space areas: coordinates 0, 2, 4 are conjugate to 1, 3, 5; the unit of the longitudinal area is `w`
times that of the transverse ones. -/
def form (w : ℝ) : Matrix (Fin 6) (Fin 6) ℝ :=
  !![0, 1, 0, 0, 0, 0;
     -1, 0, 0, 0, 0, 0;
     0, 0, 0, 1, 0, 0;
     0, 0, -1, 0, 0, 0;
     0, 0, 0, 0, 0, w;
     0, 0, 0, 0, -w, 0]

/-- All phase space areas and the volume are preserved. -/
def Preserves (w : ℝ) (M : Matrix (Fin 6) (Fin 6) ℝ) : Prop := M.transpose * form w * M = form w

/-- The seventh coordinate of all centroids is one, and nothing is correlated with it. -/
def Homogeneous (m0 : List (Fin 7 → ℝ)) (m1 : List (Matrix (Fin 7) (Fin 7) ℝ)) : Prop :=
  (∀ v ∈ m0, v 6 = 1) ∧ ∀ S ∈ m1, ∀ i, S i 6 = 0 ∧ S 6 i = 0

/-- If parameter 'matrix' has 49 values, the last seven, which are the last row, are those of the identity. -/
def AffineMatrix (c : String → Option Flame.Linear.LVal) : Prop :=
  ∀ xs, c "matrix" = some (.vec xs) → xs.length = 49 → xs.drop 42 = [0, 0, 0, 0, 0, 0, 1]

/-- The mean of values with weights. -/
noncomputable def weighted (l : List (ℝ × ℝ)) : ℝ := (l.map (fun q => q.1 * q.2)).sum / (l.map Prod.fst).sum

/-- `B` is `A` with larger spreads: each coordinate is scaled by its own positive factor, so that all correlations stay;
the variances of positions and phase are the same, those of the angles are larger by `a` and that of the energy by
`e`. -/
def Widened (a e : ℝ) (A B : Matrix (Fin 6) (Fin 6) ℝ) : Prop :=
  (∃ d : Fin 6 → ℝ, (∀ i, 0 < d i) ∧ ∀ i j, B i j = d i * d j * A i j) ∧
  B 0 0 = A 0 0 ∧ B 1 1 = A 1 1 + a ∧ B 2 2 = A 2 2 ∧ B 3 3 = A 3 3 + a ∧ B 4 4 = A 4 4 ∧ B 5 5 = A 5 5 + e

/-- The list of parameter `k` or `d`. -/
def listOr (c : String → Option Flame.Linear.LVal) (k : String) (d : List ℝ) : List ℝ :=
  match c k with
  | some (.vec x) => x
  | _ => d

end Flame.Moment.Spec
