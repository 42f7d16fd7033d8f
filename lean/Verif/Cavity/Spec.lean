import Mathlib.Analysis.SpecialFunctions.Trigonometric.Basic
import Mathlib.Data.Matrix.Mul
import Mathlib.LinearAlgebra.Matrix.Notation

/-!
# What an RF cavity is meant to do

Nothing here refers to the model.
-/

namespace Flame.Cavity.Spec

/-- The polynomial with the coefficients `a`, constant term first. -/
def polyUp (x : ℝ) : List ℝ → ℝ
  | [] => 0
  | a :: l => a + x * polyUp x l

/-- The polynomial with the coefficients `a`, highest power first. -/
def polyDown (x : ℝ) (a : List ℝ) : ℝ := a.foldl (fun r c => r * x + c) 0

/-- The motion of a particle with charge `Z` and rest energy `Es` (eV) through a field with the values `E` (V/m, times `scl`)
at `n + 1` points, `dz` mm apart, for the wave length `lam`: total energy `W`, phase `φ` and wave number `K` at the points.
It keeps moving up to the last point but one. -/
structure Track (Z Es scl lam dz : ℝ) (E : ℕ → ℝ) (n : ℕ) (W φ K : ℕ → ℝ) : Prop where
  phase : ∀ i < n, φ (i + 1) = φ i + K i * dz
  energy : ∀ i < n, W (i + 1) = W i + Z * scl * ((E i + E (i + 1)) / 2) * Real.cos ((φ i + φ (i + 1)) / 2) * (dz / 1000)
  moving : ∀ i < n, 0 < i → Es < W i
  wave : ∀ i < n, 0 < i → K i = 2 * Real.pi / (Real.sqrt (1 - (Es / W i) ^ 2) * lam)

/-- The forms of transverse and of longitudinal phase space areas. -/
def areaT : Matrix (Fin 6) (Fin 6) ℝ :=
  !![0, 1, 0, 0, 0, 0; -1, 0, 0, 0, 0, 0; 0, 0, 0, 1, 0, 0; 0, 0, -1, 0, 0, 0; 0, 0, 0, 0, 0, 0; 0, 0, 0, 0, 0, 0]
def areaL : Matrix (Fin 6) (Fin 6) ℝ :=
  !![0, 0, 0, 0, 0, 0; 0, 0, 0, 0, 0, 0; 0, 0, 0, 0, 0, 0; 0, 0, 0, 0, 0, 0; 0, 0, 0, 0, 0, 1; 0, 0, 0, 0, -1, 0]

/-- Transverse areas are multiplied by `r`, longitudinal areas are kept, and the planes are not mixed. -/
def Damps (r : ℝ) (M : Matrix (Fin 6) (Fin 6) ℝ) : Prop :=
  M.transpose * areaT * M = r • areaT ∧ M.transpose * areaL * M = areaL

/-- Momentum, in units of `m c`, at total energy `W` and rest energy `Es`. -/
noncomputable def momentum (Es W : ℝ) : ℝ := Real.sqrt (1 - (Es / W) ^ 2) * (W / Es)

end Flame.Cavity.Spec
