import Mathlib.Data.Matrix.Mul
import Mathlib.LinearAlgebra.Matrix.Notation
import Mathlib.Data.Real.Basic

/-!
# What a user of the linear simulations relies on

Definitions used in the statements of C27-C32 and C56.  Nothing here mentions the model.
-/

namespace Flame.Linear.Spec

/-- The product of the matrices of a beamline: the first one acts first. -/
def along : List (Matrix (Fin 6) (Fin 6) ℝ) → Matrix (Fin 6) (Fin 6) ℝ
  | [] => 1
  | M :: Ms => along Ms * M

/-- The part of a beamline passed when starting at element `start` with at most `|max|` elements: forward for
`max ≥ 0`, otherwise backward from `start` itself; in the order of passage. -/
def passed {α : Type} (els : List α) (start : Nat) (max : Int) : List α :=
  if 0 ≤ max then (els.drop start).take max.toNat
  else if start < els.length then ((els.take (start + 1)).reverse).take max.natAbs
  else []

/-- The symplectic form: coordinates 0, 2, 4 are conjugate to 1, 3, 5. -/
def J : Matrix (Fin 6) (Fin 6) ℝ :=
  !![0, 1, 0, 0, 0, 0;
     -1, 0, 0, 0, 0, 0;
     0, 0, 0, 1, 0, 0;
     0, 0, -1, 0, 0, 0;
     0, 0, 0, 0, 0, 1;
     0, 0, 0, 0, -1, 0]

/-- Phase space volume and all areas are preserved. -/
def Symplectic (M : Matrix (Fin 6) (Fin 6) ℝ) : Prop := M.transpose * J * M = J

/-- The plane of coordinates `i`, `j` is decoupled from the others and its area is preserved. -/
def AreaPreservedIn (i j : Fin 6) (M : Matrix (Fin 6) (Fin 6) ℝ) : Prop :=
  (∀ a, a ≠ i → a ≠ j → M i a = 0 ∧ M j a = 0 ∧ M a i = 0 ∧ M a j = 0) ∧ M i i * M j j - M i j * M j i = 1

/-- Equations of motion `x'' = -kx x`, `y'' = -ky y`, as a first order system. -/
def hill (kx ky : ℝ) : Matrix (Fin 6) (Fin 6) ℝ :=
  !![0, 1, 0, 0, 0, 0;
     -kx, 0, 0, 0, 0, 0;
     0, 0, 0, 1, 0, 0;
     0, 0, -ky, 0, 0, 0;
     0, 0, 0, 0, 0, 0;
     0, 0, 0, 0, 0, 0]

/-- Equations of motion in a longitudinal field: focusing in both planes by `k^2` seen from a frame that rotates
with angle `k` per length. -/
def larmor (k : ℝ) : Matrix (Fin 6) (Fin 6) ℝ :=
  !![0, 1, k, 0, 0, 0;
     -k ^ 2, 0, 0, k, 0, 0;
     -k, 0, 0, 1, 0, 0;
     0, -k, -k ^ 2, 0, 0, 0;
     0, 0, 0, 0, 0, 0;
     0, 0, 0, 0, 0, 0]

/-- From coordinates with lengths in metres to coordinates with transverse lengths in millimetres. -/
def toMM : Matrix (Fin 6) (Fin 6) ℝ := Matrix.diagonal ![1000, 1, 1000, 1, 1, 1]

end Flame.Linear.Spec
