import Verif.Level.Spec

/-! # A beam that is the same above and below: the flat beams of C118

Nothing here mentions functions of the elements or the mirror, only settings and states. -/

namespace Flame.Level.Spec

open Flame.Linear (LCfg LVal)
open Flame.Moment (MSt)

/-- A vector without vertical position and angle. -/
def Flat (v : Fin 7 → ℝ) : Prop := v 2 = 0 ∧ v 3 = 0

/-- The number of a vertical coordinate. -/
def Vertical (i : ℕ) : Prop := i = 2 ∨ i = 3

/-- A matrix that does not couple the vertical plane (rows and columns 2 and 3) to the other coordinates. -/
def Uncoupled (M : Matrix (Fin 7) (Fin 7) ℝ) : Prop := ∀ i j : Fin 7, Vertical i → ¬ Vertical j → M i j = 0 ∧ M j i = 0

/-- The beam is in the horizontal plane, every charge state by itself, and its vertical plane is not correlated with the rest. -/
structure UpDown (S : MSt) : Prop where
  moment0 : ∀ v ∈ S.moment0, Flat v
  moment1 : ∀ M ∈ S.moment1, Uncoupled M
  transmat : ∀ M ∈ S.transmat, Uncoupled M
  moment0_env : Flat S.moment0_env
  moment1_env : Uncoupled S.moment1_env

/-- The element of type `ty` with the settings `c` has nothing that tells up from down: it is no cavity, and there is no vertical offset,
no roll and no pitch, no field in a solenoid, no angle in a vertical electrostatic dipole, no vertical kick and no rotation of a
corrector.  A given transfer matrix does not couple, and the beams of a source are flat and uncoupled. -/
structure Planar (ty : String) (c : LCfg) : Prop where
  zero : ∀ k x, Reversed ty c k → c k = some (.num x) → x = 0
  vector : ∀ k xs, IsMoments ty c k → c k = some (.vec xs) → xs.length = 7 → xs.getD 2 0 = 0 ∧ xs.getD 3 0 = 0
  matrix : ∀ k xs, IsMoments ty c k → c k = some (.vec xs) → xs.length = 49 →
    ∀ i j : ℕ, Vertical i → ¬ Vertical j → j < 7 → xs.getD (7 * i + j) 0 = 0 ∧ xs.getD (7 * j + i) 0 = 0
  kind : ty ≠ "rfcavity"
  given : ty = "source" → ¬ Several c → ∃ xs, c (text c "matrix_variable" "initial") = some (.vec xs) ∧ xs.length = 49

end Flame.Level.Spec
