import Verif.Flip.Spec

/-! # A beam that is the same on the left and on the right: the terms of C117

Nothing here mentions functions of the elements or the mirror, only settings and states. -/

namespace Flame.Flip.Spec

open Flame.Linear (LCfg LVal)
open Flame.Moment (MSt)

/-- A vector without horizontal position and angle. -/
def Centred (v : Fin 7 → ℝ) : Prop := v 0 = 0 ∧ v 1 = 0

/-- A matrix that does not couple the horizontal plane (rows and columns 0 and 1) to the other coordinates. -/
def Uncoupled (M : Matrix (Fin 7) (Fin 7) ℝ) : Prop := ∀ i j : Fin 7, (i : ℕ) < 2 → 2 ≤ (j : ℕ) → M i j = 0 ∧ M j i = 0

/-- The beam is on the axis in the horizontal plane, every charge state by itself, and its horizontal plane is not correlated
with the rest. -/
structure LeftRight (S : MSt) : Prop where
  moment0 : ∀ v ∈ S.moment0, Centred v
  moment1 : ∀ M ∈ S.moment1, Uncoupled M
  transmat : ∀ M ∈ S.transmat, Uncoupled M
  moment0_env : Centred S.moment0_env
  moment1_env : Uncoupled S.moment1_env

/-- The element of type `ty` with the settings `c` has nothing that tells left from right: no horizontal offset, no roll and no yaw, no
field in a solenoid, no strength in a sextupole, no angle in a bend or a horizontal electrostatic dipole, no horizontal kick and
no rotation of a corrector.  A given transfer matrix does not couple, and the beams of a source are centred and uncoupled. -/
structure Upright (ty : String) (c : LCfg) : Prop where
  zero : ∀ k x, Reversed ty c k → c k = some (.num x) → x = 0
  vector : ∀ k xs, IsMoments ty c k → c k = some (.vec xs) → xs.length = 7 → xs.getD 0 0 = 0 ∧ xs.getD 1 0 = 0
  matrix : ∀ k xs, IsMoments ty c k → c k = some (.vec xs) → xs.length = 49 →
    ∀ i j : ℕ, i < 2 → 2 ≤ j → j < 7 → xs.getD (7 * i + j) 0 = 0 ∧ xs.getD (7 * j + i) 0 = 0
  given : ty = "source" → ¬ Several c → ∃ xs, c (text c "matrix_variable" "initial") = some (.vec xs) ∧ xs.length = 49

end Flame.Flip.Spec
