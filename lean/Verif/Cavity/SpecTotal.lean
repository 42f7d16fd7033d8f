import Verif.Cavity.SpecAlone
import Verif.Cavity.SpecSettings
import Verif.Moment.Spec

/-! # The matrix of a range of a lattice: the terms of C86

Nothing here mentions functions of the model, only matrices and settings. -/

namespace Flame.Cavity.Spec

open Flame.Linear (LCfg)

/-- The product of the first `n` of the matrices `T 0, T 1, ...`, the first one on the right. -/
def total (T : ℕ → Matrix (Fin 7) (Fin 7) ℝ) : ℕ → Matrix (Fin 7) (Fin 7) ℝ
  | 0 => 1
  | n + 1 => T n * total T n

/-- Elements that neither make a new beam nor mix the charge states; matrices of the user have the last row of the identity. -/
structure Moves (ty : String) (c : LCfg) : Prop where
  kinds : ty ≠ "source" ∧ ty ≠ "stripper"
  matrix : ty = "tmatrix" → Flame.Moment.Spec.AffineMatrix c

end Flame.Cavity.Spec
