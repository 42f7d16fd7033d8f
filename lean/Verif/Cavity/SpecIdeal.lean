import Verif.Cavity.SpecAlone
import Verif.Cavity.SpecSettings
import Verif.Moment.Spec

/-! # Charge states that follow the reference particle: the terms of C85

Nothing here mentions functions of the model, only states and settings. -/

namespace Flame.Cavity.Spec

open Flame.Linear (LCfg)
open Flame.Moment (Env Particle MSt Vec)
open Flame.Moment.Spec (numOr)
open Flame.Cavity.Settings (Switch)

/-- The coordinates of a particle on the axis with the time and the energy of the reference particle. -/
def onAxis : Vec := fun i => if i = 6 then 1 else 0

/-- Charge state `i` follows the reference particle: it has all its properties apart from the weight, and its centroid is on the
axis. -/
structure Follows (S : MSt) (i : Nat) : Prop where
  particle : ∃ p, S.real[i]? = some p ∧ Reweighted S.ref p
  centroid : S.moment0[i]? = some onAxis

/-- Elements that have no effect on a charge state which follows the reference particle: they are neither shifted nor inclined
(they may be rolled), steerers are off, magnetic and electrostatic dipoles are fitted to the reference particle, sextupoles act
without the kick that comes from the size of the beam, cavities have no dipole fields, and matrices of the user have no constant
terms. -/
structure Unkicked (env : Env) (ty : String) (c : LCfg) : Prop where
  kinds : ty ≠ "source" ∧ ty ≠ "stripper"
  shifts : numOr c "dx" 0 = 0 ∧ numOr c "dy" 0 = 0
  angles : numOr c "pitch" 0 = 0 ∧ numOr c "yaw" 0 = 0
  steerer : ty = "orbtrim" → (numOr c "realpara" 0 = 1 → numOr c "tm_xkick" 0 = 0 ∧ numOr c "tm_ykick" 0 = 0) ∧
    (numOr c "realpara" 0 ≠ 1 → numOr c "theta_x" 0 = 0 ∧ numOr c "theta_y" 0 = 0)
  dipole : ty = "sbend" ∨ ty = "edipole" → Switch env c "HdipoleFitMode" 1 1
  sextupole : ty = "sextupole" → numOr c "dstkick" 1 ≠ 1
  cavity : ty = "rfcavity" → Switch env c "MpoleLevel" 2 0
  matrix : ty = "tmatrix" → ∀ xs, c "matrix" = some (.vec xs) → xs.getD 48 0 = 1 ∧ ∀ i < 6, xs.getD (7 * i + 6) 0 = 0

end Flame.Cavity.Spec
