import Verif.Cavity.SpecSettings
import Verif.Moment.Spec

/-! # Elements cut in two: the terms of C87

Nothing here mentions functions of the model, only states and settings. -/

namespace Flame.Cavity.Spec

open Flame.Linear (LCfg)
open Flame.Moment (Env MSt)
open Flame.Moment.Spec (numOr)
open Flame.Cavity.Settings (Switch)

/-- The settings `a` and `b` are those of the two parts of an element of the type `ty` with the settings `c`: a drift, or a
quadrupole, solenoid or electrostatic quadrupole whose field is uniform along its length and which is not inclined (it may be
shifted and rolled).  The parts have the settings of the whole apart from the name, and their lengths add up. -/
structure Halves (env : Env) (ty : String) (c a b : LCfg) : Prop where
  kind : ty = "drift" ∨ ty = "quadrupole" ∨ ty = "solenoid" ∨ ty = "equad"
  same : ∀ k, k ≠ "L" → k ≠ "name" → a k = c k ∧ b k = c k
  length : ∃ x y, a "L" = some (.num x) ∧ b "L" = some (.num y) ∧ c "L" = some (.num (x + y))
  angles : ty ≠ "drift" → numOr c "pitch" 0 = 0 ∧ numOr c "yaw" 0 = 0
  uniform : ty ≠ "drift" → Switch env c "ncurve" 0 0

/-- Two states that are equal, apart perhaps from the matrices of the last element. -/
def SameBeam (S S' : MSt) : Prop := S' = { S with transmat := S'.transmat }

end Flame.Cavity.Spec
