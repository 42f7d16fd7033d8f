import Verif.Cavity.SpecAlone
import Mathlib.Algebra.BigOperators.Group.Finset.Basic

/-! # Two descriptions of one beam: the terms of C99

Nothing here mentions functions of the model, only states and their fields. -/

namespace Flame.Cavity.Spec

open Flame.Moment (Particle MSt)

/-- The weight that the charge states of `S'` which are number `i` of another beam carry together. -/
noncomputable def weightOf (f : Nat → Nat) (S' : MSt) (i : Nat) : ℝ :=
  ∑ j ∈ Finset.range S'.real.length, if f j = i then (S'.real.map (·.IonQ)).getD j 0 else 0

/-- The beam `S'` is the beam `S` with its charge states listed in another order, each of them divided into any number of equal
parts, and with all weights in another unit: charge state `j` of `S'` is number `f j` of `S` (`part`), none is missing (`all`), and
together the parts of one have its weight, times the factor `c` for all of them (`weight`). -/
structure Division (f : Nat → Nat) (c : ℝ) (S S' : MSt) : Prop where
  unit : c ≠ 0
  part : PartOf f S S'
  all : ∀ i < S.real.length, ∃ j < S'.real.length, f j = i
  weight : ∀ i p, S.real[i]? = some p → weightOf f S' i = c * p.IonQ

/-- Two states with the same averages: mean, widths and covariance of the whole beam. -/
structure SameAverages (S S' : MSt) : Prop where
  mean : S'.moment0_env = S.moment0_env
  width : S'.moment0_rms = S.moment0_rms
  cov : S'.moment1_env = S.moment1_env

/-- One beam in two descriptions.  If `first`, the first charge state of both is the same. -/
def OneBeam (first : Bool) (S S' : MSt) : Prop :=
  (∃ f c, Division f c S S' ∧ (first = true → f 0 = 0)) ∧ SameAverages S S'

end Flame.Cavity.Spec
