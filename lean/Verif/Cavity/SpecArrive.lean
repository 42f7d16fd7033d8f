import Verif.Moment.SpecMotion
import Verif.Moment.Model

/-! # Arrival of a particle: the terms of C101 -/

namespace Flame.Cavity.Spec

open Flame.Moment (Particle)
open Flame.Moment.Spec (phaseAdvance)

/-- `q` is the particle `p` after the distance `L` (m) at constant velocity, its phase being shifted by `δ` in addition. -/
def Arrived (p q : Particle) (L δ : ℝ) : Prop :=
  q.IonZ = p.IonZ ∧ q.IonQ = p.IonQ ∧ q.IonEs = p.IonEs ∧ q.IonEk = p.IonEk ∧ q.SampleFreq = p.SampleFreq ∧
    (0 < p.IonEs → 0 < p.IonEk →
      q.phis = p.phis + phaseAdvance p.SampleFreq p.IonEs (p.IonEs + p.IonEk) (1000 * L) + δ)

end Flame.Cavity.Spec
