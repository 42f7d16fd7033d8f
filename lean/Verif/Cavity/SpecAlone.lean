import Verif.Moment.Model

/-! # Charge states of a beam and of a part of it: the terms of C84

Nothing here mentions functions of the model, only states and their fields. -/

namespace Flame.Cavity.Spec

open Flame.Moment (Particle MSt)

/-- The same particle, apart from the weight of the charge state. -/
def Reweighted (p q : Particle) : Prop :=
  q.phis = p.phis ∧ q.IonZ = p.IonZ ∧ q.IonEs = p.IonEs ∧ q.IonW = p.IonW ∧ q.gamma = p.gamma ∧
    q.beta = p.beta ∧ q.bg = p.bg ∧ q.SampleFreq = p.SampleFreq ∧ q.SampleLambda = p.SampleLambda ∧
    q.SampleIonK = p.SampleIonK ∧ q.IonEk = p.IonEk

/-- The beam has one centroid, one covariance and one matrix per charge state. -/
structure Complete (S : MSt) : Prop where
  moment0 : S.moment0.length = S.real.length
  moment1 : S.moment1.length = S.real.length
  transmat : S.transmat.length = S.real.length

/-- Charge state `i` of the beam `S` is charge state `j` of the beam `S'`: the particle, its centroid, its covariance and the
matrix that moved it last.  The weights may differ. -/
structure SameState (S : MSt) (i : Nat) (S' : MSt) (j : Nat) : Prop where
  particle : ∃ p q, S.real[i]? = some p ∧ S'.real[j]? = some q ∧ Reweighted p q
  moment0 : S'.moment0[j]? = S.moment0[i]?
  moment1 : S'.moment1[j]? = S.moment1[i]?
  transmat : S'.transmat[j]? = S.transmat[i]?

/-- The beam `S'` consists of charge states of the beam `S`: its charge state `j` is number `f j` there.  Some may be missing, their
order and their weights may be others. -/
structure PartOf (f : Nat → Nat) (S S' : MSt) : Prop where
  pos : S'.pos = S.pos
  ref : S'.ref = S.ref
  last_caviphi0 : S'.last_caviphi0 = S.last_caviphi0
  states : ∀ j < S'.real.length, SameState S (f j) S' j

end Flame.Cavity.Spec
