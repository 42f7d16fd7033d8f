import Verif.Cavity.SpecAlone

/-! # Markers: the terms of C88

Nothing here mentions functions of the model, only states. -/

namespace Flame.Cavity.Spec

open Flame.Moment (Particle MSt)

/-- Two particles with the same charge, weight, mass, energy, phase and reference frequency; the other numbers of a particle are
computed from these. -/
structure SameParticle (p q : Particle) : Prop where
  charge : q.IonZ = p.IonZ
  weight : q.IonQ = p.IonQ
  mass : q.IonEs = p.IonEs
  energy : q.IonEk = p.IonEk
  phase : q.phis = p.phis
  frequency : q.SampleFreq = p.SampleFreq

/-- Two states with the same position, particles, centroids and covariances. -/
structure SameMoments (S S' : MSt) : Prop where
  pos : S'.pos = S.pos
  ref : SameParticle S.ref S'.ref
  real : List.Forall₂ SameParticle S.real S'.real
  moment0 : S'.moment0 = S.moment0
  moment1 : S'.moment1 = S.moment1
  cavity : S'.last_caviphi0 = S.last_caviphi0

end Flame.Cavity.Spec
