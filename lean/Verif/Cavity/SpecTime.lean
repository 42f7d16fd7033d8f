import Verif.Moment.Model

/-! # The choice of the time origin: the terms of C67

Nothing here mentions functions of the model, only states, their fields and configurations. -/

namespace Flame.Cavity.Spec

open Flame.Moment (Particle MSt)
open Flame.Linear (LCfg)
open Flame.Mach (Event St)

/-- The same particle, `δ` later (in radians of the sampling frequency). -/
def LaterParticle (δ : ℝ) (p q : Particle) : Prop :=
  q.phis = p.phis + δ ∧ q.IonZ = p.IonZ ∧ q.IonQ = p.IonQ ∧ q.IonEs = p.IonEs ∧ q.IonW = p.IonW ∧ q.gamma = p.gamma ∧
    q.beta = p.beta ∧ q.bg = p.bg ∧ q.SampleFreq = p.SampleFreq ∧ q.SampleLambda = p.SampleLambda ∧
    q.SampleIonK = p.SampleIonK ∧ q.IonEk = p.IonEk

/-- The same beam, `δ` later.  Only the phases of the particles differ (and the report of the last driven phase). -/
structure Later (δ : ℝ) (S S' : MSt) : Prop where
  pos : S'.pos = S.pos
  ref : LaterParticle δ S.ref S'.ref
  real : List.Forall₂ (LaterParticle δ) S.real S'.real
  moment0 : S'.moment0 = S.moment0
  moment1 : S'.moment1 = S.moment1
  transmat : S'.transmat = S.transmat
  moment0_env : S'.moment0_env = S.moment0_env
  moment0_rms : S'.moment0_rms = S.moment0_rms
  moment1_env : S'.moment1_env = S.moment1_env

/-- A cavity that does not see a delay by `δ` of a beam sampled at `f0`: its phase follows the beam, or the delay is a whole
number of its periods. -/
def Blind (δ f0 : ℝ) (c : LCfg) : Prop :=
  (∀ x, c "syncflag" = some (.num x) → 1 ≤ x) ∨ ∃ (f : ℝ) (k : ℤ), c "f" = some (.num f) ∧ δ * (f / f0) = k * (2 * Real.pi)

/-- A stripper behind which the beam carries a charge: the charge states are given by the settings. -/
def Charges (c : LCfg) : Prop :=
  c "charge_model" = some (.str "off") ∧
    ∃ w : List ℝ, c "NCharge" = some (.vec w) ∧ w.sum ≠ 0

/-- The same event of a propagation, with states that are related. -/
inductive Seen {S : Type} (Q : S → S → Prop) : Event S → Event S → Prop
  | visit (n : Nat) : Seen Q (.visit n) (.visit n)
  | view (o i : Nat) {s s' : St S} : Q s.payload s'.payload → s'.nextElem = s.nextElem → s'.retreat = s.retreat →
      Seen Q (.view o i s) (.view o i s')

end Flame.Cavity.Spec
