import Verif.Cavity.SpecTime

/-! # Fields and charges in proportion: the terms of C96

Nothing here mentions functions of the elements, only settings, states and the calls of `propagate`. -/

namespace Flame.Scale.Spec

open Flame.Linear (LCfg LVal)
open Flame.Mach (Elem St Run propagate)
open Flame.Moment (Particle MSt MDat)

/-- A number `q` times as large; anything else as it is. -/
noncomputable def amplify (q : ℝ) : LVal → LVal
  | .num x => .num (q * x)
  | v => v

/-- Numbers of a list `q` times as large; anything else as it is. -/
noncomputable def amplifyAll (q : ℝ) : LVal → LVal
  | .vec xs => .vec (xs.map (q * ·))
  | v => v

/-- The settings that are charges. -/
def IsCharge (k : String) : Prop := k ∈ ["IonZ", "Stripper_IonZ"]

/-- The settings that are fields: of quadrupoles, solenoids, sextupoles, correctors, electrostatic quadrupoles, cavities, and the
factors of the field curves. -/
def IsField (k : String) : Prop :=
  k ∈ ["B2", "B", "B3", "tm_xkick", "tm_ykick", "V", "scl_fac"] ∨ ∃ n : ℕ, k = "scl_fac" ++ toString n

/-- The settings `c'` are the settings `c` with all charges times `q` and all fields divided by `q`. -/
structure Rescaled (q : ℝ) (c c' : LCfg) : Prop where
  charge : ∀ k, IsCharge k → c' k = (c k).map (amplify q)
  charges : c' "IonChargeStates" = (c "IonChargeStates").map (amplifyAll q)
  field : ∀ k, IsField k → c' k = (c k).map (amplify q⁻¹)
  rest : ∀ k, ¬ IsCharge k → k ≠ "IonChargeStates" → ¬ IsField k → c' k = c k

/-- The same particle with `q` times the charge. -/
def RechargedParticle (q : ℝ) (a b : Particle) : Prop :=
  b.IonZ = q * a.IonZ ∧ b.phis = a.phis ∧ b.IonQ = a.IonQ ∧ b.IonEs = a.IonEs ∧ b.IonW = a.IonW ∧ b.gamma = a.gamma ∧
    b.beta = a.beta ∧ b.bg = a.bg ∧ b.SampleFreq = a.SampleFreq ∧ b.SampleLambda = a.SampleLambda ∧
    b.SampleIonK = a.SampleIonK ∧ b.IonEk = a.IonEk

/-- The same beam of particles with `q` times the charge. -/
structure Recharged (q : ℝ) (S S' : MSt) : Prop where
  pos : S'.pos = S.pos
  ref : RechargedParticle q S.ref S'.ref
  real : List.Forall₂ (RechargedParticle q) S.real S'.real
  moment0 : S'.moment0 = S.moment0
  moment1 : S'.moment1 = S.moment1
  transmat : S'.transmat = S.transmat
  moment0_env : S'.moment0_env = S.moment0_env
  moment0_rms : S'.moment0_rms = S.moment0_rms
  moment1_env : S'.moment1_env = S.moment1_env
  last_caviphi0 : S'.last_caviphi0 = S.last_caviphi0

/-- A stripper that replaces the charges by those of its settings. -/
def Settled (c : LCfg) : Prop := c "charge_model" = some (.str "off") ∧ ∃ x, c "Stripper_IonZ" = some (.num x)

/-- The same elements watched by other observers: element number `i` by `w i`. -/
def watched {C X S : Type} (w : ℕ → Option ℕ) (els : List (Elem C X S)) : List (Elem C X S) :=
  els.mapIdx (fun i e => { e with obs := w i })

/-- A call of `propagate`: the observers, the state, the first element and the number of elements (negative: backward). -/
structure Call (S : Type) where
  watch : ℕ → Option ℕ
  state : St S
  start : ℕ
  max : ℤ

/-- Calls of `propagate` one after the other and their results; only the last may end with an exception. -/
inductive Session {C X S : Type} : List (Elem C X S) → List (Call S) → List (Run C X S) → Prop
  | last {els a r} : propagate (watched a.watch els) a.state a.start a.max = some r → Session els [a] [r]
  | cons {els a r calls rs} : propagate (watched a.watch els) a.state a.start a.max = some r → r.err = none →
      Session r.elems calls rs → Session els (a :: calls) (r :: rs)

/-- The same call for the beam with `q` times the charge. -/
def RechargedCall (q : ℝ) (a b : Call MSt) : Prop :=
  b.watch = a.watch ∧ b.start = a.start ∧ b.max = a.max ∧ Recharged q a.state.payload b.state.payload

/-- Two results of `propagate` that differ in nothing but the charges: the same exception or none, the same place, the same beam,
and the same visits with the same views. -/
def SameButCharge {C X : Type} (q : ℝ) (r r' : Run C X MSt) : Prop :=
  r'.err = r.err ∧ r'.st.nextElem = r.st.nextElem ∧ Recharged q r.st.payload r'.st.payload ∧
    List.Forall₂ (Flame.Cavity.Spec.Seen (Recharged q)) r.trace r'.trace

end Flame.Scale.Spec
