import Verif.Moment.Spec
import Verif.Cavity.SpecAlone
import Verif.Cavity.SpecSettings
import Mathlib.Algebra.Module.LinearMap.Defs
import Mathlib.Algebra.Module.Prod
import Mathlib.Algebra.Module.Pi

/-! # Correctors and the orbit behind them: the terms of C94

Nothing here mentions functions of the model, only settings, states and their fields. -/

namespace Flame.Cavity.Spec

open Flame.Moment (Particle MSt Env)
open Flame.Moment.Spec (numOr AffineMatrix Homogeneous)
open Flame.Linear (LCfg)

/-- The corrector with the settings `b` is the one with the settings `a`, with its strengths in the two planes changed by `k`.  The
strength is an angle, or a field times length if `realpara` asks for that (/repo/src/moment.cpp:877-895). -/
structure Steered (a b : LCfg) (k : ℝ × ℝ) : Prop where
  rest : ∀ n, n ∉ ["theta_x", "theta_y", "tm_xkick", "tm_ykick"] → b n = a n
  field : numOr a "realpara" 0 = 1 →
    numOr b "tm_xkick" 0 = numOr a "tm_xkick" 0 + k.1 ∧ numOr b "tm_ykick" 0 = numOr a "tm_ykick" 0 + k.2
  angle : numOr a "realpara" 0 ≠ 1 →
    numOr b "theta_x" 0 = numOr a "theta_x" 0 + k.1 ∧ numOr b "theta_y" 0 = numOr a "theta_y" 0 + k.2

/-- Two lattices differ only in correctors of the range, whose strengths are changed by `k`. -/
structure SteeredLattice (ty : LCfg → String → Prop) (start n : ℕ) (es es' : List LCfg) (k : ℕ → ℝ × ℝ) : Prop where
  length : es'.length = es.length
  elements : ∀ j a b, start ≤ j → j < start + n → es[j]? = some a → es'[j]? = some b →
    (ty a "orbtrim" → ty b "orbtrim" ∧ Steered a b (k j)) ∧ (¬ ty a "orbtrim" → b = a)

/-- Element `j` with settings `ec` and type `ty` treats the orbit linearly: everything but sources, strippers and sextupoles; a
matrix that is given keeps the seventh coordinate; the growth of the emittance in cavities is off. -/
structure Linear (env : Env) (ty : String) (ec : LCfg) : Prop where
  kinds : ty ≠ "source" ∧ ty ≠ "stripper" ∧ ty ≠ "sextupole"
  matrix : ty = "tmatrix" → AffineMatrix ec
  growth : ty = "rfcavity" → Settings.Switch env ec "EmitGrowth" 0 0

/-- The same particle, except for the phase. -/
def SameButPhase (p q : Particle) : Prop :=
  q.IonZ = p.IonZ ∧ q.IonQ = p.IonQ ∧ q.IonEs = p.IonEs ∧ q.IonW = p.IonW ∧ q.gamma = p.gamma ∧
    q.beta = p.beta ∧ q.bg = p.bg ∧ q.SampleFreq = p.SampleFreq ∧ q.SampleLambda = p.SampleLambda ∧
    q.SampleIonK = p.SampleIonK ∧ q.IonEk = p.IonEk

/-- The beam `S'` is the beam `S`, only that the centroid of charge state `i` is displaced by `D i`. -/
structure Displaced (S S' : MSt) (D : ℕ → Fin 7 → ℝ) : Prop where
  pos : S'.pos = S.pos
  ref : S'.ref = S.ref
  last_caviphi0 : S'.last_caviphi0 = S.last_caviphi0
  real : List.Forall₂ SameButPhase S.real S'.real
  moment1 : S'.moment1 = S.moment1
  count : S'.moment0.length = S.moment0.length
  moment0 : ∀ i (v : Fin 7 → ℝ), S.moment0[i]? = some v → S'.moment0[i]? = some (v + D i)
  seventh : ∀ i < S.moment0.length, D i 6 = 0

end Flame.Cavity.Spec
