import Verif.Flip.Spec

/-! # Another frequency as the unit of phase: the terms of C102

Phases are angles at the sampling frequency.  Nothing here mentions functions of the elements, only settings, states and the calls of
`propagate`. -/

namespace Flame.Freq.Spec

open Flame.Linear (LCfg LVal)
open Flame.Mach (Run)
open Flame.Moment (MSt Particle)
open Flame.Scale.Spec (Call)
open Flame.Flip.Spec (IsMoments Several text keys Read)

/-- What a coordinate is multiplied with if the sampling frequency is multiplied with `u`: only the phase is. -/
noncomputable def unit (u : ℝ) : Fin 7 → ℝ := ![1, 1, 1, 1, u, 1, 1]

/-- A vector of coordinates in the other unit. -/
noncomputable def inUnitV (u : ℝ) (v : Fin 7 → ℝ) : Fin 7 → ℝ := fun i => unit u i * v i

/-- A covariance in the other unit. -/
noncomputable def inUnitS (u : ℝ) (M : Matrix (Fin 7) (Fin 7) ℝ) : Matrix (Fin 7) (Fin 7) ℝ := fun i j => unit u i * M i j * unit u j

/-- A transfer matrix in the other unit. -/
noncomputable def inUnitT (u : ℝ) (M : Matrix (Fin 7) (Fin 7) ℝ) : Matrix (Fin 7) (Fin 7) ℝ := fun i j => unit u i * M i j / unit u j

/-- A particle in the other unit: phase, frequency and wave number times `u`, the wave length divided by `u`. -/
noncomputable def inUnitP (u : ℝ) (p : Particle) : Particle :=
  { p with phis := u * p.phis, SampleFreq := u * p.SampleFreq, SampleLambda := p.SampleLambda / u, SampleIonK := u * p.SampleIonK }

/-- `S'` is the beam `S` in the other unit. -/
structure OtherUnit (u : ℝ) (S S' : MSt) : Prop where
  pos : S'.pos = S.pos
  ref : S'.ref = inUnitP u S.ref
  real : S'.real = S.real.map (inUnitP u)
  moment0 : S'.moment0 = S.moment0.map (inUnitV u)
  moment1 : S'.moment1 = S.moment1.map (inUnitS u)
  transmat : S'.transmat = S.transmat.map (inUnitT u)
  moment0_env : S'.moment0_env = inUnitV u S.moment0_env
  moment0_rms : S'.moment0_rms = inUnitV u S.moment0_rms
  moment1_env : S'.moment1_env = inUnitS u S.moment1_env
  last_caviphi0 : S'.last_caviphi0 = S.last_caviphi0

/-- The components of a vector, the rows of a covariance or, for `tmatrix`, of a transfer matrix in the other unit; a list of another
length is of no use, and only has the same length. -/
def OtherNumbers (u : ℝ) (ty : String) (xs xs' : List ℝ) : Prop :=
  xs'.length = xs.length ∧
  (xs.length = 7 → ∀ i : Fin 7, xs'.getD i 0 = unit u i * xs.getD i 0) ∧
  (xs.length = 49 → ty = "tmatrix" → ∀ i j : Fin 7, xs'.getD (7 * (i : ℕ) + (j : ℕ)) 0 = unit u i * xs.getD (7 * (i : ℕ) + (j : ℕ)) 0 / unit u j) ∧
  (xs.length = 49 → ty ≠ "tmatrix" → ∀ i j : Fin 7, xs'.getD (7 * (i : ℕ) + (j : ℕ)) 0 = unit u i * xs.getD (7 * (i : ℕ) + (j : ℕ)) 0 * unit u j)

/-- A setting of coordinates in the other unit. -/
def OtherValue (u : ℝ) (ty : String) (v v' : Option LVal) : Prop :=
  (∃ xs xs', v = some (.vec xs) ∧ v' = some (.vec xs') ∧ OtherNumbers u ty xs xs') ∨ ((∀ xs, v ≠ some (.vec xs)) ∧ v' = v)

/-- The sampling frequency that is set, or 80.5 MHz. -/
noncomputable def frequency (c : LCfg) : ℝ :=
  match c "SampleFreq" with
  | some (.num x) => x
  | _ => 80500000

/-- The element of type `ty` with the settings `c'` is that with the settings `c`, in the other unit: a source has another sampling
frequency, and centroids, covariances and given transfer matrices are written in the other unit.  All other settings that matter are the
same.  The growth of the emittance is not asked for (see `C102_growth_false`).  A source without a list of charge states has to be
given its covariance (otherwise its memory is not initialised, see C54). -/
structure OtherElement (u : ℝ) (ty : String) (c c' : LCfg) : Prop where
  frequency : ty = "source" → c' "SampleFreq" = some (.num (u * frequency c))
  moments : ∀ k, IsMoments ty c k → OtherValue u ty (c k) (c' k)
  rest : ∀ k, Read k → k ≠ "SampleFreq" → ¬ IsMoments ty c k → c' k = c k
  given : ty = "source" → ¬ Several c → ∃ xs, c (text c "matrix_variable" "initial") = some (.vec xs) ∧ xs.length = 49
  growth : ty = "rfcavity" → c "EmitGrowth" = none ∨ c "EmitGrowth" = some (.num 0)

/-- The same call for the beam in the other unit. -/
def OtherCall (u : ℝ) (x y : Call MSt) : Prop :=
  y.watch = x.watch ∧ y.start = x.start ∧ y.max = x.max ∧ OtherUnit u x.state.payload y.state.payload

/-- Two results of `propagate` that differ by the unit: the same exception or none, the same place, the beam in the other unit, and the
same visits with views in the other unit. -/
def SameButUnit {C X : Type} (u : ℝ) (r r' : Run C X MSt) : Prop :=
  r'.err = r.err ∧ r'.st.nextElem = r.st.nextElem ∧ OtherUnit u r.st.payload r'.st.payload ∧
    List.Forall₂ (Flame.Cavity.Spec.Seen (OtherUnit u)) r.trace r'.trace

end Flame.Freq.Spec
