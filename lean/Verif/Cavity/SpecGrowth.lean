import Mathlib.Analysis.SpecialFunctions.Integrals.Basic
import Mathlib.Data.Matrix.Basic

/-!
# What the growth of the emittance in a cavity is meant to be

Phases are in rad.  Nothing here refers to the model.
-/

namespace Flame.Cavity.Spec

/-- Mean over a bunch whose profile is proportional to `(1 - x²)²` between its ends `-1` and `1`. -/
noncomputable def bunchMean (h : ℝ → ℝ) : ℝ := 15 / 16 * ∫ x in (-1 : ℝ)..1, (1 - x ^ 2) ^ 2 * h x

/-- Mean square of the deviation from the mean over the bunch. -/
noncomputable def bunchVar (h : ℝ → ℝ) : ℝ := bunchMean (fun x => (h x - bunchMean h) ^ 2)

/-- A bunch of half length `D` passes a gap with phase `φ` for its middle; a particle there is deflected by
`k * sin (phase)` times its offset.  This is what the mean square of the angles grows by, if that of the offsets is `x2`. -/
noncomputable def kickSpread (k φ D x2 : ℝ) : ℝ := k ^ 2 * bunchVar (fun x => Real.sin (φ + D * x)) * x2

/-- The covariance `N` is `M` after the coordinates have been multiplied by the numbers `d`. -/
def Stretched (d : Fin 7 → ℝ) (M N : Matrix (Fin 7) (Fin 7) ℝ) : Prop := ∀ i j, N i j = d i * d j * M i j

/-- The voltage of a gap that changes the energy of a charge `Z` by `dW` when passed at phase `φ`; a gap that hardly changes
any energy counts as none. -/
noncomputable def gapVoltage (φ Z dW : ℝ) : ℝ := if |Real.cos φ| < 1 / 10000 then 0 else dW / (Real.cos φ * Z)

/-- Defocusing strength of a gap: `Z` is the charge, `Es` the rest energy, `V` the voltage, `bgm` the mean `βγ`, `bg` that
behind the gap, `lam` the wave length. -/
noncomputable def defocus (Z Es V bgm bg lam : ℝ) : ℝ := Real.pi * |Z| * V / (Es * bgm ^ 2 * bg * lam)

end Flame.Cavity.Spec
