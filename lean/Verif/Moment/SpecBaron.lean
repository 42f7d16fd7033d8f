import Mathlib.Analysis.SpecialFunctions.Pow.Real

/-!
# Charges behind a foil

The formula of E. Baron, M. Bajard and Ch. Ricaud, Nucl. Instr. Meth. A 328 (1993) 177, for ions with `Z` protons and the
velocity `b`, in units of that of light, behind a foil of carbon.
-/

namespace Flame.Moment.Baron

/-- The part of its electrons that an ion has lost, without the correction for heavy ions. -/
noncomputable def lost (Z b : ℝ) : ℝ := 1 - Real.exp (-(83.275 * b / Z ^ (0.447 : ℝ)))

/-- The mean charge. -/
noncomputable def charge (Z b : ℝ) : ℝ := Z * lost Z b * (1 - Real.exp (-12.905 + 0.2124 * Z - 0.00122 * Z ^ 2))

/-- The variance of the charge. -/
noncomputable def spread (Z b : ℝ) : ℝ := Z * lost Z b * (0.07535 + 0.19 * lost Z b - 0.2654 * lost Z b ^ 2)

/-- The exponent `83.275 b / Z^0.447` at which the variance vanishes: the ions keep the share `1 - y` of their electrons, where
`y` is the positive root of `0.07535 + 0.19 y - 0.2654 y^2`. -/
noncomputable def bare : ℝ := -Real.log (1 - (0.19 + Real.sqrt (0.19 ^ 2 + 4 * 0.2654 * 0.07535)) / (2 * 0.2654))

end Flame.Moment.Baron
