import Mathlib.Analysis.SpecialFunctions.Pow.Real

/-!
# The phase of a cavity (C73)

A cavity is driven such that the reference particle enters it with the phase of the settings, less a lag that depends on its energy.
Nothing here refers to the model.
-/

namespace Flame.Cavity.Spec

/-- The lag (rad) by kinetic energy (MeV) of the built-in types. -/
noncomputable def lag : String → Option (ℝ → ℝ)
  | "0.041QWR" => some fun E => 4.394 * E ^ (-0.4965 : ℝ) - 4.731
  | "0.085QWR" => some fun E => 5.428 * E ^ (-0.5008 : ℝ) + 1.6
  | "0.29HWR" => some fun E => 22.35 * E ^ (-0.5348 : ℝ) + 2.026
  | "0.53HWR" => some fun E => 41.43 * E ^ (-0.5775 : ℝ) + 2.59839
  | _ => none

/-- A power series in the normalised strength `x` whose coefficients depend on the energy, five parameters each. -/
noncomputable def series (x E : ℝ) : List ℝ → ℝ
  | a :: b :: c :: d :: e :: l => a * E ^ b + c * Real.log E + d * Real.exp (-E) + e + x * series x E l
  | _ => 0

/-- What the data file of a generic cavity says about the phase: three parameters at its first gap, a series, a normalisation. -/
structure Sync where
  gap : Option (ℝ × ℝ × ℝ)
  series : Option (List ℝ)
  norm : Option ℝ

/-- The lag of a generic cavity, for a beam of charge `Z` and fields scaled by `scl`. -/
def GenericLag (y : Sync) (sync scl Z E lag : ℝ) : Prop :=
  (∀ l n, y.series = some l → y.norm = some n → sync = 1 → 5 ∣ l.length ∧ lag = Spec.series (scl * Z / n) E l) ∧
  (y.series = none ∨ y.norm = none ∨ sync ≠ 1 → ∃ a b c, y.gap = some (a, b, c) ∧ lag = a * E ^ b - c)

end Flame.Cavity.Spec
