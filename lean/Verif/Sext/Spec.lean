import Mathlib.Data.Real.Basic
import Mathlib.Algebra.BigOperators.Fin

/-! # The motion of a bunch in a sextupole: the terms of C104

Coordinates as everywhere: x, x', y, y', phase, energy, 1. -/

namespace Flame.Sext.Spec

open Finset

/-- Finitely many particles with their weights. -/
structure Bunch (ι : Type) [Fintype ι] where
  weight : ι → ℝ
  z : ι → Fin 7 → ℝ
  total : ∑ n, weight n = 1
  one : ∀ n, z n 6 = 1

variable {ι : Type} [Fintype ι]

/-- The mean of a quantity over the bunch. -/
def Bunch.mean (B : Bunch ι) (f : (Fin 7 → ℝ) → ℝ) : ℝ := ∑ n, B.weight n * f (B.z n)

/-- The centroid. -/
def Bunch.centroid (B : Bunch ι) (i : Fin 7) : ℝ := B.mean (fun z => z i)

/-- The covariance. -/
def Bunch.covariance (B : Bunch ι) (i j : Fin 7) : ℝ := B.mean (fun z => (z i - B.centroid i) * (z j - B.centroid j))

/-- The third moments about the centroid vanish, as for every bunch that is symmetric about it. -/
def Bunch.Even (B : Bunch ι) : Prop :=
  ∀ i j k, B.mean (fun z => (z i - B.centroid i) * (z j - B.centroid j) * (z k - B.centroid k)) = 0

/-- The equations of motion in a sextupole of strength `k`: the field is proportional to `(x + i y)^2`. -/
def rate (k : ℝ) (z : Fin 7 → ℝ) : Fin 4 → ℝ := ![z 1, -k * (z 0 ^ 2 - z 2 ^ 2), z 3, 2 * k * (z 0 * z 2)]

/-- How fast the centroid moves if every particle does what the equations of motion say. -/
def Bunch.centroidRate (B : Bunch ι) (k : ℝ) (i : Fin 4) : ℝ := B.mean (fun z => rate k z i)

/-- How fast the covariance changes. -/
def Bunch.covarianceRate (B : Bunch ι) (k : ℝ) (i j : Fin 4) : ℝ :=
  B.mean (fun z => (rate k z i - B.centroidRate k i) * (z (j.castLE (by decide)) - B.centroid (j.castLE (by decide))) +
    (z (i.castLE (by decide)) - B.centroid (i.castLE (by decide))) * (rate k z j - B.centroidRate k j))

end Flame.Sext.Spec
