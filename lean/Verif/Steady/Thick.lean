import Verif.Steady.Bend
import Mathlib.Analysis.Real.Pi.Bounds
import Mathlib.Analysis.SpecialFunctions.Trigonometric.DerivHyp

/-! # Thick sextupoles: where C107 fails -/

namespace Flame.Steady

open Flame.Moment

/-- The entry through which a vertical offset acts on the horizontal angle. -/
theorem thick_entry (L K Dx Dy D2x D2y D2xy : ℝ) (dst : Bool) (hD : Real.sqrt (|K| * Real.sqrt (Dx * Dx + Dx * Dx)) ≠ 0) :
    (sextM L K Dx Dy D2x D2y D2xy false dst 1) 1 2 =
      Dy * (if K < 0 then -1 else 1) * Real.sqrt (|K| * Real.sqrt (Dx * Dx + Dx * Dx)) *
        (Real.sin (Real.sqrt (|K| * Real.sqrt (Dx * Dx + Dx * Dx)) * L) + Real.sinh (Real.sqrt (|K| * Real.sqrt (Dx * Dx + Dx * Dx)) * L)) /
        (2 * Real.sqrt (Dx * Dx + Dx * Dx)) := by
  unfold sextM
  dsimp only
  rw [if_pos hD]
  cases dst <;> simp [setAt]

theorem thick_axis (L K Dy D2x D2y D2xy : ℝ) (dst : Bool) : (sextM L K 0 Dy D2x D2y D2xy false dst 1) 1 2 = 0 := by
  unfold sextM
  cases dst <;> simp [setAt]

/-- Near the axis the entry is far from zero. -/
theorem thick_gap {L K Dx Dy : ℝ} (D2x D2y D2xy : ℝ) (dst : Bool) (hL : 0 < L) (hK : K ≠ 0) (hx : 0 < Dx)
    (hs : |K| * Real.sqrt (Dx * Dx + Dx * Dx) ≤ 1 / L ^ 2) :
    |Dy| * |K| * L / 2 ≤ |(sextM L K Dx Dy D2x D2y D2xy false dst 1) 1 2| := by
  have hd : 0 < Real.sqrt (Dx * Dx + Dx * Dx) := Real.sqrt_pos.2 (by positivity)
  have hk : 0 < |K| := abs_pos.2 hK
  have hq : 0 < Real.sqrt (|K| * Real.sqrt (Dx * Dx + Dx * Dx)) := Real.sqrt_pos.2 (mul_pos hk hd)
  rw [thick_entry L K Dx Dy D2x D2y D2xy dst hq.ne']
  have hle := root_le hL (mul_pos hk hd) hs
  have hsq : Real.sqrt (|K| * Real.sqrt (Dx * Dx + Dx * Dx)) * Real.sqrt (|K| * Real.sqrt (Dx * Dx + Dx * Dx)) =
      |K| * Real.sqrt (Dx * Dx + Dx * Dx) := Real.mul_self_sqrt (mul_pos hk hd).le
  generalize Real.sqrt (|K| * Real.sqrt (Dx * Dx + Dx * Dx)) = q at *
  generalize Real.sqrt (Dx * Dx + Dx * Dx) = r at *
  have h1 : 0 ≤ Real.sin (q * L) := Real.sin_nonneg_of_nonneg_of_le_pi (by positivity) (by linarith [Real.pi_gt_three])
  have h2 : q * L ≤ Real.sinh (q * L) := Real.self_le_sinh_iff.2 (by positivity)
  have hsg : |(if K < 0 then (-1 : ℝ) else 1)| = 1 := by split <;> norm_num
  have h0 : 0 ≤ Real.sin (q * L) + Real.sinh (q * L) := by nlinarith [mul_pos hq hL]
  rw [abs_div, abs_mul, abs_mul, abs_mul, hsg, abs_of_pos hq, abs_of_nonneg h0, abs_of_pos (show 0 < 2 * r by linarith), mul_one,
    le_div_iff₀ (by linarith)]
  have h3 : q * L ≤ Real.sin (q * L) + Real.sinh (q * L) := by linarith
  have h4 := mul_le_mul_of_nonneg_left h3 (mul_nonneg (abs_nonneg Dy) hq.le)
  calc |Dy| * |K| * L / 2 * (2 * r) = |Dy| * L * (|K| * r) := by ring
    _ = |Dy| * q * (q * L) := by rw [← hsq]; ring
    _ ≤ _ := h4

/-- **C107** is false for sextupoles of thick lenses.  However strong the sextupole and whatever its length, for a bunch that is displaced vertically the
matrix jumps when the horizontal displacement passes zero: on the axis the vertical displacement has no effect on the horizontal angle, and as near to
the axis as one likes the effect is more than half the strength times the displacement. -/
theorem C107_thick_false (L K Dy D2x D2y D2xy : ℝ) (dst : Bool) (hL : 0 < L) (hK : K ≠ 0) (hy : Dy ≠ 0) :
    ¬ ContinuousAt (fun Dx => (sextM L K Dx Dy D2x D2y D2xy false dst 1) 1 2) 0 := by
  intro h
  have hk : 0 < |K| := abs_pos.2 hK
  have he : 0 < |Dy| * |K| * L / 2 := by have := abs_pos.2 hy; positivity
  obtain ⟨δ, hδ, hc⟩ := Metric.continuousAt_iff.1 h _ he
  have hb : 0 < 1 / (2 * |K| * L ^ 2) := by positivity
  obtain ⟨Dx, hx, hx1, hx2⟩ : ∃ Dx : ℝ, 0 < Dx ∧ Dx < δ ∧ Dx ≤ 1 / (2 * |K| * L ^ 2) :=
    ⟨min (δ / 2) (1 / (2 * |K| * L ^ 2)), lt_min (by linarith) hb, lt_of_le_of_lt (min_le_left _ _) (by linarith), min_le_right _ _⟩
  have hs : |K| * Real.sqrt (Dx * Dx + Dx * Dx) ≤ 1 / L ^ 2 := by
    have h1 : Real.sqrt (Dx * Dx + Dx * Dx) ≤ 2 * Dx := by
      rw [Real.sqrt_le_left (by linarith)]
      nlinarith
    calc |K| * Real.sqrt (Dx * Dx + Dx * Dx) ≤ |K| * (2 * Dx) := mul_le_mul_of_nonneg_left h1 hk.le
      _ ≤ |K| * (2 * (1 / (2 * |K| * L ^ 2))) := mul_le_mul_of_nonneg_left (by linarith) hk.le
      _ = 1 / L ^ 2 := by field_simp
  have h1 := hc (x := Dx) (by rw [Real.dist_eq, sub_zero, abs_of_pos hx]; exact hx1)
  rw [thick_axis, Real.dist_eq, sub_zero] at h1
  exact absurd h1 (not_lt.2 (thick_gap D2x D2y D2xy dst hL hK hx hs))

/-- A sextupole of 200 mm and a bunch 1 mm above the axis. -/
example : ¬ ContinuousAt (fun Dx => (sextM 200 (1 / 1000) Dx 1 4 4 0 false true 1) 1 2) 0 :=
  C107_thick_false 200 (1 / 1000) 1 4 4 0 true (by norm_num) (by norm_num) (by norm_num)

end Flame.Steady
