import Verif.Moment.Stripper
import Verif.Moment.SpecBaron
import Mathlib.Analysis.Complex.ExponentialBounds

/-! # Where the formula of the charges behind a foil makes sense -/

namespace Flame.Moment

open Baron (lost charge spread)

theorem radicand_eq {f : Foil} (hZ : 0 < f.IonProton) (b : ℝ) : stripperRadicand f b = spread f.IonProton b := by
  have e : -(83275 / 1000) * (b / f.IonProton ^ (447 / 1000 : ℝ)) = -(83.275 * b / f.IonProton ^ (0.447 : ℝ)) := by
    norm_num
    ring
  unfold stripperRadicand spread
  dsimp only
  rw [e, show 1 - Real.exp (-(83.275 * b / f.IonProton ^ (0.447 : ℝ))) = lost f.IonProton b from rfl,
    mul_div_cancel_left₀ _ hZ.ne']
  generalize lost f.IonProton b = y
  congr 1
  norm_num
  ring

theorem charge_eq {f : Foil} (b : ℝ) : (stripperCharge f b).1 = charge f.IonProton b := by
  have e : -(83275 / 1000) * (b / f.IonProton ^ (447 / 1000 : ℝ)) = -(83.275 * b / f.IonProton ^ (0.447 : ℝ)) := by
    norm_num
    ring
  have e2 : -(12905 / 1000) + 2124 / 10000 * f.IonProton - 122 / 100000 * (f.IonProton * f.IonProton) =
      -12.905 + 0.2124 * f.IonProton - 0.00122 * f.IonProton ^ 2 := by
    norm_num
    ring
  unfold stripperCharge charge
  dsimp only
  rw [e, e2]
  rfl

theorem lost_pos {Z b : ℝ} (hZ : 0 < Z) : 0 < lost Z b ↔ 0 < b := by
  have hp : 0 < Z ^ (0.447 : ℝ) := Real.rpow_pos_of_pos hZ _
  unfold lost
  rw [sub_pos, Real.exp_lt_one_iff, neg_lt_zero]
  constructor
  · intro h
    rw [lt_div_iff₀ hp, zero_mul] at h
    norm_num at h
    exact h
  · intro h
    positivity

theorem lost_lt (Z b : ℝ) : lost Z b < 1 := by
  unfold lost
  linarith [Real.exp_pos (-(83.275 * b / Z ^ (0.447 : ℝ)))]

/-- The variance is positive for ions that move, as long as they keep a few of ten thousand electrons. -/
theorem spread_pos {Z b : ℝ} (hZ : 0 < Z) (hb : 0 ≤ b) :
    0 < spread Z b ↔ 0 < b ∧ 0.2654 * lost Z b ^ 2 < 0.07535 + 0.19 * lost Z b := by
  unfold spread
  rcases hb.eq_or_lt with rfl | hb
  · have : lost Z 0 = 0 := by simp [lost]
    simp [this]
  · have h1 := (lost_pos (b := b) hZ).mpr hb
    rw [mul_pos_iff_of_pos_left (by positivity)]
    constructor
    · intro h
      exact ⟨hb, by linarith⟩
    · intro h
      linarith [h.2]

theorem slow_enough {Z b : ℝ} (hZ : 0 < Z) (h : 83.275 * b ≤ 8.5 * Z ^ (0.447 : ℝ)) : lost Z b ≤ 0.9998 := by
  have hp : 0 < Z ^ (0.447 : ℝ) := Real.rpow_pos_of_pos hZ _
  have h1 : 83.275 * b / Z ^ (0.447 : ℝ) ≤ 8.5 := (div_le_iff₀ hp).mpr h
  have h2 : Real.exp (-8.5) ≤ Real.exp (-(83.275 * b / Z ^ (0.447 : ℝ))) := Real.exp_le_exp.mpr (by linarith)
  have h3 : (0.0002 : ℝ) ≤ Real.exp (-8.5) := by
    have h4 : Real.exp 8.5 ≤ 5000 := by
      refine le_of_pow_le_pow_left₀ (n := 2) (by norm_num) (by norm_num) ?_
      rw [← Real.exp_nat_mul, show ((2 : ℕ) : ℝ) * 8.5 = ((17 : ℕ) : ℝ) * 1 by norm_num, Real.exp_nat_mul]
      calc Real.exp 1 ^ 17 ≤ 2.7182818286 ^ 17 := by gcongr; exact Real.exp_one_lt_d9.le
        _ ≤ _ := by norm_num
    rw [Real.exp_neg, le_inv_comm₀ (by norm_num) (Real.exp_pos _)]
    refine le_trans h4 (by norm_num)
  unfold lost
  linarith

theorem too_fast {Z b : ℝ} (hZ : 0 < Z) (h : 9.3 * Z ^ (0.447 : ℝ) ≤ 83.275 * b) : 0.9999 ≤ lost Z b := by
  have hp : 0 < Z ^ (0.447 : ℝ) := Real.rpow_pos_of_pos hZ _
  have h1 : 9.3 ≤ 83.275 * b / Z ^ (0.447 : ℝ) := (le_div_iff₀ hp).mpr h
  have h2 : Real.exp (-(83.275 * b / Z ^ (0.447 : ℝ))) ≤ Real.exp (-9.3) := Real.exp_le_exp.mpr (by linarith)
  have h3 : Real.exp (-9.3) ≤ (0.0001 : ℝ) := by
    have h4 : (10000 : ℝ) ≤ Real.exp 9.3 := by
      refine le_of_pow_le_pow_left₀ (n := 10) (by norm_num) (Real.exp_pos _).le ?_
      rw [← Real.exp_nat_mul, show ((10 : ℕ) : ℝ) * 9.3 = ((93 : ℕ) : ℝ) * 1 by norm_num, Real.exp_nat_mul]
      calc (10000 : ℝ) ^ 10 ≤ 2.7182818283 ^ 93 := by norm_num
        _ ≤ _ := by gcongr; exact Real.exp_one_gt_d9.le
    rw [Real.exp_neg, inv_le_comm₀ (Real.exp_pos _) (by norm_num)]
    refine le_trans (by norm_num) h4
  unfold lost
  linarith

theorem narrow {y : ℝ} (h0 : 0 < y) (h : y ≤ 0.9998) : 0.2654 * y ^ 2 < 0.07535 + 0.19 * y := by
  norm_num at *
  nlinarith

theorem no_spread {y : ℝ} (h : 0.9999 ≤ y) : ¬ 0.2654 * y ^ 2 < 0.07535 + 0.19 * y := by
  rw [not_lt]
  norm_num at *
  nlinarith

end Flame.Moment
