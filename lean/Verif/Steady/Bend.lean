import Verif.Moment.Model
import Mathlib.Analysis.SpecialFunctions.Trigonometric.Bounds
import Mathlib.Analysis.Complex.Trigonometric
import Mathlib.Topology.Algebra.Order.Field
import Mathlib.Topology.Order.LeftRightNhds
import Mathlib.Topology.Instances.Real.Lemmas
import Mathlib.Tactic.FieldSimp
import Mathlib.Tactic.LinearCombination

/-! # C107: a bend whose field gradient is changed -/

namespace Flame.Steady

open Flame.Moment Filter Topology

theorem sin_gap {y : ℝ} (h0 : 0 < y) (h1 : y ≤ 1) : 1 / 12 ≤ (y - Real.sin y) / y ^ 3 := by
  rw [le_div_iff₀ (by positivity)]
  have h2 := abs_le.1 (Real.sin_bound (x := y) (by rw [abs_of_pos h0]; exact h1))
  rw [abs_of_pos h0] at h2
  have h3 : y ^ 5 ≤ y ^ 3 := pow_le_pow_of_le_one h0.le h1 (by omega)
  have h4 : 0 < y ^ 3 := by positivity
  nlinarith [h2.2]

theorem edgeM_none (rho : ℝ) : edgeM rho 0 = 1 := by
  unfold edgeM
  rw [Real.tan_zero]
  ext i j
  unfold setAt
  split
  · rename_i h
    rw [h.1, h.2]
    simp
  · split
    · rename_i h
      rw [h.1, h.2]
      simp
    · rfl

/-- The part of the entry that depends on the gradient (/repo/src/moment_sup.cpp:225-262). -/
noncomputable def slipPart (L phi K : ℝ) : ℝ :=
  let rho := L / phi
  let Kx := K + 1 / (rho * rho)
  let sx := if Kx = 0 then L / rho
    else if 0 < Kx then Real.sin (Real.sqrt Kx * L) / (rho * Real.sqrt Kx)
    else Real.sin (Real.sqrt (-Kx) * L) / (rho * Real.sqrt (-Kx))
  (L / rho - sx) / (Kx * rho)

theorem sbendM_entry (L phi K IonEs refGamma qmrel dipBeta dipGamma dd k : ℝ) :
    sbendM L phi 0 0 K IonEs refGamma qmrel dipBeta dipGamma dd k 1 4 5 =
      (slipPart L phi K - L / (refGamma * refGamma)) * k / (dipBeta * dipBeta * dipGamma * IonEs / MeVtoeV) := by
  show (edgeM (L / phi) 0 * ((_ : Mat) * edgeM (L / phi) 0)) 4 5 = _
  rw [edgeM_none, one_mul, mul_one]
  simp only [setAt]
  rw [if_neg (by decide), if_neg (by decide), if_neg (by decide), if_pos (by decide)]
  rfl

theorem slip_gap {L phi a : ℝ} (hL : 0 < L) (hp : phi ≠ 0) (ha : 0 < a) (h1 : a * L ≤ 1) :
    L * phi ^ 2 / 12 ≤ (L / (L / phi) - Real.sin (a * L) / (L / phi * a)) / (a ^ 2 * (L / phi)) := by
  have h := sin_gap (mul_pos ha hL) h1
  have e : (L / (L / phi) - Real.sin (a * L) / (L / phi * a)) / (a ^ 2 * (L / phi)) =
      L * phi ^ 2 * ((a * L - Real.sin (a * L)) / (a * L) ^ 3) := by
    field_simp
  rw [e]
  have : 0 ≤ L * phi ^ 2 := by positivity
  nlinarith

theorem root_le {L x : ℝ} (hL : 0 < L) (hx : 0 < x) (h : x ≤ 1 / L ^ 2) : Real.sqrt x * L ≤ 1 := by
  rw [← pow_le_one_iff_of_nonneg (by positivity) two_ne_zero, mul_pow, Real.sq_sqrt hx.le]
  rwa [le_div_iff₀ (by positivity)] at h

theorem slip_above {L phi K : ℝ} (hL : 0 < L) (hp : phi ≠ 0) (h0 : 0 < K + 1 / (L / phi * (L / phi)))
    (h1 : K + 1 / (L / phi * (L / phi)) ≤ 1 / L ^ 2) : L * phi ^ 2 / 12 ≤ slipPart L phi K := by
  unfold slipPart
  dsimp only
  rw [if_neg h0.ne', if_pos h0]
  have := slip_gap (phi := phi) hL hp (Real.sqrt_pos.2 h0) (root_le hL h0 h1)
  rw [Real.sq_sqrt h0.le] at this
  exact this

theorem slip_below {L phi K : ℝ} (hL : 0 < L) (hp : phi ≠ 0) (h0 : K + 1 / (L / phi * (L / phi)) < 0)
    (h1 : -(1 / L ^ 2) ≤ K + 1 / (L / phi * (L / phi))) : slipPart L phi K ≤ -(L * phi ^ 2 / 12) := by
  unfold slipPart
  dsimp only
  rw [if_neg h0.ne, if_neg (not_lt.2 h0.le)]
  generalize hK : K + 1 / (L / phi * (L / phi)) = Kx at *
  have h2 : 0 < -Kx := by linarith
  have h3 : -Kx ≤ 1 / L ^ 2 := by linarith
  have := slip_gap (phi := phi) hL hp (Real.sqrt_pos.2 h2) (root_le hL h2 h3)
  rw [Real.sq_sqrt h2.le, neg_mul, div_neg] at this
  linarith

/-- **C107, false for bends.**  When the field gradient of a sector magnet is changed through the value for which its horizontal focusing
vanishes, the dependence of the phase on the energy jumps: the entry of the matrix has no limit there.  (For a horizontally defocusing
magnet the code takes the sine where it should take the hyperbolic sine, and at the value itself it divides zero by zero.) -/
theorem C107_bend_false (L phi IonEs refGamma qmrel dipBeta dipGamma dd k : ℝ) (hL : 0 < L) (hp : phi ≠ 0) (hk : k ≠ 0) (hE : IonEs ≠ 0)
    (hb : dipBeta ≠ 0) (hg : dipGamma ≠ 0) :
    ¬ ∃ v, Tendsto (fun K => sbendM L phi 0 0 K IonEs refGamma qmrel dipBeta dipGamma dd k 1 4 5) (𝓝[≠] (-(phi / L) ^ 2)) (𝓝 v) := by
  rintro ⟨v, hv⟩
  simp only [sbendM_entry] at hv
  set pz := dipBeta * dipBeta * dipGamma * IonEs / MeVtoeV with hpz
  have hpz0 : pz ≠ 0 := by
    rw [hpz]
    unfold MeVtoeV
    positivity
  have hs : Tendsto (slipPart L phi) (𝓝[≠] (-(phi / L) ^ 2)) (𝓝 (v * pz / k + L / (refGamma * refGamma))) := by
    refine Tendsto.congr (fun K => ?_) (((hv.mul_const pz).div_const k).add_const (L / (refGamma * refGamma)))
    field_simp
    ring
  have hc : 0 < L * phi ^ 2 / 12 := by positivity
  have hsq : ∀ K, K + 1 / (L / phi * (L / phi)) = K - -(phi / L) ^ 2 := by
    intro K
    field_simp
    ring
  have hpos : 0 < 1 / L ^ 2 := by positivity
  have h1 : L * phi ^ 2 / 12 ≤ v * pz / k + L / (refGamma * refGamma) := by
    refine ge_of_tendsto (hs.mono_left (nhdsGT_le_nhdsNE _)) ?_
    filter_upwards [Ioc_mem_nhdsGT (show -(phi / L) ^ 2 < -(phi / L) ^ 2 + 1 / L ^ 2 by linarith)] with K hK
    exact slip_above hL hp (by rw [hsq]; linarith [hK.1]) (by rw [hsq]; linarith [hK.2])
  have h2 : v * pz / k + L / (refGamma * refGamma) ≤ -(L * phi ^ 2 / 12) := by
    refine le_of_tendsto (hs.mono_left (nhdsLT_le_nhdsNE _)) ?_
    filter_upwards [Ico_mem_nhdsLT (show -(phi / L) ^ 2 - 1 / L ^ 2 < -(phi / L) ^ 2 by linarith)] with K hK
    exact slip_below hL hp (by rw [hsq]; linarith [hK.2]) (by rw [hsq]; linarith [hK.1])
  linarith

/-- A bend of 45 degrees over one metre. -/
example : ¬ ∃ v, Tendsto (fun K => sbendM 1000 (Real.pi / 4) 0 0 K 931e6 1.02 0 0.2 1.02 0 1 1 4 5) (𝓝[≠] (-(Real.pi / 4 / 1000) ^ 2)) (𝓝 v) :=
  C107_bend_false 1000 (Real.pi / 4) 931e6 1.02 0 0.2 1.02 0 1 (by norm_num) (by have := Real.pi_pos; positivity) one_ne_zero
    (by norm_num) (by norm_num) (by norm_num)

end Flame.Steady
