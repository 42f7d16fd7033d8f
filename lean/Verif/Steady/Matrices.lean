import Verif.Steady.Spec
import Mathlib.Analysis.SpecialFunctions.Trigonometric.Sinc
import Mathlib.Analysis.SpecialFunctions.Sqrt
import Mathlib.Analysis.SpecialFunctions.Trigonometric.DerivHyp

/-! # Matrices as continuous functions of their parameters -/

namespace Flame.Steady

open Flame.Mach (Err)
open Flame.Linear (LVal LCfg getNum getNumD getVec)
open Flame.Moment Flame.Steady.Spec

variable {X : Type} [TopologicalSpace X]

/-- `sinh x / x`. -/
noncomputable def shc : ℝ → ℝ := dslope Real.sinh 0

theorem continuous_shc : Continuous shc := by
  rw [continuous_iff_continuousAt]
  intro x
  by_cases h : x = 0
  · rw [h]
    exact continuousAt_dslope_same.2 Real.differentiable_sinh.differentiableAt
  · exact (continuousAt_dslope_of_ne h).2 Real.continuous_sinh.continuousAt

theorem shc_zero : shc 0 = 1 := by
  unfold shc
  rw [dslope_same, Real.deriv_sinh, Real.cosh_zero]

theorem shc_of_ne {x : ℝ} (h : x ≠ 0) : shc x = Real.sinh x / x := by
  unfold shc
  rw [dslope_of_ne _ h, slope_def_field, Real.sinh_zero, sub_zero, sub_zero]

theorem setAt_cont {A : X → Mat} {v : X → ℝ} (hA : Continuous A) (hv : Continuous v) (i j : Fin 7) :
    Continuous fun x => setAt (A x) i j (v x) := by
  refine continuous_matrix fun a b => ?_
  by_cases h : a = i ∧ b = j
  · simpa [setAt, h] using hv
  · have : (fun x => setAt (A x) i j (v x) a b) = fun x => A x a b := by
      funext x
      simp [setAt, h]
    rw [this]
    exact hA.matrix_elem a b

theorem inverse_cont {A : X → Mat} (hA : Continuous A) (h : ∀ x, ∃ I, inverse (A x) = .ok I) :
    (Continuous fun x => (A x)⁻¹) ∧ ∀ x, inverse (A x) = .ok (A x)⁻¹ := by
  have hd : ∀ x, (A x).det ≠ 0 := by
    intro x h0
    obtain ⟨I, hI⟩ := h x
    simp [inverse, h0] at hI
  refine ⟨?_, fun x => by simp [inverse, hd x]⟩
  simp only [Matrix.inv_def, Ring.inverse_eq_inv']
  exact (hA.matrix_det.inv₀ hd).smul hA.matrix_adjugate

/-- The entries of `quadPlane` without distinction of cases. -/
noncomputable def qc (L K : ℝ) : ℝ := Real.cos (Real.sqrt K * L) * Real.cosh (Real.sqrt (-K) * L)
noncomputable def qs (L K : ℝ) : ℝ := L * (Real.sinc (Real.sqrt K * L) * shc (Real.sqrt (-K) * L))

theorem qc_cont {L K : X → ℝ} (hL : Continuous L) (hK : Continuous K) : Continuous fun x => qc (L x) (K x) := by
  unfold qc
  exact (Real.continuous_cos.comp ((Real.continuous_sqrt.comp hK).mul hL)).mul
    (Real.continuous_cosh.comp ((Real.continuous_sqrt.comp hK.neg).mul hL))

theorem qs_cont {L K : X → ℝ} (hL : Continuous L) (hK : Continuous K) : Continuous fun x => qs (L x) (K x) := by
  unfold qs
  exact hL.mul ((Real.continuous_sinc.comp ((Real.continuous_sqrt.comp hK).mul hL)).mul
    (continuous_shc.comp ((Real.continuous_sqrt.comp hK.neg).mul hL)))

theorem mul_sinc {a L : ℝ} (h : a ≠ 0) : L * Real.sinc (a * L) = Real.sin (a * L) / a := by
  by_cases hL : L = 0
  · simp [hL]
  · rw [Real.sinc_of_ne_zero (mul_ne_zero h hL)]
    field_simp

theorem mul_shc {a L : ℝ} (h : a ≠ 0) : L * shc (a * L) = Real.sinh (a * L) / a := by
  by_cases hL : L = 0
  · simp [hL]
  · rw [shc_of_ne (mul_ne_zero h hL)]
    field_simp

theorem quadPlane_eq (L K : ℝ) (i j : Fin 7) (M : Mat) :
    quadPlane L K i j M = setAt (setAt (setAt (setAt M j j (qc L K)) i i (qc L K)) i j (qs L K)) j i (-K * qs L K) := by
  unfold quadPlane qc qs
  rcases lt_trichotomy K 0 with h | h | h
  · have h1 : Real.sqrt (-K) ≠ 0 := (Real.sqrt_pos.2 (by linarith)).ne'
    have h2 : Real.sqrt (-K) * Real.sqrt (-K) = -K := Real.mul_self_sqrt (by linarith)
    rw [if_neg (by linarith), Real.sqrt_eq_zero_of_nonpos h.le]
    simp only [zero_mul, Real.cos_zero, Real.sinc_zero, one_mul, ne_eq, h1, not_false_eq_true, if_true, mul_shc h1]
    congr 1
    rw [show -K * (Real.sinh (Real.sqrt (-K) * L) / Real.sqrt (-K)) = (Real.sqrt (-K) * Real.sqrt (-K)) *
      (Real.sinh (Real.sqrt (-K) * L) / Real.sqrt (-K)) by rw [h2]]
    field_simp
  · subst h
    simp [Real.sinc_zero, shc_zero]
  · have h1 : Real.sqrt K ≠ 0 := (Real.sqrt_pos.2 h).ne'
    have h2 : Real.sqrt K * Real.sqrt K = K := Real.mul_self_sqrt h.le
    rw [if_pos h, Real.sqrt_eq_zero_of_nonpos (by linarith : -K ≤ 0)]
    simp only [zero_mul, Real.cosh_zero, shc_zero, mul_one, ne_eq, h1, not_false_eq_true, if_true, mul_sinc h1]
    congr 1
    rw [show -K * (Real.sin (Real.sqrt K * L) / Real.sqrt K) = -(Real.sqrt K * Real.sqrt K) *
      (Real.sin (Real.sqrt K * L) / Real.sqrt K) by rw [h2]]
    field_simp

theorem quadPlane_cont {L K : X → ℝ} {M : X → Mat} (hL : Continuous L) (hK : Continuous K) (hM : Continuous M) (i j : Fin 7) :
    Continuous fun x => quadPlane (L x) (K x) i j (M x) := by
  simp only [quadPlane_eq]
  exact setAt_cont (setAt_cont (setAt_cont (setAt_cont hM (qc_cont hL hK) _ _) (qc_cont hL hK) _ _) (qs_cont hL hK) _ _)
    (hK.neg.mul (qs_cont hL hK)) _ _

theorem solM_eq (L K : ℝ) (M : Mat) :
    solM L K M =
      (let C := Real.cos (K * L)
      let S := Real.sin (K * L)
      let s := L * Real.sinc (K * L)
      let M := setAt (setAt (setAt (setAt M 3 3 (C * C)) 2 2 (C * C)) 1 1 (C * C)) 0 0 (C * C)
      let M := setAt M 0 1 (s * C)
      let M := setAt M 0 2 (S * C)
      let M := setAt M 0 3 (s * S)
      let M := setAt M 1 0 (-K * S * C)
      let M := setAt M 1 2 (-K * (S * S))
      let M := setAt M 1 3 (S * C)
      let M := setAt M 2 0 (-S * C)
      let M := setAt M 2 1 (-(s * S))
      let M := setAt M 2 3 (s * C)
      let M := setAt M 3 0 (K * (S * S))
      let M := setAt M 3 1 (-S * C)
      setAt M 3 2 (-K * S * C)) := by
  unfold solM
  by_cases h : K = 0
  · subst h
    simp
  · simp only [ne_eq, h, not_false_eq_true, if_true, mul_sinc h]
    rw [show Real.sin (K * L) * Real.cos (K * L) / K = Real.sin (K * L) / K * Real.cos (K * L) by ring,
      show Real.sin (K * L) * Real.sin (K * L) / K = Real.sin (K * L) / K * Real.sin (K * L) by ring,
      show -(Real.sin (K * L) * Real.sin (K * L)) / K = -(Real.sin (K * L) / K * Real.sin (K * L)) by ring]

theorem solM_cont {L K : X → ℝ} {M : X → Mat} (hL : Continuous L) (hK : Continuous K) (hM : Continuous M) :
    Continuous fun x => solM (L x) (K x) (M x) := by
  simp only [solM_eq]
  have hC : Continuous fun x => Real.cos (K x * L x) := Real.continuous_cos.comp (hK.mul hL)
  have hS : Continuous fun x => Real.sin (K x * L x) := Real.continuous_sin.comp (hK.mul hL)
  have hs : Continuous fun x => L x * Real.sinc (K x * L x) := hL.mul (Real.continuous_sinc.comp (hK.mul hL))
  repeat' first
    | exact hM
    | refine setAt_cont ?_ ?_ _ _
    | fun_prop

theorem rotMat_cont {dx dy a b c : X → ℝ} (hx : Continuous dx) (hy : Continuous dy) (ha : Continuous a) (hb : Continuous b)
    (hc : Continuous c) : Continuous fun x => rotMat (dx x) (dy x) (a x) (b x) (c x) := by
  unfold rotMat
  dsimp only
  refine Continuous.matrix_mul ?_ ?_
  all_goals
    repeat' first
      | exact continuous_const
      | refine setAt_cont ?_ ?_ _ _
      | fun_prop

end Flame.Steady
