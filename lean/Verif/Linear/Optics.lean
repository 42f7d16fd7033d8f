import Verif.Linear.Model
import Verif.Linear.Spec
import Mathlib.Analysis.SpecialFunctions.Trigonometric.Deriv
import Mathlib.Analysis.SpecialFunctions.Trigonometric.DerivHyp
import Mathlib.LinearAlgebra.Matrix.Determinant.Basic
import Mathlib.Tactic.FinCases
import Mathlib.Tactic.LinearCombination

/-! # The transfer matrices in closed form: auxiliary facts -/

set_option linter.unusedSimpArgs false

namespace Flame.Linear

open Spec

/-- Cosine like solution of `x'' = -K x`. -/
noncomputable def cc (K L : ℝ) : ℝ := if 0 < K then Real.cos (Real.sqrt K * L) else Real.cosh (Real.sqrt (-K) * L)

/-- Sine like solution of `x'' = -K x`. -/
noncomputable def ss (K L : ℝ) : ℝ :=
  if 0 < K then Real.sin (Real.sqrt K * L) / Real.sqrt K
  else if K < 0 then Real.sinh (Real.sqrt (-K) * L) / Real.sqrt (-K) else L

theorem cc_ss (K L : ℝ) : cc K L ^ 2 + K * ss K L ^ 2 = 1 := by
  unfold cc ss
  rcases lt_trichotomy K 0 with h | h | h
  · rw [if_neg (by linarith), if_neg (by linarith), if_pos h]
    have h1 : Real.sqrt (-K) ^ 2 = -K := Real.sq_sqrt (by linarith)
    have h0 : Real.sqrt (-K) ≠ 0 := (Real.sqrt_pos.2 (by linarith)).ne'
    have h2 := Real.cosh_sq (Real.sqrt (-K) * L)
    have hK : K ≠ 0 := h.ne
    rw [div_pow, h1, h2]
    field_simp
    ring
  · subst h
    simp
  · rw [if_pos h, if_pos h, div_pow, Real.sq_sqrt h.le]
    have := Real.sin_sq_add_cos_sq (Real.sqrt K * L)
    field_simp
    linarith

theorem cc_add (K a b : ℝ) : cc K (a + b) = cc K b * cc K a - K * (ss K b * ss K a) := by
  unfold cc ss
  rcases lt_trichotomy K 0 with h | h | h
  · simp only [if_neg (show ¬ 0 < K by linarith), if_pos h]
    have h1 : Real.sqrt (-K) * Real.sqrt (-K) = -K := Real.mul_self_sqrt (by linarith)
    have h0 : Real.sqrt (-K) ≠ 0 := (Real.sqrt_pos.2 (by linarith)).ne'
    rw [mul_add, Real.cosh_add, div_mul_div_comm, h1]
    have : K ≠ 0 := h.ne
    field_simp
    ring
  · subst h
    simp
  · simp only [if_pos h]
    have h1 : Real.sqrt K * Real.sqrt K = K := Real.mul_self_sqrt h.le
    rw [mul_add, Real.cos_add, div_mul_div_comm, h1]
    have : K ≠ 0 := h.ne'
    field_simp

theorem ss_add (K a b : ℝ) : ss K (a + b) = cc K b * ss K a + ss K b * cc K a := by
  unfold cc ss
  rcases lt_trichotomy K 0 with h | h | h
  · simp only [if_neg (show ¬ 0 < K by linarith), if_pos h]
    rw [mul_add, Real.sinh_add]
    ring
  · subst h
    simp
  · simp only [if_pos h]
    rw [mul_add, Real.sin_add]
    ring

theorem cc_zero (K : ℝ) : cc K 0 = 1 := by
  unfold cc
  split <;> simp

theorem ss_zero (K : ℝ) : ss K 0 = 0 := by
  unfold ss
  split
  · simp
  · split <;> simp

theorem cc_deriv (K L : ℝ) : HasDerivAt (cc K) (-K * ss K L) L := by
  have hl : ∀ q : ℝ, HasDerivAt (fun x => q * x) q L := fun q => by
    simpa using (hasDerivAt_id L).const_mul q
  rcases lt_trichotomy K 0 with h | h | h
  · have e : cc K = fun x => Real.cosh (Real.sqrt (-K) * x) := by
      funext x; unfold cc; rw [if_neg (by linarith)]
    have h1 : Real.sqrt (-K) * Real.sqrt (-K) = -K := Real.mul_self_sqrt (by linarith)
    have h0 : Real.sqrt (-K) ≠ 0 := (Real.sqrt_pos.2 (by linarith)).ne'
    rw [e]
    have := (Real.hasDerivAt_cosh (Real.sqrt (-K) * L)).comp L (hl (Real.sqrt (-K)))
    refine this.congr_deriv ?_
    unfold ss
    rw [if_neg (by linarith), if_pos h]
    generalize Real.sinh (Real.sqrt (-K) * L) = y
    field_simp
    linear_combination y * h1
  · subst h
    have e : cc 0 = fun _ => (1 : ℝ) := by funext x; simp [cc]
    rw [e]
    simpa using hasDerivAt_const L (1 : ℝ)
  · have e : cc K = fun x => Real.cos (Real.sqrt K * x) := by
      funext x; unfold cc; rw [if_pos h]
    have h1 : Real.sqrt K * Real.sqrt K = K := Real.mul_self_sqrt h.le
    have h0 : Real.sqrt K ≠ 0 := (Real.sqrt_pos.2 h).ne'
    rw [e]
    have := (Real.hasDerivAt_cos (Real.sqrt K * L)).comp L (hl (Real.sqrt K))
    refine this.congr_deriv ?_
    unfold ss
    rw [if_pos h]
    generalize Real.sin (Real.sqrt K * L) = y
    field_simp
    linear_combination -y * h1

theorem ss_deriv (K L : ℝ) : HasDerivAt (ss K) (cc K L) L := by
  have hl : ∀ q : ℝ, HasDerivAt (fun x => q * x) q L := fun q => by
    simpa using (hasDerivAt_id L).const_mul q
  rcases lt_trichotomy K 0 with h | h | h
  · have e : ss K = fun x => Real.sinh (Real.sqrt (-K) * x) / Real.sqrt (-K) := by
      funext x; unfold ss; rw [if_neg (by linarith), if_pos h]
    have h0 : Real.sqrt (-K) ≠ 0 := (Real.sqrt_pos.2 (by linarith)).ne'
    rw [e]
    have := ((Real.hasDerivAt_sinh (Real.sqrt (-K) * L)).comp L (hl (Real.sqrt (-K)))).div_const (Real.sqrt (-K))
    refine this.congr_deriv ?_
    unfold cc
    rw [if_neg (by linarith)]
    field_simp
  · subst h
    have e : ss 0 = fun x => x := by funext x; simp [ss]
    rw [e]
    exact (hasDerivAt_id L).congr_deriv (by simp [cc])
  · have e : ss K = fun x => Real.sin (Real.sqrt K * x) / Real.sqrt K := by
      funext x; unfold ss; rw [if_pos h]
    have h0 : Real.sqrt K ≠ 0 := (Real.sqrt_pos.2 h).ne'
    rw [e]
    have := ((Real.hasDerivAt_sin (Real.sqrt K * L)).comp L (hl (Real.sqrt K))).div_const (Real.sqrt K)
    refine this.congr_deriv ?_
    unfold cc
    rw [if_pos h]
    field_simp

/-- Closed form of two planes filled by `get2by2`. -/
noncomputable def planes (kx ky L : ℝ) : Mat :=
  !![cc kx L, ss kx L, 0, 0, 0, 0;
     -kx * ss kx L, cc kx L, 0, 0, 0, 0;
     0, 0, cc ky L, ss ky L, 0, 0;
     0, 0, -ky * ss ky L, cc ky L, 0, 0;
     0, 0, 0, 0, 1, 0;
     0, 0, 0, 0, 0, 1]

theorem get2by2_eq (L K : ℝ) (i j : Fin 6) (M : Mat) :
    get2by2 L K i j M =
      setAt (setAt (setAt (setAt M j j (cc K L)) i i (cc K L)) i j (ss K L)) j i (-K * ss K L) := by
  unfold get2by2 cc ss
  rcases lt_trichotomy K 0 with h | h | h
  · have h1 : Real.sqrt (-K) * Real.sqrt (-K) = -K := Real.mul_self_sqrt (by linarith)
    have h0 : Real.sqrt (-K) ≠ 0 := (Real.sqrt_pos.2 (by linarith)).ne'
    simp only [if_neg (show ¬ 0 < K by linarith), if_pos h, if_pos h0]
    congr 1
    nth_rewrite 3 [← h1]
    field_simp
  · subst h
    simp
  · have h1 : Real.sqrt K * Real.sqrt K = K := Real.mul_self_sqrt h.le
    have h0 : Real.sqrt K ≠ 0 := (Real.sqrt_pos.2 h).ne'
    simp only [if_pos h, if_pos h0]
    congr 1
    nth_rewrite 3 [← h1]
    field_simp

theorem planes_eq (L kx ky : ℝ) : get2by2 L ky 2 3 (get2by2 L kx 0 1 1) = planes kx ky L := by
  rw [get2by2_eq, get2by2_eq]
  ext a b
  fin_cases a <;> fin_cases b <;> simp [setAt, planes, Matrix.one_apply]

theorem quadT_eq (L K : ℝ) : quadT L K = planes K (-K) L := planes_eq L K (-K)

theorem sbendT_eq (L phi K : ℝ) : sbendT L phi K = planes (K + 1 / (L / phi * (L / phi))) (-K) L :=
  planes_eq L _ _

theorem driftT_eq (L : ℝ) : driftT L = planes 0 0 L := by
  ext a b
  fin_cases a <;> fin_cases b <;> simp [driftT, setAt, planes, Matrix.one_apply, cc, ss]

/-- Closed form of the solenoid. -/
noncomputable def sol (K C s : ℝ) : Mat :=
  !![C * C, s * C, K * s * C, K * s * s, 0, 0;
     -K * (K * s) * C, C * C, -K * (K * s * (K * s)), K * s * C, 0, 0;
     -(K * s) * C, -(K * s * s), C * C, s * C, 0, 0;
     K * (K * s * (K * s)), -(K * s) * C, -K * (K * s) * C, C * C, 0, 0;
     0, 0, 0, 0, 1, 0;
     0, 0, 0, 0, 0, 1]

theorem cc_sq (K L : ℝ) : cc (K * K) L = Real.cos (K * L) := by
  unfold cc
  by_cases h : K = 0
  · subst h; simp
  · rw [if_pos (mul_self_pos.2 h), Real.sqrt_mul_self_eq_abs]
    rcases abs_cases K with ⟨h1, _⟩ | ⟨h1, _⟩ <;> rw [h1]
    rw [neg_mul, Real.cos_neg]

theorem ss_sq (K L : ℝ) : K * ss (K * K) L = Real.sin (K * L) := by
  unfold ss
  by_cases h : K = 0
  · subst h; simp
  · rw [if_pos (mul_self_pos.2 h), Real.sqrt_mul_self_eq_abs]
    rcases abs_cases K with ⟨h1, _⟩ | ⟨h1, _⟩ <;> rw [h1]
    · field_simp
    · rw [neg_mul, Real.sin_neg]
      field_simp

theorem solenoidT_eq (L K : ℝ) : solenoidT L K = sol K (cc (K * K) L) (ss (K * K) L) := by
  have hC := cc_sq K L
  have hS := ss_sq K L
  by_cases h : K = 0
  · subst h
    ext a b
    fin_cases a <;> fin_cases b <;> simp [solenoidT, setAt, sol, Matrix.one_apply, cc, ss]
  · have hs : Real.sin (K * L) / K = ss (K * K) L := by rw [← hS]; field_simp
    ext a b
    fin_cases a <;> fin_cases b <;>
      simp [solenoidT, setAt, sol, Matrix.one_apply, h, ← hC, ← hS] <;> field_simp

/-! ## splitting -/

theorem planes_add (kx ky a b : ℝ) : planes kx ky (a + b) = planes kx ky b * planes kx ky a := by
  ext i j
  fin_cases i <;> fin_cases j <;>
    simp [planes, Matrix.mul_apply, Fin.sum_univ_six, cc_add, ss_add] <;> ring

theorem sol_add (K a b : ℝ) : sol K (cc (K * K) (a + b)) (ss (K * K) (a + b)) =
    sol K (cc (K * K) b) (ss (K * K) b) * sol K (cc (K * K) a) (ss (K * K) a) := by
  rw [cc_add, ss_add]
  ext i j
  fin_cases i <;> fin_cases j <;>
    simp [sol, Matrix.mul_apply, Fin.sum_univ_six] <;> ring

/-! ## change of the unit of length -/

theorem cc_scale (m K L : ℝ) (hm : 0 < m) : cc (K / (m * m)) (L * m) = cc K L := by
  have hs : ∀ x : ℝ, 0 ≤ x → Real.sqrt (x / (m * m)) * (L * m) = Real.sqrt x * L := fun x hx => by
    rw [Real.sqrt_div hx, Real.sqrt_mul_self hm.le]
    field_simp
  unfold cc
  have hp : 0 < m * m := mul_pos hm hm
  by_cases h : 0 < K
  · rw [if_pos h, if_pos (div_pos h hp), hs K h.le]
  · rw [if_neg h, if_neg (by rw [not_lt]; exact div_nonpos_of_nonpos_of_nonneg (not_lt.1 h) hp.le),
      ← neg_div, hs (-K) (by linarith)]

theorem ss_scale (m K L : ℝ) (hm : 0 < m) : ss (K / (m * m)) (L * m) = m * ss K L := by
  have hs : ∀ x : ℝ, 0 ≤ x → Real.sqrt (x / (m * m)) * (L * m) = Real.sqrt x * L := fun x hx => by
    rw [Real.sqrt_div hx, Real.sqrt_mul_self hm.le]
    field_simp
  have hd : ∀ x y : ℝ, 0 < x → y / Real.sqrt (x / (m * m)) = m * (y / Real.sqrt x) := fun x y hx => by
    have := (Real.sqrt_pos.2 hx).ne'
    rw [Real.sqrt_div hx.le, Real.sqrt_mul_self hm.le]
    field_simp
  have hp : 0 < m * m := mul_pos hm hm
  unfold ss
  rcases lt_trichotomy K 0 with h | h | h
  · have h' : K / (m * m) < 0 := div_neg_of_neg_of_pos h hp
    rw [if_neg (not_lt.2 h'.le), if_pos h', if_neg (not_lt.2 h.le), if_pos h, ← neg_div, hs (-K) (by linarith),
      hd (-K) _ (by linarith)]
  · subst h
    simp [mul_comm]
  · rw [if_pos h, if_pos (div_pos h hp), hs K h.le, hd K _ h]

/-! ## symplecticity and determinant -/

theorem planes_symplectic (kx ky L : ℝ) : Symplectic (planes kx ky L) := by
  have hx := cc_ss kx L
  have hy := cc_ss ky L
  unfold Symplectic
  ext i j
  fin_cases i <;> fin_cases j <;>
    simp [planes, J, Matrix.mul_apply, Fin.sum_univ_six] <;> first | ring1 | linear_combination hx | linear_combination -hx | linear_combination hy | linear_combination -hy

theorem sol_symplectic (K C s : ℝ) (h : C ^ 2 + K * K * s ^ 2 = 1) : Symplectic (sol K C s) := by
  have h2 : (C ^ 2 + K * K * s ^ 2) ^ 2 = 1 := by rw [h]; norm_num
  unfold Symplectic
  ext i j
  fin_cases i <;> fin_cases j <;>
    simp [sol, J, Matrix.mul_apply, Fin.sum_univ_six] <;> first | ring1 | linear_combination h2 | linear_combination -h2

theorem det_sq_of_symplectic {M : Mat} (h : Symplectic M) : M.det ^ 2 = 1 := by
  have hJ : J * J = -1 := by
    ext i j
    fin_cases i <;> fin_cases j <;> simp [J, Matrix.mul_apply, Fin.sum_univ_six, Matrix.one_apply]
  have hd : J.det * J.det = 1 := by
    rw [← Matrix.det_mul, hJ, Matrix.det_neg]
    norm_num
  have h1 := congrArg Matrix.det h
  rw [Matrix.det_mul, Matrix.det_mul, Matrix.det_transpose] at h1
  have : J.det ≠ 0 := fun h0 => by rw [h0] at hd; norm_num at hd
  have : J.det * (M.det ^ 2 - 1) = 0 := by linear_combination h1
  rcases mul_eq_zero.1 this with h2 | h2
  · contradiction
  · linarith

theorem det_one_of_half {M N : Mat} (h : Symplectic M) (hh : M = N * N) : M.det = 1 := by
  have h1 := det_sq_of_symplectic h
  have h2 : 0 ≤ M.det := by rw [hh, Matrix.det_mul]; exact mul_self_nonneg _
  nlinarith

theorem planes_det (kx ky L : ℝ) : (planes kx ky L).det = 1 :=
  det_one_of_half (planes_symplectic kx ky L) (N := planes kx ky (L / 2)) (by rw [← planes_add]; congr 1; ring)

theorem sol_det (K L : ℝ) : (sol K (cc (K * K) L) (ss (K * K) L)).det = 1 :=
  det_one_of_half (sol_symplectic _ _ _ (cc_ss _ _)) (N := sol K (cc (K * K) (L / 2)) (ss (K * K) (L / 2)))
    (by rw [← sol_add, add_halves])

end Flame.Linear
