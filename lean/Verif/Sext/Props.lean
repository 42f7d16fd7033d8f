import Verif.Sext.Spec
import Verif.Moment.Model
import Mathlib.Analysis.SpecialFunctions.Trigonometric.Deriv
import Mathlib.Analysis.SpecialFunctions.Trigonometric.DerivHyp
import Mathlib.Analysis.Calculus.Deriv.Mul
import Mathlib.Analysis.Calculus.Deriv.Add

/-! # The motion of a bunch in a sextupole (C104)

A slice of a sextupole (/repo/src/moment.cpp:1171-1190) as a function of its length. -/

namespace Flame.Sext

open Flame.Moment
open Flame.Sext.Spec

variable {ι : Type} [Fintype ι]

/-- The centroid and the covariance behind a slice of length `L`: one turn of the loop of `ElementSext::advance`
(/repo/src/moment.cpp:1171-1190), which starts from the identity matrix. -/
noncomputable def slice (p : Particle) (k : ℝ) (thin dst : Bool) (v : Vec) (S : Mat) (L : ℝ) : Vec × Mat :=
  ((sextLoop p L k thin dst 1 (v, S, 1, 1)).1, (sextLoop p L k thin dst 1 (v, S, 1, 1)).2.1)

/-! ## matrices close to the identity -/

/-- `M` is the identity at zero and has the derivative `A` there. -/
def Near (M : ℝ → Mat) (A : Mat) : Prop := M 0 = 1 ∧ ∀ i j, HasDerivAt (fun L => M L i j) (A i j) 0

theorem Near.one : Near (fun _ => 1) 0 := ⟨rfl, fun _ _ => hasDerivAt_const _ _⟩

theorem Near.set {M : ℝ → Mat} {A : Mat} (h : Near M A) (i j : Fin 7) {f : ℝ → ℝ} {f' : ℝ} (h0 : f 0 = if i = j then 1 else 0)
    (hf : HasDerivAt f f' 0) : Near (fun L => setAt (M L) i j (f L)) (setAt A i j f') := by
  constructor
  · funext a b
    simp only [setAt, h.1]
    by_cases e : a = i ∧ b = j
    · rw [if_pos e, h0, e.1, e.2, Matrix.one_apply]
    · rw [if_neg e]
  · intro a b
    simp only [setAt]
    by_cases e : a = i ∧ b = j
    · simp only [if_pos e]; exact hf
    · simp only [if_neg e]; exact h.2 a b

theorem Near.mul {M N : ℝ → Mat} {A B : Mat} (h : Near M A) (h' : Near N B) : Near (fun L => M L * N L) (A + B) := by
  refine ⟨by simp only [h.1, h'.1, mul_one], fun i j => ?_⟩
  have : HasDerivAt (fun L => ∑ k, M L i k * N L k j) (∑ k, (A i k * N 0 k j + M 0 i k * B k j)) 0 :=
    HasDerivAt.fun_sum (fun k _ => (h.2 i k).mul (h'.2 k j))
  refine (this.congr_deriv ?_)
  rw [h.1, h'.1, Finset.sum_add_distrib]
  simp [Matrix.one_apply]

theorem Near.vec {M : ℝ → Mat} {A : Mat} (h : Near M A) (v : Vec) (i : Fin 7) : HasDerivAt (fun L => (M L).mulVec v i) (A.mulVec v i) 0 := by
  show HasDerivAt (fun L => ∑ k, M L i k * v k) (∑ k, A i k * v k) 0
  exact HasDerivAt.fun_sum (fun k _ => (h.2 i k).mul_const (v k))

theorem Near.congr {M : ℝ → Mat} {A : Mat} (h : Near M A) (S : Mat) (i j : Fin 7) :
    HasDerivAt (fun L => Moment.congr (M L) S i j) ((A * S + S * A.transpose) i j) 0 := by
  have : HasDerivAt (fun L => ∑ k, (∑ l, M L i l * S l k) * M L j k) (∑ k, ((∑ l, A i l * S l k) * M 0 j k + (∑ l, M 0 i l * S l k) * A j k)) 0 :=
    HasDerivAt.fun_sum (fun k _ => (HasDerivAt.fun_sum (fun l _ => (h.2 i l).mul_const (S l k))).mul (h.2 j k))
  refine (this.congr_deriv ?_)
  rw [h.1, Finset.sum_add_distrib]
  simp [Matrix.one_apply, Matrix.mul_apply]

/-! ## the matrices of a sextupole -/

/-- What the matrices of a slice start with. -/
noncomputable def gradient (k Dx Dy D2x D2y D2xy s : ℝ) (dst : Bool) : Mat :=
  !![0, 1, 0, 0, 0, 0, 0;
     -k * Dx, 0, k * Dy, 0, 0, 0, if dst then -k * (D2x - D2y) else 0;
     0, 0, 0, 1, 0, 0, 0;
     k * Dy, 0, k * Dx, 0, 0, 0, if dst then 2 * k * D2xy else 0;
     0, 0, 0, 0, 0, s, 0;
     0, 0, 0, 0, 0, 0, 0;
     0, 0, 0, 0, 0, 0, 0]

theorem lin (a : ℝ) : HasDerivAt (fun L : ℝ => a * L) a 0 := by simpa using (hasDerivAt_id (0 : ℝ)).const_mul a

/-- The kick from the size of the beam and the longitudinal entry. -/
theorem finish_near {M : ℝ → Mat} {A : Mat} (h : Near M A) (k D2x D2y D2xy : ℝ) (dst : Bool) (p : Particle) :
    Near (fun L => setAt (if dst then setAt (setAt (M L) 1 6 (-k * L * (D2x - D2y))) 3 6 (2 * k * L * D2xy) else M L) 4 5 (slip p L))
      (setAt (if dst then setAt (setAt A 1 6 (-k * (D2x - D2y))) 3 6 (2 * k * D2xy) else A) 4 5 (slip p 1)) := by
  have hs : HasDerivAt (fun L => slip p L) (slip p 1) 0 := by
    unfold slip
    simpa using lin (-2 * Real.pi / (p.SampleLambda * p.IonEs / MeVtoeV * (p.bg * p.bg * p.bg)))
  have h0 : slip p 0 = 0 := by simp [slip]
  have h1 : HasDerivAt (fun L => -k * L * (D2x - D2y)) (-k * (D2x - D2y)) 0 := (lin (-k)).mul_const _
  have h2 : HasDerivAt (fun L => 2 * k * L * D2xy) (2 * k * D2xy) 0 := (lin (2 * k)).mul_const _
  cases dst with
  | false => exact h.set 4 5 (by simpa using h0) hs
  | true =>
    simp only [if_true]
    exact ((h.set 1 6 (by simp) h1).set 3 6 (by simp) h2).set 4 5 (by simpa using h0) hs

theorem thin_near (k Dx Dy D2x D2y D2xy : ℝ) (dst : Bool) (p : Particle) :
    Near (fun L => setAt (sextM L k Dx Dy D2x D2y D2xy true dst 1) 4 5 (slip p L)) (gradient k Dx Dy D2x D2y D2xy (slip p 1) dst) := by
  have hh : HasDerivAt (fun L : ℝ => L / 2) (1 / 2) 0 := (hasDerivAt_id (0 : ℝ)).div_const 2
  have hT : Near (fun L => setAt (setAt 1 0 1 (L / 2)) 2 3 (L / 2)) (setAt (setAt 0 0 1 (1 / 2)) 2 3 (1 / 2)) :=
    (Near.one.set 0 1 (by simp) hh).set 2 3 (by simp) hh
  have hP : Near (fun L => setAt (setAt (setAt (setAt 1 1 0 (-k * L * Dx)) 1 2 (k * L * Dy)) 3 0 (k * L * Dy)) 3 2 (k * L * Dx))
      (setAt (setAt (setAt (setAt 0 1 0 (-k * Dx)) 1 2 (k * Dy)) 3 0 (k * Dy)) 3 2 (k * Dx)) :=
    (((Near.one.set 1 0 (by simp) ((lin (-k)).mul_const Dx)).set 1 2 (by simp) ((lin k).mul_const Dy)).set 3 0 (by simp)
      ((lin k).mul_const Dy)).set 3 2 (by simp) ((lin k).mul_const Dx)
  have h := finish_near (hT.mul (hP.mul hT)) k D2x D2y D2xy dst p
  unfold sextM
  simp only [if_true]
  convert h using 1
  funext i j
  unfold gradient
  cases dst <;> fin_cases i <;> fin_cases j <;> simp [setAt] <;> norm_num

theorem thick_near (k Dx Dy D2x D2y D2xy : ℝ) (hD : Dx ≠ 0 ∨ Dy = 0) (dst : Bool) (p : Particle) :
    Near (fun L => setAt (sextM L k Dx Dy D2x D2y D2xy false dst 1) 4 5 (slip p L)) (gradient k Dx Dy D2x D2y D2xy (slip p 1) dst) := by
  unfold sextM
  simp only [Bool.false_eq_true, if_false]
  by_cases h0 : Real.sqrt (|k| * Real.sqrt (Dx * Dx + Dx * Dx)) = 0
  · have hz : k * Dx = 0 ∧ k * Dy = 0 := by
      rw [Real.sqrt_eq_zero (mul_nonneg (abs_nonneg _) (Real.sqrt_nonneg _)), mul_eq_zero, abs_eq_zero,
        Real.sqrt_eq_zero (by nlinarith [mul_self_nonneg Dx])] at h0
      rcases h0 with h | h
      · simp [h]
      · have : Dx = 0 := by nlinarith [mul_self_nonneg Dx]
        rcases hD with h' | h'
        · exact absurd this h'
        · simp [this, h']
    simp only [h0, ne_eq, not_true_eq_false, if_false]
    have h := finish_near ((Near.one.set 0 1 (by simp) (hasDerivAt_id' (0 : ℝ))).set 2 3 (by simp) (hasDerivAt_id' (0 : ℝ))) k D2x D2y D2xy dst p
    convert h using 1
    funext i j
    unfold gradient
    rw [neg_mul, hz.1, hz.2]
    cases dst <;> fin_cases i <;> fin_cases j <;> simp [setAt]
  · simp only [ne_eq, h0, not_false_eq_true, if_true]
    have hd : Real.sqrt (Dx * Dx + Dx * Dx) ≠ 0 := fun e => h0 (by rw [e, mul_zero, Real.sqrt_zero])
    have hq : Real.sqrt (|k| * Real.sqrt (Dx * Dx + Dx * Dx)) ^ 2 = |k| * Real.sqrt (Dx * Dx + Dx * Dx) :=
      Real.sq_sqrt (mul_nonneg (abs_nonneg _) (Real.sqrt_nonneg _))
    have hk : |k| * (if k < 0 then (-1 : ℝ) else 1) = k := by
      split
      · rename_i h; rw [abs_of_neg h]; ring
      · rename_i h; rw [abs_of_nonneg (not_lt.1 h)]; ring
    generalize Real.sqrt (|k| * Real.sqrt (Dx * Dx + Dx * Dx)) = q at h0 hq
    generalize Real.sqrt (Dx * Dx + Dx * Dx) = dr at hd hq
    generalize (if k < 0 then (-1 : ℝ) else 1) = sg at hk
    have hp : HasDerivAt (fun L : ℝ => q * L) q 0 := lin q
    have hcs : HasDerivAt (fun L : ℝ => Real.cos (q * L)) 0 0 := by simpa using hp.cos
    have hsn : HasDerivAt (fun L : ℝ => Real.sin (q * L)) q 0 := by simpa using hp.sin
    have hch : HasDerivAt (fun L : ℝ => Real.cosh (q * L)) 0 0 := by simpa using hp.cosh
    have hsh : HasDerivAt (fun L : ℝ => Real.sinh (q * L)) q 0 := by simpa using hp.sinh
    have a0 : HasDerivAt (fun L : ℝ => ((dr + Dx * sg) * Real.cos (q * L) + (dr - Dx * sg) * Real.cosh (q * L)) / (2 * dr)) 0 0 := by
      simpa using ((hcs.const_mul (dr + Dx * sg)).add (hch.const_mul (dr - Dx * sg))).div_const (2 * dr)
    have e0 : HasDerivAt (fun L : ℝ => ((dr - Dx * sg) * Real.cos (q * L) + (dr + Dx * sg) * Real.cosh (q * L)) / (2 * dr)) 0 0 := by
      simpa using ((hcs.const_mul (dr - Dx * sg)).add (hch.const_mul (dr + Dx * sg))).div_const (2 * dr)
    have b0 : HasDerivAt (fun L : ℝ => Dy * sg * (-Real.cos (q * L) + Real.cosh (q * L)) / (2 * dr)) 0 0 := by
      simpa using ((hcs.neg.add hch).const_mul (Dy * sg)).div_const (2 * dr)
    have s0 : HasDerivAt (fun L : ℝ => Dy * sg * (-Real.sin (q * L) + Real.sinh (q * L)) / (2 * q * dr)) 0 0 := by
      simpa using ((hsn.neg.add hsh).const_mul (Dy * sg)).div_const (2 * q * dr)
    have x0 : HasDerivAt (fun L : ℝ => ((dr + Dx * sg) * Real.sin (q * L) + (dr - Dx * sg) * Real.sinh (q * L)) / (2 * q * dr)) 1 0 := by
      refine (((hsn.const_mul (dr + Dx * sg)).add (hsh.const_mul (dr - Dx * sg))).div_const (2 * q * dr)).congr_deriv ?_
      field_simp
      ring
    have y0 : HasDerivAt (fun L : ℝ => ((dr - Dx * sg) * Real.sin (q * L) + (dr + Dx * sg) * Real.sinh (q * L)) / (2 * q * dr)) 1 0 := by
      refine (((hsn.const_mul (dr - Dx * sg)).add (hsh.const_mul (dr + Dx * sg))).div_const (2 * q * dr)).congr_deriv ?_
      field_simp
      ring
    have f0 : HasDerivAt (fun L : ℝ => q * (-(dr + Dx * sg) * Real.sin (q * L) + (dr - Dx * sg) * Real.sinh (q * L)) / (2 * dr)) (-k * Dx) 0 := by
      refine ((((hsn.const_mul (-(dr + Dx * sg))).add (hsh.const_mul (dr - Dx * sg))).const_mul q).div_const (2 * dr)).congr_deriv ?_
      field_simp
      linear_combination (-2 * Dx * sg) * hq - 2 * dr * Dx * hk
    have g0 : HasDerivAt (fun L : ℝ => q * (-(dr - Dx * sg) * Real.sin (q * L) + (dr + Dx * sg) * Real.sinh (q * L)) / (2 * dr)) (k * Dx) 0 := by
      refine ((((hsn.const_mul (-(dr - Dx * sg))).add (hsh.const_mul (dr + Dx * sg))).const_mul q).div_const (2 * dr)).congr_deriv ?_
      field_simp
      linear_combination (2 * Dx * sg) * hq + 2 * dr * Dx * hk
    have c0 : HasDerivAt (fun L : ℝ => Dy * sg * q * (Real.sin (q * L) + Real.sinh (q * L)) / (2 * dr)) (k * Dy) 0 := by
      refine (((hsn.add hsh).const_mul (Dy * sg * q)).div_const (2 * dr)).congr_deriv ?_
      field_simp
      linear_combination (2 * Dy * sg) * hq + 2 * dr * Dy * hk
    have h := finish_near (((((((((((((((Near.one.set 1 1 (by simp; field_simp; ring) a0).set 0 0 (by simp; field_simp; ring) a0).set 0 1 (by simp) x0).set 3 1 (by simp) b0).set
      2 0 (by simp) b0).set 1 3 (by simp) b0).set 0 2 (by simp) b0).set 0 3 (by simp) s0).set 1 0 (by simp) f0).set 3 0 (by simp) c0).set 1 2 (by simp) c0).set
      2 1 (by simp) s0).set 3 3 (by simp; field_simp; ring) e0).set 2 2 (by simp; field_simp; ring) e0).set 2 3 (by simp) y0 |>.set 3 2 (by simp) g0) k D2x D2y D2xy dst p
    convert h using 1
    funext i j
    unfold gradient
    cases dst <;> fin_cases i <;> fin_cases j <;> simp [setAt]

/-! ## means -/

theorem mean_add (B : Bunch ι) (f g : (Fin 7 → ℝ) → ℝ) : B.mean (fun z => f z + g z) = B.mean f + B.mean g := by
  simp only [Bunch.mean, mul_add, Finset.sum_add_distrib]

theorem mean_sub (B : Bunch ι) (f g : (Fin 7 → ℝ) → ℝ) : B.mean (fun z => f z - g z) = B.mean f - B.mean g := by
  simp only [Bunch.mean, mul_sub, Finset.sum_sub_distrib]

theorem mean_mul (B : Bunch ι) (a : ℝ) (f : (Fin 7 → ℝ) → ℝ) : B.mean (fun z => a * f z) = a * B.mean f := by
  simp only [Bunch.mean, Finset.mul_sum]
  exact Finset.sum_congr rfl (fun n _ => by ring)

theorem mean_const (B : Bunch ι) (a : ℝ) : B.mean (fun _ => a) = a := by
  simp only [Bunch.mean, ← Finset.sum_mul, B.total, one_mul]

theorem mean_dev (B : Bunch ι) (i : Fin 7) : B.mean (fun z => z i - B.centroid i) = 0 := by
  rw [mean_sub, mean_const]
  exact sub_self _

theorem mean_prod (B : Bunch ι) (i j : Fin 7) : B.mean (fun z => z i * z j) = B.centroid i * B.centroid j + B.covariance i j := by
  have e : (fun z : Fin 7 → ℝ => z i * z j) = fun z => ((z i - B.centroid i) * (z j - B.centroid j) + B.centroid j * (z i - B.centroid i)) +
      (B.centroid i * (z j - B.centroid j) + B.centroid i * B.centroid j) := by
    funext z
    ring
  rw [e, mean_add, mean_add, mean_add, mean_mul, mean_mul, mean_dev, mean_dev, mean_const]
  show B.covariance i j + _ + _ = _
  ring

theorem centroid_one (B : Bunch ι) : B.centroid 6 = 1 := by
  unfold Bunch.centroid Bunch.mean
  simp only [B.one, mul_one, B.total]

theorem covariance_one (B : Bunch ι) (i : Fin 7) : B.covariance i 6 = 0 ∧ B.covariance 6 i = 0 := by
  unfold Bunch.covariance Bunch.mean
  simp only [B.one, centroid_one, sub_self, mul_zero, zero_mul, Finset.sum_const_zero, and_self]

theorem covariance_symm (B : Bunch ι) (i j : Fin 7) : B.covariance i j = B.covariance j i := by
  unfold Bunch.covariance
  simp only [mul_comm]

theorem centroid_rate (B : Bunch ι) (k : ℝ) : B.centroidRate k = ![B.centroid 1,
    -k * (B.centroid 0 ^ 2 + B.covariance 0 0 - (B.centroid 2 ^ 2 + B.covariance 2 2)), B.centroid 3,
    2 * k * (B.centroid 0 * B.centroid 2 + B.covariance 0 2)] := by
  funext i
  fin_cases i
  · rfl
  · show B.mean (fun z => -k * (z 0 ^ 2 - z 2 ^ 2)) = -k * (B.centroid 0 ^ 2 + B.covariance 0 0 - (B.centroid 2 ^ 2 + B.covariance 2 2))
    rw [mean_mul, mean_sub]
    simp only [sq, mean_prod]
  · rfl
  · show B.mean (fun z => 2 * k * (z 0 * z 2)) = 2 * k * (B.centroid 0 * B.centroid 2 + B.covariance 0 2)
    rw [mean_mul, mean_prod]

/-- How the deviations from the centroid change: the derivative of the equations of motion and a part of second order. -/
theorem rate_dev (B : Bunch ι) (hB : B.Even) (k : ℝ) (i : Fin 4) (j : Fin 7) :
    B.mean (fun z => (rate k z i - B.centroidRate k i) * (z j - B.centroid j)) =
      ![B.covariance 1 j, -k * (2 * B.centroid 0 * B.covariance 0 j - 2 * B.centroid 2 * B.covariance 2 j), B.covariance 3 j,
        2 * k * (B.centroid 0 * B.covariance 2 j + B.centroid 2 * B.covariance 0 j)] i := by
  rw [centroid_rate]
  fin_cases i
  · rfl
  · show B.mean (fun z => (-k * (z 0 ^ 2 - z 2 ^ 2) - -k * (B.centroid 0 ^ 2 + B.covariance 0 0 - (B.centroid 2 ^ 2 + B.covariance 2 2))) * (z j - B.centroid j)) =
      -k * (2 * B.centroid 0 * B.covariance 0 j - 2 * B.centroid 2 * B.covariance 2 j)
    have e : (fun z : Fin 7 → ℝ => (-k * (z 0 ^ 2 - z 2 ^ 2) - -k * (B.centroid 0 ^ 2 + B.covariance 0 0 - (B.centroid 2 ^ 2 + B.covariance 2 2))) * (z j - B.centroid j)) =
        fun z => (-k * ((z 0 - B.centroid 0) * (z 0 - B.centroid 0) * (z j - B.centroid j)) + k * ((z 2 - B.centroid 2) * (z 2 - B.centroid 2) * (z j - B.centroid j))) +
          ((-k * (2 * B.centroid 0)) * ((z 0 - B.centroid 0) * (z j - B.centroid j)) + (k * (2 * B.centroid 2)) * ((z 2 - B.centroid 2) * (z j - B.centroid j)) +
            (k * (B.covariance 0 0 - B.covariance 2 2)) * (z j - B.centroid j)) := by
      funext z
      ring
    rw [e, mean_add, mean_add, mean_add, mean_add, mean_mul, mean_mul, mean_mul, mean_mul, mean_mul, hB 0 0 j, hB 2 2 j, mean_dev]
    show _ + (-k * (2 * B.centroid 0) * B.covariance 0 j + k * (2 * B.centroid 2) * B.covariance 2 j + _) = _
    ring
  · rfl
  · show B.mean (fun z => (2 * k * (z 0 * z 2) - 2 * k * (B.centroid 0 * B.centroid 2 + B.covariance 0 2)) * (z j - B.centroid j)) =
      2 * k * (B.centroid 0 * B.covariance 2 j + B.centroid 2 * B.covariance 0 j)
    have e : (fun z : Fin 7 → ℝ => (2 * k * (z 0 * z 2) - 2 * k * (B.centroid 0 * B.centroid 2 + B.covariance 0 2)) * (z j - B.centroid j)) =
        fun z => (2 * k) * ((z 0 - B.centroid 0) * (z 2 - B.centroid 2) * (z j - B.centroid j)) +
          ((2 * k * B.centroid 0) * ((z 2 - B.centroid 2) * (z j - B.centroid j)) + (2 * k * B.centroid 2) * ((z 0 - B.centroid 0) * (z j - B.centroid j)) +
            (-(2 * k) * B.covariance 0 2) * (z j - B.centroid j)) := by
      funext z
      ring
    rw [e, mean_add, mean_add, mean_add, mean_mul, mean_mul, mean_mul, mean_mul, hB 0 2 j, mean_dev]
    show _ + (2 * k * B.centroid 0 * B.covariance 2 j + 2 * k * B.centroid 2 * B.covariance 0 j + _) = _
    ring

/-! ## the theorems -/

theorem slice_eq (p : Particle) (k : ℝ) (thin dst : Bool) (v : Vec) (S : Mat) (L : ℝ) :
    slice p k thin dst v S L = ((setAt (sextM L k (v 0) (v 2) (S 0 0) (S 2 2) (S 0 2) thin dst 1) 4 5 (slip p L)).mulVec v,
      Moment.congr (setAt (sextM L k (v 0) (v 2) (S 0 0) (S 2 2) (S 0 2) thin dst 1) 4 5 (slip p L)) S) := rfl

theorem slice_near (B : Bunch ι) (p : Particle) (k : ℝ) (thin dst : Bool) (hD : thin = true ∨ B.centroid 0 ≠ 0 ∨ B.centroid 2 = 0) (v : Vec) (S : Mat)
    (hv : ∀ i, v i = B.centroid i) (hS : ∀ i j, S i j = B.covariance i j) :
    Near (fun L => setAt (sextM L k (v 0) (v 2) (S 0 0) (S 2 2) (S 0 2) thin dst 1) 4 5 (slip p L))
      (gradient k (B.centroid 0) (B.centroid 2) (B.covariance 0 0) (B.covariance 2 2) (B.covariance 0 2) (slip p 1) dst) := by
  simp only [hv, hS]
  cases thin with
  | true => exact thin_near _ _ _ _ _ _ _ _
  | false => exact thick_near _ _ _ _ _ _ (by simpa using hD) _ _

/-- C104, centroid: the centroid of a bunch enters a sextupole as the mean of its particles, each of which follows the equations of
motion; the kick from the size of the beam has to be switched on (`dstkick`, the default).  Partial: the thick lens does this only if
the bunch is displaced horizontally or not displaced vertically (see `C104_thick_false`). -/
theorem C104_centroid_partial (B : Bunch ι) (p : Particle) (k : ℝ) (thin : Bool) (hD : thin = true ∨ B.centroid 0 ≠ 0 ∨ B.centroid 2 = 0)
    (v : Vec) (S : Mat) (hv : ∀ i, v i = B.centroid i) (hS : ∀ i j, S i j = B.covariance i j) (i : Fin 4) :
    (slice p k thin true v S 0).1 = v ∧
    HasDerivAt (fun L => (slice p k thin true v S L).1 (i.castLE (by decide))) (B.centroidRate k i) 0 := by
  have h := slice_near B p k thin true hD v S hv hS
  constructor
  · rw [slice_eq]
    have := h.1
    dsimp only at this ⊢
    rw [this, Matrix.one_mulVec]
  · simp only [slice_eq]
    refine (h.vec v _).congr_deriv ?_
    rw [centroid_rate]
    fin_cases i <;>
      simp [Matrix.mulVec, dotProduct, Fin.sum_univ_seven, gradient, hv, centroid_one] <;> ring

/-- C104, covariance: the covariance of a bunch that is symmetric about its centroid changes as if the sextupole had half its strength. -/
theorem C104_covariance_half (B : Bunch ι) (hB : B.Even) (p : Particle) (k : ℝ) (thin dst : Bool)
    (hD : thin = true ∨ B.centroid 0 ≠ 0 ∨ B.centroid 2 = 0)
    (v : Vec) (S : Mat) (hv : ∀ i, v i = B.centroid i) (hS : ∀ i j, S i j = B.covariance i j) (i j : Fin 4) :
    (slice p k thin dst v S 0).2 = S ∧
    HasDerivAt (fun L => (slice p k thin dst v S L).2 (i.castLE (by decide)) (j.castLE (by decide))) (B.covarianceRate (k / 2) i j) 0 := by
  have h := slice_near B p k thin dst hD v S hv hS
  constructor
  · rw [slice_eq]
    have := h.1
    dsimp only at this ⊢
    rw [this, Moment.congr, Matrix.one_mul, Matrix.transpose_one, Matrix.mul_one]
  · simp only [slice_eq]
    refine (h.congr S _ _).congr_deriv ?_
    have e : ∀ j : Fin 4, (fun z : Fin 7 → ℝ => (z (i.castLE (by decide)) - B.centroid (i.castLE (by decide))) * (rate (k / 2) z j - B.centroidRate (k / 2) j)) =
        fun z => (rate (k / 2) z j - B.centroidRate (k / 2) j) * (z (i.castLE (by decide)) - B.centroid (i.castLE (by decide))) := by
      intro j
      funext z
      rw [mul_comm]
    rw [Bunch.covarianceRate, mean_add, e, rate_dev B hB, rate_dev B hB]
    simp only [Matrix.add_apply, Matrix.mul_apply, Matrix.transpose_apply, Fin.sum_univ_seven, hS, (covariance_one B _).1, (covariance_one B _).2]
    fin_cases i <;> fin_cases j <;> simp [gradient] <;>
      (try simp only [covariance_symm B 1 0, covariance_symm B 2 0, covariance_symm B 3 0, covariance_symm B 2 1, covariance_symm B 3 1, covariance_symm B 3 2]) <;>
      ring

/-- Two particles on both sides of a centroid that is displaced horizontally. -/
noncomputable def exTwo : Bunch Bool where
  weight _ := 1 / 2
  z n := if n then ![2, 0, 0, 0, 0, 0, 1] else ![0, 0, 0, 0, 0, 0, 1]
  total := by simp
  one n := by cases n <;> rfl

theorem exTwo_centroid : exTwo.centroid = ![1, 0, 0, 0, 0, 0, 1] := by
  funext i
  unfold Bunch.centroid Bunch.mean
  rw [Fintype.sum_bool]
  fin_cases i <;> simp [exTwo] <;> norm_num

theorem exTwo_covariance : exTwo.covariance 0 0 = 1 ∧ exTwo.covariance 2 2 = 0 := by
  unfold Bunch.covariance Bunch.mean
  simp only [Fintype.sum_bool, exTwo_centroid]
  simp [exTwo]
  norm_num

theorem exTwo_even : exTwo.Even := by
  intro i j k
  have h : ∀ i, exTwo.z true i - exTwo.centroid i = -(exTwo.z false i - exTwo.centroid i) := by
    intro i
    rw [exTwo_centroid]
    fin_cases i <;> simp [exTwo] <;> norm_num
  unfold Bunch.mean
  rw [Fintype.sum_bool]
  dsimp only
  rw [h i, h j, h k]
  show 1 / 2 * _ + 1 / 2 * _ = (0 : ℝ)
  ring

/-- The hypotheses of `C104_centroid_partial` and `C104_covariance_half` are met. -/
example : exTwo.Even ∧ exTwo.centroid 0 ≠ 0 ∧ exTwo.covariance 0 0 = 1 :=
  ⟨exTwo_even, by rw [exTwo_centroid]; simp, exTwo_covariance.1⟩

/-- There is no sextupole field in which both the centroid and the covariance of the bunch move as in the code: where the bunch is
displaced, the linear part of the field is twice as large as the code takes it to be for the covariance. -/
theorem C104_covariance_false : ∃ (B : Bunch Bool), B.Even ∧ ∀ (p : Particle) (k : ℝ) (thin : Bool) (v : Vec) (S : Mat), k ≠ 0 →
    (∀ i, v i = B.centroid i) → (∀ i j, S i j = B.covariance i j) →
    ¬ ∃ k', (∀ i : Fin 4, HasDerivAt (fun L => (slice p k thin true v S L).1 (i.castLE (by decide))) (B.centroidRate k' i) 0) ∧
      ∀ i j : Fin 4, HasDerivAt (fun L => (slice p k thin true v S L).2 (i.castLE (by decide)) (j.castLE (by decide))) (B.covarianceRate k' i j) 0 := by
  refine ⟨exTwo, exTwo_even, ?_⟩
  rintro p k thin v S hk hv hS ⟨k', h1, h2⟩
  have hD : thin = true ∨ exTwo.centroid 0 ≠ 0 ∨ exTwo.centroid 2 = 0 := .inr (.inl (by rw [exTwo_centroid]; simp))
  have a := (h1 1).unique (C104_centroid_partial exTwo p k thin hD v S hv hS 1).2
  have b := (h2 1 0).unique (C104_covariance_half exTwo exTwo_even p k thin true hD v S hv hS 1 0).2
  have e : ∀ k, (fun z : Fin 7 → ℝ => (z ((1 : Fin 4).castLE (by decide)) - exTwo.centroid ((1 : Fin 4).castLE (by decide))) * (rate k z 0 - exTwo.centroidRate k 0)) =
      fun z => (rate k z 0 - exTwo.centroidRate k 0) * (z ((1 : Fin 4).castLE (by decide)) - exTwo.centroid ((1 : Fin 4).castLE (by decide))) := by
    intro k
    funext z
    rw [mul_comm]
  rw [Bunch.covarianceRate, Bunch.covarianceRate, mean_add, mean_add, e, e, rate_dev _ exTwo_even, rate_dev _ exTwo_even, rate_dev _ exTwo_even,
    rate_dev _ exTwo_even] at b
  rw [centroid_rate, centroid_rate] at a
  simp [exTwo_centroid, exTwo_covariance.1, exTwo_covariance.2] at a b
  apply hk
  linarith

/-- A particle that is displaced vertically. -/
noncomputable def exUp : Bunch Unit where
  weight _ := 1
  z _ := ![0, 0, 1, 0, 0, 0, 1]
  total := by simp
  one _ := rfl

/-- A thick sextupole does not act on a bunch that is displaced vertically only (/repo/src/moment_sup.cpp:125). -/
theorem C104_thick_false : ∃ B : Bunch Unit, ∀ (p : Particle) (k : ℝ) (v : Vec) (S : Mat), k ≠ 0 → (∀ i, v i = B.centroid i) →
    (∀ i j, S i j = B.covariance i j) → ¬ HasDerivAt (fun L => (slice p k false true v S L).1 1) (B.centroidRate k 1) 0 := by
  refine ⟨exUp, ?_⟩
  intro p k v S hk hv hS h
  have hc : exUp.centroid = ![0, 0, 1, 0, 0, 0, 1] := by
    funext i
    simp [Bunch.centroid, Bunch.mean, exUp]
  have hS0 : ∀ i j, exUp.covariance i j = 0 := by
    intro i j
    simp only [Bunch.covariance, Bunch.mean, hc]
    simp [exUp]
  have e : (fun L => (slice p k false true v S L).1 1) = fun _ => 0 := by
    funext L
    rw [slice_eq]
    simp [sextM, Matrix.mulVec, dotProduct, Fin.sum_univ_seven, setAt, hv, hS, hc, hS0, Matrix.one_apply]
  rw [e, centroid_rate] at h
  have := h.unique (hasDerivAt_const (0 : ℝ) (0 : ℝ))
  simp [hc, hS0] at this
  exact hk this

end Flame.Sext
