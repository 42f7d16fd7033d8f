import Verif.Cavity.Off
import Mathlib.Analysis.SpecialFunctions.Trigonometric.Deriv
import Mathlib.Analysis.SpecialFunctions.Complex.Circle
import Mathlib.Tactic.IntervalCases
import Mathlib.Algebra.Order.BigOperators.Ring.Finset

/-!
# Transit time factors of field maps: C63

`calTransfac` reduces a field map to a centre, an amplitude and the factors `T`, `S` of the cosine and the sine, together with
their derivatives with respect to the wave number.
-/

namespace Flame.Cavity

open Flame.Mach (Err)
open Flame.Linear (LCfg)
open Flame.Moment

theorem intervals_eq (n : Nat) (f : Nat → ℝ) : intervals n f = ∑ k ∈ Finset.range (n - 1), f k := by
  rw [intervals, ← List.sum_toFinset _ List.nodup_range, List.toFinset_range]

/-- The number of points that are used. -/
def points (tz : List ℝ) (half : Bool) : Nat := if half then tz.length / 2 else tz.length

/-- Equal spacing of the points that are used. -/
def Even (tz : List ℝ) (n : Nat) (h : ℝ) : Prop := ∀ k < n, tz.getD k 0 = tz.getD 0 0 + k * h

/-- What `calTransfac` computes for points `h` apart, written with sums. -/
theorem calTransfac_even {tz EM : List ℝ} {gap : Nat} {K h : ℝ} {half : Bool} {g : Gap} (he : Even tz (points tz half) h)
    (hg : calTransfac tz EM gap K half = .ok g) :
    2 ≤ points tz half ∧ ∃ eml c : ℝ,
      eml = ∑ k ∈ Finset.range (points tz half - 1), (|EM.getD k 0| + |EM.getD (k + 1) 0|) / 2 * h ∧ eml ≠ 0 ∧
      c = (∑ k ∈ Finset.range (points tz half - 1), (((k : ℝ) + 1 / 2) * h) * ((|EM.getD k 0| + |EM.getD (k + 1) 0|) / 2 * h)) / eml ∧
      g.Ecen = (if gap = 2 then tz.getD (tz.length - 1) 0 - c else c) ∧
      g.V0 = eml / 1000000000 ∧
      (if gap = 2 then -g.T else g.T) = (∑ k ∈ Finset.range (points tz half - 1),
        (EM.getD k 0 + EM.getD (k + 1) 0) / 2 * h * Real.cos (K * (((k : ℝ) + 1 / 2) * h - c))) / eml ∧
      g.S = (∑ k ∈ Finset.range (points tz half - 1),
        (EM.getD k 0 + EM.getD (k + 1) 0) / 2 * h * Real.sin (K * (((k : ℝ) + 1 / 2) * h - c))) / eml ∧
      (if gap = 2 then -g.Tp else g.Tp) = (∑ k ∈ Finset.range (points tz half - 1),
        (EM.getD k 0 + EM.getD (k + 1) 0) / 2 * h * (-(((k : ℝ) + 1 / 2) * h - c) * Real.sin (K * (((k : ℝ) + 1 / 2) * h - c)))) /
          eml ∧
      g.Sp = (∑ k ∈ Finset.range (points tz half - 1),
        (EM.getD k 0 + EM.getD (k + 1) 0) / 2 * h * ((((k : ℝ) + 1 / 2) * h - c) * Real.cos (K * (((k : ℝ) + 1 / 2) * h - c)))) /
          eml := by
  unfold calTransfac at hg
  dsimp only at hg
  rw [show (if half then tz.length / 2 else tz.length) = points tz half from rfl] at hg
  generalize hn : points tz half = n at *
  split at hg
  · cases hg
  rename_i hn0
  split at hg
  · cases hg
  rename_i heml
  have hn2 : 2 ≤ n := by
    by_contra hc
    apply heml
    have : n = 1 := by omega
    simp [this, intervals]
  have hdz : (tz.getD (n - 1) 0 - tz.getD 0 0) / ((n : ℝ) - 1) = h := by
    rw [he (n - 1) (by omega)]
    have h1 : ((n - 1 : ℕ) : ℝ) = (n : ℝ) - 1 := by push_cast [Nat.cast_sub (by omega : 1 ≤ n)]; ring
    have h2 : (n : ℝ) - 1 ≠ 0 := by
      have : (2 : ℝ) ≤ n := by exact_mod_cast hn2
      linarith
    rw [h1]
    field_simp
    ring
  rw [hdz] at hg heml
  simp only [intervals_eq] at hg heml
  have hz : ∀ k ∈ Finset.range (n - 1), (if k < n then tz.getD k 0 - tz.getD 0 0 else tz.getD k 0) = k * h ∧
      (if k + 1 < n then tz.getD (k + 1) 0 - tz.getD 0 0 else tz.getD (k + 1) 0) = (k + 1) * h := by
    intro k hk
    rw [Finset.mem_range] at hk
    rw [if_pos (by omega), if_pos (by omega), he k (by omega), he (k + 1) (by omega)]
    push_cast
    constructor <;> ring
  have hmom : (∑ k ∈ Finset.range (n - 1), ((if k < n then tz.getD k 0 - tz.getD 0 0 else tz.getD k 0) +
        (if k + 1 < n then tz.getD (k + 1) 0 - tz.getD 0 0 else tz.getD (k + 1) 0)) / 2 *
        (|EM.getD k 0| + |EM.getD (k + 1) 0|) / 2 * h) =
      ∑ k ∈ Finset.range (n - 1), (((k : ℝ) + 1 / 2) * h) * ((|EM.getD k 0| + |EM.getD (k + 1) 0|) / 2 * h) := by
    apply Finset.sum_congr rfl
    intro k hk
    rw [(hz k hk).1, (hz k hk).2]
    ring
  rw [hmom] at hg
  refine ⟨hn2, _, _, rfl, heml, rfl, ?_⟩
  generalize (∑ k ∈ Finset.range (n - 1), (((k : ℝ) + 1 / 2) * h) * ((|EM.getD k 0| + |EM.getD (k + 1) 0|) / 2 * h)) /
    (∑ k ∈ Finset.range (n - 1), (|EM.getD k 0| + |EM.getD (k + 1) 0|) / 2 * h) = c at hg ⊢
  have hT : (∑ k ∈ Finset.range (n - 1), (EM.getD k 0 + EM.getD (k + 1) 0) / 2 *
      Real.cos (K * ((if k < n then tz.getD k 0 - tz.getD 0 0 else tz.getD k 0) - c +
        ((if k + 1 < n then tz.getD (k + 1) 0 - tz.getD 0 0 else tz.getD (k + 1) 0) - c)) / 2) * h) =
      ∑ k ∈ Finset.range (n - 1),
        (EM.getD k 0 + EM.getD (k + 1) 0) / 2 * h * Real.cos (K * (((k : ℝ) + 1 / 2) * h - c)) := by
    apply Finset.sum_congr rfl
    intro k hk
    rw [(hz k hk).1, (hz k hk).2, show K * ((k : ℝ) * h - c + ((k + 1) * h - c)) / 2 = K * (((k : ℝ) + 1 / 2) * h - c) by ring]
    ring
  have hS : (∑ k ∈ Finset.range (n - 1), (EM.getD k 0 + EM.getD (k + 1) 0) / 2 *
      Real.sin (K * ((if k < n then tz.getD k 0 - tz.getD 0 0 else tz.getD k 0) - c +
        ((if k + 1 < n then tz.getD (k + 1) 0 - tz.getD 0 0 else tz.getD (k + 1) 0) - c)) / 2) *
        ((if k + 1 < n then tz.getD (k + 1) 0 - tz.getD 0 0 else tz.getD (k + 1) 0) - c -
          ((if k < n then tz.getD k 0 - tz.getD 0 0 else tz.getD k 0) - c))) =
      ∑ k ∈ Finset.range (n - 1),
        (EM.getD k 0 + EM.getD (k + 1) 0) / 2 * h * Real.sin (K * (((k : ℝ) + 1 / 2) * h - c)) := by
    apply Finset.sum_congr rfl
    intro k hk
    rw [(hz k hk).1, (hz k hk).2, show K * ((k : ℝ) * h - c + ((k + 1) * h - c)) / 2 = K * (((k : ℝ) + 1 / 2) * h - c) by ring]
    ring
  have hTp : (∑ k ∈ Finset.range (n - 1), ((if k < n then tz.getD k 0 - tz.getD 0 0 else tz.getD k 0) - c +
        ((if k + 1 < n then tz.getD (k + 1) 0 - tz.getD 0 0 else tz.getD (k + 1) 0) - c)) / 2 *
      (EM.getD k 0 + EM.getD (k + 1) 0) / 2 *
      Real.sin (K * ((if k < n then tz.getD k 0 - tz.getD 0 0 else tz.getD k 0) - c +
        ((if k + 1 < n then tz.getD (k + 1) 0 - tz.getD 0 0 else tz.getD (k + 1) 0) - c)) / 2) * h) =
      -∑ k ∈ Finset.range (n - 1), (EM.getD k 0 + EM.getD (k + 1) 0) / 2 * h *
        (-(((k : ℝ) + 1 / 2) * h - c) * Real.sin (K * (((k : ℝ) + 1 / 2) * h - c))) := by
    rw [← Finset.sum_neg_distrib]
    apply Finset.sum_congr rfl
    intro k hk
    rw [(hz k hk).1, (hz k hk).2, show K * ((k : ℝ) * h - c + ((k + 1) * h - c)) / 2 = K * (((k : ℝ) + 1 / 2) * h - c) by ring]
    ring
  have hSp : (∑ k ∈ Finset.range (n - 1), ((if k < n then tz.getD k 0 - tz.getD 0 0 else tz.getD k 0) - c +
        ((if k + 1 < n then tz.getD (k + 1) 0 - tz.getD 0 0 else tz.getD (k + 1) 0) - c)) / 2 *
      (EM.getD k 0 + EM.getD (k + 1) 0) / 2 *
      Real.cos (K * ((if k < n then tz.getD k 0 - tz.getD 0 0 else tz.getD k 0) - c +
        ((if k + 1 < n then tz.getD (k + 1) 0 - tz.getD 0 0 else tz.getD (k + 1) 0) - c)) / 2) * h) =
      ∑ k ∈ Finset.range (n - 1), (EM.getD k 0 + EM.getD (k + 1) 0) / 2 * h *
        ((((k : ℝ) + 1 / 2) * h - c) * Real.cos (K * (((k : ℝ) + 1 / 2) * h - c))) := by
    apply Finset.sum_congr rfl
    intro k hk
    rw [(hz k hk).1, (hz k hk).2, show K * ((k : ℝ) * h - c + ((k + 1) * h - c)) / 2 = K * (((k : ℝ) + 1 / 2) * h - c) by ring]
    ring
  rw [hT, hS, hTp, hSp, neg_neg] at hg
  cases hg
  by_cases h2 : gap = 2
  · simp only [h2, if_true, neg_neg]
    refine ⟨trivial, ?_, trivial, trivial, trivial, trivial⟩
    rw [div_div]; congr 1; norm_num [MeVtoeV, MtoMM]
  · simp only [h2, if_false]
    refine ⟨trivial, ?_, trivial, trivial, trivial, trivial⟩
    rw [div_div]; congr 1; norm_num [MeVtoeV, MtoMM]

/-- A sum of vectors is not longer than the sum of their lengths. -/
theorem vector_sum (n : ℕ) (w b θ : ℕ → ℝ) (hw : ∀ k ∈ Finset.range n, |w k| ≤ b k) :
    (∑ k ∈ Finset.range n, w k * Real.cos (θ k)) ^ 2 + (∑ k ∈ Finset.range n, w k * Real.sin (θ k)) ^ 2 ≤
      (∑ k ∈ Finset.range n, b k) ^ 2 := by
  have e : (∑ k ∈ Finset.range n, w k * Real.cos (θ k)) ^ 2 + (∑ k ∈ Finset.range n, w k * Real.sin (θ k)) ^ 2 =
      ‖∑ k ∈ Finset.range n, (w k : ℂ) * Complex.exp (θ k * Complex.I)‖ ^ 2 := by
    rw [← Complex.normSq_eq_norm_sq, Complex.normSq_apply, Complex.re_sum, Complex.im_sum, ← sq, ← sq]
    congr 2
    · apply Finset.sum_congr rfl
      intro k _
      rw [Complex.re_ofReal_mul, Complex.exp_ofReal_mul_I_re]
    · apply Finset.sum_congr rfl
      intro k _
      rw [Complex.im_ofReal_mul, Complex.exp_ofReal_mul_I_im]
  rw [e]
  apply pow_le_pow_left₀ (norm_nonneg _)
  refine (norm_sum_le _ _).trans (Finset.sum_le_sum ?_)
  intro k hk
  rw [norm_mul, Complex.norm_exp_ofReal_mul_I, mul_one, Complex.norm_real]
  exact hw k hk

theorem eml_pos {EM : List ℝ} {n : ℕ} {h eml : ℝ} (hh : 0 < h)
    (h1 : eml = ∑ k ∈ Finset.range n, (|EM.getD k 0| + |EM.getD (k + 1) 0|) / 2 * h) (h2 : eml ≠ 0) : 0 < eml := by
  refine lt_of_le_of_ne ?_ (Ne.symm h2)
  rw [h1]
  exact Finset.sum_nonneg (fun k _ => by positivity)

/-- C63: a gap gives a particle at most the voltage over it, whatever the wave number and the phase: the factors of cosine and
sine are the coordinates of a point in the unit disc, and the amplitude is positive. -/
theorem C63_disc {tz EM : List ℝ} {gap : Nat} {K h : ℝ} {half : Bool} {g : Gap} (hh : 0 < h)
    (he : Even tz (points tz half) h) (hg : calTransfac tz EM gap K half = .ok g) : g.T ^ 2 + g.S ^ 2 ≤ 1 ∧ 0 < g.V0 := by
  obtain ⟨-, eml, c, h1, h2, -, -, h5, h6, h7, -, -⟩ := calTransfac_even he hg
  have hp := eml_pos hh h1 h2
  refine ⟨?_, by rw [h5]; positivity⟩
  have hT : g.T ^ 2 = (if gap = 2 then -g.T else g.T) ^ 2 := by split <;> ring
  rw [hT, h6, h7, div_pow, div_pow, ← add_div, div_le_one (by positivity), h1]
  apply vector_sum
  intro k _
  rw [abs_mul, abs_div, abs_of_pos hh, abs_of_pos (by norm_num : (0 : ℝ) < 2)]
  have := abs_add_le (EM.getD k 0) (EM.getD (k + 1) 0)
  gcongr

/-- C63: the electric centre lies inside the part of the map that is used; for the second gap it is its mirror image. -/
theorem C63_centre {tz EM : List ℝ} {gap : Nat} {K h : ℝ} {half : Bool} {g : Gap} (hh : 0 < h)
    (he : Even tz (points tz half) h) (hg : calTransfac tz EM gap K half = .ok g) :
    let c := if gap = 2 then tz.getD (tz.length - 1) 0 - g.Ecen else g.Ecen
    0 < c ∧ c < tz.getD (points tz half - 1) 0 - tz.getD 0 0 := by
  obtain ⟨h0, eml, c, h1, h2, h3, h4, -, -, -, -, -⟩ := calTransfac_even he hg
  have hp := eml_pos hh h1 h2
  have hc : (if gap = 2 then tz.getD (tz.length - 1) 0 - g.Ecen else g.Ecen) = c := by
    rw [h4]; split <;> ring
  intro c'
  rw [show c' = c from hc, he (points tz half - 1) (by omega), Nat.cast_sub (by omega : 1 ≤ points tz half)]
  have hlo : h / 2 * eml ≤ ∑ k ∈ Finset.range (points tz half - 1),
      (((k : ℝ) + 1 / 2) * h) * ((|EM.getD k 0| + |EM.getD (k + 1) 0|) / 2 * h) := by
    rw [h1, Finset.mul_sum]
    apply Finset.sum_le_sum
    intro k _
    have hk : (0 : ℝ) ≤ k := Nat.cast_nonneg k
    have : h / 2 ≤ ((k : ℝ) + 1 / 2) * h := by nlinarith
    gcongr
  have hhi : ∑ k ∈ Finset.range (points tz half - 1),
      (((k : ℝ) + 1 / 2) * h) * ((|EM.getD k 0| + |EM.getD (k + 1) 0|) / 2 * h) ≤
      (((points tz half : ℝ) - 1) * h - h / 2) * eml := by
    rw [h1, Finset.mul_sum]
    apply Finset.sum_le_sum
    intro k hk
    rw [Finset.mem_range] at hk
    have hk' : (k : ℝ) + 1 ≤ (points tz half : ℝ) - 1 := by
      have : (k + 2 : ℕ) ≤ points tz half := by omega
      have : ((k + 2 : ℕ) : ℝ) ≤ points tz half := by exact_mod_cast this
      push_cast at this
      linarith
    have : ((k : ℝ) + 1 / 2) * h ≤ ((points tz half : ℝ) - 1) * h - h / 2 := by nlinarith
    gcongr
  rw [h3]
  constructor
  · refine lt_of_lt_of_le ?_ ((le_div_iff₀ hp).mpr hlo)
    positivity
  · refine lt_of_le_of_lt ((div_le_iff₀ hp).mpr hhi) ?_
    push_cast
    linarith

/-- C63: `Tp` and `Sp` are the derivatives of `T` and `S` with respect to the wave number. -/
theorem C63_derivative {tz EM : List ℝ} {gap : Nat} {h : ℝ} {half : Bool} {g : ℝ → Gap} (he : Even tz (points tz half) h)
    (hg : ∀ K, calTransfac tz EM gap K half = .ok (g K)) (K : ℝ) :
    HasDerivAt (fun x => (g x).T) (g K).Tp K ∧ HasDerivAt (fun x => (g x).S) (g K).Sp K ∧
    (∀ x, (g x).Ecen = (g K).Ecen ∧ (g x).V0 = (g K).V0) := by
  choose h0 eml c h1 h2 h3 h4 h5 h6 h7 h8 h9 using fun x => calTransfac_even he (hg x)
  have hc : ∀ x, c x = c K := fun x => by rw [h3, h3 K, h1, h1 K]
  have hm : ∀ x, eml x = eml K := fun x => by rw [h1, h1 K]
  have one : ∀ k : ℕ, HasDerivAt (fun x : ℝ => x * (((k : ℝ) + 1 / 2) * h - c K)) (((k : ℝ) + 1 / 2) * h - c K) K := by
    intro k
    simpa using (hasDerivAt_id K).mul_const (((k : ℝ) + 1 / 2) * h - c K)
  have hT : HasDerivAt (fun x => if gap = 2 then -(g x).T else (g x).T) (if gap = 2 then -(g K).Tp else (g K).Tp) K := by
    have e : (fun x => if gap = 2 then -(g x).T else (g x).T) = fun x => (∑ k ∈ Finset.range (points tz half - 1),
        (EM.getD k 0 + EM.getD (k + 1) 0) / 2 * h * Real.cos (x * (((k : ℝ) + 1 / 2) * h - c K))) / eml K := by
      funext x
      rw [h6 x, hc x, hm x]
    rw [e, h8 K]
    refine HasDerivAt.div_const (HasDerivAt.fun_sum ?_) _
    intro k _
    refine HasDerivAt.const_mul _ ?_
    exact (one k).cos.congr_deriv (by ring)
  have hS : HasDerivAt (fun x => (g x).S) (g K).Sp K := by
    have e : (fun x => (g x).S) = fun x => (∑ k ∈ Finset.range (points tz half - 1),
        (EM.getD k 0 + EM.getD (k + 1) 0) / 2 * h * Real.sin (x * (((k : ℝ) + 1 / 2) * h - c K))) / eml K := by
      funext x
      rw [h7 x, hc x, hm x]
    rw [e, h9 K]
    refine HasDerivAt.div_const (HasDerivAt.fun_sum ?_) _
    intro k _
    refine HasDerivAt.const_mul _ ?_
    exact (one k).sin.congr_deriv (by ring)
  refine ⟨?_, hS, fun x => ⟨by rw [h4, h4 K, hc], by rw [h5, h5 K, hm]⟩⟩
  by_cases h2 : gap = 2
  · simp only [h2, if_true] at hT
    have := hT.fun_neg
    simpa only [neg_neg] using this
  · simpa only [h2, if_false] using hT

/-- C63: the second gap is the mirror image of the first with the field reversed. -/
theorem C63_mirror {tz EM : List ℝ} {K : ℝ} {half : Bool} {g : Gap} :
    calTransfac tz EM 1 K half = .ok g ↔
      calTransfac tz EM 2 K half = .ok ⟨tz.getD (tz.length - 1) 0 - g.Ecen, -g.T, -g.Tp, g.S, g.Sp, g.V0⟩ := by
  unfold calTransfac
  dsimp only
  rw [show (if half then tz.length / 2 else tz.length) = points tz half from rfl]
  generalize points tz half = n
  by_cases hn : n = 0
  · simp only [hn, if_true, reduceCtorEq]
  rw [if_neg hn, if_neg hn]
  split
  · simp only [reduceCtorEq]
  simp only [OfNat.one_ne_ofNat, if_false, if_true, Except.ok.injEq, Gap.mk.injEq, neg_inj, sub_right_inj]
  constructor
  · rintro rfl
    simp
  · intro h
    cases g
    rw [Gap.mk.injEq]
    exact h

theorem gap_voltage {T S u : ℝ} (h : T ^ 2 + S ^ 2 ≤ 1) : |T * Real.cos u - S * Real.sin u| ≤ 1 := by
  have hc := Real.sin_sq_add_cos_sq u
  generalize Real.cos u = c at *
  generalize Real.sin u = s at *
  rw [abs_le_one_iff_mul_self_le_one]
  nlinarith [sq_nonneg (T * s + S * c)]

/-- C63: the energy gain of the gap model is bounded by the voltage, and a particle with more energy than that passes. -/
theorem C63_gain {dis W0 Z Es fy0 k lam : ℝ} {g : Gap} (hg : g.T ^ 2 + g.S ^ 2 ≤ 1) :
    (∀ r, evalGapModel dis W0 Z Es fy0 k lam g = .ok r → |r.1 - W0| ≤ |Z * g.V0| * 1000000) ∧
    (0 < Es → Es < W0 - |Z * g.V0| * 1000000 → ∃ r, evalGapModel dis W0 Z Es fy0 k lam g = .ok r) := by
  have e : W0 + Z * g.V0 * g.T * Real.cos (fy0 + k * g.Ecen) * MeVtoeV -
      Z * g.V0 * g.S * Real.sin (fy0 + k * g.Ecen) * MeVtoeV =
      W0 + Z * g.V0 * (g.T * Real.cos (fy0 + k * g.Ecen) - g.S * Real.sin (fy0 + k * g.Ecen)) * 1000000 := by
    norm_num [MeVtoeV]; ring
  have b : |Z * g.V0 * (g.T * Real.cos (fy0 + k * g.Ecen) - g.S * Real.sin (fy0 + k * g.Ecen)) * 1000000| ≤
      |Z * g.V0| * 1000000 := by
    rw [abs_mul, abs_mul, abs_of_pos (by norm_num : (0 : ℝ) < 1000000)]
    have := mul_le_mul_of_nonneg_left (gap_voltage (u := fy0 + k * g.Ecen) hg) (abs_nonneg (Z * g.V0))
    rw [mul_one] at this
    gcongr
  unfold evalGapModel
  dsimp only
  rw [e]
  constructor
  · intro r h
    split at h
    · cases h
    cases h
    simpa using b
  · intro hE hW
    have hlow := (abs_le.mp b).1
    have h1 : Es < W0 + Z * g.V0 * (g.T * Real.cos (fy0 + k * g.Ecen) - g.S * Real.sin (fy0 + k * g.Ecen)) * 1000000 := by
      linarith
    have h2 := (one_lt_div hE).mpr h1
    unfold kin
    dsimp only
    rw [if_neg (by nlinarith)]
    exact ⟨_, rfl⟩

/-- A field map of nine points, 30 mm apart, with a field in its first half. -/
def exHalf : List ℝ × List ℝ := ([-120, -90, -60, -30, 0, 30, 60, 90, 120], [0, 3, 5, 1, 0, -1, -5, -3, 0])

theorem exHalf_even : Even exHalf.1 (points exHalf.1 true) 30 := by
  intro k hk
  have : k < 4 := hk
  interval_cases k <;> norm_num [exHalf]

theorem exHalf_ok (gap : Nat) (K : ℝ) : ∃ g, calTransfac exHalf.1 exHalf.2 gap K true = .ok g := by
  unfold calTransfac
  dsimp only
  rw [if_neg (by simp [exHalf]), if_neg]
  · exact ⟨_, rfl⟩
  · rw [intervals_eq]
    norm_num [exHalf, Finset.sum_range_succ]

/-- The hypotheses of the theorems above, for all wave numbers, and the amplitude. -/
example (gap : Nat) : ∃ g : ℝ → Gap, (∀ K, calTransfac exHalf.1 exHalf.2 gap K true = .ok (g K)) ∧
    Even exHalf.1 (points exHalf.1 true) 30 ∧ ∀ K, (g K).T ^ 2 + (g K).S ^ 2 ≤ 1 := by
  choose g hg using exHalf_ok gap
  exact ⟨g, hg, exHalf_even, fun K => (C63_disc (by norm_num) exHalf_even (hg K)).1⟩

theorem exHalf_V0 {gap : Nat} {K : ℝ} {g : Gap} (hg : calTransfac exHalf.1 exHalf.2 gap K true = .ok g) :
    g.V0 = 255 / 1000000000 := by
  obtain ⟨-, eml, c, h1, -, -, -, h5, -⟩ := calTransfac_even exHalf_even hg
  rw [h5, h1]
  norm_num [exHalf, points, Finset.sum_range_succ]

/-! ## C62 for a charge state, and examples -/

/-- C62: the matrix of a charge state behind a generic cavity, in the units of the beam: transverse areas shrink with the
momentum of the gap model, longitudinal areas are kept. -/
theorem C62_cavity {c : LCfg} {cav : Cav} {phiRef : ℝ} {p p' : Particle} {M : Mat} (hc : cav.cavi = 0)
    (hf : cav.fRF / p.SampleFreq ≠ 0) (h : initRFCav c cav phiRef p = .ok (p', M)) :
    ∃ W, Damp (Spec.momentum p.IonEs (p.IonEk + p.IonEs) / Spec.momentum p.IonEs W) M := by
  unfold initRFCav at h
  rw [hc] at h
  simp only [labelOf, lt_irrefl, if_false] at h
  split at h
  · cases h
  split at h
  · cases h
  split at h
  · cases h
  rename_i M0 hM
  cases h
  obtain ⟨a, t, -, -, hD⟩ := C62_generic hM
  refine ⟨t.W, ?_⟩
  split
  · exact jump_damp hf hD
  · exact hD

/-- An accelerating gap and a drift. -/
noncomputable def exAcc : Cav :=
  { exGap with lattice := [⟨"AccGap", 0, 1, [0, 0, 0, 0, 0, 0, 0, 0, 0, 1], [0, 0, 0, 0, 0, 0, 0, 0, 0, 0]⟩,
      ⟨"drift", 140, 0, [], []⟩] }

/-- It gives the particle 1 MeV. -/
example : ∃ M, getCavMatGeneric exAcc 1 1 1 0 1 = .ok M := by
  unfold getCavMatGeneric
  dsimp only
  unfold kin
  dsimp only
  rw [if_neg (by norm_num)]
  dsimp only
  rw [if_neg (by norm_num [exAcc, exGap])]
  rw [show exAcc.lattice = [⟨"AccGap", 0, 1, [0, 0, 0, 0, 0, 0, 0, 0, 0, 1], [0, 0, 0, 0, 0, 0, 0, 0, 0, 0]⟩,
      ⟨"drift", 140, 0, [], []⟩] from rfl]
  simp only [foldE, genStep, kin]
  rw [C44_fit, C44_fit, if_neg (by norm_num [Spec.polyDown, MeVtoeV])]
  exact ⟨_, rfl⟩

/-- Two gaps between drifts, with the field map above. -/
noncomputable def exTwo : Cav :=
  { exGap with
    lattice := [⟨"drift", 60, 0, [], []⟩, ⟨"AccGap", 0, 1, [], []⟩, ⟨"drift", 120, 0, [], []⟩, ⟨"AccGap", 0, 1, [], []⟩,
      ⟨"drift", 60, 0, [], []⟩]
    cavData := { cols := 2, rows := [[-120, 0], [-90, 3], [-60, 5], [-30, 1], [0, 0], [30, -1], [60, -5], [90, -3], [120, 0]] }
    cavi := 1, forcettfcalc := true }

theorem exTwo_facts (gap : Nat) (b k : ℝ) : ∃ g, transFacts exTwo.forcettfcalc exTwo.cavData 41 b k gap 1 = .ok g ∧
    g.T ^ 2 + g.S ^ 2 ≤ 1 ∧ g.V0 = 255 / 1000000000 := by
  obtain ⟨g, hg⟩ := exHalf_ok gap k
  refine ⟨{ g with V0 := g.V0 * 1 }, ?_, (C63_disc (by norm_num) exHalf_even hg).1, by rw [mul_one]; exact exHalf_V0 hg⟩
  unfold transFacts
  have : tableFactors exTwo.cavData 2 gap k true = .ok g := by
    unfold tableFactors column
    rw [if_neg (by simp [exTwo])]
    simpa [exTwo, exHalf] using hg
  simp only [this, show exTwo.forcettfcalc = true from rfl, if_true]

/-- The matrix of this cavity. -/
theorem exTwo_matrix : ∃ M, getCavMat exTwo 41 17 1 1 1 0 1 = .ok M ∧
    gapsAt ((exTwo.cavData.rows.map (·.getD 0 0)).headD 0) exTwo.lattice = [-60, 60] := by
  have hk : ∃ a, kin 1 (1 + 1) (C0 / exTwo.fRF * MtoMM) = .ok a := by
    unfold kin
    dsimp only
    rw [if_neg (by norm_num)]
    exact ⟨_, rfl⟩
  obtain ⟨a, ha⟩ := hk
  obtain ⟨g1, h1, h2, h3⟩ := exTwo_facts 1 a.beta a.k
  obtain ⟨f1, f2⟩ := C63_gain (dis := extent exTwo.cavData / 2) (W0 := 1 + 1) (Z := 1) (Es := 1) (fy0 := 0) (k := a.k)
    (lam := C0 / exTwo.fRF * MtoMM) h2
  rw [h3] at f1 f2
  obtain ⟨⟨W1, b, fy1⟩, hr1⟩ := f2 (by norm_num) (by norm_num [abs_of_pos])
  have hW1 := (abs_le.mp (f1 _ hr1)).1
  dsimp only at hW1
  rw [abs_of_pos (by norm_num)] at hW1
  obtain ⟨g2, h4, h5, h6⟩ := exTwo_facts 2 b.beta b.k
  obtain ⟨-, f4⟩ := C63_gain (dis := extent exTwo.cavData / 2) (W0 := W1) (Z := 1) (Es := 1) (fy0 := fy1) (k := b.k)
    (lam := C0 / exTwo.fRF * MtoMM) h5
  rw [h6, abs_of_pos (by norm_num)] at f4
  obtain ⟨⟨W2, c, fy2⟩, hr2⟩ := f4 (by norm_num) (by linarith)
  unfold getCavMat
  dsimp only
  rw [ha]
  dsimp only
  rw [h1]
  dsimp only
  rw [hr1]
  dsimp only
  rw [h4]
  dsimp only
  rw [hr2]
  dsimp only
  have hl : exTwo.lattice = [⟨"drift", 60, 0, [], []⟩, ⟨"AccGap", 0, 1, [], []⟩, ⟨"drift", 120, 0, [], []⟩,
    ⟨"AccGap", 0, 1, [], []⟩, ⟨"drift", 60, 0, [], []⟩] := rfl
  unfold getCavMatParams
  rw [hl, if_neg (by simp)]
  simp only [linesFrom, lineOf, foldE, transStep, zero_add, List.getElem?_cons_succ, List.getElem?_cons_zero]
  refine ⟨_, rfl, ?_⟩
  simp only [gapsAt, show ("drift" = "AccGap") = False from eq_false (by decide), if_true, if_false]
  norm_num [exTwo]

end Flame.Cavity
