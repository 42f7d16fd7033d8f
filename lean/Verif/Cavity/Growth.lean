import Verif.Cavity.Beam
import Verif.Cavity.SpecGrowth
import Mathlib.Analysis.SpecialFunctions.Integrals.Basic

/-!
# The growth of the emittance in a cavity: C68

`calRFcaviEmitGrowth` takes the bunch to have a certain profile; its formulas are the mean and the variance of the kick over
it.
-/

namespace Flame.Cavity

open Flame.Mach (Cls St Err CView Machine propagate sizeMod)
open Flame.Linear (LVal LCfg getNum getNumD getVec)
open Flame.Moment Flame.Moment.Spec
open Spec (bunchMean bunchVar kickSpread Stretched defocus gapVoltage)

/-! ## means over the bunch -/

theorem bunchMean_add {f g : ℝ → ℝ} (hf : Continuous f) (hg : Continuous g) :
    bunchMean (fun x => f x + g x) = bunchMean f + bunchMean g := by
  unfold bunchMean
  rw [← mul_add, ← intervalIntegral.integral_add]
  · congr 2
    funext x
    ring
  · exact Continuous.intervalIntegrable (by fun_prop) _ _
  · exact Continuous.intervalIntegrable (by fun_prop) _ _

theorem bunchMean_mul (c : ℝ) (f : ℝ → ℝ) : bunchMean (fun x => c * f x) = c * bunchMean f := by
  unfold bunchMean
  have : ∫ x in (-1 : ℝ)..1, (1 - x ^ 2) ^ 2 * (c * f x) = c * ∫ x in (-1 : ℝ)..1, (1 - x ^ 2) ^ 2 * f x := by
    rw [← intervalIntegral.integral_const_mul]
    congr 1
    funext x
    ring
  rw [this]
  ring

theorem bunchMean_const (c : ℝ) : bunchMean (fun _ => c) = c := by
  unfold bunchMean
  have : ∫ x in (-1 : ℝ)..1, (1 - x ^ 2) ^ 2 * c = 16 / 15 * c := by
    have h := intervalIntegral.integral_eq_sub_of_hasDerivAt (a := -1) (b := 1)
      (f := fun x : ℝ => (x - 2 / 3 * x ^ 3 + 1 / 5 * x ^ 5) * c) (f' := fun x => (1 - x ^ 2) ^ 2 * c)
      (fun x _ => by
        have := ((((hasDerivAt_id x).sub ((hasDerivAt_pow 3 x).const_mul (2 / 3))).add
          ((hasDerivAt_pow 5 x).const_mul (1 / 5))).mul_const c)
        exact this.congr_deriv (by push_cast; ring))
      (Continuous.intervalIntegrable (by fun_prop) _ _)
    rw [h]
    ring
  rw [this]
  ring

/-- The mean of `cos` over a bunch is the formula of the code. -/
theorem bunchMean_cos {u : ℝ} (hu : u ≠ 0) : bunchMean (fun x => Real.cos (u * x)) = phaseForm u := by
  unfold bunchMean phaseForm
  have h := intervalIntegral.integral_eq_sub_of_hasDerivAt (a := -1) (b := 1)
    (f := fun x : ℝ => ((1 - x ^ 2) ^ 2 / u - (12 * x ^ 2 - 4) / u ^ 3 + 24 / u ^ 5) * Real.sin (u * x) +
      (-4 * x * (1 - x ^ 2) / u ^ 2 - 24 * x / u ^ 4) * Real.cos (u * x))
    (f' := fun x => (1 - x ^ 2) ^ 2 * Real.cos (u * x))
    (fun x _ => by
      have hux : HasDerivAt (fun x : ℝ => u * x) u x := by simpa using (hasDerivAt_id x).const_mul u
      have hx2 := hasDerivAt_pow 2 x
      have hp : HasDerivAt (fun x : ℝ => (1 - x ^ 2) ^ 2 / u - (12 * x ^ 2 - 4) / u ^ 3 + 24 / u ^ 5)
          (2 * (1 - x ^ 2) * (-(2 * x)) / u - 12 * (2 * x) / u ^ 3) x := by
        have := (((hx2.const_sub 1).pow 2).div_const u).sub (((hx2.const_mul 12).sub_const 4).div_const (u ^ 3)) |>.add_const (24 / u ^ 5)
        exact this.congr_deriv (by push_cast; ring)
      have hq : HasDerivAt (fun x : ℝ => -4 * x * (1 - x ^ 2) / u ^ 2 - 24 * x / u ^ 4)
          ((-4 * (1 - x ^ 2) + -4 * x * (-(2 * x))) / u ^ 2 - 24 / u ^ 4) x := by
        have := ((((hasDerivAt_id x).const_mul (-4)).mul (hx2.const_sub 1)).div_const (u ^ 2)).sub
          (((hasDerivAt_id x).const_mul 24).div_const (u ^ 4))
        refine this.congr_deriv ?_
        simp only [id]
        push_cast
        ring
      have := (hp.mul hux.sin).add (hq.mul hux.cos)
      refine this.congr_deriv ?_
      field_simp
      ring)
    (Continuous.intervalIntegrable (by fun_prop) _ _)
  rw [h]
  simp only [mul_one, mul_neg, Real.sin_neg, Real.cos_neg]
  field_simp
  ring

theorem bunchMean_sin (u : ℝ) : bunchMean (fun x => Real.sin (u * x)) = 0 := by
  unfold bunchMean
  have h := intervalIntegral.integral_comp_neg (a := -1) (b := 1) (fun x : ℝ => (1 - x ^ 2) ^ 2 * Real.sin (u * x))
  simp only [mul_neg, Real.sin_neg, neg_neg, even_two, Even.neg_pow, intervalIntegral.integral_neg] at h
  have : ∫ x in (-1 : ℝ)..1, (1 - x ^ 2) ^ 2 * Real.sin (u * x) = 0 := by linarith
  rw [this, mul_zero]

/-- The mean kick. -/
theorem bunchMean_kick (φ : ℝ) {D : ℝ} (hD : D ≠ 0) :
    bunchMean (fun x => Real.sin (φ + D * x)) = Real.sin φ * phaseForm D := by
  have e : (fun x => Real.sin (φ + D * x)) = fun x => Real.sin φ * Real.cos (D * x) + Real.cos φ * Real.sin (D * x) := by
    funext x
    rw [Real.sin_add]
  rw [e, bunchMean_add (by fun_prop) (by fun_prop), bunchMean_mul, bunchMean_mul, bunchMean_cos hD, bunchMean_sin]
  ring

/-- The mean square of the kick. -/
theorem bunchMean_kick2 (φ : ℝ) {D : ℝ} (hD : D ≠ 0) : bunchMean (fun x => Real.sin (φ + D * x) ^ 2) =
    0.5 * (1 + (Real.sin φ * Real.sin φ - Real.cos φ * Real.cos φ) * phaseForm (2 * D)) := by
  have e : (fun x => Real.sin (φ + D * x) ^ 2) = fun x => 1 / 2 + ((-1 / 2 * Real.cos (2 * φ)) * Real.cos (2 * D * x) +
      (1 / 2 * Real.sin (2 * φ)) * Real.sin (2 * D * x)) := by
    funext x
    have h := Real.cos_two_mul (φ + D * x)
    have h2 := Real.sin_sq_add_cos_sq (φ + D * x)
    have h3 : Real.cos (2 * (φ + D * x)) = Real.cos (2 * φ) * Real.cos (2 * D * x) - Real.sin (2 * φ) * Real.sin (2 * D * x) := by
      rw [← Real.cos_add]
      congr 1
      ring
    rw [h3] at h
    linarith
  rw [e, bunchMean_add (by fun_prop) (by fun_prop), bunchMean_add (by fun_prop) (by fun_prop), bunchMean_mul, bunchMean_mul,
    bunchMean_cos (mul_ne_zero two_ne_zero hD), bunchMean_sin, bunchMean_const, Real.cos_two_mul']
  ring

theorem bunchVar_eq {h : ℝ → ℝ} (hc : Continuous h) : bunchVar h = bunchMean (fun x => h x ^ 2) - bunchMean h ^ 2 := by
  unfold bunchVar
  generalize hm : bunchMean h = m
  have e : (fun x => (h x - m) ^ 2) = fun x => h x ^ 2 + ((-2 * m) * h x + m ^ 2) := by
    funext x
    ring
  rw [e, bunchMean_add (by fun_prop) (by fun_prop), bunchMean_add (by fun_prop) (by fun_prop), bunchMean_mul, bunchMean_const, hm]
  ring

theorem bunchVar_nonneg (h : ℝ → ℝ) : 0 ≤ bunchVar h := by
  unfold bunchVar bunchMean
  refine mul_nonneg (by norm_num) (intervalIntegral.integral_nonneg (by norm_num) fun x _ => ?_)
  positivity

theorem kickSpread_nonneg (k φ D : ℝ) {x2 : ℝ} (h : 0 ≤ x2) : 0 ≤ kickSpread k φ D x2 := by
  unfold kickSpread
  have := bunchVar_nonneg (fun x => Real.sin (φ + D * x))
  positivity

/-- The code computes the spread of the kicks. -/
theorem angleGrowth_eq (cav : Cav) (kp x2 cx : ℝ) {v : ℝ} (hv : 0 < v) :
    angleGrowth cav kp v x2 cx = some (kickSpread kp cav.ionFys (Real.sqrt v) (x2 + cx ^ 2)) := by
  have hD : Real.sqrt v ≠ 0 := (Real.sqrt_pos.2 hv).ne'
  unfold angleGrowth kickSpread
  dsimp only
  rw [if_pos hv, bunchVar_eq (by fun_prop), bunchMean_kick _ hD, bunchMean_kick2 _ hD]
  congr 1
  ring

/-! ## the factors -/

theorem increase_pos {d : Option ℝ} {old a : ℝ} (h : increase d old = some a) : 0 < a := by
  unfold increase at h
  split at h
  · cases h; exact one_pos
  · split at h
    · split at h
      · cases h
        rename_i h1 h2
        exact Real.sqrt_pos.2 (div_pos h1 h2)
      · cases h
    · cases h; exact one_pos

theorem increase_sq {d old a : ℝ} (hd : 0 ≤ d) (ho : 0 ≤ old) (h : increase (some d) old = some a) :
    a ^ 2 * old = old + d ∧ 1 ≤ a := by
  simp only [increase] at h
  split at h
  · split at h
    · cases h
      rename_i h1 h2
      rw [Real.sq_sqrt (by positivity), div_mul_cancel₀ _ h2.ne']
      refine ⟨add_comm _ _, ?_⟩
      rw [Real.one_le_sqrt, one_le_div h2]
      linarith
    · cases h
  · rename_i h1
    cases h
    have : d = 0 ∧ old = 0 := by constructor <;> linarith
    simp [this.1, this.2]

theorem bunchVar_const (c : ℝ) : bunchVar (fun _ => c) = 0 := by
  unfold bunchVar
  simp [bunchMean_const]

theorem increase_angle {cav : Cav} {kp v x2 cx old a : ℝ} (hv : 0 ≤ v) (ho : 0 ≤ old) (hx : 0 ≤ x2)
    (h : increase (angleGrowth cav kp v x2 cx) old = some a) :
    a ^ 2 * old = old + kickSpread kp cav.ionFys (Real.sqrt v) (x2 + cx ^ 2) ∧ 1 ≤ a := by
  rcases hv.lt_or_eq with hv | rfl
  · rw [angleGrowth_eq _ _ _ _ hv] at h
    exact increase_sq (kickSpread_nonneg _ _ _ (by positivity)) ho h
  · have e : angleGrowth cav kp 0 x2 cx = none := by simp [angleGrowth]
    rw [e] at h
    cases h
    simp [kickSpread, bunchVar_const]

theorem kickSpread_sq {k k' : ℝ} (φ D x2 : ℝ) (h : k ^ 2 = k' ^ 2) : kickSpread k φ D x2 = kickSpread k' φ D x2 := by
  unfold kickSpread
  rw [h]

theorem kickPer_sq (cav : Cav) (ref pin pout : Particle) (b g : ℝ) : kickPer cav ref pin pout b g ^ 2 =
    defocus ref.IonZ ref.IonEs (gapVoltage cav.ionFys ref.IonZ (pout.IonW - pin.IonW))
      ((pout.beta + pin.beta) / 2 * ((pout.gamma + pin.gamma) / 2)) (b * g) (299792458 / cav.fRF * 1000) ^ 2 := by
  have e : (-0.0001 < Real.cos cav.ionFys ∧ Real.cos cav.ionFys < 0.0001) ↔ |Real.cos cav.ionFys| < 1 / 10000 := by
    rw [abs_lt]
    norm_num
  unfold kickPer defocus gapVoltage
  simp only [e, C0, MtoMM]
  generalize (pout.beta + pin.beta) / 2 = ab
  generalize (pout.gamma + pin.gamma) / 2 = ag
  generalize pout.IonW - pin.IonW = dW
  split <;> simp only [div_eq_mul_inv, mul_inv] <;> ring

theorem emitFactors_ok {cav : Cav} {ref pin pout : Particle} {bf gf x2 cx y2 cy : ℝ} {M : Mat} {a b c : ℝ}
    (h : emitFactors cav ref pin pout bf gf x2 cx y2 cy M = some (a, b, c)) :
    increase (angleGrowth cav (kickPer cav ref pin pout bf gf) (M 4 4) x2 cx) (M 1 1) = some a ∧
    increase (angleGrowth cav (kickPer cav ref pin pout bf gf) (M 4 4) y2 cy) (M 3 3) = some b ∧
    increase (energyGrowth cav (kickPer cav ref pin pout bf gf) ((pout.beta + pin.beta) / 2) ((pout.gamma + pin.gamma) / 2)
      (M 4 4)) (M 5 5 * ((1 / ((pout.gamma + pin.gamma) / 2 - 1) / ref.IonEs * MeVtoeV) *
        (1 / ((pout.gamma + pin.gamma) / 2 - 1) / ref.IonEs * MeVtoeV))) = some c := by
  unfold emitFactors at h
  dsimp only at h
  split at h
  · cases h
  · split at h
    · rename_i h1 h2 h3
      cases h
      exact ⟨h1, h2, h3⟩
    · cases h

theorem emitGrowth_stretched {cav : Cav} {ref pin pout : Particle} {bf gf x2 cx y2 cy : ℝ} {M : Mat} {a b c : ℝ}
    (h : emitFactors cav ref pin pout bf gf x2 cx y2 cy M = some (a, b, c)) :
    Stretched ![1, a, 1, b, 1, c, 1] M (emitGrowth cav ref pin pout bf gf x2 cx y2 cy M) := by
  unfold emitGrowth
  rw [h]
  intro i j
  simp only [List.finRange_succ, List.finRange_zero, List.map_cons, List.map_nil, List.foldl_cons, List.foldl_nil]
  fin_cases i <;> fin_cases j <;> simp [setAt] <;> ring

/-- What the growth of the emittance does to the covariance of a charge state: the angles and the energy are stretched; the
mean squares of the angles grow by the spread of the deflections over the bunch, so they never shrink; the energy spread
does not shrink as long as `72 cos² φ + D sin φ` is not negative, `D` being the spread of the phases. -/
theorem C68_growth_partial {cav : Cav} {ref pin pout : Particle} {bf gf x2 cx y2 cy : ℝ} {M : Mat} {a b c : ℝ}
    (h : emitFactors cav ref pin pout bf gf x2 cx y2 cy M = some (a, b, c)) (h1 : 0 ≤ M 1 1) (h3 : 0 ≤ M 3 3)
    (h4 : 0 ≤ M 4 4) (h5 : 0 ≤ M 5 5) (hx : 0 ≤ x2) (hy : 0 ≤ y2) :
    Stretched ![1, a, 1, b, 1, c, 1] M (emitGrowth cav ref pin pout bf gf x2 cx y2 cy M) ∧
    (∃ k, k = defocus ref.IonZ ref.IonEs (gapVoltage cav.ionFys ref.IonZ (pout.IonW - pin.IonW))
        ((pout.beta + pin.beta) / 2 * ((pout.gamma + pin.gamma) / 2)) (bf * gf) (299792458 / cav.fRF * 1000) ∧
      emitGrowth cav ref pin pout bf gf x2 cx y2 cy M 1 1 =
        M 1 1 + kickSpread k cav.ionFys (Real.sqrt (M 4 4)) (x2 + cx ^ 2) ∧
      emitGrowth cav ref pin pout bf gf x2 cx y2 cy M 3 3 =
        M 3 3 + kickSpread k cav.ionFys (Real.sqrt (M 4 4)) (y2 + cy ^ 2)) ∧
    1 ≤ a ∧ 1 ≤ b ∧ 0 < c ∧
    (0 ≤ 72 * Real.cos cav.ionFys ^ 2 + Real.sqrt (M 4 4) * Real.sin cav.ionFys → 1 ≤ c) := by
  obtain ⟨ha, hb, hc⟩ := emitFactors_ok h
  have hS := emitGrowth_stretched h
  obtain ⟨a1, a2⟩ := increase_angle h4 h1 hx ha
  obtain ⟨b1, b2⟩ := increase_angle h4 h3 hy hb
  refine ⟨hS, ⟨_, rfl, ?_, ?_⟩, a2, b2, increase_pos hc, fun hpos => ?_⟩
  · rw [hS 1 1, kickSpread_sq _ _ _ (kickPer_sq cav ref pin pout bf gf).symm, ← a1, sq]
    rfl
  · rw [hS 3 3, kickSpread_sq _ _ _ (kickPer_sq cav ref pin pout bf gf).symm, ← b1, sq]
    rfl
  · unfold energyGrowth at hc
    dsimp only at hc
    rw [if_pos h4] at hc
    refine (increase_sq ?_ (mul_nonneg h5 (mul_self_nonneg _)) hc).2
    have e : Real.cos cav.ionFys * Real.cos cav.ionFys / 8 + Real.sqrt (M 4 4) * Real.sin cav.ionFys / 576 =
        (72 * Real.cos cav.ionFys ^ 2 + Real.sqrt (M 4 4) * Real.sin cav.ionFys) / 576 := by ring
    rw [e]
    refine mul_nonneg (mul_nonneg (mul_self_nonneg _) (div_nonneg (mul_self_nonneg _) (mul_self_nonneg _))) (by linarith)

theorem energyGrowth_neg {cav : Cav} {kp ab ag v : ℝ} (hv : 0 < v) (hk : kp ≠ 0) (hb : 0 < ab) (hg : 0 < ag) (hf : 0 < cav.fRF)
    (hneg : 72 * Real.cos cav.ionFys ^ 2 + Real.sqrt v * Real.sin cav.ionFys < 0) :
    ∃ d, d < 0 ∧ energyGrowth cav kp ab ag v = some d := by
  unfold energyGrowth
  dsimp only
  rw [if_pos hv.le]
  refine ⟨_, ?_, rfl⟩
  have e : Real.cos cav.ionFys * Real.cos cav.ionFys / 8 + Real.sqrt v * Real.sin cav.ionFys / 576 =
      (72 * Real.cos cav.ionFys ^ 2 + Real.sqrt v * Real.sin cav.ionFys) / 576 := by ring
  rw [e]
  have hD := Real.sqrt_pos.2 hv
  have hl : 0 < C0 / cav.fRF * MtoMM := by
    have : (0 : ℝ) < C0 := by norm_num [C0]
    have : (0 : ℝ) < MtoMM := by norm_num [MtoMM]
    positivity
  have hpi := Real.pi_pos
  refine mul_neg_of_pos_of_neg (mul_pos ?_ ?_) (by linarith)
  · have h : -2 * kp * (ag * ag) * Real.sqrt v ≠ 0 := by
      have := hg.ne'
      have := hD.ne'
      simp_all
    exact mul_self_pos.2 h
  · positivity

/-- The growth of the emittance may reduce the energy spread of the beam: a bunching phase close to -90 degrees. -/
theorem C68_energy_false : ∃ (cav : Cav) (ref pin pout : Particle) (M : Mat) (a b c : ℝ), Moving pin ∧ Moving pout ∧
    Covariance M ∧ 0 < M 1 1 ∧ 0 < M 3 3 ∧ 0 < M 4 4 ∧ 0 < M 5 5 ∧
    emitFactors cav ref pin pout pout.beta pout.gamma (M 0 0) 0 (M 2 2) 0 M = some (a, b, c) ∧
    emitGrowth cav ref pin pout pout.beta pout.gamma (M 0 0) 0 (M 2 2) 0 M 5 5 < M 5 5 := by
  let cav : Cav := { exGap with emitGrowth := 1, ionFys := -Real.arccos (1 / 100) }
  let pin := exParticle.recalc
  let pout := ({ exParticle with IonEk := 2 } : Particle).recalc
  have hin : Moving pin := exParticle_moving
  have hout : Moving pout := ⟨recalc_idem _, by norm_num [pout, exParticle, Particle.recalc],
    by norm_num [pout, exParticle, Particle.recalc]⟩
  have hcos : Real.cos cav.ionFys = 1 / 100 := by
    show Real.cos (-Real.arccos (1 / 100)) = _
    rw [Real.cos_neg, Real.cos_arccos (by norm_num) (by norm_num)]
  have hsin : Real.sin cav.ionFys < -(9 / 10) := by
    show Real.sin (-Real.arccos (1 / 100)) < _
    rw [Real.sin_neg, Real.sin_arccos, neg_lt_neg_iff]
    refine Real.lt_sqrt_of_sq_lt ?_
    norm_num
  have g1 : pin.gamma = 2 := by norm_num [pin, exParticle, Particle.recalc]
  have g2 : pout.gamma = 3 := by norm_num [pout, exParticle, Particle.recalc]
  have b1 := hin.beta_pos
  have b2 := hout.beta_pos
  have hf : 0 < cav.fRF := by norm_num [cav, exGap]
  have hk : kickPer cav pin pin pout pout.beta pout.gamma ≠ 0 := by
    have hW : pout.IonW - pin.IonW = 1 := by norm_num [pin, pout, exParticle, Particle.recalc]
    have hE : pin.IonEs = 1 := rfl
    have hZ : pin.IonZ = 1 := rfl
    have hpi := Real.pi_pos
    have hC : (0 : ℝ) < C0 := by norm_num [C0]
    have hM : (0 : ℝ) < MtoMM := by norm_num [MtoMM]
    unfold kickPer
    simp only [hcos, hW, hE, hZ, g1, g2]
    rw [if_neg (by norm_num)]
    have : (0 : ℝ) < Real.pi * |1| * (1 / (1 / 100) / 1) / 1 /
        ((pout.beta + pin.beta) / 2 * ((3 + 2) / 2) * ((pout.beta + pin.beta) / 2 * ((3 + 2) / 2))) / pout.beta / 3 /
        (C0 / cav.fRF * MtoMM) := by
      rw [abs_one]
      positivity
    intro h
    refine this.ne' ?_
    rw [← neg_eq_zero, ← h]
    ring
  obtain ⟨d, hd, hE⟩ := energyGrowth_neg (cav := cav) (v := 1) (ab := (pout.beta + pin.beta) / 2)
    (ag := (pout.gamma + pin.gamma) / 2) one_pos hk (by positivity) (by rw [g1, g2]; norm_num) hf (by
      rw [hcos, Real.sqrt_one]
      linarith)
  set lt := 1 / ((pout.gamma + pin.gamma) / 2 - 1) / pin.IonEs * MeVtoeV with hlt
  have hl : 0 < lt := by
    rw [hlt, g1, g2, show pin.IonEs = 1 from rfl]
    norm_num [MeVtoeV]
  set m := -2 * d / (lt * lt) with hm
  have hm0 : 0 < m := div_pos (by linarith) (by positivity)
  let M : Mat := Matrix.diagonal ![1, 1, 1, 1, 1, m, 0]
  have e1 : M 1 1 = 1 := rfl
  have e3 : M 3 3 = 1 := rfl
  have e4 : M 4 4 = 1 := rfl
  have e5 : M 5 5 = m := rfl
  have hx := angleGrowth_eq cav (kickPer cav pin pin pout pout.beta pout.gamma) 1 0 one_pos
  have hs := kickSpread_nonneg (kickPer cav pin pin pout pout.beta pout.gamma) cav.ionFys (Real.sqrt 1)
    (x2 := 1 + 0 ^ 2) (by norm_num)
  have hi : increase (angleGrowth cav (kickPer cav pin pin pout pout.beta pout.gamma) 1 1 0) 1 =
      some (Real.sqrt ((kickSpread (kickPer cav pin pin pout pout.beta pout.gamma) cav.ionFys (Real.sqrt 1) (1 + 0 ^ 2) + 1) / 1)) := by
    rw [hx]
    simp only [increase]
    rw [if_pos (by linarith), if_pos one_pos]
  have hj : increase (energyGrowth cav (kickPer cav pin pin pout pout.beta pout.gamma) ((pout.beta + pin.beta) / 2)
      ((pout.gamma + pin.gamma) / 2) 1) (m * (lt * lt)) = some (Real.sqrt (1 / 2)) := by
    have hmm : m * (lt * lt) = -2 * d := by
      rw [hm, div_mul_cancel₀ _ (by positivity)]
    rw [hE]
    simp only [increase]
    rw [hmm, if_pos (by linarith), if_pos (by linarith)]
    congr 2
    have hd0 := hd.ne
    field_simp
    ring
  have hF : emitFactors cav pin pin pout pout.beta pout.gamma (M 0 0) 0 (M 2 2) 0 M = some
      (Real.sqrt ((kickSpread (kickPer cav pin pin pout pout.beta pout.gamma) cav.ionFys (Real.sqrt 1) (1 + 0 ^ 2) + 1) / 1),
       Real.sqrt ((kickSpread (kickPer cav pin pin pout pout.beta pout.gamma) cav.ionFys (Real.sqrt 1) (1 + 0 ^ 2) + 1) / 1),
       Real.sqrt (1 / 2)) := by
    unfold emitFactors
    dsimp only
    rw [if_neg, e1, e3, e4, e5, show M 0 0 = 1 from rfl, show M 2 2 = 1 from rfl, hi, ← hlt, hj]
    simp only [not_or]
    rw [g1, g2, show pin.IonEs = 1 from rfl, show pin.IonZ = 1 from rfl]
    refine ⟨hf.ne', by norm_num, by norm_num, by positivity, by norm_num, b2.ne', by norm_num, by norm_num⟩
  refine ⟨cav, pin, pin, pout, M, _, _, _, hin, hout, ⟨?_, ?_⟩, one_pos, one_pos, one_pos, hm0, hF, ?_⟩
  · exact Matrix.diagonal_transpose _
  · intro x
    simp only [M, Fin.sum_univ_seven, Matrix.diagonal]
    simp
    have := hm0.le
    have : 0 ≤ x 5 * m * x 5 := by
      have := mul_self_nonneg (x 5)
      nlinarith
    nlinarith [mul_self_nonneg (x 0), mul_self_nonneg (x 1), mul_self_nonneg (x 2), mul_self_nonneg (x 3), mul_self_nonneg (x 4)]
  · rw [emitGrowth_stretched hF 5 5]
    show Real.sqrt (1 / 2) * Real.sqrt (1 / 2) * m < m
    rw [Real.mul_self_sqrt (by norm_num)]
    linarith

end Flame.Cavity
