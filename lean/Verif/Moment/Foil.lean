import Verif.Moment.Strip
import Mathlib.Probability.Distributions.Gaussian.Real

/-!
# Charges behind a foil: C80

The charge model "baron" of the stripper, which is the default.
-/

namespace Flame.Moment

open Spec
open Baron (lost charge spread)
open Flame.Mach (St Err)
open Flame.Linear (LVal LCfg)
open ProbabilityTheory (gaussianPDFReal)

theorem gaussian_pdf {x m v : ℝ} (hv : 0 < v) : gaussian x m (Real.sqrt v) = gaussianPDFReal m v.toNNReal x := by
  have h2 : Real.sqrt v * Real.sqrt v = v := Real.mul_self_sqrt hv.le
  rw [gaussian, gaussianPDFReal, Real.coe_toNNReal _ hv.le, h2]
  congr 1
  · rw [Real.sqrt_mul (x := 2 * Real.pi) (by positivity), mul_inv, one_div, div_eq_mul_inv]
  · congr 1
    field_simp

/-- C80: with the model "baron" a stripper that comes to an end gives every charge state the density of the normal
distribution with the mean and the variance of the formula, at the velocity of the first charge state in front of it. -/
theorem C80_weights {d d' : MDat} {s s' : St MSt} (hb : textOr d.conf "charge_model" "baron" = "baron")
    (h : advanceStripper d s = (d', s', none)) :
    let Z := numOr d.conf "Stripper_IonProton" 92
    let A := numOr d.conf "Stripper_IonMass" 238
    ∃ chg p, d.conf "IonChargeStates" = some (.vec chg) ∧ s.payload.real.head? = some p ∧
      0 < Z ∧ 0 < p.recalc.beta ∧ 0 < spread Z p.recalc.beta ∧
      s'.payload.real.map (·.IonZ) = chg ∧
      s'.payload.real.map (·.IonQ) =
        chg.map (fun z => gaussianPDFReal (charge Z p.recalc.beta) (spread Z p.recalc.beta).toNNReal (z * A)) := by
  intro Z A
  obtain ⟨-, -, -, -, h⟩ := advanceStripper_ok h
  obtain ⟨chg, n, w, h1, h2, e, hw, ⟨ho, -⟩ | ⟨-, p, hp, rfl, hZ, hr⟩⟩ := stripperGetMat_ok h
  · rw [hb] at ho
    exact absurd ho (by decide)
  · cases hreal : s.payload.real with
    | nil => simp [MSt.calcRms, MSt.recalc, hreal] at hp
    | cons q qs =>
      simp only [MSt.calcRms, MSt.recalc, hreal, List.map_cons, List.head?_cons, Option.some.injEq] at hp
      subst hp
      have hr' := hr
      rw [radicand_eq hZ] at hr'
      have hbeta : 0 ≤ q.recalc.beta := Real.sqrt_nonneg _
      refine ⟨chg, q, h1, rfl, hZ, ((spread_pos hZ hbeta).mp hr').1, hr', ?_, ?_⟩
      · rw [e]
        have := zipWith_fst (strippedParticle (stripRef (foilOf d.conf) s.payload.recalc.calcRms.ref)
          (foilEk (foilOf d.conf) (recombined s.payload.recalc.calcRms.real (·.IonEk)))
          (recombined s.payload.recalc.calcRms.real (·.phis))) (·.IonZ) id (fun _ _ => rfl) chg
          (chargeStripper (foilOf d.conf) q.recalc.beta chg) hw
        rw [List.map_id] at this
        exact this
      · rw [e, stripped_ionQ _ _ hw]
        unfold chargeStripper
        apply List.map_congr_left
        intro z _
        have hsd : (stripperCharge (foilOf d.conf) q.recalc.beta).2 = Real.sqrt (spread (foilOf d.conf).IonProton q.recalc.beta) := by
          rw [← radicand_eq hZ]
          rfl
        rw [hsd, charge_eq, gaussian_pdf hr']
        rfl

/-- C80: the closer a charge is to the mean, the larger its weight; all weights are positive. -/
theorem C80_order {m v x y : ℝ} (hv : 0 < v) :
    0 < gaussianPDFReal m v.toNNReal x ∧
    (gaussianPDFReal m v.toNNReal x < gaussianPDFReal m v.toNNReal y ↔ |y - m| < |x - m|) := by
  have hN : 0 < v.toNNReal := Real.toNNReal_pos.mpr hv
  refine ⟨ProbabilityTheory.gaussianPDFReal_pos _ _ _ hN.ne', ?_⟩
  have hpos : 0 < (Real.sqrt (2 * Real.pi * v))⁻¹ := by
    have := Real.pi_pos
    positivity
  rw [gaussianPDFReal, gaussianPDFReal, Real.coe_toNNReal _ hv.le, mul_lt_mul_iff_right₀ hpos, Real.exp_lt_exp, ← sq_lt_sq,
    div_lt_div_iff_of_pos_right (by positivity), neg_lt_neg_iff]

/-- C80: the mean charge lies between zero and the number of protons and increases with the velocity. -/
theorem C80_mean {Z b : ℝ} (hZ : 0 < Z) (hb : 0 < b) : 0 < charge Z b ∧ charge Z b < Z ∧
    ∀ b', b < b' → charge Z b < charge Z b' := by
  have h1 := (lost_pos (b := b) hZ).mpr hb
  have h2 := lost_lt Z b
  have h3 : Real.exp (-12.905 + 0.2124 * Z - 0.00122 * Z ^ 2) < 1 := by
    rw [Real.exp_lt_one_iff]
    norm_num
    nlinarith [sq_nonneg (Z - 87)]
  have h4 := Real.exp_pos (-12.905 + 0.2124 * Z - 0.00122 * Z ^ 2)
  unfold charge
  generalize Real.exp (-12.905 + 0.2124 * Z - 0.00122 * Z ^ 2) = c at *
  have hc : 0 < 1 - c := by linarith
  refine ⟨by positivity, ?_, fun b' hb' => ?_⟩
  · have : lost Z b * (1 - c) < 1 := by nlinarith
    calc Z * lost Z b * (1 - c) = Z * (lost Z b * (1 - c)) := by ring
      _ < Z * 1 := by gcongr
      _ = Z := mul_one Z
  · have hp : 0 < Z ^ (0.447 : ℝ) := Real.rpow_pos_of_pos hZ _
    have : lost Z b < lost Z b' := by
      unfold lost
      have : Real.exp (-(83.275 * b' / Z ^ (0.447 : ℝ))) < Real.exp (-(83.275 * b / Z ^ (0.447 : ℝ))) := by
        rw [Real.exp_lt_exp, neg_lt_neg_iff]
        gcongr
      linarith
    gcongr

/-- C80: a beam that is not too fast for its number of protons is accepted.  Missing: faster beams, see
`C80_fast_false`. -/
theorem C80_accepts_partial {d : MDat} {s : St MSt} {chg n : List ℝ} {p : Particle} (hr : s.retreat = false)
    (hb : textOr d.conf "charge_model" "baron" = "baron") (h1 : d.conf "IonChargeStates" = some (.vec chg))
    (h2 : d.conf "NCharge" = some (.vec n)) (hp : s.payload.real.head? = some p)
    (h3 : 3 ≤ (listOr d.conf "Stripper_Para" [3, 20, 16623000]).length)
    (h4 : 3 ≤ (listOr d.conf "Stripper_E0Para" [16348000, 100547 / 100000, -10681 / 100000]).length)
    (hZ : 0 < numOr d.conf "Stripper_IonProton" 92) (hm : 0 < p.recalc.beta)
    (hs : 83.275 * p.recalc.beta ≤ 8.5 * numOr d.conf "Stripper_IonProton" 92 ^ (0.447 : ℝ)) :
    ∃ s', advanceStripper d s = (d, s', none) := by
  refine (C39_accepts d s).2 ⟨hr, chg, n, h1, h2, .inr ⟨hb, hZ, p, hp, ?_⟩, h3, h4⟩
  rw [spread_pos hZ hm.le]
  exact ⟨hm, narrow ((lost_pos hZ).mpr hm) (slow_enough hZ hs)⟩

theorem root_bounds : 0.9998 < (0.19 + Real.sqrt (0.19 ^ 2 + 4 * 0.2654 * 0.07535)) / (2 * 0.2654) ∧
    (0.19 + Real.sqrt (0.19 ^ 2 + 4 * 0.2654 * 0.07535)) / (2 * 0.2654) < 0.9999 := by
  have h1 : (0.3407 : ℝ) < Real.sqrt (0.19 ^ 2 + 4 * 0.2654 * 0.07535) := Real.lt_sqrt_of_sq_lt (by norm_num)
  have h2 : Real.sqrt (0.19 ^ 2 + 4 * 0.2654 * 0.07535) < (0.34074 : ℝ) := (Real.sqrt_lt' (by norm_num)).2 (by norm_num)
  constructor
  · rw [lt_div_iff₀ (by norm_num)]
    norm_num at h1 ⊢
    linarith
  · rw [div_lt_iff₀ (by norm_num)]
    norm_num at h2 ⊢
    linarith

/-- The variance is positive up to the exponent `Baron.bare`. -/
theorem spread_iff {Z b : ℝ} (hZ : 0 < Z) (hb : 0 < b) :
    (0 < spread Z b ↔ 83.275 * b < Baron.bare * Z ^ (0.447 : ℝ)) ∧
    (spread Z b = 0 ↔ 83.275 * b = Baron.bare * Z ^ (0.447 : ℝ)) := by
  have hp : 0 < Z ^ (0.447 : ℝ) := Real.rpow_pos_of_pos hZ _
  obtain ⟨r1, r2⟩ := root_bounds
  have hy := (lost_pos (b := b) hZ).mpr hb
  have hD : Real.sqrt (0.19 ^ 2 + 4 * 0.2654 * 0.07535) ^ 2 = (0.19 ^ 2 + 4 * 0.2654 * 0.07535 : ℝ) :=
    Real.sq_sqrt (by norm_num)
  have hs0 := Real.sqrt_nonneg (0.19 ^ 2 + 4 * 0.2654 * 0.07535)
  have e : spread Z b = Z * lost Z b * (0.2654 * (lost Z b + (Real.sqrt (0.19 ^ 2 + 4 * 0.2654 * 0.07535) - 0.19) / (2 * 0.2654))) *
      ((0.19 + Real.sqrt (0.19 ^ 2 + 4 * 0.2654 * 0.07535)) / (2 * 0.2654) - lost Z b) := by
    unfold spread
    generalize Real.sqrt (0.19 ^ 2 + 4 * 0.2654 * 0.07535) = q at *
    have : q ^ 2 = 0.11609156 := by rw [hD]; norm_num
    generalize lost Z b = y at *
    have : 0.07535 + 0.19 * y - 0.2654 * y ^ 2 =
        0.2654 * (y + (q - 0.19) / (2 * 0.2654)) * ((0.19 + q) / (2 * 0.2654) - y) := by
      norm_num at this ⊢
      linear_combination (-1 / 4 * (5000 / 1327) : ℝ) * this
    rw [this]
    ring
  have hs1 : (0.19 : ℝ) < Real.sqrt (0.19 ^ 2 + 4 * 0.2654 * 0.07535) := Real.lt_sqrt_of_sq_lt (by norm_num)
  have hA : 0 < Z * lost Z b * (0.2654 * (lost Z b + (Real.sqrt (0.19 ^ 2 + 4 * 0.2654 * 0.07535) - 0.19) / (2 * 0.2654))) := by
    have : 0 < (Real.sqrt (0.19 ^ 2 + 4 * 0.2654 * 0.07535) - 0.19) / (2 * 0.2654) := div_pos (by linarith) (by norm_num)
    positivity
  generalize Z * lost Z b * (0.2654 * (lost Z b + (Real.sqrt (0.19 ^ 2 + 4 * 0.2654 * 0.07535) - 0.19) / (2 * 0.2654))) = A at *
  have hl : Real.exp (-Baron.bare) = 1 - (0.19 + Real.sqrt (0.19 ^ 2 + 4 * 0.2654 * 0.07535)) / (2 * 0.2654) := by
    unfold Baron.bare
    rw [neg_neg, Real.exp_log]
    norm_num at r2 ⊢
    linarith
  have hx : (0.19 + Real.sqrt (0.19 ^ 2 + 4 * 0.2654 * 0.07535)) / (2 * 0.2654) - lost Z b =
      Real.exp (-(83.275 * b / Z ^ (0.447 : ℝ))) - Real.exp (-Baron.bare) := by
    rw [hl]
    unfold lost
    ring
  rw [e, hx]
  constructor
  · rw [mul_pos_iff_of_pos_left hA, sub_pos, Real.exp_lt_exp, neg_lt_neg_iff, div_lt_iff₀ hp]
  · rw [mul_eq_zero, or_iff_right hA.ne', sub_eq_zero, Real.exp_eq_exp, neg_inj, div_eq_iff hp.ne']

/-- C80: with the formula of Baron a stripper accepts exactly the beams of moving ions that are slower than the limit
`Baron.bare`, which lies between 8.5 and 9.3.  At the limit the variance is zero, and above it negative. -/
theorem C80_accepts_iff {d : MDat} {s : St MSt} {chg n : List ℝ} {p : Particle} (hr : s.retreat = false)
    (hb : textOr d.conf "charge_model" "baron" = "baron") (h1 : d.conf "IonChargeStates" = some (.vec chg))
    (h2 : d.conf "NCharge" = some (.vec n)) (hp : s.payload.real.head? = some p)
    (h3 : 3 ≤ (listOr d.conf "Stripper_Para" [3, 20, 16623000]).length)
    (h4 : 3 ≤ (listOr d.conf "Stripper_E0Para" [16348000, 100547 / 100000, -10681 / 100000]).length)
    (hZ : 0 < numOr d.conf "Stripper_IonProton" 92) :
    ((∃ s', advanceStripper d s = (d, s', none)) ↔
      0 < p.recalc.beta ∧ 83.275 * p.recalc.beta < Baron.bare * numOr d.conf "Stripper_IonProton" 92 ^ (0.447 : ℝ)) ∧
    8.5 < Baron.bare ∧ Baron.bare < 9.3 := by
  have hbeta : 0 ≤ p.recalc.beta := Real.sqrt_nonneg _
  refine ⟨?_, ?_, ?_⟩
  · rw [C39_accepts]
    constructor
    · rintro ⟨-, chg', n', -, -, ⟨ho, -⟩ | ⟨-, -, q, hq, hs⟩, -⟩
      · rw [hb] at ho
        exact absurd ho (by decide)
      · rw [hp] at hq
        cases hq
        have hm := ((spread_pos hZ hbeta).1 hs).1
        exact ⟨hm, (spread_iff hZ hm).1.1 hs⟩
    · rintro ⟨hm, hs⟩
      exact ⟨hr, chg, n, h1, h2, .inr ⟨hb, hZ, p, hp, (spread_iff hZ hm).1.2 hs⟩, h3, h4⟩
  · have h := (spread_iff (Z := 1) (b := 8.5 / 83.275) one_pos (by norm_num)).1.1
    have hs : 83.275 * (8.5 / 83.275) ≤ 8.5 * (1 : ℝ) ^ (0.447 : ℝ) := by norm_num
    have := h ((spread_pos one_pos (by norm_num)).2 ⟨by norm_num, narrow ((lost_pos one_pos).2 (by norm_num)) (slow_enough one_pos hs)⟩)
    rw [Real.one_rpow, mul_one] at this
    norm_num at this ⊢
    exact this
  · by_contra hc
    have hs : 9.3 * (1 : ℝ) ^ (0.447 : ℝ) ≤ 83.275 * (9.3 / 83.275) := by norm_num
    have h1 := too_fast one_pos hs
    obtain ⟨i1, i2⟩ := spread_iff (Z := 1) (b := 9.3 / 83.275) one_pos (by norm_num)
    have hn := no_spread h1
    have h0 : ¬ 0 < spread 1 (9.3 / 83.275) := fun hlt => hn ((spread_pos one_pos (by norm_num)).1 hlt).2
    rw [i1, Real.one_rpow, mul_one] at h0
    rw [Real.one_rpow, mul_one] at i2
    have heq : Baron.bare = 9.3 := by
      norm_num at h0 hc ⊢
      linarith
    have hz := i2.2 (by rw [heq]; norm_num)
    unfold spread at hz
    have hy := (lost_pos (Z := 1) (b := 9.3 / 83.275) one_pos).2 (by norm_num)
    norm_num at hz hn h1 hy
    rcases hz with hz | hz
    · linarith
    · nlinarith

/-- C80 does not hold for light or fast ions: the formula gives a negative variance, so that the weights are not numbers.
The model stops there. -/
theorem C80_fast_false {d : MDat} {s : St MSt} {p : Particle} (hb : textOr d.conf "charge_model" "baron" = "baron")
    (hp : s.payload.real.head? = some p) (hZ : 0 < numOr d.conf "Stripper_IonProton" 92)
    (hs : 9.3 * numOr d.conf "Stripper_IonProton" 92 ^ (0.447 : ℝ) ≤ 83.275 * p.recalc.beta) :
    spread (numOr d.conf "Stripper_IonProton" 92) p.recalc.beta < 0 ∧ ¬ ∃ d' s', advanceStripper d s = (d', s', none) := by
  have hp0 : 0 < numOr d.conf "Stripper_IonProton" 92 ^ (0.447 : ℝ) := Real.rpow_pos_of_pos hZ _
  have hb0 : 0 < p.recalc.beta := by norm_num at hs; nlinarith
  have h1 := too_fast hZ hs
  have h2 := (lost_pos hZ).mpr hb0
  refine ⟨?_, ?_⟩
  · unfold spread
    have : 0.07535 + 0.19 * lost (numOr d.conf "Stripper_IonProton" 92) p.recalc.beta -
        0.2654 * lost (numOr d.conf "Stripper_IonProton" 92) p.recalc.beta ^ 2 < 0 := by
      norm_num at h1 ⊢
      nlinarith
    exact mul_neg_of_pos_of_neg (by positivity) this
  · rintro ⟨d', s', h⟩
    obtain ⟨chg, q, -, hq, -, -, hsp, -⟩ := C80_weights hb h
    rw [hp] at hq
    cases hq
    rw [spread_pos hZ hb0.le] at hsp
    exact no_spread h1 hsp.2

/-! ## examples -/

/-- A stripper with the default model, for ions with `Z` protons. -/
noncomputable def exFoil (Z : ℝ) : LCfg := fun k =>
  if k = "IonChargeStates" then some (.vec [76 / 238, 78 / 238])
  else if k = "NCharge" then some (.vec [1, 1])
  else if k = "Stripper_IonProton" then some (.num Z)
  else none

/-- Uranium at 7/25 of the velocity of light is stripped; helium of the same velocity is not. -/
example (env : Env) : (∃ s', advanceStripper (exDat env (exFoil 92) 0) exSlow = (exDat env (exFoil 92) 0, s', none)) ∧
    ¬ ∃ d' s', advanceStripper (exDat env (exFoil 2) 0) exSlow = (d', s', none) := by
  constructor
  · refine C80_accepts_partial (chg := [76 / 238, 78 / 238]) (n := [1, 1]) (p := exSlowly) rfl (by simp [textOr, exDat, exFoil])
      (by simp [exDat, exFoil]) (by simp [exDat, exFoil]) rfl (by simp [listOr, exDat, exFoil])
      (by simp [listOr, exDat, exFoil]) (by simp [numOr, exDat, exFoil]) (by rw [exSlow_beta]; norm_num) ?_
    have e : numOr (exDat env (exFoil 92) 0).conf "Stripper_IonProton" 92 = 92 := by simp [numOr, exDat, exFoil]
    rw [exSlow_beta, e]
    have h1 : (92 : ℝ) ^ (1 / 4 : ℝ) ≤ 92 ^ (0.447 : ℝ) := Real.rpow_le_rpow_of_exponent_le (by norm_num) (by norm_num)
    have h2 : (3 : ℝ) ≤ 92 ^ (1 / 4 : ℝ) := by
      refine le_of_pow_le_pow_left₀ (n := 4) (by norm_num) (by positivity) ?_
      rw [← Real.rpow_natCast (92 ^ (1 / 4 : ℝ)), ← Real.rpow_mul (by norm_num)]
      norm_num
    have h3 := le_trans h2 h1
    norm_num at h3 ⊢
    linarith
  · have e : numOr (exDat env (exFoil 2) 0).conf "Stripper_IonProton" 92 = 2 := by simp [numOr, exDat, exFoil]
    refine (C80_fast_false (p := exSlowly) (by simp [textOr, exDat, exFoil]) rfl (by rw [e]; norm_num) ?_).2
    rw [e, exSlow_beta]
    have h1 : (2 : ℝ) ^ (0.447 : ℝ) ≤ 2 ^ (1 : ℝ) := Real.rpow_le_rpow_of_exponent_le (by norm_num) (by norm_num)
    rw [Real.rpow_one] at h1
    norm_num at h1 ⊢
    linarith

/-- The same foil with ions of any number of protons `Z`: the limit of `C80_accepts_iff` decides. -/
example (env : Env) (Z : ℝ) (hZ : 0 < Z) :
    ((∃ s', advanceStripper (exDat env (exFoil Z) 0) exSlow = (exDat env (exFoil Z) 0, s', none)) ↔
      83.275 * (7 / 25) < Baron.bare * Z ^ (0.447 : ℝ)) := by
  have e : numOr (exDat env (exFoil Z) 0).conf "Stripper_IonProton" 92 = Z := by simp [numOr, exDat, exFoil]
  have h := (C80_accepts_iff (d := exDat env (exFoil Z) 0) (s := exSlow) (chg := [76 / 238, 78 / 238]) (n := [1, 1])
    (p := exSlowly) rfl (by simp [textOr, exDat, exFoil]) (by simp [exDat, exFoil]) (by simp [exDat, exFoil]) rfl
    (by simp [listOr, exDat, exFoil]) (by simp [listOr, exDat, exFoil]) (by rw [e]; exact hZ)).1
  rw [h, e, exSlow_beta]
  exact and_iff_right (by norm_num)

end Flame.Moment
