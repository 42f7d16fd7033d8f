import Verif.Moment.Orbit
import Mathlib.Analysis.Real.Pi.Bounds
import Mathlib.Analysis.Complex.ExponentialBounds

/-!
# C60: the elements that change the emittance

`C60_machine` excludes thick sextupoles and electrostatic dipoles with an asymmetry factor.  They do change the volume
of phase space, although the fields of both are those of ideal elements.
-/

namespace Flame.Moment

open Flame.Mach
open Spec (phaseSpace Homogeneous)
open Flame.Linear (getNum getNumD LCfg LVal)

/-! ## Electrostatic dipoles with an asymmetry factor -/

theorem eedgeM_phase (fx fy kappa : ℝ) (hk : -1 ≤ kappa) : (phaseSpace (eedgeM fx fy kappa)).det ^ 2 = (1 + kappa) ^ 3 := by
  have h : phaseSpace (eedgeM fx fy kappa) = !![1, 0, 0, 0, 0, 0; fx, Real.sqrt (1 + kappa), 0, 0, 0, 0; 0, 0, 1, 0, 0, 0;
      0, 0, fy, 1, 0, 0; 0, 0, 0, 0, 1, 0; 0, 0, 0, 0, 0, 1 + kappa] := by
    unfold eedgeM
    ext i j
    fin_cases i <;> fin_cases j <;> simp [phaseSpace, setAt]
  rw [h]
  have hs : Real.sqrt (1 + kappa) ^ 2 = 1 + kappa := Real.sq_sqrt (by linarith)
  simp [Matrix.det_succ_row_zero, Fin.sum_univ_succ, Fin.succAbove]
  rw [mul_pow, hs]
  ring

/-- The seventh coordinate is kept and volumes change by `g`, but for the orientation. -/
def Grows (g : ℝ) (M : Mat) : Prop := Keeps7 M ∧ (phaseSpace M).det ^ 2 = g ^ 2

theorem Grows.between {g : ℝ} {A M B : Mat} (hA : Volume A) (hM : Grows g M) (hB : Volume B) : Grows g (A * (M * B)) := by
  refine ⟨hA.1.mul (hM.1.mul hB.1), ?_⟩
  rw [phaseSpace_mul (hM.1.mul hB.1), phaseSpace_mul hB.1, Matrix.det_mul, Matrix.det_mul, mul_pow, mul_pow, hA.2, hM.2,
    hB.2]
  ring

theorem ebendM_grows (L phi fx fy kappa Kx Ky IonEs realGamma eta0 h deltaK deltaKZ k : ℝ) (hk : -1 ≤ kappa) :
    Grows ((1 + kappa) ^ 3) (ebendM L phi fx fy kappa Kx Ky IonEs realGamma eta0 h deltaK deltaKZ k 1) := by
  have hs : ebendM L phi fx fy kappa Kx Ky IonEs realGamma eta0 h deltaK deltaKZ k 1 = eedgeM fx fy kappa *
      (ebendM L phi 0 0 0 Kx Ky IonEs realGamma eta0 h deltaK deltaKZ k 1 * eedgeM fx fy kappa) := by
    unfold ebendM
    simp only [eedgeM_zero, one_mul, mul_one]
  have hv := ebendM_volume L phi 0 0 Kx Ky IonEs realGamma eta0 h deltaK deltaKZ k
  have he := eedgeM_keeps fx fy kappa
  have hd := eedgeM_phase fx fy kappa hk
  rw [hs]
  refine ⟨he.mul (hv.1.mul he), ?_⟩
  rw [phaseSpace_mul (hv.1.mul he), phaseSpace_mul he, Matrix.det_mul, Matrix.det_mul, mul_pow, mul_pow, hv.2, hd]
  ring

/-- Every matrix of an electrostatic dipole with asymmetry factor `kappa` changes the volume of phase space by
`(1 + kappa)^3`, whatever its fields, fringe fields, plane and misalignment, and whatever the beam: so the six
dimensional emittance is multiplied by `(1 + kappa)^6`. -/
theorem C60_asym (env : Env) (d : MDat) (ref : Particle) (real : List Particle) (Ts : List Mat) (L : ℝ)
    (hL : d.conf "L" = some (.num L)) (hL0 : L ≠ 0) (hk : -1 ≤ Spec.numOr d.conf "asym_fac" 0)
    (hr : recompute env .edipole d ref real = .ok Ts) :
    ∀ T ∈ Ts, (∀ j, T 6 j = if j = 6 then 1 else 0) ∧
      (phaseSpace T).det ^ 2 = (1 + Spec.numOr d.conf "asym_fac" 0) ^ 6 ∧
      ∀ S : Mat, (∀ i, S i 6 = 0 ∧ S 6 i = 0) →
        (phaseSpace (T * S * T.transpose)).det = (1 + Spec.numOr d.conf "asym_fac" 0) ^ 6 * (phaseSpace S).det := by
  suffices H : ∀ T ∈ Ts, Grows ((1 + Spec.numOr d.conf "asym_fac" 0) ^ 3) T by
    intro T hT
    obtain ⟨h1, h2⟩ := H T hT
    have h3 : (phaseSpace T).det ^ 2 = (1 + Spec.numOr d.conf "asym_fac" 0) ^ 6 := by rw [h2]; ring
    refine ⟨h1, h3, fun S hS => ?_⟩
    rw [← h3]
    change (phaseSpace (congr T S)).det = _
    rw [phaseSpace_congr T S hS, Matrix.det_mul, Matrix.det_mul, Matrix.det_transpose]
    ring
  have q9 : Volume rot90 := volume_nice.good one_ne_zero (rot90_good 1)
  have q9t : Volume rot90.transpose := by
    rw [rot90_inv]; exact volume_nice.inv q9 (det_of_mul_one rot90_transpose).1
  have hn : getNum d.conf "L" = .ok L := by
    unfold getNum
    rw [hL]
  change edipoleRec env d ref real = .ok Ts at hr
  unfold edipoleRec at hr
  rw [hn, numOr_eq] at hr
  split at hr
  · rename_i ver L' phi spher _ hL' _ _
    obtain rfl : L = L' := by cases hL'; rfl
    split at hr
    · cases hr
    · split at hr
      · cases hr
      · refine all_of_forall₂ (forEach_ok.1 hr) ?_
        intro p T hT
        rw [if_pos (mul_ne_zero hL0 (by norm_num [MtoMM]))] at hT
        unfold edipoleOne at hT
        dsimp only at hT
        unfold aligned at hT
        split at hT
        · cases hT
        · rename_i M IM hm
          cases hT
          obtain ⟨h1, h2⟩ := volume_nice.misalign hm
          refine Grows.between h2 ?_ h1
          split
          · rw [Matrix.mul_assoc]
            exact Grows.between q9 (ebendM_grows _ _ _ _ _ _ _ _ _ _ _ _ _ _ hk) q9t
          · exact ebendM_grows _ _ _ _ _ _ _ _ _ _ _ _ _ _ hk
  · cases hr

/-- A dipole with asymmetry factor 1/10 for a beam of two charge states. -/
example (env : Env) : ∃ T1 T2, recompute env .edipole (exDat env (fun k => if k = "asym_fac" then some (.num (1 / 10)) else
      if k = "L" ∨ k = "phi" ∨ k = "ver" ∨ k = "spher" then some (.num 1) else none) 1) exParticle.recalc
      [exParticle.recalc, exParticle.recalc] = .ok [T1, T2] ∧
    (phaseSpace T1).det ^ 2 = (11 / 10) ^ 6 := by
  generalize hc : (fun k => if k = "asym_fac" then some (LVal.num (1 / 10)) else
      if k = "L" ∨ k = "phi" ∨ k = "ver" ∨ k = "spher" then some (.num 1) else none) = c
  have hnum : ∀ k, k = "L" ∨ k = "phi" ∨ k = "ver" ∨ k = "spher" → getNum c k = .ok 1 := by
    intro k hk
    rw [← hc]
    rcases hk with rfl | rfl | rfl | rfl <;> simp [getNum]
  have hfit : getFlag env c "HdipoleFitMode" 1 = .ok 1 := by
    rw [← hc]
    simp [getFlag, getStr, getNum, asUnsigned]
    norm_num
  have hal : ∀ T, aligned (exDat env c 1) exParticle.recalc exParticle.recalc T = .ok T := by
    obtain ⟨a, b, c', d'⟩ := moving exParticle (by norm_num [exParticle]) (by norm_num [exParticle])
      (by norm_num [exParticle])
    exact (C36_aligned _ exParticle.recalc exParticle.recalc rfl rfl rfl rfl rfl a b c' d').2
  have hL : (exDat env c 1).conf "L" = some (.num 1) := by
    show c "L" = _
    rw [← hc]
    simp
  have hk : Spec.numOr (exDat env c 1).conf "asym_fac" 0 = 1 / 10 := by
    show Spec.numOr c "asym_fac" 0 = _
    rw [← hc]
    simp [Spec.numOr]
  have hr : ∃ T1 T2, recompute env .edipole (exDat env c 1) exParticle.recalc [exParticle.recalc, exParticle.recalc] =
      .ok [T1, T2] := by
    show ∃ T1 T2, edipoleRec env (exDat env c 1) exParticle.recalc [exParticle.recalc, exParticle.recalc] = .ok [T1, T2]
    unfold edipoleRec
    rw [show (exDat env c 1).conf = c from rfl, hnum "ver" (by simp), hnum "L" (by simp), hnum "phi" (by simp),
      hnum "spher" (by simp), hfit]
    dsimp only
    rw [if_neg (by simp)]
    unfold edipoleOne
    simp only [forEach, hal, if_pos (show (1 : ℝ) * MtoMM ≠ 0 by norm_num [MtoMM])]
    exact ⟨_, _, rfl⟩
  obtain ⟨T1, T2, hr⟩ := hr
  refine ⟨T1, T2, hr, ?_⟩
  have := (C60_asym env _ _ _ _ 1 hL one_ne_zero (by rw [hk]; norm_num) hr T1 (by simp)).2.1
  rw [this, hk]
  norm_num

/-! ## Thick sextupoles -/

theorem det_planes (a b c d e f g h s : ℝ) : (!![a, b, 0, 0, 0, 0; c, d, 0, 0, 0, 0; 0, 0, e, f, 0, 0; 0, 0, g, h, 0, 0;
    0, 0, 0, 0, 1, s; 0, 0, 0, 0, 0, 1] : Matrix (Fin 6) (Fin 6) ℝ).det = (a * d - b * c) * (e * h - f * g) := by
  simp [Matrix.det_succ_row_zero, Fin.sum_univ_succ, Fin.succAbove]
  ring

theorem cosh_pi : 7 < Real.cosh Real.pi := by
  have h3 := Real.pi_gt_three
  have h1 : (16 : ℝ) < Real.exp Real.pi := by
    have e1 : (2.7 : ℝ) < Real.exp 1 := by linarith [Real.exp_one_gt_d9]
    have e3 : Real.exp 3 = Real.exp 1 ^ 3 := by rw [← Real.exp_nat_mul]; norm_num
    have h4 := pow_lt_pow_left₀ e1 (by norm_num) (n := 3) (by norm_num)
    have h2 := Real.exp_lt_exp.2 h3
    rw [← e3] at h4
    linarith [show (16 : ℝ) < 2.7 ^ 3 by norm_num]
  rw [Real.cosh_eq]
  have := Real.exp_pos (-Real.pi)
  linarith

/-- A beam in the horizontal midplane of a thick sextupole of half a phase: the volume does not survive. -/
theorem thick_det (K3 Dx D2x D2y D2xy : ℝ) (dst : Bool) (p : Particle) (dL L k : ℝ)
    (hk : k = Real.sqrt (|K3| * Real.sqrt (Dx * Dx + Dx * Dx))) (h0 : k ≠ 0) (hx : Dx ≠ 0) (hL : k * L = Real.pi) :
    (phaseSpace (setAt (sextM L K3 Dx 0 D2x D2y D2xy false dst 1) 4 5 (slip p dL))).det =
      (1 - (1 + Real.cosh Real.pi) / 4) ^ 2 := by
  have hpos : 0 < Dx * Dx + Dx * Dx := by nlinarith [mul_self_pos.2 hx]
  have hd0 : Real.sqrt (Dx * Dx + Dx * Dx) ≠ 0 := (Real.sqrt_pos.2 hpos).ne'
  have hsq := Real.sq_sqrt hpos.le
  rw [thick_phase L K3 Dx 0 D2x D2y D2xy dst p dL _ _ _ k rfl rfl rfl hk h0 hd0]
  have hs2 : (if K3 < 0 then (-1 : ℝ) else 1) ^ 2 = 1 := by split <;> norm_num
  generalize (if K3 < 0 then (-1 : ℝ) else 1) = sg at hs2 ⊢
  generalize Real.sqrt (Dx * Dx + Dx * Dx) = dr at *
  simp only [hL, Real.cos_pi, Real.sin_pi, zero_mul, zero_div]
  rw [det_planes]
  have hab : (dr + Dx * sg) / (2 * dr) * ((dr - Dx * sg) / (2 * dr)) = 1 / 8 := by
    field_simp
    linear_combination 8 * (-Dx ^ 2) * hs2 + 4 * hsq
  have hsum : (dr + Dx * sg) / (2 * dr) + (dr - Dx * sg) / (2 * dr) = 1 := by
    field_simp
    ring
  generalize (dr + Dx * sg) / (2 * dr) = a at *
  generalize (dr - Dx * sg) / (2 * dr) = b at *
  have hcs := Real.cosh_sq Real.pi
  generalize Real.cosh Real.pi = ch at *
  generalize Real.sinh Real.pi = sh at *
  have e1 : (a * -1 + b * ch) * (a * -1 + b * ch) - (a * 0 + b * sh) / k * (k * (-a * 0 + b * sh)) =
      1 - (1 + ch) / 4 := by
    field_simp
    linear_combination 4 * b ^ 2 * hcs + 4 * (a + b + 1) * hsum - 8 * (ch + 1) * hab
  have e2 : (b * -1 + a * ch) * (b * -1 + a * ch) - (b * 0 + a * sh) / k * (k * (-b * 0 + a * sh)) =
      1 - (1 + ch) / 4 := by
    field_simp
    linear_combination 4 * a ^ 2 * hcs + 4 * (a + b + 1) * hsum - 8 * (ch + 1) * hab
  rw [e1, e2]
  ring

/-- The configuration of a sextupole with strength and length only: one step, thick, with its kicks. -/
noncomputable def bareSext (B3 L : ℝ) : LCfg := fun k =>
  if k = "B3" then some (.num B3) else if k = "L" then some (.num L) else none

/-- A thick sextupole can increase the emittance: for every moving beam of one charge state with an emittance whose
centroid is in the horizontal midplane off the axis there is one, exactly in place, that does so. -/
theorem C60_sextupole_false (env : Env) (s : St MSt) (p : Particle) (v : Vec) (S : Mat) (hret : s.retreat = false)
    (hreal : s.payload.real = [p]) (h0 : s.payload.moment0 = [v]) (h1 : s.payload.moment1 = [S])
    (hS : ∀ i, S i 6 = 0 ∧ S 6 i = 0) (hd : (phaseSpace S).det ≠ 0) (hx : v 0 ≠ 0) (hy : v 2 = 0) (hEs : 0 < p.IonEs)
    (hEk : 0 < p.IonEk) (hf : p.SampleFreq ≠ 0) (hz : p.IonZ ≠ 0) (hr : s.payload.ref.IonEs ≠ 0) :
    ∃ B3 L g : ℝ, 0 < L ∧ 1 < g ∧ ∀ d : MDat, d.conf = bareSext B3 L → d.dx = 0 → d.dy = 0 → d.pitch = 0 → d.yaw = 0 →
      d.roll = 0 → ∃ S', (advance env .sextupole d s).2.2 = none ∧
        (advance env .sextupole d s).2.1.payload.moment1 = [S'] ∧
        (phaseSpace S').det = g * (phaseSpace S).det ∧ (phaseSpace S').det ≠ (phaseSpace S).det := by
  obtain ⟨m1, m2, m3, -⟩ := moving p hEs hEk hf
  have hB : p.recalc.Brho ≠ 0 := by
    have : p.recalc.IonW ≠ 0 := by
      show p.IonEs + p.IonEk ≠ 0
      positivity
    have : C0 ≠ 0 := by norm_num [C0]
    have : p.recalc.IonZ ≠ 0 := hz
    unfold Particle.Brho
    positivity
  have hpos : 0 < v 0 * v 0 + v 0 * v 0 := by nlinarith [mul_self_pos.2 hx]
  generalize hk : Real.sqrt (|(1 : ℝ)| * Real.sqrt (v 0 * v 0 + v 0 * v 0)) = k
  have hkp : 0 < k := by
    rw [← hk, abs_one, one_mul]
    exact Real.sqrt_pos.2 (Real.sqrt_pos.2 hpos)
  have hc := cosh_pi
  have hg : 1 < ((1 - (1 + Real.cosh Real.pi) / 4) ^ 2) ^ 2 := by
    have : 1 < (1 - (1 + Real.cosh Real.pi) / 4) ^ 2 := by nlinarith
    nlinarith
  refine ⟨p.recalc.Brho * (MtoMM * MtoMM * MtoMM), Real.pi / k / MtoMM, _, ?_, hg, ?_⟩
  · have : (0 : ℝ) < MtoMM := by norm_num [MtoMM]
    have := Real.pi_pos
    positivity
  intro d hconf hdx hdy hdp hdw hdr
  generalize hgg : ((1 - (1 + Real.cosh Real.pi) / 4) ^ 2) ^ 2 = g at hg
  have hM : MtoMM ≠ 0 := by norm_num [MtoMM]
  have n1 : getNum d.conf "B3" = .ok (p.recalc.Brho * (MtoMM * MtoMM * MtoMM)) := by
    rw [hconf]; simp [getNum, bareSext]
  have n2 : getNum d.conf "L" = .ok (Real.pi / k / MtoMM) := by
    rw [hconf]; simp [getNum, bareSext]
  have n3 : getNumD d.conf "step" 1 = 1 := by
    rw [hconf]; simp [getNumD, bareSext]
  have n4 : getNumD d.conf "thinlens" 0 = 0 := by
    rw [hconf]; simp [getNumD, bareSext]
  have hst : toSteps 1 = 1 := by simp [toSteps]
  have hone : ∀ (d' : MDat) (dst : Bool), d'.dx = 0 → d'.dy = 0 → d'.pitch = 0 → d'.yaw = 0 → d'.roll = 0 →
      ∃ w S' X, sextOne d' (p.recalc.Brho * (MtoMM * MtoMM * MtoMM)) (Real.pi / k / MtoMM * MtoMM) ((1 : ℕ) : ℝ) false dst
        s.payload.ref.recalc p.recalc v S = .ok (w, S', X) ∧ (phaseSpace S').det = g * (phaseSpace S).det := by
    intro d' dst e1 e2 e3 e4 e5
    have hmis := (C36_aligned d' s.payload.ref.recalc p.recalc e1 e2 e3 e4 e5 m1 m2 m3 hr).1
    unfold sextOne
    rw [hmis]
    refine ⟨_, _, _, rfl, ?_⟩
    have hK : p.recalc.Brho * (MtoMM * MtoMM * MtoMM) / p.recalc.Brho / (MtoMM * MtoMM * MtoMM) = 1 := by
      field_simp
    have hL : Real.pi / k / MtoMM * MtoMM / (1 : ℝ) = Real.pi / k := by
      field_simp
    simp only [Nat.cast_one, hK, hL, hst, sextLoop, Matrix.one_mulVec, congr, Matrix.one_mul, Matrix.transpose_one,
      Matrix.mul_one, hy]
    change (phaseSpace (congr _ S)).det = _
    rw [phaseSpace_congr _ S hS, Matrix.det_mul, Matrix.det_mul, Matrix.det_transpose,
      thick_det 1 (v 0) _ _ _ dst p.recalc _ (Real.pi / k) k hk.symm hkp.ne' hx (by field_simp), ← hgg]
    ring
  show ∃ S', (advanceSext d s).2.2 = none ∧ (advanceSext d s).2.1.payload.moment1 = [S'] ∧ _
  unfold advanceSext
  simp only [n1, n2, n3, n4, hst, hret]
  obtain ⟨w, S', X, q1, q2⟩ := hone { d with
    refIn := some s.payload.recalc.ref, realIn := s.payload.recalc.real,
    transfer := resize s.payload.recalc.real.length d.transfer } (decide (getNumD d.conf "dstkick" 1 = 1)) hdx hdy hdp hdw hdr
  have hdec : decide ((0 : ℝ) = 1) = false := by simp
  have hz : s.payload.recalc.real.zip (s.payload.recalc.moment0.zip s.payload.recalc.moment1) = [(p.recalc, v, S)] := by
    show (s.payload.real.map Particle.recalc).zip (s.payload.moment0.zip s.payload.moment1) = _
    rw [hreal, h0, h1]
    rfl
  have hne : (phaseSpace S').det ≠ (phaseSpace S).det := by
    rw [q2]
    intro e
    exact hd (by
      have : (g - 1) * (phaseSpace S).det = 0 := by linear_combination e
      exact (mul_eq_zero.1 this).resolve_left (by linarith))
  rw [hz]
  refine ⟨S', ?_⟩
  simp only [hdec, Bool.false_eq_true, if_false, forEach]
  rw [show s.payload.recalc.ref = s.payload.ref.recalc from rfl] at q1 ⊢
  rw [q1]
  exact ⟨rfl, rfl, q2, hne⟩

/-- A beam as required, one millimetre off the axis. -/
example (env : Env) : ∃ (s : St MSt) (B3 L : ℝ) (d : MDat) (S' : Mat), d.conf = bareSext B3 L ∧
    (advance env .sextupole d s).2.2 = none ∧ (advance env .sextupole d s).2.1.payload.moment1 = [S'] ∧
    720 < (phaseSpace S').det := by
  let S : Mat := Matrix.diagonal ![1, 2, 3, 4, 5, 6, 0]
  let s : St MSt := { exState false with
    payload := { (exState false).payload with moment0 := [![1, 0, 0, 0, 0, 0, 1]], moment1 := [S] } }
  have hS : (phaseSpace S).det = 720 := by
    have : phaseSpace S = Matrix.diagonal ![1, 2, 3, 4, 5, 6] := by
      ext i j
      fin_cases i <;> fin_cases j <;> simp [phaseSpace, Matrix.diagonal, S]
    rw [this, Matrix.det_diagonal]
    simp [Fin.prod_univ_six]
    norm_num
  obtain ⟨B3, L, g, -, hg, h⟩ := C60_sextupole_false env s exParticle _ S rfl rfl rfl rfl
    (fun i => by fin_cases i <;> simp [S, Matrix.diagonal]) (by rw [hS]; norm_num) (by simp) (by simp)
    (by norm_num [exParticle]) (by norm_num [exParticle]) (by norm_num [exParticle]) (by norm_num [exParticle])
    (by norm_num [s, exState, exParticle])
  obtain ⟨S', h1, h2, h3, -⟩ := h (exDat env (bareSext B3 L) L) rfl rfl rfl rfl rfl rfl
  exact ⟨s, B3, L, exDat env (bareSext B3 L) L, S', rfl, h1, h2, by rw [h3, hS]; linarith⟩

end Flame.Moment
