import Verif.Cavity.Carry

/-!
# Growth of the emittance in cavities that are shifted or rolled: C68
-/

namespace Flame.Cavity

open Flame.Mach (Cls St Err Elem CView Machine Run propagate)
open Flame.Linear (LVal LCfg getNum getNumD getVec)
open Flame.Moment Flame.Moment.Spec

/-- A cavity that is shifted and rolled in any way, in its own frame `R`.  There the covariance is stretched as in a cavity
where it should be, but the growth of the mean squares of the angles is that of the mean squares of the coordinates of the
beamline about the centre in the frame of the cavity. -/
theorem C68_rolled_partial {env : Env} {files : Files} {d d' : MDat} {s s' : St MSt} (hr : s.retreat = false) (h0 : d.refIn = none)
    (hcov : ∀ C ∈ s.payload.moment1, Covariance C)
    (hp : d.pitch = 0) (hyw : d.yaw = 0)
    (h : advanceCavity env files d s = (d', s', none)) (cav : Cav) (hc : d'.cav = some cav) (he : cav.emitGrowth ≠ 0)
    (n : Nat) (S' : Mat) (hS' : s'.payload.moment1[n]? = some S') :
    ∃ p q v S M R a b c, s.payload.real[n]? = some p ∧ s'.payload.real[n]? = some q ∧ s.payload.moment0[n]? = some v ∧
      s.payload.moment1[n]? = some S ∧ s'.payload.transmat[n]? = some M ∧
      (∀ u, R.mulVec u = Moment.Spec.inFrame d.dx d.dy d.roll u) ∧
      Spec.Stretched ![1, a, 1, b, 1, c, 1] (R * (M * S * M.transpose) * R.transpose) (R * S' * R.transpose) ∧
      1 ≤ a ∧ 1 ≤ b ∧ 0 < c ∧
      (∃ k, k = Spec.defocus s.payload.ref.IonZ s.payload.ref.IonEs
            (Spec.gapVoltage cav.ionFys s.payload.ref.IonZ (q.IonW - p.recalc.IonW))
            ((q.beta + p.recalc.beta) / 2 * ((q.gamma + p.recalc.gamma) / 2)) (q.beta * q.gamma)
            (299792458 / cav.fRF * 1000) ∧
        (R * S' * R.transpose) 1 1 = (R * (M * S * M.transpose) * R.transpose) 1 1 +
          Spec.kickSpread k cav.ionFys (Real.sqrt ((R * (M * S * M.transpose) * R.transpose) 4 4))
            (S 0 0 + Moment.Spec.inFrame d.dx d.dy d.roll v 0 ^ 2) ∧
        (R * S' * R.transpose) 3 3 = (R * (M * S * M.transpose) * R.transpose) 3 3 +
          Spec.kickSpread k cav.ionFys (Real.sqrt ((R * (M * S * M.transpose) * R.transpose) 4 4))
            (S 2 2 + Moment.Spec.inFrame d.dx d.dy d.roll v 2 ^ 2)) ∧
      (0 ≤ 72 * Real.cos cav.ionFys ^ 2 +
        Real.sqrt ((R * (M * S * M.transpose) * R.transpose) 4 4) * Real.sin cav.ionFys → 1 ≤ c) := by
  obtain ⟨cav0, -, ⟨hh, -⟩ | ⟨-, cav1, ref, phi, l, mis, -, hrec, hmis, hf, rfl, rfl⟩⟩ := forward_cases hr h
  · exact absurd hh (miss _ h0)
  have hcc : { cav1 with phiRef := some phi, misalign := mis } = cav := Option.some.inj hc
  rw [hcc] at hf hS' ⊢
  have hm1 : cav.misalign = mis := by rw [← hcc]
  obtain ⟨R, hR⟩ : ∃ R, R = rotMat d.dx d.dy 0 0 d.roll := ⟨_, rfl⟩
  have hz : ∀ m ∈ cav.misalign, m = (R, R⁻¹) := by
    rw [hm1]
    intro m hm
    obtain ⟨p, -, hp'⟩ := forEach_all hmis m hm
    obtain ⟨z1, z2⟩ := getMisalign_ok hp'
    rw [getMisalign_roll d ref p hp hyw z1 z2] at hp'
    rw [hR]
    exact (Except.ok.inj hp').symm
  have hS1 : ((cavLoop cav (filledSt s.payload.recalc ref l).ref (l.map (fun q => q.2)) cav.misalign
      (filledSt s.payload.recalc ref l).real (ends env (filledDat d s.payload.recalc cav ref l)) s.payload.moment0
      s.payload.moment1).map (fun q => q.2.2.1))[n]? = some S' := hS'
  rw [List.getElem?_map, Option.map_eq_some_iff] at hS1
  obtain ⟨r, hrk, rfl⟩ := hS1
  obtain ⟨T, m, q, e, v, S, k1, k2, k3, k4, k5, k6, rfl⟩ := cavLoop_get hrk
  obtain rfl := hz m (List.mem_of_getElem? k2)
  have hg : cavGrown cav (filledSt s.payload.recalc ref l).ref (l.map (fun q => q.2)) cav.misalign
      (filledSt s.payload.recalc ref l).real (ends env (filledDat d s.payload.recalc cav ref l)) s.payload.moment0
      s.payload.moment1 := by
    unfold cavFault at hf
    by_contra hn
    rw [if_neg (by exact hn)] at hf
    cases hf
  have hgr := cavGrown_get hg k1 k2 k3 k4 k5 k6 he
  have hl := recomputeCav_length hrec
  have hen : ∃ p, s.payload.real[n]? = some p ∧ e.1 = p.recalc ∧ e.2 = q := by
    have k4' : (List.zip s.payload.recalc.real ((l.map (fun q => q.1)).map Particle.recalc ++
        List.replicate (s.payload.recalc.real.length - ((l.map (fun q => q.1)).map Particle.recalc).length) env.junk))[n]? =
        some e := k4
    rw [show s.payload.recalc.real.length - ((l.map (fun q => q.1)).map Particle.recalc).length = 0 by simp [hl],
      List.replicate_zero, List.append_nil, List.getElem?_zip_eq_some] at k4'
    obtain ⟨k7, k8⟩ := k4'
    have k7' : (s.payload.real.map Particle.recalc)[n]? = some e.1 := k7
    rw [List.getElem?_map, Option.map_eq_some_iff] at k7'
    obtain ⟨p, hp1, hp2⟩ := k7'
    have k3' : ((l.map (fun q => q.1)).map Particle.recalc)[n]? = some q := k3
    rw [k3'] at k8
    exact ⟨p, hp1, hp2.symm, (Option.some.inj k8).symm⟩
  obtain ⟨p, hp1, he1, he2⟩ := hen
  have hrf : (filledSt s.payload.recalc ref l).ref.IonZ = s.payload.ref.IonZ ∧
      (filledSt s.payload.recalc ref l).ref.IonEs = s.payload.ref.IonEs := by
    unfold recomputeCav at hrec
    split at hrec
    · cases hrec
    rename_i r f hlong
    split at hrec
    · cases hrec
    cases hrec
    unfold propagateLong at hlong
    dsimp only at hlong
    split at hlong
    · cases hlong
    split at hlong
    · cases hlong
    split at hlong
    · cases hlong
    cases hlong
    exact ⟨rfl, rfl⟩
  have hM0 : (cavForward env cav (filledDat d s.payload.recalc cav ref l) (filledSt s.payload.recalc ref l)).2.transmat[n]? =
      some (cavOne cav (filledSt s.payload.recalc ref l).ref T (R, R⁻¹) q e.1 e.2 v S).2.2.2 := by
    show ((cavLoop cav (filledSt s.payload.recalc ref l).ref (l.map (fun q => q.2)) cav.misalign
      (filledSt s.payload.recalc ref l).real (ends env (filledDat d s.payload.recalc cav ref l)) s.payload.moment0
      s.payload.moment1).map (fun q => q.2.2.2))[n]? = _
    rw [List.getElem?_map, hrk]
    rfl
  obtain ⟨rf, hrf0⟩ : ∃ rf, (filledSt s.payload.recalc ref l).ref = rf := ⟨_, rfl⟩
  rw [hrf0] at hgr hrf hM0 ⊢
  have hS0 := hcov S (List.mem_of_getElem? k6)
  obtain ⟨T1, hT1⟩ : ∃ T1, (cavOne cav rf T (R, R⁻¹) q e.1 e.2 v S).1 = T1 := ⟨_, rfl⟩
  have hRi : R * R⁻¹ = 1 := by rw [hR]; exact (rotMat_inv _ _ _ _ _).2
  have hgr' : emitFactors cav rf e.1 e.2 q.beta q.gamma (S 0 0) (R.mulVec v 0) (S 2 2) (R.mulVec v 2)
      (T1 * (R * S * R.transpose) * T1.transpose) ≠ none := by
    have := hgr
    dsimp only at this
    rw [hT1] at this
    exact this
  obtain ⟨⟨a, b, c⟩, habc⟩ := Option.ne_none_iff_exists'.1 hgr'
  have hN : Covariance (T1 * (R * S * R.transpose) * T1.transpose) := covariance_moved T1 _ (covariance_moved R S hS0)
  obtain ⟨g1, ⟨k, hk, g2, g3⟩, g4, g5, g6, g7⟩ := C68_growth_partial habc (diag_nonneg hN 1) (diag_nonneg hN 3) (diag_nonneg hN 4)
    (diag_nonneg hN 5) (diag_nonneg hS0 0) (diag_nonneg hS0 2)
  have hS3 : R * (cavOne cav rf T (R, R⁻¹) q e.1 e.2 v S).2.2.1 * R.transpose =
      emitGrowth cav rf e.1 e.2 q.beta q.gamma (S 0 0) (R.mulVec v 0) (S 2 2) (R.mulVec v 2)
        (T1 * (R * S * R.transpose) * T1.transpose) := by
    rw [← hT1]
    simp only [cavOne, if_pos he, Moment.congr]
    generalize emitGrowth _ _ _ _ _ _ _ _ _ _ _ = G
    show R * (R⁻¹ * G * R⁻¹.transpose) * R.transpose = G
    have h2 : R⁻¹.transpose * R.transpose = 1 := by rw [← Matrix.transpose_mul, hRi, Matrix.transpose_one]
    rw [Matrix.mul_assoc, Matrix.mul_assoc, Matrix.mul_assoc, h2, Matrix.mul_one, ← Matrix.mul_assoc, hRi, Matrix.one_mul]
  have hM : ((cavOne cav rf T (R, R⁻¹) q e.1 e.2 v S).2.2.2) = R⁻¹ * (T1 * R) := by
    rw [← hT1]
    rfl
  have hMS : R * (R⁻¹ * (T1 * R) * S * (R⁻¹ * (T1 * R)).transpose) * R.transpose =
      T1 * (R * S * R.transpose) * T1.transpose := by
    have h2 : R⁻¹.transpose * R.transpose = 1 := by rw [← Matrix.transpose_mul, hRi, Matrix.transpose_one]
    calc R * (R⁻¹ * (T1 * R) * S * (R⁻¹ * (T1 * R)).transpose) * R.transpose
        = (R * R⁻¹) * (T1 * R) * S * (R.transpose * T1.transpose) * (R⁻¹.transpose * R.transpose) := by
          simp only [Matrix.transpose_mul, Matrix.mul_assoc]
      _ = _ := by rw [hRi, h2]; simp only [Matrix.mul_assoc, Matrix.one_mul, Matrix.mul_one]
  have hRf : ∀ u, R.mulVec u = Moment.Spec.inFrame d.dx d.dy d.roll u := fun u => by rw [hR]; exact rotMat_frame _ _ _ u
  refine ⟨p, q, v, S, R⁻¹ * (T1 * R), R, a, b, c, hp1, k3, k5, k6, ?_, hRf, ?_, g4, g5, g6, ⟨k, ?_, ?_, ?_⟩, ?_⟩
  · exact hM0.trans (congrArg some hM)
  · rw [hS3, hMS]
    exact g1
  · rw [hk, hrf.1, hrf.2, he1, he2]
  · rw [hS3, hMS, ← hRf]
    exact g2
  · rw [hS3, hMS, ← hRf]
    exact g3
  · rw [hMS]
    exact g7


theorem phaseForm_turn : phaseForm (2 * Real.pi) = -45 / (2 * Real.pi) ^ 4 := by
  have hpi := Real.pi_pos
  unfold phaseForm
  rw [Real.sin_two_pi, Real.cos_two_pi]
  field_simp
  ring

theorem kick_varies : 0 < Spec.bunchVar (fun x => Real.sin (0 + Real.pi * x)) := by
  have hpi := Real.pi_pos
  rw [bunchVar_eq (by fun_prop), bunchMean_kick2 0 hpi.ne', bunchMean_kick 0 hpi.ne', phaseForm_turn, Real.sin_zero, Real.cos_zero]
  have : (0 : ℝ) < 45 / (2 * Real.pi) ^ 4 := by positivity
  norm_num
  have e : (-45 : ℝ) / (2 * Real.pi) ^ 4 = -(45 / (2 * Real.pi) ^ 4) := by ring
  rw [e]
  linarith

theorem turn_diag (a : Fin 7 → ℝ) : rotMat 0 0 0 0 (Real.pi / 2) * Matrix.diagonal a * (rotMat 0 0 0 0 (Real.pi / 2)).transpose =
    Matrix.diagonal ![a 2, a 3, a 0, a 1, a 4, a 5, a 6] := by
  rw [rollM_eq]
  ext i j
  rw [Matrix.mul_apply]
  simp only [Matrix.mul_diagonal, Matrix.transpose_apply, Fin.sum_univ_seven]
  fin_cases i <;> fin_cases j <;> simp [rollM, Real.sin_pi_div_two, Real.cos_pi_div_two]

/-- In a rolled cavity the mean squares of the angles do not grow by the spread of the deflections: a cavity rolled by 90
degrees and a beam that is twice as wide as high. -/
theorem C68_roll_false : ∃ (cav : Cav) (ref pin pout : Particle) (T S R : Mat) (v : Vec), Moving pin ∧ Moving pout ∧
    Covariance S ∧ cav.emitGrowth ≠ 0 ∧ (∀ u, R.mulVec u = Moment.Spec.inFrame 0 0 (Real.pi / 2) u) ∧
    grownOne cav ref T (R, R⁻¹) pout pin pout v S ∧
    let r := cavOne cav ref T (R, R⁻¹) pout pin pout v S
    (R * r.2.2.1 * R.transpose) 1 1 ≠ (R * (r.2.2.2 * S * r.2.2.2.transpose) * R.transpose) 1 1 +
      Spec.kickSpread (Spec.defocus ref.IonZ ref.IonEs (Spec.gapVoltage cav.ionFys ref.IonZ (pout.IonW - pin.IonW))
            ((pout.beta + pin.beta) / 2 * ((pout.gamma + pin.gamma) / 2)) (pout.beta * pout.gamma)
            (299792458 / cav.fRF * 1000)) cav.ionFys
        (Real.sqrt ((R * (r.2.2.2 * S * r.2.2.2.transpose) * R.transpose) 4 4))
        ((R * S * R.transpose) 0 0 + Moment.Spec.inFrame 0 0 (Real.pi / 2) v 0 ^ 2) := by
  let cav : Cav := { exGap with emitGrowth := 1, ionFys := 0 }
  let pin := exParticle.recalc
  let pout := ({ exParticle with IonEk := 2 } : Particle).recalc
  have hin : Moving pin := exParticle_moving
  have hout : Moving pout := ⟨recalc_idem _, by norm_num [pout, exParticle, Particle.recalc],
    by norm_num [pout, exParticle, Particle.recalc]⟩
  have hpi := Real.pi_pos
  let a : Fin 7 → ℝ := ![4, 1, 1, 1, Real.pi ^ 2, 1, 0]
  obtain ⟨R, hR⟩ : ∃ R, R = rotMat 0 0 0 0 (Real.pi / 2) := ⟨_, rfl⟩
  have hRf : ∀ u, R.mulVec u = Moment.Spec.inFrame 0 0 (Real.pi / 2) u := fun u => by rw [hR]; exact rotMat_frame _ _ _ u
  have hRi : R * R⁻¹ = 1 := by rw [hR]; exact (rotMat_inv _ _ _ _ _).2
  have hRi' : R⁻¹ * R = 1 := by rw [hR]; exact (rotMat_inv _ _ _ _ _).1
  have hRS : R * Matrix.diagonal a * R.transpose = Matrix.diagonal ![1, 1, 4, 1, Real.pi ^ 2, 1, 0] := by
    rw [hR, turn_diag]
    rfl
  let v : Vec := ![0, 0, 0, 0, 0, 0, 1]
  have hRv : R.mulVec v = v := by
    rw [hRf]
    funext i
    fin_cases i <;> simp [Moment.Spec.inFrame, v]
  have hT1 : (cavOne cav pout 1 (R, R⁻¹) pout pin pout v (Matrix.diagonal a)).1 = 1 := by
    simp only [cavOne, hRv]
    ext i j
    fin_cases i <;> fin_cases j <;> simp [setAt, Matrix.mulVec, dotProduct, Fin.sum_univ_seven, Matrix.one_apply, v]
  have hg : emitFactors cav pout pin pout pout.beta pout.gamma ((Matrix.diagonal a : Mat) 0 0) (v 0) ((Matrix.diagonal a : Mat) 2 2) (v 2)
      (Matrix.diagonal ![1, 1, 4, 1, Real.pi ^ 2, 1, 0]) ≠ none :=
    emitFactors_some (by norm_num [cav, exGap]) (by norm_num [pout, exParticle, Particle.recalc])
      (by norm_num [pout, exParticle, Particle.recalc]) hin hout (by simp) (by simp) (by simp)
  have hcong : ∀ A : Mat, Moment.congr (1 : Mat) A = A := fun A => by simp [Moment.congr]
  refine ⟨cav, pout, pin, pout, 1, Matrix.diagonal a, R, v, hin, hout, ?_, by norm_num [cav], hRf, ?_, ?_⟩
  · refine ⟨Matrix.diagonal_transpose _, fun x => ?_⟩
    simp only [a, Fin.sum_univ_seven, Matrix.diagonal]
    simp
    nlinarith [mul_self_nonneg (x 0), mul_self_nonneg (x 1), mul_self_nonneg (x 2), mul_self_nonneg (x 3),
      mul_self_nonneg (x 4 * Real.pi), mul_self_nonneg (x 5)]
  · intro _
    dsimp only
    rw [hT1, hRv, hcong, Moment.congr, hRS]
    exact hg
  · obtain ⟨⟨x, y, z⟩, habc⟩ := Option.ne_none_iff_exists'.1 hg
    obtain ⟨-, ⟨k, hk, g2, -⟩, -⟩ := C68_growth_partial habc (by simp) (by simp) (by simp; positivity) (by simp) (by simp [a]) (by simp [a])
    have hM : (cavOne cav pout 1 (R, R⁻¹) pout pin pout v (Matrix.diagonal a)).2.2.2 = 1 := by
      have : (cavOne cav pout 1 (R, R⁻¹) pout pin pout v (Matrix.diagonal a)).2.2.2 =
          R⁻¹ * ((cavOne cav pout 1 (R, R⁻¹) pout pin pout v (Matrix.diagonal a)).1 * R) := rfl
      rw [this, hT1, Matrix.one_mul, hRi']
    have hS : R * (cavOne cav pout 1 (R, R⁻¹) pout pin pout v (Matrix.diagonal a)).2.2.1 * R.transpose =
        emitGrowth cav pout pin pout pout.beta pout.gamma ((Matrix.diagonal a : Mat) 0 0) (v 0) ((Matrix.diagonal a : Mat) 2 2) (v 2)
          (Matrix.diagonal ![1, 1, 4, 1, Real.pi ^ 2, 1, 0]) := by
      have : (cavOne cav pout 1 (R, R⁻¹) pout pin pout v (Matrix.diagonal a)).2.2.1 = Moment.congr R⁻¹
          (emitGrowth cav pout pin pout pout.beta pout.gamma ((Matrix.diagonal a : Mat) 0 0) (R.mulVec v 0)
            ((Matrix.diagonal a : Mat) 2 2) (R.mulVec v 2)
          (Moment.congr (cavOne cav pout 1 (R, R⁻¹) pout pin pout v (Matrix.diagonal a)).1
            (Moment.congr R (Matrix.diagonal a)))) := by
        simp only [cavOne]
        rw [if_pos (by norm_num [cav])]
      rw [this, hT1, hRv, hcong, show Moment.congr R (Matrix.diagonal a) = _ from hRS]
      generalize emitGrowth _ _ _ _ _ _ _ _ _ _ _ = G
      have h2 : R⁻¹.transpose * R.transpose = 1 := by rw [← Matrix.transpose_mul, hRi, Matrix.transpose_one]
      rw [Moment.congr, Matrix.mul_assoc, Matrix.mul_assoc, Matrix.mul_assoc, h2, Matrix.mul_one, ← Matrix.mul_assoc, hRi,
        Matrix.one_mul]
    dsimp only
    rw [hM, hS, g2, Matrix.one_mul, Matrix.transpose_one, Matrix.mul_one, hRS, ← hRf, hRv, ← hk]
    have hk0 : k ≠ 0 := by
      have b1 := hin.beta_pos
      have b2 := hout.beta_pos
      have g1 : pin.gamma = 2 := by norm_num [pin, exParticle, Particle.recalc]
      have g3 : pout.gamma = 3 := by norm_num [pout, exParticle, Particle.recalc]
      have hW : pout.IonW - pin.IonW = 1 := by norm_num [pin, pout, exParticle, Particle.recalc]
      have hf : 0 < cav.fRF := by norm_num [cav, exGap]
      rw [hk, show cav.ionFys = 0 from rfl, Spec.gapVoltage, Real.cos_zero, hW, g1, g3, show pout.IonZ = 1 from rfl,
        show pout.IonEs = 1 from rfl, if_neg (by norm_num), Spec.defocus]
      have : (0 : ℝ) < 299792458 / cav.fRF * 1000 := by positivity
      rw [abs_one]
      positivity
    have hvar := kick_varies
    have e4 : Real.sqrt ((Matrix.diagonal ![1, 1, 4, 1, Real.pi ^ 2, 1, 0] : Mat) 4 4) = Real.pi := by
      rw [Matrix.diagonal_apply_eq]
      exact Real.sqrt_sq hpi.le
    have e0 : (Matrix.diagonal ![1, 1, 4, 1, Real.pi ^ 2, 1, 0] : Mat) 0 0 = 1 := by simp
    have ea : (Matrix.diagonal a : Mat) 0 0 = 4 := by simp [a]
    rw [e4, e0, ea, show cav.ionFys = 0 from rfl, Spec.kickSpread, Spec.kickSpread, show v 0 = 0 from rfl]
    generalize Spec.bunchVar (fun x => Real.sin (0 + Real.pi * x)) = V at *
    have : 0 < k ^ 2 * V := mul_pos (by positivity) hvar
    intro h
    linarith

theorem shifted_squares {R S : Mat} {dx dy : ℝ} (hR : ∀ u, R.mulVec u = Moment.Spec.inFrame dx dy 0 u) (hS : Flat S) :
    (R * S * R.transpose) 0 0 = S 0 0 ∧ (R * S * R.transpose) 2 2 = S 2 2 := by
  have e : R = rotMat dx dy 0 0 0 := by
    ext i j
    have h1 := congrFun (hR (Pi.single j 1)) i
    have h2 := congrFun (rotMat_frame dx dy 0 (Pi.single j 1)) i
    rw [Matrix.mulVec_single_one, Matrix.col_apply] at h1 h2
    rw [h1, h2]
  rw [e, rollM_eq]
  have c0 := fun i => (hS i).1
  have r0 := fun i => (hS i).2
  constructor <;> simp [Matrix.mul_apply, Matrix.vecMul, dotProduct, Fin.sum_univ_seven, rollM, c0, r0]

/-- A cavity that is shifted, but not rolled: in its frame the angles grow by the spread of the deflections over the bunch,
for beams that start as sources make them. -/
theorem C68_shifted_partial {env : Env} {files : Files} {d d' : MDat} {s s' : St MSt} (hr : s.retreat = false) (h0 : d.refIn = none)
    (hcov : ∀ C ∈ s.payload.moment1, Covariance C) (hflat : ∀ C ∈ s.payload.moment1, Flat C)
    (hp : d.pitch = 0) (hyw : d.yaw = 0) (hro : d.roll = 0)
    (h : advanceCavity env files d s = (d', s', none)) (cav : Cav) (hc : d'.cav = some cav) (he : cav.emitGrowth ≠ 0)
    (n : Nat) (S' : Mat) (hS' : s'.payload.moment1[n]? = some S') :
    ∃ p q v S M R, s.payload.real[n]? = some p ∧ s'.payload.real[n]? = some q ∧ s.payload.moment0[n]? = some v ∧
      s.payload.moment1[n]? = some S ∧ s'.payload.transmat[n]? = some M ∧
      (∀ u, R.mulVec u = Moment.Spec.inFrame d.dx d.dy 0 u) ∧
      (∃ k, k = Spec.defocus s.payload.ref.IonZ s.payload.ref.IonEs
            (Spec.gapVoltage cav.ionFys s.payload.ref.IonZ (q.IonW - p.recalc.IonW))
            ((q.beta + p.recalc.beta) / 2 * ((q.gamma + p.recalc.gamma) / 2)) (q.beta * q.gamma)
            (299792458 / cav.fRF * 1000) ∧
        (R * S' * R.transpose) 1 1 = (R * (M * S * M.transpose) * R.transpose) 1 1 +
          Spec.kickSpread k cav.ionFys (Real.sqrt ((R * (M * S * M.transpose) * R.transpose) 4 4))
            ((R * S * R.transpose) 0 0 + R.mulVec v 0 ^ 2) ∧
        (R * S' * R.transpose) 3 3 = (R * (M * S * M.transpose) * R.transpose) 3 3 +
          Spec.kickSpread k cav.ionFys (Real.sqrt ((R * (M * S * M.transpose) * R.transpose) 4 4))
            ((R * S * R.transpose) 2 2 + R.mulVec v 2 ^ 2)) := by
  obtain ⟨p, q, v, S, M, R, a, b, c, k1, k2, k3, k4, k5, k6, -, -, -, -, ⟨k, hk, g1, g2⟩, -⟩ :=
    C68_rolled_partial hr h0 hcov hp hyw h cav hc he n S' hS'
  rw [hro] at k6
  obtain ⟨q1, q2⟩ := shifted_squares k6 (hflat S (List.mem_of_getElem? k4))
  refine ⟨p, q, v, S, M, R, k1, k2, k3, k4, k5, k6, k, hk, ?_, ?_⟩
  · rw [q1, k6 v, ← hro]
    exact g1
  · rw [q2, k6 v, ← hro]
    exact g2

/-- The cavity of `Beam`, shifted and rolled, where growth is asked for, in front of a beam with spread in all directions: the hypotheses of
`C68_rolled_partial` are met. -/
example (env : Env) (files : Files) : ∃ d' s', advanceCavity env files
      { exCavity env with cav := some { exWeak with emitGrowth := 1 }, dx := 2, roll := 1 } (exState false) = (d', s', none) ∧
    (exState false).retreat = false ∧ (exCavity env).refIn = none ∧ (∀ C ∈ (exState false).payload.moment1, Covariance C) ∧
    (exCavity env).pitch = 0 ∧ (exCavity env).yaw = 0 ∧
    ∃ cav S', d'.cav = some cav ∧ cav.emitGrowth ≠ 0 ∧ s'.payload.moment1[0]? = some S' := by
  have hm := exParticle_moving
  have hv := exWeak_voltage
  have hph : ∃ x, drivenPhase (exCavity env).conf { exWeak with emitGrowth := 1, misalign := [(1, 1)] } exParticle.recalc
      (exWeak.fRF / exParticle.SampleFreq) 1 = .ok x := by
    unfold drivenPhase
    rw [show getNumD (exCavity env).conf "syncflag" 1 = 1 by simp [getNumD, exCavity, exDat, exSet]]
    simp only [le_refl, if_true]
    unfold getCavPhase
    rw [if_neg]
    · exact ⟨_, rfl⟩
    · norm_num [exParticle, Particle.recalc, MeVtoeV]
  obtain ⟨x, hx⟩ := hph
  obtain ⟨M, hM⟩ := exWeak_matrix x
  have hZ : |exParticle.IonZ| * (mapOf exWeak.cavData).voltage 1 < exParticle.IonEk := by
    rw [hv]
    norm_num [exParticle]
  have hre : ∀ mis, reload env files (exCavity env).conf { exWeak with emitGrowth := 1, misalign := mis } =
      ({ exWeak with emitGrowth := 1, misalign := mis }, none) := fun mis =>
    reload_same (cav := { exWeak with emitGrowth := 1 }) (show getStr (exCavity env).conf "cavtype" = .ok exWeak.cavType by
        simp [getStr, exCavity, exDat, exSet, exWeak, exGap])
      (fun _ => ⟨"gap.lat", by simp [getStr, exCavity, exDat, exSet], by simp [getStrD, exCavity, exDat, exSet, exWeak]⟩) mis
  have hsq : ∀ x : Fin 7 → ℝ, ∑ i, ∑ j, x i * (1 : Mat) i j * x j = ∑ i, x i * x i := by
    intro x
    refine Finset.sum_congr rfl fun i _ => ?_
    simp [Matrix.one_apply]
  obtain ⟨d', s', h⟩ := C68_succeeds (env := env) (files := files)
    (d := { exCavity env with cav := some { exWeak with emitGrowth := 1 }, dx := 2, roll := 1 }) (s := exState false)
    (scl := 1) (phi := x) (cav0 := { exWeak with emitGrowth := 1 })
    (cav := { exWeak with emitGrowth := 1, misalign := [(1, 1)] }) rfl rfl rfl (hre _)
    (by simp [getNum, exCavity, exDat, exSet]) (by simp [exWeak, exGap, exTable]) ⟨hm, hZ⟩ hx (by
      intro p hp
      rw [List.mem_singleton.1 (show p ∈ [exParticle] from hp)]
      exact ⟨hm, by norm_num [exParticle], hZ, M, hM⟩) (by norm_num [exWeak, exGap])
    (by norm_num [exState, exParticle]) (by
      intro S hS
      rw [List.mem_singleton.1 (show S ∈ [1] from hS)]
      rintro x ⟨i, -, hi⟩
      rw [hsq]
      exact Finset.sum_pos' (fun i _ => mul_self_nonneg _) ⟨i, Finset.mem_univ i, mul_self_pos.2 hi⟩)
  refine ⟨d', s', h, rfl, rfl, ?_, rfl, rfl, ?_⟩
  · intro S hS
    rw [List.mem_singleton.1 (show S ∈ [1] from hS)]
    refine ⟨Matrix.transpose_one, fun x => ?_⟩
    rw [hsq]
    exact Finset.sum_nonneg fun i _ => mul_self_nonneg _
  obtain ⟨cav0, hc0, ⟨hh, -⟩ | ⟨-, cav1, ref, phi, l, mis, hr1, hrec, hmis, -, rfl, rfl⟩⟩ := forward_cases rfl h
  · exact absurd hh (miss _ rfl)
  obtain rfl : { exWeak with emitGrowth := 1 } = cav0 := Option.some.inj hc0
  have e := (hre _).symm.trans hr1
  have e1 : cav1.emitGrowth = 1 := congrArg (fun q : Cav × Option Err => q.1.emitGrowth) e.symm
  refine ⟨_, _, rfl, ?_, List.getElem?_eq_getElem ?_⟩
  · show cav1.emitGrowth ≠ 0
    rw [e1]
    norm_num
  · have hl := recomputeCav_length hrec
    have hl1 : l.length = 1 := hl
    have hl2 : mis.length = 1 := by rw [forEach_length hmis, List.length_map, hl1]
    show 0 < List.length (List.map _ (cavLoop _ _ _ _ _ _ _ _))
    rw [List.length_map]
    refine cavLoop_length _ _ 1 _ _ _ _ _ _ ?_ ?_ ?_ ?_ (le_refl 1) (le_refl 1)
    · show 1 ≤ (l.map _).length
      rw [List.length_map, hl1]
    · exact hl2.ge
    · show 1 ≤ ((l.map _).map _).length
      rw [List.length_map, List.length_map, hl1]
    · rw [ends_length]
      exact le_refl 1

end Flame.Cavity
