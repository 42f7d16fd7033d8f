import Verif.Moment.Bends

/-! # Phase space areas in dipoles with a design momentum of their own: C59 in fit mode 0 -/

namespace Flame.Moment

open Flame.Mach (Err)
open Spec (phaseSpace form Preserves)
open Flame.Linear (cc ss cc_ss getNum getNumD)

theorem edgeM_det (rho phi : ℝ) : (edgeM rho phi).det ≠ 0 := by
  have h : edgeM rho phi * edgeM rho (-phi) = 1 := by
    ext i j
    fin_cases i <;> fin_cases j <;>
      simp [edgeM, setAt, Matrix.mul_apply, Fin.sum_univ_seven, Matrix.one_apply, Real.tan_neg, neg_div]
  exact (det_of_mul_one h).1

/-- The core of a magnetic dipole preserves areas with one weight only, if it has dispersion. -/
theorem sbendCore_iff (w L phi K IonEs refGamma qmrel dipBeta dipGamma dd k : ℝ) (hL : L ≠ 0) (hphi : phi ≠ 0)
    (hK : 0 < K + 1 / (L / phi * (L / phi))) (hpz : dipBeta * dipBeta * dipGamma * IonEs / MeVtoeV ≠ 0)
    (hc : cc (K + 1 / (L / phi * (L / phi))) L ≠ 1) :
    Preserves w (phaseSpace (sbendCore L phi K IonEs refGamma qmrel dipBeta dipGamma dd k)) →
      w * (k * (dipBeta * dipBeta * dipGamma * IonEs / MeVtoeV)) = -1 := by
  obtain ⟨u, v, a, b, s, h, h1, -⟩ := sbendCore_phase L phi K IonEs refGamma qmrel dipBeta dipGamma dd k
  obtain ⟨hu, hv, ha, hb⟩ := h1 hK
  have hr : L / phi ≠ 0 := div_ne_zero hL hphi
  have hcs := cc_ss (K + 1 / (L / phi * (L / phi))) L
  rw [h, bendS_iff, hu, hv, ha, hb]
  generalize K + 1 / (L / phi * (L / phi)) = Kx at *
  generalize cc Kx L = c at *
  generalize ss Kx L = S at *
  generalize L / phi = rho at *
  generalize dipBeta * dipBeta * dipGamma * IonEs / MeVtoeV = pz at *
  have hK' := hK.ne'
  have hS : S ^ 2 = (1 - c ^ 2) / Kx := by field_simp; linarith
  rintro ⟨-, h2⟩
  have t2 : S * (S / rho / pz) - c * ((1 - c) / (rho * Kx) / pz) + w * ((1 - c) / (rho * Kx) * k) =
      (1 - c) / (rho * Kx) / pz * (1 + w * (k * pz)) := by
    have : S * (S / rho / pz) = S ^ 2 / rho / pz := by ring
    rw [this, hS]
    field_simp
    ring
  rw [t2] at h2
  have h0 : (1 - c) / (rho * Kx) / pz ≠ 0 :=
    div_ne_zero (div_ne_zero (fun h => hc (by linarith)) (mul_ne_zero hr hK')) hpz
  have := (mul_eq_zero.1 h2).resolve_left h0
  linarith

/-- The design momentum of fit mode 0 is the configured one. -/
theorem design_bg {bg E : ℝ} (hbg : 0 < bg) (hE : 0 < E) :
    let g := ((Real.sqrt (bg * bg + 1) - 1) * E + E) / E
    let b := Real.sqrt (1 - 1 / (g * g))
    0 < b ∧ b * g = bg := by
  have hpos : 0 < bg * bg + 1 := by positivity
  have hs := Real.sq_sqrt hpos.le
  have hs0 := Real.sqrt_pos.2 hpos
  have hg : ((Real.sqrt (bg * bg + 1) - 1) * E + E) / E = Real.sqrt (bg * bg + 1) := by field_simp; ring
  intro g b
  have hg' : g = Real.sqrt (bg * bg + 1) := hg
  have e : 1 - 1 / (g * g) = (bg / g) ^ 2 := by
    have hg0 : g ≠ 0 := by rw [hg']; exact hs0.ne'
    have hgg : g * g = bg * bg + 1 := by rw [hg', ← pow_two, hs]
    field_simp
    linarith
  have hgpos : 0 < g := by rw [hg']; exact hs0
  have hb : b = bg / g := by
    show Real.sqrt (1 - 1 / (g * g)) = bg / g
    rw [e, Real.sqrt_sq (by positivity)]
  exact ⟨by rw [hb]; positivity, by rw [hb]; field_simp⟩

/-- **C59**, magnetic dipoles in fit mode 0, horizontally focusing, with any edges, field index, offset and roll: every charge
state preserves phase space areas if longitudinal areas are measured with the momentum `bg` of the settings, and, if the
dipole has dispersion at its exit, only then. -/
theorem C59_fit (env : Env) (d : MDat) (ref : Particle) (real : List Particle) (Ts : List Mat) (bg : ℝ)
    (h : recompute env .sbend d ref real = .ok Ts) (hm : d.fitMode = 0) (hbg : getNum d.conf "bg" = .ok bg) (hbg0 : 0 < bg)
    (hE : 0 < ref.IonEs) (hlam : ref.SampleLambda ≠ 0) (h1 : d.pitch = 0) (h2 : d.yaw = 0)
    (L phi : ℝ) (hL : getNum d.conf "L" = .ok L) (hphi : getNum d.conf "phi" = .ok phi) (hL0 : L ≠ 0)
    (hK : 0 < getNumD d.conf "K" 0 + (phi * Real.pi / 180 / L) ^ 2) :
    List.Forall₂ (fun p T => p.SampleIonK ≠ 0 → p.beta ≠ 0 → p.gamma ≠ 0 → ∀ w,
      (w * (2 * Real.pi / ref.SampleLambda * (bg * ref.IonEs / 1000000)) = -1 → Preserves w (phaseSpace T)) ∧
      (phi ≠ 0 → Real.cos (Real.sqrt (getNumD d.conf "K" 0 + (phi * Real.pi / 180 / L) ^ 2) * L) ≠ 1 →
        Preserves w (phaseSpace T) → w * (2 * Real.pi / ref.SampleLambda * (bg * ref.IonEs / 1000000)) = -1)) real Ts := by
  change sbendRec d ref real = .ok Ts at h
  unfold sbendRec at h
  split at h
  · rename_i L' phi' phi1 phi2 hL' hphi' _ _
    rw [hL] at hL'
    rw [hphi] at hphi'
    cases hL'
    cases hphi'
    rw [forEach_ok] at h
    refine h.imp ?_
    intro p T hT hk hb hg w
    have hM : MtoMM = 1000 := by unfold MtoMM; norm_num
    have hL1 : L * MtoMM ≠ 0 := mul_ne_zero hL0 (by rw [hM]; norm_num)
    rw [if_pos hL1] at hT
    have eK : getNumD d.conf "K" 0 / (MtoMM * MtoMM) +
        1 / (L * MtoMM / (phi * Real.pi / 180) * (L * MtoMM / (phi * Real.pi / 180))) =
          (getNumD d.conf "K" 0 + (phi * Real.pi / 180 / L) ^ 2) / (MtoMM * MtoMM) := by
      rw [hM]
      by_cases hphi0 : phi = 0
      · rw [hphi0]; simp
      · have := Real.pi_pos.ne'
        field_simp
    have hKx : 0 < getNumD d.conf "K" 0 / (MtoMM * MtoMM) +
        1 / (L * MtoMM / (phi * Real.pi / 180) * (L * MtoMM / (phi * Real.pi / 180))) := by
      rw [eK]
      exact div_pos hK (by rw [hM]; norm_num)
    unfold sbendOne at hT
    dsimp only at hT
    rw [if_pos hm, hbg] at hT
    dsimp only at hT
    obtain ⟨hb0, hbgE⟩ := design_bg hbg0 hE
    generalize ((Real.sqrt (bg * bg + 1) - 1) * ref.IonEs + ref.IonEs) / ref.IonEs = g at hT hb0 hbgE
    generalize Real.sqrt (1 - 1 / (g * g)) = b at hT hb0 hbgE
    have hpz : b * b * g * ref.IonEs / MeVtoeV = b * (bg * ref.IonEs / 1000000) := by
      rw [← hbgE]; unfold MeVtoeV; ring
    have hpz0 : b * b * g * ref.IonEs / MeVtoeV ≠ 0 := by
      rw [hpz]; positivity
    have hwt : 2 * Real.pi / (b * ref.SampleLambda) * (b * b * g * ref.IonEs / MeVtoeV) =
        2 * Real.pi / ref.SampleLambda * (bg * ref.IonEs / 1000000) := by
      rw [hpz]
      have := hb0.ne'
      field_simp
    constructor
    · intro hw
      have hG := sbendM_good w (L * MtoMM) (phi * Real.pi / 180) (phi1 * Real.pi / 180) (phi2 * Real.pi / 180)
        (getNumD d.conf "K" 0 / (MtoMM * MtoMM)) ref.IonEs ref.gamma ((p.IonZ - ref.IonZ) / ref.IonZ) b g
        ((ref.gamma - g) / (b * b * g) - (p.IonZ - ref.IonZ) / ref.IonZ) (2 * Real.pi / (b * ref.SampleLambda)) hKx
        (by rw [hwt]; exact hw)
      exact (aligned_roll_good hT hG h1 h2 hk hb hg hE.ne').2
    · intro hphi0 hc hpres
      rw [← hwt]
      obtain ⟨hz, hp⟩ := unit_ne ref p hk hb hg hE.ne'
      have hmis := getMisalign_roll d ref p h1 h2 hz hp
      unfold aligned at hT
      rw [hmis, sbendM_split] at hT
      cases hT
      have hang : phi * Real.pi / 180 ≠ 0 := by
        have := Real.pi_pos.ne'
        exact div_ne_zero (mul_ne_zero hphi0 this) (by norm_num)
      have hcc : cc (getNumD d.conf "K" 0 / (MtoMM * MtoMM) +
          1 / (L * MtoMM / (phi * Real.pi / 180) * (L * MtoMM / (phi * Real.pi / 180)))) (L * MtoMM) ≠ 1 := by
        unfold cc
        rw [if_pos hKx, eK, Real.sqrt_div hK.le, Real.sqrt_mul_self (by rw [hM]; norm_num)]
        have : Real.sqrt (getNumD d.conf "K" 0 + (phi * Real.pi / 180 / L) ^ 2) / MtoMM * (L * MtoMM) =
            Real.sqrt (getNumD d.conf "K" 0 + (phi * Real.pi / 180 / L) ^ 2) * L := by
          rw [hM]; field_simp
        rw [this]
        exact hc
      refine sbendCore_iff w _ _ _ ref.IonEs ref.gamma ((p.IonZ - ref.IonZ) / ref.IonZ) b g
        ((ref.gamma - g) / (b * b * g) - (p.IonZ - ref.IonZ) / ref.IonZ) _ hL1 hang hKx hpz0 hcc ?_
      have hcore := sbendCore_keeps (L * MtoMM) (phi * Real.pi / 180) (getNumD d.conf "K" 0 / (MtoMM * MtoMM)) ref.IonEs
        ref.gamma ((p.IonZ - ref.IonZ) / ref.IonZ) b g
        ((ref.gamma - g) / (b * b * g) - (p.IonZ - ref.IonZ) / ref.IonZ) (2 * Real.pi / (b * ref.SampleLambda))
      generalize sbendCore _ _ _ _ _ _ _ _ _ _ = C at hcore hpres ⊢
      have ge1 := edgeM_good w (L * MtoMM / (phi * Real.pi / 180)) (phi1 * Real.pi / 180)
      have ge2 := edgeM_good w (L * MtoMM / (phi * Real.pi / 180)) (phi2 * Real.pi / 180)
      have gr := roll_good w d.dx d.dy d.roll
      have dr := rotMat_det d.dx d.dy 0 0 d.roll
      have gri := gr.inv dr
      have dri := (det_of_mul_one (rotMat_inv d.dx d.dy 0 0 d.roll).1).1
      have hkeep := gri.1.mul ((ge2.1.mul (hcore.mul ge1.1)).mul gr.1)
      exact (Good.cancel ge2 ge1 (edgeM_det _ _) (edgeM_det _ _) (Good.cancel gri gr dri dr ⟨hkeep, hpres⟩)).2
  · cases h

/-- **C59** is false in fit mode 0 for areas measured with the momentum of the beam, as in all other elements, whenever `bg` is
not that momentum: no charge state preserves them. -/
theorem C59_fit_false (env : Env) (d : MDat) (q : Particle) (real : List Particle) (Ts : List Mat) (bg w : ℝ)
    (h : recompute env .sbend d q.recalc real = .ok Ts) (hm : d.fitMode = 0) (hbg : getNum d.conf "bg" = .ok bg) (hbg0 : 0 < bg)
    (hE : 0 < q.IonEs) (hEk : 0 < q.IonEk) (hf : q.SampleFreq ≠ 0) (h1 : d.pitch = 0) (h2 : d.yaw = 0)
    (L phi : ℝ) (hL : getNum d.conf "L" = .ok L) (hphi : getNum d.conf "phi" = .ok phi) (hL0 : L ≠ 0)
    (hK : 0 < getNumD d.conf "K" 0 + (phi * Real.pi / 180 / L) ^ 2) (hphi0 : phi ≠ 0)
    (hc : Real.cos (Real.sqrt (getNumD d.conf "K" 0 + (phi * Real.pi / 180 / L) ^ 2) * L) ≠ 1)
    (hne : bg ≠ q.recalc.beta * q.recalc.gamma)
    (hw : w * (q.recalc.SampleIonK * (q.recalc.beta ^ 2 * q.recalc.gamma * q.IonEs / 1000000)) = -1) :
    List.Forall₂ (fun p T => p.SampleIonK ≠ 0 → p.beta ≠ 0 → p.gamma ≠ 0 → ¬ Preserves w (phaseSpace T)) real Ts := by
  obtain ⟨hk, hb, hg, -⟩ := moving q hE hEk hf
  have hlam : q.recalc.SampleLambda ≠ 0 := by
    intro e
    apply hk
    show 2 * Real.pi / (q.recalc.beta * q.recalc.SampleLambda) = 0
    rw [e, mul_zero, div_zero]
  refine (C59_fit env d q.recalc real Ts bg h hm hbg hbg0 hE hlam h1 h2 L phi hL hphi hL0 hK).imp ?_
  intro p T hT hpk hpb hpg hpres
  have e1 := (hT hpk hpb hpg w).2 hphi0 hc hpres
  have hki : q.recalc.SampleIonK = 2 * Real.pi / (q.recalc.beta * q.recalc.SampleLambda) := rfl
  have e2 : q.recalc.SampleIonK * (q.recalc.beta ^ 2 * q.recalc.gamma * q.IonEs / 1000000) =
      2 * Real.pi / q.recalc.SampleLambda * (q.recalc.beta * q.recalc.gamma * q.IonEs / 1000000) := by
    rw [hki]
    field_simp
  rw [e2] at hw
  have hw0 : w ≠ 0 := fun e => by rw [e] at hw; norm_num at hw
  have e3 := mul_left_cancel₀ hw0 (e1.trans hw.symm)
  have hpi : 2 * Real.pi / q.recalc.SampleLambda ≠ 0 := div_ne_zero (by have := Real.pi_pos; positivity) hlam
  have e4 := mul_left_cancel₀ hpi e3
  have hEs : q.recalc.IonEs = q.IonEs := rfl
  rw [hEs] at e4
  refine hne (mul_right_cancel₀ hE.ne' ?_)
  linarith

/-- A rolled dipole of 45 degrees and 0.6 m for a beam that is faster than its design: the matrix is computed and the
hypotheses of both theorems are met. -/
example (env : Env) (d : MDat) (h1 : d.pitch = 0) (h2 : d.yaw = 0) (_h3 : d.roll = 0.1) (hm : d.fitMode = 0)
    (hc : d.conf = fun k => if k = "L" then some (.num 0.6) else if k = "phi" then some (.num 45)
      else if k = "phi1" then some (.num 7) else if k = "phi2" then some (.num 7)
      else if k = "bg" then some (.num 1) else none) :
    let q : Particle := ⟨33 / 238, 1, 1000000, 0, 0, 0, 0, 80500000, 0, 0, 0, 1000000⟩
    ∃ T w, recompute env .sbend d q.recalc [q.recalc] = .ok [T] ∧
      w * (2 * Real.pi / q.recalc.SampleLambda * (1 * q.IonEs / 1000000)) = -1 ∧ Preserves w (phaseSpace T) ∧
      ∀ w', w' * (q.recalc.SampleIonK * (q.recalc.beta ^ 2 * q.recalc.gamma * q.IonEs / 1000000)) = -1 →
        ¬ Preserves w' (phaseSpace T) := by
  intro q
  have hE : 0 < q.IonEs := by norm_num [q]
  have hEk : 0 < q.IonEk := by norm_num [q]
  have hf : q.SampleFreq ≠ 0 := by norm_num [q]
  obtain ⟨hK, hb, hg, hE0⟩ := moving q hE hEk hf
  obtain ⟨hz, hp⟩ := unit_ne q.recalc q.recalc hK hb hg hE0
  have hL : getNum d.conf "L" = .ok 0.6 := by simp [hc, getNum]
  have hphi : getNum d.conf "phi" = .ok 45 := by simp [hc, getNum]
  have he1 : getNum d.conf "phi1" = .ok 7 := by simp [hc, getNum]
  have he2 : getNum d.conf "phi2" = .ok 7 := by simp [hc, getNum]
  have hbg : getNum d.conf "bg" = .ok 1 := by simp [hc, getNum]
  have hKD : getNumD d.conf "K" 0 = 0 := by simp [hc, getNumD]
  have hlam : q.recalc.SampleLambda ≠ 0 := by
    intro e
    apply hK
    show 2 * Real.pi / (q.recalc.beta * q.recalc.SampleLambda) = 0
    rw [e, mul_zero, div_zero]
  have hr : ∃ T, recompute env .sbend d q.recalc [q.recalc] = .ok [T] := by
    show ∃ T, sbendRec d q.recalc [q.recalc] = .ok [T]
    unfold sbendRec
    simp only [hL, hphi, he1, he2, forEach]
    rw [if_pos (by unfold MtoMM; norm_num)]
    unfold sbendOne aligned
    rw [if_pos hm, hbg, getMisalign_eq _ q.recalc q.recalc hz hp]
    exact ⟨_, rfl⟩
  obtain ⟨T, hT⟩ := hr
  have hpi := Real.pi_pos
  have hKp : 0 < getNumD d.conf "K" 0 + (45 * Real.pi / 180 / 0.6) ^ 2 := by rw [hKD]; positivity
  have hcos : Real.cos (Real.sqrt (getNumD d.conf "K" 0 + (45 * Real.pi / 180 / 0.6) ^ 2) * 0.6) ≠ 1 := by
    rw [hKD, zero_add, Real.sqrt_sq (by positivity), div_mul_cancel₀ _ (by norm_num : (0.6 : ℝ) ≠ 0),
      show 45 * Real.pi / 180 = Real.pi / 4 by ring, Real.cos_pi_div_four]
    intro e
    have h2 := Real.sq_sqrt (show (0 : ℝ) ≤ 2 by norm_num)
    have : Real.sqrt 2 = 2 := by linarith
    rw [this] at h2
    norm_num at h2
  obtain ⟨-, -, -, -, -, hgb, -⟩ := C38_energy q hE hEk.le
  have hgam : q.recalc.gamma = 2 := by norm_num [q, Particle.recalc]
  have hne : (1 : ℝ) ≠ q.recalc.beta * q.recalc.gamma := by
    intro e
    rw [hgam] at hgb e
    nlinarith
  have hx : 2 * Real.pi / q.recalc.SampleLambda * (1 * q.IonEs / 1000000) ≠ 0 :=
    mul_ne_zero (div_ne_zero (by positivity) hlam) (by norm_num [q])
  have hw : -(2 * Real.pi / q.recalc.SampleLambda * (1 * q.IonEs / 1000000))⁻¹ *
      (2 * Real.pi / q.recalc.SampleLambda * (1 * q.IonEs / 1000000)) = -1 := by rw [neg_mul, inv_mul_cancel₀ hx]
  refine ⟨T, _, hT, hw, ?_, fun w' hw' => ?_⟩
  · have := C59_fit env d q.recalc [q.recalc] [T] 1 hT hm hbg one_pos hE hlam h1 h2 0.6 45 hL hphi (by norm_num) hKp
    rw [List.forall₂_cons] at this
    exact (this.1 hK hb hg _).1 hw
  · have := C59_fit_false env d q [q.recalc] [T] 1 w' hT hm hbg one_pos hE hEk hf h1 h2 0.6 45 hL hphi (by norm_num) hKp
      (by norm_num) hcos hne hw'
    rw [List.forall₂_cons] at this
    exact this.1 hK hb hg

end Flame.Moment
