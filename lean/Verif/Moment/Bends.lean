import Verif.Moment.Optics

/-! # Phase space areas in dipoles: C59 -/

set_option linter.unusedSimpArgs false

namespace Flame.Moment

open Flame.Mach (Err)
open Spec (phaseSpace form Preserves)
open Flame.Linear (cc ss cc_ss getNum getNumD)

/-- A bend in closed form: planes, dispersion `u`, `v` and its longitudinal counterpart `a`, `b`. -/
noncomputable def bendS (kx ky L u v a b s : ℝ) : Matrix (Fin 6) (Fin 6) ℝ :=
  !![cc kx L, ss kx L, 0, 0, 0, u;
     -kx * ss kx L, cc kx L, 0, 0, 0, v;
     0, 0, cc ky L, ss ky L, 0, 0;
     0, 0, -ky * ss ky L, cc ky L, 0, 0;
     a, b, 0, 0, 1, s;
     0, 0, 0, 0, 0, 1]

/-- A bend preserves areas exactly if dispersion and longitudinal terms match. -/
theorem bendS_iff (w kx ky L u v a b s : ℝ) : Preserves w (bendS kx ky L u v a b s) ↔
    (cc kx L * v + kx * ss kx L * u + w * a = 0 ∧ ss kx L * v - cc kx L * u + w * b = 0) := by
  have hx := cc_ss kx L
  have hy := cc_ss ky L
  unfold Preserves
  constructor
  · intro h
    have h1 := congrFun (congrFun h 0) 5
    have h2 := congrFun (congrFun h 1) 5
    simp [bendS, form, Matrix.mul_apply, Fin.sum_univ_six] at h1 h2
    exact ⟨by linear_combination h1, by linear_combination h2⟩
  · rintro ⟨h1, h2⟩
    ext i j
    fin_cases i <;> fin_cases j <;>
      simp [bendS, form, Matrix.mul_apply, Fin.sum_univ_six] <;>
      first
        | ring1
        | linear_combination hx
        | linear_combination -hx
        | linear_combination hy
        | linear_combination -hy
        | linear_combination h1
        | linear_combination -h1
        | linear_combination h2
        | linear_combination -h2

/-- The bend between its edges. -/
noncomputable def sbendCore (L phi K IonEs refGamma qmrel dipBeta dipGamma dd dipIonK : ℝ) : Mat :=
  sbendM L phi 0 0 K IonEs refGamma qmrel dipBeta dipGamma dd dipIonK 1

theorem edgeM_zero (rho : ℝ) : edgeM rho 0 = 1 := by
  ext i j
  fin_cases i <;> fin_cases j <;> simp [edgeM, setAt, Matrix.one_apply]

theorem sbendM_split (L phi phi1 phi2 K IonEs refGamma qmrel dipBeta dipGamma dd dipIonK : ℝ) :
    sbendM L phi phi1 phi2 K IonEs refGamma qmrel dipBeta dipGamma dd dipIonK 1 =
      edgeM (L / phi) phi2 * (sbendCore L phi K IonEs refGamma qmrel dipBeta dipGamma dd dipIonK * edgeM (L / phi) phi1) := by
  unfold sbendCore sbendM
  simp only [edgeM_zero, one_mul, mul_one]

theorem sbendCore_keeps (L phi K IonEs refGamma qmrel dipBeta dipGamma dd dipIonK : ℝ) :
    Keeps7 (sbendCore L phi K IonEs refGamma qmrel dipBeta dipGamma dd dipIonK) := by
  intro j
  unfold sbendCore sbendM
  simp only [edgeM_zero, one_mul, mul_one]
  rw [quadPlane_eq, quadPlane_eq]
  fin_cases j <;> simp [setAt, Matrix.one_apply]

theorem sbendCore_phase (L phi K IonEs refGamma qmrel dipBeta dipGamma dd dipIonK : ℝ) :
    ∃ u v a b s, phaseSpace (sbendCore L phi K IonEs refGamma qmrel dipBeta dipGamma dd dipIonK) =
      bendS (K + 1 / (L / phi * (L / phi))) (-K) L u v a b s ∧
      (0 < K + 1 / (L / phi * (L / phi)) →
        u = (1 - cc (K + 1 / (L / phi * (L / phi))) L) / (L / phi * (K + 1 / (L / phi * (L / phi)))) /
          (dipBeta * dipBeta * dipGamma * IonEs / MeVtoeV) ∧
        v = ss (K + 1 / (L / phi * (L / phi))) L / (L / phi) / (dipBeta * dipBeta * dipGamma * IonEs / MeVtoeV) ∧
        a = ss (K + 1 / (L / phi * (L / phi))) L / (L / phi) * dipIonK ∧
        b = (1 - cc (K + 1 / (L / phi * (L / phi))) L) / (L / phi * (K + 1 / (L / phi * (L / phi)))) * dipIonK) ∧
      (K + 1 / (L / phi * (L / phi)) < 0 →
        u = (1 - cc (K + 1 / (L / phi * (L / phi))) L) / (L / phi * (K + 1 / (L / phi * (L / phi)))) /
          (dipBeta * dipBeta * dipGamma * IonEs / MeVtoeV) ∧
        v = Real.sin (Real.sqrt (-(K + 1 / (L / phi * (L / phi)))) * L) /
          (L / phi * Real.sqrt (-(K + 1 / (L / phi * (L / phi))))) / (dipBeta * dipBeta * dipGamma * IonEs / MeVtoeV) ∧
        a = Real.sin (Real.sqrt (-(K + 1 / (L / phi * (L / phi)))) * L) /
          (L / phi * Real.sqrt (-(K + 1 / (L / phi * (L / phi))))) * dipIonK) := by
  refine ⟨sbendCore L phi K IonEs refGamma qmrel dipBeta dipGamma dd dipIonK 0 5,
    sbendCore L phi K IonEs refGamma qmrel dipBeta dipGamma dd dipIonK 1 5,
    sbendCore L phi K IonEs refGamma qmrel dipBeta dipGamma dd dipIonK 4 0,
    sbendCore L phi K IonEs refGamma qmrel dipBeta dipGamma dd dipIonK 4 1,
    sbendCore L phi K IonEs refGamma qmrel dipBeta dipGamma dd dipIonK 4 5, ?_⟩
  unfold sbendCore sbendM
  simp only [edgeM_zero, one_mul, mul_one]
  rw [quadPlane_eq, quadPlane_eq]
  generalize K + 1 / (L / phi * (L / phi)) = Kx
  generalize L / phi = rho
  refine ⟨?_, ?_, ?_⟩
  · ext i j
    fin_cases i <;> fin_cases j <;> simp [phaseSpace, setAt, bendS, Matrix.one_apply]
  · intro h
    have hs : Real.sqrt Kx ≠ 0 := (Real.sqrt_pos.2 h).ne'
    simp only [if_neg h.ne', if_pos h, cc, ss]
    refine ⟨?_, ?_, ?_, ?_⟩ <;> simp only [setAt] <;> simp only [reduceCtorEq, Fin.reduceEq, and_false, and_true,
      false_and, and_self, if_true, if_false] <;> ring1
  · intro h
    simp only [if_neg h.ne, if_neg (not_lt.2 h.le), cc]
    refine ⟨?_, ?_, ?_⟩ <;> simp [setAt, h, h.ne, not_lt.2 h.le]

/-- Dispersion and longitudinal terms of a bend match if both come from the same momentum. -/
theorem bendS_matched (w kx ky L rho pz k u v a b s : ℝ) (hkx : kx ≠ 0)
    (hu : u = (1 - cc kx L) / (rho * kx) / pz) (hv : v = ss kx L / rho / pz) (ha : a = ss kx L / rho * k)
    (hb : b = (1 - cc kx L) / (rho * kx) * k) (hw : w * (k * pz) = -1) : Preserves w (bendS kx ky L u v a b s) := by
  have hpz : pz ≠ 0 := fun e => by rw [e] at hw; norm_num at hw
  have hk : w * k = -(1 / pz) := by field_simp; linarith
  have h := cc_ss kx L
  rw [bendS_iff, hu, hv, ha, hb]
  generalize cc kx L = c at *
  generalize ss kx L = S at *
  by_cases hr : rho = 0
  · subst hr
    simp
  constructor
  · have : kx * S * ((1 - c) / (rho * kx) / pz) = S * (1 - c) / rho / pz := by field_simp
    rw [this]
    linear_combination S / rho * hk
  · have e : S * (S / rho / pz) = (1 - c ^ 2) / (rho * kx) / pz := by
      rw [show 1 - c ^ 2 = kx * S ^ 2 by linarith]
      field_simp
    rw [e]
    linear_combination (1 - c) / (rho * kx) * hk

theorem sbendM_good (w L phi phi1 phi2 K IonEs refGamma qmrel dipBeta dipGamma dd dipIonK : ℝ)
    (hK : 0 < K + 1 / (L / phi * (L / phi)))
    (hw : w * (dipIonK * (dipBeta * dipBeta * dipGamma * IonEs / MeVtoeV)) = -1) :
    Good w (sbendM L phi phi1 phi2 K IonEs refGamma qmrel dipBeta dipGamma dd dipIonK 1) := by
  rw [sbendM_split]
  refine (edgeM_good _ _ _).mul (Good.mul ⟨sbendCore_keeps _ _ _ _ _ _ _ _ _ _, ?_⟩ (edgeM_good _ _ _))
  obtain ⟨u, v, a, b, s, h, h1, -⟩ := sbendCore_phase L phi K IonEs refGamma qmrel dipBeta dipGamma dd dipIonK
  obtain ⟨hu, hv, ha, hb⟩ := h1 hK
  rw [h]
  exact bendS_matched w _ _ L (L / phi) _ dipIonK u v a b s hK.ne' hu hv ha hb hw

/-- A magnetic dipole in the default fit mode preserves phase space areas, longitudinal areas being measured with the
momentum of the reference particle, if it focuses horizontally (`K` plus the square of the curvature is positive).  This
holds for any edges, field index, roll and offset, and with pitch and yaw for particles with the momentum of the
reference particle. -/
theorem C59_sbend (env : Env) (d : MDat) (ref : Particle) (real : List Particle) (Ts : List Mat) (w : ℝ)
    (h : recompute env .sbend d ref real = .ok Ts) (hm : d.fitMode ≠ 0)
    (hw : w * (ref.SampleIonK * (ref.beta ^ 2 * ref.gamma * ref.IonEs / 1000000)) = -1)
    (hK : ∀ L phi, getNum d.conf "L" = .ok L → getNum d.conf "phi" = .ok phi → L ≠ 0 →
      0 < getNumD d.conf "K" 0 + (phi * Real.pi / 180 / L) ^ 2) :
    List.Forall₂ (fun p T => p.SampleIonK ≠ 0 → p.beta ≠ 0 → p.gamma ≠ 0 →
      (d.pitch = 0 ∧ d.yaw = 0) ∨ w * (p.SampleIonK * (p.beta ^ 2 * p.gamma * ref.IonEs / 1000000)) = -1 →
      Preserves w (phaseSpace T)) real Ts := by
  change sbendRec d ref real = .ok Ts at h
  unfold sbendRec at h
  split at h
  · rename_i L phi phi1 phi2 hL hphi _ _
    rw [forEach_ok] at h
    refine h.imp ?_
    intro p T hT hk hb hg hp
    split at hT
    · rename_i hL0
      have hL1 : L ≠ 0 := fun e => hL0 (by rw [e, zero_mul])
      have hKx : 0 < getNumD d.conf "K" 0 / (MtoMM * MtoMM) +
          1 / (L * MtoMM / (phi * Real.pi / 180) * (L * MtoMM / (phi * Real.pi / 180))) := by
        have := hK L phi hL hphi hL1
        have e : getNumD d.conf "K" 0 / (MtoMM * MtoMM) +
          1 / (L * MtoMM / (phi * Real.pi / 180) * (L * MtoMM / (phi * Real.pi / 180))) =
            (getNumD d.conf "K" 0 + (phi * Real.pi / 180 / L) ^ 2) / (MtoMM * MtoMM) := by
          unfold MtoMM
          by_cases hphi0 : phi = 0
          · rw [hphi0]; simp
          · have := Real.pi_pos.ne'
            field_simp
        rw [e]
        exact div_pos this (by unfold MtoMM; norm_num)
      have hE : ref.IonEs ≠ 0 := fun e => by rw [e] at hw; norm_num at hw
      unfold sbendOne at hT
      rw [if_neg hm] at hT
      have hG := sbendM_good w (L * MtoMM) (phi * Real.pi / 180) (phi1 * Real.pi / 180) (phi2 * Real.pi / 180)
        (getNumD d.conf "K" 0 / (MtoMM * MtoMM)) ref.IonEs ref.gamma ((p.IonZ - ref.IonZ) / ref.IonZ) ref.beta ref.gamma
        (-((p.IonZ - ref.IonZ) / ref.IonZ)) ref.SampleIonK hKx (by
          rw [← hw]; unfold MeVtoeV; ring)
      rcases hp with ⟨h1, h2⟩ | hp
      · exact (aligned_roll_good hT hG h1 h2 hk hb hg hE).2
      · exact (aligned_good hT hG hp).2
    · cases hT
      exact (Good.one w).2
  · cases h

/-- Without the condition on `K` this fails: for each length and angle there is a defocusing `K` with which the bend
preserves no such area, whatever the weight.  (`GetSBendMatrix` takes a sine where the solution is a hyperbolic one,
/repo/src/moment_sup.cpp:217-273.) -/
theorem C59_sbend_false (L phi : ℝ) (hL : L ≠ 0) (hphi : phi ≠ 0) : ∃ K, K + 1 / (L / phi * (L / phi)) < 0 ∧
    ∀ IonEs refGamma qmrel dipBeta dipGamma dd dipIonK, dipBeta * dipBeta * dipGamma * IonEs ≠ 0 →
      ∀ w, ¬ Preserves w (phaseSpace (sbendM L phi 0 0 K IonEs refGamma qmrel dipBeta dipGamma dd dipIonK 1)) := by
  have hr : L / phi ≠ 0 := div_ne_zero hL hphi
  have hneg : -((Real.pi / L) ^ 2) < 0 := by
    have : 0 < (Real.pi / L) ^ 2 := by have := div_ne_zero Real.pi_pos.ne' hL; positivity
    linarith
  refine ⟨-((Real.pi / L) ^ 2) - 1 / (L / phi * (L / phi)), by simpa using hneg, ?_⟩
  intro IonEs refGamma qmrel dipBeta dipGamma dd dipIonK hpz w h
  obtain ⟨u, v, a, b, s, e, -, h1⟩ := sbendCore_phase L phi (-((Real.pi / L) ^ 2) - 1 / (L / phi * (L / phi))) IonEs refGamma
    qmrel dipBeta dipGamma dd dipIonK
  unfold sbendCore at e
  rw [e, bendS_iff] at h
  rw [sub_add_cancel] at h h1
  obtain ⟨hu, hv, ha⟩ := h1 hneg
  have hs : Real.sqrt (-(-((Real.pi / L) ^ 2))) * L = Real.pi ∨ Real.sqrt (-(-((Real.pi / L) ^ 2))) * L = -Real.pi := by
    rw [neg_neg, Real.sqrt_sq_eq_abs]
    rcases le_total 0 (Real.pi / L) with h0 | h0
    · left; rw [abs_of_nonneg h0]; field_simp
    · right; rw [abs_of_nonpos h0]; field_simp
  have hsin : Real.sin (Real.sqrt (-(-((Real.pi / L) ^ 2))) * L) = 0 := by
    rcases hs with h | h <;> rw [h] <;> simp
  rw [hsin, zero_div, zero_div] at hv
  rw [hsin, zero_div, zero_mul] at ha
  have hcosh : 1 < cc (-((Real.pi / L) ^ 2)) L := by
    unfold cc
    rw [if_neg (not_lt.2 hneg.le), Real.one_lt_cosh]
    rcases hs with h | h <;> rw [h] <;> simp [Real.pi_pos.ne']
  have hsinh : ss (-((Real.pi / L) ^ 2)) L ≠ 0 := by
    intro h0
    have := cc_ss (-((Real.pi / L) ^ 2)) L
    rw [h0] at this
    nlinarith
  have hu0 : u ≠ 0 := by
    rw [hu]
    refine div_ne_zero (div_ne_zero (by linarith) (mul_ne_zero hr hneg.ne)) (div_ne_zero hpz (by unfold MeVtoeV; norm_num))
  have := h.1
  rw [hv, ha, mul_zero, mul_zero, zero_add, add_zero] at this
  exact mul_ne_zero (mul_ne_zero hneg.ne hsinh) hu0 this

/-! ## electrostatic dipoles -/

theorem eedgeM_good (w fx fy : ℝ) : Good w (eedgeM fx fy 0) := by
  have h : eedgeM fx fy 0 = setAt (setAt 1 1 0 fx) 3 2 fy := by
    unfold eedgeM
    simp only [add_zero, Real.sqrt_one]
    ext i j
    fin_cases i <;> fin_cases j <;> simp [setAt, Matrix.one_apply]
  rw [h]
  refine ⟨fun j => ?_, ?_⟩
  · fin_cases j <;> simp [setAt, Matrix.one_apply]
  have h : phaseSpace (setAt (setAt 1 1 0 fx) 3 2 fy) =
      !![1, 0, 0, 0, 0, 0; fx, 1, 0, 0, 0, 0; 0, 0, 1, 0, 0, 0; 0, 0, fy, 1, 0, 0;
        0, 0, 0, 0, 1, 0; 0, 0, 0, 0, 0, 1] := by
    ext a b
    fin_cases a <;> fin_cases b <;> simp [phaseSpace, setAt, Matrix.one_apply]
  rw [h]
  unfold Preserves
  ext i j
  fin_cases i <;> fin_cases j <;> simp [form, Matrix.mul_apply, Fin.sum_univ_six]

theorem rot90_good (w : ℝ) : Good w rot90 := by
  refine ⟨fun j => ?_, ?_⟩
  · fin_cases j <;> simp [rot90, setAt, Matrix.one_apply]
  have h : phaseSpace rot90 =
      !![0, 0, -1, 0, 0, 0; 0, 0, 0, -1, 0, 0; 1, 0, 0, 0, 0, 0; 0, 1, 0, 0, 0, 0;
        0, 0, 0, 0, 1, 0; 0, 0, 0, 0, 0, 1] := by
    ext a b
    fin_cases a <;> fin_cases b <;> simp [phaseSpace, rot90, setAt, Matrix.one_apply]
  rw [h]
  unfold Preserves
  ext i j
  fin_cases i <;> fin_cases j <;> simp [form, Matrix.mul_apply, Fin.sum_univ_six]

theorem rot90_transpose : rot90 * rot90.transpose = 1 := by
  ext i j
  simp only [Matrix.mul_apply, Fin.sum_univ_seven, Matrix.transpose_apply]
  fin_cases i <;> fin_cases j <;> simp [rot90, setAt, Matrix.one_apply]

/-- Factors with inverse can be cancelled. -/
theorem Good.cancel {w : ℝ} {A B M : Mat} (hA : Good w A) (hB : Good w B) (dA : A.det ≠ 0) (dB : B.det ≠ 0)
    (h : Good w (A * (M * B))) : Good w M := by
  have e : M = A⁻¹ * ((A * (M * B)) * B⁻¹) := by
    have h1 : A⁻¹ * A = 1 := Matrix.nonsing_inv_mul A (isUnit_iff_ne_zero.2 dA)
    have h2 : B * B⁻¹ = 1 := Matrix.mul_nonsing_inv B (isUnit_iff_ne_zero.2 dB)
    rw [Matrix.mul_assoc A, Matrix.mul_assoc M, h2, mul_one, ← Matrix.mul_assoc, h1, one_mul]
  rw [e]
  exact (hA.inv dA).mul (h.mul (hB.inv dB))

theorem det_of_mul_one {A B : Mat} (h : A * B = 1) : A.det ≠ 0 ∧ B.det ≠ 0 := by
  have := congrArg Matrix.det h
  rw [Matrix.det_mul, Matrix.det_one] at this
  exact ⟨fun e => by rw [e] at this; norm_num at this, fun e => by rw [e] at this; norm_num at this⟩

theorem eedgeM_det (fx fy : ℝ) : (eedgeM fx fy 0).det ≠ 0 := by
  refine (det_of_mul_one (B := eedgeM (-fx) (-fy) 0) ?_).1
  ext i j
  simp only [Matrix.mul_apply, Fin.sum_univ_seven]
  fin_cases i <;> fin_cases j <;> simp [eedgeM, setAt, Matrix.one_apply]

/-- The dipole between its edges. -/
noncomputable def ebendCore (L phi Kx Ky IonEs realGamma eta0 h deltaK deltaKZ k : ℝ) : Mat :=
  ebendM L phi 0 0 0 Kx Ky IonEs realGamma eta0 h deltaK deltaKZ k 1

theorem eedgeM_zero : eedgeM 0 0 0 = 1 := by
  ext i j
  fin_cases i <;> fin_cases j <;> simp [eedgeM, setAt, Matrix.one_apply]

theorem ebendM_split (L phi fx fy Kx Ky IonEs realGamma eta0 h deltaK deltaKZ k : ℝ) :
    ebendM L phi fx fy 0 Kx Ky IonEs realGamma eta0 h deltaK deltaKZ k 1 =
      eedgeM fx fy 0 * (ebendCore L phi Kx Ky IonEs realGamma eta0 h deltaK deltaKZ k * eedgeM fx fy 0) := by
  unfold ebendCore ebendM
  simp only [eedgeM_zero, one_mul, mul_one]

theorem ebendCore_keeps (L phi Kx Ky IonEs realGamma eta0 h deltaK deltaKZ k : ℝ) :
    Keeps7 (ebendCore L phi Kx Ky IonEs realGamma eta0 h deltaK deltaKZ k) := by
  intro j
  unfold ebendCore ebendM
  simp only [eedgeM_zero, one_mul, mul_one]
  rw [quadPlane_eq, quadPlane_eq]
  fin_cases j <;> simp [setAt, Matrix.one_apply]

theorem ebendCore_phase (L phi Kx Ky IonEs g deltaK deltaKZ k : ℝ) (hK : 0 < Kx) :
    ∃ s, phaseSpace (ebendCore L phi Kx Ky IonEs g ((g - 1) / 2) 1 deltaK deltaKZ k) =
      bendS Kx Ky L
        ((1 - cc Kx L) / (L / phi * Kx) * ((g * g + 1) / ((1 + g) * g)) / ((g - 1) * IonEs / MeVtoeV))
        (ss Kx L / (L / phi) * ((g * g + 1) / ((1 + g) * g)) / ((g - 1) * IonEs / MeVtoeV))
        (-(ss Kx L / (L / phi) * (1 + 1 / (g * g)) * (-g / (1 + g))) * k)
        (-((1 - cc Kx L) / (L / phi * Kx) * (1 + 1 / (g * g)) * (-g / (1 + g))) * k) s := by
  refine ⟨ebendCore L phi Kx Ky IonEs g ((g - 1) / 2) 1 deltaK deltaKZ k 4 5, ?_⟩
  unfold ebendCore ebendM
  simp only [eedgeM_zero, one_mul, mul_one]
  rw [quadPlane_eq, quadPlane_eq]
  have e1 : 1 + 2 * ((g - 1) / 2) = g := by ring
  have e2 : 2 * (1 + (g - 1) / 2) = 1 + g := by ring
  simp only [e1, e2, if_neg hK.ne', if_pos hK]
  have ec : Real.cos (Real.sqrt Kx * L) = cc Kx L := by unfold cc; rw [if_pos hK]
  have es : Real.sin (Real.sqrt Kx * L) / Real.sqrt Kx = ss Kx L := by unfold ss; rw [if_pos hK]
  rw [ec, es]
  ext i j
  fin_cases i <;> fin_cases j <;> simp [phaseSpace, setAt, bendS, Matrix.one_apply]

/-- The core preserves areas with one weight only, unless it has no dispersion. -/
theorem ebendCore_iff (w L phi Kx Ky IonEs g deltaK deltaKZ k : ℝ) (hK : 0 < Kx) (hL : L ≠ 0) (hphi : phi ≠ 0)
    (hg : 1 < g) (hE : IonEs ≠ 0) (hc : cc Kx L ≠ 1) :
    Preserves w (phaseSpace (ebendCore L phi Kx Ky IonEs g ((g - 1) / 2) 1 deltaK deltaKZ k)) ↔
      w * (k * ((g - 1) * IonEs / MeVtoeV)) = -1 := by
  obtain ⟨s, h⟩ := ebendCore_phase L phi Kx Ky IonEs g deltaK deltaKZ k hK
  have hr : L / phi ≠ 0 := div_ne_zero hL hphi
  have hM : MeVtoeV ≠ 0 := by unfold MeVtoeV; norm_num
  have hs : (g - 1) * IonEs / MeVtoeV ≠ 0 := div_ne_zero (mul_ne_zero (by linarith) hE) hM
  have hcs := cc_ss Kx L
  rw [h, bendS_iff]
  generalize cc Kx L = c at *
  generalize ss Kx L = S at *
  generalize L / phi = rho at *
  generalize (g - 1) * IonEs / MeVtoeV = scl at *
  have hg0 : g ≠ 0 := by linarith
  have hg1 : 1 + g ≠ 0 := by linarith
  have hgg : g * g + 1 ≠ 0 := by nlinarith
  have hK' := hK.ne'
  have e : (1 + 1 / (g * g)) * (-g / (1 + g)) = -((g * g + 1) / ((1 + g) * g)) := by field_simp
  have hN : (g * g + 1) / ((1 + g) * g) ≠ 0 := div_ne_zero hgg (mul_ne_zero hg1 hg0)
  rw [mul_assoc _ (1 + 1 / (g * g)), mul_assoc _ (1 + 1 / (g * g)), e]
  generalize (g * g + 1) / ((1 + g) * g) = N at *
  have hS : S ^ 2 = (1 - c ^ 2) / Kx := by field_simp; linarith
  have t1 : c * (S / rho * N / scl) + Kx * S * ((1 - c) / (rho * Kx) * N / scl) + w * (-(S / rho * -N) * k) =
      S / rho * N / scl * (1 + w * (k * scl)) := by field_simp; ring
  have t2 : S * (S / rho * N / scl) - c * ((1 - c) / (rho * Kx) * N / scl) + w * (-((1 - c) / (rho * Kx) * -N) * k) =
      (1 - c) / (rho * Kx) * N / scl * (1 + w * (k * scl)) := by
    have : S * (S / rho * N / scl) = S ^ 2 / rho * N / scl := by ring
    rw [this, hS]
    field_simp
    ring
  rw [t1, t2]
  constructor
  · rintro ⟨-, h⟩
    have h0 : (1 - c) / (rho * Kx) * N / scl ≠ 0 :=
      div_ne_zero (mul_ne_zero (div_ne_zero (fun h => hc (by linarith)) (mul_ne_zero hr hK')) hN) hs
    have := (mul_eq_zero.1 h).resolve_left h0
    linarith
  · intro h
    rw [h]
    simp

theorem mul_conj (R M : Mat) : R * M * R.transpose = R * (M * R.transpose) := Matrix.mul_assoc _ _ _

/-- The reference particle in an electrostatic dipole without asymmetry factor, horizontal or vertical, with any fringe
fields, offset and roll: areas are preserved with one weight of longitudinal areas only, the one belonging to the kinetic
energy, if the dipole has dispersion at its exit. -/
theorem C59_edipole (d : MDat) (ver : Bool) (L phi fx fy spher : ℝ) (p : Particle) (h0 : 0 < p.IonEs) (hk : 0 < p.IonEk)
    (hf : p.SampleFreq ≠ 0) (hZ : p.IonZ ≠ 0) (hL : L ≠ 0) (hphi : phi ≠ 0) (hs : spher ≤ 1)
    (h1 : d.pitch = 0) (h2 : d.yaw = 0)
    (hc : Real.cos (Real.sqrt (1 - spher + p.recalc.gamma ^ 2) * phi) ≠ 1) :
    ∃ T, edipoleOne d ver L phi fx fy 0 spher p.recalc.beta p.recalc p.recalc = .ok T ∧
      ∀ w, Preserves w (phaseSpace T) ↔ w * (p.recalc.SampleIonK * (p.IonEk / 1000000)) = -1 := by
  obtain ⟨hK, hb, hg, hE⟩ := moving p h0 hk hf
  obtain ⟨-, hgE, hg1, hb0, hb1, hgb, -, -, -, hEs, -⟩ := C38_energy p h0 hk.le
  have hg1' : 1 < p.recalc.gamma := by
    by_contra hcon
    have : p.recalc.gamma = 1 := le_antisymm (not_lt.1 hcon) hg1
    rw [this] at hgE
    linarith
  have hsq : 1 / Real.sqrt (1 - p.recalc.beta * p.recalc.beta) = p.recalc.gamma := by
    have hp : 0 < p.recalc.gamma := by linarith
    have : 1 - p.recalc.beta * p.recalc.beta = (1 / p.recalc.gamma) ^ 2 := by
      field_simp
      linarith
    rw [this, Real.sqrt_sq (by positivity)]
    field_simp
  have hZ' : p.recalc.IonZ ≠ 0 := hZ
  have hratio : p.recalc.beta * p.recalc.beta / p.recalc.IonZ / (p.recalc.beta * p.recalc.beta / p.recalc.IonZ) * L = L := by
    rw [div_self (div_ne_zero (mul_ne_zero hb hb) hZ'), one_mul]
  have hkk : 2 * Real.pi / (p.recalc.beta * p.recalc.SampleLambda) = p.recalc.SampleIonK := rfl
  have hr : L / phi ≠ 0 := div_ne_zero hL hphi
  have hA : 0 < 1 - spher + p.recalc.gamma * p.recalc.gamma := by nlinarith
  have hKx : 0 < (1 - spher + p.recalc.gamma * p.recalc.gamma) / (L / phi * (L / phi)) :=
    div_pos hA (mul_self_pos.2 hr)
  have hcc : cc ((1 - spher + p.recalc.gamma * p.recalc.gamma) / (L / phi * (L / phi))) L ≠ 1 := by
    unfold cc
    rw [if_pos hKx, Real.sqrt_div hA.le, Real.sqrt_mul_self_eq_abs, ← pow_two]
    intro e
    refine hc (Eq.trans ?_ e)
    rcases abs_choice (L / phi) with h | h <;> rw [h]
    · congr 1; field_simp
    · rw [← Real.cos_neg]; congr 1; field_simp
  obtain ⟨hz, hp⟩ := unit_ne p.recalc p.recalc hK hb hg hE
  have hmis := getMisalign_roll d p.recalc p.recalc h1 h2 hz hp
  unfold edipoleOne
  dsimp only
  rw [hsq, hratio, hkk, show 1 + 2 * ((p.recalc.gamma - 1) / 2) = p.recalc.gamma by ring]
  unfold aligned
  rw [hmis]
  refine ⟨_, rfl, fun w => ?_⟩
  have hiff := ebendCore_iff w L phi _ (spher / (L / phi * (L / phi))) p.recalc.IonEs p.recalc.gamma
    (p.recalc.beta * p.recalc.beta / p.recalc.IonZ / (p.recalc.beta * p.recalc.beta / p.recalc.IonZ) - 1 -
      (p.recalc.IonEk - p.recalc.IonEk) / p.recalc.IonEk) (p.recalc.IonZ / p.recalc.IonZ - 1) p.recalc.SampleIonK hKx hL
    hphi hg1' hE hcc
  have hek : (p.recalc.gamma - 1) * p.recalc.IonEs / MeVtoeV = p.IonEk / 1000000 := by
    rw [hEs]; unfold MeVtoeV; congr 1; linarith
  rw [hek] at hiff
  rw [← hiff, ebendM_split]
  have hcore := ebendCore_keeps L phi ((1 - spher + p.recalc.gamma * p.recalc.gamma) / (L / phi * (L / phi)))
    (spher / (L / phi * (L / phi))) p.recalc.IonEs p.recalc.gamma ((p.recalc.gamma - 1) / 2) 1
    (p.recalc.beta * p.recalc.beta / p.recalc.IonZ / (p.recalc.beta * p.recalc.beta / p.recalc.IonZ) - 1 -
      (p.recalc.IonEk - p.recalc.IonEk) / p.recalc.IonEk) (p.recalc.IonZ / p.recalc.IonZ - 1) p.recalc.SampleIonK
  generalize ebendCore L phi _ _ _ _ _ _ _ _ _ = C at hcore ⊢
  have ge := eedgeM_good w fx fy
  have de := eedgeM_det fx fy
  have gr := roll_good w d.dx d.dy d.roll
  have dr := rotMat_det d.dx d.dy 0 0 d.roll
  have gri := gr.inv dr
  have dri := (det_of_mul_one (rotMat_inv d.dx d.dy 0 0 d.roll).1).1
  have g9 := rot90_good w
  have d9 := det_of_mul_one rot90_transpose
  have g9t : Good w rot90.transpose := by
    have : rot90.transpose = rot90⁻¹ := (Matrix.inv_eq_right_inv rot90_transpose).symm
    rw [this]
    exact g9.inv d9.1
  cases ver
  · simp only [Bool.false_eq_true, if_false]
    constructor
    · intro h
      have hkeep := gri.1.mul (((ge.1.mul (hcore.mul ge.1))).mul gr.1)
      exact (Good.cancel ge ge de de (Good.cancel gri gr dri dr ⟨hkeep, h⟩)).2
    · intro h
      exact (gri.mul ((ge.mul (Good.mul ⟨hcore, h⟩ ge)).mul gr)).2
  · simp only [if_true, mul_conj]
    constructor
    · intro h
      have hkeep := gri.1.mul ((g9.1.mul ((ge.1.mul (hcore.mul ge.1)).mul g9t.1)).mul gr.1)
      exact (Good.cancel ge ge de de (Good.cancel g9 g9t d9.1 d9.2 (Good.cancel gri gr dri dr ⟨hkeep, h⟩))).2
    · intro h
      exact (gri.mul ((g9.mul ((ge.mul (Good.mul ⟨hcore, h⟩ ge)).mul g9t)).mul gr)).2

/-- The weight of longitudinal areas used by all other elements is a different one, so in a lattice with an electrostatic
dipole no common area is preserved. -/
theorem C59_edipole_false (d : MDat) (ver : Bool) (L phi fx fy spher : ℝ) (p : Particle) (h0 : 0 < p.IonEs)
    (hk : 0 < p.IonEk) (hf : p.SampleFreq ≠ 0) (hZ : p.IonZ ≠ 0) (hL : L ≠ 0) (hphi : phi ≠ 0) (hs : spher ≤ 1)
    (h1 : d.pitch = 0) (h2 : d.yaw = 0)
    (hc : Real.cos (Real.sqrt (1 - spher + p.recalc.gamma ^ 2) * phi) ≠ 1) :
    ∃ T, edipoleOne d ver L phi fx fy 0 spher p.recalc.beta p.recalc p.recalc = .ok T ∧
      ∀ w, w * (p.recalc.SampleIonK * (p.recalc.beta ^ 2 * p.recalc.gamma * p.IonEs / 1000000)) = -1 →
        ¬ Preserves w (phaseSpace T) := by
  obtain ⟨T, hT, h⟩ := C59_edipole d ver L phi fx fy spher p h0 hk hf hZ hL hphi hs h1 h2 hc
  refine ⟨T, hT, fun w hw hp => ?_⟩
  rw [h w] at hp
  obtain ⟨hK, hb, hg, hE⟩ := moving p h0 hk hf
  obtain ⟨-, hgE, hg1, hb0, hb1, hgb, -⟩ := C38_energy p h0 hk.le
  have hw0 : w ≠ 0 := fun e => by rw [e] at hw; norm_num at hw
  have e1 : p.recalc.beta ^ 2 * p.recalc.gamma * p.IonEs / 1000000 = p.IonEk / 1000000 :=
    mul_left_cancel₀ hK (mul_left_cancel₀ hw0 (hw.trans hp.symm))
  have e2 : p.recalc.beta ^ 2 * p.recalc.gamma * p.IonEs = p.IonEk := by linarith
  have e3 : p.IonEk = (p.recalc.gamma - 1) * p.IonEs := by linarith
  have e4 : p.recalc.beta ^ 2 * p.recalc.gamma = p.recalc.gamma - 1 := mul_right_cancel₀ h0.ne' (e2.trans e3)
  have e5 : p.recalc.gamma ^ 2 - p.recalc.gamma * (p.recalc.gamma - 1) = 1 := by rw [← e4]; linarith
  have e6 : p.recalc.gamma = 1 := by linarith
  rw [e6] at hgE
  linarith

/-- A quarter bend with spherical plates, for a particle with as much kinetic energy as rest energy. -/
example : let p : Particle := ⟨1, 1, 1000000, 0, 0, 0, 0, 80500000, 0, 0, 0, 1000000⟩
    0 < p.IonEs ∧ 0 < p.IonEk ∧ p.SampleFreq ≠ 0 ∧ p.IonZ ≠ 0 ∧
      Real.cos (Real.sqrt (1 - 1 + p.recalc.gamma ^ 2) * (Real.pi / 2)) ≠ 1 := by
  intro p
  have hg : p.recalc.gamma = 2 := by norm_num [p, Particle.recalc]
  refine ⟨by norm_num [p], by norm_num [p], by norm_num [p], by norm_num [p], ?_⟩
  rw [hg, sub_self, zero_add, Real.sqrt_sq (by norm_num), mul_div_cancel₀ _ (by norm_num), Real.cos_pi]
  norm_num

/-- A magnetic dipole of 45 degrees, 0.6 m, rolled, with edges: the matrices are computed and `C59_sbend` applies. -/
example (env : Env) (d : MDat) (h1 : d.pitch = 0) (h2 : d.yaw = 0) (_h3 : d.roll = 0.1) (hm : d.fitMode = 1)
    (hc : d.conf = fun k => if k = "L" then some (.num 0.6) else if k = "phi" then some (.num 45)
      else if k = "phi1" then some (.num 7) else if k = "phi2" then some (.num 7) else none) :
    let p : Particle := (⟨33 / 238, 1, 931494320, 0, 0, 0, 0, 80500000, 0, 0, 0, 500000⟩ : Particle).recalc
    ∃ T w, recompute env .sbend d p [p] = .ok [T] ∧ Preserves w (phaseSpace T) := by
  intro p
  obtain ⟨hK, hb, hg, hE⟩ := moving ⟨33 / 238, 1, 931494320, 0, 0, 0, 0, 80500000, 0, 0, 0, 500000⟩ (by norm_num)
    (by norm_num) (by norm_num)
  obtain ⟨hz, hp⟩ := unit_ne p p hK hb hg hE
  have hL : getNum d.conf "L" = .ok 0.6 := by simp [hc, getNum]
  have hphi : getNum d.conf "phi" = .ok 45 := by simp [hc, getNum]
  have he1 : getNum d.conf "phi1" = .ok 7 := by simp [hc, getNum]
  have he2 : getNum d.conf "phi2" = .ok 7 := by simp [hc, getNum]
  have hKD : getNumD d.conf "K" 0 = 0 := by simp [hc, getNumD]
  have hr : ∃ T, recompute env .sbend d p [p] = .ok [T] := by
    show ∃ T, sbendRec d p [p] = .ok [T]
    unfold sbendRec
    simp only [hL, hphi, he1, he2, forEach]
    rw [if_pos (by unfold MtoMM; norm_num)]
    unfold sbendOne aligned
    rw [if_neg (by rw [hm]; norm_num), getMisalign_eq _ p p hz hp]
    exact ⟨_, rfl⟩
  obtain ⟨T, hT⟩ := hr
  refine ⟨T, -(p.SampleIonK * (p.beta ^ 2 * p.gamma * p.IonEs / 1000000))⁻¹, hT, ?_⟩
  have := C59_sbend env d p [p] [T] _ hT (by rw [hm]; norm_num)
    (by rw [neg_mul, inv_mul_cancel₀ (by positivity)]) (by
      intro L phi hL' hphi' hL0
      rw [hL] at hL'
      rw [hphi] at hphi'
      cases hL'
      cases hphi'
      rw [hKD]
      have := Real.pi_pos
      positivity)
  rw [List.forall₂_cons] at this
  exact this.1 hK hb hg (.inl ⟨h1, h2⟩)

end Flame.Moment
