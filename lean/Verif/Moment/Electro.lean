import Verif.Moment.Sector

/-!
# Electrostatic dipoles and the equations of motion: C75
-/

namespace Flame.Moment

open Flame.Mach (Err)
open Flame.Linear (LCfg LVal getNum getNumD cc ss)
open Spec (Slip Pull Deflected fringe upright Electrodes)

theorem eedgeM_fringe (fx fy a : ℝ) (v : Vec) : (eedgeM fx fy a).mulVec v = fringe fx fy a v := by
  funext i
  fin_cases i <;> simp [eedgeM, setAt, Matrix.mulVec, dotProduct, Fin.sum_univ_seven, fringe, Matrix.one_apply]
  all_goals ring

theorem rot90_upright (v : Vec) : rot90.transpose.mulVec v = upright true v := by
  funext i
  fin_cases i <;>
    simp [rot90, setAt, Matrix.mulVec, dotProduct, Fin.sum_univ_seven, upright, Spec.inFrame, Matrix.one_apply,
      Matrix.transpose_apply]

theorem upright_rot90 (v : Vec) : upright true (rot90.mulVec v) = v := by
  rw [← rot90_upright, Matrix.mulVec_mulVec]
  have : rot90.transpose * rot90 = 1 := mul_eq_one_comm.1 rot90_transpose
  rw [this, Matrix.one_mulVec]

/-- The coordinates inside electrodes. -/
noncomputable def elPath (h kx ky k s e p : ℝ) (v : Vec) (z : ℝ) : Vec :=
  let C := h * (1 - cc kx z) / kx
  let S := h * ss kx z
  let F := e / p * v 5
  ![cc kx z * v 0 + ss kx z * v 1 + C * F, -kx * ss kx z * v 0 + cc kx z * v 1 + S * F,
    cc ky z * v 2 + ss ky z * v 3, -ky * ss ky z * v 2 + cc ky z * v 3,
    v 4 + k * e * (S * v 0 + C * v 1 + h * (h * z - S) / kx * F) + s * z * v 5,
    v 5, v 6]

theorem elPath_deflected (h kx ky k s e p L : ℝ) (v : Vec) (h0 : kx ≠ 0) :
    Deflected h kx ky k s e p L v (elPath h kx ky k s e p v L) := by
  refine ⟨elPath h kx ky k s e p v, ?_, rfl, fun z => ⟨?_, ?_, ?_, ?_, ?_, ?_, ?_⟩⟩
  · funext i
    fin_cases i <;> simp [elPath, Flame.Linear.cc_zero, Flame.Linear.ss_zero]
  · refine deriv_of kx (v 0 - h / kx * (e / p * v 5)) (v 1) 0 (h / kx * (e / p * v 5)) (fun x => ?_) ?_
    · simp [elPath]; ring
    · simp [elPath]
      field_simp
      ring
  · refine deriv_of kx (v 1) (-kx * v 0 + h * (e / p * v 5)) 0 0 (fun x => ?_) ?_
    · simp [elPath]; ring
    · simp [elPath]
      field_simp
      ring
  · exact deriv_of ky (v 2) (v 3) 0 0 (fun x => by simp [elPath]; ring) (by simp [elPath]; ring)
  · exact deriv_of ky (v 3) (-ky * v 2) 0 0 (fun x => by simp [elPath]; ring) (by simp [elPath]; ring)
  · refine deriv_of kx (-(k * e * (h / kx * v 1))) (k * e * (h * v 0 - h * h / kx * (e / p * v 5)))
      (k * e * (h * h / kx * (e / p * v 5)) + s * v 5) (v 4 + k * e * (h / kx * v 1)) (fun x => ?_) ?_
    · simp [elPath]; ring
    · simp [elPath]
      field_simp
      ring
  · exact hasDerivAt_const _ _
  · exact hasDerivAt_const _ _

theorem pull_of {p : Particle} (hp : Moving p) :
    Pull p.IonEs p.IonEk (1 + 1 / (p.gamma * p.gamma)) ((p.gamma * p.gamma - 1) / p.gamma * p.IonEs / MeVtoeV) := by
  have hm := hp.mass
  have hW : 0 < p.IonEs + p.IonEk := by linarith [hp.energy]
  refine ⟨?_, ?_⟩
  · have d1 := (((hasDerivAt_id (p.IonEs + p.IonEk)).pow 2).sub_const (p.IonEs ^ 2)).div (hasDerivAt_id _) hW.ne'
    refine (d1.congr_of_eventuallyEq ?_).congr_deriv ?_
    · filter_upwards with W; simp
    · rw [hp.gamma, hp.ionW]
      simp
      field_simp
      ring
  · rw [hp.gamma, hp.ionW, MeVtoeV]
    field_simp

theorem ebendM_faces (L phi fx fy a Kx Ky IonEs realGamma eta0 h deltaK deltaKZ k : ℝ) :
    ebendM L phi fx fy a Kx Ky IonEs realGamma eta0 h deltaK deltaKZ k 1 =
      eedgeM fx fy a * (ebendCore L phi Kx Ky IonEs realGamma eta0 h deltaK deltaKZ k * eedgeM fx fy a) := by
  unfold ebendCore ebendM
  simp only [eedgeM_zero, one_mul, mul_one]

theorem ebendCore_path {L phi Kx Ky IonEs g k : ℝ} (v : Vec) (hK : 0 < Kx) (hg : 1 < g) (hE : 0 < IonEs) :
    (ebendCore L phi Kx Ky IonEs g ((g - 1) / 2) 1 0 0 k).mulVec v =
      elPath (phi / L) Kx Ky (g / (1 + g) * k)
        (g / (1 + g) * -(k / (g * g) / ((g * g - 1) / g * IonEs / MeVtoeV))) (1 + 1 / (g * g))
        ((g * g - 1) / g * IonEs / MeVtoeV) v L := by
  unfold ebendCore ebendM
  simp only [eedgeM_zero, one_mul, mul_one]
  rw [quadPlane_eq, quadPlane_eq]
  have e1 : 1 + 2 * ((g - 1) / 2) = g := by ring
  have e2 : 2 * (1 + (g - 1) / 2) = 1 + g := by ring
  simp only [e1, e2, if_neg hK.ne', if_pos hK]
  have ec : Real.cos (Real.sqrt Kx * L) = cc Kx L := by unfold cc; rw [if_pos hK]
  have es : Real.sin (Real.sqrt Kx * L) / Real.sqrt Kx = ss Kx L := by unfold ss; rw [if_pos hK]
  rw [ec, es]
  have hd : ∀ x, x / (L / phi) = x * (phi / L) := fun x => by rw [div_div_eq_mul_div, mul_div_assoc]
  have hd2 : ∀ x, x / (L / phi * Kx) = phi / L * x / Kx := fun x => by rw [← div_div, hd, mul_comm]
  have hd3 : ∀ x, x / (L / phi * (L / phi)) = x * (phi / L) * (phi / L) := fun x => by rw [← div_div, hd, hd]
  simp only [hd, hd2, hd3]
  unfold elPath
  generalize cc Kx L = c
  generalize ss Kx L = s
  generalize cc Ky L = c'
  generalize ss Ky L = s'
  generalize phi / L = h
  have hM : MeVtoeV ≠ 0 := by norm_num [MeVtoeV]
  have hg0 : g ≠ 0 := by linarith
  have hg1 : 1 + g ≠ 0 := by linarith
  have hg2 : g - 1 ≠ 0 := by linarith
  have hg3 : g * g - 1 = (g - 1) * (1 + g) := by ring
  have hK' := hK.ne'
  have hE' := hE.ne'
  rw [hg3]
  generalize MeVtoeV = m at *
  funext i
  fin_cases i <;>
    simp [setAt, Matrix.mulVec, dotProduct, Fin.sum_univ_seven, Matrix.one_apply]
  · field_simp
  · field_simp
  · field_simp
    ring

theorem rest_sqrt {p : Particle} (hp : Moving p) : (1 / Real.sqrt (1 - p.beta * p.beta) - 1) / 2 = (p.gamma - 1) / 2 := by
  have hg : 0 < p.gamma := by linarith [hp.one_lt]
  have hb : p.beta ^ 2 = 1 - 1 / (p.gamma * p.gamma) := by
    rw [hp.beta, Real.sq_sqrt]
    have := hp.one_lt
    rw [sub_nonneg, div_le_one (by positivity)]
    nlinarith
  have : 1 - p.beta * p.beta = (1 / p.gamma) ^ 2 := by
    rw [← pow_two, hb]
    field_simp
    ring
  rw [this, Real.sqrt_sq (by positivity), one_div_one_div]

theorem slip_wave {p : Particle} (hp : Moving p) (hf : p.SampleFreq ≠ 0) :
    slip p 1 = -(p.SampleIonK / (p.gamma * p.gamma) / ((p.gamma * p.gamma - 1) / p.gamma * p.IonEs / MeVtoeV)) := by
  have hg : 0 < p.gamma := by linarith [hp.one_lt]
  have hb0 := hp.beta_pos
  have hm := hp.mass
  have hb : p.beta ^ 2 = 1 - 1 / (p.gamma * p.gamma) := by
    rw [hp.beta, Real.sq_sqrt]
    have := hp.one_lt
    rw [sub_nonneg, div_le_one (by positivity)]
    nlinarith
  have e : (p.gamma * p.gamma - 1) / p.gamma = p.beta ^ 2 * p.gamma := by rw [hb]; field_simp
  rw [slip, hp.bg, hp.wave, e]
  have : p.SampleLambda ≠ 0 := by
    rw [hp.lambda]
    exact mul_ne_zero (div_ne_zero C0_ne hf) MtoMM_ne
  have hM : MeVtoeV ≠ 0 := by norm_num [MeVtoeV]
  field_simp

/-- One charge state with the charge and energy of the reference particle. -/
theorem edipoleOne_electrodes {d : MDat} {ref p : Particle} {ver : Bool} {L phi fx fy a spher : ℝ} {T : Mat}
    (h1 : d.pitch = 0) (h2 : d.yaw = 0) (hr : Moving ref) (hp : Moving p) (hf : p.SampleFreq ≠ 0)
    (hZ : ref.IonZ ≠ 0) (e1 : p.IonEs = ref.IonEs) (e2 : p.IonEk = ref.IonEk) (e3 : p.IonZ = ref.IonZ)
    (hL : L ≠ 0) (hphi : phi ≠ 0) (hs : spher ≤ 1)
    (h : edipoleOne d ver L phi fx fy a spher ref.beta ref p = .ok T) :
    Electrodes p.SampleFreq p.IonEs p.IonEk (phi / L) ((phi / L) ^ 2 * (1 - spher + ((p.IonEs + p.IonEk) / p.IonEs) ^ 2))
      ((phi / L) ^ 2 * spher) (((p.IonEs + p.IonEk) / p.IonEs) / (1 + (p.IonEs + p.IonEk) / p.IonEs)) fx fy a L
      d.dx d.dy d.roll ver T := by
  have eg : ref.gamma = p.gamma := by rw [hr.gamma, hp.gamma, hr.ionW, hp.ionW, e1, e2]
  have eb : ref.beta = p.beta := by rw [hr.beta, hp.beta, eg]
  have eg' : (p.IonEs + p.IonEk) / p.IonEs = p.gamma := by rw [hp.gamma, hp.ionW]
  have hg := hp.one_lt
  unfold edipoleOne at h
  rw [eb, rest_sqrt hp] at h
  have hEr : p.beta * p.beta / ref.IonZ / (p.beta * p.beta / ref.IonZ) = 1 := by
    have := hp.beta_pos.ne'
    exact div_self (div_ne_zero (mul_ne_zero this this) hZ)
  have g1 : 1 + 2 * ((p.gamma - 1) / 2) = p.gamma := by ring
  simp only [e3, hEr, one_mul, e2, sub_self, zero_div, div_self hZ, g1, ← hp.wave] at h
  have hKx : (1 - spher + p.gamma * p.gamma) / (L / phi * (L / phi)) = (phi / L) ^ 2 * (1 - spher + p.gamma ^ 2) := by
    field_simp
  have hKy : spher / (L / phi * (L / phi)) = (phi / L) ^ 2 * spher := by field_simp
  rw [hKx, hKy, ← e1] at h
  have hpos : 0 < (phi / L) ^ 2 * (1 - spher + p.gamma ^ 2) := by
    have : 0 < phi / L ∨ phi / L < 0 := by
      rcases lt_trichotomy (phi / L) 0 with h | h | h
      · exact .inr h
      · exact absurd h (div_ne_zero hphi hL)
      · exact .inl h
    have h3 : 0 < (phi / L) ^ 2 := by rcases this with h | h <;> positivity
    refine mul_pos h3 ?_
    nlinarith
  have hwave : p.SampleIonK = Spec.phaseAdvance p.SampleFreq p.IonEs (p.IonEs + p.IonEk) 1 := by
    have := C64_phase hp 1
    rwa [mul_one] at this
  obtain ⟨-, -, -, -, -, -, hFr⟩ := C36_frame d ref p h1 h2 (hp.wave_ne hf) hp.beta_pos.ne' (by linarith) hr.mass.ne'
  refine ⟨_, _, _, pull_of hp, C64_slip hp, fun v => ?_⟩
  rw [eg', ← hwave, slip_wave hp hf, hFr _ T h v]
  refine ⟨_, elPath_deflected _ _ _ _ _ _ _ _ _ hpos.ne', ?_⟩
  rw [← ebendCore_path _ hpos hg hp.mass, ← eedgeM_fringe, ← eedgeM_fringe]
  cases ver with
  | false =>
    rw [if_neg (by simp), ebendM_faces, ← Matrix.mulVec_mulVec, ← Matrix.mulVec_mulVec]
    rfl
  | true =>
    rw [if_pos rfl, ← Matrix.mulVec_mulVec, ← Matrix.mulVec_mulVec, upright_rot90, rot90_upright, ebendM_faces,
      ← Matrix.mulVec_mulVec, ← Matrix.mulVec_mulVec]

/-- C75, partial: an electrostatic dipole at default settings moves the charge state with charge and energy of the reference
particle by the equations of motion with two exceptions.  The horizontal focusing contains the square of `gamma` where the
equations of motion have its inverse, and the effect on the phase is smaller by the factor `gamma / (1 + gamma)`.  Missing:
other charge states, for which the code has another length and no constant term of the phase. -/
theorem C75_edipole_partial (env : Env) (d : MDat) (ref : Particle) (real : List Particle) (Ts : List Mat)
    (h : recompute env .edipole d ref real = .ok Ts) (h1 : d.pitch = 0) (h2 : d.yaw = 0) (hr : Moving ref)
    (hZ : ref.IonZ ≠ 0) (hm : d.conf "HdipoleFitMode" = none ∨ Spec.numOr d.conf "beta" ref.beta = ref.beta) :
    ∃ ver L phi spher, d.conf "ver" = some (.num ver) ∧ d.conf "L" = some (.num L) ∧ d.conf "phi" = some (.num phi) ∧
      d.conf "spher" = some (.num spher) ∧
      (L ≠ 0 → phi ≠ 0 → spher ≤ 1 →
        List.Forall₂ (fun p T => Moving p → p.SampleFreq ≠ 0 → p.IonEs = ref.IonEs → p.IonEk = ref.IonEk →
          p.IonZ = ref.IonZ → ∀ b : Bool, (b = true ↔ ver = 1) →
          Electrodes p.SampleFreq p.IonEs p.IonEk (phi * Real.pi / 180 / (1000 * L))
            ((phi * Real.pi / 180 / (1000 * L)) ^ 2 * (1 - spher + ((p.IonEs + p.IonEk) / p.IonEs) ^ 2))
            ((phi * Real.pi / 180 / (1000 * L)) ^ 2 * spher)
            (((p.IonEs + p.IonEk) / p.IonEs) / (1 + (p.IonEs + p.IonEk) / p.IonEs))
            (Spec.numOr d.conf "fringe_x" 0 / 1000) (Spec.numOr d.conf "fringe_y" 0 / 1000) (Spec.numOr d.conf "asym_fac" 0)
            (1000 * L) d.dx d.dy d.roll b T) real Ts) := by
  change edipoleRec env d ref real = .ok Ts at h
  unfold edipoleRec at h
  split at h
  · rename_i ver L phi spher g1 g2 g3 g4
    refine ⟨ver, L, phi, spher, getNum_some g1, getNum_some g2, getNum_some g3, getNum_some g4, fun hL hphi hs => ?_⟩
    cases hfl : getFlag env d.conf "HdipoleFitMode" 1 with
    | error e => rw [hfl] at h; cases h
    | ok mode =>
      rw [hfl] at h
      dsimp only at h
      split at h
      · cases h
      · have hbeta : (if mode ≠ 0 then ref.beta else getNumD d.conf "beta" ref.beta) = ref.beta := by
          by_cases h0 : mode = 0
          · subst h0
            rcases hm with hm | hm
            · exfalso
              have : getFlag env d.conf "HdipoleFitMode" 1 = .ok 1 := by
                have h1 : asUnsigned 1 = .ok 1 := by norm_num [asUnsigned]
                simpa [getFlag, hm, getStr, Flame.Linear.getNum] using h1
              rw [this] at hfl
              cases hfl
            · rw [if_neg (by simp), numOr_eq, hm]
          · rw [if_pos h0]
        rw [hbeta, forEach_ok] at h
        refine h.imp fun p T hT hp hf e1 e2 e3 b hb => ?_
        have hL0 : L * MtoMM ≠ 0 := mul_ne_zero hL MtoMM_ne
        rw [if_pos hL0] at hT
        have eb : decide (ver = 1) = b := by
          cases b
          · simpa using hb
          · simpa using hb
        have k1 : L * MtoMM = 1000 * L := by rw [MtoMM, mul_comm]
        rw [eb, k1, numOr_eq, numOr_eq, numOr_eq, MtoMM] at hT
        exact edipoleOne_electrodes h1 h2 hr hp hf hZ e1 e2 e3 (mul_ne_zero (by norm_num) hL)
          (by have := Real.pi_pos.ne'; positivity) hs hT
  · cases h

/-! ## the equations of motion have one solution -/

theorem zero_of_deriv {f : ℝ → ℝ} (h : ∀ z, HasDerivAt f 0 z) (x y : ℝ) : f x = f y :=
  is_const_of_deriv_eq_zero (fun z => (h z).differentiableAt) (fun z => (h z).deriv) x y

theorem free_unique {κ : ℝ} {a b : ℝ → ℝ} (ha : ∀ z, HasDerivAt a (b z) z) (hb : ∀ z, HasDerivAt b (-κ * a z) z) (z : ℝ) :
    a z = cc κ z * a 0 + ss κ z * b 0 ∧ b z = -κ * ss κ z * a 0 + cc κ z * b 0 := by
  have hF : ∀ z, HasDerivAt (fun z => a z * cc κ z - b z * ss κ z) 0 z := fun z =>
    (((ha z).mul (Flame.Linear.cc_deriv κ z)).sub ((hb z).mul (Flame.Linear.ss_deriv κ z))).congr_deriv (by ring)
  have hG : ∀ z, HasDerivAt (fun z => κ * (a z * ss κ z) + b z * cc κ z) 0 z := fun z =>
    ((((ha z).mul (Flame.Linear.ss_deriv κ z)).const_mul κ).add ((hb z).mul (Flame.Linear.cc_deriv κ z))).congr_deriv
      (by ring)
  have f := zero_of_deriv hF z 0
  have g := zero_of_deriv hG z 0
  simp only [Flame.Linear.cc_zero, Flame.Linear.ss_zero] at f g
  have hc := Flame.Linear.cc_ss κ z
  constructor <;> grind

/-- What the equations of motion do with a particle of the right energy. -/
theorem deflected_free {h kx ky k s e p L : ℝ} {v v' : Vec} (hD : Deflected h kx ky k s e p L v v') (h5 : v 5 = 0) :
    v' 0 = cc kx L * v 0 + ss kx L * v 1 ∧ v' 1 = -kx * ss kx L * v 0 + cc kx L * v 1 ∧
    (v 1 = 0 → v' 4 = v 4 + k * (h * e) * (ss kx L * v 0)) := by
  obtain ⟨u, h0, hL, hu⟩ := hD
  have u5 : ∀ z, u z 5 = 0 := fun z => by
    rw [zero_of_deriv (f := fun z => u z 5) (fun z => (hu z).2.2.2.2.2.1) z 0, h0, h5]
  have key := free_unique (κ := kx) (a := fun z => u z 0) (b := fun z => u z 1) (fun z => (hu z).1) (fun z => by
    have := (hu z).2.1
    rw [u5 z, mul_zero, mul_zero, add_zero] at this
    exact this)
  refine ⟨?_, ?_, fun h1 => ?_⟩
  · have := (key L).1
    rwa [hL, h0] at this
  · have := (key L).2
    rwa [hL, h0] at this
  · have hS : ∀ z, HasDerivAt (fun z => u z 4 - k * (h * e) * (ss kx z * v 0)) 0 z := fun z => by
      refine ((hu z).2.2.2.2.1.sub (((Flame.Linear.ss_deriv kx z).mul_const (v 0)).const_mul (k * (h * e)))).congr_deriv ?_
      have := (key z).1
      simp only [h0, h1] at this
      rw [this, u5 z]
      ring
    have := zero_of_deriv hS L 0
    simp only [hL, h0, Flame.Linear.ss_zero] at this
    linarith

theorem inFrame_onto (dx dy a : ℝ) (w : Vec) : ∃ v, Spec.inFrame dx dy a v = w := by
  refine ⟨![Real.cos a * w 0 - Real.sin a * w 2 + dx * w 6, Real.cos a * w 1 - Real.sin a * w 3,
    Real.sin a * w 0 + Real.cos a * w 2 + dy * w 6, Real.sin a * w 1 + Real.cos a * w 3, w 4, w 5, w 6], ?_⟩
  have := Real.sin_sq_add_cos_sq a
  funext i
  fin_cases i <;> simp [Spec.inFrame] <;> grind

theorem upright_onto (ver : Bool) (w : Vec) : ∃ v, upright ver v = w := by
  cases ver
  · exact ⟨w, rfl⟩
  · exact inFrame_onto 0 0 (Real.pi / 2) w

theorem fringe_onto (fx fy : ℝ) (w : Vec) : ∃ v, fringe fx fy 0 v = w := by
  refine ⟨![w 0, w 1 - fx * w 0, w 2, w 3 - fy * w 2, w 4, w 5, w 6], ?_⟩
  funext i
  fin_cases i <;> simp [fringe]

theorem fringe_inj {fx fy : ℝ} {v w : Vec} (h : fringe fx fy 0 v = fringe fx fy 0 w) :
    v 0 = w 0 ∧ v 1 = w 1 ∧ v 4 = w 4 := by
  have h0 := congrFun h 0
  have h1 := congrFun h 1
  have h4 := congrFun h 4
  simp [fringe] at h0 h1 h4
  refine ⟨h0, ?_, h4⟩
  rw [h0] at h1
  linarith

/-- Electrodes have one focusing and one strength of the effect on the phase. -/
theorem electrodes_unique {f Es Ek h kx ky r kx' ky' r' fx fy L dx dy roll : ℝ} {ver : Bool} {T : Mat}
    (h1 : Electrodes f Es Ek h kx ky r fx fy 0 L dx dy roll ver T)
    (h2 : Electrodes f Es Ek h kx' ky' r' fx fy 0 L dx dy roll ver T) (hs : ss kx L ≠ 0)
    (hh : h ≠ 0) (hk : Spec.phaseAdvance f Es (Es + Ek) 1 ≠ 0) (he : ∀ e p, Pull Es Ek e p → e ≠ 0) :
    kx' = kx ∧ r' = r := by
  obtain ⟨e, p, s, hP, -, A⟩ := h1
  obtain ⟨e', p', s', hP', -, B⟩ := h2
  have ee : e' = e := hP'.1.unique hP.1
  have go : ∀ w : Vec, ∃ v' w', Deflected h kx ky (r * Spec.phaseAdvance f Es (Es + Ek) 1) (r * s) e p L w v' ∧
      Deflected h kx' ky' (r' * Spec.phaseAdvance f Es (Es + Ek) 1) (r' * s') e' p' L w w' ∧
      v' 0 = w' 0 ∧ v' 1 = w' 1 ∧ v' 4 = w' 4 := by
    intro w
    obtain ⟨a, rfl⟩ := fringe_onto fx fy w
    obtain ⟨b, rfl⟩ := upright_onto ver a
    obtain ⟨c, rfl⟩ := inFrame_onto dx dy roll b
    obtain ⟨v', q1, q2⟩ := A c
    obtain ⟨w', q3, q4⟩ := B c
    exact ⟨v', w', q1, q3, fringe_inj (q2.symm.trans q4)⟩
  obtain ⟨v', w', a1, a2, a3, a4, a5⟩ := go ![1, 0, 0, 0, 0, 0, 0]
  obtain ⟨v2, w2, b1, b2, b3, -, -⟩ := go ![0, 1, 0, 0, 0, 0, 0]
  obtain ⟨c1, c2, c3⟩ := deflected_free a1 (by simp)
  obtain ⟨d1, d2, d3⟩ := deflected_free a2 (by simp)
  obtain ⟨e1, -, -⟩ := deflected_free b1 (by simp)
  obtain ⟨g1, -, -⟩ := deflected_free b2 (by simp)
  have c3 := c3 (by simp)
  have d3 := d3 (by simp)
  simp at c1 c2 c3 d1 d2 d3 e1 g1
  have hss : ss kx' L = ss kx L := by rw [← e1, ← g1, b3]
  have hkx : kx' = kx := by
    have : kx' * ss kx L = kx * ss kx L := by
      rw [hss] at d2
      linarith
    exact mul_right_cancel₀ hs this
  refine ⟨hkx, ?_⟩
  subst hkx
  rw [ee] at d3
  have he0 := he e p hP
  have : r' * (Spec.phaseAdvance f Es (Es + Ek) 1 * (h * e) * ss kx' L) =
      r * (Spec.phaseAdvance f Es (Es + Ek) 1 * (h * e) * ss kx' L) := by linarith
  exact mul_right_cancel₀ (mul_ne_zero (mul_ne_zero hk (mul_ne_zero hh he0)) hs) this

/-- The equations of motion are not met: whatever the focusing and the strength of the effect on the phase for which a dipole
solves them, the focusing is not the one of electrodes with this shape, and the strength is not one. -/
theorem C75_edipole_false {d : MDat} {ref p : Particle} {ver : Bool} {L phi fx fy spher : ℝ} {T : Mat}
    (h1 : d.pitch = 0) (h2 : d.yaw = 0) (hr : Moving ref) (hp : Moving p) (hf : p.SampleFreq ≠ 0)
    (hZ : ref.IonZ ≠ 0) (e1 : p.IonEs = ref.IonEs) (e2 : p.IonEk = ref.IonEk) (e3 : p.IonZ = ref.IonZ)
    (hL : L ≠ 0) (hphi : phi ≠ 0) (hs : spher ≤ 1)
    (hsin : Real.sin (Real.sqrt (1 - spher + ((p.IonEs + p.IonEk) / p.IonEs) ^ 2) * phi) ≠ 0)
    (h : edipoleOne d ver L phi fx fy 0 spher ref.beta ref p = .ok T) (e m kx ky r : ℝ) (hP : Pull p.IonEs p.IonEk e m)
    (hE : Electrodes p.SampleFreq p.IonEs p.IonEk (phi / L) kx ky r fx fy 0 L d.dx d.dy d.roll ver T) :
    kx ≠ (phi / L) ^ 2 * (e - spher) ∧ r ≠ 1 := by
  have hA := edipoleOne_electrodes h1 h2 hr hp hf hZ e1 e2 e3 hL hphi hs h
  have eg' : (p.IonEs + p.IonEk) / p.IonEs = p.gamma := by rw [hp.gamma, hp.ionW]
  have hg := hp.one_lt
  rw [eg'] at hsin hA
  have hh : phi / L ≠ 0 := div_ne_zero hphi hL
  have hh2 : 0 < (phi / L) ^ 2 := by positivity
  have hA0 : 0 < 1 - spher + p.gamma ^ 2 := by nlinarith
  have hpos : 0 < (phi / L) ^ 2 * (1 - spher + p.gamma ^ 2) := mul_pos hh2 hA0
  have hwave : p.SampleIonK = Spec.phaseAdvance p.SampleFreq p.IonEs (p.IonEs + p.IonEk) 1 := by
    have := C64_phase hp 1
    rwa [mul_one] at this
  have hpull : ∀ e m, Pull p.IonEs p.IonEk e m → e = 1 + 1 / (p.gamma * p.gamma) := fun e m hP =>
    hP.1.unique (pull_of hp).1
  have hss : ss ((phi / L) ^ 2 * (1 - spher + p.gamma ^ 2)) L ≠ 0 := by
    unfold ss
    rw [if_pos hpos]
    refine div_ne_zero ?_ (Real.sqrt_pos.2 hpos).ne'
    rw [Real.sqrt_mul hh2.le, Real.sqrt_sq_eq_abs]
    intro hz
    apply hsin
    rcases abs_choice (phi / L) with ha | ha <;> rw [ha] at hz
    · rw [← hz]
      congr 1
      field_simp
    · rw [← neg_eq_zero, ← Real.sin_neg, ← hz]
      congr 1
      field_simp
  obtain ⟨q1, q2⟩ := electrodes_unique hA hE hss hh (by rw [← hwave]; exact hp.wave_ne hf)
    (fun e m hP => by rw [hpull e m hP]; positivity)
  rw [q1, q2, hpull e m hP]
  constructor
  · intro he
    have := mul_left_cancel₀ hh2.ne' he
    have h3 : 1 / (p.gamma * p.gamma) < 1 := by
      rw [div_lt_one (by positivity)]
      nlinarith
    nlinarith
  · intro he
    rw [div_eq_one_iff_eq (by positivity)] at he
    linarith

/-! ## the hypotheses can be met -/

/-- A vertical cylindrical dipole of 0.5 m that bends by 60 degrees, and uranium at 0.5 MeV per nucleon: both theorems apply. -/
example (env : Env) (d : MDat) (hp : d.pitch = 0) (hy : d.yaw = 0)
    (hc : d.conf = fun k => if k = "L" then some (.num 0.5) else if k = "phi" then some (.num 60)
      else if k = "ver" then some (.num 1) else if k = "spher" then some (.num 0) else if k = "fringe_x" then some (.num (-0.4))
      else none) :
    ∃ T, recompute env .edipole d exIon [exIon] = .ok [T] ∧
      Electrodes 80500000 931494320 500000 (60 * Real.pi / 180 / 500)
        ((60 * Real.pi / 180 / 500) ^ 2 * (1 - 0 + ((931494320 + 500000) / 931494320) ^ 2)) ((60 * Real.pi / 180 / 500) ^ 2 * 0)
        ((931494320 + 500000) / 931494320 / (1 + (931494320 + 500000) / 931494320)) (-0.4 / 1000) (0 / 1000) 0 500
        d.dx d.dy d.roll true T ∧
      ∀ ky, ¬ Electrodes 80500000 931494320 500000 (60 * Real.pi / 180 / 500)
        ((60 * Real.pi / 180 / 500) ^ 2 * (1 + 1 / (exIon.gamma * exIon.gamma) - 0)) ky 1 (-0.4 / 1000) (0 / 1000) 0 500
        d.dx d.dy d.roll true T := by
  have hE : exIon.IonEs ≠ 0 := show (931494320 : ℝ) ≠ 0 by norm_num
  have g1 : getNum d.conf "L" = .ok 0.5 := by simp [hc, getNum]
  have g2 : getNum d.conf "phi" = .ok 60 := by simp [hc, getNum]
  have g3 : getNum d.conf "ver" = .ok 1 := by simp [hc, getNum]
  have g4 : getNum d.conf "spher" = .ok 0 := by simp [hc, getNum]
  have f1 : getNumD d.conf "fringe_x" 0 = -0.4 := by simp [hc, getNumD]
  have f2 : getNumD d.conf "fringe_y" 0 = 0 := by simp [hc, getNumD]
  have f3 : getNumD d.conf "asym_fac" 0 = 0 := by simp [hc, getNumD]
  have hfl : getFlag env d.conf "HdipoleFitMode" 1 = .ok 1 := by
    have h1 : asUnsigned 1 = .ok 1 := by norm_num [asUnsigned]
    simpa [getFlag, hc, getStr, Flame.Linear.getNum] using h1
  have hone : ∃ T, edipoleOne d true 500 (60 * Real.pi / 180) (-0.4 / 1000) (0 / 1000) 0 0 exIon.beta exIon exIon = .ok T :=
    aligned_some d hp hy hE exIon_moving.1 exIon_moving.2.1 _
  obtain ⟨T, hT⟩ := hone
  have hR : recompute env .edipole d exIon [exIon] = .ok [T] := by
    show edipoleRec env d exIon [exIon] = .ok [T]
    unfold edipoleRec
    have h0 : (0.5 * MtoMM : ℝ) ≠ 0 := by norm_num [MtoMM]
    have e5 : (0.5 * MtoMM : ℝ) = 500 := by norm_num [MtoMM]
    rw [g1, g2, g3, g4]
    dsimp only
    rw [hfl]
    dsimp only
    rw [if_neg (by simp), f1, f2, f3, if_pos (by simp)]
    simp only [if_pos h0, forEach]
    rw [e5, decide_eq_true trivial, MtoMM, hT]
  refine ⟨T, hR, ?_, ?_⟩
  · obtain ⟨ver, L, phi, spher, k1, k2, k3, k4, hF⟩ := C75_edipole_partial env d exIon _ _ hR hp hy exIon_moving.1
      exIon_moving.2.2 (.inl (by simp [hc]))
    have hnum : ∀ {k : String} {x y : ℝ}, getNum d.conf k = .ok x → d.conf k = some (.num y) → y = x := by
      intro k x y hx hy'
      have := getNum_some hx
      rw [hy'] at this
      cases this
      rfl
    obtain rfl := hnum g1 k2
    obtain rfl := hnum g2 k3
    obtain rfl := hnum g3 k1
    obtain rfl := hnum g4 k4
    cases hF (by norm_num) (by norm_num) (by norm_num) with
    | cons h _ =>
      have := h exIon_moving.1 exIon_moving.2.1 rfl rfl rfl true (by simp)
      rw [← numOr_eq, ← numOr_eq, ← numOr_eq, f1, f2, f3, show (1000 * 0.5 : ℝ) = 500 by norm_num] at this
      exact this
  · intro ky hEl
    have hg : exIon.gamma = (931494320 + 500000) / 931494320 := by
      rw [exIon_moving.1.gamma, exIon_moving.1.ionW]
      rfl
    refine (C75_edipole_false hp hy exIon_moving.1 exIon_moving.1 exIon_moving.2.1 exIon_moving.2.2 rfl rfl rfl
      (by norm_num) (by have := Real.pi_pos; positivity) (by norm_num) ?_ hT _ _ _ _ _ (pull_of exIon_moving.1) hEl).2 rfl
    have hpi := Real.pi_pos
    have e : (exIon.IonEs + exIon.IonEk) / exIon.IonEs = (931494320 + 500000) / 931494320 := rfl
    rw [e]
    have h3 : Real.sqrt (1 - 0 + ((931494320 + 500000) / 931494320) ^ 2) < 3 := by
      rw [Real.sqrt_lt' (by norm_num)]
      norm_num
    have h0 : 0 < Real.sqrt (1 - 0 + ((931494320 + 500000) / 931494320) ^ 2) := Real.sqrt_pos.2 (by norm_num)
    exact (Real.sin_pos_of_pos_of_lt_pi (by positivity) (by nlinarith)).ne'

end Flame.Moment
