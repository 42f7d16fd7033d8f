import Verif.Cavity.Cache

/-!
# Cavities that are pitched or yawed: C31, C33

`advance` computes the matrices of the misalignment on the way forward with `SampleIonK` of the incoming beam, because
`recompute_matrix` restores it ("Bug in TLM"), and on the way back with `SampleIonK` of the outgoing beam.  For a cavity
that accelerates and is yawed they differ: the way back does not lead back, and afterwards the cache, which holds the
matrices of the way back, gives another beam than before.
-/

namespace Flame.Cavity

open Flame.Mach Flame.Moment
open Flame.Linear (getNum getNumD LCfg LVal)

/-! ## coordinates -/

theorem middle_vec (ref p : Particle) (z x a y b s e : ℝ) : (middle ref p z).mulVec ![x, a, y, b, s, e, 1] =
    ![x, a, y, b, unitZ p * s + z, unitP ref p * e + 1, 1] := by
  unfold middle
  rw [← Matrix.mulVec_mulVec]
  ext i
  fin_cases i <;> simp [midM, scaleM, setAt, Matrix.mulVec, dotProduct, Fin.sum_univ_seven, Matrix.one_apply]

theorem middle_inv_vec (ref p : Particle) (hz : unitZ p ≠ 0) (hp : unitP ref p ≠ 0) (z x a y b s e : ℝ) :
    (middle ref p z)⁻¹.mulVec ![x, a, y, b, s, e, 1] =
      ![x, a, y, b, (s - z) / unitZ p, (e - 1) / unitP ref p, 1] := by
  have h := middle_vec ref p z x a y b ((s - z) / unitZ p) ((e - 1) / unitP ref p)
  rw [mul_div_cancel₀ _ hz, mul_div_cancel₀ _ hp, sub_add_cancel, sub_add_cancel] at h
  rw [← h, Matrix.mulVec_mulVec, (middle_inv ref p hz hp z).1, Matrix.one_mulVec]

theorem yaw_vec (t x a y b s e : ℝ) : (rotMat 0 0 0 t 0).mulVec ![x, a, y, b, s, e, 1] =
    ![Real.cos t * x + Real.sin t * s, Real.cos t * a + Real.sin t * e, y, b,
      -Real.sin t * x + Real.cos t * s, -Real.sin t * a + Real.cos t * e, 1] := by
  rw [rotMat_split, offs_zero, mul_one]
  ext i
  fin_cases i <;> simp [turn, turnM, Matrix.mulVec, dotProduct, Fin.sum_univ_seven]

theorem yaw_inv_vec (t x a y b s e : ℝ) : (rotMat 0 0 0 t 0)⁻¹.mulVec ![x, a, y, b, s, e, 1] =
    ![Real.cos t * x - Real.sin t * s, Real.cos t * a - Real.sin t * e, y, b,
      Real.sin t * x + Real.cos t * s, Real.sin t * a + Real.cos t * e, 1] := by
  have h := yaw_vec t (Real.cos t * x - Real.sin t * s) (Real.cos t * a - Real.sin t * e) y b
      (Real.sin t * x + Real.cos t * s) (Real.sin t * a + Real.cos t * e)
  have e2 : ![Real.cos t * (Real.cos t * x - Real.sin t * s) + Real.sin t * (Real.sin t * x + Real.cos t * s),
      Real.cos t * (Real.cos t * a - Real.sin t * e) + Real.sin t * (Real.sin t * a + Real.cos t * e), y, b,
      -Real.sin t * (Real.cos t * x - Real.sin t * s) + Real.cos t * (Real.sin t * x + Real.cos t * s),
      -Real.sin t * (Real.cos t * a - Real.sin t * e) + Real.cos t * (Real.sin t * a + Real.cos t * e), 1] =
      ![x, a, y, b, s, e, 1] := by
    have hq := Real.sin_sq_add_cos_sq t
    ext i
    fin_cases i <;> simp <;> first
      | linear_combination x * hq
      | linear_combination a * hq
      | linear_combination s * hq
      | linear_combination e * hq
  rw [e2] at h
  rw [← h, Matrix.mulVec_mulVec, (rotMat_inv _ _ _ _ _).1, Matrix.one_mulVec]

/-! ## a cavity -/

/-- Velocity of the example particle, in units of that of light: `gamma` is 2. -/
noncomputable def exBeta : ℝ := Real.sqrt (1 - 1 / (2 * 2))

/-- The distance the particle covers in an RF period of one second, in mm. -/
noncomputable def exPeriod : ℝ := exBeta * C0 * MtoMM

/-- A generic cavity with a drift of 240 mm and a uniform field over one RF period, in which the example particle gains
1 eV. -/
noncomputable def exTilt : Cav :=
  { exGap with
    lattice := [⟨"drift", 240, 0, [], []⟩]
    cavData := { cols := 2, rows := [[-exPeriod / 2, -MtoMM / exPeriod], [exPeriod / 2, -MtoMM / exPeriod]] }
    fRF := 1
    dataFile := "./gap.lat" }

/-- Settings: the phase is given. -/
noncomputable def exTiltSet : LCfg := fun s =>
  if s = "syncflag" then some (.num 0) else if s = "phi" then some (.num 0) else exSet s

/-- The cavity, 240 mm long, yawed by `t`, not used yet. -/
noncomputable def exTilted (env : Env) (t : ℝ) : MDat :=
  { exDat env exTiltSet (24 / 100) with yaw := t, cav := some exTilt }

/-- A beam on the axis. -/
noncomputable def exAxis : St MSt :=
  { exState false with payload := { (exState false).payload with moment0 := [![0, 0, 0, 0, 0, 0, 1]] } }

theorem exBeta_pos : 0 < exBeta := Real.sqrt_pos.2 (by norm_num)

theorem exPeriod_pos : 0 < exPeriod := by
  have := exBeta_pos
  unfold exPeriod C0 MtoMM
  positivity

theorem exParticle_beta : exParticle.recalc.beta = exBeta := by
  have hg : (if exParticle.IonEs ≠ 0 then (exParticle.IonEs + exParticle.IonEk) / exParticle.IonEs else 1) = 2 := by
    simp only [exParticle]; norm_num
  simp only [Particle.recalc, hg]
  rfl

theorem exTilt_boost (p : Particle) (hW : p.IonW = 2) (hZ : p.IonZ = 1) (hE : p.IonEs = 1) (hb : p.beta = exBeta) :
    getCavBoost exTilt.cavData exTilt.fRF p 0 1 = .ok (3, 2 * Real.pi) := by
  have h0 := exPeriod_pos
  have hb0 := exBeta_pos
  have hx : extent exTilt.cavData = exPeriod := by
    simp [extent, positions, exTilt]
    ring
  have hk : 2 * Real.pi * 1 / (exBeta * C0 * MtoMM) * exPeriod = 2 * Real.pi := by
    rw [show exBeta * C0 * MtoMM = exPeriod from rfl]
    field_simp
  unfold getCavBoost
  dsimp only
  rw [if_neg (by simp [exTilt]), hx, hb, hZ, hE, hW, if_neg hb0.ne']
  rw [show fields exTilt.cavData = [-MtoMM / exPeriod, -MtoMM / exPeriod] by simp [fields, exTilt]]
  rw [show ((exTilt.cavData.rows.length : ℕ) : ℝ) - 1 = 1 by simp [exTilt]; norm_num, div_one]
  have hM : (0 : ℝ) < MtoMM := by norm_num [MtoMM]
  have hf : exTilt.fRF = 1 := rfl
  have hcos : Real.cos ((0 + (0 + 2 * Real.pi)) / 2) = -1 := by
    rw [show (0 + (0 + 2 * Real.pi)) / 2 = Real.pi by ring, Real.cos_pi]
  have hgain : (2 : ℝ) + 1 * 1 * (-MtoMM / exPeriod + -MtoMM / exPeriod) / 2 * -1 * exPeriod / MtoMM = 3 := by
    field_simp
    norm_num
  simp only [boostLoop, boostStep, hf, hk, hcos, hgain]
  rw [if_neg (by norm_num), if_neg (by norm_num)]
  simp

/-- The example particle behind the cavity. -/
noncomputable def exGained : Particle := boosted exParticle.recalc 3 0 (2 * Real.pi) 1

theorem exTilt_phase (cav : Cav) (p : Particle) (m : ℝ) : drivenPhase exTiltSet cav p m 1 = .ok 0 := by
  unfold drivenPhase
  have h1 : getNumD exTiltSet "syncflag" 1 = 0 := by simp [getNumD, exTiltSet]
  have h2 : getNum exTiltSet "phi" = .ok 0 := by simp [getNum, exTiltSet]
  simp only [h1, h2]
  rw [if_neg (by norm_num)]
  simp

theorem exTilt_scl : getNum exTiltSet "scl_fac" = .ok 1 := by simp [getNum, exTiltSet, exSet]

theorem exTilt_long (mis : List (Mat × Mat)) :
    propagateLong exTiltSet { exTilt with misalign := mis } exParticle.recalc = .ok (exGained, 0) := by
  unfold propagateLong
  dsimp only
  rw [exTilt_scl]
  dsimp only
  rw [exTilt_phase]
  have hm : exTilt.fRF / exParticle.recalc.SampleFreq = 1 := by simp [exTilt, exParticle, Particle.recalc]
  have hp : exParticle.recalc.phis = 0 := rfl
  dsimp only
  rw [hm, hp, show (1 : ℝ) * 0 + 0 = 0 by norm_num,
    exTilt_boost _ (by norm_num [exParticle, Particle.recalc]) rfl rfl exParticle_beta]
  rfl

/-- The matrix of the cavity: a drift with a slip `a`. -/
noncomputable def exDrifted (a : ℝ) : Mat := setAt (driftT 240) 4 5 a

theorem combine_drift (a : ℝ) : combine (driftT 240) (driftL a) = exDrifted a := by
  ext i j
  fin_cases i <;> fin_cases j <;> simp [combine, exDrifted, driftT, driftL, setAt]

theorem exTilt_init (mis : List (Mat × Mat)) :
    ∃ a, initRFCav exTiltSet { exTilt with misalign := mis } 0 exParticle.recalc = .ok (exGained, exDrifted a) := by
  unfold initRFCav
  dsimp only
  rw [show labelOf exTilt.cavi = .ok (0, 0) from rfl]
  dsimp only
  rw [exTilt_scl]
  have hm : exTilt.fRF / exParticle.recalc.SampleFreq = 1 := by simp [exTilt, exParticle, Particle.recalc]
  have hp : exParticle.recalc.phis = 0 := rfl
  dsimp only
  rw [hm, hp, show (1 : ℝ) * 0 + 0 = 0 by norm_num,
    exTilt_boost _ (by norm_num [exParticle, Particle.recalc]) (by rfl) (by rfl) (by exact exParticle_beta)]
  dsimp only
  rw [if_neg (by simp [exTilt, exGap])]
  unfold getCavMatGeneric
  dsimp only
  rw [kin_moving exParticle_moving]
  dsimp only
  rw [if_neg (by norm_num [exTilt, exGap])]
  rw [show exTilt.lattice = [⟨"drift", 240, 0, [], []⟩] from rfl]
  simp only [foldE, genStep, mul_one]
  rw [if_neg (by simp), combine_drift]
  exact ⟨_, rfl⟩

/-- Units of the longitudinal coordinates: the phase with the wave number in front of the cavity and behind it. -/
theorem ex_units : unitZ { exGained with SampleIonK := exParticle.recalc.SampleIonK } ≠ 0 ∧ unitZ exGained ≠ 0 ∧
    unitZ { exGained with SampleIonK := exParticle.recalc.SampleIonK } ≠ unitZ exGained ∧
    unitP exGained exGained ≠ 0 := by
  have hg : exGained.gamma = 3 := by
    simp [exGained, boosted, Particle.recalc, exParticle]
  have hb : exGained.beta = Real.sqrt (1 - 1 / (3 * 3)) := by
    rw [← hg]
    rfl
  have hb0 : 0 < exGained.beta := by rw [hb]; exact Real.sqrt_pos.2 (by norm_num)
  have hE : exGained.IonEs = 1 := rfl
  have hp := Real.pi_pos
  have k1 : exParticle.recalc.SampleIonK = 2 * Real.pi / (exBeta * (C0 / 1 * MtoMM)) := by
    rw [← exParticle_beta]
    rfl
  have k2 : exGained.SampleIonK = 2 * Real.pi / (exGained.beta * (C0 / 1 * MtoMM)) := rfl
  have hb1 := exBeta_pos
  have hlt : exBeta < exGained.beta := by
    rw [hb]
    exact Real.sqrt_lt_sqrt (by norm_num) (by norm_num)
  have hC : (0 : ℝ) < C0 / 1 * MtoMM := by norm_num [C0, MtoMM]
  unfold unitZ unitP
  dsimp only
  rw [k1, k2, hg, hE]
  generalize C0 / 1 * MtoMM = c at hC
  generalize exGained.beta = b2 at *
  have hM : (0 : ℝ) < MeVtoeV := by norm_num [MeVtoeV]
  refine ⟨?_, ?_, ?_, by positivity⟩
  · exact one_div_ne_zero (neg_ne_zero.2 (by positivity))
  · exact one_div_ne_zero (neg_ne_zero.2 (by positivity))
  · intro h
    rw [one_div_neg_eq_neg_one_div, one_div_neg_eq_neg_one_div, neg_inj, one_div_div, one_div_div] at h
    have : (b2 - exBeta) * c = 0 := by
      field_simp at h
      linarith
    rcases mul_eq_zero.1 this with h | h <;> linarith

/-- Crossing with the matrices of one wave number: the beam on the axis. -/
theorem tilted_pass (ref p : Particle) (hz : unitZ p ≠ 0) (hp : unitP ref p ≠ 0) (h t : ℝ) :
    ((middle ref p (-h))⁻¹ * rotMat 0 0 0 t 0 * middle ref p (-h)).mulVec ![0, 0, 0, 0, 0, 0, 1] =
      ![-h * Real.sin t, Real.sin t, 0, 0, h * (1 - Real.cos t) / unitZ p, (Real.cos t - 1) / unitP ref p, 1] := by
  rw [← Matrix.mulVec_mulVec, ← Matrix.mulVec_mulVec, middle_vec, yaw_vec, middle_inv_vec ref p hz hp]
  ext i
  fin_cases i <;> simp <;> ring

theorem tilted_leave (ref p : Particle) (hz : unitZ p ≠ 0) (hp : unitP ref p ≠ 0) (h t x a s e : ℝ) :
    ((middle ref p h)⁻¹ * (rotMat 0 0 0 t 0)⁻¹ * middle ref p h).mulVec ![x, a, 0, 0, s, e, 1] =
      ![Real.cos t * x - Real.sin t * (unitZ p * s + h), Real.cos t * a - Real.sin t * (unitP ref p * e + 1), 0, 0,
        (Real.sin t * x + Real.cos t * (unitZ p * s + h) - h) / unitZ p,
        (Real.sin t * a + Real.cos t * (unitP ref p * e + 1) - 1) / unitP ref p, 1] := by
  rw [← Matrix.mulVec_mulVec, ← Matrix.mulVec_mulVec, middle_vec, yaw_inv_vec, middle_inv_vec ref p hz hp]

/-- The matrices of the misalignment with the wave number of `p`. -/
noncomputable def misOf (p : Particle) (t : ℝ) : Mat × Mat :=
  ((middle exGained p (-120))⁻¹ * rotMat 0 0 0 t 0 * middle exGained p (-120),
   (middle exGained p 120)⁻¹ * (rotMat 0 0 0 t 0)⁻¹ * middle exGained p 120)

/-- The charge state behind the cavity with the wave number in front of it. -/
noncomputable def exKept : Particle := { exGained with SampleIonK := exParticle.recalc.SampleIonK }

theorem exKept_units : unitZ exKept ≠ 0 ∧ unitZ exGained ≠ 0 ∧ unitZ exKept ≠ unitZ exGained ∧ unitP exGained exGained ≠ 0 ∧
    unitP exGained exKept = unitP exGained exGained :=
  ⟨ex_units.1, ex_units.2.1, ex_units.2.2.1, ex_units.2.2.2, rfl⟩

theorem exTilted_mis {d : MDat} {t : ℝ} {ref p : Particle} (h1 : d.dx = 0) (h2 : d.dy = 0) (h3 : d.pitch = 0)
    (h4 : d.yaw = t) (h5 : d.roll = 0) (h6 : d.length = 24 / 100) (hr : ref.IonEs = exGained.IonEs) (hz : unitZ p ≠ 0)
    (hp : unitP exGained p ≠ 0) : getMisalign d ref p = .ok (misOf p t) := by
  have hu : ∀ q, unitP ref q = unitP exGained q := fun q => by unfold unitP; rw [hr]
  have hm : ∀ z, middle ref p z = middle exGained p z := fun z => by unfold middle; rw [hu]
  rw [getMisalign_eq d ref p hz (by rw [hu]; exact hp), hm, hm, h1, h2, h3, h4, h5, h6,
    show -(24 / 100 : ℝ) / 2 * MtoMM = -120 by norm_num [MtoMM], show (24 / 100 : ℝ) / 2 * MtoMM = 120 by norm_num [MtoMM]]
  rfl

/-- The way forward. -/
theorem exTilted_forward (env : Env) (files : Files) (t : ℝ) : ∃ a d1 s1 cav1 S1 X1,
    advanceCavity env files (exTilted env t) exAxis = (d1, s1, none) ∧
    d1 = { exTilted env t with
      refIn := some exParticle.recalc, realIn := [exParticle.recalc], refOut := exGained, realOut := [exGained],
      transfer := [(cavOne exTilt exGained (exDrifted a) (misOf exKept t) exGained exParticle.recalc exGained
        ![0, 0, 0, 0, 0, 0, 1] 1).1], cav := some cav1 } ∧
    cav1.emitGrowth = 0 ∧ cav1.misalign = [misOf exKept t] ∧
    s1.payload.ref = exGained ∧ s1.payload.real = [exGained] ∧ s1.payload.moment1 = [S1] ∧ s1.payload.transmat = [X1] ∧
    s1.payload.moment0 = [(cavOne exTilt exGained (exDrifted a) (misOf exKept t) exGained exParticle.recalc exGained
        ![0, 0, 0, 0, 0, 0, 1] 1).2.1] := by
  obtain ⟨u1, u2, u3, u4, u5⟩ := exKept_units
  obtain ⟨a, ha⟩ := exTilt_init [(1, 1)]
  have hreal : exAxis.payload.recalc.real = [exParticle.recalc] := rfl
  have href : exAxis.payload.recalc.ref = exParticle.recalc := rfl
  have hre : reload env files exTiltSet { exTilt with misalign := [(1, 1)] } = ({ exTilt with misalign := [(1, 1)] }, none) :=
    reload_same (by simp [getStr, exTiltSet, exSet, exTilt, exGap])
      (fun _ => ⟨"gap.lat", by simp [getStr, exTiltSet, exSet], by simp [getStrD, exTiltSet, exSet, exTilt]⟩) _
  have hrec : recomputeCav exTiltSet { exTilt with misalign := [(1, 1)] } exParticle.recalc [exParticle.recalc] =
      .ok (exGained, 0, [(exKept, exDrifted a)]) := by
    unfold recomputeCav
    rw [exTilt_long]
    dsimp only
    simp only [forEach, ha]
    rfl
  have hnh : ¬ hit (exTilted env t) exAxis.payload.recalc := by
    rintro ⟨-, ⟨r, hr, -⟩, -⟩
    cases hr
  have hmis : ∀ d : MDat, d.dx = 0 → d.dy = 0 → d.pitch = 0 → d.yaw = t → d.roll = 0 → d.length = 24 / 100 →
      forEach (fun p => getMisalign d exGained p) [exKept] = .ok [misOf exKept t] := by
    intro d h1 h2 h3 h4 h5 h6
    simp only [forEach, exTilted_mis h1 h2 h3 h4 h5 h6 rfl u1 (by rw [u5]; exact u4)]
  have hd : (exTilted env t).conf = exTiltSet := rfl
  have hrs : resizeMis 1 exTilt.misalign = [(1, 1)] := rfl
  refine ⟨a, ?_⟩
  unfold advanceCavity
  rw [show (exTilted env t).cav = some exTilt from rfl]
  dsimp only
  rw [if_neg (show ¬ (exAxis.retreat = true) by simp [exAxis, exState]), if_neg hnh, hreal, href, hd]
  simp only [List.length_singleton, hrs, hre, hrec, List.map_cons, List.map_nil]
  rw [hmis _ rfl rfl rfl rfl rfl rfl]
  dsimp only
  rw [cavFault_off (by rfl)]
  exact ⟨_, _, _, _, _, rfl, rfl, rfl, rfl, rfl, rfl, rfl, rfl, rfl⟩

/-- The matrix stored on the way forward. -/
noncomputable def exStored (a c d : ℝ) : Mat := setAt (setAt (exDrifted a) 4 6 c) 5 6 d

theorem exStored_vec (a c d x b s e : ℝ) : (exStored a c d).mulVec ![x, b, 0, 0, s, e, 1] =
    ![x + 240 * b, b, 0, 0, s + a * e + c, e + d, 1] := by
  ext i
  fin_cases i <;> simp [exStored, exDrifted, driftT, setAt, Matrix.mulVec, dotProduct, Fin.sum_univ_seven, Matrix.one_apply]

theorem exStored_det (a c d : ℝ) : (exStored a c d).det = 1 := by
  have h : (exStored a c d).BlockTriangular id := by
    intro i j hij
    fin_cases i <;> fin_cases j <;> simp_all [exStored, exDrifted, driftT, setAt]
  rw [Matrix.det_of_isUpperTriangular h]
  simp [Fin.prod_univ_seven, exStored, exDrifted, driftT, setAt]

/-- One crossing by the beam on the axis. -/
theorem tilted_one (cav : Cav) (a t : ℝ) (p : Particle) (hz : unitZ p ≠ 0) (hp : unitP exGained p ≠ 0) (c d : ℝ) (S : Mat)
    (pin pout : Particle) :
    let r := cavOne cav exGained (exStored a c d) (misOf p t) exGained pin pout ![0, 0, 0, 0, 0, 0, 1] S
    r.1 = exStored a (-(120 * (1 - Real.cos t) / unitZ p + a * ((Real.cos t - 1) / unitP exGained p)))
        (-((Real.cos t - 1) / unitP exGained p)) ∧
      r.2.1 = ![Real.cos t * (120 * Real.sin t) - Real.sin t * 120, Real.cos t * Real.sin t - Real.sin t, 0, 0,
        (Real.sin t * (120 * Real.sin t) + Real.cos t * 120 - 120) / unitZ p,
        (Real.sin t * Real.sin t + Real.cos t - 1) / unitP exGained p, 1] := by
  have e1 := tilted_pass exGained p hz hp 120 t
  have e0 : setAt (setAt (exStored a c d) 4 6 0) 5 6 0 = exStored a 0 0 := by
    ext i j
    fin_cases i <;> fin_cases j <;> simp [exStored, setAt]
  intro r
  have hv1 : (misOf p t).1.mulVec ![0, 0, 0, 0, 0, 0, 1] = _ := e1
  have hv2 := exStored_vec a 0 0 (-120 * Real.sin t) (Real.sin t) (120 * (1 - Real.cos t) / unitZ p)
    ((Real.cos t - 1) / unitP exGained p)
  have hr1 : r.1 = setAt (setAt (exStored a 0 0) 4 6
      (-(exStored a 0 0).mulVec ((misOf p t).1.mulVec ![0, 0, 0, 0, 0, 0, 1]) 4 + (exGained.phis - exGained.phis))) 5 6
      (-(exStored a 0 0).mulVec ((misOf p t).1.mulVec ![0, 0, 0, 0, 0, 0, 1]) 5 +
        (exGained.IonEk - exGained.IonEk) / MeVtoeV) := by
    rw [← e0]
    rfl
  have hr2 : r.2.1 = (misOf p t).2.mulVec (fun i => if i = 4 then exGained.phis - exGained.phis else
      if i = 5 then (exGained.IonEk - exGained.IonEk) / MeVtoeV else
        (exStored a 0 0).mulVec ((misOf p t).1.mulVec ![0, 0, 0, 0, 0, 0, 1]) i) := by
    rw [← e0]
    rfl
  rw [hv1, hv2] at hr1 hr2
  constructor
  · rw [hr1]
    ext i j
    fin_cases i <;> fin_cases j <;> simp [exStored, setAt]
  · rw [hr2]
    have hv3 : (fun i : Fin 7 => if i = 4 then exGained.phis - exGained.phis else
        if i = 5 then (exGained.IonEk - exGained.IonEk) / MeVtoeV else
        ![-120 * Real.sin t + 240 * Real.sin t, Real.sin t, 0, 0, 120 * (1 - Real.cos t) / unitZ p +
          a * ((Real.cos t - 1) / unitP exGained p) + 0, (Real.cos t - 1) / unitP exGained p + 0, 1] i) =
        ![120 * Real.sin t, Real.sin t, 0, 0, 0, 0, 1] := by
      ext i
      fin_cases i <;> simp
      ring
    rw [hv3]
    have := tilted_leave exGained p hz hp 120 t (120 * Real.sin t) (Real.sin t) 0 0
    rw [mul_zero, mul_zero, zero_add, zero_add, mul_one, mul_one] at this
    exact this

/-- A beam on the axis of a cavity that accelerates and is yawed by `t`, less than a right angle: it is not led back
(the orbit is another one), and crossing the cavity again, with the cache, it takes another orbit than the first time,
although nothing but a successful pass there and back lies in between. -/
theorem C31_tilted_false (env : Env) (files : Files) (t : ℝ) (h0 : 0 < t) (h1 : t < Real.pi / 2) :
    ∃ d1 s1 d2 s2 d3 s3,
      advanceCavity env files (exTilted env t) exAxis = (d1, s1, none) ∧
      advanceCavity env files d1 { s1 with retreat := true } = (d2, s2, none) ∧
      s2.payload.moment0 ≠ exAxis.payload.moment0 ∧
      advanceCavity env files d2 exAxis = (d3, s3, none) ∧ s3.payload.moment0 ≠ s1.payload.moment0 := by
  obtain ⟨u1, u2, u3, u4, u5⟩ := exKept_units
  have u4' : unitP exGained exKept ≠ 0 := by rw [u5]; exact u4
  have hs : 0 < Real.sin t := Real.sin_pos_of_pos_of_lt_pi h0 (by linarith [Real.pi_pos])
  have hc : 0 < Real.cos t := Real.cos_pos_of_mem_Ioo ⟨by linarith [Real.pi_pos], h1⟩
  have hq := Real.sin_sq_add_cos_sq t
  have hc1 : Real.cos t < 1 := by nlinarith
  have hi : (unitZ exGained)⁻¹ ≠ (unitZ exKept)⁻¹ := fun e => u3 (inv_inj.1 e).symm
  obtain ⟨a, d1, s1, cav1, S1, X1, f1, f2, f3, f4, f5, f6, f7, f8, f9⟩ := exTilted_forward env files t
  have hdr : exDrifted a = exStored a 0 0 := by
    ext i j
    fin_cases i <;> fin_cases j <;> simp [exStored, exDrifted, driftT, setAt]
  obtain ⟨g1, g2⟩ := tilted_one exTilt a t exKept u1 u4' 0 0 1 exParticle.recalc exGained
  rw [← hdr] at g1 g2
  rw [g1] at f2
  rw [g2] at f9
  generalize hk4 : -(120 * (1 - Real.cos t) / unitZ exKept + a * ((Real.cos t - 1) / unitP exGained exKept)) = k4 at f2
  generalize hk5 : -((Real.cos t - 1) / unitP exGained exKept) = k5 at f2
  generalize hF : (![Real.cos t * (120 * Real.sin t) - Real.sin t * 120, Real.cos t * Real.sin t - Real.sin t, 0, 0,
        (Real.sin t * (120 * Real.sin t) + Real.cos t * 120 - 120) / unitZ exKept,
        (Real.sin t * Real.sin t + Real.cos t - 1) / unitP exGained exKept, 1] : Fin 7 → ℝ) = F at f9
  -- the way back
  have hdet : ((misOf exGained t).2 * (exStored a k4 k5 * (misOf exGained t).1)).det ≠ 0 := by
    have m1 : ∀ z, (middle exGained exGained z).det ≠ 0 := fun z => by rw [middle_det]; exact mul_ne_zero u2 u4
    have m2 : ∀ z, ((middle exGained exGained z)⁻¹).det ≠ 0 := fun z => by
      rw [Matrix.det_nonsing_inv]; simpa using m1 z
    have r1 := rotMat_det 0 0 0 t 0
    have r2 : ((rotMat 0 0 0 t 0)⁻¹).det ≠ 0 := by rw [Matrix.det_nonsing_inv]; simpa using r1
    unfold misOf
    dsimp only
    rw [Matrix.det_mul, Matrix.det_mul, Matrix.det_mul, Matrix.det_mul, Matrix.det_mul, Matrix.det_mul, exStored_det]
    exact mul_ne_zero (mul_ne_zero (mul_ne_zero (m2 _) r2) (m1 _)) (mul_ne_zero one_ne_zero
      (mul_ne_zero (mul_ne_zero (m2 _) r1) (m1 _)))
  generalize hB : (misOf exGained t).2 * (exStored a k4 k5 * (misOf exGained t).1) = B at hdet
  have hback : ∃ d2 s2, advanceCavity env files d1 { s1 with retreat := true } = (d2, s2, none) ∧
      d2 = { d1 with cav := some { cav1 with misalign := [misOf exGained t] } } ∧
      s2.payload.moment0 = [B⁻¹.mulVec F] := by
    have hSr : s1.payload.recalc.ref = exGained := by
      show s1.payload.ref.recalc = _
      rw [f5]; rfl
    have hSl : s1.payload.recalc.real = [exGained] := by
      show s1.payload.real.map _ = _
      rw [f6]; rfl
    have hck : checkBackward d1 s1.payload.recalc := by
      rw [checkBackward, hSr, hSl, f2]
      exact ⟨by simp, ⟨rfl, rfl, rfl, rfl, rfl⟩, .cons ⟨rfl, rfl, rfl, rfl, rfl⟩ .nil⟩
    have hmis : forEach (fun p => getMisalign d1 (takenBack exParticle.recalc exGained exGained) p)
        [takenBack exParticle.recalc exGained exGained] = .ok [misOf exGained t] := by
      have hm : getMisalign d1 (takenBack exParticle.recalc exGained exGained)
          (takenBack exParticle.recalc exGained exGained) = .ok (misOf exGained t) := by
        rw [f2]
        exact exTilted_mis rfl rfl rfl rfl rfl rfl rfl u2 u4
      simp only [forEach, hm]
    have e1 : d1.cav = some cav1 := by rw [f2]
    have e2 : d1.refIn = some exParticle.recalc := by rw [f2]
    have e3 : d1.realIn = [exParticle.recalc] := by rw [f2]
    have e4 : d1.refOut = exGained := by rw [f2]
    have e5 : d1.realOut = [exGained] := by rw [f2]
    have e6 : d1.transfer = [exStored a k4 k5] := by rw [f2]
    have hin : inverse B = .ok B⁻¹ := if_neg hdet
    unfold advanceCavity
    rw [e1]
    dsimp only
    rw [if_pos rfl, if_neg (not_not.2 hck), if_neg (by rw [e3, e5]; simp), e2, e3, e4, e5, hSr, hSl]
    simp only [Option.getD_some, List.zip_cons_cons, List.zip_nil_right, List.zipWith_cons_cons, List.zipWith_nil_right, hmis, e6, hB]
    unfold backward MSt.recalc
    simp only [f7, f8, f9, backLoop, hin]
    exact ⟨_, _, rfl, rfl, rfl⟩
  obtain ⟨d2, s2, b1, b2, b3⟩ := hback
  -- forward again
  have hagain : ∃ d3 s3, advanceCavity env files d2 exAxis = (d3, s3, none) ∧
      s3.payload.moment0 = [(cavOne exTilt exGained (exStored a k4 k5) (misOf exGained t) exGained exParticle.recalc exGained
        ![0, 0, 0, 0, 0, 0, 1] 1).2.1] := by
    have hh : hit d2 exAxis.payload.recalc := by
      rw [b2, f2]
      exact ⟨rfl, ⟨_, rfl, by refine ⟨?_, ?_, ?_, ?_, ?_, ?_⟩ <;> rfl⟩, .cons (by refine ⟨?_, ?_, ?_, ?_, ?_, ?_⟩ <;> rfl) .nil⟩
    have e1 : d2.cav = some { cav1 with misalign := [misOf exGained t] } := by rw [b2]
    unfold advanceCavity
    rw [e1]
    dsimp only
    rw [if_neg (show ¬ (exAxis.retreat = true) by simp [exAxis, exState]), if_pos hh, cavFault_off (by exact f3)]
    refine ⟨_, _, rfl, ?_⟩
    subst b2
    subst f2
    rfl
  obtain ⟨d3, s3, c1, c2⟩ := hagain
  refine ⟨d1, s1, d2, s2, d3, s3, f1, b1, ?_, c1, ?_⟩
  · rw [b3]
    intro h
    have h' : B⁻¹.mulVec F = ![0, 0, 0, 0, 0, 0, 1] := (List.cons.inj h).1
    have hBF : F = B.mulVec ![0, 0, 0, 0, 0, 0, 1] := by
      rw [← h', Matrix.mulVec_mulVec, Matrix.mul_nonsing_inv _ (isUnit_iff_ne_zero.2 hdet), Matrix.one_mulVec]
    have e1 : (misOf exGained t).1.mulVec ![0, 0, 0, 0, 0, 0, 1] = _ := tilted_pass exGained exGained u2 u4 120 t
    have e2 := tilted_leave exGained exGained u2 u4 120 t
    rw [← hB, ← Matrix.mulVec_mulVec, ← Matrix.mulVec_mulVec, e1, exStored_vec, show (misOf exGained t).2.mulVec _ = _ from e2 _ _ _ _,
      ← hF, ← hk4, ← hk5, u5] at hBF
    have h00 := congrFun hBF 0
    simp only [Matrix.cons_val_zero] at h00
    have : Real.sin t * 120 * (1 - Real.cos t) * unitZ exGained * ((unitZ exGained)⁻¹ - (unitZ exKept)⁻¹) = 0 := by
      rw [div_eq_mul_inv, div_eq_mul_inv] at h00
      linear_combination h00
    have hne : Real.sin t * 120 * (1 - Real.cos t) * unitZ exGained ≠ 0 :=
      mul_ne_zero (by nlinarith [mul_pos hs (sub_pos.2 hc1)]) u2
    exact (sub_ne_zero.2 hi) ((mul_eq_zero.1 this).resolve_left hne)
  · rw [c2, f9, (tilted_one exTilt a t exGained u2 u4 k4 k5 1 exParticle.recalc exGained).2, ← hF]
    intro h
    have h4 := congrFun (List.cons.inj h).1 4
    simp only [Matrix.cons_val] at h4
    have hne : Real.sin t * (120 * Real.sin t) + Real.cos t * 120 - 120 ≠ 0 := by nlinarith [mul_pos hc (sub_pos.2 hc1)]
    rw [div_eq_mul_inv, div_eq_mul_inv] at h4
    exact hi (mul_left_cancel₀ hne h4)

end Flame.Cavity
