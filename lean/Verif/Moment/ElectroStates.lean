import Verif.Moment.Electro

/-!
# Electrostatic dipoles and charge states other than the reference: C75
-/

namespace Flame.Moment

open Flame.Mach (Err)
open Flame.Linear (LCfg LVal getNum getNumD cc ss)
open Spec (Slip Pull Deflected fringe upright Apart OtherState)

/-- The coordinates inside electrodes, with a constant force `c`; the phase does not feel it. -/
noncomputable def offPath (h kx ky k s e p c : ℝ) (v : Vec) (z : ℝ) : Vec :=
  let C := h * (1 - cc kx z) / kx
  let S := h * ss kx z
  let F := e / p * v 5
  let G := F + c * v 6
  ![cc kx z * v 0 + ss kx z * v 1 + C * G, -kx * ss kx z * v 0 + cc kx z * v 1 + S * G,
    cc ky z * v 2 + ss ky z * v 3, -ky * ss ky z * v 2 + cc ky z * v 3,
    v 4 + k * e * (S * v 0 + C * v 1 + h * (h * z - S) / kx * F) + s * z * v 5,
    v 5, v 6]

theorem offPath_apart (h kx ky k s e p D c c' L : ℝ) (v : Vec) (h0 : kx ≠ 0) (hc : c' = c - e / p * D) :
    Apart h kx ky e p D c L v (offPath h kx ky k s e p c' v L) := by
  subst hc
  refine ⟨offPath h kx ky k s e p _ v, ?_, rfl, fun z => ⟨?_, ?_, ?_, ?_, ?_, ?_⟩⟩
  · funext i
    fin_cases i <;> simp [offPath, Flame.Linear.cc_zero, Flame.Linear.ss_zero]
  · generalize hG : e / p * v 5 + (c - e / p * D) * v 6 = G
    refine deriv_of kx (v 0 - h / kx * G) (v 1) 0 (h / kx * G) (fun x => ?_) ?_
    · simp only [offPath, hG]; simp; ring
    · simp only [offPath, hG]; simp
      field_simp
      ring
  · generalize hG : e / p * v 5 + (c - e / p * D) * v 6 = G
    have hG' : e / p * (v 5 - D * v 6) + c * v 6 = G := by rw [← hG]; ring
    refine deriv_of kx (v 1) (-kx * v 0 + h * G) 0 0 (fun x => ?_) ?_
    · simp only [offPath, hG]; simp; ring
    · have a5 : offPath h kx ky k s e p (c - e / p * D) v z 5 = v 5 := by simp [offPath]
      have a6 : offPath h kx ky k s e p (c - e / p * D) v z 6 = v 6 := by simp [offPath]
      rw [a5, a6, hG']
      simp only [offPath, hG]; simp
      field_simp
      ring
  · exact deriv_of ky (v 2) (v 3) 0 0 (fun x => by simp [offPath]; ring) (by simp [offPath]; ring)
  · exact deriv_of ky (v 3) (-ky * v 2) 0 0 (fun x => by simp [offPath]; ring) (by simp [offPath]; ring)
  · exact hasDerivAt_const _ _
  · exact hasDerivAt_const _ _

theorem ebendCore_off {L phi Kx Ky IonEs g g0 dK dKZ k : ℝ} (v : Vec) (hK : 0 < Kx) (hg : 1 < g) (hg0 : 1 < g0)
    (hE : 0 < IonEs) :
    (ebendCore L phi Kx Ky IonEs g ((g0 - 1) / 2) 1 dK dKZ k).mulVec v =
      offPath (phi / L) Kx Ky (g / (1 + g) * k)
        (g / (1 + g) * -(k / (g0 * (1 + g0) * ((g - 1) * IonEs / MeVtoeV)))) (1 + 1 / (g0 * g0))
        ((g - 1) * (1 + g0) / g0 * IonEs / MeVtoeV)
        ((g0 * g0 + 1) / (g0 * (1 + g0)) * dK + (g0 - 1) / (g0 * (1 + g0)) * dKZ) v L := by
  unfold ebendCore ebendM
  simp only [eedgeM_zero, one_mul, mul_one]
  rw [quadPlane_eq, quadPlane_eq]
  have e1 : 1 + 2 * ((g0 - 1) / 2) = g0 := by ring
  have e2 : 2 * (1 + (g0 - 1) / 2) = 1 + g0 := by ring
  simp only [e1, e2, if_neg hK.ne', if_pos hK]
  have ec : Real.cos (Real.sqrt Kx * L) = cc Kx L := by unfold cc; rw [if_pos hK]
  have es : Real.sin (Real.sqrt Kx * L) / Real.sqrt Kx = ss Kx L := by unfold ss; rw [if_pos hK]
  rw [ec, es]
  have hd : ∀ x, x / (L / phi) = x * (phi / L) := fun x => by rw [div_div_eq_mul_div, mul_div_assoc]
  have hd2 : ∀ x, x / (L / phi * Kx) = phi / L * x / Kx := fun x => by rw [← div_div, hd, mul_comm]
  have hd3 : ∀ x, x / (L / phi * (L / phi)) = x * (phi / L) * (phi / L) := fun x => by rw [← div_div, hd, hd]
  simp only [hd, hd2, hd3]
  unfold offPath
  generalize cc Kx L = c
  generalize ss Kx L = s
  generalize cc Ky L = c'
  generalize ss Ky L = s'
  generalize phi / L = h
  have hM : MeVtoeV ≠ 0 := by norm_num [MeVtoeV]
  have q0 : g0 ≠ 0 := by linarith
  have q1 : 1 + g0 ≠ 0 := by linarith
  have q2 : g - 1 ≠ 0 := by linarith
  have q3 : 1 + g ≠ 0 := by linarith
  have hK' := hK.ne'
  have hE' := hE.ne'
  generalize MeVtoeV = m at *
  funext i
  fin_cases i <;>
    simp [setAt, Matrix.mulVec, dotProduct, Fin.sum_univ_seven, Matrix.one_apply]
  · field_simp
    ring
  · field_simp
    ring
  · field_simp
    ring

/-- One charge state of any charge and energy, in electrodes built for the velocity of `pd`. -/
theorem edipoleOne_other {d : MDat} {ref p pd : Particle} {ver : Bool} {L phi fx fy a spher b : ℝ} {T : Mat}
    (h1 : d.pitch = 0) (h2 : d.yaw = 0) (hr : Moving ref) (hp : Moving p) (hd : Moving pd) (hf : p.SampleFreq ≠ 0)
    (hZ : ref.IonZ ≠ 0) (hZp : p.IonZ ≠ 0) (e1 : p.IonEs = ref.IonEs) (e2 : pd.IonEs = ref.IonEs)
    (e3 : pd.SampleFreq = p.SampleFreq) (hb : b = pd.beta) (hL : L ≠ 0) (hphi : phi ≠ 0)
    (hs : spher < 1 + ((ref.IonEs + pd.IonEk) / ref.IonEs) ^ 2)
    (h : edipoleOne d ver L phi fx fy a spher b ref p = .ok T) (ρ : ℝ)
    (hρ : ρ = Spec.speed ref.IonEs (ref.IonEs + p.IonEk) ^ 2 / p.IonZ /
      (Spec.speed ref.IonEs (ref.IonEs + pd.IonEk) ^ 2 / ref.IonZ)) :
    OtherState p.SampleFreq ref.IonEs p.IonEk ref.IonEk pd.IonEk p.IonZ ref.IonZ (phi / (ρ * L))
      ((phi / (ρ * L)) ^ 2 * (1 - spher + ((ref.IonEs + pd.IonEk) / ref.IonEs) ^ 2)) ((phi / (ρ * L)) ^ 2 * spher)
      (((ref.IonEs + p.IonEk) / ref.IonEs) / (1 + (ref.IonEs + p.IonEk) / ref.IonEs)) fx fy a (ρ * L)
      d.dx d.dy d.roll ver T := by
  have eg : (ref.IonEs + p.IonEk) / ref.IonEs = p.gamma := by rw [hp.gamma, hp.ionW, e1]
  have eg0 : (ref.IonEs + pd.IonEk) / ref.IonEs = pd.gamma := by rw [hd.gamma, hd.ionW, e2]
  have eb : Spec.speed ref.IonEs (ref.IonEs + p.IonEk) = p.beta := by rw [hp.speed, e1]
  have eb0 : Spec.speed ref.IonEs (ref.IonEs + pd.IonEk) = pd.beta := by rw [hd.speed, e2]
  have hg := hp.one_lt
  have hg0 := hd.one_lt
  have hbp := hp.beta_pos
  have hbd := hd.beta_pos
  have hE := hr.mass
  rw [eg0] at hs
  have hρ' : p.beta * p.beta / p.IonZ / (pd.beta * pd.beta / ref.IonZ) = ρ := by
    rw [hρ, eb, eb0, pow_two, pow_two]
  have hρ0 : ρ ≠ 0 := by rw [← hρ']; positivity
  unfold edipoleOne at h
  rw [hb, rest_sqrt hd] at h
  have g1 : 1 + 2 * ((pd.gamma - 1) / 2) = pd.gamma := by ring
  simp only [hρ', g1, ← hp.wave] at h
  have hKx : (1 - spher + pd.gamma * pd.gamma) / (ρ * L / phi * (ρ * L / phi)) =
      (phi / (ρ * L)) ^ 2 * (1 - spher + pd.gamma ^ 2) := by field_simp
  have hKy : spher / (ρ * L / phi * (ρ * L / phi)) = (phi / (ρ * L)) ^ 2 * spher := by field_simp
  rw [hKx, hKy] at h
  have hh : phi / (ρ * L) ≠ 0 := div_ne_zero hphi (mul_ne_zero hρ0 hL)
  have hpos : 0 < (phi / (ρ * L)) ^ 2 * (1 - spher + pd.gamma ^ 2) := mul_pos (by positivity) (by linarith)
  have hwave : p.SampleIonK = Spec.phaseAdvance p.SampleFreq ref.IonEs (ref.IonEs + p.IonEk) 1 := by
    have := C64_phase hp 1
    rwa [mul_one, e1] at this
  have hwave0 : pd.SampleIonK = Spec.phaseAdvance p.SampleFreq ref.IonEs (ref.IonEs + pd.IonEk) 1 := by
    have := C64_phase hd 1
    rwa [mul_one, e2, e3] at this
  have hk0 : pd.SampleIonK ≠ 0 := hd.wave_ne (by rwa [e3])
  obtain ⟨-, -, -, -, -, -, hFr⟩ := C36_frame d ref p h1 h2 (hp.wave_ne hf) hp.beta_pos.ne' (by linarith) hr.mass.ne'
  have hP := pull_of hd
  rw [e2] at hP
  have hS := C64_slip hd
  rw [e2, e3] at hS
  refine ⟨_, _, _, hP, hS, fun v => ?_⟩
  rw [eg, eg0, eb, eb0, ← hwave, ← hwave0, slip_wave hd (by rwa [e3]), e2, hFr _ T h v]
  have hek : p.IonEk = (p.gamma - 1) * ref.IonEs := by rw [← eg]; field_simp; ring
  have hekd : pd.IonEk = (pd.gamma - 1) * ref.IonEs := by rw [← eg0]; field_simp; ring
  generalize hw : fringe fx fy a (upright ver (Spec.inFrame d.dx d.dy d.roll v)) = w
  have q0 : pd.gamma ≠ 0 := by linarith
  have q1 : 1 + pd.gamma ≠ 0 := by linarith
  have q2 : p.gamma - 1 ≠ 0 := by linarith
  have q3 : 1 + p.gamma ≠ 0 := by linarith
  have q4 : pd.gamma - 1 ≠ 0 := by linarith
  have q5 : pd.gamma * pd.gamma - 1 = (pd.gamma - 1) * (1 + pd.gamma) := by ring
  have hM : MeVtoeV = 1000000 := by norm_num [MeVtoeV]
  have ep : (pd.gamma * pd.gamma - 1) / pd.gamma * ref.IonEs / MeVtoeV * p.IonEk / pd.IonEk =
      (p.gamma - 1) * (1 + pd.gamma) / pd.gamma * ref.IonEs / MeVtoeV := by
    rw [hek, hekd, hM, q5]
    field_simp
  have es : -(pd.SampleIonK / (pd.gamma * pd.gamma) / ((pd.gamma * pd.gamma - 1) / pd.gamma * ref.IonEs / MeVtoeV)) *
      (p.SampleIonK / pd.SampleIonK) * (pd.IonEk / p.IonEk) =
      -(p.SampleIonK / (pd.gamma * (1 + pd.gamma) * ((p.gamma - 1) * ref.IonEs / MeVtoeV))) := by
    rw [hek, hekd, hM, q5]
    field_simp
  rw [ep, es]
  refine ⟨_, _, offPath_apart _ _ _ (p.gamma / (1 + p.gamma) * p.SampleIonK)
    (p.gamma / (1 + p.gamma) * -(p.SampleIonK / (pd.gamma * (1 + pd.gamma) * ((p.gamma - 1) * ref.IonEs / MeVtoeV))))
    _ _ _ _ ((pd.gamma * pd.gamma + 1) / (pd.gamma * (1 + pd.gamma)) * (ρ - 1 - (p.IonEk - ref.IonEk) / p.IonEk) +
      (pd.gamma - 1) / (pd.gamma * (1 + pd.gamma)) * (ref.IonZ / p.IonZ - 1)) _ _ hpos.ne' ?_,
    elPath_deflected _ _ _ _ _ _ _ _ _ hpos.ne', ?_, ?_⟩
  · have hρ2 : p.beta ^ 2 / p.IonZ / (pd.beta ^ 2 / ref.IonZ) = ρ := by rw [← hρ', pow_two, pow_two]
    rw [hρ2, hM, hekd, q5]
    rw [hek]
    field_simp
    ring
  · simp [offPath, elPath]
  · rw [← ebendCore_off _ hpos hg hg0 hE, ← hw, ← eedgeM_fringe, ← eedgeM_fringe]
    cases ver with
    | false =>
      rw [if_neg (by simp), ebendM_faces, ← Matrix.mulVec_mulVec, ← Matrix.mulVec_mulVec]
      rfl
    | true =>
      rw [if_pos rfl, ← Matrix.mulVec_mulVec, ← Matrix.mulVec_mulVec, upright_rot90, rot90_upright, ebendM_faces,
        ← Matrix.mulVec_mulVec, ← Matrix.mulVec_mulVec]

/-- C75 for every charge state, partial: whatever the charge and the energy of a charge state, and whatever the velocity for
which the dipole is built, its motion across the orbit is given by the equations of motion for a force with the right excess,
except for three deviations: those of `C75_edipole_partial` and a length and a radius that are multiplied by the squared velocity
per charge in units of that of the design particle.  The phase does not feel the displacement of the orbit by the excess.
Excluded are shapes with `spher` of at least one plus the square of `gamma`, for which the code takes the root of a number that
is not positive. -/
theorem C75_states_partial (env : Env) (d : MDat) (ref : Particle) (real : List Particle) (Ts : List Mat)
    (h : recompute env .edipole d ref real = .ok Ts) (h1 : d.pitch = 0) (h2 : d.yaw = 0) (hr : Moving ref)
    (hZ : ref.IonZ ≠ 0) :
    ∃ ver L phi spher b, d.conf "ver" = some (.num ver) ∧ d.conf "L" = some (.num L) ∧ d.conf "phi" = some (.num phi) ∧
      d.conf "spher" = some (.num spher) ∧
      Spec.DesignSpeed env.parse d.conf (Spec.speed ref.IonEs (ref.IonEs + ref.IonEk)) b ∧
      (L = 0 → ∀ T ∈ Ts, T = 1) ∧
      ∀ Ed, 0 < Ed → b = Spec.speed ref.IonEs (ref.IonEs + Ed) → L ≠ 0 → phi ≠ 0 →
        spher < 1 + ((ref.IonEs + Ed) / ref.IonEs) ^ 2 →
        List.Forall₂ (fun p T => Moving p → p.SampleFreq ≠ 0 → p.IonEs = ref.IonEs → p.IonZ ≠ 0 →
          ∀ v : Bool, (v = true ↔ ver = 1) → ∀ len h,
          len = Spec.speed ref.IonEs (ref.IonEs + p.IonEk) ^ 2 / p.IonZ / (b ^ 2 / ref.IonZ) * (1000 * L) →
          h = phi * Real.pi / 180 / len →
          OtherState p.SampleFreq ref.IonEs p.IonEk ref.IonEk Ed p.IonZ ref.IonZ h
            (h ^ 2 * (1 - spher + ((ref.IonEs + Ed) / ref.IonEs) ^ 2)) (h ^ 2 * spher)
            (((ref.IonEs + p.IonEk) / ref.IonEs) / (1 + (ref.IonEs + p.IonEk) / ref.IonEs))
            (Spec.numOr d.conf "fringe_x" 0 / 1000) (Spec.numOr d.conf "fringe_y" 0 / 1000) (Spec.numOr d.conf "asym_fac" 0)
            len d.dx d.dy d.roll v T) real Ts := by
  change edipoleRec env d ref real = .ok Ts at h
  unfold edipoleRec at h
  split at h
  · rename_i ver L phi spher g1 g2 g3 g4
    cases hfl : getFlag env d.conf "HdipoleFitMode" 1 with
    | error e => rw [hfl] at h; cases h
    | ok mode =>
      rw [hfl] at h
      dsimp only at h
      split at h
      · cases h
      · rename_i hmode
        generalize hb : (if mode ≠ 0 then ref.beta else getNumD d.conf "beta" ref.beta) = b at h
        rw [forEach_ok] at h
        refine ⟨ver, L, phi, spher, b, getNum_some g1, getNum_some g2, getNum_some g3, getNum_some g4, ?_, fun h0 T hT => ?_,
          fun Ed hEd hbE hL hphi hs => h.imp fun p T hT hp hf e1 hZp v hv len h hlen hh => ?_⟩
        · have hx : ∃ x : ℝ, asUnsigned x = .ok mode ∧ (match d.conf "HdipoleFitMode" with
              | some (.num y) => x = y
              | some (.str t) => x = (env.parse t).getD 1
              | _ => x = 1) := by
            unfold getFlag at hfl
            cases hc : d.conf "HdipoleFitMode" with
            | none => exact ⟨_, hfl, by simp [getStr, Flame.Linear.getNum, hc]⟩
            | some y =>
              cases y with
              | num y => exact ⟨_, hfl, by simp [getStr, Flame.Linear.getNum, hc]⟩
              | vec y => exact ⟨_, hfl, by simp [getStr, Flame.Linear.getNum, hc]⟩
              | other => exact ⟨_, hfl, by simp [getStr, Flame.Linear.getNum, hc]⟩
              | str t => exact ⟨_, hfl, by cases ht : env.parse t <;> simp [getStr, Flame.Linear.getNum, hc, ht]⟩
          obtain ⟨x, hx, hm⟩ := hx
          refine ⟨x, hm, ?_⟩
          have hxm : (mode : ℝ) = x := by
            unfold asUnsigned at hx
            split at hx
            · rename_i h3
              cases hx
              exact h3.2.2
            · cases hx
          rw [← hr.speed, ← hb, ← hxm]
          have : mode = 0 ∨ mode = 1 := by
            by_contra hn
            rw [not_or] at hn
            exact hmode hn
          rcases this with rfl | rfl
          · right; simp [numOr_eq]
          · left; simp
        · obtain ⟨p, e⟩ : ∃ p, (if L * MtoMM ≠ 0 then
              edipoleOne d (decide (ver = 1)) (L * MtoMM) (phi * Real.pi / 180) (getNumD d.conf "fringe_x" 0 / MtoMM)
              (getNumD d.conf "fringe_y" 0 / MtoMM) (getNumD d.conf "asym_fac" 0) spher b ref p
            else Except.ok 1) = Except.ok T := by
            induction h with
            | nil => cases hT
            | cons hab _ ih =>
              rcases List.mem_cons.1 hT with rfl | hT
              · exact ⟨_, hab⟩
              · exact ih hT
          rw [if_neg (by rw [h0, zero_mul]; simp)] at e
          cases e
          rfl
        · have hL0 : L * MtoMM ≠ 0 := mul_ne_zero hL MtoMM_ne
          rw [if_pos hL0] at hT
          have eb : decide (ver = 1) = v := by
            cases v
            · simpa using hv
            · simpa using hv
          have k1 : L * MtoMM = 1000 * L := by rw [MtoMM, mul_comm]
          rw [eb, k1, numOr_eq, numOr_eq, numOr_eq, MtoMM] at hT
          have hm := hr.mass
          have hd : Moving ({ p with IonEs := ref.IonEs, IonEk := Ed } : Particle).recalc := ⟨rfl, hm, hEd⟩
          have := edipoleOne_other (pd := ({ p with IonEs := ref.IonEs, IonEk := Ed } : Particle).recalc) h1 h2 hr hp hd hf hZ
            hZp e1 rfl rfl (by rw [hd.speed, hbE]; rfl) (mul_ne_zero (by norm_num) hL)
            (by have := Real.pi_pos.ne'; positivity) hs hT _ rfl
          rw [hh, hlen, hbE]
          exact this
  · cases h

/-- The excess is right for charge states of the energy for which the dipole is built. -/
theorem excess_same (Es Ek Z Z0 q : ℝ) (h0 : Spec.speed Es (Es + Ek) ≠ 0) :
    q * (Spec.speed Es (Es + Ek) ^ 2 / Z / (Spec.speed Es (Es + Ek) ^ 2 / Z0) - 1) + (1 - q) * (Z0 / Z - 1) = Z0 / Z - 1 := by
  have : Spec.speed Es (Es + Ek) ^ 2 / Z / (Spec.speed Es (Es + Ek) ^ 2 / Z0) = Z0 / Z := by
    by_cases hZ : Z = 0
    · simp [hZ]
    · by_cases hZ0 : Z0 = 0
      · simp [hZ0]
      · field_simp
  rw [this]
  ring

theorem apart_drift {h kx e p D c L : ℝ} {v v' : Vec} (hD : Apart h kx 0 e p D c L v v') :
    v' 2 = v 2 + L * v 3 ∧ v' 3 = v 3 := by
  obtain ⟨u, h0, hL, hu⟩ := hD
  have u3 : ∀ z, u z 3 = v 3 := fun z => by
    rw [zero_of_deriv (f := fun z => u z 3) (fun z => by simpa using (hu z).2.2.2.1) z 0, h0]
  have hS : ∀ z, HasDerivAt (fun z => u z 2 - z * v 3) 0 z := fun z => by
    refine ((hu z).2.2.1.sub ((hasDerivAt_id z).mul_const (v 3))).congr_deriv ?_
    rw [u3 z]
    ring
  have := zero_of_deriv hS L 0
  simp only [hL, h0] at this
  refine ⟨by linarith, ?_⟩
  rw [← u3 L, hL]

/-- In cylindrical electrodes no force acts along the axis of the cylinder, and every particle flies `L` from one end to the
other.  Charge states whose squared velocity per charge is not that of the design particle fly another length. -/
theorem C75_length_false (env : Env) (d : MDat) (ref : Particle) (real : List Particle) (Ts : List Mat)
    (h : recompute env .edipole d ref real = .ok Ts) (h1 : d.pitch = 0) (h2 : d.yaw = 0) (h3 : d.dx = 0) (h4 : d.dy = 0)
    (h5 : d.roll = 0) (hr : Moving ref) (hZ : ref.IonZ ≠ 0) (hm : d.conf "HdipoleFitMode" = none)
    (hfy : Spec.numOr d.conf "fringe_y" 0 = 0) (ver L phi : ℝ) (c1 : d.conf "ver" = some (.num ver)) (hver : ver ≠ 1)
    (c2 : d.conf "L" = some (.num L)) (c3 : d.conf "phi" = some (.num phi)) (c4 : d.conf "spher" = some (.num 0))
    (hL : L ≠ 0) (hphi : phi ≠ 0) :
    List.Forall₂ (fun p T => Moving p → p.SampleFreq ≠ 0 → p.IonEs = ref.IonEs → p.IonZ ≠ 0 →
      p.IonZ ≠ ref.IonZ → p.IonEk = ref.IonEk →
      ∀ v : Vec, v 3 ≠ 0 → (T.mulVec v) 3 = v 3 ∧ (T.mulVec v) 2 ≠ v 2 + 1000 * L * v 3 ∧
        (T.mulVec v) 2 = v 2 + ref.IonZ / p.IonZ * (1000 * L) * v 3) real Ts := by
  obtain ⟨ver', L', phi', spher', b, k1, k2, k3, k4, hb, -, H⟩ := C75_states_partial env d ref real Ts h h1 h2 hr hZ
  obtain rfl : ver' = ver := by rw [c1] at k1; cases k1; rfl
  obtain rfl : L' = L := by rw [c2] at k2; cases k2; rfl
  obtain rfl : phi' = phi := by rw [c3] at k3; cases k3; rfl
  obtain rfl : spher' = 0 := by rw [c4] at k4; cases k4; rfl
  have hb : b = Spec.speed ref.IonEs (ref.IonEs + ref.IonEk) := by
    obtain ⟨m, hm', hb⟩ := hb
    rw [hm] at hm'
    rcases hb with hb | hb
    · exact hb.2
    · linarith [hb.1, (hm' : m = 1)]
  refine (H ref.IonEk hr.energy hb hL hphi (by positivity)).imp fun p T hT hp hf e1 hZp hne hek v hv => ?_
  obtain ⟨e, m, s, -, -, hv'⟩ := hT hp hf e1 hZp false (by simpa using hver) _ _ rfl rfl
  obtain ⟨v', -, hA, -, -, hB⟩ := hv' v
  rw [mul_zero] at hA
  obtain ⟨q1, q2⟩ := apart_drift hA
  have hs0 : Spec.speed ref.IonEs (ref.IonEs + ref.IonEk) ≠ 0 := by rw [← hr.speed]; exact hr.beta_pos.ne'
  have hlen : Spec.speed ref.IonEs (ref.IonEs + p.IonEk) ^ 2 / p.IonZ / (b ^ 2 / ref.IonZ) = ref.IonZ / p.IonZ := by
    rw [hek, hb]
    field_simp
  rw [hlen] at q1
  rw [h3, h4, h5, hfy] at hB q1
  rw [h3, h4, h5, hfy] at q2
  have b2 := congrFun hB 2
  have b3 := congrFun hB 3
  simp [upright, Spec.inFrame, fringe] at q1 q2 b2 b3
  rw [q2] at b3
  rw [q1] at b2
  refine ⟨b3, ?_, b2⟩
  rw [b2]
  intro hc
  have : (ref.IonZ / p.IonZ - 1) * (1000 * L' * v 3) = 0 := by linear_combination hc
  rcases mul_eq_zero.1 this with hq | hq
  · apply hne
    rw [sub_eq_zero, div_eq_one_iff_eq hZp] at hq
    exact hq.symm
  · exact (mul_ne_zero (mul_ne_zero (by norm_num) hL) hv) hq

/-! ## the hypotheses can be met -/

/-- A cylindrical dipole of 0.5 m that bends by 60 degrees, and two charge states of uranium: 33, which is the reference, and 34.
The latter flies 0.5 m times 33/34 along the axis. -/
example (env : Env) (d : MDat) (hp : d.pitch = 0) (hy : d.yaw = 0) (hx : d.dx = 0) (hy' : d.dy = 0) (hroll : d.roll = 0)
    (hc : d.conf = fun k => if k = "L" then some (.num 0.5) else if k = "phi" then some (.num 60)
      else if k = "ver" then some (.num 0) else if k = "spher" then some (.num 0) else if k = "fringe_x" then some (.num (-0.4))
      else none) :
    ∃ A B, recompute env .edipole d exIon [exIon, exIon34] = .ok [A, B] ∧ exIon34.IonZ ≠ exIon.IonZ ∧
      OtherState 80500000 931494320 500000 500000 500000 exIon34.IonZ exIon.IonZ
        (60 * Real.pi / 180 / (exIon.IonZ / exIon34.IonZ * 500))
        ((60 * Real.pi / 180 / (exIon.IonZ / exIon34.IonZ * 500)) ^ 2 * (1 - 0 + ((931494320 + 500000) / 931494320) ^ 2))
        ((60 * Real.pi / 180 / (exIon.IonZ / exIon34.IonZ * 500)) ^ 2 * 0)
        ((931494320 + 500000) / 931494320 / (1 + (931494320 + 500000) / 931494320)) (-0.4 / 1000) (0 / 1000) 0
        (exIon.IonZ / exIon34.IonZ * 500) d.dx d.dy d.roll false B ∧
      (B.mulVec ![0, 0, 0, 1, 0, 0, 1]) 2 = exIon.IonZ / exIon34.IonZ * 500 ∧
      (B.mulVec ![0, 0, 0, 1, 0, 0, 1]) 2 ≠ 500 := by
  have hE : exIon.IonEs ≠ 0 := show (931494320 : ℝ) ≠ 0 by norm_num
  have hne : exIon34.IonZ ≠ exIon.IonZ := by norm_num [exIon, exIon34, Particle.recalc]
  have g1 : getNum d.conf "L" = .ok 0.5 := by simp [hc, getNum]
  have g2 : getNum d.conf "phi" = .ok 60 := by simp [hc, getNum]
  have g3 : getNum d.conf "ver" = .ok 0 := by simp [hc, getNum]
  have g4 : getNum d.conf "spher" = .ok 0 := by simp [hc, getNum]
  have f1 : getNumD d.conf "fringe_x" 0 = -0.4 := by simp [hc, getNumD]
  have f2 : getNumD d.conf "fringe_y" 0 = 0 := by simp [hc, getNumD]
  have f3 : getNumD d.conf "asym_fac" 0 = 0 := by simp [hc, getNumD]
  have hfl : getFlag env d.conf "HdipoleFitMode" 1 = .ok 1 := by
    have h1 : asUnsigned 1 = .ok 1 := by norm_num [asUnsigned]
    simpa [getFlag, hc, getStr, Flame.Linear.getNum] using h1
  obtain ⟨A, hA⟩ : ∃ T, edipoleOne d false 500 (60 * Real.pi / 180) (-0.4 / 1000) (0 / 1000) 0 0 exIon.beta exIon exIon = .ok T :=
    aligned_some d hp hy hE exIon_moving.1 exIon_moving.2.1 _
  obtain ⟨B, hB⟩ : ∃ T, edipoleOne d false 500 (60 * Real.pi / 180) (-0.4 / 1000) (0 / 1000) 0 0 exIon.beta exIon exIon34 = .ok T :=
    aligned_some d hp hy hE exIon34_moving.1 exIon34_moving.2.1 _
  have hR : recompute env .edipole d exIon [exIon, exIon34] = .ok [A, B] := by
    show edipoleRec env d exIon [exIon, exIon34] = .ok [A, B]
    unfold edipoleRec
    have h0 : (0.5 * MtoMM : ℝ) ≠ 0 := by norm_num [MtoMM]
    have e5 : (0.5 * MtoMM : ℝ) = 500 := by norm_num [MtoMM]
    rw [g1, g2, g3, g4]
    dsimp only
    rw [hfl]
    dsimp only
    rw [if_neg (by simp), f1, f2, f3, if_pos (by simp)]
    simp only [if_pos h0, forEach]
    rw [e5, decide_eq_false (by norm_num), MtoMM, hA]
    dsimp only
    rw [hB]
  have hek : exIon34.IonEk = exIon.IonEk := rfl
  have hs0 : Spec.speed exIon.IonEs (exIon.IonEs + exIon.IonEk) ≠ 0 := by
    rw [← exIon_moving.1.speed]; exact exIon_moving.1.beta_pos.ne'
  refine ⟨A, B, hR, hne, ?_, ?_⟩
  · obtain ⟨ver, L, phi, spher, b, k1, k2, k3, k4, hb, -, hF⟩ := C75_states_partial env d exIon _ _ hR hp hy exIon_moving.1
      exIon_moving.2.2
    have hnum : ∀ {k : String} {x y : ℝ}, getNum d.conf k = .ok x → d.conf k = some (.num y) → y = x := by
      intro k x y hx hy'
      have := getNum_some hx
      rw [hy'] at this
      cases this
      rfl
    obtain rfl := hnum g1 k2
    obtain rfl := hnum g2 k3
    obtain rfl := hnum g3 k1
    obtain rfl := hnum g4 k4
    have hb : b = Spec.speed exIon.IonEs (exIon.IonEs + exIon.IonEk) := by
      obtain ⟨m, hm', hb⟩ := hb
      have hn : d.conf "HdipoleFitMode" = none := by simp [hc]
      rw [hn] at hm'
      rcases hb with hb | hb
      · exact hb.2
      · linarith [hb.1, (hm' : m = 1)]
    cases hF exIon.IonEk exIon_moving.1.energy hb (by norm_num) (by norm_num) (by positivity) with
    | cons _ h =>
      cases h with
      | cons h _ =>
        have hlen : exIon.IonZ / exIon34.IonZ * 500 =
            Spec.speed exIon.IonEs (exIon.IonEs + exIon34.IonEk) ^ 2 / exIon34.IonZ / (b ^ 2 / exIon.IonZ) * (1000 * 0.5) := by
          have := exIon34_moving.2.2
          have := exIon_moving.2.2
          rw [hek, hb]
          field_simp
          norm_num
        have := h exIon34_moving.1 exIon34_moving.2.1 rfl exIon34_moving.2.2 false (by norm_num) _ _ hlen rfl
        rw [← numOr_eq, ← numOr_eq, ← numOr_eq, f1, f2, f3] at this
        exact this
  · have := C75_length_false env d exIon _ _ hR hp hy hx hy' hroll exIon_moving.1 exIon_moving.2.2 (by simp [hc])
      (by rw [← numOr_eq, f2]) 0 0.5 60 (by simp [hc]) (by norm_num) (by simp [hc]) (by simp [hc]) (by simp [hc])
      (by norm_num) (by norm_num)
    cases this with
    | cons _ h =>
      cases h with
      | cons h _ =>
        obtain ⟨-, r1, r2⟩ := h exIon34_moving.1 exIon34_moving.2.1 rfl exIon34_moving.2.2 hne rfl ![0, 0, 0, 1, 0, 0, 1]
          (by simp)
        refine ⟨by rw [r2]; simp; norm_num, fun he => r1 (by rw [he]; simp; norm_num)⟩

end Flame.Moment
