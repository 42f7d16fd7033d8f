import Verif.Moment.Bends
import Verif.Moment.Strength
import Verif.Moment.SpecBend
import Verif.Moment.Orbit
import Mathlib.Analysis.SpecialFunctions.Log.Deriv

/-!
# Magnetic dipoles follow the equations of motion: C74
-/

namespace Flame.Moment

open Flame.Mach (Err)
open Flame.Linear (LCfg LVal getNum getNumD cc ss)
open Spec (Slip Stiff Bent inclined)

theorem edgeM_inclined (rho e : ℝ) (v : Vec) : (edgeM rho e).mulVec v = inclined (1 / rho) e v := by
  funext i
  fin_cases i <;> simp [edgeM, setAt, Matrix.mulVec, dotProduct, Fin.sum_univ_seven, inclined, Matrix.one_apply]
  all_goals ring

/-- The coordinates inside a bend. -/
noncomputable def bendPath (kx ky rho pz g2 k q D : ℝ) (v : Vec) (z : ℝ) : Vec :=
  let C := (1 - cc kx z) / (rho * kx)
  let S := ss kx z / rho
  let F := (v 5 + D * v 6) / pz - q * v 6
  ![cc kx z * v 0 + ss kx z * v 1 + C * F, -kx * ss kx z * v 0 + cc kx z * v 1 + S * F,
    cc ky z * v 2 + ss ky z * v 3, -ky * ss ky z * v 2 + cc ky z * v 3,
    S * k * v 0 + C * k * v 1 + v 4 + (z / rho - S) / (kx * rho) * k * F - z / g2 * k * ((v 5 + D * v 6) / pz),
    v 5, v 6]

theorem deriv_of {f : ℝ → ℝ} {D z : ℝ} (κ a b c e : ℝ) (hf : ∀ x, f x = a * cc κ x + b * ss κ x + c * x + e)
    (hD : D = a * (-κ * ss κ z) + b * cc κ z + c) : HasDerivAt f D z := by
  have h := ((((Flame.Linear.cc_deriv κ z).const_mul a).add ((Flame.Linear.ss_deriv κ z).const_mul b)).add
    ((hasDerivAt_id z).const_mul c)).add_const e
  rw [hD]
  refine (h.congr_of_eventuallyEq ?_).congr_deriv (by ring)
  filter_upwards with x
  rw [hf x]
  simp

theorem bendPath_bent (kx ky rho pz g2 k q D L : ℝ) (v : Vec) (hk : kx = 1 / rho ^ 2 - ky) (h0 : kx ≠ 0) :
    Bent (1 / rho) (-ky) k (-(k / g2 / pz)) (1 / pz) q D L v (bendPath kx ky rho pz g2 k q D v L) := by
  refine ⟨bendPath kx ky rho pz g2 k q D v, ?_, rfl, ?_⟩
  · funext i
    fin_cases i <;> simp [bendPath, Flame.Linear.cc_zero, Flame.Linear.ss_zero]
  · intro z
    have hk' : -ky + (1 / rho) ^ 2 = kx := by rw [hk]; ring
    have hi : ∀ x, x / (rho * kx) = x / rho / kx := fun x => by rw [div_div]
    refine ⟨?_, ?_, ?_, ?_, ?_, ?_, ?_⟩
    · refine deriv_of kx (v 0 - ((v 5 + D * v 6) / pz - q * v 6) / (rho * kx)) (v 1) 0
        (((v 5 + D * v 6) / pz - q * v 6) / (rho * kx)) (fun x => ?_) ?_
      · simp [bendPath]; ring
      · simp only [bendPath, hi]
        simp
        field_simp
        ring
    · refine deriv_of kx (v 1) (-kx * v 0 + ((v 5 + D * v 6) / pz - q * v 6) / rho) 0 0 (fun x => ?_) ?_
      · simp [bendPath]; ring
      · rw [hk']
        simp only [bendPath, hi]
        simp
        field_simp
        ring
    · exact deriv_of ky (v 2) (v 3) 0 0 (fun x => by simp [bendPath]; ring) (by simp [bendPath]; ring)
    · exact deriv_of ky (v 3) (-ky * v 2) 0 0 (fun x => by simp [bendPath]; ring) (by simp [bendPath]; ring)
    · refine deriv_of kx (-(k * v 1 / (rho * kx))) (k * v 0 / rho - ((v 5 + D * v 6) / pz - q * v 6) * k / (rho * rho * kx))
        (((v 5 + D * v 6) / pz - q * v 6) * k / (rho * rho * kx) - k * ((v 5 + D * v 6) / pz) / g2)
        (v 4 + k * v 1 / (rho * kx)) (fun x => ?_) ?_
      · simp [bendPath]; ring
      · by_cases hr : rho = 0
        · simp [bendPath, hr]
          ring
        · simp [bendPath]
          field_simp
          ring
    · exact hasDerivAt_const _ _
    · exact hasDerivAt_const _ _

theorem sbendCore_path {L phi K IonEs refGamma qmrel dipBeta dipGamma dd dipIonK D : ℝ} (v : Vec)
    (hK : 0 < K + 1 / (L / phi * (L / phi)))
    (hd : dd = D / (dipBeta * dipBeta * dipGamma * IonEs / MeVtoeV) - qmrel) :
    (sbendCore L phi K IonEs refGamma qmrel dipBeta dipGamma dd dipIonK).mulVec v =
      bendPath (K + 1 / (L / phi * (L / phi))) (-K) (L / phi) (dipBeta * dipBeta * dipGamma * IonEs / MeVtoeV)
        (refGamma * refGamma) dipIonK qmrel D v L := by
  unfold sbendCore sbendM
  simp only [edgeM_zero, one_mul, mul_one]
  rw [quadPlane_eq, quadPlane_eq]
  generalize K + 1 / (L / phi * (L / phi)) = Kx at *
  generalize L / phi = rho
  generalize dipBeta * dipBeta * dipGamma * IonEs / MeVtoeV = pz at *
  simp only [if_neg hK.ne', if_pos hK]
  have ec : Real.cos (Real.sqrt Kx * L) = cc Kx L := by unfold cc; rw [if_pos hK]
  have es : Real.sin (Real.sqrt Kx * L) / (rho * Real.sqrt Kx) = ss Kx L / rho := by
    unfold ss; rw [if_pos hK, div_div, mul_comm (Real.sqrt Kx) rho]
  rw [ec, es, hd]
  unfold bendPath
  generalize cc Kx L = c
  generalize ss Kx L = s
  funext i
  fin_cases i <;>
    simp [setAt, Matrix.mulVec, dotProduct, Fin.sum_univ_seven, Matrix.one_apply] <;> ring

/-- The relative change of the momentum per energy. -/
theorem stiff_of {Es Ek b g : ℝ} (h0 : 0 < Es) (hk : 0 < Ek) (hg : g = (Es + Ek) / Es) (hb : b ^ 2 = 1 - 1 / (g * g)) :
    Stiff Es Ek (1 / (b * b * g * Es / MeVtoeV)) := by
  have hW : 0 < Es + Ek := by linarith
  have hp : 0 < (Es + Ek) ^ 2 - Es ^ 2 := by nlinarith
  have d1 : HasDerivAt (fun W : ℝ => W ^ 2 - Es ^ 2) (2 * (Es + Ek)) (Es + Ek) := by
    have := ((hasDerivAt_id (Es + Ek)).pow 2).sub_const (Es ^ 2)
    refine (this.congr_of_eventuallyEq ?_).congr_deriv ?_
    · filter_upwards with W; simp
    · simp
  have d2 := (d1.sqrt hp.ne').log (Real.sqrt_pos.2 hp).ne'
  refine d2.congr_deriv ?_
  have hs := Real.mul_self_sqrt hp.le
  have hs0 := (Real.sqrt_pos.2 hp).ne'
  have e : 2 * (Es + Ek) / (2 * Real.sqrt ((Es + Ek) ^ 2 - Es ^ 2)) / Real.sqrt ((Es + Ek) ^ 2 - Es ^ 2) =
      (Es + Ek) / ((Es + Ek) ^ 2 - Es ^ 2) := by
    rw [div_div, mul_assoc, hs]
    field_simp
  have hb' : b * b = 1 - 1 / (g * g) := by rw [← hb]; ring
  rw [e, hb', hg, MeVtoeV]
  have : ((Es + Ek) ^ 2 - Es ^ 2) ≠ 0 := hp.ne'
  have h3 : 1 - 1 / ((Es + Ek) / Es * ((Es + Ek) / Es)) = ((Es + Ek) ^ 2 - Es ^ 2) / (Es + Ek) ^ 2 := by field_simp
  rw [h3]
  generalize (Es + Ek) ^ 2 - Es ^ 2 = X at *
  field_simp

theorem inclined_one (e h : ℝ) (hh : h = 1 / e) (a : ℝ) (v : Vec) : (edgeM e a).mulVec v = inclined h a v := by
  rw [hh, edgeM_inclined]

/-- One charge state, for any design particle. -/
theorem sbendM_bent {ref pd : Particle} (hr : Moving ref) (hd : Moving pd) (hE : pd.IonEs = ref.IonEs)
    (hF : pd.SampleFreq = ref.SampleFreq) (hf : ref.SampleFreq ≠ 0) (L phi phi1 phi2 K q dd : ℝ)
    (hK : 0 < K + (phi / L) ^ 2)
    (hdd : dd = (ref.gamma - pd.gamma) / (pd.beta * pd.beta * pd.gamma) - q) :
    ∃ t s, Stiff ref.IonEs pd.IonEk t ∧ (Slip ref.SampleFreq ref.IonEs pd.IonEk s ↔ pd.IonEk = ref.IonEk) ∧
      s * ((ref.IonEs + ref.IonEk) / ref.IonEs) ^ 2 =
        -(Spec.phaseAdvance ref.SampleFreq ref.IonEs (ref.IonEs + pd.IonEk) 1 * t) ∧
      ∀ v, ∃ v', Bent (phi / L) K (Spec.phaseAdvance ref.SampleFreq ref.IonEs (ref.IonEs + pd.IonEk) 1) s t q
          ((ref.IonEk - pd.IonEk) / 1000000) L (inclined (phi / L) phi1 v) v' ∧
        (sbendM L phi phi1 phi2 K ref.IonEs ref.gamma q pd.beta pd.gamma dd pd.SampleIonK 1).mulVec v =
          inclined (phi / L) phi2 v' := by
  have hb := hd.beta_pos
  have hg : 0 < pd.gamma := by linarith [hd.one_lt]
  have hgr : 0 < ref.gamma := by linarith [hr.one_lt]
  have hm := hr.mass
  have hbb : pd.beta ^ 2 = 1 - 1 / (pd.gamma * pd.gamma) := by
    rw [hd.beta, Real.sq_sqrt]
    have := hd.one_lt
    rw [sub_nonneg, div_le_one (by positivity)]
    nlinarith
  have hst := stiff_of (Es := ref.IonEs) (Ek := pd.IonEk) hm hd.energy
    (by rw [hd.gamma, hd.ionW, hE]) hbb
  have hwave : pd.SampleIonK = Spec.phaseAdvance ref.SampleFreq ref.IonEs (ref.IonEs + pd.IonEk) 1 := by
    have := C64_phase hd 1
    rwa [mul_one, hF, hE] at this
  have hgr' : ref.gamma = (ref.IonEs + ref.IonEk) / ref.IonEs := by rw [hr.gamma, hr.ionW]
  have hslip : slip pd 1 =
      -(pd.SampleIonK / (pd.gamma * pd.gamma) / (pd.beta * pd.beta * pd.gamma * ref.IonEs / MeVtoeV)) := by
    rw [slip, hd.bg, hd.wave, hE]
    have : pd.SampleLambda ≠ 0 := by
      rw [hd.lambda]
      exact mul_ne_zero (div_ne_zero C0_ne (by rw [hF]; exact hf)) MtoMM_ne
    have hM : MeVtoeV ≠ 0 := by norm_num [MeVtoeV]
    field_simp
  have hS := C64_slip hd
  rw [hF, hE] at hS
  refine ⟨_, -(pd.SampleIonK / (ref.gamma * ref.gamma) / (pd.beta * pd.beta * pd.gamma * ref.IonEs / MeVtoeV)), hst,
    ⟨fun h => ?_, fun h => ?_⟩, ?_, fun v => ?_⟩
  · have e := h.unique hS
    rw [hslip, div_left_inj' (by norm_num)] at e
    have hpz : pd.beta * pd.beta * pd.gamma * ref.IonEs / MeVtoeV ≠ 0 := by
      have hM : MeVtoeV ≠ 0 := by norm_num [MeVtoeV]
      positivity
    have hk0 : pd.SampleIonK ≠ 0 := hd.wave_ne (by rw [hF]; exact hf)
    rw [neg_inj, div_left_inj' hpz, div_eq_div_iff (by positivity) (by positivity)] at e
    have e2 := mul_left_cancel₀ hk0 e
    have e3 : pd.gamma = ref.gamma := by nlinarith [mul_self_inj hg.le hgr.le |>.1 e2]
    rw [hd.gamma, hr.gamma, hE, div_left_inj' hm.ne', hd.ionW, hr.ionW, hE] at e3
    linarith
  · have : pd.gamma = ref.gamma := by rw [hd.gamma, hr.gamma, hd.ionW, hr.ionW, hE, h]
    rw [← this, ← hslip]
    exact hS
  · rw [← hgr', ← hwave]
    field_simp
  · have hrho : phi / L = 1 / (L / phi) := by rw [one_div_div]
    have hK' : 0 < K + 1 / (L / phi * (L / phi)) := by
      have e : K + 1 / (L / phi * (L / phi)) = K + (phi / L) ^ 2 := by rw [hrho]; field_simp
      rw [e]; exact hK
    have hd' : dd = (ref.IonEk - pd.IonEk) / 1000000 / (pd.beta * pd.beta * pd.gamma * ref.IonEs / MeVtoeV) - q := by
      have e : ref.gamma - pd.gamma = (ref.IonEk - pd.IonEk) / ref.IonEs := by
        rw [hd.gamma, hr.gamma, hd.ionW, hr.ionW, hE]; field_simp; ring
      rw [hdd, e, MeVtoeV]
      congr 1
      field_simp
    refine ⟨bendPath (K + 1 / (L / phi * (L / phi))) (-K) (L / phi)
        (pd.beta * pd.beta * pd.gamma * ref.IonEs / MeVtoeV) (ref.gamma * ref.gamma) pd.SampleIonK q
        ((ref.IonEk - pd.IonEk) / 1000000) (inclined (phi / L) phi1 v) L, ?_, ?_⟩
    rotate_left
    · rw [sbendM_split, ← Matrix.mulVec_mulVec, ← Matrix.mulVec_mulVec, edgeM_inclined _ phi1, ← hrho,
        sbendCore_path _ hK' hd', edgeM_inclined, ← hrho]
    · have := bendPath_bent (K + 1 / (L / phi * (L / phi))) (-K) (L / phi)
        (pd.beta * pd.beta * pd.gamma * ref.IonEs / MeVtoeV) (ref.gamma * ref.gamma) pd.SampleIonK q
        ((ref.IonEk - pd.IonEk) / 1000000) L (inclined (phi / L) phi1 v) (by ring) hK'.ne'
      rw [neg_neg, ← hrho, hwave] at this
      rwa [hwave]

/-- In fit mode 0 the model's design energy is that of the parameter. -/
theorem design_energy {Es bg : ℝ} (h0 : 0 < Es) (hb : bg ≠ 0) :
    0 < (Real.sqrt (bg * bg + 1) - 1) * Es ∧
    (Es + (Real.sqrt (bg * bg + 1) - 1) * Es) ^ 2 - Es ^ 2 = (bg * Es) ^ 2 := by
  have hp : 0 < bg * bg := mul_self_pos.2 hb
  have h1 : 1 < Real.sqrt (bg * bg + 1) := by
    rw [Real.lt_sqrt (by norm_num)]; linarith
  refine ⟨mul_pos (by linarith) h0, ?_⟩
  have := Real.sq_sqrt (by linarith : 0 ≤ bg * bg + 1)
  have e : Es + (Real.sqrt (bg * bg + 1) - 1) * Es = Real.sqrt (bg * bg + 1) * Es := by ring
  rw [e, mul_pow, this]
  ring

/-- C74: in the frame of a magnetic dipole each charge state crosses an inclined edge, then follows the equations of motion
along the magnet and crosses the other edge.  `t` is the change of momentum with energy and `k` the advance of the phase, both
at the design energy.  The slip is that of the design energy if and only if this is the energy of the reference particle. -/
theorem C74_sbend_partial (env : Env) (d : MDat) (ref : Particle) (real : List Particle) (Ts : List Mat)
    (h : recompute env .sbend d ref real = .ok Ts) (h1 : d.pitch = 0) (h2 : d.yaw = 0) (hr : Moving ref)
    (hrf : ref.SampleFreq ≠ 0) (hbg : d.conf "bg" ≠ some (.num 0)) :
    ∃ L phi phi1 phi2, d.conf "L" = some (.num L) ∧ d.conf "phi" = some (.num phi) ∧
      d.conf "phi1" = some (.num phi1) ∧ d.conf "phi2" = some (.num phi2) ∧
      (L = 0 → ∀ T ∈ Ts, T = 1) ∧
      (L ≠ 0 → 0 < Spec.numOr d.conf "K" 0 + (phi * Real.pi / 180 / L) ^ 2 →
        List.Forall₂ (fun p T => Moving p → p.SampleFreq ≠ 0 → ∃ Ed, Spec.Design d.fitMode d.conf ref.IonEs ref.IonEk Ed ∧
          Spec.Magnet ref.SampleFreq ref.IonEs ref.IonEk Ed (phi * Real.pi / 180 / (1000 * L))
            (Spec.numOr d.conf "K" 0 / 1000000) (phi1 * Real.pi / 180) (phi2 * Real.pi / 180)
            ((p.IonZ - ref.IonZ) / ref.IonZ) (1000 * L) d.dx d.dy d.roll T) real Ts) := by
  change sbendRec d ref real = .ok Ts at h
  unfold sbendRec at h
  split at h
  · rename_i L phi phi1 phi2 hL hphi hphi1 hphi2
    rw [forEach_ok] at h
    refine ⟨L, phi, phi1, phi2, getNum_some hL, getNum_some hphi, getNum_some hphi1, getNum_some hphi2, fun h0 T hT => ?_,
      fun h0 hK => h.imp fun p T hT hp hf => ?_⟩
    · obtain ⟨p, e⟩ : ∃ p, (if L * MtoMM ≠ 0 then
          sbendOne d (L * MtoMM) (phi * Real.pi / 180) (phi1 * Real.pi / 180) (phi2 * Real.pi / 180)
            (getNumD d.conf "K" 0 / (MtoMM * MtoMM)) ref p
        else Except.ok 1) = Except.ok T := by
        induction h with
        | nil => cases hT
        | cons hab _ ih =>
          rcases List.mem_cons.1 hT with rfl | hT
          · exact ⟨_, hab⟩
          · exact ih hT
      rw [if_neg (by rw [h0, zero_mul]; simp)] at e
      cases e
      rfl
    · have hL0 : L * MtoMM ≠ 0 := mul_ne_zero h0 MtoMM_ne
      rw [if_pos hL0] at hT
      have e1 : L * MtoMM = 1000 * L := by rw [MtoMM, mul_comm]
      have e2 : getNumD d.conf "K" 0 / (MtoMM * MtoMM) = Spec.numOr d.conf "K" 0 / 1000000 := by
        rw [numOr_eq, MtoMM]; norm_num
      rw [e1, e2] at hT
      have hK' : 0 < Spec.numOr d.conf "K" 0 / 1000000 + (phi * Real.pi / 180 / (1000 * L)) ^ 2 := by
        have e : Spec.numOr d.conf "K" 0 / 1000000 + (phi * Real.pi / 180 / (1000 * L)) ^ 2 =
            (Spec.numOr d.conf "K" 0 + (phi * Real.pi / 180 / L) ^ 2) / 1000000 := by field_simp; ring
        rw [e]
        exact div_pos hK (by norm_num)
      have fin : ∀ pd : Particle, Moving pd → pd.IonEs = ref.IonEs → pd.SampleFreq = ref.SampleFreq →
          Spec.Design d.fitMode d.conf ref.IonEs ref.IonEk pd.IonEk → ∀ dd,
          dd = (ref.gamma - pd.gamma) / (pd.beta * pd.beta * pd.gamma) - (p.IonZ - ref.IonZ) / ref.IonZ →
          aligned d ref p (sbendM (1000 * L) (phi * Real.pi / 180) (phi1 * Real.pi / 180) (phi2 * Real.pi / 180)
            (Spec.numOr d.conf "K" 0 / 1000000) ref.IonEs ref.gamma ((p.IonZ - ref.IonZ) / ref.IonZ) pd.beta pd.gamma dd
            pd.SampleIonK 1) = .ok T →
          ∃ Ed, Spec.Design d.fitMode d.conf ref.IonEs ref.IonEk Ed ∧
          Spec.Magnet ref.SampleFreq ref.IonEs ref.IonEk Ed (phi * Real.pi / 180 / (1000 * L))
            (Spec.numOr d.conf "K" 0 / 1000000) (phi1 * Real.pi / 180) (phi2 * Real.pi / 180)
            ((p.IonZ - ref.IonZ) / ref.IonZ) (1000 * L) d.dx d.dy d.roll T := fun pd hd hE hF hD dd hdd ha => by
        obtain ⟨t, s, a1, a2, a3, a4⟩ := sbendM_bent hr hd hE hF hrf (1000 * L) (phi * Real.pi / 180)
          (phi1 * Real.pi / 180) (phi2 * Real.pi / 180) (Spec.numOr d.conf "K" 0 / 1000000)
          ((p.IonZ - ref.IonZ) / ref.IonZ) dd hK' hdd
        obtain ⟨-, -, -, -, -, -, hFr⟩ := C36_frame d ref p h1 h2 (hp.wave_ne hf) hp.beta_pos.ne' (by linarith [hp.one_lt])
          hr.mass.ne'
        refine ⟨pd.IonEk, hD, t, s, a1, a2, a3, fun v => ?_⟩
        obtain ⟨v', b1, b2⟩ := a4 (Spec.inFrame d.dx d.dy d.roll v)
        exact ⟨v', b1, by rw [hFr _ T ha v, b2]⟩
      unfold sbendOne at hT
      by_cases hm : d.fitMode = 0
      · rw [if_pos hm] at hT
        cases hg : getNum d.conf "bg" with
        | error e => rw [hg] at hT; cases hT
        | ok bg =>
          rw [hg] at hT
          dsimp only at hT
          have hb0 : bg ≠ 0 := fun e => hbg (by rw [getNum_some hg, e])
          obtain ⟨q1, q2⟩ := design_energy hr.mass hb0
          refine fin ({ ref with IonEk := (Real.sqrt (bg * bg + 1) - 1) * ref.IonEs } : Particle).recalc
            ⟨rfl, hr.mass, q1⟩ rfl rfl (.inr ⟨hm, bg, getNum_some hg, q1, q2⟩) _ rfl ?_
          have eg : ((Real.sqrt (bg * bg + 1) - 1) * ref.IonEs + ref.IonEs) / ref.IonEs =
              ({ ref with IonEk := (Real.sqrt (bg * bg + 1) - 1) * ref.IonEs } : Particle).recalc.gamma := by
            simp only [Particle.recalc, if_pos hr.mass.ne']
            rw [add_comm]
          rw [eg, hr.lambda] at hT
          exact hT
      · rw [if_neg hm] at hT
        refine fin ref hr rfl rfl (.inl ⟨hm, rfl⟩) _ ?_ hT
        rw [sub_self, zero_div, zero_sub]
  · cases h

/-! ## the hypotheses can be met -/

/-- A shifted and rolled magnet of 0.3 m that bends by 5 degrees, with inclined edges and a field index, made for a momentum of
0.033 of the rest energy, and two charge states: the theorem applies, and the second one is bent more by 1/33. -/
example (env : Env) (d : MDat) (hp : d.pitch = 0) (hy : d.yaw = 0) (hm : d.fitMode = 0)
    (hc : d.conf = fun k => if k = "L" then some (.num 0.3) else if k = "phi" then some (.num 5)
      else if k = "phi1" then some (.num 7) else if k = "phi2" then some (.num (-3)) else if k = "K" then some (.num 0.1)
      else if k = "bg" then some (.num 0.033) else none) :
    ∃ T1 T2, recompute env .sbend d exIon [exIon, exIon34] = .ok [T1, T2] ∧
      ∃ Ed, 0 < Ed ∧ (931494320 + Ed) ^ 2 - 931494320 ^ 2 = (0.033 * 931494320 : ℝ) ^ 2 ∧
        Spec.Magnet 80500000 931494320 500000 Ed (5 * Real.pi / 180 / 300) (0.1 / 1000000) (7 * Real.pi / 180)
          (-3 * Real.pi / 180) (1 / 33) 300 d.dx d.dy d.roll T2 := by
  have hE : exIon.IonEs ≠ 0 := show (931494320 : ℝ) ≠ 0 by norm_num
  have g1 : getNum d.conf "L" = .ok 0.3 := by simp [hc, getNum]
  have g2 : getNum d.conf "phi" = .ok 5 := by simp [hc, getNum]
  have g3 : getNum d.conf "phi1" = .ok 7 := by simp [hc, getNum]
  have g4 : getNum d.conf "phi2" = .ok (-3) := by simp [hc, getNum]
  have g5 : getNum d.conf "bg" = .ok 0.033 := by simp [hc, getNum]
  have hK : Spec.numOr d.conf "K" 0 = 0.1 := by simp [hc, Spec.numOr]
  have hone : ∀ p, Moving p → p.SampleFreq ≠ 0 → ∀ L phi phi1 phi2 K, ∃ A, sbendOne d L phi phi1 phi2 K exIon p = .ok A := by
    intro p hp' hf L phi phi1 phi2 K
    unfold sbendOne
    rw [if_pos hm, g5]
    exact aligned_some d hp hy hE hp' hf _
  obtain ⟨A, hA⟩ := hone _ exIon_moving.1 exIon_moving.2.1 (0.3 * MtoMM) (5 * Real.pi / 180) (7 * Real.pi / 180)
    (-3 * Real.pi / 180) (getNumD d.conf "K" 0 / (MtoMM * MtoMM))
  obtain ⟨B, hB⟩ := hone _ exIon34_moving.1 exIon34_moving.2.1 (0.3 * MtoMM) (5 * Real.pi / 180) (7 * Real.pi / 180)
    (-3 * Real.pi / 180) (getNumD d.conf "K" 0 / (MtoMM * MtoMM))
  have hT : recompute env .sbend d exIon [exIon, exIon34] = .ok [A, B] := by
    show sbendRec d exIon [exIon, exIon34] = .ok [A, B]
    unfold sbendRec
    have h0 : (0.3 * MtoMM : ℝ) ≠ 0 := by norm_num [MtoMM]
    rw [g1, g2, g3, g4]
    simp only [if_pos h0, forEach, hA, hB]
  refine ⟨A, B, hT, ?_⟩
  obtain ⟨L, phi, phi1, phi2, k1, k2, k3, k4, -, hF⟩ := C74_sbend_partial env d exIon _ _ hT hp hy exIon_moving.1 exIon_moving.2.1
    (by rw [getNum_some g5]; intro h; injection h with h; injection h with h; norm_num at h)
  have hnum : ∀ {k : String} {x y : ℝ}, getNum d.conf k = .ok x → d.conf k = some (.num y) → y = x := by
    intro k x y hx hy'
    have := getNum_some hx
    rw [hy'] at this
    cases this
    rfl
  obtain rfl := hnum g1 k1
  obtain rfl := hnum g2 k2
  obtain rfl := hnum g3 k3
  obtain rfl := hnum g4 k4
  have := hF (by norm_num) (by rw [hK]; positivity)
  cases this with
  | cons _ ht =>
    cases ht with
    | cons hB' _ =>
      obtain ⟨Ed, hD, hM⟩ := hB' exIon34_moving.1 exIon34_moving.2.1
      rcases hD with ⟨h0, -⟩ | ⟨-, bg, hb, h0, h1⟩
      · exact absurd hm h0
      · obtain rfl := hnum g5 hb
        refine ⟨Ed, h0, h1, ?_⟩
        have e1 : (1000 * 0.3 : ℝ) = 300 := by norm_num
        have e2 : (exIon34.IonZ - exIon.IonZ) / exIon.IonZ = 1 / 33 :=
          show (34 / 238 - 33 / 238 : ℝ) / (33 / 238) = 1 / 33 by norm_num
        rw [hK, e1, e2] at hM
        exact hM

end Flame.Moment
