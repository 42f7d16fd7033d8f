import Verif.Moment.Sector
import Verif.Moment.Electro
import Mathlib.Analysis.SpecialFunctions.Trigonometric.Bounds

/-!
# Magnetic dipoles that defocus horizontally: negation of C74
-/

namespace Flame.Moment

open Flame.Mach (Err)
open Flame.Linear (LCfg LVal getNum getNumD cc ss)
open Spec (Slip Stiff Bent inclined)

/-- What the equations of motion do with a particle on the axis that has 1 MeV too much. -/
theorem bent_kick {h K k s t q D L : ℝ} {v v' : Vec} (hB : Bent h K k s t q D L v v') (hk : K + h ^ 2 ≠ 0)
    (h0 : v 0 = 0) (h1 : v 1 = 0) (h5 : v 5 = 1) (h6 : v 6 = 0) : v' 1 = ss (K + h ^ 2) L * (h * t) := by
  obtain ⟨u, e0, eL, hu⟩ := hB
  have u5 : ∀ z, u z 5 = 1 := fun z => by
    rw [zero_of_deriv (f := fun z => u z 5) (fun z => (hu z).2.2.2.2.2.1) z 0, e0, h5]
  have u6 : ∀ z, u z 6 = 0 := fun z => by
    rw [zero_of_deriv (f := fun z => u z 6) (fun z => (hu z).2.2.2.2.2.2) z 0, e0, h6]
  have key := free_unique (κ := K + h ^ 2) (a := fun z => u z 0 - h * t / (K + h ^ 2)) (b := fun z => u z 1)
    (fun z => (hu z).1.sub_const _) (fun z => by
      have := (hu z).2.1
      rw [u5 z, u6 z] at this
      refine this.congr_deriv ?_
      field_simp
      ring) L
  have := key.2
  rw [eL, e0, h0, h1] at this
  rw [this]
  field_simp
  ring

theorem sin_ne_sinh {x : ℝ} (hx : x ≠ 0) : Real.sin x ≠ Real.sinh x := by
  rcases lt_or_gt_of_ne hx with h | h
  · have h1 : -x < Real.sinh (-x) := Real.self_lt_sinh_iff.2 (by linarith)
    have h2 : Real.sin (-x) < -x := Real.sin_lt (by linarith)
    rw [Real.sinh_neg] at h1
    rw [Real.sin_neg] at h2
    intro e
    rw [e] at h2
    linarith
  · have h1 : x < Real.sinh x := Real.self_lt_sinh_iff.2 h
    have h2 : Real.sin x < x := Real.sin_lt h
    intro e
    rw [e] at h2
    linarith

/-- What the code does with it. -/
theorem sbendCore_kick {L phi K IonEs refGamma qmrel dipBeta dipGamma dd dipIonK : ℝ} {v : Vec}
    (hK : K + 1 / (L / phi * (L / phi)) < 0) (h0 : v 0 = 0) (h1 : v 1 = 0) (h5 : v 5 = 1) (h6 : v 6 = 0) :
    (sbendCore L phi K IonEs refGamma qmrel dipBeta dipGamma dd dipIonK).mulVec v 1 =
      Real.sin (Real.sqrt (-(K + 1 / (L / phi * (L / phi)))) * L) /
        (L / phi * Real.sqrt (-(K + 1 / (L / phi * (L / phi))))) / (dipBeta * dipBeta * dipGamma * IonEs / MeVtoeV) := by
  unfold sbendCore sbendM
  simp only [edgeM_zero, one_mul, mul_one]
  rw [quadPlane_eq, quadPlane_eq]
  generalize K + 1 / (L / phi * (L / phi)) = Kx at *
  generalize L / phi = rho
  generalize dipBeta * dipBeta * dipGamma * IonEs / MeVtoeV = pz
  simp only [if_neg hK.ne, if_neg (not_lt.2 hK.le)]
  simp [setAt, Matrix.mulVec, dotProduct, Fin.sum_univ_seven, Matrix.one_apply, h0, h1, h5, h6]

theorem inclined_inj {h e : ℝ} {v w : Vec} (hi : inclined h e v = inclined h e w) : v 1 = w 1 := by
  have h0 := congrFun hi 0
  have h1 := congrFun hi 1
  simp [inclined] at h0 h1
  rw [h0] at h1
  linarith

/-- The bend of the code does not solve the equations of motion, for any design particle. -/
theorem sbendM_unbent {ref pd : Particle} (hr : 0 < ref.IonEs) (hd : Moving pd) (hE : pd.IonEs = ref.IonEs)
    {L phi phi1 phi2 K q dd dx dy roll : ℝ} {T : Mat} (hL : L ≠ 0) (hphi : phi ≠ 0) (hK : K + (phi / L) ^ 2 < 0)
    (hT : ∀ v, Spec.inFrame dx dy roll (T.mulVec v) =
      (sbendM L phi phi1 phi2 K ref.IonEs ref.gamma q pd.beta pd.gamma dd pd.SampleIonK 1).mulVec (Spec.inFrame dx dy roll v))
    (f Ek q' : ℝ) : ¬ Spec.Magnet f ref.IonEs Ek pd.IonEk (phi / L) K phi1 phi2 q' L dx dy roll T := by
  rintro ⟨t, s, ht, -, -, h⟩
  have hb := hd.beta_pos
  have hg : 0 < pd.gamma := by linarith [hd.one_lt]
  have hbb : pd.beta ^ 2 = 1 - 1 / (pd.gamma * pd.gamma) := by
    rw [hd.beta, Real.sq_sqrt]
    have := hd.one_lt
    rw [sub_nonneg, div_le_one (by positivity)]
    nlinarith
  have hst := stiff_of (Es := ref.IonEs) (Ek := pd.IonEk) hr hd.energy (by rw [hd.gamma, hd.ionW, hE]) hbb
  have hrho : phi / L = 1 / (L / phi) := by rw [one_div_div]
  have eK : K + 1 / (L / phi * (L / phi)) = K + (phi / L) ^ 2 := by rw [hrho]; field_simp
  have htt : t = 1 / (pd.beta * pd.beta * pd.gamma * ref.IonEs / MeVtoeV) := by
    have := ht.unique hst
    rwa [div_left_inj' (by norm_num)] at this
  obtain ⟨v, hv⟩ := inFrame_onto dx dy roll ![0, 0, 0, 0, 0, 1, 0]
  obtain ⟨v', b1, b2⟩ := h v
  rw [hT, hv, sbendM_split, ← Matrix.mulVec_mulVec, ← Matrix.mulVec_mulVec, edgeM_inclined _ phi2, edgeM_inclined _ phi1,
    ← hrho] at b2
  have e1 := inclined_inj b2
  rw [hv] at b1
  have w : ∀ i, inclined (phi / L) phi1 ![0, 0, 0, 0, 0, 1, 0] i = (![0, 0, 0, 0, 0, 1, 0] : Vec) i := by
    intro i
    fin_cases i <;> simp [inclined]
  rw [bent_kick b1 hK.ne (by rw [w]; rfl) (by rw [w]; rfl) (by rw [w]; rfl) (by rw [w]; rfl),
    sbendCore_kick (by rw [eK]; exact hK) (by rw [w]; rfl) (by rw [w]; rfl) (by rw [w]; rfl) (by rw [w]; rfl), eK, htt] at e1
  have hs : 0 < Real.sqrt (-(K + (phi / L) ^ 2)) := Real.sqrt_pos.2 (by linarith)
  have hpz : pd.beta * pd.beta * pd.gamma * ref.IonEs / MeVtoeV ≠ 0 := by
    have hM : MeVtoeV ≠ 0 := by norm_num [MeVtoeV]
    positivity
  apply sin_ne_sinh (mul_ne_zero hs.ne' hL)
  unfold ss at e1
  rw [if_neg (not_lt.2 hK.le), if_pos hK, hrho] at e1
  rw [hrho] at hs ⊢
  have hrho0 : L / phi ≠ 0 := div_ne_zero hL hphi
  generalize Real.sqrt (-(K + (1 / (L / phi)) ^ 2)) = S at *
  generalize L / phi = R at *
  generalize pd.beta * pd.beta * pd.gamma * ref.IonEs / MeVtoeV = P at *
  have hs' := hs.ne'
  generalize Real.sin (S * L) = A at *
  generalize Real.sinh (S * L) = B at *
  field_simp at e1
  exact e1

/-- C74 is false for magnets that defocus horizontally: none of them, whatever its length, angle, edges, position and design
particle, solves the equations of motion for any charge state.  (`GetSBendMatrix` takes a sine where the solution is a hyperbolic
one, /repo/src/moment_sup.cpp:243-246.) -/
theorem C74_false (env : Env) (d : MDat) (ref : Particle) (real : List Particle) (Ts : List Mat)
    (h : recompute env .sbend d ref real = .ok Ts) (h1 : d.pitch = 0) (h2 : d.yaw = 0) (hr : Moving ref)
    (hbg : d.conf "bg" ≠ some (.num 0)) (L phi phi1 phi2 : ℝ)
    (hL : d.conf "L" = some (.num L)) (hphi : d.conf "phi" = some (.num phi)) (hphi1 : d.conf "phi1" = some (.num phi1))
    (hphi2 : d.conf "phi2" = some (.num phi2)) (hL0 : L ≠ 0) (hphi0 : phi ≠ 0)
    (hK : Spec.numOr d.conf "K" 0 + (phi * Real.pi / 180 / L) ^ 2 < 0) :
    List.Forall₂ (fun p T => Moving p → p.SampleFreq ≠ 0 → ∀ Ed, Spec.Design d.fitMode d.conf ref.IonEs ref.IonEk Ed →
      ¬ Spec.Magnet ref.SampleFreq ref.IonEs ref.IonEk Ed (phi * Real.pi / 180 / (1000 * L))
        (Spec.numOr d.conf "K" 0 / 1000000) (phi1 * Real.pi / 180) (phi2 * Real.pi / 180)
        ((p.IonZ - ref.IonZ) / ref.IonZ) (1000 * L) d.dx d.dy d.roll T) real Ts := by
  change sbendRec d ref real = .ok Ts at h
  unfold sbendRec at h
  rw [getNum_ok.2 hL, getNum_ok.2 hphi, getNum_ok.2 hphi1, getNum_ok.2 hphi2] at h
  dsimp only at h
  rw [forEach_ok] at h
  refine h.imp fun p T hT hp hf Ed hEd => ?_
  rw [if_pos (mul_ne_zero hL0 MtoMM_ne)] at hT
  have e1 : L * MtoMM = 1000 * L := by rw [MtoMM, mul_comm]
  have e2 : getNumD d.conf "K" 0 / (MtoMM * MtoMM) = Spec.numOr d.conf "K" 0 / 1000000 := by
    rw [numOr_eq, MtoMM]; norm_num
  rw [e1, e2] at hT
  have hK' : Spec.numOr d.conf "K" 0 / 1000000 + (phi * Real.pi / 180 / (1000 * L)) ^ 2 < 0 := by
    have e : Spec.numOr d.conf "K" 0 / 1000000 + (phi * Real.pi / 180 / (1000 * L)) ^ 2 =
        (Spec.numOr d.conf "K" 0 + (phi * Real.pi / 180 / L) ^ 2) / 1000000 := by field_simp; ring
    rw [e]
    exact div_neg_of_neg_of_pos hK (by norm_num)
  have hpi := Real.pi_pos.ne'
  have hang : phi * Real.pi / 180 ≠ 0 := div_ne_zero (mul_ne_zero hphi0 hpi) (by norm_num)
  obtain ⟨-, -, -, -, -, -, hFr⟩ := C36_frame d ref p h1 h2 (hp.wave_ne hf) hp.beta_pos.ne' (by linarith [hp.one_lt])
    hr.mass.ne'
  unfold sbendOne at hT
  by_cases hm : d.fitMode = 0
  · rw [if_pos hm] at hT
    cases hg : getNum d.conf "bg" with
    | error e => rw [hg] at hT; cases hT
    | ok bg =>
      rw [hg] at hT
      dsimp only at hT
      have hb0 : bg ≠ 0 := fun e => hbg (by rw [getNum_some hg, e])
      obtain ⟨q1, q2⟩ := design_energy hr.mass hb0
      have hEd' : Ed = (Real.sqrt (bg * bg + 1) - 1) * ref.IonEs := by
        rcases hEd with ⟨h0, -⟩ | ⟨-, bg', hb', h0, h3⟩
        · exact absurd hm h0
        · rw [getNum_some hg] at hb'
          cases hb'
          have := hr.mass
          nlinarith [sq_nonneg (Ed - (Real.sqrt (bg * bg + 1) - 1) * ref.IonEs)]
      rw [hEd']
      have eg : ((Real.sqrt (bg * bg + 1) - 1) * ref.IonEs + ref.IonEs) / ref.IonEs =
          ({ ref with IonEk := (Real.sqrt (bg * bg + 1) - 1) * ref.IonEs } : Particle).recalc.gamma := by
        simp only [Particle.recalc, if_pos hr.mass.ne']
        rw [add_comm]
      rw [eg, hr.lambda] at hT
      exact sbendM_unbent (pd := ({ ref with IonEk := (Real.sqrt (bg * bg + 1) - 1) * ref.IonEs } : Particle).recalc) hr.mass
        ⟨rfl, hr.mass, q1⟩ rfl (mul_ne_zero (by norm_num) hL0) hang hK' (hFr _ T hT) _ _ _
  · rw [if_neg hm] at hT
    obtain rfl : Ed = ref.IonEk := by
      rcases hEd with ⟨-, h0⟩ | ⟨h0, -⟩
      · exact h0
      · exact absurd h0 hm
    exact sbendM_unbent hr.mass hr rfl (mul_ne_zero (by norm_num) hL0) hang hK' (hFr _ T hT) _ _ _

/-- A magnet of 0.3 m that bends by 5 degrees with a field index of -1000 per square metre, and two charge states of uranium: the
hypotheses are met. -/
example (env : Env) (d : MDat) (hp : d.pitch = 0) (hy : d.yaw = 0) (hm : d.fitMode = 1)
    (hc : d.conf = fun k => if k = "L" then some (.num 0.3) else if k = "phi" then some (.num 5)
      else if k = "phi1" then some (.num 7) else if k = "phi2" then some (.num (-3)) else if k = "K" then some (.num (-1000))
      else none) :
    ∃ T1 T2, recompute env .sbend d exIon [exIon, exIon34] = .ok [T1, T2] ∧
      ¬ Spec.Magnet 80500000 931494320 500000 500000 (5 * Real.pi / 180 / 300) (-1000 / 1000000) (7 * Real.pi / 180)
          (-3 * Real.pi / 180) (1 / 33) 300 d.dx d.dy d.roll T2 := by
  have hE : exIon.IonEs ≠ 0 := show (931494320 : ℝ) ≠ 0 by norm_num
  have g1 : getNum d.conf "L" = .ok 0.3 := by simp [hc, getNum]
  have g2 : getNum d.conf "phi" = .ok 5 := by simp [hc, getNum]
  have g3 : getNum d.conf "phi1" = .ok 7 := by simp [hc, getNum]
  have g4 : getNum d.conf "phi2" = .ok (-3) := by simp [hc, getNum]
  have hK : Spec.numOr d.conf "K" 0 = -1000 := by simp [hc, Spec.numOr]
  have hone : ∀ p, Moving p → p.SampleFreq ≠ 0 → ∀ L phi phi1 phi2 K, ∃ A, sbendOne d L phi phi1 phi2 K exIon p = .ok A := by
    intro p hp' hf L phi phi1 phi2 K
    unfold sbendOne
    rw [if_neg (by rw [hm]; norm_num)]
    exact aligned_some d hp hy hE hp' hf _
  obtain ⟨A, hA⟩ := hone _ exIon_moving.1 exIon_moving.2.1 (0.3 * MtoMM) (5 * Real.pi / 180) (7 * Real.pi / 180)
    (-3 * Real.pi / 180) (getNumD d.conf "K" 0 / (MtoMM * MtoMM))
  obtain ⟨B, hB⟩ := hone _ exIon34_moving.1 exIon34_moving.2.1 (0.3 * MtoMM) (5 * Real.pi / 180) (7 * Real.pi / 180)
    (-3 * Real.pi / 180) (getNumD d.conf "K" 0 / (MtoMM * MtoMM))
  have hT : recompute env .sbend d exIon [exIon, exIon34] = .ok [A, B] := by
    show sbendRec d exIon [exIon, exIon34] = .ok [A, B]
    unfold sbendRec
    have h0 : (0.3 * MtoMM : ℝ) ≠ 0 := by norm_num [MtoMM]
    rw [g1, g2, g3, g4]
    simp only [if_pos h0, forEach, hA, hB]
  refine ⟨A, B, hT, ?_⟩
  have hpi := Real.pi_pos
  have hpi4 := Real.pi_le_four
  have := C74_false env d exIon _ _ hT hp hy exIon_moving.1 (by simp [hc]) 0.3 5 7 (-3) (getNum_some g1) (getNum_some g2)
    (getNum_some g3) (getNum_some g4) (by norm_num) (by norm_num) (by
      rw [hK]
      have : 5 * Real.pi / 180 / 0.3 < 1 := by
        rw [div_lt_one (by norm_num)]
        linarith
      have h0 : 0 < 5 * Real.pi / 180 / 0.3 := by positivity
      nlinarith)
  cases this with
  | cons _ ht =>
    cases ht with
    | cons hB' _ =>
      have hM := hB' exIon34_moving.1 exIon34_moving.2.1 500000 (.inl ⟨by rw [hm]; norm_num, rfl⟩)
      have e1 : (1000 * 0.3 : ℝ) = 300 := by norm_num
      have e2 : (exIon34.IonZ - exIon.IonZ) / exIon.IonZ = 1 / 33 :=
        show (34 / 238 - 33 / 238 : ℝ) / (33 / 238) = 1 / 33 by norm_num
      rw [hK, e1, e2] at hM
      exact hM

end Flame.Moment
