import Verif.Cavity.Tilted

/-!
# Cavities in which the emittance grows are not undone: C31

The way back applies the inverse of the stored matrix.  The growth of the emittance on the way forward is not taken back.
-/

namespace Flame.Cavity

open Flame.Mach Flame.Moment
open Flame.Linear (getNum getNumD LCfg LVal)
open Flame.Moment.Spec (Covariance)
open Spec (bunchMean bunchVar kickSpread)

/-! ## the spread of the deflections is positive -/

/-- A sine over a bunch of positive length is not constant. -/
theorem bunchVar_sin_pos (φ : ℝ) {D : ℝ} (hD : 0 < D) : 0 < bunchVar (fun x => Real.sin (φ + D * x)) := by
  unfold bunchVar
  generalize bunchMean (fun x => Real.sin (φ + D * x)) = m
  unfold bunchMean
  refine mul_pos (by norm_num) ?_
  have hcont : Continuous (fun x : ℝ => (1 - x ^ 2) ^ 2 * (Real.sin (φ + D * x) - m) ^ 2) := by fun_prop
  refine intervalIntegral.integral_pos (by norm_num) hcont.continuousOn (fun x _ => by positivity) ?_
  by_contra hno
  push Not at hno
  -- the sine is constant between the ends
  have hc : ∀ x ∈ Set.Ioo (-1 : ℝ) 1, Real.sin (φ + D * x) = m := by
    intro x hx
    have h := hno x ⟨hx.1.le, hx.2.le⟩
    have h1 : 0 < (1 - x ^ 2) ^ 2 := by
      have : 0 < 1 - x ^ 2 := by nlinarith [hx.1, hx.2]
      positivity
    have h2 : (Real.sin (φ + D * x) - m) ^ 2 = 0 := by
      by_contra hn
      have : 0 < (Real.sin (φ + D * x) - m) ^ 2 := lt_of_le_of_ne (sq_nonneg _) (Ne.symm hn)
      nlinarith [mul_pos h1 this]
    exact sub_eq_zero.1 (pow_eq_zero_iff (two_ne_zero) |>.1 h2)
  have hd : ∀ x : ℝ, HasDerivAt (fun x : ℝ => φ + D * x) D x := fun x => by
    simpa using ((hasDerivAt_id x).const_mul D).const_add φ
  have hcos : ∀ x ∈ Set.Ioo (-1 : ℝ) 1, Real.cos (φ + D * x) = 0 := by
    intro x hx
    have h1 := (hd x).sin
    have h2 : HasDerivAt (fun x : ℝ => Real.sin (φ + D * x)) 0 x :=
      (hasDerivAt_const x m).congr_of_eventuallyEq
        (Filter.eventuallyEq_of_mem (isOpen_Ioo.mem_nhds hx) fun y hy => hc y hy)
    have := h1.unique h2
    exact (mul_eq_zero.1 this).resolve_right hD.ne'
  have h0 : (0 : ℝ) ∈ Set.Ioo (-1 : ℝ) 1 := by norm_num
  have h1 := (hd 0).cos
  have h2 : HasDerivAt (fun x : ℝ => Real.cos (φ + D * x)) 0 0 :=
    (hasDerivAt_const (0 : ℝ) (0 : ℝ)).congr_of_eventuallyEq
      (Filter.eventuallyEq_of_mem (isOpen_Ioo.mem_nhds h0) fun y hy => hcos y hy)
  have h3 := h1.unique h2
  have h4 : Real.sin (φ + D * 0) = 0 := by
    rcases mul_eq_zero.1 h3 with h | h
    · linarith
    · exact absurd h hD.ne'
  have h5 := Real.sin_sq_add_cos_sq (φ + D * 0)
  rw [h4, hcos 0 h0] at h5
  norm_num at h5

/-! ## the way back -/

theorem backLoop_get : ∀ {T : List Mat} {vs : List Vec} {Ss Xs : List Mat} {n : Nat} {M S' S2 : Mat},
    vs.length = T.length → Xs.length = T.length → (backLoop T vs Ss Xs).2.2.2 = none → T[n]? = some M → Ss[n]? = some S' →
    (backLoop T vs Ss Xs).2.1[n]? = some S2 → M.det ≠ 0 ∧ S2 = congr M⁻¹ S'
  | T :: Ts, v :: vs, S :: Ss, X :: Xs, n, M, S', S2, h1, h2, h3, h4, h5, h6 => by
    simp only [backLoop] at h3 h6
    unfold inverse at h3 h6
    by_cases hd : T.det = 0
    · simp only [hd, if_true] at h3
      cases h3
    simp only [hd, if_false] at h3 h6
    cases n with
    | zero =>
      simp only [List.getElem?_cons_zero, Option.some.injEq] at h4 h5 h6
      subst h4
      subst h5
      exact ⟨hd, h6.symm⟩
    | succ n =>
      simp only [List.getElem?_cons_succ] at h4 h5 h6
      exact backLoop_get (by simpa using h1) (by simpa using h2) h3 h4 h5 h6
  | [], _, _, _, _, _, _, _, _, _, _, h4, _, _ => by simp at h4
  | _ :: _, [], _, _, _, _, _, _, h1, _, _, _, _, _ => by simp at h1
  | _ :: _, _ :: _, [], _, _, _, _, _, _, _, _, _, h5, _ => by simp at h5
  | _ :: _, _ :: _, _ :: _, [], _, _, _, _, _, h2, _, _, _, _ => by simp at h2

theorem zipWith_none : ∀ {T : List Mat} {mis : List (Mat × Mat)}, T.length ≤ mis.length → (∀ m ∈ mis, m = (1, 1)) →
    List.zipWith (fun T (m : Mat × Mat) => m.2 * (T * m.1)) T mis = T
  | [], _, _, _ => rfl
  | T :: Ts, m :: mis, h, hm => by
    rw [List.zipWith_cons_cons, zipWith_none (T := Ts) (mis := mis) (by simpa using h) (fun m h => hm m (by simp [h])),
      hm m (by simp)]
    simp
  | _ :: _, [], h, _ => by simp at h

theorem cavLoop_le (cav : Cav) (ref : Particle) (Ts : List Mat) (ms : List (Mat × Mat)) (ps : List Particle)
    (es : List (Particle × Particle)) (vs : List Vec) (Ss : List Mat) :
    (cavLoop cav ref Ts ms ps es vs Ss).length ≤ Ts.length := by
  by_contra hc
  obtain ⟨T, m, p, e, v, C, hT, -⟩ := cavLoop_get (List.getElem?_eq_getElem (Nat.lt_of_not_le hc))
  rw [List.getElem?_eq_none le_rfl] at hT
  cases hT

/-- The way back through a cavity in place that was passed for the first time: the covariance of a charge state comes back
if and only if the cavity has done nothing but apply its matrix. -/
theorem C31_growth {env : Env} {files : Files} {d d1 d2 : MDat} {s s1 s2 : St MSt} (hr : s.retreat = false)
    (h0 : d.refIn = none) (hx : d.dx = 0) (hy : d.dy = 0) (hp : d.pitch = 0) (hyw : d.yaw = 0) (hro : d.roll = 0)
    (h : advanceCavity env files d s = (d1, s1, none))
    (h2 : advanceCavity env files d1 { s1 with retreat := true } = (d2, s2, none))
    (n : Nat) (S S1 S2 M : Mat) (hS1 : s1.payload.moment1[n]? = some S1)
    (hS2 : s2.payload.moment1[n]? = some S2) (hM : s1.payload.transmat[n]? = some M) :
    S2 = S ↔ S1 = M * S * M.transpose := by
  obtain ⟨cav0, -, ⟨hh, -⟩ | ⟨-, cav1, ref, phi, l, mis, -, hrec, hmis, hf, rfl, rfl⟩⟩ := forward_cases hr h
  · exact absurd hh (miss _ h0)
  have hm1 : ∀ m ∈ mis, m = (1, 1) := by
    have := misalign_roll hp hyw hmis
    rw [hx, hy, hro, rotMat_split, turn_zero, offs_zero, mul_one, inv_one] at this
    exact this
  have hT := cavForward_transmat (env := env) (cav := { cav1 with phiRef := some phi, misalign := mis })
    (d := filledDat d s.payload.recalc { cav1 with phiRef := some phi, misalign := mis } ref l)
    (S := filledSt s.payload.recalc ref l) (A := 1) (B := 1) hm1
  simp only [mul_one, one_mul, List.map_id'] at hT
  have hl : l.length = s.payload.recalc.real.length := recomputeCav_length hrec
  have hlm : mis.length = l.length := by rw [forEach_length hmis, List.length_map]
  obtain ⟨cav2, mis2, S3, -, -, -, hmis2, hb, -, rfl⟩ := backward_cases rfl h2
  have hm2 : ∀ m ∈ mis2, m = (1, 1) := by
    have := misalign_roll (by exact hp) (by exact hyw) hmis2
    intro m hm
    rw [this m hm]
    show (rotMat d.dx d.dy 0 0 d.roll, (rotMat d.dx d.dy 0 0 d.roll)⁻¹) = _
    rw [hx, hy, hro, rotMat_split, turn_zero, offs_zero, mul_one, inv_one]
  have hl2 : mis2.length = l.length := by
    rw [forEach_length hmis2, List.length_zipWith, List.length_zip]
    have e1 : (filledDat d s.payload.recalc { cav1 with phiRef := some phi, misalign := mis } ref l).realIn.length = l.length :=
      hl.symm
    have e2 : (filledDat d s.payload.recalc { cav1 with phiRef := some phi, misalign := mis } ref l).realOut.length = l.length := by
      simp [filledDat]
    have e3 : (MSt.recalc (cavForward env { cav1 with phiRef := some phi, misalign := mis }
        (filledDat d s.payload.recalc { cav1 with phiRef := some phi, misalign := mis } ref l)
        (filledSt s.payload.recalc ref l)).2).real.length = l.length := by
      simp [MSt.recalc, cavForward, MSt.calcRms, filledSt]
    show min (min (filledDat d s.payload.recalc { cav1 with phiRef := some phi, misalign := mis } ref l).realIn.length
      (filledDat d s.payload.recalc { cav1 with phiRef := some phi, misalign := mis } ref l).realOut.length) _ = _
    rw [e1, e2]
    refine (congrArg (min _) e3).trans ?_
    simp
  generalize hR : cavForward env { cav1 with phiRef := some phi, misalign := mis }
        (filledDat d s.payload.recalc { cav1 with phiRef := some phi, misalign := mis } ref l)
        (filledSt s.payload.recalc ref l) = R at *
  have hlen : R.1.transfer.length ≤ mis2.length := by
    rw [← hR, hl2]
    refine le_trans (le_of_eq (List.length_map _)) (le_trans (cavLoop_le _ _ _ _ _ _ _ _) ?_)
    simp [filledDat]
  rw [zipWith_none hlen hm2] at hb
  have hb1 := congrArg (fun q => q.1.moment1) hb
  have hb2 := congrArg Prod.snd hb
  unfold backward at hb1 hb2
  dsimp only [MSt.recalc] at hb1 hb2
  have hS2' : S3.moment1[n]? = some S2 := hS2
  rw [← hb1] at hS2'
  have hlv : R.2.moment0.length = R.1.transfer.length := by
    rw [← hR]
    simp [cavForward, MSt.calcRms]
  obtain ⟨hdet, rfl⟩ := backLoop_get hlv (by rw [hT]) hb2 (by rw [← hT]; exact hM) hS1 hS2'
  have hu : IsUnit M.det := isUnit_iff_ne_zero.2 hdet
  constructor
  · rintro rfl
    rw [show M * Moment.congr M⁻¹ S1 * M.transpose = Moment.congr M (Moment.congr M⁻¹ S1) from rfl, congr_mul,
      Matrix.mul_nonsing_inv _ hu]
    simp [Moment.congr]
  · rintro rfl
    rw [show M * S * M.transpose = Moment.congr M S from rfl, congr_mul, Matrix.nonsing_inv_mul _ hu]
    simp [Moment.congr]

/-! ## a cavity in which the emittance grows -/

/-- The cavity of `Tilted`, in place, with growth of the emittance. -/
noncomputable def exGrow (env : Env) : MDat :=
  { exDat env exTiltSet (24 / 100) with cav := some { exTilt with emitGrowth := 1 } }

theorem misOf_zero (p : Particle) (hz : unitZ p ≠ 0) (hp : unitP exGained p ≠ 0) : misOf p 0 = (1, 1) := by
  unfold misOf
  rw [rotMat_split, turn_zero, offs_zero, mul_one, inv_one, mul_one, mul_one, (middle_inv exGained p hz hp _).1,
    (middle_inv exGained p hz hp _).1]

theorem exGained_moving : Moving exGained := by
  refine ⟨rfl, ?_, ?_⟩ <;> norm_num [exGained, boosted, exParticle, Particle.recalc]

/-- The mean squares behind the cavity of a beam with unit spread. -/
theorem exStored_sq (a : ℝ) (i : Fin 7) : Moment.congr (exStored a 0 0) 1 i i = ![57601, 1, 57601, 1, 1 + a * a, 1, 1] i := by
  unfold Moment.congr
  rw [mul_one, Matrix.mul_apply, Fin.sum_univ_seven]
  fin_cases i <;> simp [exStored, exDrifted, driftT, setAt, Matrix.one_apply] <;> norm_num

/-- The way forward. -/
theorem exGrow_forward (env : Env) (files : Files) : ∃ a d1 s1 cav1 S1,
    advanceCavity env files (exGrow env) exAxis = (d1, s1, none) ∧
    d1 = { exGrow env with
      refIn := some exParticle.recalc, realIn := [exParticle.recalc], refOut := exGained, realOut := [exGained],
      transfer := [exStored a 0 0], cav := some cav1 } ∧
    cav1 = { exTilt with emitGrowth := 1, phiRef := some 0, misalign := [(1, 1)] } ∧
    s1.payload.ref = exGained ∧ s1.payload.real = [exGained] ∧ s1.payload.moment1 = [S1] ∧
    s1.payload.transmat = [exStored a 0 0] ∧ ∃ v, s1.payload.moment0 = [v] := by
  obtain ⟨u1, u2, u3, u4, u5⟩ := exKept_units
  obtain ⟨a, ha⟩ := exTilt_init [(1, 1)]
  have hreal : exAxis.payload.recalc.real = [exParticle.recalc] := rfl
  have href : exAxis.payload.recalc.ref = exParticle.recalc := rfl
  have hre : reload env files exTiltSet { exTilt with emitGrowth := 1, misalign := [(1, 1)] } =
      ({ exTilt with emitGrowth := 1, misalign := [(1, 1)] }, none) :=
    reload_same (cav := { exTilt with emitGrowth := 1 }) (by simp [getStr, exTiltSet, exSet, exTilt, exGap])
      (fun _ => ⟨"gap.lat", by simp [getStr, exTiltSet, exSet], by simp [getStrD, exTiltSet, exSet, exTilt]⟩) _
  have hrec : recomputeCav exTiltSet { exTilt with emitGrowth := 1, misalign := [(1, 1)] } exParticle.recalc [exParticle.recalc] =
      .ok (exGained, 0, [(exKept, exDrifted a)]) := by
    unfold recomputeCav
    rw [show propagateLong exTiltSet { exTilt with emitGrowth := 1, misalign := [(1, 1)] } exParticle.recalc =
      .ok (exGained, 0) from exTilt_long [(1, 1)]]
    dsimp only
    have ha' : initRFCav exTiltSet { exTilt with emitGrowth := 1, misalign := [(1, 1)] } 0 exParticle.recalc =
      .ok (exGained, exDrifted a) := ha
    simp only [forEach, ha']
    rfl
  have hnh : ¬ hit (exGrow env) exAxis.payload.recalc := by
    rintro ⟨-, ⟨r, hr, -⟩, -⟩
    cases hr
  have hmis : ∀ d : MDat, d.dx = 0 → d.dy = 0 → d.pitch = 0 → d.yaw = 0 → d.roll = 0 → d.length = 24 / 100 →
      forEach (fun p => getMisalign d exGained p) [exKept] = .ok [(1, 1)] := by
    intro d h1 h2 h3 h4 h5 h6
    simp only [forEach, exTilted_mis h1 h2 h3 h4 h5 h6 rfl u1 (by rw [u5]; exact u4),
      misOf_zero exKept u1 (by rw [u5]; exact u4)]
  have hd : (exGrow env).conf = exTiltSet := rfl
  have hrs : resizeMis 1 exTilt.misalign = [(1, 1)] := rfl
  -- the stored matrix
  have hdr : exDrifted a = exStored a 0 0 := by
    ext i j
    fin_cases i <;> fin_cases j <;> simp [exStored, exDrifted, driftT, setAt]
  have hce : ∀ cav pin pout S, (cavOne cav exGained (exDrifted a) (1, 1) exGained pin pout ![0, 0, 0, 0, 0, 0, 1] S).1 =
      exStored a 0 0 := by
    intro cav pin pout S
    have h := (tilted_one cav a 0 exKept u1 (by rw [u5]; exact u4) 0 0 S pin pout).1
    rw [misOf_zero exKept u1 (by rw [u5]; exact u4), ← hdr] at h
    rw [h]
    simp
  have hfault : ∀ d : MDat, d.transfer = [exDrifted a] → d.realIn = [exParticle.recalc] → d.realOut = [exGained] →
      ∀ S : MSt, S.ref = exGained → S.real = [exGained] → S.moment0 = [![0, 0, 0, 0, 0, 0, 1]] → S.moment1 = [1] →
      cavFault env { exTilt with emitGrowth := 1, phiRef := some 0, misalign := [(1, 1)] } d S = none := by
    intro d h1 h2 h3 S h4 h5 h6 h7
    unfold cavFault ends
    rw [if_pos]
    rw [h1, h2, h3, h4, h5, h6, h7]
    refine ⟨fun _ => ?_, trivial⟩
    dsimp only
    rw [hce, show Moment.congr (exStored a 0 0) (Moment.congr 1 1) = Moment.congr (exStored a 0 0) 1 by simp [Moment.congr]]
    have hZ : exGained.IonZ = 1 := rfl
    have hE : exGained.IonEs = 1 := rfl
    refine emitFactors_some (by simp [exTilt]) (by rw [hZ]; norm_num) (by rw [hE]; norm_num) exParticle_moving exGained_moving
      ?_ ?_ ?_
    · rw [exStored_sq]; simp
    · rw [exStored_sq]; simp
    · rw [exStored_sq]; simp
  refine ⟨a, ?_⟩
  unfold advanceCavity
  rw [show (exGrow env).cav = some { exTilt with emitGrowth := 1 } from rfl]
  dsimp only
  rw [if_neg (show ¬ (exAxis.retreat = true) by simp [exAxis, exState]), if_neg hnh, hreal, href, hd]
  simp only [List.length_singleton, hrs, hre, hrec, List.map_cons, List.map_nil]
  rw [hmis _ rfl rfl rfl rfl rfl rfl]
  dsimp only
  rw [hfault _ rfl rfl rfl _ rfl rfl rfl rfl]
  refine ⟨_, _, _, _, rfl, ?_, rfl, rfl, rfl, rfl, ?_, _, rfl⟩
  · rw [← hce { exTilt with emitGrowth := 1, phiRef := some 0, misalign := [(1, 1)] } exParticle.recalc exGained 1]
    rfl
  · rw [← hce { exTilt with emitGrowth := 1, phiRef := some 0, misalign := [(1, 1)] } exParticle.recalc exGained 1]
    have h1 : ∀ X : Mat, [(1 : Mat) * (X * 1)] = [X] := fun X => by rw [one_mul, mul_one]
    exact h1 _

/-- A beam on the axis of a cavity that accelerates, is in place, and in which the emittance grows: the way back succeeds,
and the beam has not its covariance back. -/
theorem C31_growth_false (env : Env) (files : Files) : ∃ d1 s1 d2 s2,
    advanceCavity env files (exGrow env) exAxis = (d1, s1, none) ∧
    advanceCavity env files d1 { s1 with retreat := true } = (d2, s2, none) ∧
    s2.payload.moment1 ≠ exAxis.payload.moment1 := by
  obtain ⟨u1, u2, u3, u4, u5⟩ := exKept_units
  obtain ⟨a, d1, s1, cav1, S1, f1, f2, f3, f4, f5, f6, f7, v1, f8⟩ := exGrow_forward env files
  have hdet : (exStored a 0 0).det ≠ 0 := by rw [exStored_det]; norm_num
  have hback : ∃ d2 s2 S2, advanceCavity env files d1 { s1 with retreat := true } = (d2, s2, none) ∧
      s2.payload.moment1 = [S2] := by
    have hSr : s1.payload.recalc.ref = exGained := by
      show s1.payload.ref.recalc = _
      rw [f4]; rfl
    have hSl : s1.payload.recalc.real = [exGained] := by
      show s1.payload.real.map _ = _
      rw [f5]; rfl
    have hck : checkBackward d1 s1.payload.recalc := by
      rw [checkBackward, hSr, hSl, f2]
      exact ⟨by simp, ⟨rfl, rfl, rfl, rfl, rfl⟩, .cons ⟨rfl, rfl, rfl, rfl, rfl⟩ .nil⟩
    have hmis : forEach (fun p => getMisalign d1 (takenBack exParticle.recalc exGained exGained) p)
        [takenBack exParticle.recalc exGained exGained] = .ok [(1, 1)] := by
      have hm : getMisalign d1 (takenBack exParticle.recalc exGained exGained)
          (takenBack exParticle.recalc exGained exGained) = .ok (misOf exGained 0) := by
        rw [f2]
        exact exTilted_mis rfl rfl rfl rfl rfl rfl rfl u2 u4
      simp only [forEach, hm, misOf_zero exGained u2 u4]
    have e1 : d1.cav = some cav1 := by rw [f2]
    have e2 : d1.refIn = some exParticle.recalc := by rw [f2]
    have e3 : d1.realIn = [exParticle.recalc] := by rw [f2]
    have e4 : d1.refOut = exGained := by rw [f2]
    have e5 : d1.realOut = [exGained] := by rw [f2]
    have e6 : d1.transfer = [exStored a 0 0] := by rw [f2]
    have hin : inverse (exStored a 0 0) = .ok (exStored a 0 0)⁻¹ := if_neg hdet
    unfold advanceCavity
    rw [e1]
    dsimp only
    rw [if_pos rfl, if_neg (not_not.2 hck), if_neg (by rw [e3, e5]; simp), e2, e3, e4, e5, hSr, hSl]
    simp only [Option.getD_some, List.zip_cons_cons, List.zip_nil_right, List.zipWith_cons_cons, List.zipWith_nil_right, hmis,
      e6, one_mul, mul_one]
    unfold backward MSt.recalc
    simp only [f6, f7, f8, backLoop, hin]
    exact ⟨_, _, _, rfl, rfl⟩
  obtain ⟨d2, s2, S2, b1, b2⟩ := hback
  refine ⟨d1, s1, d2, s2, f1, b1, fun hS => ?_⟩
  have hc : d1.cav = some cav1 := by rw [f2]
  have hS2 : S2 = 1 := by
    rw [b2] at hS
    exact (List.cons.inj hS).1
  have key := (C31_growth (S := 1) rfl rfl rfl rfl rfl rfl rfl f1 b1 0 S1 S2 (exStored a 0 0) (by rw [f6]; rfl) (by rw [b2]; rfl)
    (by rw [f7]; rfl)).1 hS2
  -- the growth
  have hone : Covariance (1 : Mat) := by
    refine ⟨Matrix.transpose_one, fun x => ?_⟩
    refine Finset.sum_nonneg fun i _ => ?_
    simp only [Matrix.one_apply, mul_ite, mul_one, mul_zero, ite_mul, zero_mul, Finset.sum_ite_eq, Finset.mem_univ, if_true]
    exact mul_self_nonneg _
  obtain ⟨p, q, v, S, M, -, -, -, g1, g2, g3, g4, g5, -, -, -, -, ⟨k, hk, g6, -⟩, -⟩ := C68_pass_partial (n := 0) (S' := S1) rfl rfl
    (fun C hC => by rw [List.mem_singleton.1 (show C ∈ [1] from hC)]; exact hone) rfl rfl rfl rfl rfl f1 cav1 hc
    (by rw [f3]; norm_num) (by rw [f6]; rfl)
  obtain rfl : exParticle = p := Option.some.inj g1
  obtain rfl : exGained = q := by rw [f5] at g2; exact Option.some.inj g2
  obtain rfl : ![0, 0, 0, 0, 0, 0, 1] = v := Option.some.inj g3
  obtain rfl : (1 : Mat) = S := Option.some.inj g4
  obtain rfl : exStored a 0 0 = M := by rw [f7] at g5; exact Option.some.inj g5
  rw [← key] at g6
  have h44 : 0 < S1 4 4 := by
    rw [key]
    show 0 < Moment.congr (exStored a 0 0) 1 4 4
    rw [exStored_sq]
    simp
    nlinarith [mul_self_nonneg a]
  have hk0 : k ≠ 0 := by
    have hb1 := exParticle_moving.beta_pos
    have hb2 := exGained_moving.beta_pos
    have hg1 := exParticle_moving.one_lt
    have hg2 := exGained_moving.one_lt
    have hW : exGained.IonW - exParticle.recalc.IonW = 1 := by
      simp [exGained, boosted, exParticle, Particle.recalc]
      norm_num
    have hV : Spec.gapVoltage cav1.ionFys exAxis.payload.ref.IonZ (exGained.IonW - exParticle.recalc.IonW) = 1 := by
      rw [hW, f3, show exAxis.payload.ref.IonZ = 1 from rfl]
      have : exTilt.ionFys = 0 := rfl
      simp [Spec.gapVoltage, this]
      norm_num
    rw [hk, hV, show exAxis.payload.ref.IonZ = 1 from rfl, show exAxis.payload.ref.IonEs = 1 from rfl,
      show cav1.fRF = 1 by rw [f3]; rfl]
    unfold Spec.defocus
    have := Real.pi_pos
    generalize exGained.beta = b2 at hb2 ⊢
    generalize exGained.gamma = g2 at hg2 ⊢
    generalize exParticle.recalc.beta = b1 at hb1 ⊢
    generalize exParticle.recalc.gamma = g1 at hg1 ⊢
    have hg1' : 0 < g1 := by linarith
    have hg2' : 0 < g2 := by linarith
    rw [abs_one]
    positivity
  have hpos : 0 < kickSpread k cav1.ionFys (Real.sqrt (S1 4 4)) ((1 : Mat) 0 0 + ![0, 0, 0, 0, 0, 0, 1] 0 ^ 2) := by
    have := bunchVar_sin_pos cav1.ionFys (Real.sqrt_pos.2 h44)
    unfold kickSpread
    simp only [Matrix.one_apply_eq, Matrix.cons_val_zero]
    positivity
  linarith

end Flame.Cavity
