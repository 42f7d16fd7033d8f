import Verif.Freq.Cavity
import Verif.Turn.Run
import Verif.Cavity.Growth

/-! # Another frequency as the unit of phase: whole machines (C102) -/

namespace Flame.Freq

open Flame.Mach (Elem Cls St Err Run CView Machine propagate)
open Flame.Linear (LVal LCfg getNum getNumD getVec)
open Flame.Moment Flame.Cavity
open Flame.Scale (ERel)
open Flame.Scale.Spec (Call Session watched)
open Flame.Turn (SRel Keeps session_rel)
open Flame.Flip.Spec (IsMoments Several text keys Read)
open Flame.Freq.Spec
open Flame.Moment.Spec (Covariance)

variable {u : ℝ} {c c' : LCfg}

theorem buildCavity_f (hu : 0 < u) (h : OtherElement u "rfcavity" c c') (env : Env) (files : Files) (junk : Mat) {d d' : MDat}
    (hd : buildCavity env files junk c = .ok d) (hd' : buildCavity env files junk c' = .ok d') : DRel u "rfcavity" d d' := by
  unfold buildCavity at hd hd'
  rw [loadCavity_f h env files] at hd'
  cases h1 : build env junk .drift c with
  | error e => rw [h1] at hd; cases hd
  | ok d0 =>
    cases h2 : build env junk .drift c' with
    | error e => rw [h2] at hd'; cases hd'
    | ok d0' =>
      rw [h1] at hd
      rw [h2] at hd'
      dsimp only at hd hd'
      obtain ⟨e1, e2, e3, r', e4⟩ := build_f hu h env junk .drift (fun h => by cases h) h1 h2
      have hem := loadCavity_emit (files := files) (cav := noCav) (noFlag env h) rfl
      have hmi : (loadCavity env files c noCav).1.misalign = [] := loadCavity_misalign env files c noCav
      generalize loadCavity env files c noCav = z at hd hd' hmi hem
      obtain ⟨cav, o⟩ := z
      cases o with
      | some e => cases hd
      | none =>
        cases hd; cases hd'
        subst e4
        refine ⟨c', r', by rw [← e1] at h; exact h, fun hn => absurd e3 hn, ?_, ?_⟩
        · intro k hk
          cases hk
          exact hem
        · have : inUnitC u cav = cav := by
            dsimp only at hmi
            unfold inUnitC
            rw [hmi, List.map_nil, ← hmi]
          simp only [inUnitD, Option.map, this]

/-! ## the theorem -/

/-- Data in both runs, together with the class. -/
def KRel (u : ℝ) (env : Env) (files : Files) (junk : Mat) (base : Nat) (k : MCls) (d d' : MDat) : Prop :=
  (∃ t, k = cls env junk base t ∧ DRel u t.name d d') ∨ (k = cavityCls env files junk base ∧ DRel u "rfcavity" d d') ∨
    (k = stripperCls env junk base ∧ DRel u "stripper" d d')

theorem step_f (hu : 0 < u) (env : Env) (files : Files) (junk : Mat) (base : Nat) : Keeps (KRel u env files junk base) (OtherUnit u) := by
  intro k d d' s s' hk hs
  obtain ⟨q1, q2, q3⟩ := hs
  have q4 := (other_iff _ _).1 q3
  have e : s' = inUnitSt u s := by
    clear q3
    cases s'
    dsimp only at q1 q2 q4
    subst q1 q2 q4
    rfl
  subst e
  have fin : ∀ {P : MDat → MDat → Prop} {x x' : MDat × St MSt × Option Err}, Alike u P x x' → SRel (OtherUnit u) x.2.1 x'.2.1 := by
    intro P x x' h
    rw [h.2.1]
    exact ⟨rfl, rfl, (other_iff _ _).2 rfl⟩
  rcases hk with ⟨t, rfl, hd⟩ | ⟨rfl, hd⟩ | ⟨rfl, hd⟩
  · have h := advance_f hu env t hd s
    exact ⟨h.1, fin h, fun hn => .inl ⟨t, rfl, h.2.2 hn⟩⟩
  · have h := cavity_f hu env files hd s
    exact ⟨h.1, fin h, fun hn => .inr (.inl ⟨rfl, h.2.2 hn⟩)⟩
  · have h := stripper_f hu hd s
    exact ⟨h.1, fin h, fun hn => .inr (.inr ⟨rfl, h.2.2 hn⟩)⟩

theorem element_f {env : Env} {files : Files} {junk : Mat} {base : Nat} {ec ec' : LCfg} {ty : String} {e e' : Elem LCfg MDat MSt}
    (hu : 0 < u) (t2 : OtherElement u ty ec ec')
    (g2 : (∃ t : MType, e.cls = cls env junk base t ∧ t.name = ty ∧ build env junk t ec = .ok e.dat) ∨
       (e.cls = cavityCls env files junk base ∧ ty = "rfcavity" ∧ buildCavity env files junk ec = .ok e.dat) ∨
       (e.cls = stripperCls env junk base ∧ ty = "stripper" ∧ build env junk .marker ec = .ok e.dat))
    (g2' : (∃ t : MType, e'.cls = cls env junk base t ∧ t.name = ty ∧ build env junk t ec' = .ok e'.dat) ∨
       (e'.cls = cavityCls env files junk base ∧ ty = "rfcavity" ∧ buildCavity env files junk ec' = .ok e'.dat) ∨
       (e'.cls = stripperCls env junk base ∧ ty = "stripper" ∧ build env junk .marker ec' = .ok e'.dat)) :
    e'.cls = e.cls ∧ KRel u env files junk base e.cls e.dat e'.dat := by
  rcases g2 with ⟨t, a1, a2, a3⟩ | ⟨a1, a2, a3⟩ | ⟨a1, a2, a3⟩ <;> rcases g2' with ⟨t', b1, b2, b3⟩ | ⟨b1, b2, b3⟩ | ⟨b1, b2, b3⟩
  · have : t' = t := by
      rw [← a2] at b2
      revert b2
      cases t <;> cases t' <;> decide
    subst this
    obtain ⟨e1, e2, e3, r', e4⟩ := build_f hu t2 env junk t' (fun h => by rw [← a2, h]; rfl) a3 b3
    exact ⟨b1.trans a1.symm, .inl ⟨t', a1, ec', r', by rw [e1, a2]; exact t2, fun hn => absurd e3 hn, fun k hk => (by rw [e2] at hk; cases hk), e4⟩⟩
  · exfalso; rw [b2] at a2; revert a2; cases t <;> decide
  · exfalso; rw [b2] at a2; revert a2; cases t <;> decide
  · exfalso; rw [a2] at b2; revert b2; cases t' <;> decide
  · subst a2
    exact ⟨b1.trans a1.symm, .inr (.inl ⟨a1, buildCavity_f hu t2 env files junk a3 b3⟩)⟩
  · exfalso; rw [a2] at b2; revert b2; decide
  · exfalso; rw [a2] at b2; revert b2; cases t' <;> decide
  · exfalso; rw [a2] at b2; revert b2; decide
  · subst a2
    obtain ⟨e1, e2, e3, r', e4⟩ := build_f hu t2 env junk .marker (fun h => by cases h) a3 b3
    exact ⟨b1.trans a1.symm, .inr (.inr ⟨a1, ec', r', by rw [e1]; exact t2, fun hn => absurd e3 hn, fun k hk => (by rw [e2] at hk; cases hk), e4⟩)⟩

/-- C102: the sampling frequency is only the unit of phase.  Two machines are built, the second from the same lattice with the sampling
frequency of the sources multiplied with `u` and with the centroids, covariances and given matrices written in the new unit.  They are
used in the same way: the same calls of `propagate`, forward and backward, over any ranges and with any observers, the second with
the beams in the new unit.  Then the calls end in the same way, and at the end and in all views the positions, energies, transverse
coordinates and cavity phases are the same, and the phases, their spreads and the entries of the matrices that belong to them are
those of the first in the new unit.  All element types are covered, with any misalignment, as long as no cavity is asked for the
growth of the emittance. -/
theorem C102_unit {u : ℝ} (hu : 0 < u) {env : Env} {files : Files} {junk : Mat} {base : Nat} (cv : CView LCfg) (c c' : LCfg)
    (m m' : Machine LCfg MDat MSt)
    (h : Machine.new cv (registry env junk base (cavityCls env files junk base) (stripperCls env junk base)) c = .ok m)
    (h' : Machine.new cv (registry env junk base (cavityCls env files junk base) (stripperCls env junk base)) c' = .ok m')
    (es es' : List LCfg) (hes : cv.elems c = .ok es) (hes' : cv.elems c' = .ok es')
    (hc : List.Forall₂ (fun e e' => ∃ ty, cv.str e "type" = .ok ty ∧ cv.str e' "type" = .ok ty ∧ OtherElement u ty e e') es es')
    (calls calls' : List (Call MSt)) (hcalls : List.Forall₂ (OtherCall u) calls calls')
    (rs : List (Run LCfg MDat MSt)) (hs : Session m.elems calls rs) :
    ∃ rs', Session m'.elems calls' rs' ∧ List.Forall₂ (SameButUnit u) rs rs' := by
  have hF := machine_moment h hes
  have hF' := machine_moment h' hes'
  have hI : ∀ {c : LCfg} {m : Machine LCfg MDat MSt}, Machine.new cv (registry env junk base (cavityCls env files junk base) (stripperCls env junk base)) c = .ok m →
      ∀ (i : Nat) (hi : i < m.elems.length), m.elems[i].index = i ∧ m.elems[i].obs = none := by
    intro c m h i hi
    obtain ⟨_, es, _, _, _, _, hl, hall⟩ := Flame.Mach.C18_machine_matches_lattice cv _ c m h
    obtain ⟨e, k, he, -, hm⟩ := hall i es[i] (List.getElem?_eq_getElem (by omega))
    rw [List.getElem?_eq_getElem hi] at he
    rw [Option.some.inj he]
    exact ⟨hm.index, hm.obs⟩
  have hE : List.Forall₂ (ERel (KRel u env files junk base)) m.elems m'.elems := by
    rw [List.forall₂_iff_get]
    have l1 := hF.length_eq
    have l2 := hF'.length_eq
    have l3 := hc.length_eq
    refine ⟨by omega, ?_⟩
    intro i i1 i2
    obtain ⟨ty1, g1, g2⟩ := (List.forall₂_iff_get.1 hF).2 i (by omega) i1
    obtain ⟨ty2, g1', g2'⟩ := (List.forall₂_iff_get.1 hF').2 i (by omega) i2
    obtain ⟨ty, t1, t1', t2⟩ := (List.forall₂_iff_get.1 hc).2 i (by omega) (by omega)
    have hty : ty1 = ty := Except.ok.inj (g1.symm.trans t1)
    have hty' : ty2 = ty := Except.ok.inj (g1'.symm.trans t1')
    subst hty hty'
    simp only [List.get_eq_getElem] at *
    obtain ⟨x1, x2⟩ := hI h i i1
    obtain ⟨x3, x4⟩ := hI h' i i2
    have main := element_f hu t2 g2 g2'
    exact ⟨main.1, by rw [x2, x4], by rw [x1, x3], main.2⟩
  obtain ⟨rs', r1, r2⟩ := session_rel (step_f hu env files junk base) hE hcalls hs
  exact ⟨rs', r1, r2.imp (fun r r' ⟨a1, a2, a3⟩ => ⟨a1, a2.1, a2.2.2, a3⟩)⟩

/-- With the growth of the emittance the results do depend on the sampling frequency: the width of the bunch is taken in the unit of
the lattice, not in that of the cavity (/repo/src/rf_cavity.cpp:1586), so the energy spread grows by other amounts. -/
theorem C102_growth_false : ∃ (u : ℝ) (cav : Cav) (ref pin pout : Particle) (M : Mat) (f f' : ℝ × ℝ × ℝ), 0 < u ∧ Moving pin ∧ Moving pout ∧
    Covariance M ∧ 0 < M 1 1 ∧ 0 < M 3 3 ∧ 0 < M 4 4 ∧ 0 < M 5 5 ∧
    emitFactors cav ref pin pout pout.beta pout.gamma (M 0 0) 0 (M 2 2) 0 M = some f ∧
    emitFactors cav (inUnitP u ref) (inUnitP u pin) (inUnitP u pout) pout.beta pout.gamma (M 0 0) 0 (M 2 2) 0 (inUnitS u M) = some f' ∧
    emitGrowth cav (inUnitP u ref) (inUnitP u pin) (inUnitP u pout) pout.beta pout.gamma (M 0 0) 0 (M 2 2) 0 (inUnitS u M) 5 5 ≠
      emitGrowth cav ref pin pout pout.beta pout.gamma (M 0 0) 0 (M 2 2) 0 M 5 5 := by
  let cav : Cav := { exGap with emitGrowth := 1, ionFys := 0 }
  let pin := exParticle.recalc
  let pout := ({ exParticle with IonEk := 2 } : Particle).recalc
  have hin : Moving pin := exParticle_moving
  have hout : Moving pout := ⟨recalc_idem _, by norm_num [pout, exParticle, Particle.recalc],
    by norm_num [pout, exParticle, Particle.recalc]⟩
  have hcos : Real.cos cav.ionFys = 1 := Real.cos_zero
  have hsin : Real.sin cav.ionFys = 0 := Real.sin_zero
  have g1 : pin.gamma = 2 := by norm_num [pin, exParticle, Particle.recalc]
  have g2 : pout.gamma = 3 := by norm_num [pout, exParticle, Particle.recalc]
  have b1 := hin.beta_pos
  have b2 := hout.beta_pos
  have hf : 0 < cav.fRF := by norm_num [cav, exGap]
  have hk : kickPer cav pin pin pout pout.beta pout.gamma ≠ 0 := by
    have hW : pout.IonW - pin.IonW = 1 := by norm_num [pin, pout, exParticle, Particle.recalc]
    have hE : pin.IonEs = 1 := rfl
    have hZ : pin.IonZ = 1 := rfl
    have hpi := Real.pi_pos
    have hC : (0 : ℝ) < C0 := by norm_num [C0]
    have hM : (0 : ℝ) < MtoMM := by norm_num [MtoMM]
    unfold kickPer
    simp only [hcos, hW, hE, hZ, g1, g2]
    rw [if_neg (by norm_num)]
    have : (0 : ℝ) < Real.pi * |1| * (1 / 1 / 1) / 1 /
        ((pout.beta + pin.beta) / 2 * ((3 + 2) / 2) * ((pout.beta + pin.beta) / 2 * ((3 + 2) / 2))) / pout.beta / 3 /
        (C0 / cav.fRF * MtoMM) := by
      rw [abs_one]
      positivity
    intro h
    refine this.ne' ?_
    rw [← neg_eq_zero, ← h]
    ring
  generalize hkp : kickPer cav pin pin pout pout.beta pout.gamma = kp at hk
  obtain ⟨A, hA, hE⟩ : ∃ A, 0 < A ∧ ∀ v, 0 ≤ v → energyGrowth cav kp ((pout.beta + pin.beta) / 2) ((pout.gamma + pin.gamma) / 2) v = some (A * (v * v)) := by
    have hl : 0 < C0 / cav.fRF * MtoMM := by
      have : (0 : ℝ) < C0 := by norm_num [C0]
      have : (0 : ℝ) < MtoMM := by norm_num [MtoMM]
      positivity
    have hpi := Real.pi_pos
    have hi : 0 < 2 * Real.pi / ((pout.beta + pin.beta) / 2 * (C0 / cav.fRF * MtoMM)) := by positivity
    refine ⟨(-2 * kp * (5 / 2 * (5 / 2))) * (-2 * kp * (5 / 2 * (5 / 2))) /
      (2 * Real.pi / ((pout.beta + pin.beta) / 2 * (C0 / cav.fRF * MtoMM)) * (2 * Real.pi / ((pout.beta + pin.beta) / 2 * (C0 / cav.fRF * MtoMM)))) / 8, ?_, ?_⟩
    · have : 0 < (-2 * kp * (5 / 2 * (5 / 2))) * (-2 * kp * (5 / 2 * (5 / 2))) := mul_self_pos.2 (by simp [hk])
      positivity
    · intro v hv
      unfold energyGrowth
      simp only [if_pos hv, hcos, hsin, g1, g2]
      generalize 2 * Real.pi / ((pout.beta + pin.beta) / 2 * (C0 / cav.fRF * MtoMM)) = K at hi
      have h1 := Real.mul_self_sqrt hv
      congr 1
      have : (3 + 2 : ℝ) / 2 = 5 / 2 := by norm_num
      rw [this]
      generalize Real.sqrt v = s at h1 ⊢
      subst h1
      have := hi.ne'
      field_simp
      ring
  set lt := 1 / ((pout.gamma + pin.gamma) / 2 - 1) / pin.IonEs * MeVtoeV with hlt
  have hl : 0 < lt := by
    rw [hlt, g1, g2, show pin.IonEs = 1 from rfl]
    norm_num [MeVtoeV]
  have hll : 0 < lt * lt := mul_pos hl hl
  have hi : ∀ v, 0 < v → ∃ a, increase (angleGrowth cav kp v 1 0) 1 = some a := by
    intro v hv
    have hs := kickSpread_nonneg kp cav.ionFys (Real.sqrt v) (x2 := 1 + 0 ^ 2) (by norm_num)
    rw [angleGrowth_eq cav kp 1 0 hv]
    simp only [increase]
    rw [if_pos (by linarith), if_pos one_pos]
    exact ⟨_, rfl⟩
  have hj : ∀ v, 0 ≤ v → increase (energyGrowth cav kp ((pout.beta + pin.beta) / 2) ((pout.gamma + pin.gamma) / 2) v) (1 * (lt * lt)) =
      some (Real.sqrt ((A * (v * v) + 1 * (lt * lt)) / (1 * (lt * lt)))) := by
    intro v hv
    have : 0 ≤ A * (v * v) := by positivity
    rw [hE v hv]
    simp only [increase]
    rw [if_pos (by linarith), if_pos (by linarith)]
  have hF : ∀ M : Mat, M 1 1 = 1 → M 3 3 = 1 → M 5 5 = 1 → 0 < M 4 4 → ∃ a b, emitFactors cav pin pin pout pout.beta pout.gamma 1 0 1 0 M =
      some (a, b, Real.sqrt ((A * (M 4 4 * M 4 4) + 1 * (lt * lt)) / (1 * (lt * lt)))) := by
    intro M e1 e3 e5 e4
    obtain ⟨a, ha⟩ := hi (M 4 4) e4
    unfold emitFactors
    dsimp only
    rw [if_neg, e1, e3, e5, hkp, ha, ← hlt, hj _ e4.le]
    · exact ⟨_, _, rfl⟩
    simp only [not_or]
    rw [g1, g2, show pin.IonEs = 1 from rfl, show pin.IonZ = 1 from rfl]
    refine ⟨hf.ne', by norm_num, by norm_num, by positivity, by norm_num, b2.ne', by norm_num, by norm_num⟩
  let M : Mat := Matrix.diagonal ![1, 1, 1, 1, 1, 1, 0]
  have h4 : inUnitS 2 M 4 4 = 4 := by simp [inUnitS, unit, M, Matrix.diagonal]; norm_num
  have h1 : inUnitS 2 M 1 1 = 1 := by simp [inUnitS, unit, M, Matrix.diagonal]
  have h3 : inUnitS 2 M 3 3 = 1 := by simp [inUnitS, unit, M, Matrix.diagonal]
  have h5 : inUnitS 2 M 5 5 = 1 := by simp [inUnitS, unit, M, Matrix.diagonal]
  obtain ⟨a, b, hm⟩ := hF M rfl rfl rfl one_pos
  obtain ⟨a', b', hm'⟩ := hF (inUnitS 2 M) h1 h3 h5 (by rw [h4]; norm_num)
  refine ⟨2, cav, pin, pin, pout, M, _, _, by norm_num, hin, hout, ⟨?_, ?_⟩, one_pos, one_pos, one_pos, one_pos, hm, hm', ?_⟩
  · exact Matrix.diagonal_transpose _
  · intro x
    simp only [M, Fin.sum_univ_seven, Matrix.diagonal]
    simp
    nlinarith [mul_self_nonneg (x 0), mul_self_nonneg (x 1), mul_self_nonneg (x 2), mul_self_nonneg (x 3), mul_self_nonneg (x 4), mul_self_nonneg (x 5)]
  · have q1 := emitGrowth_stretched hm 5 5
    have q2 := emitGrowth_stretched hm' 5 5
    change emitGrowth cav pin pin pout pout.beta pout.gamma 1 0 1 0 (inUnitS 2 M) 5 5 ≠ emitGrowth cav pin pin pout pout.beta pout.gamma 1 0 1 0 M 5 5
    rw [q1, q2, h5, h4, show M 5 5 = 1 from rfl, show M 4 4 = 1 from rfl]
    show Real.sqrt _ * Real.sqrt _ * 1 ≠ Real.sqrt _ * Real.sqrt _ * 1
    rw [Real.mul_self_sqrt (by positivity), Real.mul_self_sqrt (by positivity)]
    intro h
    rw [mul_one, mul_one, div_left_inj' (by positivity)] at h
    linarith

end Flame.Freq
