import Verif.Cavity.Beam
import Verif.Cavity.Ray
import Verif.Cavity.Transit

/-! # C72: the matrices of a pass through a cavity -/

namespace Flame.Cavity

open Flame.Mach (Err St)
open Flame.Moment
open Flame.Linear (LCfg getNum)
open Spec (Ray Setting Piece Pace)

/-- Behind the cavity the centre of the charge state is put at another phase and energy relative to the reference particle. -/
def moved (a b : ℝ) (r : Ray) : Ray := { r with ph := r.ph + a, dw := r.dw + b }

theorem constants_moved {T : Mat} {r r' : Ray} (h : T.mulVec r.coords = r'.coords) (x y : ℝ) :
    (setAt (setAt (setAt (setAt T 4 6 0) 5 6 0) 4 6 x) 5 6 y).mulVec r.coords = (moved (x - T 4 6) (y - T 5 6) r').coords := by
  have k : ∀ i, T.mulVec r.coords i = r'.coords i := fun i => congrFun h i
  simp only [Matrix.mulVec, dotProduct, Fin.sum_univ_seven] at k
  ext i
  simp only [Matrix.mulVec, dotProduct, Fin.sum_univ_seven]
  have k0 := k 0
  have k1 := k 1
  have k2 := k 2
  have k3 := k 3
  have k4 := k 4
  have k5 := k 5
  have k6 := k 6
  fin_cases i <;> simp [setAt, Ray.coords, moved] at k0 k1 k2 k3 k4 k5 k6 ⊢ <;> linarith

/-- The matrix of a charge state in the first pass through a cavity. -/
theorem pass_matrix {env : Env} {files : Files} {d d' : MDat} {s s' : St MSt} (hr : s.retreat = false) (h0 : d.refIn = none)
    (h : advanceCavity env files d s = (d', s', none)) : ∃ cav0 cav ref phi, d.cav = some cav0 ∧
      reload env files d.conf { cav0 with misalign := resizeMis s.payload.recalc.real.length cav0.misalign } = (cav, none) ∧
      propagateLong d.conf cav s.payload.ref.recalc = .ok (ref, phi) ∧
      ∀ (k : ℕ) (M : Mat), s'.payload.transmat[k]? = some M → ∃ p q T N m x y, s.payload.real[k]? = some p ∧
        initRFCav d.conf cav phi p.recalc = .ok (q, T) ∧
        getMisalign d ref { q with SampleIonK := p.recalc.SampleIonK } = .ok m ∧ M = m.2 * (N * m.1) ∧
        ∀ r r' : Ray, T.mulVec r.coords = r'.coords → N.mulVec r.coords = (moved x y r').coords := by
  obtain ⟨cav0, hc0, ⟨hh, -⟩ | ⟨-, cav, ref, phi, l, mis, hre, hrec, hmis, -, rfl, rfl⟩⟩ := forward_cases hr h
  · exact absurd hh (miss _ h0)
  refine ⟨cav0, cav, ref, phi, hc0, hre, ?_⟩
  unfold recomputeCav at hrec
  split at hrec
  · cases hrec
  rename_i r1 f1 hl
  split at hrec
  · cases hrec
  rename_i l' hl'
  cases hrec
  refine ⟨hl, ?_⟩
  clear h
  intro k M hM
  have e2 : (cavForward env { cav with phiRef := some phi, misalign := mis }
      (filledDat d s.payload.recalc { cav with phiRef := some phi, misalign := mis } ref l)
      (filledSt s.payload.recalc ref l)).2.transmat =
      (cavLoop { cav with phiRef := some phi, misalign := mis } (filledSt s.payload.recalc ref l).ref (l.map (fun q => q.2)) mis
        (filledSt s.payload.recalc ref l).real
        (ends env (filledDat d s.payload.recalc { cav with phiRef := some phi, misalign := mis } ref l))
        (filledSt s.payload.recalc ref l).moment0 (filledSt s.payload.recalc ref l).moment1).map (fun q => q.2.2.2) := rfl
  dsimp only at hM
  rw [e2, List.getElem?_map, Option.map_eq_some_iff] at hM
  obtain ⟨r, hr', rfl⟩ := hM
  obtain ⟨T, m, p2, e, w, C, hT, hm, hp, -, -, -, rfl⟩ := cavLoop_get hr'
  rw [List.getElem?_map, Option.map_eq_some_iff] at hT
  obtain ⟨⟨q, T'⟩, hq, rfl⟩ := hT
  have f1 := forEach_ok.1 hl'
  have f2 := forEach_ok.1 hmis
  have hk : k < l.length := (List.getElem?_eq_some_iff.1 hq).1
  have hk1 : k < s.payload.recalc.real.length := by rw [f1.length_eq]; exact hk
  have g1 := List.forall₂_iff_get.1 f1 |>.2 k hk1 hk
  have hk2 : k < mis.length := (List.getElem?_eq_some_iff.1 hm).1
  have g2 := List.forall₂_iff_get.1 f2 |>.2 k (by simpa using hk) hk2
  simp only [List.get_eq_getElem, (List.getElem?_eq_some_iff.1 hq).2, (List.getElem?_eq_some_iff.1 hm).2, List.getElem_map] at g1 g2
  have hk3 : k < s.payload.real.length := by simpa [MSt.recalc] using hk1
  have e3 : s.payload.recalc.real[k] = (s.payload.real[k]).recalc := by simp [MSt.recalc]
  rw [e3] at g1
  split at g1
  · cases g1
  rename_i p' M' hi
  cases g1
  exact ⟨s.payload.real[k], p', _, _, m, _, _, List.getElem?_eq_getElem hk3, hi, g2, rfl,
    fun r r' hrr => constants_moved hrr _ _⟩

/-- **C72** for a pass: in a cavity that has not been used, the matrix reported for a charge state takes a particle into the frame of
the cavity, follows it through the pieces, adds the new place of the centre, and takes it back. -/
theorem C72_pass_generic {env : Env} {files : Files} {d d' : MDat} {s s' : St MSt} (hr : s.retreat = false) (h0 : d.refIn = none)
    (h : advanceCavity env files d s = (d', s', none)) : ∃ cav0 cav ref phi, d.cav = some cav0 ∧
      reload env files d.conf { cav0 with misalign := resizeMis s.payload.recalc.real.length cav0.misalign } = (cav, none) ∧
      propagateLong d.conf cav s.payload.ref.recalc = .ok (ref, phi) ∧
      (cav.cavi = 0 → ∀ (k : ℕ) (M : Mat) (p : Particle), s'.payload.transmat[k]? = some M → s.payload.real[k]? = some p →
        cav.fRF / p.SampleFreq ≠ 0 →
        ∃ q N m x y scl W' u', getMisalign d ref q = .ok m ∧ M = m.2 * (N * m.1) ∧ getNum d.conf "scl_fac" = .ok scl ∧
          ∀ r : Ray, ∃ r' : Ray,
            Spec.Passes ⟨p.IonZ, p.IonEs, scl, cav.cRm, 299792458 / cav.fRF * 1000, cav.mpoleLevel⟩ (cav.lattice.map pieceOf)
              (p.IonEk + p.IonEs) (cav.fRF / p.SampleFreq * p.phis + phi) (r.inside (cav.fRF / p.SampleFreq)) W' u'
              (r'.inside (cav.fRF / p.SampleFreq)) ∧
            N.mulVec r.coords = (moved x y r').coords) := by
  obtain ⟨cav0, cav, ref, phi, h1, h2, h3, h4⟩ := pass_matrix hr h0 h
  refine ⟨cav0, cav, ref, phi, h1, h2, h3, fun hc k M p hM hp hf => ?_⟩
  obtain ⟨p', q, T, N, m, x, y, e1, e2, e3, e4, e5⟩ := h4 k M hM
  rw [hp] at e1
  cases e1
  obtain ⟨scl, W', u', hs, hray⟩ := C72_particle_generic e2 hc hf
  refine ⟨_, N, m, x, y, scl, W', u', e3, e4, hs, fun r => ?_⟩
  obtain ⟨r', g1, g2⟩ := hray r
  exact ⟨r', g1, e5 r r' g2⟩

/-- **C72** for a pass through a cavity with two gaps. -/
theorem C72_pass_twogap {env : Env} {files : Files} {d d' : MDat} {s s' : St MSt} (hr : s.retreat = false) (h0 : d.refIn = none)
    (h : advanceCavity env files d s = (d', s', none)) : ∃ cav0 cav ref phi, d.cav = some cav0 ∧
      reload env files d.conf { cav0 with misalign := resizeMis s.payload.recalc.real.length cav0.misalign } = (cav, none) ∧
      propagateLong d.conf cav s.payload.ref.recalc = .ok (ref, phi) ∧
      (0 < cav.cavi → ∀ (fac : String → ℝ → ℝ × ℝ), Factors cav fac → ∀ (k : ℕ) (M : Mat) (p : Particle),
        s'.payload.transmat[k]? = some M → s.payload.real[k]? = some p → cav.fRF / p.SampleFreq ≠ 0 →
        let m := cav.fRF / p.SampleFreq
        let lam := 299792458 / cav.fRF * 1000
        let dis := extent cav.cavData / 2
        let W0 := p.IonEk + p.IonEs
        let u0 := m * p.phis + phi
        ∃ q N mis x y scl g1 g2 W1 W2 u1 u2,
          let g : Setting := ⟨p.IonZ, p.IonEs, scl, (built72 cav.cavi).2, lam, cav.mpoleLevel⟩
          getMisalign d ref q = .ok mis ∧ M = mis.2 * (N * mis.1) ∧ getNum d.conf "scl_fac" = .ok scl ∧
          transFacts cav.forcettfcalc cav.cavData (built72 cav.cavi).1 (Spec.speed p.IonEs W0) (Spec.wave lam p.IonEs W0) 1 scl =
            .ok g1 ∧
          transFacts cav.forcettfcalc cav.cavData (built72 cav.cavi).1 (Spec.speed p.IonEs W1) (Spec.wave lam p.IonEs W1) 2 scl =
            .ok g2 ∧
          Spec.GapModel g dis (gapOf g1) W0 u0 W1 u1 ∧ Spec.GapModel g dis (gapOf g2) W1 u1 W2 u2 ∧
          ∀ r : Ray, ∃ r1 r' : Ray,
            Spec.PassesT g (three W0 W1 W2) fac (cav.lattice.map pieceTwo) ((cav.cavData.rows.map (·.getD 0 0)).headD 0)
              (Spec.pace lam p.IonEs W0 u0 0) (r.inside m) r1 ∧
            Spec.PassesL g dis (gapOf g1) (gapOf g2) (three W0 W1 W2) u0 u1 r1 (r'.inside m) ∧
            N.mulVec r.coords = (moved x y r').coords) := by
  obtain ⟨cav0, cav, ref, phi, h1, h2, h3, h4⟩ := pass_matrix hr h0 h
  refine ⟨cav0, cav, ref, phi, h1, h2, h3, fun hc fac hfac k M p hM hp hf => ?_⟩
  obtain ⟨p', q, T, N, mis, x, y, e1, e2, e3, e4, e5⟩ := h4 k M hM
  rw [hp] at e1
  cases e1
  obtain ⟨scl, g1, g2, W1, W2, u1, u2, hs, a1, a2, a3, a4, hray⟩ := C72_particle_twogap e2 hc hf fac hfac
  refine ⟨_, N, mis, x, y, scl, g1, g2, W1, W2, u1, u2, e3, e4, hs, a1, a2, a3, a4, fun r => ?_⟩
  obtain ⟨r1, r', b1, b2, b3⟩ := hray r
  exact ⟨r1, r', b1, b2, e5 r r' b3⟩

/-! ## examples -/

/-- A cavity with two gaps and its factors meet the hypotheses of `C72_twogap`. -/
example : ∃ M fac, getCavMat exTwo 41 17 1 1 1 0 1 = .ok M ∧ Factors exTwo fac := by
  obtain ⟨M, hM, -⟩ := exTwo_matrix
  obtain ⟨fac, hf⟩ := factors_exist exTwo
  exact ⟨M, fac, hM, hf⟩

/-- The pass of `C66_pass` meets the hypotheses of `C72_pass_generic`: it has one charge state in a generic cavity. -/
example (env : Env) (files : Files) : ∃ d' s', advanceCavity env files (exCavity env) (exState false) = (d', s', none) ∧
    (exState false).retreat = false ∧ (exCavity env).refIn = none ∧ exWeak.cavi = 0 ∧
    (exState false).payload.real[0]? = some exParticle ∧ exWeak.fRF / exParticle.SampleFreq ≠ 0 := by
  obtain ⟨d', s', h⟩ := exCavity_passes env files
  exact ⟨d', s', h, rfl, rfl, rfl, rfl, by norm_num [exWeak, exGap, exParticle]⟩

end Flame.Cavity
