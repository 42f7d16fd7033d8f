import Verif.Cavity.Beam

/-!
# The matrices of an RF cavity can be inverted: C62
-/

namespace Flame.Cavity

open Flame.Mach (Err)
open Flame.Linear (LVal LCfg getNum getNumD getVec)
open Flame.Moment
open Flame.Moment.Spec (phaseSpace)

theorem Damp.det {r : ℝ} {M : Mat} (h : Damp r M) (hr : r ≠ 0) : (phaseSpace M).det ≠ 0 := by
  have e : (phaseSpace M).transpose * (Spec.areaT + Spec.areaL) * phaseSpace M = r • Spec.areaT + Spec.areaL := by
    rw [Matrix.mul_add, Matrix.add_mul, h.2.1, h.2.2]
  have e2 : (r • Spec.areaT + Spec.areaL) * (r⁻¹ • Spec.areaT + Spec.areaL) = -1 := by
    ext i j
    fin_cases i <;> fin_cases j <;>
      simp [Spec.areaT, Spec.areaL, Matrix.mul_apply, Fin.sum_univ_six, hr]
  intro h0
  have d1 := congrArg Matrix.det e
  rw [Matrix.det_mul, h0, mul_zero] at d1
  have d2 := congrArg Matrix.det e2
  rw [Matrix.det_mul, ← d1, zero_mul, Matrix.det_neg, Matrix.det_one] at d2
  norm_num at d2

/-- A matrix with the seventh row of the identity can be inverted if its phase space part can. -/
theorem keeps_det {M : Mat} (h : Keeps7 M) : M.det = (phaseSpace M).det := by
  have z : ∀ j : Fin 6, M (Fin.last 6) j.castSucc = 0 := fun j => (h j.castSucc).trans (if_neg (Fin.castSucc_lt_last j).ne)
  have o : M (Fin.last 6) (Fin.last 6) = 1 := (h (Fin.last 6)).trans (if_pos rfl)
  have e : (-1 : ℝ) ^ ((Fin.last 6).val + (Fin.last 6).val) = 1 := by norm_num
  have s : M.submatrix (Fin.last 6).succAbove (Fin.last 6).succAbove = phaseSpace M := by
    rw [Fin.succAbove_last]
    rfl
  rw [Matrix.det_succ_row M (Fin.last 6), Fin.sum_univ_castSucc, Finset.sum_eq_zero (fun j _ => by rw [z, mul_zero, zero_mul]),
    o, e, s, zero_add, one_mul, one_mul]

theorem getCavMatGeneric_damp {cav : Cav} {Z Es scl fy0 Ek : ℝ} {M : Mat}
    (h : getCavMatGeneric cav Z Es scl fy0 Ek = .ok M) : ∃ r, r ≠ 0 ∧ Damp r M := by
  unfold getCavMatGeneric at h
  dsimp only at h
  split at h
  · cases h
  · rename_i a ha
    split at h
    · cases h
    · split at h
      · cases h
      · rename_i t ht
        cases h
        obtain ⟨hm, hn⟩ := kin_momentum ha
        have h0 : GenInv Es (Spec.momentum Es (Ek + Es))
            { W := Ek + Es, gamma := a.gamma, beta := a.beta, fy := fy0, kfac := a.k, M := 1, lon := 1 } :=
          ⟨hm, hn, OnlyT.one, OnlyL.one, by rw [div_self hn]; exact Damp.one, Damp.one⟩
        have hi := foldE_inv (fun P b b' => genStep_inv P b b') _ _ _ ht h0
        rw [combine_eq hi.onlyT hi.onlyL]
        have := hi.dampT.mul hi.dampL
        exact ⟨_, mul_ne_zero (div_ne_zero hn hi.ne) one_ne_zero, this⟩

theorem evalGapModel_kin {dis W0 Z Es fy0 k lam W fy : ℝ} {g : Gap} {q : Kin}
    (h : evalGapModel dis W0 Z Es fy0 k lam g = .ok (W, q, fy)) : kin Es W lam = .ok q := by
  unfold evalGapModel at h
  dsimp only at h
  split at h
  · cases h
  · rename_i q hq; cases h; exact hq

theorem getCavMat_damp {cav : Cav} {label : Nat} {Rm Z Es scl fy0 Ek : ℝ} {M : Mat}
    (h : getCavMat cav label Rm Z Es scl fy0 Ek = .ok M) : ∃ r, r ≠ 0 ∧ Damp r M := by
  unfold getCavMat at h
  dsimp only at h
  split at h
  · cases h
  rename_i a ha
  split at h
  · cases h
  rename_i g1 hg1
  split at h
  · cases h
  rename_i W1 b fy1 he1
  split at h
  · cases h
  rename_i g2 hg2
  split at h
  · cases h
  rename_i W2 c fy2 he2
  split at h
  · cases h
  rename_i lines hl
  split at h
  · cases h
  rename_i t ht
  cases h
  obtain ⟨hT, hD⟩ := transFold_inv lines ht OnlyT.one Damp.one
  obtain ⟨hL, hDL⟩ := lonM_only Z Es (extent cav.cavData / 2) (C0 / cav.fRF * MtoMM) a b c
    { g1 with Ecen := g1.Ecen - extent cav.cavData / 2 } g2 fy0 fy1
  rw [combine_eq hT hL]
  refine ⟨_, ?_, hD.mul hDL⟩
  obtain ⟨ma, na⟩ := kin_momentum ha
  obtain ⟨mb, nb⟩ := kin_momentum (evalGapModel_kin he1)
  obtain ⟨mc, nc⟩ := kin_momentum (evalGapModel_kin he2)
  unfold getCavMatParams at hl
  split at hl
  · cases hl
  rw [linesFrom_accel _ hl, mul_one, mul_one]
  apply List.prod_ne_zero
  intro hx
  obtain ⟨s, -, hs⟩ := List.mem_map.1 hx
  rw [ma, mb, mc] at hs
  split at hs
  · exact div_ne_zero na nb hs
  · exact div_ne_zero nb nc hs

/-- C62: whatever the settings, the files and the beam, the matrices of a cavity multiply transverse areas by a number other
than zero and keep longitudinal ones; they can be inverted, so that the beam can go back. -/
theorem C62_regular {c : LCfg} {cav : Cav} {ref ref' : Particle} {real : List Particle} {phi : ℝ} {l : List (Particle × Mat)}
    (hf : cav.fRF ≠ 0) (hs : ∀ p ∈ real, p.SampleFreq ≠ 0) (h : recomputeCav c cav ref real = .ok (ref', phi, l)) :
    ∀ q ∈ l, (∃ r, r ≠ 0 ∧ Spec.Damps r (phaseSpace q.2)) ∧ (∀ j, q.2 6 j = if j = 6 then 1 else 0) ∧ q.2.det ≠ 0 := by
  have key : ∀ q ∈ l, ∃ r, r ≠ 0 ∧ Damp r q.2 := by
    unfold recomputeCav at h
    split at h
    · cases h
    split at h
    · cases h
    rename_i l' hl
    cases h
    intro q hq
    obtain ⟨p, hpm, hp⟩ := forEach_all hl q hq
    split at hp
    · cases hp
    rename_i p' M he
    cases hp
    show ∃ r, r ≠ 0 ∧ Damp r M
    unfold initRFCav at he
    split at he
    · cases he
    dsimp only at he
    split at he
    · cases he
    split at he
    · cases he
    split at he
    · cases he
    rename_i N hN
    cases he
    have hk : ∃ r, r ≠ 0 ∧ Damp r N := by
      split at hN
      · exact getCavMat_damp hN
      · exact getCavMatGeneric_damp hN
    obtain ⟨r, hr, hk⟩ := hk
    refine ⟨r, hr, ?_⟩
    split
    · exact jump_damp (div_ne_zero hf (hs p hpm)) hk
    · exact hk
  intro q hq
  obtain ⟨r, hr, hd⟩ := key q hq
  refine ⟨⟨r, hr, hd.2⟩, hd.1, ?_⟩
  rw [keeps_det hd.1]
  exact hd.det hr

/-- A beam in a cavity with field meets the hypotheses. -/
example (env : Env) (files : Files) : ∃ ref phi l, recomputeCav (exCavity env).conf { exWeak with misalign := [(1, 1)] } exParticle.recalc
    [exParticle.recalc] = .ok (ref, phi, l) ∧ exWeak.fRF ≠ 0 ∧ ∀ p ∈ [exParticle.recalc], p.SampleFreq ≠ 0 := by
  have hm := exParticle_moving
  have hph : ∃ x, drivenPhase (exCavity env).conf { exWeak with misalign := [(1, 1)] } exParticle.recalc
      (exWeak.fRF / exParticle.SampleFreq) 1 = .ok x := by
    unfold drivenPhase
    rw [show getNumD (exCavity env).conf "syncflag" 1 = 1 by simp [getNumD, exCavity, exDat, exSet]]
    simp only [le_refl, if_true]
    unfold getCavPhase
    rw [if_neg]
    · exact ⟨_, rfl⟩
    · norm_num [exParticle, Particle.recalc, MeVtoeV]
  obtain ⟨x, hx⟩ := hph
  obtain ⟨M, hM⟩ := exWeak_matrix x
  have hZ : |exParticle.IonZ| * (mapOf exWeak.cavData).voltage 1 < exParticle.IonEk := by
    rw [exWeak_voltage]
    norm_num [exParticle]
  obtain ⟨ref, l, mis, h, -⟩ := forward_reaches (env := env) (files := files) (d := exCavity env) (s := exState false)
    (scl := 1) (phi := x) (cav0 := exWeak) (cav := { exWeak with misalign := [(1, 1)] }) rfl rfl rfl
    (reload_same (show getStr (exCavity env).conf "cavtype" = .ok exWeak.cavType by
        simp [getStr, exCavity, exDat, exSet, exWeak, exGap])
      (fun _ => ⟨"gap.lat", by simp [getStr, exCavity, exDat, exSet], by simp [getStrD, exCavity, exDat, exSet, exWeak]⟩) _)
    (by simp [getNum, exCavity, exDat, exSet]) (by simp [exWeak, exGap, exTable]) ⟨hm, hZ⟩ hx (by
      intro p hp
      rw [List.mem_singleton.1 (show p ∈ [exParticle] from hp)]
      exact ⟨hm, by norm_num [exParticle], hZ, M, hM⟩)
  exact ⟨ref, x, l, h, by norm_num [exWeak, exGap], by norm_num [exParticle, Particle.recalc]⟩

end Flame.Cavity
