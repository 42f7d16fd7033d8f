import Verif.Level.SpecSym
import Verif.Level.Props
import Verif.Cavity.Off

/-! # Cavities tell up from down (C118) -/

namespace Flame.Level

open Flame.Moment Flame.Cavity
open Flame.Level.Spec

/-- A generic cavity that consists of a dipole field. -/
noncomputable def exDipole : Cav :=
  { exGap with lattice := [⟨"EDipole", 0, 1, [1], [0]⟩], mpoleLevel := 1 }

/-- Why C118 leaves out cavities: a cavity that is not misaligned, with an electric dipole field as in the multipole tables, lifts a beam
on the axis.  Such a dipole field acts in the vertical plane only, so there is no setting that reverses it. -/
theorem C118_cavity_false : ∃ M, getCavMatGeneric exDipole 1 1 1 0 1 = .ok M ∧
    Spec.Flat ![0, 0, 0, 0, 0, 0, 1] ∧ ¬ Spec.Flat (M.mulVec ![0, 0, 0, 0, 0, 0, 1]) ∧ imageM M ≠ M := by
  have hk : ∀ k : ℝ, calFitPow k [1] = 1 := by
    intro k
    simp [calFitPow, ipow, ipowLoop]
  have hk0 : ∀ k : ℝ, calFitPow k [0] = 0 := by
    intro k
    simp [calFitPow]
  have h4 : ¬ ((1 + 1 : ℝ) / 1 * ((1 + 1) / 1) ≤ 1) := by norm_num
  obtain ⟨f, hf, hM⟩ : ∃ f : ℝ, f ≠ 0 ∧ getCavMatGeneric exDipole 1 1 1 0 1 = .ok (combine (kickT f * 1) 1) := by
    unfold getCavMatGeneric kin
    simp only [h4, if_false]
    have hc : ¬ exDipole.cRm ≤ 0 := by norm_num [exDipole, exGap]
    rw [if_neg hc]
    refine ⟨_, ?_, rfl⟩
    simp only [hk, hk0, eKick]
    have : (0 : ℝ) < Real.sqrt (1 - 1 / ((1 + 1) / 1 * ((1 + 1) / 1))) := Real.sqrt_pos.2 (by norm_num)
    have ha : (0 : ℝ) < AU := by norm_num [AU, MeVtoeV]
    rw [Real.cos_zero, Real.sin_zero]
    positivity
  have h36 : combine (kickT f * 1) 1 3 6 = f := by
    rw [mul_one]
    simp [combine, kickT, setAt]
  refine ⟨_, hM, ⟨rfl, rfl⟩, ?_, ?_⟩
  · rintro ⟨-, h⟩
    apply hf
    rw [← h36, ← h]
    simp [Matrix.mulVec, dotProduct, Fin.sum_univ_seven]
  · intro h
    have h1 := congrFun (congrFun h 3) 6
    simp only [imageM, h36, s3, s6] at h1
    apply hf
    linarith

end Flame.Level
