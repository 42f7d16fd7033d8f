import Verif.Moment.Strength
import Verif.Moment.Misalign
import Verif.Moment.Undo

/-! # Straight elements cut in two -/

namespace Flame.Moment

open Flame.Mach (Err)
open Flame.Linear (LCfg LVal getNum getNumD cc ss cc_add ss_add)
open Spec (phaseSpace NoKick)

theorem eq_of_phase {A B : Mat} (hA : NoKick A) (hB : NoKick B) (h : phaseSpace A = phaseSpace B) : A = B := by
  ext i j
  induction i using Fin.lastCases with
  | last => exact (hA.1 j).trans (hB.1 j).symm
  | cast i =>
    induction j using Fin.lastCases with
    | last => exact (hA.2 _).trans (hB.2 _).symm
    | cast j => exact congrFun (congrFun h i) j

theorem slip_add (p : Particle) (a b : ℝ) : slip p (a + b) = slip p a + slip p b := by
  rw [slip_mul p (a + b), slip_mul p a, slip_mul p b]
  ring

theorem planesS_add (kx ky a b u v : ℝ) : planesS kx ky (a + b) (u + v) = planesS kx ky b v * planesS kx ky a u := by
  ext i j
  fin_cases i <;> fin_cases j <;> simp [planesS, Matrix.mul_apply, Fin.sum_univ_six, cc_add, ss_add] <;> ring

theorem quadM_add (p : Particle) (a b K : ℝ) : quadM p (a + b) K = quadM p b K * quadM p a K := by
  refine eq_of_phase (quadM_noKick ..) (noKick_mul (quadM_noKick ..) (quadM_noKick ..)) ?_
  rw [phaseSpace_mul (quadM_noKick ..).1, quadM_phase, quadM_phase, quadM_phase, slip_add, planesS_add]

theorem driftM_add (p : Particle) (a b : ℝ) : driftM p (a + b) = driftM p b * driftM p a := by
  refine eq_of_phase (driftM_noKick ..) (noKick_mul (driftM_noKick ..) (driftM_noKick ..)) ?_
  rw [phaseSpace_mul (driftM_noKick ..).1, driftM_phase, driftM_phase, driftM_phase, slip_add, planesS_add]

theorem solS_add (K a b u v : ℝ) : solS K (cc (K * K) (a + b)) (ss (K * K) (a + b)) (u + v) =
    solS K (cc (K * K) b) (ss (K * K) b) v * solS K (cc (K * K) a) (ss (K * K) a) u := by
  rw [cc_add, ss_add]
  generalize cc (K * K) a = ca
  generalize cc (K * K) b = cb
  generalize ss (K * K) a = sa
  generalize ss (K * K) b = sb
  ext i j
  fin_cases i <;> fin_cases j <;> simp [solS, Matrix.mul_apply, Fin.sum_univ_six] <;> ring

theorem solenoidM_add (p : Particle) (a b K : ℝ) : solenoidM p (a + b) K = solenoidM p b K * solenoidM p a K := by
  refine eq_of_phase (solenoidM_noKick ..) (noKick_mul (solenoidM_noKick ..) (solenoidM_noKick ..)) ?_
  rw [phaseSpace_mul (solenoidM_noKick ..).1, solenoidM_phase, solenoidM_phase, solenoidM_phase, slip_add, solS_add]

/-! ## misalignment without inclination does not depend on the length -/

theorem aligned_upright (d : MDat) (ref p : Particle) (T : Mat) (h1 : d.pitch = 0) (h2 : d.yaw = 0) :
    ((∃ A, aligned d ref p T = .ok A) ↔ unitZ p ≠ 0 ∧ unitP ref p ≠ 0) ∧
    ∀ A, aligned d ref p T = .ok A → A = (rotMat d.dx d.dy 0 0 d.roll)⁻¹ * (T * rotMat d.dx d.dy 0 0 d.roll) := by
  have key : ∀ A, aligned d ref p T = .ok A → unitZ p ≠ 0 ∧ unitP ref p ≠ 0 := by
    intro A hA
    unfold aligned at hA
    split at hA
    · cases hA
    · rename_i he
      exact getMisalign_ok he
  refine ⟨⟨fun ⟨A, hA⟩ => key A hA, fun ⟨hz, hp⟩ => ?_⟩, fun A hA => ?_⟩
  · unfold aligned
    rw [getMisalign_roll d ref p h1 h2 hz hp]
    exact ⟨_, rfl⟩
  · obtain ⟨hz, hp⟩ := key A hA
    unfold aligned at hA
    rw [getMisalign_roll d ref p h1 h2 hz hp] at hA
    cases hA
    rfl

/-- One list of matrices is what two other lists do one after the other, and it exists if they do. -/
def Chain (r r1 r2 : Except Err (List Mat)) : Prop :=
  (∀ T, r = .ok T → ∃ T1 T2, r1 = .ok T1 ∧ r2 = .ok T2 ∧ List.Forall₂ (fun B (q : Mat × Mat) => B = q.2 * q.1) T (T1.zip T2) ∧
    T1.length = T.length ∧ T2.length = T.length) ∧
  ∀ T1 T2, r1 = .ok T1 → r2 = .ok T2 → ∃ T, r = .ok T

theorem forEach_chain {f g1 g2 : Particle → Except Err Mat}
    (h : ∀ p, (∀ A, f p = .ok A → ∃ A1 A2, g1 p = .ok A1 ∧ g2 p = .ok A2 ∧ A = A2 * A1) ∧
      (∀ A1 A2, g1 p = .ok A1 → g2 p = .ok A2 → ∃ A, f p = .ok A)) (l : List Particle) :
    Chain (forEach f l) (forEach g1 l) (forEach g2 l) := by
  constructor
  · intro T hT
    have hF := forEach_ok.1 hT
    clear hT
    induction hF with
    | nil => exact ⟨[], [], rfl, rfl, .nil, rfl, rfl⟩
    | cons hd _ ih =>
      obtain ⟨T1, T2, h1, h2, h3, h4, h5⟩ := ih
      obtain ⟨A1, A2, k1, k2, k3⟩ := (h _).1 _ hd
      refine ⟨A1 :: T1, A2 :: T2, forEach_ok.2 (.cons k1 (forEach_ok.1 h1)), forEach_ok.2 (.cons k2 (forEach_ok.1 h2)),
        .cons k3 h3, by simp [h4], by simp [h5]⟩
  · intro T1 T2 h1 h2
    have hF := forEach_ok.1 h1
    have hG := forEach_ok.1 h2
    clear h1 h2
    induction hF generalizing T2 with
    | nil => exact ⟨[], rfl⟩
    | cons hd _ ih =>
      cases hG with
      | cons hd' hG =>
        obtain ⟨T, hT⟩ := ih _ hG
        obtain ⟨A, hA⟩ := (h _).2 _ _ hd hd'
        exact ⟨A :: T, forEach_ok.2 (.cons hA (forEach_ok.1 hT))⟩

/-- The same misalignment for the whole and its parts. -/
structure SamePlace (d a b : MDat) : Prop where
  dx : a.dx = d.dx ∧ b.dx = d.dx
  dy : a.dy = d.dy ∧ b.dy = d.dy
  roll : a.roll = d.roll ∧ b.roll = d.roll
  pitch : d.pitch = 0 ∧ a.pitch = 0 ∧ b.pitch = 0
  yaw : d.yaw = 0 ∧ a.yaw = 0 ∧ b.yaw = 0

theorem aligned_chain {d a b : MDat} (h : SamePlace d a b) (ref : Particle) {f g1 g2 : Particle → Mat}
    (hm : ∀ p, f p = g2 p * g1 p) (p : Particle) :
    (∀ A, aligned d ref p (f p) = .ok A → ∃ A1 A2, aligned a ref p (g1 p) = .ok A1 ∧ aligned b ref p (g2 p) = .ok A2 ∧
      A = A2 * A1) ∧
    (∀ A1 A2, aligned a ref p (g1 p) = .ok A1 → aligned b ref p (g2 p) = .ok A2 → ∃ A, aligned d ref p (f p) = .ok A) := by
  obtain ⟨u1, u2⟩ := aligned_upright d ref p (f p) h.pitch.1 h.yaw.1
  obtain ⟨v1, v2⟩ := aligned_upright a ref p (g1 p) h.pitch.2.1 h.yaw.2.1
  obtain ⟨w1, w2⟩ := aligned_upright b ref p (g2 p) h.pitch.2.2 h.yaw.2.2
  refine ⟨fun A hA => ?_, fun A1 A2 h1 _ => u1.2 (v1.1 ⟨_, h1⟩)⟩
  obtain ⟨A1, h1⟩ := v1.2 (u1.1 ⟨_, hA⟩)
  obtain ⟨A2, h2⟩ := w1.2 (u1.1 ⟨_, hA⟩)
  refine ⟨A1, A2, h1, h2, ?_⟩
  rw [u2 A hA, v2 A1 h1, w2 A2 h2, h.dx.1, h.dx.2, h.dy.1, h.dy.2, h.roll.1, h.roll.2, hm p]
  have := (rotMat_inv d.dx d.dy 0 0 d.roll).2
  generalize rotMat d.dx d.dy 0 0 d.roll = R at this ⊢
  rw [Matrix.mul_assoc R⁻¹, Matrix.mul_assoc (g2 p) R, ← Matrix.mul_assoc R, this, Matrix.one_mul, Matrix.mul_assoc]

theorem Chain.error {e e1 e2 : Err} : Chain (.error e) (.error e1) (.error e2) :=
  ⟨(fun _ h => nomatch h), (fun _ _ h => nomatch h)⟩

/-- The matrices of an element that is cut in two. -/
theorem recompute_chain {env : Env} {t : MType} {d a b : MDat} {x y : ℝ} (ref : Particle) (real : List Particle)
    (ht : t = .drift ∨ ((t = .quadrupole ∨ t = .solenoid ∨ t = .equad) ∧ SamePlace d a b ∧
      getFlag env d.conf "ncurve" 0 = .ok 0))
    (hs : ∀ k, k ≠ "L" → k ≠ "name" → a.conf k = d.conf k ∧ b.conf k = d.conf k)
    (hL : a.conf "L" = some (.num x) ∧ b.conf "L" = some (.num y) ∧ d.conf "L" = some (.num (x + y)))
    (hlen : a.length = x ∧ b.length = y ∧ d.length = x + y) :
    Chain (recompute env t d ref real) (recompute env t a ref real) (recompute env t b ref real) := by
  have hg : ∀ k, k ≠ "L" → k ≠ "name" → getNum a.conf k = getNum d.conf k ∧ getNum b.conf k = getNum d.conf k := by
    intro k h1 h2
    unfold getNum
    rw [(hs k h1 h2).1, (hs k h1 h2).2]
    exact ⟨rfl, rfl⟩
  have hLa : getNum a.conf "L" = .ok x := by unfold getNum; rw [hL.1]
  have hLb : getNum b.conf "L" = .ok y := by unfold getNum; rw [hL.2.1]
  have hLd : getNum d.conf "L" = .ok (x + y) := by unfold getNum; rw [hL.2.2]
  rcases ht with rfl | ⟨ht, hp, hn⟩
  · simp only [recompute]
    rw [hlen.1, hlen.2.1, hlen.2.2]
    refine ⟨fun T h => ?_, fun _ _ _ _ => ⟨_, rfl⟩⟩
    cases h
    refine ⟨_, _, rfl, rfl, ?_, by simp, by simp⟩
    induction real with
    | nil => exact .nil
    | cons p l ih => exact .cons (by rw [add_mul]; exact driftM_add ..) ih
  · have hflag : getFlag env a.conf "ncurve" 0 = .ok 0 ∧ getFlag env b.conf "ncurve" 0 = .ok 0 := by
      rw [← hn]
      unfold getFlag getStr getNum
      rw [(hs "ncurve" (by decide) (by decide)).1, (hs "ncurve" (by decide) (by decide)).2]
      exact ⟨rfl, rfl⟩
    rcases ht with rfl | rfl | rfl
    · simp only [recompute, quadRec, hLa, hLb, hLd, hn, hflag.1, hflag.2, if_true]
      rw [(hg "B2" (by decide) (by decide)).1, (hg "B2" (by decide) (by decide)).2]
      cases getNum d.conf "B2" with
      | error e => exact Chain.error
      | ok B2 => exact forEach_chain (aligned_chain hp ref (fun p => by rw [add_mul]; exact quadM_add ..)) real
    · simp only [recompute, solenoidRec, hLa, hLb, hLd, hn, hflag.1, hflag.2, if_true]
      rw [(hg "B" (by decide) (by decide)).1, (hg "B" (by decide) (by decide)).2]
      cases getNum d.conf "B" with
      | error e => exact Chain.error
      | ok B => exact forEach_chain (aligned_chain hp ref (fun p => by rw [add_mul]; exact solenoidM_add ..)) real
    · simp only [recompute, equadRec, hLa, hLb, hLd, hn, hflag.1, hflag.2, if_true]
      rw [(hg "V" (by decide) (by decide)).1, (hg "V" (by decide) (by decide)).2, (hg "radius" (by decide) (by decide)).1,
        (hg "radius" (by decide) (by decide)).2]
      cases getNum d.conf "V" with
      | error e => exact Chain.error
      | ok V =>
        cases getNum d.conf "radius" with
        | error e => exact Chain.error
        | ok R => exact forEach_chain (aligned_chain hp ref (fun p => by rw [add_mul]; exact quadM_add ..)) real

end Flame.Moment
