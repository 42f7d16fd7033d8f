import Verif.Mirror.Spec
import Verif.Agree.Props
import Verif.Moment.Electro
import Verif.Moment.Undo

/-! # C95: a beam that is turned round and sent through the mirrored lattice comes back -/

namespace Flame.Mirror

open Flame.Mach (Cls St Err CView Machine propagate sizeMod Elem Run Event run visits stepNext viewEvents run_succ_none run_succ_err run_succ_ok propagate_eq)
open Flame.Linear (LVal LCfg getNum getNumD getVec cc ss)
open Flame.Moment (MSt MDat Particle Env MType MCls Later Keeps recompute getNum_ok recalc_moving forEach aligned Moving Mat Vec setAt)
open Flame.Agree (Passed moment_pass forEach_map flag_none)
open Flame.Mirror.Spec

/-! ## the matrices -/

/-- Turning round. -/
def R : Mat := Matrix.diagonal sign

theorem R_R : R * R = 1 := by
  unfold R
  rw [Matrix.diagonal_mul_diagonal, ← Matrix.diagonal_one]
  congr 1
  funext i
  fin_cases i <;> simp [sign]

theorem R_mulVec (v : Vec) : R.mulVec v = turn v := by
  funext i
  rw [R, Matrix.mulVec_diagonal]
  rfl

theorem R_congr (M : Mat) : R * M * R = turnAll M := by
  ext i j
  rw [R, Matrix.mul_diagonal, Matrix.diagonal_mul]
  rfl

theorem R_transpose : R.transpose = R := Matrix.diagonal_transpose _

/-- `B` is `A` seen from the other end. -/
def Mir (A B : Mat) : Prop := B * (R * A) = R

theorem mir_vec {A B : Mat} : Mir A B ↔ ∀ v, B.mulVec (turn (A.mulVec v)) = turn v := by
  have e : ∀ v, B.mulVec (turn (A.mulVec v)) = (B * (R * A)).mulVec v := fun v => by
    rw [← R_mulVec, Matrix.mulVec_mulVec, Matrix.mulVec_mulVec, Matrix.mul_assoc]
  constructor
  · intro h v
    rw [e, h, R_mulVec]
  · intro h
    refine Matrix.ext_of_mulVec_single fun j => ?_
    rw [← e, h, R_mulVec]

theorem mir_one : Mir 1 1 := by unfold Mir; simp

theorem mir_mul {A B C D : Mat} (h : Mir A B) (h' : Mir C D) : Mir (C * A) (B * D) := by
  unfold Mir at *
  calc B * D * (R * (C * A)) = B * (D * (R * C) * A) := by simp only [Matrix.mul_assoc]
    _ = R := by rw [h', h]

/-- Moving forth, turning round and moving back. -/
theorem mir_back {A B : Mat} (h : Mir A B) (v : Vec) (M : Mat) :
    B.mulVec (turn (A.mulVec v)) = turn v ∧ Moment.congr B (turnAll (Moment.congr A M)) = turnAll M := by
  refine ⟨mir_vec.1 h v, ?_⟩
  unfold Moment.congr
  rw [← R_congr, ← R_congr]
  have h2 : A.transpose * (R * B.transpose) = R := by
    have := congrArg Matrix.transpose h
    rwa [Matrix.transpose_mul, Matrix.transpose_mul, R_transpose, Matrix.mul_assoc] at this
  calc B * (R * (A * M * A.transpose) * R) * B.transpose
      = B * (R * A) * M * (A.transpose * (R * B.transpose)) := by simp only [Matrix.mul_assoc]
    _ = _ := by rw [h, h2]

/-- Frames are the same from both ends. -/
theorem frame_turn (dx dy a : ℝ) (v : Vec) : Moment.Spec.inFrame dx dy a (turn v) = turn (Moment.Spec.inFrame dx dy a v) := by
  funext i
  fin_cases i <;> simp [Moment.Spec.inFrame, turn, sign] <;> ring

theorem mir_frame {d d' : MDat} {ref p : Particle} {A B A' B' : Mat} (h1 : d.pitch = 0) (h2 : d.yaw = 0) (h1' : d'.pitch = 0)
    (h2' : d'.yaw = 0) (hx : d'.dx = d.dx) (hy : d'.dy = d.dy) (hr : d'.roll = d.roll) (hE : ref.IonEs ≠ 0) (hp : Moving p)
    (hf : p.SampleFreq ≠ 0) (h : Mir A B) (hA : aligned d ref p A = .ok A') (hB : aligned d' ref p B = .ok B') : Mir A' B' := by
  obtain ⟨M, IM, -, i1, i2, hM, hF⟩ := Moment.C36_frame d ref p h1 h2 (hp.wave_ne hf) hp.beta_pos.ne' (by linarith [hp.one_lt]) hE
  obtain ⟨-, -, -, -, -, -, hF'⟩ := Moment.C36_frame d' ref p h1' h2' (hp.wave_ne hf) hp.beta_pos.ne' (by linarith [hp.one_lt]) hE
  rw [mir_vec] at h ⊢
  intro v
  have g1 := hF' B B' hB (turn (A'.mulVec v))
  rw [hx, hy, hr, frame_turn, hF A A' hA v, h, ← frame_turn, ← hM, ← hM] at g1
  have := congrArg IM.mulVec g1
  rwa [Matrix.mulVec_mulVec, Matrix.mulVec_mulVec (turn v), i1, Matrix.one_mulVec, Matrix.one_mulVec] at this

theorem mir_drift (p : Particle) (L : ℝ) : Mir (Moment.driftM p L) (Moment.driftM p L) := by
  rw [mir_vec]
  intro v
  funext i
  fin_cases i <;>
    simp [Moment.driftM, setAt, Matrix.mulVec, dotProduct, Fin.sum_univ_seven, Matrix.one_apply, turn, sign]

theorem mir_quad (p : Particle) (L K : ℝ) : Mir (Moment.quadM p L K) (Moment.quadM p L K) := by
  rw [mir_vec]
  intro v
  unfold Moment.quadM
  rw [Moment.quadPlane_eq, Moment.quadPlane_eq]
  have a := Flame.Linear.cc_ss K L
  have b := Flame.Linear.cc_ss (-K) L
  generalize cc K L = c at *
  generalize ss K L = s at *
  generalize cc (-K) L = c' at *
  generalize ss (-K) L = s' at *
  funext i
  fin_cases i <;>
    simp [setAt, Matrix.mulVec, dotProduct, Fin.sum_univ_seven, Matrix.one_apply, turn, sign]
  · linear_combination v 0 * a
  · linear_combination -v 1 * a
  · linear_combination v 2 * b
  · linear_combination -v 3 * b

theorem mir_solenoid (p : Particle) (L K : ℝ) : Mir (Moment.solenoidM p L K) (Moment.solenoidM p L (-K)) := by
  rw [mir_vec]
  intro v
  unfold Moment.solenoidM Moment.solM
  have a := Real.sin_sq_add_cos_sq (K * L)
  have e1 : Real.cos (-K * L) = Real.cos (K * L) := by rw [neg_mul, Real.cos_neg]
  have e2 : Real.sin (-K * L) = -Real.sin (K * L) := by rw [neg_mul, Real.sin_neg]
  simp only [e1, e2]
  by_cases hK : K = 0
  · subst hK
    simp at *
    funext i
    fin_cases i <;>
      simp [setAt, Matrix.mulVec, dotProduct, Fin.sum_univ_seven, Matrix.one_apply, turn, sign]
  · have hK' : -K ≠ 0 := neg_ne_zero.2 hK
    simp only [if_pos hK, if_pos hK']
    generalize Real.cos (K * L) = c at *
    generalize Real.sin (K * L) = s at *
    have a2 : (s ^ 2 + c ^ 2) ^ 2 = 1 := by rw [a]; norm_num
    funext i
    fin_cases i <;>
      simp [setAt, Matrix.mulVec, dotProduct, Fin.sum_univ_seven, Matrix.one_apply, turn, sign] <;> field_simp
    · linear_combination K * v 0 * a2
    · linear_combination -v 1 * a2
    · linear_combination K * v 2 * a2
    · linear_combination -v 3 * a2

theorem mir_kick (x y : ℝ) : Mir (setAt (setAt 1 1 6 x) 3 6 y) (setAt (setAt 1 1 6 x) 3 6 y) := by
  rw [mir_vec]
  intro v
  funext i
  fin_cases i <;>
    simp [setAt, Matrix.mulVec, dotProduct, Fin.sum_univ_seven, Matrix.one_apply, turn, sign]

theorem mir_edge (rho e : ℝ) : Mir (Moment.edgeM rho e) (Moment.edgeM rho e) := by
  rw [mir_vec]
  intro v
  funext i
  fin_cases i <;>
    simp [Moment.edgeM, setAt, Matrix.mulVec, dotProduct, Fin.sum_univ_seven, Matrix.one_apply, turn, sign]

theorem mir_eedge (fx fy : ℝ) : Mir (Moment.eedgeM fx fy 0) (Moment.eedgeM fx fy 0) := by
  rw [mir_vec]
  intro v
  funext i
  fin_cases i <;>
    simp [Moment.eedgeM, setAt, Matrix.mulVec, dotProduct, Fin.sum_univ_seven, Matrix.one_apply, turn, sign]

theorem mir_bendCore {L phi K Es g q b gd dd k : ℝ} (hK : 0 < K + 1 / (L / phi * (L / phi))) :
    Mir (Moment.sbendCore L phi K Es g q b gd dd k) (Moment.sbendCore L phi K Es g q b gd dd k) := by
  rw [mir_vec]
  intro v
  unfold Moment.sbendCore Moment.sbendM
  simp only [Moment.edgeM_zero, one_mul, mul_one]
  rw [Moment.quadPlane_eq, Moment.quadPlane_eq]
  generalize K + 1 / (L / phi * (L / phi)) = Kx at *
  generalize L / phi = rho
  generalize b * b * gd * Es / Moment.MeVtoeV = pz at *
  simp only [if_neg hK.ne', if_pos hK]
  have ec : Real.cos (Real.sqrt Kx * L) = cc Kx L := by unfold cc; rw [if_pos hK]
  have es : Real.sin (Real.sqrt Kx * L) / (rho * Real.sqrt Kx) = ss Kx L / rho := by
    unfold ss; rw [if_pos hK, div_div, mul_comm (Real.sqrt Kx) rho]
  rw [ec, es]
  have a := Flame.Linear.cc_ss Kx L
  have b := Flame.Linear.cc_ss (-K) L
  generalize cc Kx L = c at *
  generalize ss Kx L = s at *
  generalize cc (-K) L = c' at *
  generalize ss (-K) L = s' at *
  generalize hdx : (1 - c) / (rho * Kx) = dx
  generalize hsx : s / rho = sx
  have hK0 := hK.ne'
  have f1 : dx * (1 + c) = s * sx := by
    rw [← hdx, ← hsx, mul_comm rho, ← div_div]
    have : (1 - c) / Kx * (1 + c) = s ^ 2 := by field_simp; linear_combination -a
    calc (1 - c) / Kx / rho * (1 + c) = (1 - c) / Kx * (1 + c) / rho := by ring
      _ = _ := by rw [this]; ring
  have f2 : dx * Kx * s = sx * (1 - c) := by
    rw [← hdx, ← hsx, mul_comm rho, ← div_div]
    field_simp
  generalize (L / rho - sx) / (Kx * rho) = X
  funext i
  fin_cases i <;>
    simp [setAt, Matrix.mulVec, dotProduct, Fin.sum_univ_seven, Matrix.one_apply, turn, sign]
  · linear_combination v 0 * a + (v 5 / pz + dd * v 6) * f1
  · linear_combination -v 1 * a - (v 5 / pz + dd * v 6) * f2
  · linear_combination v 2 * b
  · linear_combination -v 3 * b
  · linear_combination k * v 0 * f2 - k * v 1 * f1

theorem mir_ebendCore {L phi Kx Ky Es g eta h dK dKZ k : ℝ} (hK : 0 < Kx) :
    Mir (Moment.ebendCore L phi Kx Ky Es g eta h dK dKZ k) (Moment.ebendCore L phi Kx Ky Es g eta h dK dKZ k) := by
  rw [mir_vec]
  intro v
  unfold Moment.ebendCore Moment.ebendM
  simp only [Moment.eedgeM_zero, one_mul, mul_one]
  rw [Moment.quadPlane_eq, Moment.quadPlane_eq]
  simp only [if_neg hK.ne', if_pos hK]
  generalize L / phi = rho
  have ec : Real.cos (Real.sqrt Kx * L) = cc Kx L := by unfold cc; rw [if_pos hK]
  have es : Real.sin (Real.sqrt Kx * L) / Real.sqrt Kx = ss Kx L := by unfold ss; rw [if_pos hK]
  rw [ec, es]
  have a := Flame.Linear.cc_ss Kx L
  have b := Flame.Linear.cc_ss Ky L
  generalize cc Kx L = c at *
  generalize ss Kx L = s at *
  generalize cc Ky L = c' at *
  generalize ss Ky L = s' at *
  generalize ((1 + 2 * eta) * (1 + 2 * eta) + h) / (2 * (1 + eta) * (1 + 2 * eta)) = Nk
  generalize 1 + h / ((1 + 2 * eta) * (1 + 2 * eta)) = Nt
  generalize -g / (1 + g) = CorT
  generalize (1 + 2 * eta - h) / (2 * (1 + eta) * (1 + 2 * eta)) = Nkz
  generalize (g - 1) * Es / Moment.MeVtoeV = scl
  generalize (-L / (2 * (1 + eta) * (1 + 2 * eta)) + ((L - s) / Kx / (rho * rho)) * Nk * Nt) * CorT = tzp
  generalize hdx : (1 - c) / (rho * Kx) = dx
  generalize hsx : s / rho = sx
  have hK0 := hK.ne'
  have f1 : dx * (1 + c) = s * sx := by
    rw [← hdx, ← hsx, mul_comm rho, ← div_div]
    have : (1 - c) / Kx * (1 + c) = s ^ 2 := by field_simp; linear_combination -a
    calc (1 - c) / Kx / rho * (1 + c) = (1 - c) / Kx * (1 + c) / rho := by ring
      _ = _ := by rw [this]; ring
  have f2 : dx * Kx * s = sx * (1 - c) := by
    rw [← hdx, ← hsx, mul_comm rho, ← div_div]
    field_simp
  funext i
  fin_cases i <;>
    simp [setAt, Matrix.mulVec, dotProduct, Fin.sum_univ_seven, Matrix.one_apply, turn, sign]
  · linear_combination v 0 * a + (Nk * v 5 / scl + (Nk * dK + Nkz * dKZ) * v 6) * f1
  · linear_combination -v 1 * a - (Nk * v 5 / scl + (Nk * dK + Nkz * dKZ) * v 6) * f2
  · linear_combination v 2 * b
  · linear_combination -v 3 * b
  · linear_combination -Nt * CorT * k * v 0 * f2 + Nt * CorT * k * v 1 * f1

theorem mir_rot90 {A B : Mat} (h : Mir A B) : Mir (Moment.rot90 * A * Moment.rot90.transpose) (Moment.rot90 * B * Moment.rot90.transpose) := by
  have c1 : Moment.rot90.transpose * R = R * Moment.rot90.transpose := by
    ext i j
    rw [R, Matrix.mul_diagonal, Matrix.diagonal_mul]
    fin_cases i <;> fin_cases j <;> simp [Moment.rot90, setAt, sign]
  have c2 : Moment.rot90.transpose * Moment.rot90 = 1 := by
    ext i j
    rw [Matrix.mul_apply, Fin.sum_univ_seven]
    fin_cases i <;> fin_cases j <;> simp [Moment.rot90, setAt]
  have c3 : Moment.rot90 * Moment.rot90.transpose = 1 := mul_eq_one_comm.1 c2
  unfold Mir at *
  calc Moment.rot90 * B * Moment.rot90.transpose * (R * (Moment.rot90 * A * Moment.rot90.transpose))
      = Moment.rot90 * B * (Moment.rot90.transpose * R) * Moment.rot90 * A * Moment.rot90.transpose := by simp only [Matrix.mul_assoc]
    _ = Moment.rot90 * (B * (R * ((Moment.rot90.transpose * Moment.rot90) * A))) * Moment.rot90.transpose := by
        rw [c1]; simp only [Matrix.mul_assoc]
    _ = Moment.rot90 * (Moment.rot90.transpose * R) := by rw [c2, Matrix.one_mul, h, c1, Matrix.mul_assoc]
    _ = R := by rw [← Matrix.mul_assoc, c3, Matrix.one_mul]

/-! ## one element and its image -/

theorem forEach_pair {α β : Type} {P : β → β → Prop} {f g : α → Except Err β} : ∀ {l : List α},
    (∀ a ∈ l, ∃ x y, f a = .ok x ∧ g a = .ok y ∧ P x y) → ∃ T T', forEach f l = .ok T ∧ forEach g l = .ok T' ∧ List.Forall₂ P T T'
  | [], _ => ⟨[], [], rfl, rfl, .nil⟩
  | a :: l, h => by
    obtain ⟨x, y, h1, h2, h3⟩ := h a (by simp)
    obtain ⟨T, T', g1, g2, g3⟩ := forEach_pair (l := l) (fun b hb => h b (by simp [hb]))
    refine ⟨x :: T, y :: T', ?_, ?_, .cons h3 g3⟩
    · rw [forEach, h1, g1]
    · rw [forEach, h2, g2]

theorem map_pair {α : Type} {f g : α → Mat} {l : List α} (h : ∀ a ∈ l, Mir (f a) (g a)) : List.Forall₂ Mir (l.map f) (l.map g) := by
  induction l with
  | nil => exact .nil
  | cons a l ih => exact .cons (h a (by simp)) (ih fun b hb => h b (by simp [hb]))

theorem alike_num {ks : List String} {c c' : LCfg} (h : AlikeBut ks c c') (k : String) (hn : k ≠ "name") (hk : k ∉ ks) (x : ℝ) :
    getNumD c' k x = getNumD c k x := by
  unfold getNumD
  rw [h k hn hk]

theorem level_num {c : LCfg} (h : Level c) (k : String) (hk : k ∈ ["pitch", "yaw"]) : getNumD c k 0 = 0 := by
  unfold getNumD
  rcases h k hk with h | h <;> rw [h]

theorem zero_num {c : LCfg} {k : String} (h : c k = none ∨ c k = some (.num 0)) : getNumD c k 0 = 0 := by
  unfold getNumD
  rcases h with h | h <;> rw [h]

theorem flag_alike (env : Env) {ks : List String} {c c' : LCfg} (h : AlikeBut ks c c') (k : String) (hn : k ≠ "name") (hk : k ∉ ks)
    (n : Nat) : Moment.getFlag env c' k n = Moment.getFlag env c k n := by
  unfold Moment.getFlag Moment.getStr getNum
  rw [h k hn hk]

theorem going_recalc {S : MSt} (h : Going S) : ∀ q ∈ S.recalc.real, Moving q ∧ q.SampleFreq ≠ 0 ∧ q.IonZ ≠ 0 := by
  intro q hq
  obtain ⟨p, hp, rfl⟩ := List.mem_map.1 (show q ∈ S.real.map (fun p => p.recalc) from hq)
  obtain ⟨h1, h2, h3, h4⟩ := h.real p hp
  exact ⟨recalc_moving h1 h2, h3, h4⟩

theorem build_place {env : Env} {junk : Mat} {t : MType} {c : LCfg} {d : MDat} (h : Moment.build env junk t c = .ok d) :
    d.conf = c ∧ d.dx = getNumD c "dx" 0 * Moment.MtoMM ∧ d.dy = getNumD c "dy" 0 * Moment.MtoMM ∧ d.pitch = getNumD c "pitch" 0 ∧
      d.yaw = getNumD c "yaw" 0 ∧ d.roll = getNumD c "roll" 0 := by
  unfold Moment.build at h
  cases t <;> simp only at h
  case source =>
    split at h <;> cases h
    exact ⟨rfl, rfl, rfl, rfl, rfl, rfl⟩
  case sbend =>
    split at h
    · cases h
    · split at h <;> cases h
      exact ⟨rfl, rfl, rfl, rfl, rfl, rfl⟩
  all_goals cases h; exact ⟨rfl, rfl, rfl, rfl, rfl, rfl⟩

/-- The matrices of an element and of its image for the same beam. -/
theorem reflect_pass {env : Env} {junk : Mat} {c c' : LCfg} {t : MType} {d d' : MDat} {S : MSt} (h : Reflected c c' t.name)
    (hd : Moment.build env junk t c = .ok d) (hd' : Moment.build env junk t c' = .ok d') (hS : Going S) :
    t ≠ .source ∧ t ≠ .sextupole ∧ d'.length = d.length ∧ ∃ T T', recompute env t d S.recalc.ref S.recalc.real = .ok T ∧
      recompute env t d' S.recalc.ref S.recalc.real = .ok T' ∧ List.Forall₂ Mir T T' := by
  have hmov := going_recalc hS
  have hE : S.recalc.ref.IonEs ≠ 0 := hS.ref.1.ne'
  obtain ⟨c1, c2, c3, c4, c5, c6⟩ := build_place hd
  obtain ⟨c1', c2', c3', c4', c5', c6'⟩ := build_place hd'
  have hframe : ∀ ks, AlikeBut ks c c' → Level c → (∀ k ∈ ["dx", "dy", "pitch", "yaw", "roll"], k ∉ ks) →
      ∀ q ∈ S.recalc.real, ∀ A B, Mir A B → ∃ x y, aligned d S.recalc.ref q A = .ok x ∧ aligned d' S.recalc.ref q B = .ok y ∧ Mir x y := by
    intro ks ha hl hk q hq A B hAB
    obtain ⟨m1, m2, -⟩ := hmov q hq
    have n := fun k hn hk => alike_num ha k hn hk 0
    have h1 : d.pitch = 0 := by rw [c4, level_num hl _ (by simp)]
    have h2 : d.yaw = 0 := by rw [c5, level_num hl _ (by simp)]
    have h1' : d'.pitch = 0 := by rw [c4', n _ (by simp) (hk _ (by simp)), level_num hl _ (by simp)]
    have h2' : d'.yaw = 0 := by rw [c5', n _ (by simp) (hk _ (by simp)), level_num hl _ (by simp)]
    obtain ⟨x, hx'⟩ := Moment.aligned_some d h1 h2 hE m1 m2 A
    obtain ⟨y, hy'⟩ := Moment.aligned_some d' h1' h2' hE m1 m2 B
    exact ⟨x, y, hx', hy', mir_frame h1 h2 h1' h2' (by rw [c2, c2', n _ (by simp) (hk _ (by simp))])
      (by rw [c3, c3', n _ (by simp) (hk _ (by simp))]) (by rw [c6, c6', n _ (by simp) (hk _ (by simp))]) hE m1 m2 hAB hx' hy'⟩
  have hlen : ∀ ks, AlikeBut ks c c' → "L" ∉ ks → getNumD c' "L" 0 = getNumD c "L" 0 := fun ks ha hk => alike_num ha "L" (by simp) hk 0
  generalize hty : t.name = ty at h
  cases h with
  | drift h1 =>
    cases t <;> simp only [MType.name, String.reduceEq] at hty
    have e := hlen _ h1 (by simp)
    cases hd; cases hd'
    refine ⟨by simp, by simp, e, _, _, rfl, rfl, map_pair fun p _ => ?_⟩
    dsimp only
    rw [e]
    exact mir_drift _ _
  | marker h1 =>
    cases t <;> simp only [MType.name, String.reduceEq] at hty
    cases hd; cases hd'
    exact ⟨by simp, by simp, rfl, _, _, rfl, rfl, map_pair fun p _ => mir_one⟩
  | bpm h1 =>
    cases t <;> simp only [MType.name, String.reduceEq] at hty
    cases hd; cases hd'
    exact ⟨by simp, by simp, rfl, _, _, rfl, rfl, map_pair fun p _ => mir_one⟩
  | orbtrim h1 h2 h3 =>
    cases t <;> simp only [MType.name, String.reduceEq] at hty
    have n := fun k hn => alike_num h1 k hn (by simp) 0
    refine ⟨by simp, by simp, by cases hd; cases hd'; rfl, ?_⟩
    show ∃ T T', Moment.orbtrimRec _ _ _ = _ ∧ Moment.orbtrimRec _ _ _ = _ ∧ _
    unfold Moment.orbtrimRec
    rw [c1, c1']
    simp only [n "xyrotate" (by simp), n "realpara" (by simp), n "tm_xkick" (by simp), n "tm_ykick" (by simp), n "theta_x" (by simp),
        n "theta_y" (by simp), zero_num h3, zero_mul, zero_div, ne_eq, not_true_eq_false, if_false]
    refine forEach_pair fun q hq => ?_
    obtain ⟨x, y, g1, g2, g3⟩ := hframe _ h1 h2 (by simp) q hq _ _ (mir_kick _ _)
    refine ⟨x, y, ?_, ?_, g3⟩
    · rw [g1]
    · rw [g2]
  | quadrupole L B h1 h2 h3 h4 h5 =>
    cases t <;> simp only [MType.name, String.reduceEq] at hty
    refine ⟨by simp, by simp, by have := hlen _ h1 (by simp); cases hd; cases hd'; exact this, ?_⟩
    show ∃ T T', Moment.quadRec _ _ _ _ = _ ∧ Moment.quadRec _ _ _ _ = _ ∧ _
    unfold Moment.quadRec
    have a1 := getNum_ok.2 h3
    have a2 := getNum_ok.2 h4
    have a3 := getNum_ok.2 ((h1 "L" (by simp) (by simp)).trans h3)
    have a4 := getNum_ok.2 ((h1 "B2" (by simp) (by simp)).trans h4)
    have a5 := flag_none env h5 0 (by norm_num)
    have a6 := flag_none env ((h1 "ncurve" (by simp) (by simp)).trans h5) 0 (by norm_num)
    simp only [c1, c1', a1, a2, a3, a4, a5, a6, if_true]
    exact forEach_pair fun q hq => hframe _ h1 h2 (by simp) q hq _ _ (mir_quad _ _ _)
  | equad L V r h1 h2 h3 h4 h5 h6 =>
    cases t <;> simp only [MType.name, String.reduceEq] at hty
    refine ⟨by simp, by simp, by have := hlen _ h1 (by simp); cases hd; cases hd'; exact this, ?_⟩
    show ∃ T T', Moment.equadRec _ _ _ _ = _ ∧ Moment.equadRec _ _ _ _ = _ ∧ _
    unfold Moment.equadRec
    have a1 := getNum_ok.2 h3
    have a2 := getNum_ok.2 h4
    have a3 := getNum_ok.2 ((h1 "L" (by simp) (by simp)).trans h3)
    have a4 := getNum_ok.2 ((h1 "V" (by simp) (by simp)).trans h4)
    have a5 := flag_none env h6 0 (by norm_num)
    have a6 := flag_none env ((h1 "ncurve" (by simp) (by simp)).trans h6) 0 (by norm_num)
    have a7 := getNum_ok.2 h5
    have a8 := getNum_ok.2 ((h1 "radius" (by simp) (by simp)).trans h5)
    simp only [c1, c1', a1, a2, a3, a4, a5, a6, a7, a8, if_true]
    exact forEach_pair fun q hq => hframe _ h1 h2 (by simp) q hq _ _ (mir_quad _ _ _)
  | solenoid L B h1 h2 h3 h4 h4' h5 =>
    cases t <;> simp only [MType.name, String.reduceEq] at hty
    refine ⟨by simp, by simp, by have := hlen _ h1 (by simp); cases hd; cases hd'; exact this, ?_⟩
    show ∃ T T', Moment.solenoidRec _ _ _ _ = _ ∧ Moment.solenoidRec _ _ _ _ = _ ∧ _
    unfold Moment.solenoidRec
    have a1 := getNum_ok.2 h3
    have a2 := getNum_ok.2 h4
    have a3 := getNum_ok.2 ((h1 "L" (by simp) (by simp)).trans h3)
    have a4 := getNum_ok.2 h4'
    have a5 := flag_none env h5 0 (by norm_num)
    have a6 := flag_none env ((h1 "ncurve" (by simp) (by simp)).trans h5) 0 (by norm_num)
    simp only [c1, c1', a1, a2, a3, a4, a5, a6, if_true]
    refine forEach_pair fun q hq => hframe _ h1 h2 (by simp) q hq _ _ ?_
    rw [neg_div, neg_div]
    exact mir_solenoid _ _ _
  | sbend L phi a b h1 h2 h3 h4 h5 h6 h5' h6' hL hK hm =>
    cases t <;> simp only [MType.name, String.reduceEq] at hty
    have n := fun k hn hk => alike_num h1 k hn hk 0
    have fl := flag_alike env h1 "HdipoleFitMode" (by simp) (by simp) 1
    obtain ⟨m, f1, f2, f3, f4⟩ : ∃ m, Moment.getFlag env c "HdipoleFitMode" 1 = .ok m ∧ d.fitMode = m ∧ d'.fitMode = m ∧
        d'.length = d.length := by
      have := hlen _ h1 (by simp)
      simp only [Moment.build, fl] at hd hd'
      cases hg : Moment.getFlag env c "HdipoleFitMode" 1 with
      | error e => rw [hg] at hd; cases hd
      | ok m =>
        simp only [hg] at hd hd'
        by_cases h01 : m = 0 ∨ m = 1
        · rw [if_pos h01] at hd hd'
          cases hd; cases hd'
          exact ⟨m, rfl, rfl, rfl, this⟩
        · rw [if_neg h01] at hd; cases hd
    refine ⟨by simp, by simp, f4, ?_⟩
    show ∃ T T', Moment.sbendRec _ _ _ = _ ∧ Moment.sbendRec _ _ _ = _ ∧ _
    unfold Moment.sbendRec
    have a1 := getNum_ok.2 h3
    have a2 := getNum_ok.2 h4
    have a3 := getNum_ok.2 ((h1 "L" (by simp) (by simp)).trans h3)
    have a4 := getNum_ok.2 ((h1 "phi" (by simp) (by simp)).trans h4)
    have hL' : L * Moment.MtoMM ≠ 0 := by simpa [Moment.MtoMM] using hL
    simp only [c1, c1', a1, a2, a3, a4, getNum_ok.2 h5, getNum_ok.2 h6, getNum_ok.2 h5', getNum_ok.2 h6', n "K" (by simp) (by simp), if_pos hL']
    have hKx : 0 < getNumD c "K" 0 / (Moment.MtoMM * Moment.MtoMM) +
        1 / (L * Moment.MtoMM / (phi * Real.pi / 180) * (L * Moment.MtoMM / (phi * Real.pi / 180))) := by
      have e : getNumD c "K" 0 = Moment.Spec.numOr c "K" 0 := rfl
      rw [e]
      generalize Moment.Spec.numOr c "K" 0 = K at *
      have : K / (Moment.MtoMM * Moment.MtoMM) + 1 / (L * Moment.MtoMM / (phi * Real.pi / 180) * (L * Moment.MtoMM / (phi * Real.pi / 180)))
          = (K + (phi * Real.pi / 180 / L) ^ 2) / 1000000 := by
        generalize phi * Real.pi / 180 = f
        by_cases hf : f = 0
        · subst hf
          simp [Moment.MtoMM]
          norm_num
        · unfold Moment.MtoMM
          field_simp
          ring
      rw [this]
      positivity
    have mb : ∀ Es g q b' gd dd k, Mir (Moment.sbendM (L * Moment.MtoMM) (phi * Real.pi / 180) (a * Real.pi / 180) (b * Real.pi / 180)
          (getNumD c "K" 0 / (Moment.MtoMM * Moment.MtoMM)) Es g q b' gd dd k 1)
        (Moment.sbendM (L * Moment.MtoMM) (phi * Real.pi / 180) (b * Real.pi / 180) (a * Real.pi / 180)
          (getNumD c "K" 0 / (Moment.MtoMM * Moment.MtoMM)) Es g q b' gd dd k 1) := by
      intro Es g q b' gd dd k
      rw [Moment.sbendM_split, Moment.sbendM_split, ← Matrix.mul_assoc (Moment.edgeM _ (a * Real.pi / 180)),
        ← Matrix.mul_assoc (Moment.edgeM _ (b * Real.pi / 180)), Matrix.mul_assoc (Moment.edgeM _ (b * Real.pi / 180)),
        ← Matrix.mul_assoc (Moment.edgeM _ (b * Real.pi / 180))]
      have := mir_mul (mir_edge (L * Moment.MtoMM / (phi * Real.pi / 180)) (a * Real.pi / 180))
        (mir_mul (mir_bendCore (Es := Es) (g := g) (q := q) (b := b') (gd := gd) (dd := dd) (k := k) hKx)
          (mir_edge (L * Moment.MtoMM / (phi * Real.pi / 180)) (b * Real.pi / 180)))
      simpa only [Matrix.mul_assoc] using this
    refine forEach_pair fun q hq => ?_
    unfold Moment.sbendOne
    dsimp only
    rw [f2, f3]
    by_cases h0 : m = 0
    · rw [if_pos h0, if_pos h0]
      obtain ⟨bg, hbg⟩ : ∃ bg, c "bg" = some (.num bg) := by
        rcases hm with hm | hm
        · rw [flag_none env hm 1 (by norm_num)] at f1
          cases f1
          exact absurd h0 (by norm_num)
        · exact hm
      simp only [c1, c1', getNum_ok.2 hbg, getNum_ok.2 ((h1 "bg" (by simp) (by simp)).trans hbg)]
      exact hframe _ h1 h2 (by simp) q hq _ _ (mb _ _ _ _ _ _ _)
    · rw [if_neg h0, if_neg h0]
      exact hframe _ h1 h2 (by simp) q hq _ _ (mb _ _ _ _ _ _ _)
  | edipole ver L phi spher h1 h2 h3 h4 h5 h6 hL hphi hsp hm ha =>
    cases t <;> simp only [MType.name, String.reduceEq] at hty
    have n := fun k hn => alike_num h1 k hn (by simp) 0
    refine ⟨by simp, by simp, by have := hlen _ h1 (by simp); cases hd; cases hd'; exact this, ?_⟩
    show ∃ T T', Moment.edipoleRec _ _ _ _ = _ ∧ Moment.edipoleRec _ _ _ _ = _ ∧ _
    unfold Moment.edipoleRec
    have hL' : L * Moment.MtoMM ≠ 0 := by simpa [Moment.MtoMM] using hL
    have g := fun k x (hk : k ≠ "name") (hx : c k = some (.num x)) => getNum_ok.2 ((h1 k hk (by simp)).trans hx)
    simp only [c1, c1', getNum_ok.2 h3, getNum_ok.2 h4, getNum_ok.2 h5, getNum_ok.2 h6, g _ _ (by simp) h3, g _ _ (by simp) h4,
      g _ _ (by simp) h5, g _ _ (by simp) h6, flag_none env hm 1 (by norm_num),
      flag_none env ((h1 _ (by simp) (by simp)).trans hm) 1 (by norm_num), n "fringe_x" (by simp), n "fringe_y" (by simp),
      n "asym_fac" (by simp), zero_num ha, if_pos hL', ne_eq, one_ne_zero, not_false_eq_true, not_true_eq_false, and_false, if_false, if_true]
    refine forEach_pair fun q hq => ?_
    unfold Moment.edipoleOne
    dsimp only
    refine hframe _ h1 h2 (by simp) q hq _ _ ?_
    obtain ⟨m1, m2, m3⟩ := hmov q hq
    have hr : Moving S.recalc.ref := recalc_moving hS.ref.1 hS.ref.2.1
    have heta := Moment.rest_sqrt hr
    generalize (1 / Real.sqrt (1 - S.recalc.ref.beta * S.recalc.ref.beta) - 1) / 2 = eta at *
    generalize hrho : q.beta * q.beta / q.IonZ / (S.recalc.ref.beta * S.recalc.ref.beta / S.recalc.ref.IonZ) * (L * Moment.MtoMM) /
      (phi * Real.pi / 180) = rho
    have hrho0 : rho ≠ 0 := by
      rw [← hrho]
      have b1 := m1.beta_pos.ne'
      have b2 := hr.beta_pos.ne'
      have b3 : S.recalc.ref.IonZ ≠ 0 := hS.ref.2.2
      have b4 := Real.pi_ne_zero
      positivity
    have hK : 0 < (1 - spher + (1 + 2 * eta) * (1 + 2 * eta)) / (rho * rho) := by
      have e : 1 + 2 * eta = S.recalc.ref.gamma := by rw [heta]; ring
      rw [e]
      have := hr.one_lt
      have h2 : 0 < rho * rho := mul_self_pos.2 hrho0
      exact div_pos (by nlinarith) h2
    have core : ∀ eL fx fy Ky Es g dK dKZ k, Mir
        (Moment.ebendM eL (phi * Real.pi / 180) fx fy 0 ((1 - spher + (1 + 2 * eta) * (1 + 2 * eta)) / (rho * rho)) Ky Es g eta 1 dK dKZ k 1)
        (Moment.ebendM eL (phi * Real.pi / 180) fx fy 0 ((1 - spher + (1 + 2 * eta) * (1 + 2 * eta)) / (rho * rho)) Ky Es g eta 1 dK dKZ k 1) := by
      intro eL fx fy Ky Es g dK dKZ k
      rw [Moment.ebendM_faces]
      have := mir_mul (mir_eedge fx fy) (mir_mul (mir_ebendCore (L := eL) (phi := phi * Real.pi / 180) (Ky := Ky) (Es := Es) (g := g)
        (eta := eta) (h := 1) (dK := dK) (dKZ := dKZ) (k := k) hK) (mir_eedge fx fy))
      simpa only [Matrix.mul_assoc] using this
    split
    · exact mir_rot90 (core _ _ _ _ _ _ _ _ _)
    · exact core _ _ _ _ _ _ _ _ _
  | tmatrix xs xs' h1 h2 h3 h4 =>
    cases t <;> simp only [MType.name, String.reduceEq] at hty
    refine ⟨by simp, by simp, by have := hlen _ h1 (by simp); cases hd; cases hd'; exact this, ?_⟩
    have l1 : Moment.loadStorage 49 d.conf "matrix" = .ok xs := by simp [c1, Moment.loadStorage, getVec, h2, h4.1]
    have l2 : Moment.loadStorage 49 d'.conf "matrix" = .ok xs' := by simp [c1', Moment.loadStorage, getVec, h3, h4.2.1]
    simp only [recompute, l1, l2]
    refine forEach_pair fun q hq => ⟨_, _, rfl, rfl, ?_⟩
    unfold Mir
    ext i j
    rw [Matrix.mul_apply]
    have := h4.2.2 i j
    simp only [R, Matrix.diagonal_mul, Matrix.diagonal_apply, Moment.matOf]
    exact this

/-! ## runs -/

section

variable {C X S : Type}

/-- A forward run that keeps an invariant from element to element. -/
theorem run_go {I : Nat → S → Prop} {start N : Nat} {els0 : List (Elem C X S)}
    (hk : ∀ (j : Nat) e, j < N → els0[start + j]? = some e → Keeps e.cls)
    (hstep : ∀ (j : Nat) e (s : St S), j < N → els0[start + j]? = some e → s.retreat = false → I j s.payload →
      (e.cls.advance e.dat s).2.2 = none ∧ I (j + 1) (e.cls.advance e.dat s).2.1.payload)
    (hN : start + N ≤ els0.length) (hl : els0.length < sizeMod) (n : Nat) :
    ∀ (j : Nat) (els : List (Elem C X S)) (s : St S), j + n = N → els.length = els0.length → (∀ i, start + j ≤ i → els[i]? = els0[i]?) →
      s.nextElem = start + j → s.retreat = false → I j s.payload →
      (run n els s).err = none ∧ I N (run n els s).st.payload := by
  induction n with
  | zero =>
    intro j els s hj _ _ _ _ hI
    obtain rfl : j = N := hj
    exact ⟨rfl, hI⟩
  | succ n ih =>
    intro j els s hj hle heq hn hr hI
    have hret : (stepNext s).retreat = s.retreat := by unfold stepNext; split <;> rfl
    have hpay : (stepNext s).payload = s.payload := by unfold stepNext; split <;> rfl
    obtain ⟨e, h0⟩ : ∃ e, els0[start + j]? = some e := ⟨_, List.getElem?_eq_getElem (by omega)⟩
    have h : els[s.nextElem]? = some e := by rw [hn, heq _ (le_refl _), h0]
    obtain ⟨g1, g2⟩ := hstep j e (stepNext s) (by omega) h0 (by rw [hret]; exact hr) (by rw [hpay]; exact hI)
    obtain ⟨k1, k2⟩ := hk j e (by omega) h0 e.dat (stepNext s)
    have hup : (stepNext s).nextElem = s.nextElem + 1 := by
      unfold stepNext
      rw [if_neg (by rw [hr]; simp)]
      exact Nat.mod_eq_of_lt (by omega)
    rw [run_succ_ok h g1]
    dsimp only
    refine ih (j + 1) _ _ (by omega) (by rw [List.length_set]; exact hle) ?_ (by rw [k1, hup, hn, Nat.add_assoc]) (by rw [k2, hret, hr]) g2
    intro i hi
    rw [List.getElem?_set_ne (by omega)]
    exact heq i (by omega)

end

theorem same_trans {p q r : Particle} (h : SameKind p q) (h' : SameKind q r) : SameKind p r :=
  ⟨h'.1.trans h.1, h'.2.1.trans h.2.1, h'.2.2.1.trans h.2.2.1, h'.2.2.2.1.trans h.2.2.2.1, h'.2.2.2.2.trans h.2.2.2.2⟩

theorem later_same {p q : Particle} (h : Later p q) : SameKind p q := ⟨h.1, h.2.1, h.2.2.1, h.2.2.2.1, h.2.2.2.2.1⟩

theorem same_ph {p q : Particle} (h : SameKind p q) : Moment.Ph p.recalc q.recalc := by
  refine ⟨q.phis, ?_⟩
  obtain ⟨h1, h2, h3, h4, h5⟩ := h
  cases p; cases q
  simp only at h1 h2 h3 h4 h5
  subst h1 h2 h3 h4 h5
  rfl

theorem passed_same {d : MDat} {T : List Mat} {S S' : MSt} (h : Passed d T S S') : List.Forall₂ SameKind S.real S'.real := by
  rw [List.forall₂_iff_get]
  refine ⟨h.length.symm, fun i h1 h2 => ?_⟩
  obtain ⟨p', e1, e2⟩ := h.real i _ (List.getElem?_eq_getElem h1)
  rw [List.getElem?_eq_getElem h2] at e1
  cases e1
  exact later_same e2

theorem forall₂_trans {α : Type} {P : α → α → Prop} (ht : ∀ a b c, P a b → P b c → P a c) {l l' l'' : List α}
    (h : List.Forall₂ P l l') (h' : List.Forall₂ P l' l'') : List.Forall₂ P l l'' := by
  induction h generalizing l'' with
  | nil => cases h'; exact .nil
  | cons a _ ih => cases h' with
    | cons b hb => exact .cons (ht _ _ _ a b) (ih hb)

theorem going_same {S S' : MSt} (h : Going S) (hc : Cavity.Spec.Complete S') (hr : SameKind S.ref S'.ref)
    (hl : List.Forall₂ SameKind S.real S'.real) : Going S' := by
  refine ⟨hc, ?_, ?_⟩
  · obtain ⟨a, b, c⟩ := h.ref
    exact ⟨by rw [hr.2.2.1]; exact a, by rw [hr.2.2.2.1]; exact b, by rw [hr.1]; exact c⟩
  · intro q hq
    obtain ⟨i, hi, rfl⟩ := List.getElem_of_mem hq
    obtain ⟨h1, h2⟩ := (List.forall₂_iff_get).1 hl
    have e := h2 i (by rw [h1]; exact hi) hi
    obtain ⟨a, b, c, f⟩ := h.real _ (List.get_mem S.real ⟨i, by rw [h1]; exact hi⟩)
    simp only [List.get_eq_getElem] at e a b c f
    exact ⟨by rw [e.2.2.1]; exact a, by rw [e.2.2.2.1]; exact b, by rw [e.2.2.2.2]; exact c, by rw [e.1]; exact f⟩

/-- Through the image and back. -/
theorem back_list {T T' : List Mat} (h : List.Forall₂ Mir T T') : ∀ {vs : List Vec} {Ms : List Mat}, vs.length = T.length → Ms.length = T.length →
    List.zipWith (fun (M : Mat) v => M.mulVec v) T' ((List.zipWith (fun (M : Mat) v => M.mulVec v) T vs).map turn) = vs.map turn ∧
    List.zipWith Moment.congr T' ((List.zipWith Moment.congr T Ms).map turnAll) = Ms.map turnAll := by
  induction h with
  | nil =>
    intro vs Ms h1 h2
    simp at h1 h2
    subst h1 h2
    exact ⟨rfl, rfl⟩
  | cons hd _ ih =>
    intro vs Ms h1 h2
    cases vs with
    | nil => simp at h1
    | cons v vs =>
      cases Ms with
      | nil => simp at h2
      | cons M Ms =>
        obtain ⟨i1, i2⟩ := ih (vs := vs) (Ms := Ms) (by simpa using h1) (by simpa using h2)
        obtain ⟨b1, b2⟩ := mir_back hd v M
        simp only [List.zipWith_cons_cons, List.map_cons]
        rw [i1, i2, b1, b2]
        exact ⟨rfl, rfl⟩

/-- One element on the way there, and its image. -/
structure Leg (env : Env) (junk : Mat) (t : MType) (d d' : MDat) (S S' : MSt) : Prop where
  going : Going S
  built : ∃ ec', Moment.build env junk t ec' = .ok d'
  length : d'.length = d.length
  pass : ∃ T T', recompute env t d' S.recalc.ref S.recalc.real = .ok T' ∧ List.Forall₂ Mir T T' ∧ T.length = S.real.length ∧ Passed d T S S'

/-- Turned round behind the element, through the image, and back. -/
theorem leg_back {env : Env} {junk : Mat} {t : MType} {d d' : MDat} {S S' : MSt} (h : Leg env junk t d d' S S') (ht : t ≠ .source)
    (ht' : t ≠ .sextupole) {x : St MSt} (hr : x.retreat = false) (hC : Cavity.Spec.Complete x.payload) (hx : Turned S' x.payload) :
    (Moment.advance env t d' x).2.2 = none ∧ Turned S (Moment.advance env t d' x).2.1.payload ∧
      Cavity.Spec.Complete (Moment.advance env t d' x).2.1.payload ∧
      (Moment.advance env t d' x).2.1.payload.pos - x.payload.pos = S'.pos - S.pos := by
  obtain ⟨T, T', h1, h2, h3, h4⟩ := h.pass
  obtain ⟨ec', hb⟩ := h.built
  have kr : SameKind S.ref x.payload.ref := same_trans (later_same h4.ref) hx.ref
  have kl : List.Forall₂ SameKind S.real x.payload.real := forall₂_trans (P := SameKind) (fun a b c h h' => same_trans h h') (passed_same h4) hx.real
  have hrec : recompute env t d' x.payload.recalc.ref x.payload.recalc.real = .ok T' := by
    rw [← h1]
    refine Moment.recompute_ph env t d' (same_ph kr) ?_
    show List.Forall₂ Moment.Ph (S.real.map _) (x.payload.real.map _)
    rw [List.forall₂_map_left_iff, List.forall₂_map_right_iff]
    exact kl.imp fun a b => same_ph
  obtain ⟨p1, p2⟩ := moment_pass ht ht' (Moment.build_length hb).2.2.1 hr hC hrec
  generalize (Moment.advance env t d' x).2.1.payload = X at p2
  have hlen : T'.length = x.payload.real.length := by rw [← h2.length_eq, h3, kl.length_eq]
  have hback := back_list h2 (vs := S.moment0) (Ms := S.moment1) (by rw [h.going.complete.moment0, h3])
    (by rw [h.going.complete.moment1, h3])
  refine ⟨p1, ⟨?_, ?_, ?_, ?_⟩, ⟨?_, ?_, ?_⟩, ?_⟩
  · exact same_trans kr (later_same p2.ref)
  · exact forall₂_trans (P := SameKind) (fun a b c h h' => same_trans h h') kl (passed_same p2)
  · rw [p2.moment0, hx.moment0, h4.moment0]
    exact hback.1
  · rw [p2.moment1, hx.moment1, h4.moment1]
    exact hback.2
  · rw [p2.moment0, p2.length, List.length_zipWith, hlen, hC.moment0, Nat.min_self]
  · rw [p2.moment1, p2.length, List.length_zipWith, hlen, hC.moment1, Nat.min_self]
  · rw [p2.transmat, p2.length, hlen]
  · rw [p2.pos, h4.pos, h.length]
    ring

theorem name_inj {t t' : MType} (h : t'.name = t.name) : t' = t := by
  cases t <;> cases t' <;> simp [MType.name] at h ⊢

/-- C95: let the elements of a lattice of the moment simulation from `start` on, `n` of them, be those of another lattice from
`start'` on in the reverse order, each seen from the other end.  Send a charged, moving beam through the first range, turn it round,
and send it through the second range.  Both runs succeed, take the same length, and the beam arrives as it has started, turned
round: each charge state has the same energy, the same position, the opposite angles, and its covariance accordingly. -/
theorem C95_back {env : Env} {junk : Mat} {base base' : Nat} {cavity stripper cavity' stripper' : MCls} (cv : CView LCfg) (c c' : LCfg)
    (m m' : Machine LCfg MDat MSt) (h : Machine.new cv (Moment.registry env junk base cavity stripper) c = .ok m)
    (h' : Machine.new cv (Moment.registry env junk base' cavity' stripper') c' = .ok m')
    (es es' : List LCfg) (hes : cv.elems c = .ok es) (hes' : cv.elems c' = .ok es') (hl : es.length < sizeMod)
    (hl' : es'.length < sizeMod) (start start' n : Nat) (hn : start + n ≤ es.length) (hn' : start' + n ≤ es'.length)
    (hmir : ∀ (j : Nat) ec ec' ty, j < n → es[start + j]? = some ec → es'[start' + (n - 1 - j)]? = some ec' → cv.str ec "type" = .ok ty →
      cv.str ec' "type" = .ok ty ∧ Reflected ec ec' ty)
    (s : St MSt) (hs : Going s.payload) :
    ∃ r, propagate m.elems s start n = some r ∧ r.err = none ∧
      ∀ s' : St MSt, Cavity.Spec.Complete s'.payload → Turned r.st.payload s'.payload →
        ∃ r', propagate m'.elems s' start' n = some r' ∧ r'.err = none ∧ Turned s.payload r'.st.payload ∧
          r'.st.payload.pos - s'.payload.pos = r.st.payload.pos - s.payload.pos := by
  have hF := Moment.machine_moment h hes
  have hF' := Moment.machine_moment h' hes'
  have hall := fun j e (hj : m.elems[j]? = some e) => Cavity.forall₂_get hF hj
  have hall' := fun j e (hj : m'.elems[j]? = some e) => Cavity.forall₂_get hF' hj
  have hlen : m.elems.length = es.length := hF.length_eq.symm
  have hlen' : m'.elems.length = es'.length := hF'.length_eq.symm
  have key : ∀ (j : Nat) e e', j < n → m.elems[start + j]? = some e → m'.elems[start' + (n - 1 - j)]? = some e' →
      ∃ ec ec' t, e.cls = Moment.cls env junk base t ∧ e'.cls = Moment.cls env junk base' t ∧ Moment.build env junk t ec = .ok e.dat ∧
        Moment.build env junk t ec' = .ok e'.dat ∧ Reflected ec ec' t.name := by
    intro j e e' hj he he'
    obtain ⟨ec, hec, ty, hty, hb⟩ := hall _ e he
    obtain ⟨ec', hec', ty', hty', hb'⟩ := hall' _ e' he'
    obtain ⟨ht, hM⟩ := hmir j ec ec' ty hj hec hec' hty
    rw [hty'] at ht
    cases ht
    obtain ⟨t, ht, rfl, hb⟩ | ⟨-, rfl, -⟩ | ⟨-, rfl, -⟩ := hb
    · obtain ⟨t', ht', hq, hb'⟩ | ⟨-, hq, -⟩ | ⟨-, hq, -⟩ := hb'
      · cases name_inj hq
        exact ⟨ec, ec', t, ht, ht', hb, hb', hM⟩
      · rw [hq] at hM
        generalize hq : "rfcavity" = q at hM
        cases hM <;> simp at hq
      · rw [hq] at hM
        generalize hq : "stripper" = q at hM
        cases hM <;> simp at hq
    · generalize hq : "rfcavity" = q at hM
      cases hM <;> simp at hq
    · generalize hq : "stripper" = q at hM
      cases hM <;> simp at hq
  have keeps : ∀ (j : Nat) e e', j < n → m.elems[start + j]? = some e → m'.elems[start' + (n - 1 - j)]? = some e' →
      Keeps e.cls ∧ Keeps e'.cls := by
    intro j e e' hj he he'
    obtain ⟨ec, ec', t, g1, g2, g3, g4, g5⟩ := key j e e' hj he he'
    obtain ⟨q1, -⟩ := reflect_pass g5 g3 g4 hs
    rw [g1, g2]
    exact ⟨(Moment.measured_cls env junk base t q1).1, (Moment.measured_cls env junk base' t q1).1⟩
  have other : ∀ (j : Nat), j < n → ∃ e, m'.elems[start' + (n - 1 - j)]? = some e := fun j hj =>
    ⟨_, List.getElem?_eq_getElem (by omega)⟩
  have one : ∀ (j : Nat), j < n → ∃ e, m.elems[start + j]? = some e := fun j hj => ⟨_, List.getElem?_eq_getElem (by omega)⟩
  let P : Nat → MSt → MSt → Prop := fun j S S' => ∀ e', m'.elems[start' + (n - 1 - j)]? = some e' →
    ∃ t d, t ≠ .source ∧ t ≠ .sextupole ∧ e'.cls = Moment.cls env junk base' t ∧ Leg env junk t d e'.dat S S'
  have hprop : ∀ (els : List (Elem LCfg MDat MSt)) (s : St MSt) (start : Nat),
      propagate els s start n = some (run n els { s with nextElem := start, retreat := false }) := by
    intro els s start
    rw [propagate_eq els s start n (by omega)]
    have : decide ((n : Int) < 0) = false := by simp
    rw [this, Int.natAbs_natCast]
  obtain ⟨r1, r2, tr, t0, tn, tp⟩ := run_go (start := start) (N := n) (els0 := m.elems)
    (I := fun j S => Going S ∧ ∃ tr : Nat → MSt, tr 0 = s.payload ∧ tr j = S ∧ ∀ i, i < j → P i (tr i) (tr (i + 1)))
    (fun j e hj he => by
      obtain ⟨e', he'⟩ := other j hj
      exact (keeps j e e' hj he he').1)
    (fun j e x hj he hr hI => by
      obtain ⟨hG, tr, t0, tj, tp⟩ := hI
      obtain ⟨e', he'⟩ := other j hj
      obtain ⟨ec, ec', t, g1, g2, g3, g4, g5⟩ := key j e e' hj he he'
      obtain ⟨q1, q2, q3, T, T', q4, q5, q6⟩ := reflect_pass g5 g3 g4 hG
      rw [g1]
      obtain ⟨p1, p2⟩ := moment_pass q1 q2 (Moment.build_length g3).2.2.1 hr hG.complete q4
      have hT : T.length = x.payload.real.length := by
        rw [Moment.recompute_length q4]
        simp [MSt.recalc]
      refine ⟨p1, ?_, ?_⟩
      · show Going (Moment.advance env t e.dat x).2.1.payload
        refine going_same hG ⟨?_, ?_, ?_⟩ (later_same p2.ref) (passed_same p2)
        · rw [p2.moment0, p2.length, List.length_zipWith, hT, hG.complete.moment0, Nat.min_self]
        · rw [p2.moment1, p2.length, List.length_zipWith, hT, hG.complete.moment1, Nat.min_self]
        · rw [p2.transmat, p2.length, hT]
      · refine ⟨fun i => if i ≤ j then tr i else (Moment.advance env t e.dat x).2.1.payload, by simp [t0], by simp; rfl, ?_⟩
        intro i hi
        rcases Nat.lt_or_eq_of_le (Nat.lt_succ_iff.1 hi) with hlt | rfl
        · simp only [if_pos hlt.le, if_pos (Nat.succ_le_of_lt hlt)]
          exact tp i hlt
        · simp only [le_refl, if_true, Nat.not_succ_le_self, if_false]
          intro e2 he2
          rw [he'] at he2
          cases he2
          rw [tj]
          exact ⟨t, e.dat, q1, q2, g2, hG, ⟨ec', g4⟩, q3, T, T', q5, q6, hT, p2⟩)
    (by rw [hlen]; exact hn) (by rw [hlen]; exact hl) n 0 m.elems { s with nextElem := start, retreat := false } (by omega) rfl
    (fun i _ => rfl) rfl rfl ⟨hs, fun _ => s.payload, rfl, rfl, fun i hi => absurd hi (by omega)⟩
  refine ⟨_, hprop _ _ _, r1, ?_⟩
  intro s' hC hT
  obtain ⟨w1, w2, w3, w4⟩ := run_go (start := start') (N := n) (els0 := m'.elems)
    (I := fun j X => Turned (tr (n - j)) X ∧ Cavity.Spec.Complete X ∧ X.pos - s'.payload.pos = (tr n).pos - (tr (n - j)).pos)
    (fun j e' hj he' => by
      obtain ⟨e, he⟩ := one (n - 1 - j) (by omega)
      refine (keeps (n - 1 - j) e e' (by omega) he ?_).2
      rw [show n - 1 - (n - 1 - j) = j by omega]
      exact he')
    (fun j e' x hj he' hr hI => by
      obtain ⟨i1, i2, i3⟩ := hI
      obtain ⟨t, d, q1, q2, q3, q4⟩ := tp (n - 1 - j) (by omega) e' (by rw [show n - 1 - (n - 1 - j) = j by omega]; exact he')
      rw [show n - 1 - j + 1 = n - j by omega] at q4
      obtain ⟨l1, l2, l3, l4⟩ := leg_back q4 q1 q2 hr i2 i1
      rw [q3, show n - (j + 1) = n - 1 - j by omega]
      refine ⟨l1, l2, l3, ?_⟩
      show (Moment.advance env t e'.dat x).2.1.payload.pos - _ = _
      linarith)
    (by rw [hlen']; exact hn') (by rw [hlen']; exact hl') n 0 m'.elems { s' with nextElem := start', retreat := false } (by omega) rfl
    (fun i _ => rfl) rfl rfl ⟨by rw [Nat.sub_zero, tn]; exact hT, hC, by simp⟩
  rw [Nat.sub_self, t0] at w2 w4
  rw [tn] at w4
  exact ⟨_, hprop _ _ _, w1, w2, w4⟩

end Flame.Mirror
