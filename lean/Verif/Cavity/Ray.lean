import Verif.Cavity.Off
import Verif.Cavity.SpecRay
import Mathlib.Analysis.SpecialFunctions.Trigonometric.Deriv
import Mathlib.Analysis.SpecialFunctions.Sqrt

/-! # C72: the matrix of a cavity follows rays -/

namespace Flame.Cavity

open Flame.Mach (Err)
open Flame.Moment
open Flame.Linear (LCfg getNum)
open Spec (Ray Setting Piece Pace)

/-! ## kinematics -/

theorem speed_eq {Es W : ℝ} (h : 1 < W / Es * (W / Es)) : Real.sqrt (1 - 1 / (W / Es * (W / Es))) = Spec.speed Es W := by
  rw [Spec.speed]
  congr 2
  have hE : Es ≠ 0 := by rintro rfl; norm_num at h
  have hW : W ≠ 0 := by rintro rfl; norm_num at h
  field_simp

theorem kin_spec {Es W lam : ℝ} {q : Kin} (h : kin Es W lam = .ok q) :
    q.gamma = W / Es ∧ q.beta = Spec.speed Es W ∧ q.k = Spec.wave lam Es W ∧ 1 < W / Es * (W / Es) := by
  obtain ⟨h1, h2, h3, h4⟩ := kin_ok h
  rw [h1] at h2 h4
  rw [speed_eq h4] at h2
  exact ⟨h1, h2, by rw [h3, h2, Spec.wave], h4⟩

theorem speed_pos {Es W : ℝ} (h : 1 < W / Es * (W / Es)) : 0 < Spec.speed Es W := by
  rw [← speed_eq h]
  refine Real.sqrt_pos.2 ?_
  have : 1 / (W / Es * (W / Es)) < 1 := (div_lt_one (by linarith)).2 h
  linarith

/-- The change of the wave number with energy. -/
theorem wave_deriv (lam : ℝ) {Es W : ℝ} (h : 1 < W / Es * (W / Es)) :
    HasDerivAt (Spec.wave lam Es) (-2 * Real.pi / lam * (1 / (Spec.momentum Es W * Spec.momentum Es W * Spec.momentum Es W) / Es)) W := by
  have hE : Es ≠ 0 := by rintro rfl; norm_num at h
  have hW : W ≠ 0 := by rintro rfl; norm_num at h
  have hs := speed_pos h
  have hin : (1 - (Es / W) ^ 2) ≠ 0 := by
    intro h0
    rw [Spec.speed, h0, Real.sqrt_zero] at hs
    exact lt_irrefl _ hs
  have h1 : HasDerivAt (fun w : ℝ => 1 - (Es / w) ^ 2) (2 * Es ^ 2 / W ^ 3) W := by
    have := (((hasDerivAt_inv hW).const_mul Es).pow 2).const_sub 1
    refine (this.congr_deriv ?_).congr_of_eventuallyEq ?_
    · norm_num
      field_simp
    · filter_upwards with w
      simp [div_eq_mul_inv]
  have h2 : HasDerivAt (Spec.speed Es) (Es ^ 2 / W ^ 3 / Spec.speed Es W) W := by
    refine (h1.sqrt hin).congr_deriv ?_
    show _ = Es ^ 2 / W ^ 3 / Real.sqrt (1 - (Es / W) ^ 2)
    have : Real.sqrt (1 - (Es / W) ^ 2) ≠ 0 := hs.ne'
    field_simp
  have h3 := (h2.inv hs.ne').const_mul (2 * Real.pi / lam)
  refine (h3.congr_deriv ?_).congr_of_eventuallyEq ?_
  · rw [Spec.momentum]
    have hs' : Real.sqrt (1 - (Es / W) ^ 2) ≠ 0 := hs.ne'
    rw [Spec.speed]
    by_cases hl : lam = 0
    · simp [hl]
    · field_simp
  · filter_upwards with w
    rw [Spec.wave, Pi.inv_apply]
    by_cases hl : lam = 0
    · simp [hl]
    · rw [div_mul_eq_div_div, div_right_comm, div_eq_mul_inv (2 * Real.pi / lam)]

theorem gain_deriv (Z V T S u : ℝ) : deriv (Spec.gain Z V T S) u = -Z * V * T * Real.sin u - Z * V * S * Real.cos u := by
  have h : HasDerivAt (Spec.gain Z V T S) (Z * V * (T * -Real.sin u - S * Real.cos u)) u :=
    (((Real.hasDerivAt_cos u).const_mul T).sub ((Real.hasDerivAt_sin u).const_mul S)).const_mul (Z * V)
  rw [h.deriv]
  ring

theorem eKick_spec (Z V b g T S u : ℝ) : eKick Z V b g T S u = Spec.electric Z V T S u b g := by
  rw [eKick, Spec.electric, Spec.gain, AU, MeVtoeV]
  norm_num
  ring

theorem hKick_spec (Z V b g T S u : ℝ) : hKick Z V b g T S u = Spec.magnetic Z V T S u b g := by
  rw [hKick, Spec.magnetic, gain_deriv, AU, MeVtoeV, MU0, C0, Real.cos_add_pi_div_two, Real.sin_add_pi_div_two]
  norm_num
  ring

/-! ## what the matrices do to rays -/

theorem driftT_ray (l : ℝ) (r : Ray) : (driftT l).mulVec r.coords = (r.fly l).coords := by
  funext i
  fin_cases i <;> simp [driftT, setAt, Matrix.mulVec, dotProduct, Fin.sum_univ_seven, Ray.coords, Ray.fly, Matrix.one_apply]

theorem focusT_ray (a b : ℝ) (r : Ray) : (focusT a b).mulVec r.coords = (r.lens a b).coords := by
  funext i
  fin_cases i <;> simp [focusT, setAt, Matrix.mulVec, dotProduct, Fin.sum_univ_seven, Ray.coords, Ray.lens, Matrix.one_apply] <;> ring

theorem kickT_ray (a : ℝ) (r : Ray) : (kickT a).mulVec r.coords = (r.kick a).coords := by
  funext i
  fin_cases i <;> simp [kickT, setAt, Matrix.mulVec, dotProduct, Fin.sum_univ_seven, Ray.coords, Ray.kick, Matrix.one_apply]

theorem accelT_ray (a : ℝ) (r : Ray) : (accelT a).mulVec r.coords = (r.damp a).coords := by
  funext i
  fin_cases i <;> simp [accelT, setAt, Matrix.mulVec, dotProduct, Fin.sum_univ_seven, Ray.coords, Ray.damp, Matrix.one_apply]

theorem driftL_ray (a : ℝ) (r : Ray) : (driftL a).mulVec r.coords = ({ r with ph := r.ph + a * r.dw } : Ray).coords := by
  funext i
  fin_cases i <;> simp [driftL, setAt, Matrix.mulVec, dotProduct, Fin.sum_univ_seven, Ray.coords, Matrix.one_apply]

theorem kickL_ray (a : ℝ) (r : Ray) : (kickL a).mulVec r.coords = ({ r with dw := r.dw + a * r.ph } : Ray).coords := by
  funext i
  fin_cases i <;> simp [kickL, setAt, Matrix.mulVec, dotProduct, Fin.sum_univ_seven, Ray.coords, Matrix.one_apply]
  ring

theorem kickL_push (Z V T S u : ℝ) (r : Ray) :
    (kickL (-Z * V * T * Real.sin u - Z * V * S * Real.cos u)).mulVec r.coords = (r.push Z V T S u).coords := by
  rw [kickL_ray, Ray.push, gain_deriv]

/-- Transverse and longitudinal matrices commute. -/
theorem only_comm {A B : Mat} (hA : OnlyT A) (hB : OnlyL B) : A * B = B * A := by
  ext i j
  have a : ∀ i j, lonIx i ∨ lonIx j → A i j = (1 : Mat) i j := hA
  have b : ∀ i j, ¬ (lonIx i ∧ lonIx j) → B i j = (1 : Mat) i j := hB
  rw [Matrix.mul_apply, Matrix.mul_apply]
  by_cases hi : lonIx i <;> by_cases hj : lonIx j
  · have h1 : ∀ k, A i k * B k j = (1 : Mat) i k * B k j := fun k => by rw [a i k (.inl hi)]
    have h2 : ∀ k, B i k * A k j = B i k * (1 : Mat) k j := fun k => by rw [a k j (.inr hj)]
    simp only [h1, h2]
    rw [← Matrix.mul_apply, ← Matrix.mul_apply, one_mul, mul_one]
  · have h1 : ∀ k, A i k * B k j = (1 : Mat) i k * (1 : Mat) k j := fun k => by rw [a i k (.inl hi), b k j (fun h => hj h.2)]
    have h2 : ∀ k, B i k * A k j = B i k * (1 : Mat) k j := fun k => by
      by_cases hk : lonIx k
      · rw [a k j (.inl hk)]
      · rw [b i k (fun h => hk h.2), Matrix.one_apply, if_neg (fun e : i = k => hk (e ▸ hi)), zero_mul, zero_mul]
    simp only [h1, h2]
    rw [← Matrix.mul_apply, ← Matrix.mul_apply, one_mul, mul_one, b i j (fun h => hj h.2)]
  · have h1 : ∀ k, A i k * B k j = (1 : Mat) i k * B k j := fun k => by
      by_cases hk : lonIx k
      · rw [a i k (.inr hk)]
      · rw [b k j (fun h => hk h.1), Matrix.one_apply (i := k), if_neg (fun e : k = j => hk (e ▸ hj)), mul_zero, mul_zero]
    have h2 : ∀ k, B i k * A k j = (1 : Mat) i k * (1 : Mat) k j := fun k => by rw [a k j (.inr hj), b i k (fun h => hi h.1)]
    simp only [h1, h2]
    rw [← Matrix.mul_apply, ← Matrix.mul_apply, one_mul, mul_one, b i j (fun h => hi h.1)]
  · have h1 : ∀ k, A i k * B k j = A i k * (1 : Mat) k j := fun k => by rw [b k j (fun h => hj h.2)]
    have h2 : ∀ k, B i k * A k j = (1 : Mat) i k * A k j := fun k => by rw [b i k (fun h => hi h.1)]
    simp only [h1, h2]
    rw [← Matrix.mul_apply, ← Matrix.mul_apply, one_mul, mul_one]

/-! ## generic cavities -/

/-- A line of the lattice of a generic cavity as a piece. -/
noncomputable def pieceOf (P : RawParams) : Piece :=
  ⟨P.type, P.length, P.E0, fun k => Spec.polyDown k P.Tfit, fun k => Spec.polyDown k P.Sfit⟩

/-- What the loop knows about the energy. -/
structure Known (Es lam : ℝ) (t : Gen) : Prop where
  gamma : t.gamma = t.W / Es
  beta : t.beta = Spec.speed Es t.W
  k : t.kfac = Spec.wave lam Es t.W
  fast : 1 < t.W / Es * (t.W / Es)
  onlyT : OnlyT t.M
  onlyL : OnlyL t.lon

theorem slip_ray {lam Es W l m : ℝ} (hm : m = Spec.momentum Es W) (h : 1 < W / Es * (W / Es)) (r : Ray) :
    ∃ r', Spec.Slips lam Es W l r r' ∧
      (driftL (-2 * Real.pi / lam * (1 / (m * m * m) * MeVtoeV / Es * l))).mulVec r.coords = r'.coords := by
  subst hm
  refine ⟨_, ⟨_, wave_deriv lam h, rfl⟩, ?_⟩
  rw [driftL_ray]
  congr 2
  rw [MeVtoeV]
  ring

theorem genStep_ray {mpole : Nat} {Z Es scl Rm lam : ℝ} (P : RawParams) {t t' : Gen}
    (h : genStep mpole Z Es scl Rm lam P t = .ok t') (hk : Known Es lam t) :
    Known Es lam t' ∧ ∃ A, OnlyT A ∧ ∃ B, OnlyL B ∧ t'.M = A * t.M ∧ t'.lon = B * t.lon ∧
      ∀ r : Ray, ∃ r', Spec.Acts ⟨Z, Es, scl, Rm, lam, mpole⟩ (pieceOf P) t.W t.fy r t'.W t'.fy r' ∧
        A.mulVec (B.mulVec r.coords) = r'.coords := by
  obtain ⟨W, gamma, beta, fy, kfac, M, lon⟩ := t
  obtain ⟨k1, k2, k3, hf, hT, hL⟩ := hk
  dsimp only at k1 k2 k3 hf hT hL
  subst k1 k2 k3
  have same : ∀ {A : Mat} {f : Ray → Ray}, OnlyT A → (∀ r : Ray, A.mulVec r.coords = (f r).coords) →
      (∀ r, Spec.Acts ⟨Z, Es, scl, Rm, lam, mpole⟩ (pieceOf P) W fy r W fy (f r)) →
      Known Es lam ⟨W, W / Es, Spec.speed Es W, fy, Spec.wave lam Es W, A * M, lon⟩ ∧ ∃ A', OnlyT A' ∧ ∃ B, OnlyL B ∧ A * M = A' * M ∧ lon = B * lon ∧
      ∀ r : Ray, ∃ r', Spec.Acts ⟨Z, Es, scl, Rm, lam, mpole⟩ (pieceOf P) W fy r W fy r' ∧
        A'.mulVec (B.mulVec r.coords) = r'.coords := by
    intro A f hA hr hs
    refine ⟨⟨rfl, rfl, rfl, hf, hA.mul hT, hL⟩, A, hA, 1, OnlyL.one, rfl, by rw [one_mul], fun r => ⟨f r, hs r, ?_⟩⟩
    rw [Matrix.one_mulVec, hr]
  have idle : (∀ r, Spec.Acts ⟨Z, Es, scl, Rm, lam, mpole⟩ (pieceOf P) W fy r W fy r) →
      Known Es lam ⟨W, W / Es, Spec.speed Es W, fy, Spec.wave lam Es W, M, lon⟩ ∧ ∃ A', OnlyT A' ∧ ∃ B, OnlyL B ∧ M = A' * M ∧ lon = B * lon ∧
      ∀ r : Ray, ∃ r', Spec.Acts ⟨Z, Es, scl, Rm, lam, mpole⟩ (pieceOf P) W fy r W fy r' ∧
        A'.mulVec (B.mulVec r.coords) = r'.coords := by
    intro hs
    refine ⟨⟨rfl, rfl, rfl, hf, hT, hL⟩, 1, OnlyT.one, 1, OnlyL.one, by rw [one_mul], by rw [one_mul], fun r => ⟨r, hs r, ?_⟩⟩
    rw [Matrix.one_mulVec, Matrix.one_mulVec]
  have hmom : Spec.speed Es W * (W / Es) = Spec.momentum Es W := rfl
  unfold genStep at h
  simp only [C44_fit, eKick_spec, hKick_spec] at h
  split at h
  · rename_i e
    cases h
    refine ⟨⟨rfl, rfl, rfl, hf, (driftT_only _).mul hT, (driftL_only _).mul hL⟩, _, driftT_only P.length, _,
      driftL_only _, rfl, rfl, fun r => ?_⟩
    obtain ⟨r', h1, h2⟩ := slip_ray (l := P.length) (lam := lam) hmom hf (r.fly P.length)
    refine ⟨r', ?_, ?_⟩
    · simp only [Spec.Acts, pieceOf, e]
      exact ⟨trivial, trivial, h1⟩
    · rw [← h2, ← driftT_ray, Matrix.mulVec_mulVec, Matrix.mulVec_mulVec, only_comm (driftT_only _) (driftL_only _)]
  · rename_i e
    cases h
    refine same (focusT_only _ _) (focusT_ray _ _) (fun r => ?_)
    simp [Spec.Acts, pieceOf, e]
  · rename_i e
    cases h
    split
    · rename_i ho
      refine same (kickT_only _) (kickT_ray _) (fun r => ?_)
      simp [Spec.Acts, pieceOf, e, ho]
    · rename_i ho
      refine idle (fun r => ?_)
      simp [Spec.Acts, pieceOf, e, ho]
  · rename_i e
    cases h
    split
    · rename_i ho
      refine same (focusT_only _ _) (focusT_ray _ _) (fun r => ?_)
      simp [Spec.Acts, pieceOf, e, ho]
    · rename_i ho
      refine idle (fun r => ?_)
      simp [Spec.Acts, pieceOf, e, ho]
  · rename_i e
    cases h
    split
    · rename_i ho
      refine same (focusT_only _ _) (focusT_ray _ _) (fun r => ?_)
      simp [Spec.Acts, pieceOf, e, ho]
    · rename_i ho
      refine idle (fun r => ?_)
      simp [Spec.Acts, pieceOf, e, ho]
  · rename_i e
    cases h
    split
    · rename_i ho
      refine same (kickT_only _) (kickT_ray _) (fun r => ?_)
      simp [Spec.Acts, pieceOf, e, ho]
    · rename_i ho
      refine idle (fun r => ?_)
      simp [Spec.Acts, pieceOf, e, ho]
  · rename_i e
    cases h
    split
    · rename_i ho
      refine same (focusT_only _ _) (focusT_ray _ _) (fun r => ?_)
      simp [Spec.Acts, pieceOf, e, ho]
    · rename_i ho
      refine idle (fun r => ?_)
      simp [Spec.Acts, pieceOf, e, ho]
  · rename_i e
    split at h
    · cases h
    · rename_i q hq
      cases h
      obtain ⟨q1, q2, q3, q4⟩ := kin_spec hq
      refine ⟨⟨q1, q2, q3, q4, (accelT_only _).mul hT, (kickL_only _).mul hL⟩, _, accelT_only _, _, kickL_only _, rfl, rfl,
        fun r => ⟨(r.damp (Spec.speed Es W * (W / Es) / (q.beta * q.gamma))).push Z (P.E0 * scl)
          (Spec.polyDown (Spec.wave lam Es W) P.Tfit) (Spec.polyDown (Spec.wave lam Es W) P.Sfit) fy, ?_, ?_⟩⟩
      · have hw : W + 1000000 * Spec.gain Z (P.E0 * scl) (Spec.polyDown (Spec.wave lam Es W) P.Tfit)
            (Spec.polyDown (Spec.wave lam Es W) P.Sfit) fy =
            W + Z * (P.E0 * scl) * MeVtoeV * Spec.polyDown (Spec.wave lam Es W) P.Tfit * Real.cos fy
              - Z * (P.E0 * scl) * MeVtoeV * Spec.polyDown (Spec.wave lam Es W) P.Sfit * Real.sin fy := by
          rw [Spec.gain, MeVtoeV]
          ring
        simp only [Spec.Acts, pieceOf, e]
        rw [q1, q2]
        exact ⟨hw.symm, trivial, rfl⟩
      · rw [Matrix.mulVec_mulVec, only_comm (accelT_only _) (kickL_only _), ← Matrix.mulVec_mulVec, accelT_ray, kickL_push]
  · cases h

theorem genFold_ray {mpole : Nat} {Z Es scl Rm lam : ℝ} (l : List RawParams) {t t' : Gen}
    (h : foldE (genStep mpole Z Es scl Rm lam) l t = .ok t') (hk : Known Es lam t) :
    Known Es lam t' ∧ ∃ A, OnlyT A ∧ ∃ B, OnlyL B ∧ t'.M = A * t.M ∧ t'.lon = B * t.lon ∧
      ∀ r : Ray, ∃ r', Spec.Passes ⟨Z, Es, scl, Rm, lam, mpole⟩ (l.map pieceOf) t.W t.fy r t'.W t'.fy r' ∧
        A.mulVec (B.mulVec r.coords) = r'.coords := by
  induction l generalizing t with
  | nil =>
    cases h
    exact ⟨hk, 1, OnlyT.one, 1, OnlyL.one, by rw [one_mul], by rw [one_mul], fun r => ⟨r, ⟨rfl, rfl, rfl⟩, by
      rw [Matrix.one_mulVec, Matrix.one_mulVec]⟩⟩
  | cons P l ih =>
    rw [foldE] at h
    split at h
    · cases h
    · rename_i u hu
      obtain ⟨k1, A, hA, B, hB, e1, e2, h1⟩ := genStep_ray P hu hk
      obtain ⟨k2, A', hA', B', hB', e3, e4, h2⟩ := ih h k1
      refine ⟨k2, A' * A, hA'.mul hA, B' * B, hB'.mul hB, by rw [e3, e1, Matrix.mul_assoc], by rw [e4, e2, Matrix.mul_assoc], fun r => ?_⟩
      obtain ⟨r1, a1, a2⟩ := h1 r
      obtain ⟨r2, b1, b2⟩ := h2 r1
      refine ⟨r2, ⟨_, _, r1, a1, b1⟩, ?_⟩
      rw [← b2, ← a2]
      simp only [Matrix.mulVec_mulVec]
      congr 1
      rw [Matrix.mul_assoc A' A, ← Matrix.mul_assoc A B', only_comm hA hB']
      simp only [Matrix.mul_assoc]

/-- **C72**, generic cavities: the matrix takes each particle next to the centre of the charge state where it gets to when it is
followed through the pieces of the lattice one by one. -/
theorem C72_generic {cav : Cav} {Z Es scl fy0 Ek : ℝ} {M : Mat} (h : getCavMatGeneric cav Z Es scl fy0 Ek = .ok M) :
    ∃ W' u', ∀ r : Ray, ∃ r', Spec.Passes ⟨Z, Es, scl, cav.cRm, 299792458 / cav.fRF * 1000, cav.mpoleLevel⟩
      (cav.lattice.map pieceOf) (Ek + Es) fy0 r W' u' r' ∧ M.mulVec r.coords = r'.coords := by
  unfold getCavMatGeneric at h
  dsimp only at h
  split at h
  · cases h
  rename_i a ha
  split at h
  · cases h
  split at h
  · cases h
  rename_i t ht
  cases h
  obtain ⟨h1, h2, h3, h4⟩ := kin_spec ha
  obtain ⟨k, A, hA, B, hB, e1, e2, h5⟩ := genFold_ray _ ht ⟨h1, h2, h3, h4, OnlyT.one, OnlyL.one⟩
  refine ⟨t.W, t.fy, fun r => ?_⟩
  obtain ⟨r', p1, p2⟩ := h5 r
  refine ⟨r', p1, ?_⟩
  rw [combine_eq k.onlyT k.onlyL, ← p2, e1, e2, Matrix.mulVec_mulVec]
  simp only [Matrix.mul_one]

/-! ## two gaps -/

/-- Kinds of multipoles by name. -/
def poleName : Pole → String
  | .EFocus1 => "EFocus1"
  | .EFocus2 => "EFocus2"
  | .EDipole => "EDipole"
  | .EQuad => "EQuad"
  | .HMono => "HMono"
  | .HDipole => "HDipole"
  | .HQuad => "HQuad"

/-- `fac` are the transit time factors of the multipoles of a cavity, where they are defined. -/
def Factors (cav : Cav) (fac : String → ℝ → ℝ × ℝ) : Prop :=
  ∀ p k x, transitFacMultipole cav.forcettfcalc cav.mlptable cav.cavi p k = .ok x → fac (poleName p) k = x

/-- A line of the lattice of a cavity with two gaps as a piece. -/
def pieceTwo (P : RawParams) : Piece := ⟨P.type, P.length, P.E0, fun _ => 0, fun _ => 0⟩

open Classical in
theorem poleLine_ok {cav : Cav} {fac : String → ℝ → ℝ × ℝ} (hf : Factors cav fac) {E0 s k0 k1 : ℝ} {p q : Pole} {b : Bool} {x : Line}
    (h : poleLine cav E0 s k0 k1 p q b = .ok x) :
    x.E0 = E0 ∧ (x.T, x.S) = if s < 0 then (if b then (-(fac (poleName p) k0).1, (fac (poleName p) k0).2)
      else ((fac (poleName p) k0).1, -(fac (poleName p) k0).2)) else fac (poleName q) k1 := by
  unfold poleLine at h
  split at h
  · rename_i hs
    split at h
    · cases h
    · rename_i T S hT
      rw [if_pos hs, hf _ _ _ hT]
      cases b <;> (cases h; exact ⟨rfl, rfl⟩)
  · rename_i hs
    split at h
    · cases h
    · rename_i T S hT
      rw [if_neg hs, hf _ _ _ hT]
      cases h
      exact ⟨rfl, rfl⟩

/-- The energies before, between and behind the gaps. -/
def three (W0 W1 W2 : ℝ) : ℕ → ℝ
  | 0 => W0
  | 1 => W1
  | _ => W2

/-- A kinematic record at an energy. -/
structure At (Es lam W : ℝ) (a : Kin) : Prop where
  gamma : a.gamma = W / Es
  beta : a.beta = Spec.speed Es W
  k : a.k = Spec.wave lam Es W
  fast : 1 < W / Es * (W / Es)

/-- The variables of the transverse loop as a pace. -/
def paceOf (t : Trans) : Pace := ⟨t.beta, t.gamma, t.kfac, t.fy, t.seg⟩

theorem transStep_ray {cav : Cav} {fac : String → ℝ → ℝ × ℝ} (hf : Factors cav fac) {Z scl Rm lam Es W0 W1 W2 s : ℝ} {a b c : Kin}
    (ha : At Es lam W0 a) (hb : At Es lam W1 b) (hc : At Es lam W2 c) {P : RawParams} {x : Line} {t t' : Trans}
    (hx : lineOf cav ((a.k + b.k) / 2) ((b.k + c.k) / 2) a b c s P = .ok x)
    (h : transStep cav.mpoleLevel Z scl Rm lam a b c (P, s, x) t = .ok t') :
    ∃ A, OnlyT A ∧ t'.M = A * t.M ∧ ∀ r : Ray, ∃ r',
      Spec.ActsT ⟨Z, Es, scl, Rm, lam, cav.mpoleLevel⟩ (three W0 W1 W2) fac (pieceTwo P) s (paceOf t) r (paceOf t') r' ∧
        A.mulVec r.coords = r'.coords := by
  have idle : ∀ {Q : Ray → Ray → Prop}, (∀ r, Q r r) → ∃ A, OnlyT A ∧ t.M = A * t.M ∧ ∀ r : Ray, ∃ r', Q r r' ∧ A.mulVec r.coords = r'.coords :=
    fun hs => ⟨1, OnlyT.one, by rw [one_mul], fun r => ⟨r, hs r, by rw [Matrix.one_mulVec]⟩⟩
  have same : ∀ {A : Mat} {f : Ray → Ray} {Q : Ray → Ray → Prop}, OnlyT A → (∀ r : Ray, A.mulVec r.coords = (f r).coords) →
      (∀ r, Q r (f r)) → ∃ A', OnlyT A' ∧ A * t.M = A' * t.M ∧ ∀ r : Ray, ∃ r', Q r r' ∧ A'.mulVec r.coords = r'.coords :=
    fun {A f Q} hA hr hs => ⟨A, hA, rfl, fun r => ⟨f r, hs r, hr r⟩⟩
  have key : ∀ {p q : Pole} {fl : Bool}, poleLine cav P.E0 s ((a.k + b.k) / 2) ((b.k + c.k) / 2) p q fl = .ok x →
      (∀ kA kB, Spec.reflected fac kA kB s P.type = @ite _ (s < 0) (Classical.propDecidable _)
        (if fl then (-(fac (poleName p) kA).1, (fac (poleName p) kA).2) else ((fac (poleName p) kA).1, -(fac (poleName p) kA).2))
        (fac (poleName q) kB)) →
      x.E0 = P.E0 ∧ (x.T, x.S) = Spec.reflected fac ((Spec.wave lam Es W0 + Spec.wave lam Es W1) / 2)
        ((Spec.wave lam Es W1 + Spec.wave lam Es W2) / 2) s P.type := by
    intro p q fl hp hr
    obtain ⟨h1, h2⟩ := poleLine_ok hf hp
    refine ⟨h1, ?_⟩
    rw [h2, hr, ha.k, hb.k, hc.k]
  unfold transStep at h
  simp only [eKick_spec, hKick_spec] at h
  unfold lineOf at hx
  split at h
  · rename_i e
    cases h
    refine same (driftT_only _) (driftT_ray _) (fun r => ?_)
    simp [Spec.ActsT, pieceTwo, e, paceOf]
  · rename_i e
    cases h
    simp only [e] at hx
    obtain ⟨h1, h2⟩ := key hx (fun kA kB => by simp only [Spec.reflected, e]; rfl)
    refine same (focusT_only _ _) (focusT_ray _ _) (fun r => ?_)
    simp only [Spec.ActsT, pieceTwo, e, paceOf]
    rw [e] at h2
    simp only [three]
    rw [← h2, h1]
    exact ⟨trivial, rfl⟩
  · rename_i e
    cases h
    simp only [e] at hx
    obtain ⟨h1, h2⟩ := key hx (fun kA kB => by simp only [Spec.reflected, e]; rfl)
    refine same (focusT_only _ _) (focusT_ray _ _) (fun r => ?_)
    simp only [Spec.ActsT, pieceTwo, e, paceOf]
    rw [e] at h2
    simp only [three]
    rw [← h2, h1]
    exact ⟨trivial, rfl⟩
  · rename_i e
    cases h
    simp only [e] at hx
    split
    · rename_i ho
      rw [if_pos ho] at hx
      obtain ⟨h1, h2⟩ := key hx (fun kA kB => by simp only [Spec.reflected, e]; rfl)
      refine same (kickT_only _) (kickT_ray _) (fun r => ?_)
      simp only [Spec.ActsT, pieceTwo, e, paceOf]
      rw [e] at h2
      simp only [three]
      rw [← h2, h1, if_pos ho]
      exact ⟨trivial, rfl⟩
    · rename_i ho
      refine idle (fun r => ?_)
      simp [Spec.ActsT, pieceTwo, e, ho]
  · rename_i e
    cases h
    simp only [e] at hx
    split
    · rename_i ho
      rw [if_pos ho] at hx
      obtain ⟨h1, h2⟩ := key hx (fun kA kB => by simp only [Spec.reflected, e]; rfl)
      refine same (focusT_only _ _) (focusT_ray _ _) (fun r => ?_)
      simp only [Spec.ActsT, pieceTwo, e, paceOf]
      rw [e] at h2
      simp only [three]
      rw [← h2, h1, if_pos ho]
      exact ⟨trivial, rfl⟩
    · rename_i ho
      refine idle (fun r => ?_)
      simp [Spec.ActsT, pieceTwo, e, ho]
  · rename_i e
    cases h
    simp only [e] at hx
    split
    · rename_i ho
      rw [if_pos ho] at hx
      obtain ⟨h1, h2⟩ := key hx (fun kA kB => by simp only [Spec.reflected, e]; rfl)
      refine same (focusT_only _ _) (focusT_ray _ _) (fun r => ?_)
      simp only [Spec.ActsT, pieceTwo, e, paceOf]
      rw [e] at h2
      simp only [three]
      rw [← h2, h1, if_pos ho]
      exact ⟨trivial, rfl⟩
    · rename_i ho
      refine idle (fun r => ?_)
      simp [Spec.ActsT, pieceTwo, e, ho]
  · rename_i e
    cases h
    simp only [e] at hx
    split
    · rename_i ho
      rw [if_pos ho] at hx
      obtain ⟨h1, h2⟩ := key hx (fun kA kB => by simp only [Spec.reflected, e]; rfl)
      refine same (kickT_only _) (kickT_ray _) (fun r => ?_)
      simp only [Spec.ActsT, pieceTwo, e, paceOf]
      rw [e] at h2
      simp only [three]
      rw [← h2, h1, if_pos ho]
      exact ⟨trivial, rfl⟩
    · rename_i ho
      refine idle (fun r => ?_)
      simp [Spec.ActsT, pieceTwo, e, ho]
  · rename_i e
    cases h
    simp only [e] at hx
    split
    · rename_i ho
      rw [if_pos ho] at hx
      obtain ⟨h1, h2⟩ := key hx (fun kA kB => by simp only [Spec.reflected, e]; rfl)
      refine same (focusT_only _ _) (focusT_ray _ _) (fun r => ?_)
      simp only [Spec.ActsT, pieceTwo, e, paceOf]
      rw [e] at h2
      simp only [three]
      rw [← h2, h1, if_pos ho, if_pos ho]
      by_cases hs : s < 0
      · simp only [hs, if_true, ha.beta, hb.beta, ha.gamma, hb.gamma]
        exact ⟨trivial, trivial⟩
      · simp only [hs, if_false, hc.beta, hb.beta, hc.gamma, hb.gamma]
        exact ⟨trivial, trivial⟩
    · rename_i ho
      refine idle (fun r => ?_)
      simp [Spec.ActsT, pieceTwo, e, ho]
  · rename_i e
    simp only [e] at hx
    cases hx
    split at h
    · cases h
    · rename_i g hg
      cases h
      refine same (accelT_only _) (accelT_ray _) (fun r => ?_)
      have hn : t.seg < 2 := by
        by_contra hn
        rw [List.getElem?_eq_none (by simp; omega)] at hg
        cases hg
      have hga : At Es lam (three W0 W1 W2 (t.seg + 1)) g := by
        have : t.seg = 0 ∨ t.seg = 1 := by omega
        rcases this with h0 | h0 <;> rw [h0] at hg ⊢ <;> cases hg
        · exact hb
        · exact hc
      simp only [Spec.ActsT, pieceTwo, e, paceOf]
      refine ⟨hn, ?_, ?_⟩
      · rw [Spec.pace, hga.beta, hga.gamma]
        rfl
      · by_cases hs : s < 0
        · simp only [hs, if_true, ha.beta, hb.beta, ha.gamma, hb.gamma, three, Spec.momentum, Spec.speed]
        · simp only [hs, if_false, hc.beta, hb.beta, hc.gamma, hb.gamma, three, Spec.momentum, Spec.speed]
  · cases h

theorem transFold_ray {cav : Cav} {fac : String → ℝ → ℝ × ℝ} (hf : Factors cav fac) {Z scl Rm lam Es W0 W1 W2 : ℝ} {a b c : Kin}
    (ha : At Es lam W0 a) (hb : At Es lam W1 b) (hc : At Es lam W2 c) (l : List RawParams) :
    ∀ {s : ℝ} {lines : List (RawParams × ℝ × Line)} {t t' : Trans},
    linesFrom cav ((a.k + b.k) / 2) ((b.k + c.k) / 2) a b c s l = .ok lines →
    foldE (transStep cav.mpoleLevel Z scl Rm lam a b c) lines t = .ok t' →
    ∃ A, OnlyT A ∧ t'.M = A * t.M ∧ ∀ r : Ray, ∃ r',
      Spec.PassesT ⟨Z, Es, scl, Rm, lam, cav.mpoleLevel⟩ (three W0 W1 W2) fac (l.map pieceTwo) s (paceOf t) r r' ∧
        A.mulVec r.coords = r'.coords := by
  induction l with
  | nil =>
    intro s lines t t' h1 h2
    cases h1
    cases h2
    exact ⟨1, OnlyT.one, by rw [one_mul], fun r => ⟨r, rfl, by rw [Matrix.one_mulVec]⟩⟩
  | cons P l ih =>
    intro s lines t t' h1 h2
    rw [linesFrom] at h1
    split at h1
    · cases h1
    rename_i x hx
    split at h1
    · cases h1
    rename_i r hr
    cases h1
    rw [foldE] at h2
    split at h2
    · cases h2
    rename_i u hu
    obtain ⟨A, hA, e1, p1⟩ := transStep_ray hf ha hb hc hx hu
    obtain ⟨B, hB, e2, p2⟩ := ih hr h2
    refine ⟨B * A, hB.mul hA, by rw [e2, e1, Matrix.mul_assoc], fun r => ?_⟩
    obtain ⟨r1, a1, a2⟩ := p1 r
    obtain ⟨r2, b1, b2⟩ := p2 r1
    exact ⟨r2, ⟨_, r1, a1, b1⟩, by rw [← b2, ← a2, Matrix.mulVec_mulVec]⟩

/-- The facts about a gap. -/
def gapOf (g : Gap) : Spec.Gap2 := ⟨g.Ecen, g.T, g.Tp, g.S, g.Sp, g.V0⟩

theorem gapModel_ok {dis W Z Es u lam scl Rm : ℝ} {o : ℕ} {a : Kin} (ha : At Es lam W a) {g : Gap} {W' u' : ℝ} {b : Kin}
    (h : evalGapModel dis W Z Es u a.k lam g = .ok (W', b, u')) :
    At Es lam W' b ∧ Spec.GapModel ⟨Z, Es, scl, Rm, lam, o⟩ dis (gapOf g) W u W' u' := by
  unfold evalGapModel at h
  dsimp only at h
  split at h
  · cases h
  rename_i q hq
  obtain ⟨h1, h2, h3, h4⟩ := kin_spec hq
  have e : (W + Z * g.V0 * g.T * Real.cos (u + a.k * g.Ecen) * MeVtoeV - Z * g.V0 * g.S * Real.sin (u + a.k * g.Ecen) * MeVtoeV, q,
      u + a.k * g.Ecen + q.k * (dis - g.Ecen) + Z * g.V0 * a.k * (g.Tp * Real.sin (u + a.k * g.Ecen) +
        g.Sp * Real.cos (u + a.k * g.Ecen)) / (2 * (W - Es) / MeVtoeV)) = (W', b, u') := Except.ok.inj h
  obtain ⟨rfl, e2, rfl⟩ : _ ∧ _ ∧ _ := by simpa only [Prod.mk.injEq] using e
  subst e2
  refine ⟨⟨h1, h2, h3, h4⟩, ?_, ?_⟩
  · dsimp only [gapOf]
    rw [Spec.gain, ha.k, MeVtoeV]
    ring
  · dsimp only [gapOf]
    rw [h3, ha.k, MeVtoeV]
    ring_nf

theorem lonM_ray {Z Es dis lam scl Rm W0 W1 W2 u0 u1 : ℝ} {o : ℕ} {a b c : Kin} (ha : At Es lam W0 a) (hb : At Es lam W1 b)
    (hc : At Es lam W2 c) (g1 g2 : Gap) (r : Ray) :
    ∃ r', Spec.PassesL ⟨Z, Es, scl, Rm, lam, o⟩ dis (gapOf g1) (gapOf g2) (three W0 W1 W2) u0 u1 r r' ∧
      (lonM Z Es dis lam a b c { g1 with Ecen := g1.Ecen - dis } g2 u0 u1).mulVec r.coords = r'.coords := by
  have ma : a.beta * a.gamma = Spec.momentum Es W0 := by rw [ha.beta, ha.gamma]; rfl
  have mb : b.beta * b.gamma = Spec.momentum Es W1 := by rw [hb.beta, hb.gamma]; rfl
  have mc : c.beta * c.gamma = Spec.momentum Es W2 := by rw [hc.beta, hc.gamma]; rfl
  obtain ⟨r1, p1, q1⟩ := slip_ray (l := g1.Ecen) (lam := lam) ma ha.fast r
  obtain ⟨r2, p2, q2⟩ := slip_ray (l := g2.Ecen + dis - g1.Ecen) (lam := lam) mb hb.fast
    (r1.push Z g1.V0 g1.T g1.S (u0 + (a.k + b.k) / 2 * g1.Ecen))
  obtain ⟨r3, p3, q3⟩ := slip_ray (l := dis - g2.Ecen) (lam := lam) mc hc.fast
    (r2.push Z g2.V0 g2.T g2.S (u1 + (b.k + c.k) / 2 * g2.Ecen))
  refine ⟨r3, ⟨r1, r2, p1, ?_, ?_⟩, ?_⟩
  · rw [ha.k, hb.k] at p2
    exact p2
  · rw [hb.k, hc.k] at p3
    exact p3
  · rw [lonM]
    dsimp only
    simp only [← Matrix.mulVec_mulVec]
    rw [show dis + (g1.Ecen - dis) = g1.Ecen by ring, show g2.Ecen - (g1.Ecen - dis) = g2.Ecen + dis - g1.Ecen by ring, q1, kickL_push,
      q2, kickL_push, q3]

/-- **C72**, cavities with two gaps: phases and energies of the centre follow the gap model; the matrix takes each particle next to it
where it gets to when its transverse motion is followed through the pieces of the lattice and its longitudinal motion through the two
gaps. -/
theorem C72_twogap {cav : Cav} {label : Nat} {Rm Z Es scl fy0 Ek : ℝ} {M : Mat}
    (h : getCavMat cav label Rm Z Es scl fy0 Ek = .ok M) (fac : String → ℝ → ℝ × ℝ) (hf : Factors cav fac) :
    let lam := 299792458 / cav.fRF * 1000
    let g : Setting := ⟨Z, Es, scl, Rm, lam, cav.mpoleLevel⟩
    let dis := extent cav.cavData / 2
    ∃ g1 g2 W1 W2 u1 u2,
      transFacts cav.forcettfcalc cav.cavData label (Spec.speed Es (Ek + Es)) (Spec.wave lam Es (Ek + Es)) 1 scl = .ok g1 ∧
      transFacts cav.forcettfcalc cav.cavData label (Spec.speed Es W1) (Spec.wave lam Es W1) 2 scl = .ok g2 ∧
      Spec.GapModel g dis (gapOf g1) (Ek + Es) fy0 W1 u1 ∧ Spec.GapModel g dis (gapOf g2) W1 u1 W2 u2 ∧
      ∀ r : Ray, ∃ r1 r2,
        Spec.PassesT g (three (Ek + Es) W1 W2) fac (cav.lattice.map pieceTwo) ((cav.cavData.rows.map (·.getD 0 0)).headD 0)
          (Spec.pace lam Es (Ek + Es) fy0 0) r r1 ∧
        Spec.PassesL g dis (gapOf g1) (gapOf g2) (three (Ek + Es) W1 W2) fy0 u1 r1 r2 ∧ M.mulVec r.coords = r2.coords := by
  intro lam g dis
  unfold getCavMat at h
  dsimp only at h
  split at h
  · cases h
  rename_i a ha
  obtain ⟨k1, k2, k3, k4⟩ := kin_spec ha
  have aa : At Es lam (Ek + Es) a := ⟨k1, k2, k3, k4⟩
  split at h
  · cases h
  rename_i g1 hg1
  split at h
  · cases h
  rename_i W1 b fy1 he1
  obtain ⟨ab, m1⟩ := gapModel_ok (scl := scl) (Rm := Rm) (o := cav.mpoleLevel) aa he1
  split at h
  · cases h
  rename_i g2 hg2
  split at h
  · cases h
  rename_i W2 c fy2 he2
  obtain ⟨ac, m2⟩ := gapModel_ok (scl := scl) (Rm := Rm) (o := cav.mpoleLevel) ab he2
  split at h
  · cases h
  rename_i lines hl
  split at h
  · cases h
  rename_i t ht
  cases h
  rw [k2, k3] at hg1
  rw [ab.beta, ab.k] at hg2
  refine ⟨g1, g2, W1, W2, fy1, fy2, hg1, hg2, m1, m2, fun r => ?_⟩
  unfold getCavMatParams at hl
  split at hl
  · cases hl
  obtain ⟨A, hA, e, p⟩ := transFold_ray hf aa ab ac cav.lattice hl ht
  obtain ⟨r1, p1, p2⟩ := p r
  obtain ⟨r2, q1, q2⟩ := lonM_ray (Z := Z) (dis := dis) (scl := scl) (Rm := Rm) (u0 := fy0) (u1 := fy1) (o := cav.mpoleLevel) aa ab ac g1 g2 r1
  refine ⟨r1, r2, ?_, q1, ?_⟩
  · have : paceOf { seg := 0, beta := a.beta, gamma := a.gamma, fy := fy0, kfac := a.k, M := 1 } = Spec.pace lam Es (Ek + Es) fy0 0 := by
      simp only [paceOf, Spec.pace, k1, k2, k3]
      rfl
    rw [← this]
    exact p1
  · obtain ⟨hL, -⟩ := lonM_only Z Es dis lam a b c { g1 with Ecen := g1.Ecen - dis } g2 fy0 fy1
    have hT : OnlyT t.M := by rw [e]; exact hA.mul OnlyT.one
    rw [show combine t.M (lonM Z Es (extent cav.cavData / 2) (C0 / cav.fRF * MtoMM) a b c
      { g1 with Ecen := g1.Ecen - extent cav.cavData / 2 } g2 fy0 fy1) = t.M * lonM Z Es dis lam a b c
      { g1 with Ecen := g1.Ecen - dis } g2 fy0 fy1 from combine_eq hT hL, only_comm hT hL, ← Matrix.mulVec_mulVec, e, Matrix.mul_one, p2, q2]

/-! ## charge states -/

theorem jump_ray {m : ℝ} {M : Mat} {r r' : Ray} (h : M.mulVec (r.inside m).coords = r'.coords) :
    (jump m M).mulVec r.coords = ({ r' with ph := r'.ph / m } : Ray).coords := by
  have e : ∀ i, (jump m M).mulVec r.coords i = M.mulVec (r.inside m).coords i / (if i = 4 then m else 1) := by
    intro i
    rw [jump_eq]
    simp only [Matrix.mulVec, dotProduct, Finset.sum_div]
    refine Finset.sum_congr rfl (fun j _ => ?_)
    have : (r.inside m).coords j = r.coords j * (if j = 4 then m else 1) := by
      fin_cases j <;> simp [Ray.coords, Ray.inside]
    rw [this]
    ring
  funext i
  rw [e, h]
  fin_cases i <;> simp [Ray.coords]

theorem inside_back {m : ℝ} (hm : m ≠ 0) (r : Ray) : ({ r with ph := r.ph / m } : Ray).inside m = r := by
  simp [Ray.inside, hm]

theorem initRFCav_ok {c : LCfg} {cav : Cav} {phiRef : ℝ} {p p' : Particle} {M : Mat} (h : initRFCav c cav phiRef p = .ok (p', M)) :
    ∃ label Rm scl N, labelOf cav.cavi = .ok (label, Rm) ∧ getNum c "scl_fac" = .ok scl ∧
      (if 0 < cav.cavi then getCavMat cav label Rm p.IonZ p.IonEs scl (cav.fRF / p.SampleFreq * p.phis + phiRef) p.IonEk
          else getCavMatGeneric cav p.IonZ p.IonEs scl (cav.fRF / p.SampleFreq * p.phis + phiRef) p.IonEk) = .ok N ∧
      (cav.fRF / p.SampleFreq = 1 → M = N) ∧ (cav.fRF / p.SampleFreq ≠ 1 → M = jump (cav.fRF / p.SampleFreq) N) := by
  unfold initRFCav at h
  split at h
  · cases h
  rename_i label Rm hl
  dsimp only at h
  split at h
  · cases h
  rename_i scl hs
  split at h
  · cases h
  split at h
  · cases h
  rename_i N hN
  cases h
  exact ⟨label, Rm, scl, N, hl, hs, hN, fun h => by simp [h], fun h => by rw [if_pos h]⟩

theorem outside_ray {m : ℝ} {M N : Mat} (hM : (m = 1 → M = N) ∧ (m ≠ 1 → M = jump m N)) {r r' : Ray}
    (h : N.mulVec (r.inside m).coords = r'.coords) : M.mulVec r.coords = ({ r' with ph := r'.ph / m } : Ray).coords := by
  by_cases h1 : m = 1
  · rw [hM.1 h1]
    subst h1
    simpa [Ray.inside] using h
  · rw [hM.2 h1]
    exact jump_ray h

/-- **C72** for a charge state in a generic cavity: its matrix follows rays through the lattice with the settings of the element,
starting from its energy and from its phase at the frequency of the cavity. -/
theorem C72_particle_generic {c : LCfg} {cav : Cav} {phiRef : ℝ} {p p' : Particle} {M : Mat} (h : initRFCav c cav phiRef p = .ok (p', M))
    (hc : cav.cavi = 0) (hm : cav.fRF / p.SampleFreq ≠ 0) :
    ∃ scl W' u', getNum c "scl_fac" = .ok scl ∧ ∀ r : Ray, ∃ r' : Ray,
      Spec.Passes ⟨p.IonZ, p.IonEs, scl, cav.cRm, 299792458 / cav.fRF * 1000, cav.mpoleLevel⟩ (cav.lattice.map pieceOf)
        (p.IonEk + p.IonEs) (cav.fRF / p.SampleFreq * p.phis + phiRef) (r.inside (cav.fRF / p.SampleFreq)) W' u'
        (r'.inside (cav.fRF / p.SampleFreq)) ∧ M.mulVec r.coords = r'.coords := by
  obtain ⟨label, Rm, scl, N, -, hs, hN, hM⟩ := initRFCav_ok h
  rw [if_neg (by omega)] at hN
  obtain ⟨W', u', hr⟩ := C72_generic hN
  refine ⟨scl, W', u', hs, fun r => ?_⟩
  obtain ⟨r', h1, h2⟩ := hr (r.inside (cav.fRF / p.SampleFreq))
  refine ⟨{ r' with ph := r'.ph / (cav.fRF / p.SampleFreq) }, ?_, outside_ray hM h2⟩
  rw [inside_back hm]
  exact h1

/-- Label and aperture (mm) of the cavities with two gaps, by number. -/
noncomputable def built72 : ℕ → ℕ × ℝ
  | 1 => (41, 17)
  | 2 => (85, 17)
  | 3 => (29, 20)
  | _ => (53, 20)

/-- **C72** for a charge state in a cavity with two gaps. -/
theorem C72_particle_twogap {c : LCfg} {cav : Cav} {phiRef : ℝ} {p p' : Particle} {M : Mat} (h : initRFCav c cav phiRef p = .ok (p', M))
    (hc : 0 < cav.cavi) (hm : cav.fRF / p.SampleFreq ≠ 0) (fac : String → ℝ → ℝ × ℝ) (hf : Factors cav fac) :
    let m := cav.fRF / p.SampleFreq
    let lam := 299792458 / cav.fRF * 1000
    let dis := extent cav.cavData / 2
    let W0 := p.IonEk + p.IonEs
    let u0 := m * p.phis + phiRef
    ∃ scl g1 g2 W1 W2 u1 u2, let g : Setting := ⟨p.IonZ, p.IonEs, scl, (built72 cav.cavi).2, lam, cav.mpoleLevel⟩
      getNum c "scl_fac" = .ok scl ∧
      transFacts cav.forcettfcalc cav.cavData (built72 cav.cavi).1 (Spec.speed p.IonEs W0) (Spec.wave lam p.IonEs W0) 1 scl = .ok g1 ∧
      transFacts cav.forcettfcalc cav.cavData (built72 cav.cavi).1 (Spec.speed p.IonEs W1) (Spec.wave lam p.IonEs W1) 2 scl = .ok g2 ∧
      Spec.GapModel g dis (gapOf g1) W0 u0 W1 u1 ∧ Spec.GapModel g dis (gapOf g2) W1 u1 W2 u2 ∧
      ∀ r : Ray, ∃ r1 r' : Ray,
        Spec.PassesT g (three W0 W1 W2) fac (cav.lattice.map pieceTwo) ((cav.cavData.rows.map (·.getD 0 0)).headD 0)
          (Spec.pace lam p.IonEs W0 u0 0) (r.inside m) r1 ∧
        Spec.PassesL g dis (gapOf g1) (gapOf g2) (three W0 W1 W2) u0 u1 r1 (r'.inside m) ∧ M.mulVec r.coords = r'.coords := by
  obtain ⟨label, Rm, scl, N, hl, hs, hN, hM⟩ := initRFCav_ok h
  rw [if_pos hc] at hN
  have hb : built72 cav.cavi = (label, Rm) := by
    generalize cav.cavi = n at hl hc
    match n, hc with
    | 1, _ => exact Except.ok.inj hl
    | 2, _ => exact Except.ok.inj hl
    | 3, _ => exact Except.ok.inj hl
    | 4, _ => exact Except.ok.inj hl
    | 5, _ => exact Except.ok.inj hl
    | n + 6, _ => cases hl
  obtain ⟨g1, g2, W1, W2, u1, u2, h1, h2, h3, h4, h5⟩ := C72_twogap hN fac hf
  intro m lam dis W0 u0
  refine ⟨scl, g1, g2, W1, W2, u1, u2, ?_⟩
  rw [hb]
  refine ⟨hs, h1, h2, h3, h4, fun r => ?_⟩
  obtain ⟨r1, r2, a1, a2, a3⟩ := h5 (r.inside m)
  refine ⟨r1, { r2 with ph := r2.ph / m }, a1, ?_, outside_ray hM a3⟩
  rw [inside_back hm]
  exact a2

/-- There are always factors that agree with those of the cavity. -/
theorem factors_exist (cav : Cav) : ∃ fac, Factors cav fac := by
  classical
  refine ⟨fun n k => if h : ∃ x p, poleName p = n ∧ transitFacMultipole cav.forcettfcalc cav.mlptable cav.cavi p k = .ok x
    then h.choose else 0, fun p k x hx => ?_⟩
  have hex : ∃ y q, poleName q = poleName p ∧ transitFacMultipole cav.forcettfcalc cav.mlptable cav.cavi q k = .ok y := ⟨x, p, rfl, hx⟩
  dsimp only
  rw [dif_pos hex]
  obtain ⟨q, h1, h2⟩ := hex.choose_spec
  have : q = p := by cases p <;> cases q <;> first | rfl | (exact absurd h1 (by decide))
  rw [this, hx] at h2
  exact (Except.ok.inj h2).symm

end Flame.Cavity
