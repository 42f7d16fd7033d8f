import Verif.Moment.Misalign
import Verif.Linear.Optics

/-! # Phase space areas: C37; the seventh coordinate: C58; bends: C59 -/

set_option linter.unusedSimpArgs false

namespace Flame.Moment

open Flame.Mach (Err)
open Spec (phaseSpace form Preserves)
open Flame.Linear (cc ss cc_ss getNumD)

/-! ## general facts -/

/-- The seventh coordinate is kept. -/
def Keeps7 (M : Mat) : Prop := ∀ j, M 6 j = if j = 6 then 1 else 0

theorem Keeps7.mul {A B : Mat} (hA : Keeps7 A) (hB : Keeps7 B) : Keeps7 (A * B) := by
  intro j
  rw [Matrix.mul_apply, Finset.sum_eq_single 6]
  · rw [hA 6, if_pos rfl, one_mul, hB j]
  · intro k _ hk
    rw [hA k, if_neg hk, zero_mul]
  · simp

theorem Keeps7.one : Keeps7 1 := by
  intro j
  fin_cases j <;> simp [Matrix.one_apply]

theorem Keeps7.inv {A : Mat} (hA : Keeps7 A) (hd : A.det ≠ 0) : Keeps7 A⁻¹ := by
  have h1 : A * A⁻¹ = 1 := Matrix.mul_nonsing_inv A (isUnit_iff_ne_zero.2 hd)
  intro j
  have h2 := congrFun (congrFun h1 6) j
  rw [Matrix.mul_apply, Finset.sum_eq_single 6] at h2
  rotate_left
  · intro k _ hk
    rw [hA k, if_neg hk, zero_mul]
  · simp
  rw [hA 6, if_pos rfl, one_mul] at h2
  rw [h2]
  fin_cases j <;> simp [Matrix.one_apply]

theorem phaseSpace_mul {A B : Mat} (hB : Keeps7 B) : phaseSpace (A * B) = phaseSpace A * phaseSpace B := by
  ext i j
  have e : (phaseSpace A * phaseSpace B) i j = ∑ k : Fin 6, A i.castSucc k.castSucc * B k.castSucc j.castSucc :=
    Matrix.mul_apply
  rw [e]
  change (A * B) i.castSucc j.castSucc = _
  rw [Matrix.mul_apply, Fin.sum_univ_castSucc]
  have : B (Fin.last 6) j.castSucc = 0 := by
    rw [show (Fin.last 6 : Fin 7) = 6 from rfl, hB]
    fin_cases j <;> simp
  rw [this, mul_zero, add_zero]

theorem phaseSpace_one : phaseSpace 1 = 1 := by
  ext i j
  fin_cases i <;> fin_cases j <;> simp [phaseSpace, Matrix.one_apply]

theorem preserves_mul {w : ℝ} {A B : Matrix (Fin 6) (Fin 6) ℝ} (hA : Preserves w A) (hB : Preserves w B) :
    Preserves w (A * B) := by
  unfold Preserves at *
  rw [Matrix.transpose_mul]
  calc B.transpose * A.transpose * form w * (A * B) = B.transpose * (A.transpose * form w * A) * B := by
        simp only [Matrix.mul_assoc]
    _ = form w := by rw [hA, hB]

theorem preserves_one (w : ℝ) : Preserves w 1 := by
  unfold Preserves
  simp

/-- Both together, for products. -/
def Good (w : ℝ) (M : Mat) : Prop := Keeps7 M ∧ Preserves w (phaseSpace M)

theorem Good.mul {w : ℝ} {A B : Mat} (hA : Good w A) (hB : Good w B) : Good w (A * B) :=
  ⟨hA.1.mul hB.1, by rw [phaseSpace_mul hB.1]; exact preserves_mul hA.2 hB.2⟩

theorem Good.one (w : ℝ) : Good w 1 := ⟨Keeps7.one, by rw [phaseSpace_one]; exact preserves_one w⟩

theorem Good.slices {w : ℝ} {n : Nat} {f : Nat → Mat} (h : ∀ j, Good w (f j)) : Good w (slices n f) := by
  unfold Flame.Moment.slices
  have : ∀ (l : List Nat) (M : Mat), Good w M → Good w (l.foldl (fun M j => f j * M) M) := by
    intro l
    induction l with
    | nil => exact fun M h => h
    | cons a l ih => exact fun M hM => ih _ ((h a).mul hM)
  exact this _ _ (Good.one w)

theorem preserves_inv {w : ℝ} {A B : Matrix (Fin 6) (Fin 6) ℝ} (hA : Preserves w A) (h : A * B = 1) :
    Preserves w B := by
  unfold Preserves at *
  have : B.transpose * A.transpose = 1 := by rw [← Matrix.transpose_mul, h, Matrix.transpose_one]
  calc B.transpose * form w * B = B.transpose * (A.transpose * form w * A) * B := by rw [hA]
    _ = (B.transpose * A.transpose) * form w * (A * B) := by simp only [Matrix.mul_assoc]
    _ = form w := by rw [this, h]; simp

/-! ## the matrices in closed form -/

theorem quadPlane_eq (L K : ℝ) (i j : Fin 7) (M : Mat) :
    quadPlane L K i j M =
      setAt (setAt (setAt (setAt M j j (cc K L)) i i (cc K L)) i j (ss K L)) j i (-K * ss K L) := by
  unfold quadPlane cc ss
  rcases lt_trichotomy K 0 with h | h | h
  · have h1 : Real.sqrt (-K) * Real.sqrt (-K) = -K := Real.mul_self_sqrt (by linarith)
    have h0 : Real.sqrt (-K) ≠ 0 := (Real.sqrt_pos.2 (by linarith)).ne'
    simp only [if_neg (show ¬ 0 < K by linarith), if_pos h, if_pos h0]
    congr 1
    nth_rewrite 3 [← h1]
    field_simp
  · subst h
    simp
  · have h1 : Real.sqrt K * Real.sqrt K = K := Real.mul_self_sqrt h.le
    have h0 : Real.sqrt K ≠ 0 := (Real.sqrt_pos.2 h).ne'
    simp only [if_pos h, if_pos h0]
    congr 1
    nth_rewrite 3 [← h1]
    field_simp

/-- Two planes and a longitudinal entry. -/
noncomputable def planesS (kx ky L s : ℝ) : Matrix (Fin 6) (Fin 6) ℝ :=
  !![cc kx L, ss kx L, 0, 0, 0, 0;
     -kx * ss kx L, cc kx L, 0, 0, 0, 0;
     0, 0, cc ky L, ss ky L, 0, 0;
     0, 0, -ky * ss ky L, cc ky L, 0, 0;
     0, 0, 0, 0, 1, s;
     0, 0, 0, 0, 0, 1]

theorem planesS_preserves (w kx ky L s : ℝ) : Preserves w (planesS kx ky L s) := by
  have hx := cc_ss kx L
  have hy := cc_ss ky L
  unfold Preserves
  ext i j
  fin_cases i <;> fin_cases j <;>
    simp [planesS, form, Matrix.mul_apply, Fin.sum_univ_six] <;>
      first | ring1 | linear_combination hx | linear_combination -hx | linear_combination hy | linear_combination -hy

theorem quadM_phase (p : Particle) (L K : ℝ) : phaseSpace (quadM p L K) = planesS K (-K) L (slip p L) := by
  unfold quadM
  rw [quadPlane_eq, quadPlane_eq]
  ext a b
  fin_cases a <;> fin_cases b <;> simp [phaseSpace, setAt, planesS, Matrix.one_apply]

theorem quadM_good (w : ℝ) (p : Particle) (L K : ℝ) : Good w (quadM p L K) := by
  refine ⟨fun j => ?_, by rw [quadM_phase]; exact planesS_preserves _ _ _ _ _⟩
  unfold quadM
  rw [quadPlane_eq, quadPlane_eq]
  fin_cases j <;> simp [setAt, Matrix.one_apply]

theorem driftM_phase (p : Particle) (L : ℝ) : phaseSpace (driftM p L) = planesS 0 0 L (slip p L) := by
  ext a b
  fin_cases a <;> fin_cases b <;> simp [phaseSpace, driftM, setAt, planesS, Matrix.one_apply, cc, ss]

theorem driftM_good (w : ℝ) (p : Particle) (L : ℝ) : Good w (driftM p L) := by
  refine ⟨fun j => ?_, by rw [driftM_phase]; exact planesS_preserves _ _ _ _ _⟩
  fin_cases j <;> simp [driftM, setAt, Matrix.one_apply]

/-- The solenoid with a longitudinal entry. -/
noncomputable def solS (K C s sl : ℝ) : Matrix (Fin 6) (Fin 6) ℝ :=
  !![C * C, s * C, K * s * C, K * s * s, 0, 0;
     -K * (K * s) * C, C * C, -K * (K * s * (K * s)), K * s * C, 0, 0;
     -(K * s) * C, -(K * s * s), C * C, s * C, 0, 0;
     K * (K * s * (K * s)), -(K * s) * C, -K * (K * s) * C, C * C, 0, 0;
     0, 0, 0, 0, 1, sl;
     0, 0, 0, 0, 0, 1]

theorem solS_preserves (w K C s sl : ℝ) (h : C ^ 2 + K * K * s ^ 2 = 1) : Preserves w (solS K C s sl) := by
  have h2 : (C ^ 2 + K * K * s ^ 2) ^ 2 = 1 := by rw [h]; norm_num
  unfold Preserves
  ext i j
  fin_cases i <;> fin_cases j <;>
    simp [solS, form, Matrix.mul_apply, Fin.sum_univ_six] <;> first | ring1 | linear_combination h2 | linear_combination -h2

theorem solenoidM_phase (p : Particle) (L K : ℝ) :
    phaseSpace (solenoidM p L K) = solS K (cc (K * K) L) (ss (K * K) L) (slip p L) := by
  have hC := Flame.Linear.cc_sq K L
  have hS := Flame.Linear.ss_sq K L
  by_cases h : K = 0
  · subst h
    ext a b
    fin_cases a <;> fin_cases b <;> simp [phaseSpace, solenoidM, solM, setAt, solS, Matrix.one_apply, cc, ss]
  · have hs : Real.sin (K * L) / K = ss (K * K) L := by rw [← hS]; field_simp
    ext a b
    fin_cases a <;> fin_cases b <;>
      simp [phaseSpace, solenoidM, solM, setAt, solS, Matrix.one_apply, h, ← hC, ← hS] <;> field_simp

theorem solenoidM_good (w : ℝ) (p : Particle) (L K : ℝ) : Good w (solenoidM p L K) := by
  refine ⟨fun j => ?_, by rw [solenoidM_phase]; exact solS_preserves _ _ _ _ _ (cc_ss _ _)⟩
  fin_cases j <;> simp [solenoidM, solM, setAt, Matrix.one_apply]

theorem edgeM_good (w rho phi : ℝ) : Good w (edgeM rho phi) := by
  refine ⟨fun j => ?_, ?_⟩
  · fin_cases j <;> simp [edgeM, setAt, Matrix.one_apply]
  · have h : phaseSpace (edgeM rho phi) =
        !![1, 0, 0, 0, 0, 0; Real.tan phi / rho, 1, 0, 0, 0, 0; 0, 0, 1, 0, 0, 0; 0, 0, -Real.tan phi / rho, 1, 0, 0;
           0, 0, 0, 0, 1, 0; 0, 0, 0, 0, 0, 1] := by
      ext a b
      fin_cases a <;> fin_cases b <;> simp [phaseSpace, edgeM, setAt, Matrix.one_apply]
    rw [h]
    unfold Preserves
    ext i j
    fin_cases i <;> fin_cases j <;> simp [form, Matrix.mul_apply, Fin.sum_univ_six]

theorem kickM_good (w a b : ℝ) : Good w (setAt (setAt 1 1 6 a) 3 6 b) := by
  refine ⟨fun j => ?_, ?_⟩
  · fin_cases j <;> simp [setAt, Matrix.one_apply]
  · have h : phaseSpace (setAt (setAt 1 1 6 a) 3 6 b) = 1 := by
      ext a b
      fin_cases a <;> fin_cases b <;> simp [phaseSpace, setAt, Matrix.one_apply]
    rw [h]
    exact preserves_one w

/-! ## misalignment -/

theorem midM_keeps (z : ℝ) : Keeps7 (midM z) := by
  intro j
  fin_cases j <;> simp [midM, setAt, Matrix.one_apply]

theorem scaleM_keeps (k q : ℝ) : Keeps7 (scaleM k q) := by
  intro j
  fin_cases j <;> simp [scaleM, setAt, Matrix.one_apply]

theorem middle_keeps (ref p : Particle) (z : ℝ) : Keeps7 (middle ref p z) := (midM_keeps z).mul (scaleM_keeps _ _)

theorem turn_keeps (a b c : ℝ) : Keeps7 (turn a b c) := by
  intro j
  fin_cases j <;> simp [turn, turnM]

theorem offs_keeps (a b : ℝ) : Keeps7 (offs a b) := by
  intro j
  fin_cases j <;> simp [offs, setAt, Matrix.one_apply]

theorem rotMat_keeps (dx dy a b c : ℝ) : Keeps7 (rotMat dx dy a b c) := by
  rw [rotMat_split]
  exact (turn_keeps _ _ _).mul (offs_keeps _ _)

theorem turn_preserves (a b c : ℝ) : Preserves 1 (phaseSpace (turn a b c)) := by
  have h := (turn_orthogonal a b c)
  have h' : (turn a b c).transpose * turn a b c = 1 := mul_eq_one_comm.1 h
  have e : ∀ i j, ((turn a b c).transpose * turn a b c) i j = if i = j then 1 else 0 := by
    intro i j
    rw [h', Matrix.one_apply]
  have e00 := e 0 0
  have e02 := e 0 2
  have e04 := e 0 4
  have e22 := e 2 2
  have e24 := e 2 4
  have e44 := e 4 4
  simp only [Matrix.mul_apply, Fin.sum_univ_seven, Matrix.transpose_apply] at e00 e02 e04 e22 e24 e44
  unfold turn at *
  generalize Real.cos b * Real.cos c = m11 at *
  generalize -Real.sin a * Real.sin b * Real.cos c + Real.cos a * Real.sin c = m12 at *
  generalize Real.cos a * Real.sin b * Real.cos c + Real.sin a * Real.sin c = m13 at *
  generalize -Real.cos b * Real.sin c = m21 at *
  generalize Real.sin a * Real.sin b * Real.sin c + Real.cos a * Real.cos c = m22 at *
  generalize -Real.cos a * Real.sin b * Real.sin c + Real.sin a * Real.cos c = m23 at *
  generalize -Real.sin b = m31 at *
  generalize -Real.sin a * Real.cos b = m32 at *
  generalize Real.cos a * Real.cos b = m33 at *
  simp [turnM] at e00 e02 e04 e22 e24 e44
  have hp : phaseSpace (turnM m11 m12 m13 m21 m22 m23 m31 m32 m33) =
      !![m11, 0, m12, 0, m13, 0; 0, m11, 0, m12, 0, m13; m21, 0, m22, 0, m23, 0; 0, m21, 0, m22, 0, m23;
         m31, 0, m32, 0, m33, 0; 0, m31, 0, m32, 0, m33] := by
    ext i j
    fin_cases i <;> fin_cases j <;> simp [phaseSpace, turnM]
  rw [hp]
  unfold Preserves
  ext i j
  fin_cases i <;> fin_cases j <;>
    simp [form, Matrix.mul_apply, Fin.sum_univ_six] <;>
    first
      | ring1
      | linear_combination e00
      | linear_combination -e00
      | linear_combination e02
      | linear_combination -e02
      | linear_combination e04
      | linear_combination -e04
      | linear_combination e22
      | linear_combination -e22
      | linear_combination e24
      | linear_combination -e24
      | linear_combination e44
      | linear_combination -e44

theorem offs_phase (a b : ℝ) : phaseSpace (offs a b) = 1 := by
  ext i j
  fin_cases i <;> fin_cases j <;> simp [phaseSpace, offs, setAt, Matrix.one_apply]

theorem midM_phase (z : ℝ) : phaseSpace (midM z) = 1 := by
  ext i j
  fin_cases i <;> fin_cases j <;> simp [phaseSpace, midM, setAt, Matrix.one_apply]

theorem scaleM_phase (k q : ℝ) :
    (phaseSpace (scaleM k q)).transpose * form 1 * phaseSpace (scaleM k q) = form (k * q) := by
  have h : phaseSpace (scaleM k q) = Matrix.diagonal ![1, 1, 1, 1, k, q] := by
    ext i j
    fin_cases i <;> fin_cases j <;> simp [phaseSpace, scaleM, setAt, Matrix.one_apply, Matrix.diagonal]
  rw [h]
  ext i j
  rw [Matrix.diagonal_transpose, Matrix.mul_diagonal, Matrix.diagonal_mul]
  fin_cases i <;> fin_cases j <;> simp [form]
  ring

/-- A rigid motion seen in the coordinates of the beam. -/
theorem conj_good (ref p : Particle) (z : ℝ) (hz : unitZ p ≠ 0) (hp : unitP ref p ≠ 0) (R : Mat) (hR : Good 1 R) :
    Good (unitZ p * unitP ref p) ((middle ref p z)⁻¹ * R * middle ref p z) := by
  have hdet : (middle ref p z).det ≠ 0 := by rw [middle_det]; exact mul_ne_zero hz hp
  have hk := middle_keeps ref p z
  have hki := hk.inv hdet
  refine ⟨(hki.mul hR.1).mul hk, ?_⟩
  rw [phaseSpace_mul hk, phaseSpace_mul hR.1]
  have hS : phaseSpace (middle ref p z) = phaseSpace (scaleM (unitZ p) (unitP ref p)) := by
    rw [middle, phaseSpace_mul (scaleM_keeps _ _), midM_phase, one_mul]
  have hf := scaleM_phase (unitZ p) (unitP ref p)
  rw [← hS] at hf
  have h1 : phaseSpace (middle ref p z) * phaseSpace (middle ref p z)⁻¹ = 1 := by
    rw [← phaseSpace_mul hki, (middle_inv ref p hz hp z).2, phaseSpace_one]
  have h2 : (phaseSpace (middle ref p z)⁻¹).transpose * (phaseSpace (middle ref p z)).transpose = 1 := by
    rw [← Matrix.transpose_mul, h1, Matrix.transpose_one]
  have hr := hR.2
  unfold Preserves at hr ⊢
  generalize phaseSpace (middle ref p z) = A at *
  generalize phaseSpace (middle ref p z)⁻¹ = B at *
  generalize phaseSpace R = r at *
  rw [← hf]
  have e1 : B.transpose * (A.transpose * form 1 * A) * B = form 1 := by
    calc B.transpose * (A.transpose * form 1 * A) * B = (B.transpose * A.transpose) * form 1 * (A * B) := by
          simp only [Matrix.mul_assoc]
      _ = form 1 := by rw [h1, h2]; simp
  calc (B * r * A).transpose * (A.transpose * form 1 * A) * (B * r * A)
      = A.transpose * (r.transpose * (B.transpose * (A.transpose * form 1 * A) * B) * r) * A := by
        simp only [Matrix.transpose_mul, Matrix.mul_assoc]
    _ = A.transpose * form 1 * A := by rw [e1, hr]

theorem rotMat_good (dx dy a b c : ℝ) : Good 1 (rotMat dx dy a b c) := by
  refine ⟨rotMat_keeps _ _ _ _ _, ?_⟩
  rw [rotMat_split, phaseSpace_mul (offs_keeps _ _), offs_phase, mul_one]
  exact turn_preserves a b c

theorem Good.inv {w : ℝ} {A : Mat} (h : Good w A) (hd : A.det ≠ 0) : Good w A⁻¹ := by
  refine ⟨h.1.inv hd, preserves_inv h.2 ?_⟩
  rw [← phaseSpace_mul (h.1.inv hd), Matrix.mul_nonsing_inv A (isUnit_iff_ne_zero.2 hd), phaseSpace_one]

theorem roll_good (w dx dy a : ℝ) : Good w (rotMat dx dy 0 0 a) := by
  refine ⟨rotMat_keeps _ _ _ _ _, ?_⟩
  have hc := Real.sin_sq_add_cos_sq a
  have h : phaseSpace (rotMat dx dy 0 0 a) =
      !![Real.cos a, 0, Real.sin a, 0, 0, 0; 0, Real.cos a, 0, Real.sin a, 0, 0;
         -Real.sin a, 0, Real.cos a, 0, 0, 0; 0, -Real.sin a, 0, Real.cos a, 0, 0;
         0, 0, 0, 0, 1, 0; 0, 0, 0, 0, 0, 1] := by
    rw [rollM_eq]
    ext i j
    fin_cases i <;> fin_cases j <;> simp [phaseSpace, rollM]
  rw [h]
  unfold Preserves
  ext i j
  fin_cases i <;> fin_cases j <;>
    simp [form, Matrix.mul_apply, Fin.sum_univ_six] <;>
    first | ring1 | linear_combination hc | linear_combination -hc

/-- The weight of longitudinal areas that fits a particle: its phase per length times its momentum, inverted. -/
theorem weight_eq (ref p : Particle) (w : ℝ) (h : w * (p.SampleIonK * (p.beta ^ 2 * p.gamma * ref.IonEs / 1000000)) = -1) :
    w = unitZ p * unitP ref p ∧ unitZ p ≠ 0 ∧ unitP ref p ≠ 0 := by
  have hK : p.SampleIonK ≠ 0 := fun e => by rw [e] at h; norm_num at h
  have hb : p.beta ≠ 0 := fun e => by rw [e] at h; norm_num at h
  have hg : p.gamma ≠ 0 := fun e => by rw [e] at h; norm_num at h
  have hE : ref.IonEs ≠ 0 := fun e => by rw [e] at h; norm_num at h
  refine ⟨?_, unit_ne ref p hK hb hg hE⟩
  unfold unitZ unitP MeVtoeV
  field_simp
  field_simp at h
  linarith

theorem aligned_good {d : MDat} {ref p : Particle} {T A : Mat} {w : ℝ} (h : aligned d ref p T = .ok A) (hT : Good w T)
    (hw : w * (p.SampleIonK * (p.beta ^ 2 * p.gamma * ref.IonEs / 1000000)) = -1) : Good w A := by
  obtain ⟨e, hz, hp⟩ := weight_eq ref p w hw
  unfold aligned at h
  rw [getMisalign_eq d ref p hz hp] at h
  cases h
  subst e
  exact (conj_good ref p _ hz hp _ ((rotMat_good _ _ _ _ _).inv (rotMat_det _ _ _ _ _))).mul
    (hT.mul (conj_good ref p _ hz hp _ (rotMat_good _ _ _ _ _)))

theorem aligned_roll_good {d : MDat} {ref p : Particle} {T A : Mat} {w : ℝ} (h : aligned d ref p T = .ok A) (hT : Good w T)
    (h1 : d.pitch = 0) (h2 : d.yaw = 0) (hK : p.SampleIonK ≠ 0) (hb : p.beta ≠ 0) (hg : p.gamma ≠ 0)
    (hE : ref.IonEs ≠ 0) : Good w A := by
  obtain ⟨hz, hp⟩ := unit_ne ref p hK hb hg hE
  have hM := getMisalign_roll d ref p h1 h2 hz hp
  unfold aligned at h
  rw [hM] at h
  cases h
  exact ((roll_good w _ _ _).inv (rotMat_det _ _ _ _ _)).mul (hT.mul (roll_good w _ _ _))

/-! ## elements -/

/-- Success of `getMisalign` means that the units are not degenerate. -/
theorem getMisalign_ok {d : MDat} {ref p : Particle} {r : Mat × Mat} (h : getMisalign d ref p = .ok r) :
    unitZ p ≠ 0 ∧ unitP ref p ≠ 0 := by
  have hs : ∀ e, inverse (scaleM (unitZ p) (unitP ref p)) ≠ .error e := by
    intro e he
    unfold getMisalign at h
    dsimp only at h
    change (match inverse (scaleM (unitZ p) (unitP ref p)) with
      | .error e => _
      | .ok sclInv => _) = _ at h
    rw [he] at h
    cases h
  have hd : (scaleM (unitZ p) (unitP ref p)).det ≠ 0 := by
    intro hd
    exact hs .runtime (if_pos hd)
  rw [scaleM_det] at hd
  exact mul_ne_zero_iff.1 hd

theorem aligned_ok {d : MDat} {ref p : Particle} {T A : Mat} (h : aligned d ref p T = .ok A) :
    unitZ p ≠ 0 ∧ unitP ref p ≠ 0 := by
  unfold aligned at h
  split at h
  · cases h
  · rename_i he
    exact getMisalign_ok he

/-- The matrices of the straight elements before misalignment. -/
theorem straight_cases {env : Env} {t : MType} {d : MDat} {ref : Particle} {real : List Particle} {Ts : List Mat}
    (ht : t = .marker ∨ t = .bpm ∨ t = .drift ∨ t = .orbtrim ∨ t = .quadrupole ∨ t = .solenoid ∨ t = .equad)
    (h : recompute env t d ref real = .ok Ts) :
    List.Forall₂ (fun p T => (∀ w, Good w T) ∨
      ∃ M A a, (∀ w, Good w M) ∧ aligned d ref p M = .ok A ∧ (T = A ∨ T = A * rotMat 0 0 0 0 a)) real Ts := by
  have one : ∀ l : List Particle, List.Forall₂ (fun p T => (∀ w, Good w T) ∨
      ∃ M A a, (∀ w, Good w M) ∧ aligned d ref p M = .ok A ∧ (T = A ∨ T = A * rotMat 0 0 0 0 a)) l (l.map (fun _ => 1)) := by
    intro l
    induction l with
    | nil => exact .nil
    | cons p l ih => exact .cons (.inl Good.one) ih
  have go : ∀ (f : Particle → Mat), (∀ p w, Good w (f p)) → ∀ l r, forEach (fun p => aligned d ref p (f p)) l = .ok r →
      List.Forall₂ (fun p T => (∀ w, Good w T) ∨
        ∃ M A a, (∀ w, Good w M) ∧ aligned d ref p M = .ok A ∧ (T = A ∨ T = A * rotMat 0 0 0 0 a)) l r := by
    intro f hf l r hr
    exact (forEach_ok.1 hr).imp (fun p T hp => .inr ⟨f p, T, 0, hf p, hp, .inl rfl⟩)
  rcases ht with rfl | rfl | rfl | rfl | rfl | rfl | rfl
  · cases h; exact one real
  · cases h; exact one real
  · cases h
    induction real with
    | nil => exact .nil
    | cons p l ih => exact .cons (.inl fun w => driftM_good w p _) ih
  · change orbtrimRec d ref real = _ at h
    unfold orbtrimRec at h
    refine (forEach_ok.1 h).imp fun p T hp => ?_
    dsimp only at hp
    split at hp
    · cases hp
    · rename_i A hA
      cases hp
      refine .inr ⟨_, A, getNumD d.conf "xyrotate" 0 * Real.pi / 180, fun w => kickM_good w _ _, hA, ?_⟩
      split
      · exact .inr rfl
      · exact .inl rfl
  · change quadRec env d ref real = _ at h
    unfold quadRec at h
    split at h
    · cases h
    · dsimp only at h
      split at h
      · cases h
      · split at h
        · split at h
          · cases h
          · exact go _ (fun p w => quadM_good w p _ _) _ _ h
        · split at h
          · cases h
          · exact go _ (fun p w => Good.slices fun j => quadM_good w p _ _) _ _ h
  · change solenoidRec env d ref real = _ at h
    unfold solenoidRec at h
    split at h
    · cases h
    · dsimp only at h
      split at h
      · cases h
      · split at h
        · split at h
          · cases h
          · exact go _ (fun p w => solenoidM_good w p _ _) _ _ h
        · split at h
          · cases h
          · exact go _ (fun p w => Good.slices fun j => solenoidM_good w p _ _) _ _ h
  · change equadRec env d ref real = _ at h
    unfold equadRec at h
    split at h
    · cases h
    · dsimp only at h
      split at h
      · cases h
      · split at h
        · split at h
          · exact go _ (fun p w => quadM_good w p _ _) _ _ h
          · cases h
        · split at h
          · cases h
          · exact go _ (fun p w => Good.slices fun j => quadM_good w p _ _) _ _ h

/-- Straight elements, with fields of any strength and sign, given by a number or by a curve of any number of slices,
and anywhere misaligned: their transfer matrices preserve phase space areas, if longitudinal areas are measured with the
weight that belongs to the particle; if the element is neither pitched nor yawed, with any weight. -/
theorem C37_elements (env : Env) (t : MType) (d : MDat) (ref : Particle) (real : List Particle) (Ts : List Mat)
    (ht : t = .marker ∨ t = .bpm ∨ t = .drift ∨ t = .orbtrim ∨ t = .quadrupole ∨ t = .solenoid ∨ t = .equad)
    (h : recompute env t d ref real = .ok Ts) :
    List.Forall₂ (fun p T => p.SampleIonK ≠ 0 → p.beta ≠ 0 → p.gamma ≠ 0 → ref.IonEs ≠ 0 → ∀ w,
      (d.pitch = 0 ∧ d.yaw = 0) ∨ w * (p.SampleIonK * (p.beta ^ 2 * p.gamma * ref.IonEs / 1000000)) = -1 →
      Preserves w (phaseSpace T)) real Ts := by
  refine (straight_cases ht h).imp ?_
  rintro p T (hg | ⟨M, A, a, hM, hA, hT⟩) hK hb hg' hE w hw
  · exact (hg w).2
  · have hGA : Good w A := by
      rcases hw with ⟨h1, h2⟩ | hw
      · exact aligned_roll_good hA (hM w) h1 h2 hK hb hg' hE
      · exact aligned_good hA (hM w) hw
    rcases hT with rfl | rfl
    · exact hGA.2
    · exact (hGA.mul (roll_good w 0 0 a)).2

/-- The edges of a magnetic dipole, for any radius and angle. -/
theorem C37_edge (w rho phi : ℝ) : Preserves w (phaseSpace (edgeM rho phi)) := (edgeM_good w rho phi).2

/-! ## sextupoles -/

set_option maxHeartbeats 1000000 in
-- 36 entries of polynomials of degree six
theorem thin_preserves (w L x y s : ℝ) : Preserves w
      !![1 + L / 2 * -x, L / 2 * (1 + L / 2 * -x) + L / 2, L / 2 * y, L / 2 * (L / 2 * y), 0, 0;
        -x, 1 + L / 2 * -x, y, L / 2 * y, 0, 0;
        L / 2 * y, L / 2 * (L / 2 * y), 1 + L / 2 * x, L / 2 * (1 + L / 2 * x) + L / 2, 0, 0;
        y, L / 2 * y, x, 1 + L / 2 * x, 0, 0;
        0, 0, 0, 0, 1, s; 0, 0, 0, 0, 0, 1] := by
  unfold Preserves
  ext i j
  fin_cases i <;> fin_cases j <;> simp [form, Matrix.mul_apply, Fin.sum_univ_six] <;> ring1

theorem thin_good (w L K3 Dx Dy D2x D2y D2xy : ℝ) (dst : Bool) (p : Particle) (dL : ℝ) (X : Mat) :
    Good w (setAt (sextM L K3 Dx Dy D2x D2y D2xy true dst X) 4 5 (slip p dL)) := by
  have e : ∀ (a b c : ℝ) (T P : Mat), T = setAt (setAt 1 0 1 (L / 2)) 2 3 (L / 2) →
      P = setAt (setAt (setAt (setAt 1 1 0 (-K3 * L * Dx)) 1 2 (K3 * L * Dy)) 3 0 (K3 * L * Dy)) 3 2 (K3 * L * Dx) →
      T * (P * T) = !![1 + L / 2 * (-K3 * L * Dx), L / 2 * (1 + L / 2 * (-K3 * L * Dx)) + L / 2, L / 2 * (K3 * L * Dy), L / 2 * (L / 2 * (K3 * L * Dy)), 0, 0, 0;
        -K3 * L * Dx, 1 + L / 2 * (-K3 * L * Dx), K3 * L * Dy, L / 2 * (K3 * L * Dy), 0, 0, 0;
        L / 2 * (K3 * L * Dy), L / 2 * (L / 2 * (K3 * L * Dy)), 1 + L / 2 * (K3 * L * Dx), L / 2 * (1 + L / 2 * (K3 * L * Dx)) + L / 2, 0, 0, 0;
        K3 * L * Dy, L / 2 * (K3 * L * Dy), K3 * L * Dx, 1 + L / 2 * (K3 * L * Dx), 0, 0, 0;
        0, 0, 0, 0, 1, 0, 0; 0, 0, 0, 0, 0, 1, 0; 0, 0, 0, 0, 0, 0, 1] := by
    rintro - - - T P rfl rfl
    ext i j
    simp only [Matrix.mul_apply, Fin.sum_univ_seven]
    fin_cases i <;> fin_cases j <;> simp [setAt, Matrix.one_apply] <;> first | ring1 | (left; ring1)
  have hM : ∃ a b, sextM L K3 Dx Dy D2x D2y D2xy true dst X = !![1 + L / 2 * (-K3 * L * Dx), L / 2 * (1 + L / 2 * (-K3 * L * Dx)) + L / 2, L / 2 * (K3 * L * Dy), L / 2 * (L / 2 * (K3 * L * Dy)), 0, 0, 0;
        -K3 * L * Dx, 1 + L / 2 * (-K3 * L * Dx), K3 * L * Dy, L / 2 * (K3 * L * Dy), 0, 0, a;
        L / 2 * (K3 * L * Dy), L / 2 * (L / 2 * (K3 * L * Dy)), 1 + L / 2 * (K3 * L * Dx), L / 2 * (1 + L / 2 * (K3 * L * Dx)) + L / 2, 0, 0, 0;
        K3 * L * Dy, L / 2 * (K3 * L * Dy), K3 * L * Dx, 1 + L / 2 * (K3 * L * Dx), 0, 0, b;
        0, 0, 0, 0, 1, 0, 0; 0, 0, 0, 0, 0, 1, 0; 0, 0, 0, 0, 0, 0, 1] := by
    unfold sextM
    simp only [if_true]
    rw [e 0 0 0 _ _ rfl rfl]
    cases dst
    · exact ⟨0, 0, rfl⟩
    · refine ⟨-K3 * L * (D2x - D2y), 2 * K3 * L * D2xy, ?_⟩
      simp only [if_true]
      ext i j
      fin_cases i <;> fin_cases j <;> simp [setAt]
  obtain ⟨a, b, hM⟩ := hM
  rw [hM]
  generalize K3 * L * Dy = y
  generalize hx : K3 * L * Dx = x
  have hx' : -K3 * L * Dx = -x := by rw [← hx]; ring
  rw [hx']
  refine ⟨fun j => ?_, ?_⟩
  · fin_cases j <;> simp [setAt]
  · generalize slip p dL = s
    have h : phaseSpace (setAt (!![1 + L / 2 * -x, L / 2 * (1 + L / 2 * -x) + L / 2, L / 2 * y, L / 2 * (L / 2 * y), 0, 0, 0;
        -x, 1 + L / 2 * -x, y, L / 2 * y, 0, 0, a;
        L / 2 * y, L / 2 * (L / 2 * y), 1 + L / 2 * x, L / 2 * (1 + L / 2 * x) + L / 2, 0, 0, 0;
        y, L / 2 * y, x, 1 + L / 2 * x, 0, 0, b;
        0, 0, 0, 0, 1, 0, 0; 0, 0, 0, 0, 0, 1, 0; 0, 0, 0, 0, 0, 0, 1] : Mat) 4 5 s) =
      !![1 + L / 2 * -x, L / 2 * (1 + L / 2 * -x) + L / 2, L / 2 * y, L / 2 * (L / 2 * y), 0, 0;
        -x, 1 + L / 2 * -x, y, L / 2 * y, 0, 0;
        L / 2 * y, L / 2 * (L / 2 * y), 1 + L / 2 * x, L / 2 * (1 + L / 2 * x) + L / 2, 0, 0;
        y, L / 2 * y, x, 1 + L / 2 * x, 0, 0;
        0, 0, 0, 0, 1, s; 0, 0, 0, 0, 0, 1] := by
      ext i j
      fin_cases i <;> fin_cases j <;> simp [phaseSpace, setAt]
    rw [h]
    exact thin_preserves w L x y s

theorem sextLoop_thin_good (w : ℝ) (p : Particle) (dL K : ℝ) (dst : Bool) : ∀ (n : Nat) (x : Vec × Mat × Mat × Mat),
    Good w x.2.2.1 → Good w (sextLoop p dL K true dst n x).2.2.1
  | 0, _, h => h
  | n + 1, (v, S, X, T), h => by
    simp only [sextLoop]
    exact sextLoop_thin_good w p dL K dst n _ ((thin_good w _ _ _ _ _ _ _ _ _ _ _).mul h)

/-- A sextupole treated as a sequence of thin lenses, of any number of steps, for a beam of any size at any place. -/
theorem C37_sextupole_thin (d : MDat) (B3 L stp : ℝ) (dst : Bool) (ref p : Particle) (v v' : Vec) (S S' X : Mat)
    (h : sextOne d B3 L stp true dst ref p v S = .ok (v', S', X)) (w : ℝ)
    (hw : w * (p.SampleIonK * (p.beta ^ 2 * p.gamma * ref.IonEs / 1000000)) = -1) : Preserves w (phaseSpace X) := by
  obtain ⟨e, hz, hp⟩ := weight_eq ref p w hw
  unfold sextOne at h
  rw [getMisalign_eq d ref p hz hp] at h
  simp only [Except.ok.injEq, Prod.mk.injEq] at h
  obtain ⟨-, -, rfl⟩ := h
  have h1 := sextLoop_thin_good w p (L / stp) (B3 / p.Brho / (MtoMM * MtoMM * MtoMM)) dst (toSteps stp)
    (((middle ref p (-d.length / 2 * MtoMM))⁻¹ * rotMat d.dx d.dy d.pitch d.yaw d.roll *
          middle ref p (-d.length / 2 * MtoMM)).mulVec v, congr ((middle ref p (-d.length / 2 * MtoMM))⁻¹ * rotMat d.dx d.dy d.pitch d.yaw d.roll *
          middle ref p (-d.length / 2 * MtoMM)) S, 1, 1) (Good.one w)
  subst e
  exact ((conj_good ref p _ hz hp _ ((rotMat_good _ _ _ _ _).inv (rotMat_det _ _ _ _ _))).mul
    (h1.mul (conj_good ref p _ hz hp _ (rotMat_good _ _ _ _ _)))).2

set_option maxHeartbeats 2000000 in
-- 36 entries
theorem thick_preserves (w k s a b e c sn ch sh : ℝ) (hk : k ≠ 0) (h1 : sn ^ 2 + c ^ 2 = 1) (h2 : ch ^ 2 = sh ^ 2 + 1)
    (h3 : a + b = 1) (h4 : a * b = e ^ 2) : Preserves w
      !![a * c + b * ch, (a * sn + b * sh) / k, e * (-c + ch), e * (-sn + sh) / k, 0, 0;
         k * (-a * sn + b * sh), a * c + b * ch, e * k * (sn + sh), e * (-c + ch), 0, 0;
         e * (-c + ch), e * (-sn + sh) / k, b * c + a * ch, (b * sn + a * sh) / k, 0, 0;
         e * k * (sn + sh), e * (-c + ch), k * (-b * sn + a * sh), b * c + a * ch, 0, 0;
         0, 0, 0, 0, 1, s; 0, 0, 0, 0, 0, 1] := by
  obtain rfl : b = 1 - a := by linarith
  unfold Preserves
  ext i j
  fin_cases i <;> fin_cases j <;>
    simp [form, Matrix.mul_apply, Fin.sum_univ_six] <;> field_simp <;> first
      | ring1
      | linear_combination (exp := 1) a ^ 2 * h1 + (1 - a) ^ 2 * h2 + e ^ 2 * (h1 + h2) + (2 * c * ch - 2) * h4
      | linear_combination (exp := 1) -(a ^ 2 * h1 + (1 - a) ^ 2 * h2 + e ^ 2 * (h1 + h2) + (2 * c * ch - 2) * h4)
      | linear_combination (exp := 1) (1 - a) ^ 2 * h1 + a ^ 2 * h2 + e ^ 2 * (h1 + h2) + (2 * c * ch - 2) * h4
      | linear_combination (exp := 1) -((1 - a) ^ 2 * h1 + a ^ 2 * h2 + e ^ 2 * (h1 + h2) + (2 * c * ch - 2) * h4)
      | linear_combination (exp := 1) e * (h2 - h1)
      | linear_combination (exp := 1) e * (h1 - h2)

theorem thick_phase (L K3 Dx Dy D2x D2y D2xy : ℝ) (dst : Bool) (p : Particle) (dL dr X Y k : ℝ)
    (hdr : dr = Real.sqrt (Dx * Dx + Dx * Dx)) (hX : X = Dx * (if K3 < 0 then -1 else 1))
    (hY : Y = Dy * (if K3 < 0 then -1 else 1)) (hk : k = Real.sqrt (|K3| * dr)) (h0 : k ≠ 0) (hd0 : dr ≠ 0) :
    phaseSpace (setAt (sextM L K3 Dx Dy D2x D2y D2xy false dst 1) 4 5 (slip p dL)) =
      let a := (dr + X) / (2 * dr)
      let b := (dr - X) / (2 * dr)
      let e := Y / (2 * dr)
      let c := Real.cos (k * L)
      let sn := Real.sin (k * L)
      let ch := Real.cosh (k * L)
      let sh := Real.sinh (k * L)
      !![a * c + b * ch, (a * sn + b * sh) / k, e * (-c + ch), e * (-sn + sh) / k, 0, 0;
         k * (-a * sn + b * sh), a * c + b * ch, e * k * (sn + sh), e * (-c + ch), 0, 0;
         e * (-c + ch), e * (-sn + sh) / k, b * c + a * ch, (b * sn + a * sh) / k, 0, 0;
         e * k * (sn + sh), e * (-c + ch), k * (-b * sn + a * sh), b * c + a * ch, 0, 0;
         0, 0, 0, 0, 1, slip p dL; 0, 0, 0, 0, 0, 1] := by
  unfold sextM
  simp only [Bool.false_eq_true, if_false, ← hdr, ← hk, ← hX, ← hY, if_pos h0]
  ext i j
  cases dst <;> fin_cases i <;> fin_cases j <;> simp [phaseSpace, setAt, Matrix.one_apply] <;> field_simp <;> ring

/-- The place of the beam in a thick sextupole is right only at equal distance from both midplanes, because the code
takes the distance from the axis to be `sqrt(Dx^2+Dx^2)`.  There areas are preserved.  Partial with respect to C37:
elsewhere they are not (`C37_sextupole_thick_false`). -/
theorem C37_sextupole_thick_partial (w L K3 Dx Dy D2x D2y D2xy : ℝ) (dst : Bool) (p : Particle) (dL : ℝ)
    (hD : Dx ^ 2 = Dy ^ 2) :
    Preserves w (phaseSpace (setAt (sextM L K3 Dx Dy D2x D2y D2xy false dst 1) 4 5 (slip p dL))) := by
  by_cases h0 : Real.sqrt (|K3| * Real.sqrt (Dx * Dx + Dx * Dx)) = 0
  · have h : phaseSpace (setAt (sextM L K3 Dx Dy D2x D2y D2xy false dst 1) 4 5 (slip p dL)) = planesS 0 0 L (slip p dL) := by
      unfold sextM
      simp only [Bool.false_eq_true, if_false, h0, ne_eq, not_true_eq_false]
      ext i j
      cases dst <;> fin_cases i <;> fin_cases j <;> simp [phaseSpace, setAt, planesS, cc, ss, Matrix.one_apply]
    rw [h]
    exact planesS_preserves _ _ _ _ _
  · have hd0 : Real.sqrt (Dx * Dx + Dx * Dx) ≠ 0 := fun e => h0 (by rw [e, mul_zero, Real.sqrt_zero])
    rw [thick_phase L K3 Dx Dy D2x D2y D2xy dst p dL _ _ _ _ rfl rfl rfl rfl h0 hd0]
    have hsq : Real.sqrt (Dx * Dx + Dx * Dx) ^ 2 = Dx ^ 2 + Dy ^ 2 := by
      rw [Real.sq_sqrt (by nlinarith [mul_self_nonneg Dx]), ← hD]
      ring
    have hs2 : (if K3 < 0 then (-1 : ℝ) else 1) ^ 2 = 1 := by split <;> norm_num
    generalize (if K3 < 0 then (-1 : ℝ) else 1) = sg at hs2 ⊢
    refine thick_preserves w _ _ _ _ _ _ _ _ _ h0 (Real.sin_sq_add_cos_sq _) (Real.cosh_sq _) ?_ ?_
    · generalize Real.sqrt (Dx * Dx + Dx * Dx) = dr at *
      field_simp
      ring
    · generalize Real.sqrt (Dx * Dx + Dx * Dx) = dr at *
      field_simp
      linear_combination hsq - (Dx ^ 2 + Dy ^ 2) * hs2

theorem preserves_area {w : ℝ} {M : Matrix (Fin 6) (Fin 6) ℝ} (h : Preserves w M) :
    M 0 0 * M 1 1 - M 1 0 * M 0 1 + (M 2 0 * M 3 1 - M 3 0 * M 2 1) + w * (M 4 0 * M 5 1 - M 5 0 * M 4 1) = 1 := by
  have := congrFun (congrFun h 0) 1
  simp [Matrix.mul_apply, Fin.sum_univ_six, form] at this
  linear_combination this

/-- A thick sextupole of suitable length does not preserve areas for a beam off axis in the horizontal midplane, whatever
the strength, the distance from the axis and the weight of longitudinal areas. -/
theorem C37_sextupole_thick_false (K3 Dx : ℝ) (hK : K3 ≠ 0) (hD : Dx ≠ 0) :
    ∃ L, 0 < L ∧ ∀ (w D2x D2y D2xy : ℝ) (dst : Bool) (p : Particle) (dL : ℝ),
      ¬ Preserves w (phaseSpace (setAt (sextM L K3 Dx 0 D2x D2y D2xy false dst 1) 4 5 (slip p dL))) := by
  have hdd : 0 < Dx * Dx + Dx * Dx := by have := mul_self_pos.2 hD; linarith
  have hd : 0 < Real.sqrt (Dx * Dx + Dx * Dx) := Real.sqrt_pos.2 hdd
  have hk : 0 < Real.sqrt (|K3| * Real.sqrt (Dx * Dx + Dx * Dx)) :=
    Real.sqrt_pos.2 (mul_pos (abs_pos.2 hK) hd)
  refine ⟨Real.pi / Real.sqrt (|K3| * Real.sqrt (Dx * Dx + Dx * Dx)), div_pos Real.pi_pos hk, ?_⟩
  intro w D2x D2y D2xy dst p dL h
  have e : Real.sqrt (|K3| * Real.sqrt (Dx * Dx + Dx * Dx)) *
      (Real.pi / Real.sqrt (|K3| * Real.sqrt (Dx * Dx + Dx * Dx))) = Real.pi := by
    field_simp
  rw [thick_phase _ K3 Dx 0 D2x D2y D2xy dst p dL _ _ _ _ rfl rfl rfl rfl hk.ne' hd.ne', e] at h
  have ha := preserves_area h
  have hsq : Real.sqrt (Dx * Dx + Dx * Dx) ^ 2 = 2 * Dx ^ 2 := by
    rw [Real.sq_sqrt hdd.le]
    ring
  have hs2 : (if K3 < 0 then (-1 : ℝ) else 1) ^ 2 = 1 := by split <;> norm_num
  simp only [Real.cos_pi, Real.sin_pi] at ha
  generalize (if K3 < 0 then (-1 : ℝ) else 1) = sg at hs2 ha
  have hc := Real.cosh_sq Real.pi
  have hc1 := Real.one_le_cosh Real.pi
  generalize Real.cosh Real.pi = ch at ha hc hc1
  generalize Real.sinh Real.pi = sh at ha hc
  simp [Matrix.cons_val_zero, Matrix.cons_val_one] at ha
  generalize Real.sqrt (|K3| * Real.sqrt (Dx * Dx + Dx * Dx)) = k at ha hk
  generalize Real.sqrt (Dx * Dx + Dx * Dx) = dr at ha hd hsq
  have hk' := hk.ne'
  have hd' := hd.ne'
  field_simp at ha
  have hp : 0 < Dx ^ 2 := by positivity
  nlinarith [mul_pos hp (show (0 : ℝ) < 1 + ch by linarith)]

/-- Half of the field is lost altogether for a beam off axis in the vertical midplane: the thick sextupole acts as a
drift there, while the thin lens focuses. -/
theorem C37_sextupole_vertical (L K3 Dy : ℝ) (hK : K3 ≠ 0) (hL : L ≠ 0) (hD : Dy ≠ 0) (D2x D2y D2xy : ℝ) (dst : Bool) :
    phaseSpace (sextM L K3 0 Dy D2x D2y D2xy false dst 1) = planesS 0 0 L 0 ∧
    (phaseSpace (sextM L K3 0 Dy D2x D2y D2xy true dst 1)) 1 2 ≠ 0 := by
  constructor
  · unfold sextM
    ext i j
    cases dst <;> fin_cases i <;> fin_cases j <;> simp [phaseSpace, setAt, planesS, cc, ss, Matrix.one_apply]
  · unfold sextM
    have h1 : ∀ A B : Mat, phaseSpace (A * B) 1 2 = ∑ k, A 1 k * B k 2 := fun A B => Matrix.mul_apply
    have h2 : ∀ (A : Mat) a b, phaseSpace (setAt (setAt A 1 6 a) 3 6 b) 1 2 = phaseSpace A 1 2 := fun A a b => by
      simp [phaseSpace, setAt]
    have h3 : ∀ A : Mat, (if dst = true then setAt (setAt A 1 6 (-K3 * L * (D2x - D2y))) 3 6 (2 * K3 * L * D2xy) else A) =
        A ∨ ∃ a b, (if dst = true then setAt (setAt A 1 6 (-K3 * L * (D2x - D2y))) 3 6 (2 * K3 * L * D2xy) else A) =
          setAt (setAt A 1 6 a) 3 6 b := fun A => by
      split
      · exact .inr ⟨_, _, rfl⟩
      · exact .inl rfl
    have hne : K3 * L * Dy ≠ 0 := mul_ne_zero (mul_ne_zero hK hL) hD
    dsimp only
    generalize hA : (if true = true then _ else _ : Mat) = A
    have hA12 : phaseSpace A 1 2 = K3 * L * Dy := by
      rw [← hA]
      simp only [if_true]
      rw [h1]
      simp only [Matrix.mul_apply, Fin.sum_univ_seven]
      simp [setAt, Matrix.one_apply]
    rcases h3 A with e | ⟨a, b, e⟩
    · rw [e, hA12]; exact hne
    · rw [e, h2, hA12]; exact hne

/-- A quadrupole with a curve and pitch, and a thin sextupole, of a moving beam: the hypotheses are met. -/
example : let p : Particle := (⟨33 / 238, 1, 931494320, 0, 0, 0, 0, 80500000, 0, 0, 0, 500000⟩ : Particle).recalc
    ∃ w, w * (p.SampleIonK * (p.beta ^ 2 * p.gamma * p.IonEs / 1000000)) = -1 := by
  intro p
  obtain ⟨hK, hb, hg, hE⟩ := moving ⟨33 / 238, 1, 931494320, 0, 0, 0, 0, 80500000, 0, 0, 0, 500000⟩ (by norm_num)
    (by norm_num) (by norm_num)
  refine ⟨-(p.SampleIonK * (p.beta ^ 2 * p.gamma * p.IonEs / 1000000))⁻¹, ?_⟩
  rw [neg_mul, inv_mul_cancel₀ (by positivity)]

/-- `recompute` succeeds for a quadrupole of 0.2 m with a pitch. -/
example (env : Env) (d : MDat)
    (hc : d.conf = fun k => if k = "L" then some (.num 0.2) else if k = "B2" then some (.num 3) else none) :
    let p : Particle := (⟨33 / 238, 1, 931494320, 0, 0, 0, 0, 80500000, 0, 0, 0, 500000⟩ : Particle).recalc
    ∃ Ts, recompute env .quadrupole { d with pitch := 0.01 } p [p] = .ok Ts := by
  intro p
  obtain ⟨hK, hb, hg, hE⟩ := moving ⟨33 / 238, 1, 931494320, 0, 0, 0, 0, 80500000, 0, 0, 0, 500000⟩ (by norm_num)
    (by norm_num) (by norm_num)
  obtain ⟨hz, hp⟩ := unit_ne p p hK hb hg hE
  have ha : ∀ T, ∃ A, aligned { d with pitch := 0.01 } p p T = .ok A := fun T => by
    unfold aligned
    rw [getMisalign_eq _ p p hz hp]
    exact ⟨_, rfl⟩
  have hf : getFlag env d.conf "ncurve" 0 = .ok 0 := by
    have : asUnsigned 0 = .ok 0 := by simp [asUnsigned]
    simpa [getFlag, hc, getStr, Flame.Linear.getNum] using this
  show ∃ Ts, quadRec env { d with pitch := 0.01 } p [p] = .ok Ts
  unfold quadRec
  have h1 : Flame.Linear.getNum d.conf "L" = .ok 0.2 := by simp [hc, Flame.Linear.getNum]
  have h2 : Flame.Linear.getNum d.conf "B2" = .ok 3 := by simp [hc, Flame.Linear.getNum]
  simp only [h1, h2, hf, if_true, forEach]
  obtain ⟨A, hA⟩ := ha (quadM p (0.2 * MtoMM) (3 / p.Brho / (MtoMM * MtoMM)))
  rw [hA]
  exact ⟨_, rfl⟩

end Flame.Moment
