import Verif.Moment.Advance
import Verif.Moment.Kinematics
import Mathlib.Tactic.FinCases
import Mathlib.Tactic.LinearCombination
import Mathlib.Tactic.Linarith
import Mathlib.Tactic.FieldSimp
import Mathlib.Tactic.Ring
import Mathlib.LinearAlgebra.Matrix.Block
import Mathlib.Analysis.SpecialFunctions.Trigonometric.Basic

/-! # Misaligned elements: C36 -/

set_option linter.unusedSimpArgs false

namespace Flame.Moment

open Flame.Mach (Err)

/-- A 3×3 matrix applied to the positions and to the momenta. -/
def turnM (a b c d e f g h i : ℝ) : Mat :=
  !![a, 0, b, 0, c, 0, 0;
     0, a, 0, b, 0, c, 0;
     d, 0, e, 0, f, 0, 0;
     0, d, 0, e, 0, f, 0;
     g, 0, h, 0, i, 0, 0;
     0, g, 0, h, 0, i, 0;
     0, 0, 0, 0, 0, 0, 1]

/-- The rotation part of `rotMat`. -/
noncomputable def turn (a b c : ℝ) : Mat :=
  turnM (Real.cos b * Real.cos c) (-Real.sin a * Real.sin b * Real.cos c + Real.cos a * Real.sin c)
    (Real.cos a * Real.sin b * Real.cos c + Real.sin a * Real.sin c)
    (-Real.cos b * Real.sin c) (Real.sin a * Real.sin b * Real.sin c + Real.cos a * Real.cos c)
    (-Real.cos a * Real.sin b * Real.sin c + Real.sin a * Real.cos c)
    (-Real.sin b) (-Real.sin a * Real.cos b) (Real.cos a * Real.cos b)

/-- The shift part of `rotMat`. -/
def offs (dx dy : ℝ) : Mat := setAt (setAt 1 0 6 (-dx)) 2 6 (-dy)

theorem offs_zero : offs 0 0 = 1 := by
  ext i j
  fin_cases i <;> fin_cases j <;> simp [offs, setAt, Matrix.one_apply]

theorem rotMat_split (dx dy a b c : ℝ) : rotMat dx dy a b c = turn a b c * offs dx dy := by
  unfold rotMat offs
  dsimp only
  refine congrArg (· * _) ?_
  ext i j
  fin_cases i <;> fin_cases j <;> simp [turn, turnM, setAt, Matrix.one_apply]

theorem turn_orthogonal (a b c : ℝ) : turn a b c * (turn a b c).transpose = 1 := by
  have ha := Real.sin_sq_add_cos_sq a
  have hb := Real.sin_sq_add_cos_sq b
  have hc := Real.sin_sq_add_cos_sq c
  unfold turn
  generalize Real.sin a = sa at *
  generalize Real.cos a = ca at *
  generalize Real.sin b = sb at *
  generalize Real.cos b = cb at *
  generalize Real.sin c = sc at *
  generalize Real.cos c = cc at *
  ext i j
  fin_cases i <;> fin_cases j <;>
    simp [turnM, Matrix.mul_apply, Fin.sum_univ_seven, Matrix.one_apply] <;>
    first
      | linear_combination hc + sc ^ 2 * ha + cc ^ 2 * hb + sb ^ 2 * cc ^ 2 * ha
      | linear_combination hc + cc ^ 2 * ha + sc ^ 2 * hb + sb ^ 2 * sc ^ 2 * ha
      | linear_combination hb + cb ^ 2 * ha
      | linear_combination (cc * sc) * ha - (cc * sc) * hb - (sb ^ 2 * cc * sc) * ha
      | linear_combination (cb * sb * cc) * ha
      | linear_combination (-cb * sb * sc) * ha

theorem offs_mul (a b c d : ℝ) : offs a b * offs c d = offs (a + c) (b + d) := by
  ext i j
  fin_cases i <;> fin_cases j <;>
    simp [offs, setAt, Matrix.mul_apply, Fin.sum_univ_seven, Matrix.one_apply]

theorem offs_det (dx dy : ℝ) : (offs dx dy).det = 1 := by
  have h : (offs dx dy).BlockTriangular id := by
    intro i j hij
    fin_cases i <;> fin_cases j <;> simp_all [offs, setAt, Matrix.one_apply]
  rw [Matrix.det_of_isUpperTriangular h]
  simp [Fin.prod_univ_seven, offs, setAt]

theorem turn_det (a b c : ℝ) : (turn a b c).det ≠ 0 := by
  intro h
  have := congrArg Matrix.det (turn_orthogonal a b c)
  rw [Matrix.det_mul, h, zero_mul, Matrix.det_one] at this
  norm_num at this

theorem rotMat_det (dx dy a b c : ℝ) : (rotMat dx dy a b c).det ≠ 0 := by
  rw [rotMat_split, Matrix.det_mul, offs_det, mul_one]
  exact turn_det a b c

/-- Units of the longitudinal coordinates. -/
def scaleM (k q : ℝ) : Mat := setAt (setAt 1 4 4 k) 5 5 q

/-- To the middle of the element, with the longitudinal momentum of the design particle added. -/
def midM (z : ℝ) : Mat := setAt (setAt 1 4 6 z) 5 6 1

theorem scaleM_mul (k q k' q' : ℝ) : scaleM k q * scaleM k' q' = scaleM (k * k') (q * q') := by
  ext i j
  fin_cases i <;> fin_cases j <;>
    simp [scaleM, setAt, Matrix.mul_apply, Fin.sum_univ_seven, Matrix.one_apply]

theorem scaleM_one : scaleM 1 1 = 1 := by
  ext i j
  fin_cases i <;> fin_cases j <;> simp [scaleM, setAt, Matrix.one_apply]

theorem scaleM_det (k q : ℝ) : (scaleM k q).det = k * q := by
  have h : (scaleM k q).BlockTriangular id := by
    intro i j hij
    fin_cases i <;> fin_cases j <;> simp_all [scaleM, setAt, Matrix.one_apply]
  rw [Matrix.det_of_isUpperTriangular h]
  simp [Fin.prod_univ_seven, scaleM, setAt]

theorem midM_det (z : ℝ) : (midM z).det = 1 := by
  have h : (midM z).BlockTriangular id := by
    intro i j hij
    fin_cases i <;> fin_cases j <;> simp_all [midM, setAt, Matrix.one_apply]
  rw [Matrix.det_of_isUpperTriangular h]
  simp [Fin.prod_univ_seven, midM, setAt]

/-- The unit of the phase of a particle in mm, with the sign of the code. -/
noncomputable def unitZ (p : Particle) : ℝ := 1 / -p.SampleIonK

/-- The unit of the energy deviation as relative longitudinal momentum. -/
noncomputable def unitP (ref p : Particle) : ℝ := 1 / (p.beta * p.beta * p.gamma * ref.IonEs / MeVtoeV)

/-- Coordinates seen from the middle of an element, `z` before or behind it. -/
noncomputable def middle (ref p : Particle) (z : ℝ) : Mat := midM z * scaleM (unitZ p) (unitP ref p)

theorem middle_det (ref p : Particle) (z : ℝ) : (middle ref p z).det = unitZ p * unitP ref p := by
  rw [middle, Matrix.det_mul, midM_det, scaleM_det, one_mul]

/-- What `getMisalign` computes: to the middle of the element, the rigid motion, and back. -/
theorem getMisalign_eq (d : MDat) (ref p : Particle) (hz : unitZ p ≠ 0) (hp : unitP ref p ≠ 0) :
    getMisalign d ref p = .ok
      ((middle ref p (-d.length / 2 * MtoMM))⁻¹ * rotMat d.dx d.dy d.pitch d.yaw d.roll *
          middle ref p (-d.length / 2 * MtoMM),
       (middle ref p (d.length / 2 * MtoMM))⁻¹ * (rotMat d.dx d.dy d.pitch d.yaw d.roll)⁻¹ *
          middle ref p (d.length / 2 * MtoMM)) := by
  have h1 : inverse (scaleM (unitZ p) (unitP ref p)) = .ok (scaleM (unitZ p) (unitP ref p))⁻¹ :=
    if_neg (by rw [scaleM_det]; exact mul_ne_zero hz hp)
  have h2 : ∀ z, inverse (midM z) = .ok (midM z)⁻¹ := fun z => if_neg (by rw [midM_det]; norm_num)
  have h3 : inverse (rotMat d.dx d.dy d.pitch d.yaw d.roll) = .ok (rotMat d.dx d.dy d.pitch d.yaw d.roll)⁻¹ :=
    if_neg (rotMat_det _ _ _ _ _)
  have h4 : ∀ z z', setAt (setAt (midM z) 4 6 z') 5 6 1 = midM z' := by
    intro z z'
    ext i j
    fin_cases i <;> fin_cases j <;> simp [midM, setAt, Matrix.one_apply]
  unfold getMisalign
  dsimp only
  change (match inverse (scaleM (unitZ p) (unitP ref p)) with
    | .error e => _
    | .ok sclInv => _) = _
  rw [h1]
  dsimp only
  change (match inverse (midM _) with
    | .error e => _
    | .ok sclInv => _) = _
  rw [h2]
  dsimp only
  rw [h3]
  dsimp only
  change (match inverse (setAt (setAt (midM _) _ _ _) _ _ _) with
    | .error e => _
    | .ok sclInv => _) = _
  rw [h4, h2]
  dsimp only
  change Except.ok (_, _ * (_ * (_ * (setAt (setAt (midM _) _ _ _) _ _ _ * _)))) = _
  rw [h4]
  simp only [middle, Matrix.mul_inv_rev, Matrix.mul_assoc]
  rfl

theorem unit_ne (ref p : Particle) (hK : p.SampleIonK ≠ 0) (hb : p.beta ≠ 0) (hg : p.gamma ≠ 0) (hE : ref.IonEs ≠ 0) :
    unitZ p ≠ 0 ∧ unitP ref p ≠ 0 := by
  have : MeVtoeV ≠ 0 := by norm_num [MeVtoeV]
  exact ⟨one_div_ne_zero (neg_ne_zero.2 hK), by unfold unitP; positivity⟩

/-- Every moving particle meets the conditions of the theorems on misalignment. -/
theorem moving (p : Particle) (h0 : 0 < p.IonEs) (hk : 0 < p.IonEk) (hf : p.SampleFreq ≠ 0) :
    p.recalc.SampleIonK ≠ 0 ∧ p.recalc.beta ≠ 0 ∧ p.recalc.gamma ≠ 0 ∧ p.recalc.IonEs ≠ 0 := by
  obtain ⟨-, -, hg1, -, -, -, hbz, -⟩ := C38_energy p h0 hk.le
  obtain ⟨-, -, -, -, hK⟩ := C38_momentum_partial p h0 hk
  refine ⟨fun h => ?_, fun h => hk.ne' (hbz.1 h), by linarith, h0.ne'⟩
  have := (hK hf).2
  rw [h, zero_mul] at this
  have := Real.pi_pos
  linarith

theorem turn_zero : turn 0 0 0 = 1 := by
  ext i j
  fin_cases i <;> fin_cases j <;> simp [turn, turnM, Matrix.one_apply]

theorem middle_inv (ref p : Particle) (hz : unitZ p ≠ 0) (hp : unitP ref p ≠ 0) (z : ℝ) :
    (middle ref p z)⁻¹ * middle ref p z = 1 ∧ middle ref p z * (middle ref p z)⁻¹ = 1 := by
  have hu : IsUnit (middle ref p z).det := by
    rw [middle_det]
    exact isUnit_iff_ne_zero.2 (mul_ne_zero hz hp)
  exact ⟨Matrix.nonsing_inv_mul _ hu, Matrix.mul_nonsing_inv _ hu⟩

theorem rotMat_inv (dx dy a b c : ℝ) :
    (rotMat dx dy a b c)⁻¹ * rotMat dx dy a b c = 1 ∧ rotMat dx dy a b c * (rotMat dx dy a b c)⁻¹ = 1 :=
  ⟨Matrix.nonsing_inv_mul _ (isUnit_iff_ne_zero.2 (rotMat_det _ _ _ _ _)),
    Matrix.mul_nonsing_inv _ (isUnit_iff_ne_zero.2 (rotMat_det _ _ _ _ _))⟩

/-- An element that is where it should be is not touched: both transformations are the identity, and its transfer matrix
is the one computed without them. -/
theorem C36_aligned (d : MDat) (ref p : Particle) (hx : d.dx = 0) (hy : d.dy = 0) (h1 : d.pitch = 0) (h2 : d.yaw = 0)
    (h3 : d.roll = 0) (hK : p.SampleIonK ≠ 0) (hb : p.beta ≠ 0) (hg : p.gamma ≠ 0) (hE : ref.IonEs ≠ 0) :
    getMisalign d ref p = .ok (1, 1) ∧ ∀ T, aligned d ref p T = .ok T := by
  obtain ⟨hz, hp⟩ := unit_ne ref p hK hb hg hE
  have h : getMisalign d ref p = .ok (1, 1) := by
    rw [getMisalign_eq d ref p hz hp, hx, hy, h1, h2, h3, rotMat_split, turn_zero, offs_zero]
    simp only [mul_one, inv_one, (middle_inv ref p hz hp _).1]
  refine ⟨h, fun T => ?_⟩
  unfold aligned
  rw [h]
  simp

/-- Rolls add up, and a roll is undone by the opposite one. -/
theorem C36_roll (a b : ℝ) :
    rotMat 0 0 0 0 a * rotMat 0 0 0 0 b = rotMat 0 0 0 0 (a + b) ∧ rotMat 0 0 0 0 0 = 1 ∧
    rotMat 0 0 0 0 (-a) * rotMat 0 0 0 0 a = 1 := by
  have h : ∀ a b : ℝ, rotMat 0 0 0 0 a * rotMat 0 0 0 0 b = rotMat 0 0 0 0 (a + b) := by
    intro a b
    simp only [rotMat_split, offs_zero, mul_one]
    ext i j
    fin_cases i <;> fin_cases j <;>
      simp [turn, turnM, Matrix.mul_apply, Fin.sum_univ_seven, Real.cos_add, Real.sin_add] <;> ring
  have h0 : rotMat 0 0 0 0 0 = 1 := by rw [rotMat_split, offs_zero, mul_one, turn_zero]
  exact ⟨h a b, h0, by rw [h, neg_add_cancel, h0]⟩

/-- Closed form of a shift and a roll. -/
noncomputable def rollM (dx dy a : ℝ) : Mat :=
  !![Real.cos a, 0, Real.sin a, 0, 0, 0, -(Real.cos a * dx) - Real.sin a * dy;
     0, Real.cos a, 0, Real.sin a, 0, 0, 0;
     -Real.sin a, 0, Real.cos a, 0, 0, 0, Real.sin a * dx - Real.cos a * dy;
     0, -Real.sin a, 0, Real.cos a, 0, 0, 0;
     0, 0, 0, 0, 1, 0, 0;
     0, 0, 0, 0, 0, 1, 0;
     0, 0, 0, 0, 0, 0, 1]

theorem rollM_eq (dx dy a : ℝ) : rotMat dx dy 0 0 a = rollM dx dy a := by
  rw [rotMat_split]
  ext i j
  simp only [Matrix.mul_apply, Fin.sum_univ_seven]
  fin_cases i <;> fin_cases j <;> simp [turn, turnM, offs, setAt, rollM, Matrix.one_apply] <;> ring

theorem rotMat_frame (dx dy a : ℝ) (v : Vec) : (rotMat dx dy 0 0 a).mulVec v = Spec.inFrame dx dy a v := by
  rw [rollM_eq]
  ext i
  simp only [Matrix.mulVec, dotProduct, Fin.sum_univ_seven]
  fin_cases i <;> simp [rollM, Spec.inFrame] <;> ring

theorem rotMat_middle (dx dy a z : ℝ) (ref p : Particle) :
    rotMat dx dy 0 0 a * middle ref p z = middle ref p z * rotMat dx dy 0 0 a := by
  have h1 : rollM dx dy a * midM z = midM z * rollM dx dy a := by
    ext i j
    simp only [Matrix.mul_apply, Fin.sum_univ_seven]
    fin_cases i <;> fin_cases j <;> simp [rollM, midM, setAt, Matrix.one_apply]
  have h2 : rollM dx dy a * scaleM (unitZ p) (unitP ref p) = scaleM (unitZ p) (unitP ref p) * rollM dx dy a := by
    ext i j
    simp only [Matrix.mul_apply, Fin.sum_univ_seven]
    fin_cases i <;> fin_cases j <;> simp [rollM, scaleM, setAt, Matrix.one_apply]
  rw [rollM_eq, middle, ← Matrix.mul_assoc, h1, Matrix.mul_assoc, h2, Matrix.mul_assoc]

theorem getMisalign_roll (d : MDat) (ref p : Particle) (h1 : d.pitch = 0) (h2 : d.yaw = 0) (hz : unitZ p ≠ 0)
    (hp : unitP ref p ≠ 0) :
    getMisalign d ref p = .ok (rotMat d.dx d.dy 0 0 d.roll, (rotMat d.dx d.dy 0 0 d.roll)⁻¹) := by
  rw [getMisalign_eq d ref p hz hp, h1, h2]
  have e1 : ∀ z, (middle ref p z)⁻¹ * rotMat d.dx d.dy 0 0 d.roll * middle ref p z = rotMat d.dx d.dy 0 0 d.roll := by
    intro z
    rw [Matrix.mul_assoc, rotMat_middle, ← Matrix.mul_assoc, (middle_inv ref p hz hp z).1, one_mul]
  have e2 : ∀ z, (middle ref p z)⁻¹ * (rotMat d.dx d.dy 0 0 d.roll)⁻¹ * middle ref p z =
      (rotMat d.dx d.dy 0 0 d.roll)⁻¹ := by
    intro z
    rw [← Matrix.mul_inv_rev, rotMat_middle, Matrix.mul_inv_rev, Matrix.mul_assoc, (middle_inv ref p hz hp z).1,
      mul_one]
  rw [e1, e2]

/-- A shifted and rolled element acts in its own frame as an aligned one acts in the frame of the beamline, whatever its
matrix `T`; the transformation behind it is the inverse of the one before it. -/
theorem C36_frame (d : MDat) (ref p : Particle) (h1 : d.pitch = 0) (h2 : d.yaw = 0) (hK : p.SampleIonK ≠ 0)
    (hb : p.beta ≠ 0) (hg : p.gamma ≠ 0) (hE : ref.IonEs ≠ 0) :
    ∃ M IM, getMisalign d ref p = .ok (M, IM) ∧ IM * M = 1 ∧ M * IM = 1 ∧
      (∀ v, M.mulVec v = Spec.inFrame d.dx d.dy d.roll v) ∧
      ∀ T A, aligned d ref p T = .ok A → ∀ v,
        Spec.inFrame d.dx d.dy d.roll (A.mulVec v) = T.mulVec (Spec.inFrame d.dx d.dy d.roll v) := by
  obtain ⟨hz, hp⟩ := unit_ne ref p hK hb hg hE
  have hM := getMisalign_roll d ref p h1 h2 hz hp
  refine ⟨_, _, hM, (rotMat_inv _ _ _ _ _).1, (rotMat_inv _ _ _ _ _).2, rotMat_frame _ _ _, ?_⟩
  intro T A hA v
  unfold aligned at hA
  rw [hM] at hA
  cases hA
  rw [← rotMat_frame, ← rotMat_frame, Matrix.mulVec_mulVec, Matrix.mulVec_mulVec, ← Matrix.mul_assoc,
    (rotMat_inv _ _ _ _ _).2, one_mul]

/-- The rotation of space that belongs to the three angles. -/
noncomputable def spaceTurn (a b c : ℝ) : Matrix (Fin 3) (Fin 3) ℝ :=
  !![Real.cos b * Real.cos c, -Real.sin a * Real.sin b * Real.cos c + Real.cos a * Real.sin c,
      Real.cos a * Real.sin b * Real.cos c + Real.sin a * Real.sin c;
     -Real.cos b * Real.sin c, Real.sin a * Real.sin b * Real.sin c + Real.cos a * Real.cos c,
      -Real.cos a * Real.sin b * Real.sin c + Real.sin a * Real.cos c;
     -Real.sin b, -Real.sin a * Real.cos b, Real.cos a * Real.cos b]

theorem spaceTurn_rotation (a b c : ℝ) : Spec.Rotation (spaceTurn a b c) := by
  have ha := Real.sin_sq_add_cos_sq a
  have hb := Real.sin_sq_add_cos_sq b
  have hc := Real.sin_sq_add_cos_sq c
  unfold Spec.Rotation spaceTurn
  generalize Real.sin a = sa at *
  generalize Real.cos a = ca at *
  generalize Real.sin b = sb at *
  generalize Real.cos b = cb at *
  generalize Real.sin c = sc at *
  generalize Real.cos c = cc at *
  constructor
  · ext i j
    fin_cases i <;> fin_cases j <;>
      simp [Matrix.mul_apply, Fin.sum_univ_three, Matrix.one_apply] <;>
      first
        | linear_combination hc + sc ^ 2 * ha + cc ^ 2 * hb + sb ^ 2 * cc ^ 2 * ha
        | linear_combination hc + cc ^ 2 * ha + sc ^ 2 * hb + sb ^ 2 * sc ^ 2 * ha
        | linear_combination hb + cb ^ 2 * ha
        | linear_combination (cc * sc) * ha - (cc * sc) * hb - (sb ^ 2 * cc * sc) * ha
        | linear_combination (cb * sb * cc) * ha
        | linear_combination (-cb * sb * sc) * ha
  · simp [Matrix.det_fin_three]
    linear_combination hb + (cb ^ 2 + sb ^ 2) * ha + (sa ^ 2 + ca ^ 2) * (cb ^ 2 + sb ^ 2) * hc

theorem spaceTurn_eq (a b c : ℝ) : spaceTurn a b c = Spec.turned a b c := by
  ext i j
  simp only [Spec.turned, Matrix.mul_apply, Fin.sum_univ_three]
  fin_cases i <;> fin_cases j <;> simp [spaceTurn] <;> ring

theorem place_middle (ref p : Particle) (z : ℝ) (v : Vec) :
    Spec.place (unitZ p) z v = ![((middle ref p (-z)).mulVec v) 0, ((middle ref p (-z)).mulVec v) 2,
      ((middle ref p (-z)).mulVec v) 4] ∧
    Spec.direction (unitP ref p) v = ![((middle ref p (-z)).mulVec v) 1, ((middle ref p (-z)).mulVec v) 3,
      ((middle ref p (-z)).mulVec v) 5] ∧ v 6 = ((middle ref p (-z)).mulVec v) 6 := by
  refine ⟨?_, ?_, ?_⟩
  · ext i
    fin_cases i <;> simp [Spec.place, middle, midM, scaleM, setAt, Matrix.mul_apply, Matrix.mulVec, dotProduct,
      Fin.sum_univ_seven, Matrix.one_apply]
    ring
  · ext i
    fin_cases i <;> simp [Spec.direction, middle, midM, scaleM, setAt, Matrix.mul_apply, Matrix.mulVec, dotProduct,
      Fin.sum_univ_seven, Matrix.one_apply]
  · simp [middle, midM, scaleM, setAt, Matrix.mul_apply, Matrix.mulVec, dotProduct,
      Fin.sum_univ_seven, Matrix.one_apply]

/-- `rotMat` in terms of the rotation of space. -/
theorem rotMat_space (dx dy a b c : ℝ) (u : Vec) :
    let w := (rotMat dx dy a b c).mulVec u
    ![w 0, w 2, w 4] = (spaceTurn a b c).mulVec ![u 0 - dx * u 6, u 2 - dy * u 6, u 4] ∧
    ![w 1, w 3, w 5] = (spaceTurn a b c).mulVec ![u 1, u 3, u 5] ∧ w 6 = u 6 := by
  dsimp only
  have h : (rotMat dx dy a b c).mulVec u = (turn a b c).mulVec ((offs dx dy).mulVec u) := by
    rw [rotMat_split, Matrix.mulVec_mulVec]
  have h2 : (offs dx dy).mulVec u = ![u 0 - dx * u 6, u 1, u 2 - dy * u 6, u 3, u 4, u 5, u 6] := by
    ext i
    simp only [Matrix.mulVec, dotProduct, Fin.sum_univ_seven]
    fin_cases i <;> simp [offs, setAt, Matrix.one_apply] <;> ring
  rw [h, h2]
  simp only [Matrix.mulVec, dotProduct, Fin.sum_univ_seven]
  refine ⟨?_, ?_, by simp [turn, turnM]⟩
  · ext i
    fin_cases i <;> simp [turn, turnM, spaceTurn, Matrix.vecHead, Matrix.vecTail] <;> ring
  · ext i
    fin_cases i <;> simp [turn, turnM, spaceTurn, Matrix.vecHead, Matrix.vecTail] <;> ring

/-- Any misaligned element, also a pitched and yawed one: in front of it the beam is seen from a frame that is shifted by
`dx`, `dy` and rotated about the middle of the element, and behind it the same shift and rotation are undone, again
about the middle.  The rotation depends on the three angles only. -/
theorem C36_rigid (d : MDat) (ref p : Particle) (hK : p.SampleIonK ≠ 0) (hb : p.beta ≠ 0) (hg : p.gamma ≠ 0)
    (hE : ref.IonEs ≠ 0) :
    ∃ M IM r k q, getMisalign d ref p = .ok (M, IM) ∧ Spec.Rotation r ∧ r = Spec.turned d.pitch d.yaw d.roll ∧
      k * p.SampleIonK = -1 ∧ q * (p.beta ^ 2 * p.gamma * ref.IonEs / 1000000) = 1 ∧
      (∀ v, (M.mulVec v) 6 = v 6 ∧
        Spec.place k (d.length * 1000 / 2) (M.mulVec v) =
          r.mulVec (Spec.place k (d.length * 1000 / 2) v - ![d.dx * v 6, d.dy * v 6, 0]) ∧
        Spec.direction q (M.mulVec v) = r.mulVec (Spec.direction q v)) ∧
      (∀ v, (IM.mulVec v) 6 = v 6 ∧
        r.mulVec (Spec.place k (-(d.length * 1000 / 2)) (IM.mulVec v) - ![d.dx * v 6, d.dy * v 6, 0]) =
          Spec.place k (-(d.length * 1000 / 2)) v ∧
        r.mulVec (Spec.direction q (IM.mulVec v)) = Spec.direction q v) := by
  obtain ⟨hz, hp⟩ := unit_ne ref p hK hb hg hE
  refine ⟨_, _, _, unitZ p, unitP ref p, getMisalign_eq d ref p hz hp, spaceTurn_rotation _ _ _, spaceTurn_eq _ _ _, ?_, ?_, ?_, ?_⟩
  · unfold unitZ
    field_simp
  · unfold unitP MeVtoeV
    field_simp
  · intro v
    have hl : -d.length / 2 * MtoMM = -(d.length * 1000 / 2) := by unfold MtoMM; ring
    rw [hl]
    generalize d.length * 1000 / 2 = z
    have hm : ∀ M : Mat, (middle ref p (-z)).mulVec ((((middle ref p (-z))⁻¹ * M) * middle ref p (-z)).mulVec v) =
        M.mulVec ((middle ref p (-z)).mulVec v) := by
      intro M
      rw [Matrix.mulVec_mulVec, Matrix.mulVec_mulVec, ← Matrix.mul_assoc, ← Matrix.mul_assoc,
        (middle_inv ref p hz hp _).2, one_mul]
    obtain ⟨a1, a2, a3⟩ := place_middle ref p z v
    obtain ⟨b1, b2, b3⟩ := place_middle ref p z
      (((middle ref p (-z))⁻¹ * rotMat d.dx d.dy d.pitch d.yaw d.roll * middle ref p (-z)).mulVec v)
    rw [hm] at b1 b2 b3
    obtain ⟨c1, c2, c3⟩ := rotMat_space d.dx d.dy d.pitch d.yaw d.roll ((middle ref p (-z)).mulVec v)
    refine ⟨by rw [b3, c3, ← a3], ?_, by rw [b2, c2, ← a2]⟩
    rw [b1, c1, a1, ← a3]
    congr 1
    ext i
    fin_cases i <;> simp
  · intro v
    have hl : d.length / 2 * MtoMM = -(-(d.length * 1000 / 2)) := by unfold MtoMM; ring
    rw [hl]
    generalize -(d.length * 1000 / 2) = z
    have hm : ∀ M : Mat, (middle ref p (-z)).mulVec ((((middle ref p (-z))⁻¹ * M) * middle ref p (-z)).mulVec v) =
        M.mulVec ((middle ref p (-z)).mulVec v) := by
      intro M
      rw [Matrix.mulVec_mulVec, Matrix.mulVec_mulVec, ← Matrix.mul_assoc, ← Matrix.mul_assoc,
        (middle_inv ref p hz hp _).2, one_mul]
    obtain ⟨a1, a2, a3⟩ := place_middle ref p z v
    obtain ⟨b1, b2, b3⟩ := place_middle ref p z
      (((middle ref p (-z))⁻¹ * (rotMat d.dx d.dy d.pitch d.yaw d.roll)⁻¹ * middle ref p (-z)).mulVec v)
    rw [hm] at b1 b2 b3
    obtain ⟨c1, c2, c3⟩ := rotMat_space d.dx d.dy d.pitch d.yaw d.roll
      ((rotMat d.dx d.dy d.pitch d.yaw d.roll)⁻¹.mulVec ((middle ref p (-z)).mulVec v))
    rw [Matrix.mulVec_mulVec, (rotMat_inv _ _ _ _ _).2, Matrix.one_mulVec] at c1 c2 c3
    have h6 : (((rotMat d.dx d.dy d.pitch d.yaw d.roll)⁻¹).mulVec ((middle ref p (-z)).mulVec v)) 6 = v 6 := by
      rw [← c3, ← a3]
    refine ⟨by rw [b3, h6], ?_, by rw [b2, ← c2, a2]⟩
    rw [b1, a1, c1, h6]
    congr 1
    ext i
    fin_cases i <;> simp

/-- A uranium beam meets the conditions. -/
example : let p : Particle := (⟨33 / 238, 1, 931494320, 0, 0, 0, 0, 80500000, 0, 0, 0, 500000⟩ : Particle).recalc
    p.SampleIonK ≠ 0 ∧ p.beta ≠ 0 ∧ p.gamma ≠ 0 ∧ p.IonEs ≠ 0 :=
  moving ⟨33 / 238, 1, 931494320, 0, 0, 0, 0, 80500000, 0, 0, 0, 500000⟩ (by norm_num) (by norm_num) (by norm_num)

end Flame.Moment
