import Verif.Level.Spec
import Verif.Flip.Props
import Verif.Turn.Cavity

/-! # A beam line seen in a mirror that exchanges up and down: elements without acceleration -/

namespace Flame.Level

open Flame.Mach (Elem Cls St Err Run)
open Flame.Linear (LVal LCfg getNum getNumD getVec)
open Flame.Moment
open Flame.Level.Spec

open Flame.Flip (Signs flipBy flip_diag flip_one flip_mul flip_set flip_set_same flip_inverse flip_mulVec flip_congr rot9 quadPlane_flip eedgeM_flip)

/-! ## mirrors -/

theorem side_signs : Signs side := by
  intro i
  fin_cases i <;> norm_num [side]

theorem imageM_eq (M : Mat) : imageM M = flipBy side M := rfl

theorem s0 : side 0 = 1 := rfl
theorem s1 : side 1 = 1 := rfl
theorem s2 : side 2 = -1 := rfl
theorem s3 : side 3 = -1 := rfl
theorem s4 : side 4 = 1 := rfl
theorem s5 : side 5 = 1 := rfl
theorem s6 : side 6 = 1 := rfl

theorem im_one : imageM 1 = 1 := flip_one side_signs

theorem im_mul (A B : Mat) : imageM (A * B) = imageM A * imageM B := flip_mul side_signs A B

theorem im_inverse (T : Mat) : inverse (imageM T) = (inverse T).map imageM := flip_inverse side_signs T

theorem im_mulVec (T : Mat) (v : Vec) : (imageM T).mulVec (imageV v) = imageV (T.mulVec v) := flip_mulVec side_signs T v

theorem im_congr (T S : Mat) : Moment.congr (imageM T) (imageM S) = imageM (Moment.congr T S) := flip_congr side_signs T S

theorem im_set (M : Mat) (i j : Fin 7) (x : ℝ) : imageM (setAt M i j x) = setAt (imageM M) i j (side i * x * side j) := flip_set M i j x

/-! ## alignment -/

theorem rot9_im (m11 m12 m13 m21 m22 m23 m31 m32 m33 : ℝ) :
    imageM (rot9 m11 m12 m13 m21 m22 m23 m31 m32 m33) = rot9 m11 (-m12) m13 (-m21) m22 (-m23) m31 (-m32) m33 := by
  simp only [rot9, im_set, im_one, s0, s1, s2, s3, s4, s5, neg_mul, mul_neg, one_mul, mul_one, neg_neg]

theorem rotMat_im (dx dy thx thy thz : ℝ) : rotMat dx (-dy) (-thx) thy (-thz) = imageM (rotMat dx dy thx thy thz) := by
  have e : ∀ dx dy thx thy thz, rotMat dx dy thx thy thz =
      rot9 (Real.cos (-thy) * Real.cos thz) (Real.sin thx * Real.sin (-thy) * Real.cos thz + Real.cos thx * Real.sin thz)
        (-Real.cos thx * Real.sin (-thy) * Real.cos thz + Real.sin thx * Real.sin thz) (-Real.cos (-thy) * Real.sin thz)
        (-Real.sin thx * Real.sin (-thy) * Real.sin thz + Real.cos thx * Real.cos thz)
        (Real.cos thx * Real.sin (-thy) * Real.sin thz + Real.sin thx * Real.cos thz) (Real.sin (-thy))
        (-Real.sin thx * Real.cos (-thy)) (Real.cos thx * Real.cos (-thy)) * setAt (setAt 1 0 6 (-dx)) 2 6 (-dy) := fun _ _ _ _ _ => rfl
  rw [e, e, im_mul, rot9_im]
  simp only [im_set, im_one, s0, s2, s6, Real.cos_neg, Real.sin_neg, neg_neg, neg_mul, mul_neg, one_mul, mul_one, neg_add]

/-- Where the mirrored element is. -/
structure Placed (d d' : MDat) : Prop where
  length : d'.length = d.length
  dx : d'.dx = d.dx
  dy : d'.dy = -d.dy
  pitch : d'.pitch = -d.pitch
  yaw : d'.yaw = d.yaw
  roll : d'.roll = -d.roll

/-- Both matrices seen in the mirror. -/
def imageP (m : Mat × Mat) : Mat × Mat := (imageM m.1, imageM m.2)

theorem getMisalign_im {d d' : MDat} (h : Placed d d') (ref p : Particle) : getMisalign d' ref p = (getMisalign d ref p).map imageP := by
  unfold getMisalign
  rw [h.length, h.dx, h.dy, h.pitch, h.yaw, h.roll, rotMat_im]
  have hs : ∀ x y, imageM (setAt (setAt 1 4 4 x) 5 5 y) = setAt (setAt 1 4 4 x) 5 5 y := by
    intro x y
    simp only [im_set, im_one, s4, s5, one_mul, mul_one]
  have ht : ∀ x y, imageM (setAt (setAt 1 4 6 x) 5 6 y) = setAt (setAt 1 4 6 x) 5 6 y := by
    intro x y
    simp only [im_set, im_one, s4, s5, s6, one_mul, mul_one]
  have ht' : ∀ x y z w, imageM (setAt (setAt (setAt (setAt 1 4 6 x) 5 6 y) 4 6 z) 5 6 w) = setAt (setAt (setAt (setAt 1 4 6 x) 5 6 y) 4 6 z) 5 6 w := by
    intro x y z w
    simp only [im_set, im_one, s4, s5, s6, one_mul, mul_one]
  dsimp only
  generalize hA : setAt (setAt (1 : Mat) 4 4 (1 / -p.SampleIonK)) 5 5 (1 / (p.beta * p.beta * p.gamma * ref.IonEs / MeVtoeV)) = A
  generalize hC : setAt (setAt (setAt (setAt (1 : Mat) 4 6 (-d.length / 2 * MtoMM)) 5 6 1) 4 6 (d.length / 2 * MtoMM)) 5 6 1 = C
  generalize hB : setAt (setAt (1 : Mat) 4 6 (-d.length / 2 * MtoMM)) 5 6 1 = B
  generalize rotMat d.dx d.dy d.pitch d.yaw d.roll = R
  have hA' : imageM A = A := by rw [← hA]; exact hs _ _
  have hB' : imageM B = B := by rw [← hB]; exact ht _ _
  have hC' : imageM C = C := by rw [← hC]; exact ht' _ _ _ _
  have inv : ∀ {A I : Mat}, imageM A = A → inverse A = .ok I → imageM I = I := by
    intro A I h1 h2
    have := im_inverse A
    rw [h1, h2] at this
    exact (Except.ok.inj this).symm
  cases h1 : inverse A with
  | error e => rfl
  | ok AI =>
    dsimp only
    cases h2 : inverse B with
    | error e => rfl
    | ok BI =>
      dsimp only
      rw [im_inverse]
      cases inverse R with
      | error e => rfl
      | ok RI =>
        simp only [Except.map]
        cases h3 : inverse C with
        | error e => rfl
        | ok CI =>
          simp only [imageP, im_mul, hA', hB', hC', inv hA' h1, inv hB' h2, inv hC' h3]

theorem aligned_im {d d' : MDat} (h : Placed d d') (ref p : Particle) (T : Mat) :
    aligned d' ref p (imageM T) = (aligned d ref p T).map imageM := by
  unfold aligned
  rw [getMisalign_im h]
  cases getMisalign d ref p with
  | error e => rfl
  | ok m => simp only [Except.map, imageP, im_mul]

theorem aligned_even {d d' : MDat} (h : Placed d d') (ref p : Particle) {T : Mat} (hT : imageM T = T) :
    aligned d' ref p T = (aligned d ref p T).map imageM := by
  have := aligned_im h ref p T
  rwa [hT] at this

/-! ## settings -/

theorem scl_ne {k : String} (h : k.toList.take 1 ≠ ['s']) : ¬ ∃ n : ℕ, k = "scl_fac" ++ toString n := by
  rintro ⟨n, rfl⟩
  apply h
  rw [String.toList_append]
  rfl

section settings
variable {ty : String} {c c' : LCfg} (h : MirroredElement ty c c')
include h

theorem str_m (k : String) (hk : k ∈ keys) : getStr c' k = getStr c k := by
  by_cases hr : Reversed ty c k
  · simp only [getStr, h.reversed k hr]
    cases c k with
    | none => rfl
    | some v => cases v <;> rfl
  · by_cases hm : IsMoments ty c k
    · rcases h.moments k hm with ⟨xs, xs', e1, e2, -⟩ | ⟨-, e⟩
      · simp only [getStr, e1, e2]
      · simp only [getStr, e]
    · simp only [getStr, h.rest k (.inl hk) hr hm]

theorem strD_m (k x : String) (hk : k ∈ keys) : getStrD c' k x = getStrD c k x := by
  have := str_m h k hk
  unfold getStr at this
  unfold getStrD
  split at this <;> split at this <;> simp_all

theorem num_m (k : String) (hk : k ∈ keys) (hr : ¬ Reversed ty c k) : getNum c' k = getNum c k := by
  by_cases hm : IsMoments ty c k
  · rcases h.moments k hm with ⟨xs, xs', e1, e2, -⟩ | ⟨-, e⟩
    · simp only [getNum, e1, e2]
    · simp only [getNum, e]
  · simp only [getNum, h.rest k (.inl hk) hr hm]

theorem numD_g (k : String) (x : ℝ) (hk : Read k) (hr : ¬ Reversed ty c k) : getNumD c' k x = getNumD c k x := by
  by_cases hm : IsMoments ty c k
  · rcases h.moments k hm with ⟨xs, xs', e1, e2, -⟩ | ⟨-, e⟩
    · simp only [getNumD, e1, e2]
    · simp only [getNumD, e]
  · simp only [getNumD, h.rest k hk hr hm]

theorem numD_m (k : String) (x : ℝ) (hk : k ∈ keys) (hr : ¬ Reversed ty c k) : getNumD c' k x = getNumD c k x := numD_g h k x (.inl hk) hr

theorem num_r (k : String) (hr : Reversed ty c k) : getNum c' k = (getNum c k).map (fun x => -x) := by
  simp only [getNum, h.reversed k hr]
  cases c k with
  | none => rfl
  | some v => cases v <;> rfl

theorem numD_r (k : String) (hr : Reversed ty c k) : getNumD c' k 0 = -getNumD c k 0 := by
  simp only [getNumD, h.reversed k hr]
  cases c k with
  | none => simp
  | some v => cases v <;> simp [reverse]

theorem vec_g (k : String) (hk : Read k) (hm : ¬ IsMoments ty c k) : getVec c' k = getVec c k := by
  by_cases hr : Reversed ty c k
  · simp only [getVec, h.reversed k hr]
    cases c k with
    | none => rfl
    | some v => cases v <;> rfl
  · simp only [getVec, h.rest k hk hr hm]

theorem vec_m (k : String) (hk : k ∈ keys) (hm : ¬ IsMoments ty c k) : getVec c' k = getVec c k := vec_g h k (.inl hk) hm

theorem flag_m (env : Env) (k : String) (n : Nat) (hk : k ∈ keys) (hr : ¬ Reversed ty c k) : getFlag env c' k n = getFlag env c k n := by
  unfold getFlag
  rw [str_m h k hk, num_m h k hk hr]

theorem place_m : getNumD c' "dy" 0 = -getNumD c "dy" 0 ∧ getNumD c' "pitch" 0 = -getNumD c "pitch" 0 ∧
    getNumD c' "roll" 0 = -getNumD c "roll" 0 :=
  ⟨numD_r h "dy" (.inl (by simp)), numD_r h "pitch" (.inl (by simp)), numD_r h "roll" (.inl (by simp))⟩

/-- The curves of the mirrored element, with the factors times `f`. -/
theorem curveData_m (hty : ty ≠ "source") (hty2 : ty ≠ "tmatrix") (f : ℝ) (hf : ∀ n : ℕ, getNumD c' ("scl_fac" ++ toString n) 0 = f * getNumD c ("scl_fac" ++ toString n) 0)
    (env : Env) (n : Nat) : curveData env c' n = (curveData env c n).map (List.map (fun q => (f * q.1, q.2))) := by
  have hm : ∀ k, ¬ IsMoments ty c k := by
    rintro k (⟨e, -⟩ | ⟨e, -⟩)
    · exact hty2 e
    · exact hty e
  have h1 : ∀ src src' : LCfg, (∀ n : ℕ, getVec src' ("curve" ++ toString n) = getVec src ("curve" ++ toString n)) → ∀ range n prev,
      oneCurve c' src' range n prev = (oneCurve c src range n prev).map (fun q => (q.1, q.2.1, f * q.2.2)) := by
    intro src src' hs range n prev
    unfold oneCurve
    rw [hs, hf]
    cases getVec src ("curve" ++ toString n) with
    | error e => rfl
    | ok cv =>
      dsimp only
      split
      · rfl
      · split <;> rfl
  have h2 : ∀ src src' : LCfg, (∀ n : ℕ, getVec src' ("curve" ++ toString n) = getVec src ("curve" ++ toString n)) → ∀ range k n prev,
      curveLoop c' src' range k n prev = (curveLoop c src range k n prev).map (List.map (fun q => (f * q.1, q.2))) := by
    intro src src' hs range k
    induction k with
    | zero => intro n prev; rfl
    | succ k ih =>
      intro n prev
      unfold curveLoop
      rw [h1 src src' hs]
      cases oneCurve c src range n prev with
      | error e => rfl
      | ok q =>
        obtain ⟨cv, sz, scl⟩ := q
        simp only [Except.map, ih]
        cases curveLoop c src range k (n + 1) sz with
        | error e => rfl
        | ok r => rfl
  unfold curveData
  rw [vec_m h "use_range" (by decide) (hm _), str_m h "CurveFile" (by decide), strD_m h "Eng_Data_Dir" "." (by decide)]
  dsimp only
  cases getStr c "CurveFile" with
  | error e => exact h2 _ _ (fun n => vec_g h _ (.inr ⟨n, .inl rfl⟩) (hm _)) _ _ _ _
  | ok f =>
    dsimp only
    cases env.file (getStrD c "Eng_Data_Dir" "." ++ "/" ++ f) with
    | error e => rfl
    | ok src => exact h2 _ _ (fun _ => rfl) _ _ _ _

end settings

/-! ## matrices of the elements -/

theorem quadM_im (p : Particle) (L K : ℝ) : imageM (quadM p L K) = quadM p L K := by
  unfold quadM
  rw [imageM_eq, flip_set_same side_signs _ (show side 4 = side 5 from rfl), quadPlane_flip side_signs (show side 2 = side 3 from rfl),
    quadPlane_flip side_signs (show side 0 = side 1 from rfl), flip_one side_signs]

theorem solM_im (L K : ℝ) (M : Mat) : imageM (solM L K M) = solM L (-K) (imageM M) := by
  unfold solM
  simp only [im_set, s0, s1, s2, s3, neg_mul, Real.cos_neg, Real.sin_neg, mul_neg, one_mul, mul_one, neg_neg, ne_eq, neg_eq_zero, div_neg]
  by_cases hK : K = 0
  · simp [hK]
  · simp only [hK, not_false_eq_true, if_true, neg_div, neg_neg]

theorem solenoidM_im (p : Particle) (L K : ℝ) : imageM (solenoidM p L K) = solenoidM p L (-K) := by
  unfold solenoidM
  rw [im_set, solM_im, im_one, s4, s5, one_mul, mul_one]

theorem edgeM_im (rho phi : ℝ) : imageM (edgeM rho phi) = edgeM rho phi := by
  unfold edgeM
  simp only [im_set, im_one, s0, s1, s2, s3, neg_mul, mul_neg, one_mul, mul_one, neg_neg]

theorem sbendM_im (L phi phi1 phi2 K Es g q b dg dd k : ℝ) (M : Mat) :
    imageM (sbendM L phi phi1 phi2 K Es g q b dg dd k M) = sbendM L phi phi1 phi2 K Es g q b dg dd k (imageM M) := by
  unfold sbendM
  simp only [im_mul, edgeM_im]
  congr 2
  simp only [imageM_eq, flip_set, quadPlane_flip side_signs (show side 2 = side 3 from rfl), quadPlane_flip side_signs (show side 0 = side 1 from rfl)]
  simp only [s0, s1, s4, s5, s6, one_mul, mul_one]

theorem side_height : side = Flame.Flip.height := rfl

theorem ebendM_im (L phi fx fy ka Kx Ky Es g e0 h dK dZ k : ℝ) :
    imageM (ebendM L phi fx fy ka Kx Ky Es g e0 h dK dZ k 1) = ebendM L phi fx fy ka Kx Ky Es g e0 h dK dZ k 1 := by
  rw [imageM_eq, side_height]
  exact Flame.Flip.ebendM_height ..

theorem rot90_flip (M : Mat) : imageM (rot90 * M * rot90.transpose) = rot90 * Flame.Flip.Spec.imageM M * rot90.transpose := by
  have e1 : Matrix.diagonal side * rot90 = rot90 * Matrix.diagonal Flame.Flip.Spec.side := by
    ext i j
    rw [Matrix.diagonal_mul, Matrix.mul_diagonal]
    fin_cases i <;> fin_cases j <;> simp [rot90, setAt, side, Flame.Flip.Spec.side]
  have e2 : rot90.transpose * Matrix.diagonal side = Matrix.diagonal Flame.Flip.Spec.side * rot90.transpose := by
    have := congrArg Matrix.transpose e1
    rwa [Matrix.transpose_mul, Matrix.transpose_mul, Matrix.diagonal_transpose, Matrix.diagonal_transpose] at this
  rw [imageM_eq, flip_diag, Flame.Flip.imageM_eq, flip_diag]
  have a1 : Matrix.diagonal side * (rot90 * M * rot90.transpose) * Matrix.diagonal side =
      (Matrix.diagonal side * rot90) * M * (rot90.transpose * Matrix.diagonal side) := by simp only [mul_assoc]
  rw [a1, e1, e2]
  simp only [mul_assoc]

theorem sextM_im (L K3 Dx Dy D2x D2y D2xy : ℝ) (thin dst : Bool) (M : Mat) :
    imageM (sextM L K3 Dx Dy D2x D2y D2xy thin dst M) = sextM L K3 Dx (-Dy) D2x D2y (-D2xy) thin dst (imageM M) := by
  unfold sextM
  generalize hdr : Real.sqrt (Dx * Dx + Dx * Dx) = dr
  have hd : ∀ A B : Mat, imageM A = B → imageM (if dst then setAt (setAt A 1 6 (-K3 * L * (D2x - D2y))) 3 6 (2 * K3 * L * D2xy) else A) =
      (if dst then setAt (setAt B 1 6 (-K3 * L * (D2x - D2y))) 3 6 (2 * K3 * L * -D2xy) else B) := by
    intro A B h
    split
    · rw [im_set, im_set, h]
      simp only [s1, s3, s6]
      congr 1
      · congr 1
        ring
      · ring
    · exact h
  refine hd _ _ ?_
  cases thin with
  | true =>
    simp only [if_true, im_mul, im_set, im_one, s0, s1, s2, s3, neg_mul, mul_neg, one_mul, mul_one, neg_neg]
  | false =>
    simp only [Bool.false_eq_true, if_false]
    generalize hk : Real.sqrt (|K3| * dr) = k
    by_cases h0 : k = 0
    · rw [if_neg (not_not.2 h0), if_neg (not_not.2 h0)]
      simp only [im_set, s0, s1, s2, s3, neg_mul, mul_neg, one_mul, mul_one, neg_neg]
    · rw [if_pos h0, if_pos h0]
      generalize (if K3 < 0 then (-1 : ℝ) else 1) = sg
      simp only [im_set, s0, s1, s2, s3, neg_mul, mul_neg, one_mul, mul_one, neg_neg, neg_div]

/-- What an element has to have in common with the mirrored one. -/
structure Same (ty : String) (d d' : MDat) : Prop where
  placed : Placed d d'
  conf : MirroredElement ty d.conf d'.conf
  fit : d'.fitMode = d.fitMode

theorem forEach_im {α : Type} {f g : α → Except Err Mat} (h : ∀ x, g x = (f x).map imageM) (l : List α) :
    forEach g l = (forEach f l).map (List.map imageM) := Flame.Scale.forEach_post h l

theorem orbtrim_im {d d' : MDat} (h : Same "orbtrim" d d') (ref : Particle) (real : List Particle) :
    orbtrimRec d' ref real = (orbtrimRec d ref real).map (List.map imageM) := by
  unfold orbtrimRec
  simp only [numD_r h.conf "xyrotate" (by simp [Reversed]), numD_m h.conf "realpara" 0 (by decide) (by simp [Reversed]),
    numD_m h.conf "tm_xkick" 0 (by decide) (by simp [Reversed]), numD_r h.conf "tm_ykick" (by simp [Reversed]),
    numD_m h.conf "theta_x" 0 (by decide) (by simp [Reversed]), numD_r h.conf "theta_y" (by simp [Reversed])]
  refine forEach_im (fun p => ?_) _
  have e : ∀ x y : ℝ, setAt (setAt (1 : Mat) 1 6 x) 3 6 (-y) = imageM (setAt (setAt 1 1 6 x) 3 6 y) := by
    intro x y
    simp only [im_set, im_one, s1, s3, s6, neg_mul, one_mul, mul_one]
  have e2 : ∀ x y z w : ℝ, (if getNumD d.conf "realpara" 0 = 1 then -x * y else -z) = -(if getNumD d.conf "realpara" 0 = 1 then x * y else z) := by
    intro x y z w
    split
    · rw [neg_mul]
    · rfl
  rw [e2 _ _ _ 0]
  simp only [neg_mul, neg_div, e, aligned_im h.placed]
  cases aligned d ref p _ with
  | error e => rfl
  | ok M =>
    simp only [Except.map, ne_eq, neg_eq_zero]
    have hr := rotMat_im 0 0 0 0 (getNumD d.conf "xyrotate" 0 * Real.pi / 180)
    rw [neg_zero] at hr
    rw [hr]
    split
    · rw [im_mul]
    · rfl

theorem sbend_im {d d' : MDat} (h : Same "sbend" d d') (ref : Particle) (real : List Particle) :
    sbendRec d' ref real = (sbendRec d ref real).map (List.map imageM) := by
  unfold sbendRec
  simp only [num_m h.conf "L" (by decide) (by simp [Reversed]), num_m h.conf "phi" (by decide) (by simp [Reversed]), num_m h.conf "phi1" (by decide) (by simp [Reversed]),
    num_m h.conf "phi2" (by decide) (by simp [Reversed]), numD_m h.conf "K" 0 (by decide) (by simp [Reversed])]
  have h1 : ∀ L phi phi1 phi2 K p, sbendOne d' L phi phi1 phi2 K ref p = (sbendOne d L phi phi1 phi2 K ref p).map imageM := by
    intro L phi phi1 phi2 K p
    unfold sbendOne
    simp only [num_m h.conf "bg" (by decide) (by simp [Reversed]), h.fit]
    have e : ∀ Es g q b dg dd k, aligned d' ref p (sbendM L phi phi1 phi2 K Es g q b dg dd k 1) =
        (aligned d ref p (sbendM L phi phi1 phi2 K Es g q b dg dd k 1)).map imageM := by
      intro Es g q b dg dd k
      refine aligned_even h.placed _ _ ?_
      rw [sbendM_im, im_one]
    simp only [e]
    split
    · cases getNum d.conf "bg" with
      | error e => rfl
      | ok bg => rfl
    · rfl
  generalize getNum d.conf "L" = x1
  generalize getNum d.conf "phi" = x2
  generalize getNum d.conf "phi1" = x3
  generalize getNum d.conf "phi2" = x4
  cases x1 <;> cases x2 <;> cases x3 <;> cases x4 <;> try rfl
  refine forEach_im (fun p => ?_) _
  simp only [h1]
  split
  · rfl
  · exact congrArg Except.ok im_one.symm

theorem slices_im (n : Nat) (f g : Nat → Mat) (h : ∀ j, g j = imageM (f j)) : slices n g = imageM (slices n f) := by
  unfold slices
  have : ∀ (l : List Nat) (A B : Mat), B = imageM A → l.foldl (fun M j => g j * M) B = imageM (l.foldl (fun M j => f j * M) A) := by
    intro l
    induction l with
    | nil => intro A B h; exact h
    | cons j l ih =>
      intro A B hA
      refine ih _ _ ?_
      dsimp only
      rw [h, hA, im_mul]
  exact this _ _ _ im_one.symm

theorem curves_same {ty : String} {d d' : MDat} (h : Same ty d d') (h1 : ty ≠ "source") (h2 : ty ≠ "tmatrix") (h3 : ty ≠ "solenoid") (env : Env) (n : Nat) :
    curveData env d'.conf n = curveData env d.conf n := by
  have := curveData_m h.conf h1 h2 1 (fun n => by
    rw [one_mul]
    refine numD_g h.conf _ 0 (.inr ⟨n, .inr rfl⟩) ?_
    unfold Reversed
    have hh : ∀ k : String, k.toList.take 1 ≠ ['s'] → "scl_fac" ++ toString n ≠ k := fun k hk e => scl_ne hk ⟨n, e.symm⟩
    simp only [h3, false_and, List.mem_cons, List.not_mem_nil, hh "dy" (by decide), hh "roll" (by decide), hh "pitch" (by decide),
      hh "phi" (by decide), hh "theta_y" (by decide), hh "tm_ykick" (by decide),
      hh "xyrotate" (by decide), and_false, or_self, not_false_eq_true]) env n
  rw [this]
  cases curveData env d.conf n with
  | error e => rfl
  | ok l => simp [Except.map]

theorem quad_im (env : Env) {d d' : MDat} (h : Same "quadrupole" d d') (ref : Particle) (real : List Particle) :
    quadRec env d' ref real = (quadRec env d ref real).map (List.map imageM) := by
  unfold quadRec
  simp only [num_m h.conf "L" (by decide) (by simp [Reversed]), num_m h.conf "B2" (by decide) (by simp [Reversed]),
    flag_m h.conf env "ncurve" 0 (by decide) (by simp [Reversed]), curves_same h (by decide) (by decide) (by decide)]
  cases getNum d.conf "L" with
  | error e => rfl
  | ok L =>
    dsimp only
    cases getFlag env d.conf "ncurve" 0 with
    | error e => rfl
    | ok n =>
      dsimp only
      split
      · cases getNum d.conf "B2" with
        | error e => rfl
        | ok B => exact forEach_im (fun p => aligned_even h.placed _ _ (quadM_im _ _ _)) _
      · cases curveData env d.conf n with
        | error e => rfl
        | ok cs => exact forEach_im (fun p => aligned_even h.placed _ _ (slices_im _ _ _ (fun j => (quadM_im _ _ _).symm)).symm) _

theorem equad_im (env : Env) {d d' : MDat} (h : Same "equad" d d') (ref : Particle) (real : List Particle) :
    equadRec env d' ref real = (equadRec env d ref real).map (List.map imageM) := by
  unfold equadRec
  simp only [num_m h.conf "L" (by decide) (by simp [Reversed]), num_m h.conf "V" (by decide) (by simp [Reversed]),
    num_m h.conf "radius" (by decide) (by simp [Reversed]), flag_m h.conf env "ncurve" 0 (by decide) (by simp [Reversed]),
    curves_same h (by decide) (by decide) (by decide)]
  cases getNum d.conf "L" with
  | error e => rfl
  | ok L =>
    dsimp only
    cases getFlag env d.conf "ncurve" 0 with
    | error e => rfl
    | ok n =>
      dsimp only
      split
      · generalize getNum d.conf "V" = x1
        generalize getNum d.conf "radius" = x2
        cases x1 <;> cases x2 <;> try rfl
        exact forEach_im (fun p => aligned_even h.placed _ _ (quadM_im _ _ _)) _
      · cases curveData env d.conf n with
        | error e => rfl
        | ok cs => exact forEach_im (fun p => aligned_even h.placed _ _ (slices_im _ _ _ (fun j => (quadM_im _ _ _).symm)).symm) _

theorem curveSum_neg (cs : List (ℝ × List ℝ)) (j : Nat) (f : ℝ → ℝ) (hf : ∀ x, f (-x) = -f x) :
    curveSum (cs.map (fun q => (-1 * q.1, q.2))) j f = -curveSum cs j f := by
  unfold curveSum
  induction cs with
  | nil => simp
  | cons q l ih =>
    simp only [List.map_cons, List.sum_cons, ih, neg_add]
    congr 1
    rw [← hf]
    congr 1
    ring

theorem curveLen_neg (cs : List (ℝ × List ℝ)) : curveLen (cs.map (fun q => (-1 * q.1, q.2))) = curveLen cs := by
  cases cs <;> rfl

theorem solenoid_im (env : Env) {d d' : MDat} (h : Same "solenoid" d d') (ref : Particle) (real : List Particle) :
    solenoidRec env d' ref real = (solenoidRec env d ref real).map (List.map imageM) := by
  have nr : ∀ k : String, k.toList.take 1 ≠ ['s'] → k ≠ "dy" → k ≠ "roll" → k ≠ "pitch" → k ≠ "B" → ¬ Reversed "solenoid" d.conf k := by
    intro k h1 h2 h3 h4 h5
    have := scl_ne h1
    simp only [Reversed, List.mem_cons, List.not_mem_nil, or_false, h2, h3, h4, h5, this]
    simp
  unfold solenoidRec
  simp only [num_m h.conf "L" (by decide) (nr _ (by decide) (by decide) (by decide) (by decide) (by decide)),
    num_r h.conf "B" (.inr (.inl ⟨rfl, .inl rfl⟩)),
    flag_m h.conf env "ncurve" 0 (by decide) (nr _ (by decide) (by decide) (by decide) (by decide) (by decide)),
    curveData_m h.conf (by decide) (by decide) (-1) (fun n => by rw [numD_r h.conf _ (.inr (.inl ⟨rfl, .inr ⟨n, rfl⟩⟩)), neg_one_mul])]
  cases getNum d.conf "L" with
  | error e => rfl
  | ok L =>
    dsimp only
    cases getFlag env d.conf "ncurve" 0 with
    | error e => rfl
    | ok n =>
      dsimp only
      split
      · cases getNum d.conf "B" with
        | error e => rfl
        | ok B =>
          simp only [Except.map, neg_div, ← solenoidM_im]
          exact forEach_im (fun p => aligned_im h.placed _ _ _) _
      · cases curveData env d.conf n with
        | error e => rfl
        | ok cs =>
          simp only [Except.map, curveLen_neg]
          refine forEach_im (fun p => ?_) _
          rw [← aligned_im h.placed]
          congr 1
          refine slices_im _ _ _ (fun j => ?_)
          rw [solenoidM_im, curveSum_neg cs j _ (fun x => by rw [neg_div, neg_div])]

theorem edipole_im (env : Env) {d d' : MDat} (h : Same "edipole" d d') (ref : Particle) (real : List Particle) :
    edipoleRec env d' ref real = (edipoleRec env d ref real).map (List.map imageM) := by
  unfold edipoleRec
  simp only [num_m h.conf "L" (by decide) (by simp [Reversed]), num_m h.conf "ver" (by decide) (by simp [Reversed]),
    num_m h.conf "spher" (by decide) (by simp [Reversed]), flag_m h.conf env "HdipoleFitMode" 1 (by decide) (by simp [Reversed]),
    numD_m h.conf "fringe_x" 0 (by decide) (by simp [Reversed]), numD_m h.conf "fringe_y" 0 (by decide) (by simp [Reversed]),
    numD_m h.conf "asym_fac" 0 (by decide) (by simp [Reversed]), numD_m h.conf "beta" _ (by decide) (by simp [Reversed])]
  cases hv : getNum d.conf "ver" with
  | error e => rfl
  | ok ver =>
    have hver : ver = 1 ↔ d.conf "ver" = some (.num 1) := by
      unfold getNum at hv
      split at hv
      · rename_i x hx
        cases hv
        rw [hx]
        simp
      · cases hv
    by_cases h1 : ver = 1
    · have hphi : getNum d'.conf "phi" = (getNum d.conf "phi").map (fun x => -x) := num_r h.conf "phi" (by simp [Reversed, ← hver, h1])
      have one : ∀ L phi fx fy kappa spher db p, edipoleOne d' true L (-phi) fx fy kappa spher db ref p =
          (edipoleOne d true L phi fx fy kappa spher db ref p).map imageM := by
        intro L phi fx fy kappa spher db p
        unfold edipoleOne
        simp only [div_neg, neg_mul_neg]
        rw [← aligned_im h.placed]
        simp only [if_true, rot90_flip, Flame.Flip.ebendM_im, Flame.Flip.im_one]
      rw [hphi]
      generalize getNum d.conf "L" = x2
      generalize getNum d.conf "phi" = x3
      generalize getNum d.conf "spher" = x4
      cases x2 <;> cases x3 <;> cases x4 <;> try rfl
      simp only [Except.map]
      cases getFlag env d.conf "HdipoleFitMode" 1 with
      | error e => rfl
      | ok n =>
        dsimp only
        split
        · rfl
        · refine forEach_im (fun p => ?_) _
          rw [decide_eq_true h1, neg_mul, neg_div]
          split
          · exact one _ _ _ _ _ _ _ _
          · exact congrArg Except.ok im_one.symm
    · have hphi : getNum d'.conf "phi" = getNum d.conf "phi" := num_m h.conf "phi" (by decide) (by simp [Reversed, ← hver, h1])
      have one : ∀ L phi fx fy kappa spher db p, edipoleOne d' false L phi fx fy kappa spher db ref p =
          (edipoleOne d false L phi fx fy kappa spher db ref p).map imageM := by
        intro L phi fx fy kappa spher db p
        unfold edipoleOne
        dsimp only
        refine aligned_even h.placed _ _ ?_
        rw [if_neg (by decide), ebendM_im]
      rw [hphi]
      generalize getNum d.conf "L" = x2
      generalize getNum d.conf "phi" = x3
      generalize getNum d.conf "spher" = x4
      cases x2 <;> cases x3 <;> cases x4 <;> try rfl
      dsimp only
      cases getFlag env d.conf "HdipoleFitMode" 1 with
      | error e => rfl
      | ok n =>
        dsimp only
        split
        · rfl
        · refine forEach_im (fun p => ?_) _
          rw [decide_eq_false h1]
          split
          · exact one _ _ _ _ _ _ _ _
          · exact congrArg Except.ok im_one.symm

theorem driftM_im (p : Particle) (L : ℝ) : imageM (driftM p L) = driftM p L := by
  simp only [driftM, im_set, im_one, s0, s1, s2, s3, s4, s5, neg_mul, mul_neg, one_mul, mul_one, neg_neg]

theorem loadM_im {ty : String} {c c' : LCfg} (h : MirroredElement ty c c') {k : String} (hk : IsMoments ty c k) :
    (loadStorage 49 c' k).map matOf = ((loadStorage 49 c k).map matOf).map imageM := by
  rcases h.moments k hk with ⟨xs, xs', e1, e2, e3, -, e4⟩ | ⟨e1, e2⟩
  · simp only [loadStorage, getVec, e1, e2, e3]
    split
    · rename_i hl
      refine congrArg Except.ok ?_
      ext i j
      exact e4 hl i j
    · rfl
  · have : ∀ xs, getVec c k ≠ .ok xs := by
      intro xs hx
      unfold getVec at hx
      split at hx
      · rename_i y hy
        exact e1 _ hy
      · cases hx
    have hv : getVec c' k = getVec c k := by simp only [getVec, e2]
    simp only [loadStorage, hv]
    cases hg : getVec c k with
    | error e => rfl
    | ok xs => exact absurd hg (this xs)

theorem recompute_im (env : Env) (t : MType) {d d' : MDat} (h : Same t.name d d') (ref : Particle)
    (real : List Particle) : recompute env t d' ref real = (recompute env t d ref real).map (List.map imageM) := by
  cases t with
  | orbtrim => exact orbtrim_im h ref real
  | sbend => exact sbend_im h ref real
  | quadrupole => exact quad_im env h ref real
  | solenoid => exact solenoid_im env h ref real
  | equad => exact equad_im env h ref real
  | edipole => exact edipole_im env h ref real
  | tmatrix =>
    simp only [recompute]
    refine forEach_im (fun p => ?_) _
    have := loadM_im h.conf (k := "matrix") (.inl ⟨rfl, rfl⟩)
    cases h1 : loadStorage 49 d.conf "matrix" <;> cases h2 : loadStorage 49 d'.conf "matrix" <;> rw [h1, h2] at this <;> exact this
  | drift =>
    simp only [recompute, Except.map, List.map_map, h.placed.length]
    refine congrArg Except.ok (List.map_congr_left (fun p _ => ?_))
    exact (driftM_im p _).symm
  | _ =>
    simp only [recompute, Except.map, List.map_map]
    exact congrArg Except.ok (List.map_congr_left (fun p _ => im_one.symm))

/-! ## states -/

theorem env0_im (l : List Particle) (m0 : List Vec) : env0 l (m0.map imageV) = imageV (env0 l m0) := by
  funext j
  simp only [env0, imageV, List.zipWith_map_right]
  rw [← mul_div_assoc]
  congr 1
  rw [← List.map_uncurry_zip_eq_zipWith, ← List.map_uncurry_zip_eq_zipWith, ← List.sum_map_mul_left]
  refine congrArg List.sum (List.map_congr_left (fun x _ => ?_))
  simp only [Function.uncurry]
  ring

theorem env1_im (l : List Particle) (m0 : List Vec) (m1 : List Mat) : env1 l (m0.map imageV) (m1.map imageM) = imageM (env1 l m0 m1) := by
  funext i j
  simp only [env1, imageM, env0_im]
  split
  · rw [← mul_div_assoc, div_mul_eq_mul_div]
    congr 1
    rw [List.zip_map, ← List.map_uncurry_zip_eq_zipWith, ← List.map_uncurry_zip_eq_zipWith, List.zip_map_right, List.map_map, ← List.sum_map_mul_left,
      ← List.sum_map_mul_right]
    refine congrArg List.sum (List.map_congr_left (fun x _ => ?_))
    simp only [Function.uncurry, Function.comp, Prod.map, imageV, imageM, id]
    ring
  · simp

/-- The beam seen in the mirror. -/
def imageS (S : MSt) : MSt :=
  { S with moment0 := S.moment0.map imageV, moment1 := S.moment1.map imageM, transmat := S.transmat.map imageM,
           moment0_env := imageV S.moment0_env, moment1_env := imageM S.moment1_env }

theorem mirrored_iff (S S' : MSt) : MirroredBeam S S' ↔ S' = imageS S := by
  constructor
  · rintro ⟨h1, h2, h3, h4, h5, h6, h7, h8, h9, h10⟩
    cases S'
    simp only at *
    subst h1 h2 h3 h4 h5 h6 h7 h8 h9 h10
    rfl
  · rintro rfl
    exact ⟨rfl, rfl, rfl, rfl, rfl, rfl, rfl, rfl, rfl, rfl⟩

theorem recalc_im (S : MSt) : (imageS S).recalc = imageS S.recalc := rfl

theorem calcRms_im (S : MSt) : (imageS S).calcRms = imageS S.calcRms := by
  simp only [MSt.calcRms, imageS, env0_im, env1_im]
  congr 1
  funext j
  congr 1
  simp only [imageM]
  linear_combination (env1 S.real S.moment0 S.moment1 j j) * side_signs j

theorem zip_im (T : List Mat) (l : List Vec) :
    List.zipWith (fun (M : Mat) (v : Vec) => M.mulVec v) (T.map imageM) (l.map imageV) =
      (List.zipWith (fun (M : Mat) (v : Vec) => M.mulVec v) T l).map imageV := by
  rw [List.zipWith_map, List.map_zipWith]
  simp only [im_mulVec]

theorem zip_imM (T l : List Mat) : List.zipWith Moment.congr (T.map imageM) (l.map imageM) =
      (List.zipWith Moment.congr T l).map imageM := by
  rw [List.zipWith_map, List.map_zipWith]
  simp only [im_congr]

theorem forward_im (T : List Mat) (S : MSt) : forward (T.map imageM) (imageS S) = imageS (forward T S) := by
  simp only [forward, imageS, zip_im, zip_imM]

theorem backLoop_im : ∀ (T : List Mat) (v : List Vec) (S X : List Mat),
    backLoop (T.map imageM) (v.map imageV) (S.map imageM) (X.map imageM) =
      ((backLoop T v S X).1.map imageV, (backLoop T v S X).2.1.map imageM, (backLoop T v S X).2.2.1.map imageM, (backLoop T v S X).2.2.2)
  | [], _, _, _ => by simp only [List.map_nil, backLoop]
  | _ :: _, [], _, _ => by simp only [List.map_nil, List.map_cons, backLoop]
  | _ :: _, _ :: _, [], _ => by simp only [List.map_nil, List.map_cons, backLoop]
  | _ :: _, _ :: _, _ :: _, [] => by simp only [List.map_nil, List.map_cons, backLoop]
  | T :: Ts, v :: vs, S :: Ss, X :: Xs => by
    simp only [List.map_cons, backLoop, im_inverse, backLoop_im Ts vs Ss Xs]
    cases inverse T with
    | error e => rfl
    | ok I => simp only [Except.map, im_mulVec, im_congr, List.map_cons]

theorem backward_im (T : List Mat) (S : MSt) : backward (T.map imageM) (imageS S) = (imageS (backward T S).1, (backward T S).2) := by
  simp only [backward, imageS, backLoop_im]

/-! ## elements -/

/-- The mirrored cavity. -/
def imageC (cav : Cav) : Cav := { cav with misalign := cav.misalign.map imageP }

/-- The data of the mirrored element. -/
def imageD (c' : LCfg) (d : MDat) : MDat :=
  { d with conf := c', dy := -d.dy, pitch := -d.pitch, roll := -d.roll, transfer := d.transfer.map imageM, istate := d.istate.map imageS,
           cav := d.cav.map imageC }

/-- The data of an element in both runs. -/
def DRel (ty : String) (d d' : MDat) : Prop := ∃ c', MirroredElement ty d.conf c' ∧ d' = imageD c' d

theorem DRel.same {ty : String} {d d' : MDat} (h : DRel ty d d') : Same ty d d' := by
  obtain ⟨c', h1, rfl⟩ := h
  exact ⟨⟨rfl, rfl, rfl, rfl, rfl, rfl⟩, h1, rfl⟩

/-- What has to be shown of an element. -/
def Alike (P : MDat → MDat → Prop) (x x' : MDat × St MSt × Option Err) : Prop :=
  x'.2.2 = x.2.2 ∧ x'.2.1 = { x.2.1 with payload := imageS x.2.1.payload } ∧ (x.2.2 = none → P x.1 x'.1)

def imageT (s : St MSt) : St MSt := { s with payload := imageS s.payload }

theorem resize_im (n : Nat) (l : List Mat) : resize n (l.map imageM) = (resize n l).map imageM := by
  simp only [resize, List.map_append, List.map_take, List.length_map, List.map_replicate, im_one]

theorem particles_im (env : Env) (t : MType) (move : Particle → Particle) {d d' : MDat} (h : DRel t.name d d') (S : MSt) (b : Bool) :
    match particles (recompute env t) move d S b, particles (recompute env t) move d' (imageS S) b with
    | (_, .error e), y => y.2 = .error e
    | (d1, .ok z), y => y.2 = .ok z ∧ y.1.transfer = d1.transfer.map imageM ∧ DRel t.name d1 y.1 := by
  obtain ⟨c', h1, rfl⟩ := h
  unfold particles
  by_cases hb : b = true
  · rw [if_pos hb, if_pos hb]
    exact ⟨rfl, rfl, c', h1, rfl⟩
  · rw [if_neg hb, if_neg hb]
    have e : ({ imageD c' d with refIn := some (imageS S).ref, realIn := (imageS S).real, transfer := resize (imageS S).real.length (imageD c' d).transfer } : MDat) =
        imageD c' { d with refIn := some S.ref, realIn := S.real, transfer := resize S.real.length d.transfer } := by
      simp only [imageD, imageS, resize_im]
    dsimp only
    rw [e]
    generalize hD : ({ d with refIn := some S.ref, realIn := S.real, transfer := resize S.real.length d.transfer } : MDat) = D
    have k1 : MirroredElement t.name D.conf c' := by rw [← hD]; exact h1
    have hrec := recompute_im env t (DRel.same ⟨c', k1, rfl⟩ : Same t.name D (imageD c' D)) S.ref S.real
    rw [show (imageS S).ref = S.ref from rfl, show (imageS S).real = S.real from rfl, hrec]
    cases recompute env t D S.ref S.real with
    | error e => rfl
    | ok T => exact ⟨rfl, rfl, c', h1, rfl⟩

theorem DRel.length {ty : String} {d d' : MDat} (h : DRel ty d d') : d'.length = d.length := h.same.placed.length

theorem DRel.hit {ty : String} {d d' : MDat} (h : DRel ty d d') (S : MSt) :
    @decide (hit d' (imageS S)) (Classical.propDecidable _) = @decide (hit d S) (Classical.propDecidable _) := by
  obtain ⟨c', h1, rfl⟩ := h
  rfl

theorem base_im (env : Env) (t : MType) {d d' : MDat} (h : DRel t.name d d') (s : St MSt) :
    Alike (DRel t.name) (advanceBase (recompute env t) d s) (advanceBase (recompute env t) d' (imageT s)) := by
  unfold advanceBase
  dsimp only
  rw [show (imageT s).payload.recalc = imageS s.payload.recalc from rfl, h.hit, h.length, show (imageT s).retreat = s.retreat from rfl]
  have hp := particles_im env t (·.drifted s.retreat d.length) h s.payload.recalc (@decide (Moment.hit d s.payload.recalc) (Classical.propDecidable _))
  generalize particles (recompute env t) (·.drifted s.retreat d.length) d s.payload.recalc _ = z at hp ⊢
  generalize particles (recompute env t) (·.drifted s.retreat d.length) d' (imageS s.payload.recalc) _ = z' at hp ⊢
  obtain ⟨d1, z⟩ := z
  obtain ⟨d1', z'⟩ := z'
  cases z with
  | error e =>
    dsimp only at hp
    subst hp
    exact ⟨rfl, rfl, fun h => by cases h⟩
  | ok z =>
    obtain ⟨h1, h2, h3⟩ := hp
    dsimp only at h1 h2 h3
    subst h1
    dsimp only
    rw [h2, show ({ imageS s.payload.recalc with ref := z.1, real := z.2, pos := (imageS s.payload.recalc).pos + sign s.retreat * d.length } : MSt)
        = imageS { s.payload.recalc with ref := z.1, real := z.2, pos := s.payload.recalc.pos + sign s.retreat * d.length } from rfl]
    generalize ({ s.payload.recalc with ref := z.1, real := z.2, pos := s.payload.recalc.pos + sign s.retreat * d.length } : MSt) = S0
    split
    · rw [backward_im]
      generalize backward d1.transfer S0 = w
      obtain ⟨S1, o⟩ := w
      cases o with
      | some e => exact ⟨rfl, rfl, fun h => by cases h⟩
      | none => exact ⟨rfl, congrArg (St.mk _ _) (calcRms_im S1), fun _ => h3⟩
    · rw [forward_im]
      exact ⟨rfl, congrArg (St.mk _ _) (calcRms_im _), fun _ => h3⟩

theorem image_4 (v : Vec) : imageV v 4 = v 4 := by rw [imageV, s4, one_mul]

theorem bendPhis_im (b : Bool) (L : ℝ) : ∀ (l : List Particle) (v w : List Vec),
    bendPhis b L l (v.map imageV) (w.map imageV) = bendPhis b L l v w
  | [], _, _ => by simp only [bendPhis]
  | _ :: _, [], _ => by simp only [List.map_nil, bendPhis]
  | _ :: _, _ :: _, [] => by simp only [List.map_nil, List.map_cons, bendPhis]
  | p :: l, x :: v, y :: w => by
    simp only [List.map_cons, bendPhis, bendPhis_im b L l v w, image_4]

theorem bend_im (env : Env) {d d' : MDat} (h : DRel "sbend" d d') (s : St MSt) :
    Alike (DRel "sbend") (advanceBend (recompute env .sbend) d s) (advanceBend (recompute env .sbend) d' (imageT s)) := by
  unfold advanceBend
  dsimp only
  rw [show (imageT s).payload.recalc = imageS s.payload.recalc from rfl, h.hit, h.length, show (imageT s).retreat = s.retreat from rfl]
  have hp := particles_im env .sbend id h s.payload.recalc (@decide (Moment.hit d s.payload.recalc) (Classical.propDecidable _))
  generalize particles (recompute env .sbend) id d s.payload.recalc _ = z at hp ⊢
  generalize particles (recompute env .sbend) id d' (imageS s.payload.recalc) _ = z' at hp ⊢
  obtain ⟨d1, z⟩ := z
  obtain ⟨d1', z'⟩ := z'
  cases z with
  | error e =>
    dsimp only at hp
    subst hp
    exact ⟨rfl, rfl, fun h => by cases h⟩
  | ok z =>
    obtain ⟨h1, h2, h3⟩ := hp
    dsimp only at h1 h2 h3
    subst h1
    dsimp only
    rw [h2, show ({ imageS s.payload.recalc with ref := z.1.drifted s.retreat d.length, real := z.2, pos := (imageS s.payload.recalc).pos + sign s.retreat * d.length } : MSt)
        = imageS { s.payload.recalc with ref := z.1.drifted s.retreat d.length, real := z.2, pos := s.payload.recalc.pos + sign s.retreat * d.length } from rfl]
    generalize ({ s.payload.recalc with ref := z.1.drifted s.retreat d.length, real := z.2, pos := s.payload.recalc.pos + sign s.retreat * d.length } : MSt) = S0
    have key : ∀ (S1 : MSt), ({ imageS S1 with real := bendPhis s.retreat d.length (imageS S1).real (s.payload.recalc.moment0.map imageV) (imageS S1).moment0 } : MSt).calcRms =
        imageS ({ S1 with real := bendPhis s.retreat d.length S1.real s.payload.recalc.moment0 S1.moment0 } : MSt).calcRms := by
      intro S1
      rw [← calcRms_im]
      simp only [imageS, bendPhis_im]
    split
    · rw [backward_im]
      generalize backward d1.transfer S0 = w
      obtain ⟨S1, o⟩ := w
      cases o with
      | some e => exact ⟨rfl, rfl, fun h => by cases h⟩
      | none => exact ⟨rfl, congrArg (St.mk _ _) (key S1), fun _ => h3⟩
    · rw [forward_im]
      exact ⟨rfl, congrArg (St.mk _ _) (key _), fun _ => h3⟩

theorem sextLoop_im (p : Particle) (dL K : ℝ) (thin dst : Bool) : ∀ (n : Nat) (v : Vec) (S X T : Mat),
    sextLoop p dL K thin dst n (imageV v, imageM S, imageM X, imageM T) =
      (imageV (sextLoop p dL K thin dst n (v, S, X, T)).1, imageM (sextLoop p dL K thin dst n (v, S, X, T)).2.1,
        imageM (sextLoop p dL K thin dst n (v, S, X, T)).2.2.1, imageM (sextLoop p dL K thin dst n (v, S, X, T)).2.2.2)
  | 0, v, S, X, T => rfl
  | n + 1, v, S, X, T => by
    have e : setAt (sextM dL K (imageV v 0) (imageV v 2) (imageM S 0 0) (imageM S 2 2) (imageM S 0 2) thin dst (imageM T)) 4 5 (slip p dL) =
        imageM (setAt (sextM dL K (v 0) (v 2) (S 0 0) (S 2 2) (S 0 2) thin dst T) 4 5 (slip p dL)) := by
      rw [im_set, sextM_im]
      simp only [imageV, imageM, s0, s2, s4, s5, neg_mul, mul_neg, one_mul, mul_one, neg_neg]
    simp only [sextLoop, e, im_mulVec, im_congr, ← im_mul, sextLoop_im p dL K thin dst n]

theorem sextOne_im {d d' : MDat} (h : Placed d d') (B3 L stp : ℝ) (thin dst : Bool) (ref p : Particle) (v : Vec) (S : Mat) :
    sextOne d' B3 L stp thin dst ref p (imageV v) (imageM S) =
      (sextOne d B3 L stp thin dst ref p v S).map (fun r => (imageV r.1, imageM r.2.1, imageM r.2.2)) := by
  unfold sextOne
  rw [getMisalign_im h]
  cases getMisalign d ref p with
  | error e => rfl
  | ok m =>
    obtain ⟨M, IM⟩ := m
    simp only [Except.map, imageP, im_mulVec, im_congr]
    have := sextLoop_im p (L / stp) (B3 / p.Brho / (MtoMM * MtoMM * MtoMM)) thin dst (toSteps stp) (M.mulVec v) (Moment.congr M S) 1 1
    rw [im_one] at this
    rw [this]
    simp only [im_mulVec, im_congr, im_mul]

theorem sextGo_im {c' : LCfg} {D : MDat} (h1 : MirroredElement "sextupole" D.conf c') (B3 L stp : ℝ) (thin dst : Bool) (S : MSt) (s : St MSt) :
    Alike (DRel "sextupole") (Turn.sextGo B3 L stp thin dst D S s) (Turn.sextGo B3 L stp thin dst (imageD c' D) (imageS S) (imageT s)) := by
  have hP : Placed D (imageD c' D) := (DRel.same ⟨c', h1, rfl⟩ : Same "sextupole" D (imageD c' D)).placed
  have hz : (imageS S).real.zip ((imageS S).moment0.zip (imageS S).moment1) =
      (S.real.zip (S.moment0.zip S.moment1)).map (fun q => (q.1, imageV q.2.1, imageM q.2.2)) := by
    simp only [imageS]
    rw [List.zip_map, List.zip_map_right]
    rfl
  unfold Turn.sextGo
  rw [hz, Flame.Scale.forEach_map]
  simp only [sextOne_im hP, show (imageS S).ref = S.ref from rfl]
  rw [Flame.Scale.forEach_post (f := fun (q : Particle × Vec × Mat) => sextOne D B3 L stp thin dst S.ref q.1 q.2.1 q.2.2) (fun _ => rfl)]
  generalize forEach _ (S.real.zip (S.moment0.zip S.moment1)) = z
  cases z with
  | error e => exact ⟨rfl, rfl, fun h => by cases h⟩
  | ok rs =>
    simp only [Except.map]
    refine ⟨rfl, congrArg (St.mk _ _) ?_, fun _ => ⟨c', h1, rfl⟩⟩
    rw [← calcRms_im]
    simp only [imageS, List.map_map]
    rfl

theorem sext_im {d d' : MDat} (h : DRel "sextupole" d d') (s : St MSt) :
    Alike (DRel "sextupole") (advanceSext d s) (advanceSext d' (imageT s)) := by
  obtain ⟨c', h1, rfl⟩ := h
  unfold advanceSext
  simp only [show (imageD c' d).conf = c' from rfl, num_m h1 "B3" (by decide) (by simp [Reversed]), num_m h1 "L" (by decide) (by simp [Reversed]),
    numD_m h1 "step" 1 (by decide) (by simp [Reversed]),
    numD_m h1 "thinlens" 0 (by decide) (by simp [Reversed]), numD_m h1 "dstkick" 1 (by decide) (by simp [Reversed]),
    show (imageT s).payload.recalc = imageS s.payload.recalc from rfl, show (imageT s).retreat = s.retreat from rfl]
  cases getNum d.conf "B3" with
  | error e => exact ⟨rfl, rfl, fun h => by cases h⟩
  | ok B3 =>
    cases getNum d.conf "L" with
    | error e => exact ⟨rfl, rfl, fun h => by cases h⟩
    | ok L =>
      dsimp only
      split
      · exact ⟨rfl, rfl, fun h => by cases h⟩
      · generalize s.payload.recalc = S
        have e : ({ imageD c' d with refIn := some (imageS S).ref, realIn := (imageS S).real, transfer := resize (imageS S).real.length (imageD c' d).transfer } : MDat) =
            imageD c' { d with refIn := some S.ref, realIn := S.real, transfer := resize S.real.length d.transfer } := by
          simp only [imageD, imageS, resize_im]
        have := sextGo_im (c' := c') (D := { d with refIn := some S.ref, realIn := S.real, transfer := resize S.real.length d.transfer }) h1 B3 (L * MtoMM)
          (toSteps (getNumD d.conf "step" 1) : ℝ) (@decide (getNumD d.conf "thinlens" 0 = 1) (Classical.propDecidable _))
          (@decide (getNumD d.conf "dstkick" 1 = 1) (Classical.propDecidable _)) S s
        rw [← e] at this
        exact this

theorem source_im {d d' : MDat} (h : DRel "source" d d') (s : St MSt) : Alike (DRel "source") (advanceSource d s) (advanceSource d' (imageT s)) := by
  obtain ⟨c', h, rfl⟩ := h
  unfold advanceSource
  rw [show (imageD c' d).istate = d.istate.map imageS from rfl, show (imageT s).retreat = s.retreat from rfl]
  cases d.istate with
  | none => exact ⟨rfl, rfl, fun _ => ⟨c', h, rfl⟩⟩
  | some i =>
    dsimp only [Option.map]
    split
    · exact ⟨rfl, rfl, fun _ => ⟨c', h, rfl⟩⟩
    · exact ⟨rfl, rfl, fun _ => ⟨c', h, rfl⟩⟩

/-- All element types but cavities and strippers. -/
theorem advance_im (env : Env) (t : MType) {d d' : MDat} (h : DRel t.name d d') (s : St MSt) :
    Alike (DRel t.name) (advance env t d s) (advance env t d' (imageT s)) := by
  cases t with
  | source => exact source_im h s
  | sbend => exact bend_im env h s
  | sextupole => exact sext_im h s
  | _ => exact base_im env _ h s

end Flame.Level
