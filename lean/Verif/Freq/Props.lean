import Verif.Freq.Spec
import Verif.Flip.Cavity

/-! # Another frequency as the unit of phase: elements without acceleration -/

namespace Flame.Freq

open Flame.Mach (Elem Cls St Err Run)
open Flame.Linear (LVal LCfg getNum getNumD getVec)
open Flame.Moment
open Flame.Flip.Spec (IsMoments Several text keys Read)
open Flame.Freq.Spec
open Flame.Scale (forEach_map forEach_post)

variable {u : ℝ}

/-! ## units -/

theorem e0 : unit u 0 = 1 := rfl
theorem e1 : unit u 1 = 1 := rfl
theorem e2 : unit u 2 = 1 := rfl
theorem e3 : unit u 3 = 1 := rfl
theorem e4 : unit u 4 = u := rfl
theorem e5 : unit u 5 = 1 := rfl
theorem e6 : unit u 6 = 1 := rfl

theorem unit_pos (hu : 0 < u) (i : Fin 7) : 0 < unit u i := by
  fin_cases i <;> first | exact one_pos | exact hu

theorem unit_ne (hu : 0 < u) (i : Fin 7) : unit u i ≠ 0 := (unit_pos hu i).ne'

/-- The unit as a matrix, and its inverse. -/
noncomputable def into (u : ℝ) : Mat := Matrix.diagonal (unit u)

noncomputable def back (u : ℝ) : Mat := Matrix.diagonal (fun i => (unit u i)⁻¹)

theorem t_diag (M : Mat) : inUnitT u M = into u * M * back u := by
  ext i j
  simp only [inUnitT, into, back, Matrix.mul_diagonal, Matrix.diagonal_mul, div_eq_mul_inv]

theorem s_diag (M : Mat) : inUnitS u M = into u * M * into u := by
  ext i j
  simp only [inUnitS, into, Matrix.mul_diagonal, Matrix.diagonal_mul]

theorem back_into (hu : 0 < u) : back u * into u = 1 := by
  rw [back, into, Matrix.diagonal_mul_diagonal, show (fun i => (unit u i)⁻¹ * unit u i) = fun _ => 1 from funext fun i => inv_mul_cancel₀ (unit_ne hu i),
    Matrix.diagonal_one]

theorem into_back (hu : 0 < u) : into u * back u = 1 := by
  rw [back, into, Matrix.diagonal_mul_diagonal, show (fun i => unit u i * (unit u i)⁻¹) = fun _ => 1 from funext fun i => mul_inv_cancel₀ (unit_ne hu i),
    Matrix.diagonal_one]

theorem t_one (hu : 0 < u) : inUnitT u 1 = 1 := by rw [t_diag, mul_one, into_back hu]

theorem t_mul (hu : 0 < u) (A B : Mat) : inUnitT u (A * B) = inUnitT u A * inUnitT u B := by
  rw [t_diag, t_diag, t_diag]
  have : into u * A * back u * (into u * B * back u) = into u * A * (back u * into u) * B * back u := by simp only [mul_assoc]
  rw [this, back_into hu, mul_one]
  simp only [mul_assoc]

theorem t_det (hu : 0 < u) (A : Mat) : (inUnitT u A).det = A.det := by
  have h := congrArg Matrix.det (into_back hu)
  rw [Matrix.det_mul, Matrix.det_one] at h
  rw [t_diag, Matrix.det_mul, Matrix.det_mul]
  linear_combination A.det * h

theorem t_inverse (hu : 0 < u) (T : Mat) : inverse (inUnitT u T) = (inverse T).map (inUnitT u) := by
  unfold inverse
  rw [t_det hu]
  by_cases h : T.det = 0
  · rw [if_pos h, if_pos h]; rfl
  · rw [if_neg h, if_neg h]
    refine congrArg Except.ok (Matrix.inv_eq_right_inv ?_)
    rw [← t_mul hu, Matrix.mul_nonsing_inv _ (isUnit_iff_ne_zero.2 h), t_one hu]

theorem t_mulVec (hu : 0 < u) (T : Mat) (v : Vec) : (inUnitT u T).mulVec (inUnitV u v) = inUnitV u (T.mulVec v) := by
  funext i
  simp only [Matrix.mulVec, dotProduct, inUnitT, inUnitV, Finset.mul_sum]
  refine Finset.sum_congr rfl (fun j _ => ?_)
  have := unit_ne hu j
  field_simp

theorem t_congr (hu : 0 < u) (T S : Mat) : Moment.congr (inUnitT u T) (inUnitS u S) = inUnitS u (Moment.congr T S) := by
  have ht : (inUnitT u T).transpose = back u * T.transpose * into u := by
    rw [t_diag, Matrix.transpose_mul, Matrix.transpose_mul, into, back, Matrix.diagonal_transpose, Matrix.diagonal_transpose, mul_assoc]
  simp only [Moment.congr]
  rw [ht, t_diag, s_diag, s_diag]
  have : into u * T * back u * (into u * S * into u * (back u * T.transpose * into u)) =
      into u * T * (back u * into u) * S * (into u * back u) * T.transpose * into u := by simp only [mul_assoc]
  first
  | rw [this, back_into hu, into_back hu]; simp only [mul_assoc, mul_one, one_mul]
  | (have : into u * T * back u * (into u * S * into u) * (back u * T.transpose * into u) =
      into u * T * (back u * into u) * S * (into u * back u) * T.transpose * into u := by simp only [mul_assoc]
     rw [this, back_into hu, into_back hu]; simp only [mul_assoc, mul_one, one_mul])

theorem t_set (M : Mat) (i j : Fin 7) (x : ℝ) : inUnitT u (setAt M i j x) = setAt (inUnitT u M) i j (unit u i * x / unit u j) := by
  ext a b
  simp only [inUnitT, setAt]
  split
  · rename_i h
    rw [h.1, h.2]
  · rfl

theorem t_set_low (M : Mat) {i j : Fin 7} (hi : unit u i = 1) (hj : unit u j = 1) (x : ℝ) : inUnitT u (setAt M i j x) = setAt (inUnitT u M) i j x := by
  rw [t_set, hi, hj, one_mul, div_one]

/-! ## particles -/

theorem recalc_p (p : Particle) : (inUnitP u p).recalc = inUnitP u p.recalc := by
  have h1 : C0 / (u * p.SampleFreq) * MtoMM = C0 / p.SampleFreq * MtoMM / u := by
    rw [div_mul_eq_div_div_swap]
    ring
  have h2 : ∀ b l : ℝ, 2 * Real.pi / (b * (l / u)) = u * (2 * Real.pi / (b * l)) := by
    intro b l
    simp only [div_eq_mul_inv, mul_inv, inv_inv]
    ring
  simp only [Particle.recalc, inUnitP, h1, h2]
  rfl

theorem drifted_p (p : Particle) (b : Bool) (L : ℝ) : (inUnitP u p).drifted b L = inUnitP u (p.drifted b L) := by
  simp only [Particle.drifted, inUnitP]
  congr 1
  ring

theorem slip_p (p : Particle) (L : ℝ) : slip (inUnitP u p) L = u * slip p L := by
  simp only [slip, inUnitP, div_eq_mul_inv, mul_inv, inv_inv]
  ring

theorem wave (b l : ℝ) : 2 * Real.pi / (b * (l / u)) = u * (2 * Real.pi / (b * l)) := by
  simp only [div_eq_mul_inv, mul_inv, inv_inv]
  ring

/-! ## alignment -/

/-- Where the element is. -/
structure Placed (d d' : MDat) : Prop where
  length : d'.length = d.length
  dx : d'.dx = d.dx
  dy : d'.dy = d.dy
  pitch : d'.pitch = d.pitch
  yaw : d'.yaw = d.yaw
  roll : d'.roll = d.roll

/-- Both matrices in the other unit. -/
noncomputable def inUnitM (u : ℝ) (m : Mat × Mat) : Mat × Mat := (inUnitT u m.1, inUnitT u m.2)

theorem scl_p (K y : ℝ) : setAt (setAt (1 : Mat) 4 4 (1 / -(u * K))) 5 5 y = setAt (setAt 1 4 4 (1 / -K)) 5 5 y * back u := by
  ext a b
  rw [back, Matrix.mul_diagonal]
  have hk : 1 / -(u * K) = 1 / -K * u⁻¹ := by
    simp only [one_div, inv_neg, mul_inv, neg_mul]
    ring
  rw [hk]
  fin_cases a <;> fin_cases b <;> simp [setAt, unit, Matrix.one_apply]

theorem getMisalign_p (hu : 0 < u) {d d' : MDat} (h : Placed d d') (ref p : Particle) :
    getMisalign d' (inUnitP u ref) (inUnitP u p) = (getMisalign d ref p).map (inUnitM u) := by
  unfold getMisalign
  rw [h.length, h.dx, h.dy, h.pitch, h.yaw, h.roll]
  dsimp only [inUnitP]
  rw [scl_p]
  generalize setAt (setAt (1 : Mat) 4 4 (1 / -p.SampleIonK)) 5 5 (1 / (p.beta * p.beta * p.gamma * ref.IonEs / MeVtoeV)) = A
  generalize inverse (setAt (setAt (setAt (setAt (1 : Mat) 4 6 (-d.length / 2 * MtoMM)) 5 6 1) 4 6 (d.length / 2 * MtoMM)) 5 6 1) = C'
  generalize setAt (setAt (setAt (setAt (1 : Mat) 4 6 (-d.length / 2 * MtoMM)) 5 6 1) 4 6 (d.length / 2 * MtoMM)) 5 6 1 = C
  generalize setAt (setAt (1 : Mat) 4 6 (-d.length / 2 * MtoMM)) 5 6 1 = B
  generalize rotMat d.dx d.dy d.pitch d.yaw d.roll = R
  have hA : inverse (A * back u) = (inverse A).map (fun I => into u * I) := by
    have hd := congrArg Matrix.det (into_back hu)
    rw [Matrix.det_mul, Matrix.det_one] at hd
    have hb : (back u).det ≠ 0 := right_ne_zero_of_mul_eq_one hd
    unfold inverse
    rw [Matrix.det_mul]
    by_cases hz : A.det = 0
    · rw [if_pos hz, if_pos (by rw [hz, zero_mul])]; rfl
    · rw [if_neg hz, if_neg (mul_ne_zero hz hb)]
      refine congrArg Except.ok (Matrix.inv_eq_right_inv ?_)
      have : A * back u * (into u * A⁻¹) = A * (back u * into u) * A⁻¹ := by simp only [mul_assoc]
      rw [this, back_into hu, mul_one, Matrix.mul_nonsing_inv _ (isUnit_iff_ne_zero.2 hz)]
  rw [hA]
  cases inverse A with
  | error e => rfl
  | ok AI =>
    simp only [Except.map]
    cases inverse B with
    | error e => rfl
    | ok BI =>
      dsimp only
      cases inverse R with
      | error e => rfl
      | ok RI =>
        dsimp only
        cases C' with
        | error e => rfl
        | ok CI => simp only [inUnitM, t_diag, mul_assoc]

theorem aligned_p (hu : 0 < u) {d d' : MDat} (h : Placed d d') (ref p : Particle) (T : Mat) :
    aligned d' (inUnitP u ref) (inUnitP u p) (inUnitT u T) = (aligned d ref p T).map (inUnitT u) := by
  unfold aligned
  rw [getMisalign_p hu h]
  cases getMisalign d ref p with
  | error e => rfl
  | ok m => simp only [Except.map, inUnitM, t_mul hu]

/-! ## settings -/

/-- The settings that are read and the same. -/
def Plain (k : String) : Prop := k ∈ keys ∧ k ≠ "SampleFreq"

instance (k : String) : Decidable (Plain k) := inferInstanceAs (Decidable (_ ∧ _))

section settings
variable {ty : String} {c c' : LCfg} (h : OtherElement u ty c c')
include h

theorem str_f (k : String) (hk : Plain k) : getStr c' k = getStr c k := by
  by_cases hm : IsMoments ty c k
  · rcases h.moments k hm with ⟨xs, xs', e1, e2, -⟩ | ⟨-, e⟩
    · simp only [getStr, e1, e2]
    · simp only [getStr, e]
  · simp only [getStr, h.rest k (.inl hk.1) hk.2 hm]

theorem strD_f (k x : String) (hk : Plain k) : getStrD c' k x = getStrD c k x := by
  have := str_f h k hk
  unfold getStr at this
  unfold getStrD
  split at this <;> split at this <;> simp_all

theorem num_f (k : String) (hk : Plain k) : getNum c' k = getNum c k := by
  by_cases hm : IsMoments ty c k
  · rcases h.moments k hm with ⟨xs, xs', e1, e2, -⟩ | ⟨-, e⟩
    · simp only [getNum, e1, e2]
    · simp only [getNum, e]
  · simp only [getNum, h.rest k (.inl hk.1) hk.2 hm]

theorem numD_f (k : String) (x : ℝ) (hk : Plain k) : getNumD c' k x = getNumD c k x := by
  have := num_f h k hk
  unfold getNum at this
  unfold getNumD
  split at this <;> split at this <;> simp_all

theorem vec_f (k : String) (hk : Plain k) (hm : ¬ IsMoments ty c k) : getVec c' k = getVec c k := by
  simp only [getVec, h.rest k (.inl hk.1) hk.2 hm]

theorem flag_f (env : Env) (k : String) (n : Nat) (hk : Plain k) : getFlag env c' k n = getFlag env c k n := by
  unfold getFlag
  rw [str_f h k hk, num_f h k hk]

omit h in
theorem numbered_ne (t : String) (x : Char) (ht : t.toList.take 1 = [x]) (hx : x ≠ 'S') (n : ℕ) : t ++ toString n ≠ "SampleFreq" := by
  intro e
  have h1 : (t ++ toString n).toList.head? = some x := by
    rw [String.toList_append]
    cases hl : t.toList with
    | nil => rw [hl] at ht; cases ht
    | cons y l =>
      rw [hl] at ht
      simp only [List.take_succ_cons, List.take_zero, List.cons.injEq, and_true] at ht
      simp [ht]
  rw [e] at h1
  simp at h1
  exact hx h1.symm

/-- The curves are the same. -/
theorem curveData_f (hty : ty ≠ "source") (hty2 : ty ≠ "tmatrix") (env : Env) (n : Nat) : curveData env c' n = curveData env c n := by
  have hm : ∀ k, ¬ IsMoments ty c k := by
    rintro k (⟨e, -⟩ | ⟨e, -⟩)
    · exact hty2 e
    · exact hty e
  have hv : ∀ n : ℕ, getVec c' ("curve" ++ toString n) = getVec c ("curve" ++ toString n) := fun n => by
    simp only [getVec, h.rest _ (.inr ⟨n, .inl rfl⟩) (numbered_ne "curve" 'c' (by decide) (by decide) n) (hm _)]
  have hf : ∀ n : ℕ, getNumD c' ("scl_fac" ++ toString n) 0 = getNumD c ("scl_fac" ++ toString n) 0 := fun n => by
    simp only [getNumD, h.rest _ (.inr ⟨n, .inr rfl⟩) (numbered_ne "scl_fac" 's' (by decide) (by decide) n) (hm _)]
  have h2 : ∀ src src' : LCfg, (∀ n : ℕ, getVec src' ("curve" ++ toString n) = getVec src ("curve" ++ toString n)) → ∀ range k n prev,
      curveLoop c' src' range k n prev = curveLoop c src range k n prev := by
    intro src src' hs range k
    induction k with
    | zero => intro n prev; rfl
    | succ k ih =>
      intro n prev
      unfold curveLoop oneCurve
      rw [hs, hf]
      simp only [ih]
  unfold curveData
  rw [vec_f h "use_range" (by decide) (hm _), str_f h "CurveFile" (by decide), strD_f h "Eng_Data_Dir" "." (by decide)]
  dsimp only
  cases getStr c "CurveFile" with
  | error e => exact h2 _ _ hv _ _ _ _
  | ok f =>
    dsimp only
    cases env.file (getStrD c "Eng_Data_Dir" "." ++ "/" ++ f) with
    | error e => rfl
    | ok src => exact h2 _ _ (fun _ => rfl) _ _ _ _

end settings

/-! ## matrices of the elements -/

theorem quadPlane_t {i j : Fin 7} (hi : unit u i = 1) (hj : unit u j = 1) (L K : ℝ) (M : Mat) :
    inUnitT u (quadPlane L K i j M) = quadPlane L K i j (inUnitT u M) := by
  unfold quadPlane
  split <;> simp only [t_set, hi, hj, one_mul, div_one]

theorem quadM_p (hu : 0 < u) (p : Particle) (L K : ℝ) : quadM (inUnitP u p) L K = inUnitT u (quadM p L K) := by
  unfold quadM
  rw [t_set, quadPlane_t e2 e3, quadPlane_t e0 e1, t_one hu, slip_p, e4, e5, div_one]

theorem solM_t (L K : ℝ) (M : Mat) : inUnitT u (solM L K M) = solM L K (inUnitT u M) := by
  unfold solM
  simp only [t_set, e0, e1, e2, e3, one_mul, div_one]

theorem solenoidM_p (hu : 0 < u) (p : Particle) (L K : ℝ) : solenoidM (inUnitP u p) L K = inUnitT u (solenoidM p L K) := by
  unfold solenoidM
  rw [t_set, solM_t, t_one hu, slip_p, e4, e5, div_one]

theorem edgeM_t (hu : 0 < u) (rho phi : ℝ) : inUnitT u (edgeM rho phi) = edgeM rho phi := by
  unfold edgeM
  simp only [t_set, t_one hu, e0, e1, e2, e3, one_mul, div_one]

theorem sbendM_t (hu : 0 < u) (L phi phi1 phi2 K Es g q b dg dd k : ℝ) :
    sbendM L phi phi1 phi2 K Es g q b dg dd (u * k) 1 = inUnitT u (sbendM L phi phi1 phi2 K Es g q b dg dd k 1) := by
  unfold sbendM
  simp only [t_mul hu, edgeM_t hu]
  congr 2
  simp only [t_set, quadPlane_t e2 e3, quadPlane_t e0 e1, t_one hu, e0, e1, e4, e5, e6, one_mul, div_one]
  simp only [mul_left_comm _ u, mul_div_assoc u]

theorem eedgeM_t (hu : 0 < u) (fx fy k : ℝ) : inUnitT u (eedgeM fx fy k) = eedgeM fx fy k := by
  unfold eedgeM
  simp only [t_set, t_one hu, e0, e1, e2, e3, e5, one_mul, div_one]

theorem ebendM_t (hu : 0 < u) (L phi fx fy ka Kx Ky Es g eta h dK dZ k : ℝ) :
    ebendM L phi fx fy ka Kx Ky Es g eta h dK dZ (u * k) 1 = inUnitT u (ebendM L phi fx fy ka Kx Ky Es g eta h dK dZ k 1) := by
  unfold ebendM
  simp only [t_mul hu, eedgeM_t hu]
  congr 2
  simp only [t_set, quadPlane_t e2 e3, quadPlane_t e0 e1, t_one hu, e0, e1, e4, e5, e6, one_mul, div_one]
  simp only [mul_left_comm _ u, mul_div_assoc u]

theorem rot90_t (hu : 0 < u) (M : Mat) : inUnitT u (rot90 * M * rot90.transpose) = rot90 * inUnitT u M * rot90.transpose := by
  have e1' : inUnitT u rot90 = rot90 := by
    simp only [rot90, t_set, t_one hu, e0, e1, e2, e3, one_mul, div_one]
  have e2' : inUnitT u rot90.transpose = rot90.transpose := by
    ext i j
    fin_cases i <;> fin_cases j <;> simp [rot90, setAt, inUnitT, unit, Matrix.one_apply, hu.ne']
  rw [t_mul hu, t_mul hu, e1', e2']

theorem sextM_t (hu : 0 < u) (L K3 Dx Dy D2x D2y D2xy : ℝ) (thin dst : Bool) (M : Mat) :
    inUnitT u (sextM L K3 Dx Dy D2x D2y D2xy thin dst M) = sextM L K3 Dx Dy D2x D2y D2xy thin dst (inUnitT u M) := by
  unfold sextM
  dsimp only
  have hd : ∀ A B : Mat, inUnitT u A = B → inUnitT u (if dst then setAt (setAt A 1 6 (-K3 * L * (D2x - D2y))) 3 6 (2 * K3 * L * D2xy) else A) =
      (if dst then setAt (setAt B 1 6 (-K3 * L * (D2x - D2y))) 3 6 (2 * K3 * L * D2xy) else B) := by
    intro A B h
    split
    · rw [t_set, t_set, h]
      simp only [e1, e3, e6, one_mul, div_one]
    · exact h
  refine hd _ _ ?_
  cases thin with
  | true => simp only [if_true, t_mul hu, t_set, t_one hu, e0, e1, e2, e3, one_mul, div_one]
  | false =>
    simp only [Bool.false_eq_true, if_false]
    split <;> simp only [t_set, e0, e1, e2, e3, one_mul, div_one]

/-- What an element has in common with the other. -/
structure Same (u : ℝ) (ty : String) (d d' : MDat) : Prop where
  placed : Placed d d'
  conf : OtherElement u ty d.conf d'.conf
  fit : d'.fitMode = d.fitMode

theorem orbtrim_f (hu : 0 < u) {d d' : MDat} (h : Same u "orbtrim" d d') (ref : Particle) (real : List Particle) :
    orbtrimRec d' (inUnitP u ref) (real.map (inUnitP u)) = (orbtrimRec d ref real).map (List.map (inUnitT u)) := by
  unfold orbtrimRec
  simp only [numD_f h.conf "xyrotate" 0 (by decide), numD_f h.conf "realpara" 0 (by decide), numD_f h.conf "tm_xkick" 0 (by decide),
    numD_f h.conf "tm_ykick" 0 (by decide), numD_f h.conf "theta_x" 0 (by decide), numD_f h.conf "theta_y" 0 (by decide)]
  rw [forEach_map]
  refine forEach_post (fun p => ?_) _
  have e : ∀ x y : ℝ, setAt (setAt (1 : Mat) 1 6 x) 3 6 y = inUnitT u (setAt (setAt 1 1 6 x) 3 6 y) := by
    intro x y
    simp only [t_set, t_one hu, e1, e3, e6, one_mul, div_one]
  have er : ∀ x : ℝ, inUnitT u (rotMat 0 0 0 0 x) = rotMat 0 0 0 0 x := by
    intro x
    simp only [rotMat, t_mul hu, t_set, t_one hu, e0, e1, e2, e3, e4, e5, e6, one_mul, div_one, neg_zero, Real.sin_zero, Real.cos_zero,
      mul_zero, zero_mul, zero_div, zero_add, add_zero, mul_one, div_self hu.ne']
  have hp := aligned_p hu h.placed ref p
  rw [e]
  simp only [show ∀ p, (inUnitP u p).IonZ = p.IonZ from fun _ => rfl, show (inUnitP u ref).IonW = ref.IonW from rfl,
    show (inUnitP u ref).IonEs = ref.IonEs from rfl, hp]
  cases aligned d ref p _ with
  | error e => rfl
  | ok M =>
    simp only [Except.map]
    split
    · rw [t_mul hu, er]
    · rfl

theorem sbend_f (hu : 0 < u) {d d' : MDat} (h : Same u "sbend" d d') (ref : Particle) (real : List Particle) :
    sbendRec d' (inUnitP u ref) (real.map (inUnitP u)) = (sbendRec d ref real).map (List.map (inUnitT u)) := by
  unfold sbendRec
  simp only [num_f h.conf "L" (by decide), num_f h.conf "phi" (by decide), num_f h.conf "phi1" (by decide),
    num_f h.conf "phi2" (by decide), numD_f h.conf "K" 0 (by decide), forEach_map]
  have h1 : ∀ L phi phi1 phi2 K p, sbendOne d' L phi phi1 phi2 K (inUnitP u ref) (inUnitP u p) = (sbendOne d L phi phi1 phi2 K ref p).map (inUnitT u) := by
    intro L phi phi1 phi2 K p
    unfold sbendOne
    simp only [num_f h.conf "bg" (by decide), h.fit]
    split
    · cases getNum d.conf "bg" with
      | error e => rfl
      | ok bg =>
        dsimp only
        rw [← aligned_p hu h.placed, ← sbendM_t hu, ← wave]
        rfl
    · rw [← aligned_p hu h.placed, ← sbendM_t hu]
      rfl
  generalize getNum d.conf "L" = x1
  generalize getNum d.conf "phi" = x2
  generalize getNum d.conf "phi1" = x3
  generalize getNum d.conf "phi2" = x4
  cases x1 <;> cases x2 <;> cases x3 <;> cases x4 <;> try rfl
  dsimp only
  refine forEach_post (fun p => ?_) _
  rw [h1]
  split
  · rfl
  · exact congrArg Except.ok (t_one hu).symm

theorem slices_t (hu : 0 < u) (n : Nat) (f g : Nat → Mat) (h : ∀ j, g j = inUnitT u (f j)) : slices n g = inUnitT u (slices n f) := by
  unfold slices
  have : ∀ (l : List Nat) (A B : Mat), B = inUnitT u A → l.foldl (fun M j => g j * M) B = inUnitT u (l.foldl (fun M j => f j * M) A) := by
    intro l
    induction l with
    | nil => intro A B h; exact h
    | cons j l ih =>
      intro A B hA
      refine ih _ _ ?_
      dsimp only
      rw [h, hA, t_mul hu]
  exact this _ _ _ (t_one hu).symm

theorem quad_f (hu : 0 < u) (env : Env) {d d' : MDat} (h : Same u "quadrupole" d d') (ref : Particle) (real : List Particle) :
    quadRec env d' (inUnitP u ref) (real.map (inUnitP u)) = (quadRec env d ref real).map (List.map (inUnitT u)) := by
  unfold quadRec
  simp only [num_f h.conf "L" (by decide), num_f h.conf "B2" (by decide), flag_f h.conf env "ncurve" 0 (by decide),
    curveData_f h.conf (by decide) (by decide), forEach_map]
  cases getNum d.conf "L" with
  | error e => rfl
  | ok L =>
    dsimp only
    cases getFlag env d.conf "ncurve" 0 with
    | error e => rfl
    | ok n =>
      dsimp only
      split
      · cases getNum d.conf "B2" with
        | error e => rfl
        | ok B =>
          refine forEach_post (fun p => ?_) _
          rw [← aligned_p hu h.placed, ← quadM_p hu]
          rfl
      · cases curveData env d.conf n with
        | error e => rfl
        | ok cs =>
          refine forEach_post (fun p => ?_) _
          rw [← aligned_p hu h.placed, ← slices_t hu _ _ _ (fun j => quadM_p hu p _ _)]
          rfl

theorem equad_f (hu : 0 < u) (env : Env) {d d' : MDat} (h : Same u "equad" d d') (ref : Particle) (real : List Particle) :
    equadRec env d' (inUnitP u ref) (real.map (inUnitP u)) = (equadRec env d ref real).map (List.map (inUnitT u)) := by
  unfold equadRec
  simp only [num_f h.conf "L" (by decide), num_f h.conf "V" (by decide), num_f h.conf "radius" (by decide), flag_f h.conf env "ncurve" 0 (by decide),
    curveData_f h.conf (by decide) (by decide), forEach_map]
  cases getNum d.conf "L" with
  | error e => rfl
  | ok L =>
    dsimp only
    cases getFlag env d.conf "ncurve" 0 with
    | error e => rfl
    | ok n =>
      dsimp only
      split
      · generalize getNum d.conf "V" = x1
        generalize getNum d.conf "radius" = x2
        cases x1 <;> cases x2 <;> try rfl
        refine forEach_post (fun p => ?_) _
        rw [← aligned_p hu h.placed, ← quadM_p hu]
        rfl
      · cases curveData env d.conf n with
        | error e => rfl
        | ok cs =>
          refine forEach_post (fun p => ?_) _
          rw [← aligned_p hu h.placed, ← slices_t hu _ _ _ (fun j => quadM_p hu p _ _)]
          rfl

theorem solenoid_f (hu : 0 < u) (env : Env) {d d' : MDat} (h : Same u "solenoid" d d') (ref : Particle) (real : List Particle) :
    solenoidRec env d' (inUnitP u ref) (real.map (inUnitP u)) = (solenoidRec env d ref real).map (List.map (inUnitT u)) := by
  unfold solenoidRec
  simp only [num_f h.conf "L" (by decide), num_f h.conf "B" (by decide), flag_f h.conf env "ncurve" 0 (by decide),
    curveData_f h.conf (by decide) (by decide), forEach_map]
  cases getNum d.conf "L" with
  | error e => rfl
  | ok L =>
    dsimp only
    cases getFlag env d.conf "ncurve" 0 with
    | error e => rfl
    | ok n =>
      dsimp only
      split
      · cases getNum d.conf "B" with
        | error e => rfl
        | ok B =>
          refine forEach_post (fun p => ?_) _
          rw [← aligned_p hu h.placed, ← solenoidM_p hu]
          rfl
      · cases curveData env d.conf n with
        | error e => rfl
        | ok cs =>
          refine forEach_post (fun p => ?_) _
          rw [← aligned_p hu h.placed, ← slices_t hu _ _ _ (fun j => solenoidM_p hu p _ _)]
          rfl

theorem edipole_f (hu : 0 < u) (env : Env) {d d' : MDat} (h : Same u "edipole" d d') (ref : Particle) (real : List Particle) :
    edipoleRec env d' (inUnitP u ref) (real.map (inUnitP u)) = (edipoleRec env d ref real).map (List.map (inUnitT u)) := by
  unfold edipoleRec
  simp only [num_f h.conf "L" (by decide), num_f h.conf "ver" (by decide), num_f h.conf "phi" (by decide),
    num_f h.conf "spher" (by decide), flag_f h.conf env "HdipoleFitMode" 1 (by decide),
    numD_f h.conf "fringe_x" 0 (by decide), numD_f h.conf "fringe_y" 0 (by decide),
    numD_f h.conf "asym_fac" 0 (by decide), numD_f h.conf "beta" _ (by decide), forEach_map]
  have one : ∀ b L phi fx fy kappa spher db p, edipoleOne d' b L phi fx fy kappa spher db (inUnitP u ref) (inUnitP u p) =
      (edipoleOne d b L phi fx fy kappa spher db ref p).map (inUnitT u) := by
    intro b L phi fx fy kappa spher db p
    unfold edipoleOne
    dsimp only
    rw [← aligned_p hu h.placed]
    congr 1
    have hw : 2 * Real.pi / ((inUnitP u p).beta * (inUnitP u p).SampleLambda) = u * (2 * Real.pi / (p.beta * p.SampleLambda)) := wave _ _
    rw [hw]
    cases b
    · simp only [Bool.false_eq_true, if_false, ebendM_t hu]
      rfl
    · simp only [if_true, ebendM_t hu, rot90_t hu]
      rfl
  generalize getNum d.conf "ver" = x1
  generalize getNum d.conf "L" = x2
  generalize getNum d.conf "phi" = x3
  generalize getNum d.conf "spher" = x4
  cases x1 <;> cases x2 <;> cases x3 <;> cases x4 <;> try rfl
  dsimp only
  cases getFlag env d.conf "HdipoleFitMode" 1 with
  | error e => rfl
  | ok n =>
    dsimp only
    split
    · rfl
    · refine forEach_post (fun p => ?_) _
      rw [one]
      split
      · rfl
      · exact congrArg Except.ok (t_one hu).symm

theorem driftM_p (hu : 0 < u) (p : Particle) (L : ℝ) : driftM (inUnitP u p) L = inUnitT u (driftM p L) := by
  simp only [driftM, t_set, t_one hu, slip_p, e0, e1, e2, e3, e4, e5, one_mul, div_one]

theorem no_vec {c : LCfg} {k : String} (e1 : ∀ xs, c k ≠ some (.vec xs)) (xs : List ℝ) : getVec c k ≠ .ok xs := by
  intro hx
  unfold getVec at hx
  split at hx
  · rename_i y hy
    exact e1 _ hy
  · cases hx

theorem loadT_f {c c' : LCfg} (h : OtherElement u "tmatrix" c c') :
    (loadStorage 49 c' "matrix").map matOf = ((loadStorage 49 c "matrix").map matOf).map (inUnitT u) := by
  rcases h.moments "matrix" (.inl ⟨rfl, rfl⟩) with ⟨xs, xs', e1, e2, e3, -, e4, -⟩ | ⟨e1, e2⟩
  · simp only [loadStorage, getVec, e1, e2, e3]
    split
    · rename_i hl
      refine congrArg Except.ok ?_
      ext i j
      exact e4 hl rfl i j
    · rfl
  · have hv : getVec c' "matrix" = getVec c "matrix" := by simp only [getVec, e2]
    simp only [loadStorage, hv]
    cases hg : getVec c "matrix" with
    | error e => rfl
    | ok xs => exact absurd hg (no_vec e1 xs)

theorem recompute_f (hu : 0 < u) (env : Env) (t : MType) {d d' : MDat} (h : Same u t.name d d') (ref : Particle) (real : List Particle) :
    recompute env t d' (inUnitP u ref) (real.map (inUnitP u)) = (recompute env t d ref real).map (List.map (inUnitT u)) := by
  cases t with
  | orbtrim => exact orbtrim_f hu h ref real
  | sbend => exact sbend_f hu h ref real
  | quadrupole => exact quad_f hu env h ref real
  | solenoid => exact solenoid_f hu env h ref real
  | equad => exact equad_f hu env h ref real
  | edipole => exact edipole_f hu env h ref real
  | tmatrix =>
    simp only [recompute]
    rw [forEach_map]
    refine forEach_post (fun p => ?_) _
    have := loadT_f h.conf
    cases h1 : loadStorage 49 d.conf "matrix" <;> cases h2 : loadStorage 49 d'.conf "matrix" <;> rw [h1, h2] at this <;> exact this
  | drift =>
    simp only [recompute, Except.map, List.map_map, h.placed.length]
    refine congrArg Except.ok (List.map_congr_left (fun p _ => ?_))
    exact driftM_p hu p _
  | _ =>
    simp only [recompute, Except.map, List.map_map]
    exact congrArg Except.ok (List.map_congr_left (fun p _ => (t_one hu).symm))

/-! ## states -/

theorem totQ_p (l : List Particle) : totQ (l.map (inUnitP u)) = totQ l := by
  simp only [totQ, List.map_map]
  rfl

theorem env0_p (l : List Particle) (m0 : List Vec) : env0 (l.map (inUnitP u)) (m0.map (inUnitV u)) = inUnitV u (env0 l m0) := by
  funext j
  simp only [env0, inUnitV, totQ_p, List.zipWith_map]
  rw [← mul_div_assoc]
  congr 1
  rw [← List.map_uncurry_zip_eq_zipWith, ← List.map_uncurry_zip_eq_zipWith, ← List.sum_map_mul_left]
  refine congrArg List.sum (List.map_congr_left (fun x _ => ?_))
  simp only [Function.uncurry, inUnitP]
  ring

theorem env1_p (l : List Particle) (m0 : List Vec) (m1 : List Mat) :
    env1 (l.map (inUnitP u)) (m0.map (inUnitV u)) (m1.map (inUnitS u)) = inUnitS u (env1 l m0 m1) := by
  funext i j
  simp only [env1, inUnitS, env0_p, totQ_p]
  split
  · rw [← mul_div_assoc, div_mul_eq_mul_div]
    congr 1
    rw [List.zip_map, List.zipWith_map, ← List.map_uncurry_zip_eq_zipWith, ← List.map_uncurry_zip_eq_zipWith, ← List.sum_map_mul_left,
      ← List.sum_map_mul_right]
    refine congrArg List.sum (List.map_congr_left (fun x _ => ?_))
    simp only [Function.uncurry, Prod.map, inUnitV, inUnitS, inUnitP]
    ring
  · simp

/-- The beam in the other unit. -/
noncomputable def inUnit (u : ℝ) (S : MSt) : MSt :=
  { S with ref := inUnitP u S.ref, real := S.real.map (inUnitP u), moment0 := S.moment0.map (inUnitV u), moment1 := S.moment1.map (inUnitS u),
           transmat := S.transmat.map (inUnitT u), moment0_env := inUnitV u S.moment0_env, moment0_rms := inUnitV u S.moment0_rms,
           moment1_env := inUnitS u S.moment1_env }

theorem other_iff (S S' : MSt) : OtherUnit u S S' ↔ S' = inUnit u S := by
  constructor
  · rintro ⟨h1, h2, h3, h4, h5, h6, h7, h8, h9, h10⟩
    cases S'
    simp only at *
    subst h1 h2 h3 h4 h5 h6 h7 h8 h9 h10
    rfl
  · rintro rfl
    exact ⟨rfl, rfl, rfl, rfl, rfl, rfl, rfl, rfl, rfl, rfl⟩

theorem recalc_s (S : MSt) : (inUnit u S).recalc = inUnit u S.recalc := by
  simp only [MSt.recalc, inUnit, recalc_p, List.map_map, Function.comp_def]

theorem calcRms_s (hu : 0 < u) (S : MSt) : (inUnit u S).calcRms = inUnit u S.calcRms := by
  simp only [MSt.calcRms, inUnit, env0_p, env1_p]
  congr 1
  funext j
  simp only [inUnitS, inUnitV]
  rw [mul_right_comm, Real.sqrt_mul (mul_self_nonneg _), Real.sqrt_mul_self (unit_pos hu j).le]

theorem zip_t (hu : 0 < u) (T : List Mat) (l : List Vec) :
    List.zipWith (fun (M : Mat) (v : Vec) => M.mulVec v) (T.map (inUnitT u)) (l.map (inUnitV u)) =
      (List.zipWith (fun (M : Mat) (v : Vec) => M.mulVec v) T l).map (inUnitV u) := by
  rw [List.zipWith_map, List.map_zipWith]
  simp only [t_mulVec hu]

theorem zip_tM (hu : 0 < u) (T l : List Mat) : List.zipWith Moment.congr (T.map (inUnitT u)) (l.map (inUnitS u)) =
      (List.zipWith Moment.congr T l).map (inUnitS u) := by
  rw [List.zipWith_map, List.map_zipWith]
  simp only [t_congr hu]

theorem forward_s (hu : 0 < u) (T : List Mat) (S : MSt) : forward (T.map (inUnitT u)) (inUnit u S) = inUnit u (forward T S) := by
  simp only [forward, inUnit, zip_t hu, zip_tM hu]

theorem backLoop_s (hu : 0 < u) : ∀ (T : List Mat) (v : List Vec) (S X : List Mat),
    backLoop (T.map (inUnitT u)) (v.map (inUnitV u)) (S.map (inUnitS u)) (X.map (inUnitT u)) =
      ((backLoop T v S X).1.map (inUnitV u), (backLoop T v S X).2.1.map (inUnitS u), (backLoop T v S X).2.2.1.map (inUnitT u), (backLoop T v S X).2.2.2)
  | [], _, _, _ => by simp only [List.map_nil, backLoop]
  | _ :: _, [], _, _ => by simp only [List.map_nil, List.map_cons, backLoop]
  | _ :: _, _ :: _, [], _ => by simp only [List.map_nil, List.map_cons, backLoop]
  | _ :: _, _ :: _, _ :: _, [] => by simp only [List.map_nil, List.map_cons, backLoop]
  | T :: Ts, v :: vs, S :: Ss, X :: Xs => by
    simp only [List.map_cons, backLoop, t_inverse hu, backLoop_s hu Ts vs Ss Xs]
    cases inverse T with
    | error e => rfl
    | ok I => simp only [Except.map, t_mulVec hu, t_congr hu, List.map_cons]

theorem backward_s (hu : 0 < u) (T : List Mat) (S : MSt) : backward (T.map (inUnitT u)) (inUnit u S) = (inUnit u (backward T S).1, (backward T S).2) := by
  simp only [backward, inUnit, backLoop_s hu]

end Flame.Freq
