import Verif.Turn.Spec
import Verif.Scale.Cavity
import Verif.Moment.Misalign

/-! # A beam line turned about its axis: elements without acceleration -/

namespace Flame.Turn

open Flame.Mach (Elem Cls St Err Run)
open Flame.Linear (LVal LCfg getNum getNumD getVec)
open Flame.Moment
open Flame.Turn.Spec

variable {a : ℝ}

/-! ## the turn -/

theorem turner_transpose (a : ℝ) : (turner a).transpose = turner (-a) := by
  ext i j
  fin_cases i <;> fin_cases j <;> simp [turner, Matrix.transpose]

theorem turner_mul (a b : ℝ) : turner a * turner b = turner (a + b) := by
  ext i j
  simp only [Matrix.mul_apply, Fin.sum_univ_seven]
  fin_cases i <;> fin_cases j <;> simp [turner, Real.cos_add, Real.sin_add] <;> ring

theorem turner_zero : turner 0 = 1 := by
  ext i j
  fin_cases i <;> fin_cases j <;> simp [turner]

theorem turner_back (a : ℝ) : turner (-a) * turner a = 1 := by rw [turner_mul, neg_add_cancel, turner_zero]

theorem turner_forth (a : ℝ) : turner a * turner (-a) = 1 := by rw [turner_mul, add_neg_cancel, turner_zero]

theorem turner_inv (a : ℝ) : (turner a)⁻¹ = turner (-a) := Matrix.inv_eq_right_inv (turner_forth a)

/-- A matrix in turned coordinates. -/
noncomputable def conj (a : ℝ) (T : Mat) : Mat := turner a * T * turner (-a)

theorem conj_one (a : ℝ) : conj a 1 = 1 := by rw [conj, mul_one, turner_forth]

theorem conj_mulVec (T : Mat) (v : Vec) : (conj a T).mulVec ((turner a).mulVec v) = (turner a).mulVec (T.mulVec v) := by
  rw [Matrix.mulVec_mulVec, Matrix.mulVec_mulVec, conj, mul_assoc, turner_back, mul_one]

theorem congr_mul (A B S : Mat) : Moment.congr A (Moment.congr B S) = Moment.congr (A * B) S := by
  simp only [Moment.congr, Matrix.transpose_mul, mul_assoc]

theorem conj_turner (T : Mat) : conj a T * turner a = turner a * T := by rw [conj, mul_assoc, turner_back, mul_one]

theorem conj_congr (T S : Mat) : Moment.congr (conj a T) (Moment.congr (turner a) S) = Moment.congr (turner a) (Moment.congr T S) := by
  rw [congr_mul, congr_mul, conj_turner]

theorem conj_mul (A B : Mat) : conj a A * conj a B = conj a (A * B) := by
  have : conj a A * conj a B = turner a * A * (turner (-a) * turner a) * B * turner (-a) := by simp only [conj, mul_assoc]
  rw [this, turner_back, mul_one]
  simp only [conj, mul_assoc]

theorem turner_det (a : ℝ) : (turner a).det * (turner (-a)).det = 1 := by rw [← Matrix.det_mul, turner_forth, Matrix.det_one]

theorem conj_det (T : Mat) : (conj a T).det = T.det := by
  rw [conj, Matrix.det_mul, Matrix.det_mul, mul_right_comm, turner_det, one_mul]

theorem conj_inverse (T : Mat) : inverse (conj a T) = (inverse T).map (conj a) := by
  unfold inverse
  rw [conj_det]
  by_cases h : T.det = 0
  · rw [if_pos h, if_pos h]; rfl
  · rw [if_neg h, if_neg h]
    refine congrArg Except.ok (Matrix.inv_eq_right_inv ?_)
    rw [conj_mul, Matrix.mul_nonsing_inv _ (isUnit_iff_ne_zero.2 h), conj_one]

/-! ## alignment -/

theorem rollM_turn (dx dy r : ℝ) :
    rollM (Real.cos a * dx - Real.sin a * dy) (Real.sin a * dx + Real.cos a * dy) (r + a) * turner a = rollM dx dy r := by
  have h1 := Real.sin_sq_add_cos_sq a
  ext i j
  simp only [Matrix.mul_apply, Fin.sum_univ_seven]
  fin_cases i <;> fin_cases j <;> simp [rollM, turner, Real.cos_add, Real.sin_add]
  all_goals first | linear_combination (Real.cos r) * h1 | linear_combination (Real.sin r) * h1 | linear_combination (-Real.sin r) * h1 | skip
  · linear_combination (-Real.cos r * dx - Real.sin r * dy) * h1
  · linear_combination (Real.sin r * dx - Real.cos r * dy) * h1

theorem rotMat_turn (dx dy r : ℝ) :
    rotMat (Real.cos a * dx - Real.sin a * dy) (Real.sin a * dx + Real.cos a * dy) 0 0 (r + a) = rotMat dx dy 0 0 r * turner (-a) := by
  rw [rollM_eq, rollM_eq, ← rollM_turn (a := a) dx dy r, mul_assoc, turner_forth, mul_one]

theorem rotMat_turn_inv (dx dy r : ℝ) :
    (rotMat (Real.cos a * dx - Real.sin a * dy) (Real.sin a * dx + Real.cos a * dy) 0 0 (r + a))⁻¹ = turner a * (rotMat dx dy 0 0 r)⁻¹ := by
  rw [rotMat_turn, Matrix.mul_inv_rev]
  congr 1
  rw [turner_inv, neg_neg]

/-- Where the turned element is. -/
structure Placed (a : ℝ) (d d' : MDat) : Prop where
  length : d'.length = d.length
  dx : d'.dx = Real.cos a * d.dx - Real.sin a * d.dy
  dy : d'.dy = Real.sin a * d.dx + Real.cos a * d.dy
  roll : d'.roll = d.roll + a
  pitch : d.pitch = 0 ∧ d'.pitch = 0
  yaw : d.yaw = 0 ∧ d'.yaw = 0

theorem getMisalign_turn {d d' : MDat} (h : Placed a d d') (ref p : Particle) :
    getMisalign d' ref p = (getMisalign d ref p).map (fun m => (m.1 * turner (-a), turner a * m.2)) := by
  by_cases hu : unitZ p ≠ 0 ∧ unitP ref p ≠ 0
  · rw [getMisalign_roll d' ref p h.pitch.2 h.yaw.2 hu.1 hu.2, getMisalign_roll d ref p h.pitch.1 h.yaw.1 hu.1 hu.2, h.dx, h.dy, h.roll,
      rotMat_turn_inv, rotMat_turn]
    rfl
  · have hs : inverse (scaleM (unitZ p) (unitP ref p)) = .error .runtime := by
      refine if_pos ?_
      rw [scaleM_det]
      by_contra hne
      exact hu ⟨left_ne_zero_of_mul hne, right_ne_zero_of_mul hne⟩
    have he : ∀ d : MDat, getMisalign d ref p = .error .runtime := by
      intro d
      unfold getMisalign
      change (match inverse (scaleM (unitZ p) (unitP ref p)) with | .error e => _ | .ok sclInv => _) = _
      rw [hs]
    rw [he, he]
    rfl

theorem aligned_turn {d d' : MDat} (h : Placed a d d') (ref p : Particle) (T : Mat) :
    aligned d' ref p T = (aligned d ref p T).map (conj a) := by
  unfold aligned
  rw [getMisalign_turn h]
  cases getMisalign d ref p with
  | error e => rfl
  | ok m =>
    simp only [Except.map, conj, mul_assoc]

/-! ## settings -/

/-- The settings differ at most where the element stands. -/
def Other (c c' : LCfg) : Prop := ∀ k, ¬ Moved k → c' k = c k

def other (k : String) : Bool := !(k == "name" || k == "dx" || k == "dy" || k == "roll" || k == "matrix")

section settings
variable {c c' : LCfg} (h : Other c c')
include h

theorem same_at (k : String) (hk : other k = true) : c' k = c k := by
  refine h k ?_
  unfold Moved
  unfold other at hk
  simp only [Bool.not_eq_true', Bool.or_eq_false_iff, beq_eq_false_iff_ne, ne_eq] at hk
  simp only [List.mem_cons, List.not_mem_nil, or_false]
  tauto

theorem num_o (k : String) (hk : other k = true) : getNum c' k = getNum c k := by simp only [getNum, same_at h k hk]

theorem numD_o (k : String) (x : ℝ) (hk : other k = true) : getNumD c' k x = getNumD c k x := by simp only [getNumD, same_at h k hk]

theorem vec_o (k : String) (hk : other k = true) : getVec c' k = getVec c k := by simp only [getVec, same_at h k hk]

theorem str_o (k : String) (hk : other k = true) : getStr c' k = getStr c k := by simp only [getStr, same_at h k hk]

theorem strD_o (k x : String) (hk : other k = true) : getStrD c' k x = getStrD c k x := by simp only [getStrD, same_at h k hk]

theorem flag_o (env : Env) (k : String) (n : Nat) (hk : other k = true) : getFlag env c' k n = getFlag env c k n := by
  unfold getFlag
  rw [str_o h k hk, num_o h k hk]

theorem numbered_at (t : String) (x : Char) (ht : t.toList.take 1 = [x]) (hx : x ∉ ['n', 'd', 'r', 'm']) (n : ℕ) :
    c' (t ++ toString n) = c (t ++ toString n) := by
  refine h _ ?_
  intro hm
  have h1 : (t ++ toString n).toList.head? = some x := by
    rw [String.toList_append]
    cases hl : t.toList with
    | nil => rw [hl] at ht; cases ht
    | cons y l =>
      rw [hl] at ht
      simp only [List.take_succ_cons, List.take_zero, List.cons.injEq, and_true] at ht
      simp [ht]
  unfold Moved at hm
  generalize t ++ toString n = k at hm h1
  simp only [List.mem_cons, List.not_mem_nil, or_false] at hm hx
  rcases hm with rfl | rfl | rfl | rfl | rfl <;> (have := h1; simp at this; subst this; simp at hx)

theorem curveData_o (env : Env) (n : Nat) : curveData env c' n = curveData env c n := by
  have h1 : ∀ src src' : LCfg, (∀ n : ℕ, src' ("curve" ++ toString n) = src ("curve" ++ toString n)) → ∀ range n prev,
      oneCurve c' src' range n prev = oneCurve c src range n prev := by
    intro src src' hs range n prev
    unfold oneCurve
    simp only [getVec, hs, getNumD, numbered_at h "scl_fac" 's' (by decide) (by decide)]
  have h2 : ∀ src src' : LCfg, (∀ n : ℕ, src' ("curve" ++ toString n) = src ("curve" ++ toString n)) → ∀ range k n prev,
      curveLoop c' src' range k n prev = curveLoop c src range k n prev := by
    intro src src' hs range k
    induction k with
    | zero => intro n prev; rfl
    | succ k ih =>
      intro n prev
      unfold curveLoop
      simp only [h1 src src' hs, ih]
  unfold curveData
  rw [vec_o h "use_range" (by decide), str_o h "CurveFile" (by decide), strD_o h "Eng_Data_Dir" "." (by decide)]
  dsimp only
  cases getStr c "CurveFile" with
  | error e => exact h2 _ _ (numbered_at h "curve" 'c' (by decide) (by decide)) _ _ _ _
  | ok f =>
    dsimp only
    cases env.file (getStrD c "Eng_Data_Dir" "." ++ "/" ++ f) with
    | error e => rfl
    | ok src => exact h2 _ _ (fun _ => rfl) _ _ _ _

end settings

/-! ## matrices of the elements -/

/-- What an element has to have in common with the turned one. -/
structure Same (a : ℝ) (d d' : MDat) : Prop where
  placed : Placed a d d'
  other : Other d.conf d'.conf
  fit : d'.fitMode = d.fitMode

theorem forEach_conj {α : Type} {f g : α → Except Err Mat} (h : ∀ x, g x = (f x).map (conj a)) (l : List α) :
    forEach g l = (forEach f l).map (List.map (conj a)) := Flame.Scale.forEach_post h l

theorem roll_comm (b : ℝ) : rotMat 0 0 0 0 b * turner a = turner a * rotMat 0 0 0 0 b := by
  rw [rollM_eq]
  ext i j
  simp only [Matrix.mul_apply, Fin.sum_univ_seven]
  fin_cases i <;> fin_cases j <;> simp [rollM, turner] <;> ring

theorem orbtrim_turn {d d' : MDat} (h : Same a d d') (ref : Particle) (real : List Particle) :
    orbtrimRec d' ref real = (orbtrimRec d ref real).map (List.map (conj a)) := by
  unfold orbtrimRec
  simp only [numD_o h.other "xyrotate" 0 (by decide), numD_o h.other "realpara" 0 (by decide), numD_o h.other "tm_xkick" 0 (by decide),
    numD_o h.other "tm_ykick" 0 (by decide), numD_o h.other "theta_x" 0 (by decide), numD_o h.other "theta_y" 0 (by decide)]
  refine forEach_conj (fun p => ?_) _
  rw [aligned_turn h.placed]
  cases aligned d ref p _ with
  | error e => rfl
  | ok M =>
    simp only [Except.map]
    split
    · rw [conj, conj, mul_assoc _ (turner (-a)), ← roll_comm]
      simp only [mul_assoc]
    · rfl

theorem sbend_turn {d d' : MDat} (h : Same a d d') (ref : Particle) (real : List Particle) :
    sbendRec d' ref real = (sbendRec d ref real).map (List.map (conj a)) := by
  unfold sbendRec
  simp only [num_o h.other "L" (by decide), num_o h.other "phi" (by decide), num_o h.other "phi1" (by decide),
    num_o h.other "phi2" (by decide), numD_o h.other "K" 0 (by decide)]
  have h1 : ∀ L phi phi1 phi2 K p, sbendOne d' L phi phi1 phi2 K ref p = (sbendOne d L phi phi1 phi2 K ref p).map (conj a) := by
    intro L phi phi1 phi2 K p
    unfold sbendOne
    simp only [num_o h.other "bg" (by decide), aligned_turn h.placed, h.fit]
    split
    · cases getNum d.conf "bg" with
      | error e => rfl
      | ok bg => rfl
    · rfl
  generalize getNum d.conf "L" = x1
  generalize getNum d.conf "phi" = x2
  generalize getNum d.conf "phi1" = x3
  generalize getNum d.conf "phi2" = x4
  cases x1 <;> cases x2 <;> cases x3 <;> cases x4 <;> try rfl
  dsimp only
  refine forEach_conj (fun p => ?_) _
  split
  · exact h1 _ _ _ _ _ _
  · exact congrArg Except.ok (conj_one a).symm

theorem quad_turn (env : Env) {d d' : MDat} (h : Same a d d') (ref : Particle) (real : List Particle) :
    quadRec env d' ref real = (quadRec env d ref real).map (List.map (conj a)) := by
  unfold quadRec
  simp only [num_o h.other "L" (by decide), num_o h.other "B2" (by decide), flag_o h.other env "ncurve" 0 (by decide),
    curveData_o h.other]
  cases getNum d.conf "L" with
  | error e => rfl
  | ok L =>
    dsimp only
    cases getFlag env d.conf "ncurve" 0 with
    | error e => rfl
    | ok n =>
      dsimp only
      split
      · cases getNum d.conf "B2" with
        | error e => rfl
        | ok B => exact forEach_conj (fun p => aligned_turn h.placed _ _ _) _
      · cases curveData env d.conf n with
        | error e => rfl
        | ok cs => exact forEach_conj (fun p => aligned_turn h.placed _ _ _) _

theorem solenoid_turn (env : Env) {d d' : MDat} (h : Same a d d') (ref : Particle) (real : List Particle) :
    solenoidRec env d' ref real = (solenoidRec env d ref real).map (List.map (conj a)) := by
  unfold solenoidRec
  simp only [num_o h.other "L" (by decide), num_o h.other "B" (by decide), flag_o h.other env "ncurve" 0 (by decide),
    curveData_o h.other]
  cases getNum d.conf "L" with
  | error e => rfl
  | ok L =>
    dsimp only
    cases getFlag env d.conf "ncurve" 0 with
    | error e => rfl
    | ok n =>
      dsimp only
      split
      · cases getNum d.conf "B" with
        | error e => rfl
        | ok B => exact forEach_conj (fun p => aligned_turn h.placed _ _ _) _
      · cases curveData env d.conf n with
        | error e => rfl
        | ok cs => exact forEach_conj (fun p => aligned_turn h.placed _ _ _) _

theorem equad_turn (env : Env) {d d' : MDat} (h : Same a d d') (ref : Particle) (real : List Particle) :
    equadRec env d' ref real = (equadRec env d ref real).map (List.map (conj a)) := by
  unfold equadRec
  simp only [num_o h.other "L" (by decide), num_o h.other "V" (by decide), num_o h.other "radius" (by decide),
    flag_o h.other env "ncurve" 0 (by decide), curveData_o h.other]
  cases getNum d.conf "L" with
  | error e => rfl
  | ok L =>
    dsimp only
    cases getFlag env d.conf "ncurve" 0 with
    | error e => rfl
    | ok n =>
      dsimp only
      split
      · generalize getNum d.conf "V" = x1
        generalize getNum d.conf "radius" = x2
        cases x1 <;> cases x2 <;> try rfl
        exact forEach_conj (fun p => aligned_turn h.placed _ _ _) _
      · cases curveData env d.conf n with
        | error e => rfl
        | ok cs => exact forEach_conj (fun p => aligned_turn h.placed _ _ _) _

theorem edipole_turn (env : Env) {d d' : MDat} (h : Same a d d') (ref : Particle) (real : List Particle) :
    edipoleRec env d' ref real = (edipoleRec env d ref real).map (List.map (conj a)) := by
  unfold edipoleRec
  simp only [num_o h.other "L" (by decide), num_o h.other "phi" (by decide), num_o h.other "ver" (by decide),
    num_o h.other "spher" (by decide), flag_o h.other env "HdipoleFitMode" 1 (by decide), numD_o h.other "fringe_x" 0 (by decide),
    numD_o h.other "fringe_y" 0 (by decide), numD_o h.other "asym_fac" 0 (by decide), numD_o h.other "beta" _ (by decide)]
  have h1 : ∀ v L phi fx fy kappa spher db p, edipoleOne d' v L phi fx fy kappa spher db ref p =
      (edipoleOne d v L phi fx fy kappa spher db ref p).map (conj a) := by
    intro v L phi fx fy kappa spher db p
    exact aligned_turn h.placed _ _ _
  generalize getNum d.conf "ver" = x1
  generalize getNum d.conf "L" = x2
  generalize getNum d.conf "phi" = x3
  generalize getNum d.conf "spher" = x4
  cases x1 <;> cases x2 <;> cases x3 <;> cases x4 <;> try rfl
  dsimp only
  cases getFlag env d.conf "HdipoleFitMode" 1 with
  | error e => rfl
  | ok n =>
    dsimp only
    split
    · rfl
    · refine forEach_conj (fun p => ?_) _
      split
      · exact h1 _ _ _ _ _ _ _ _ _
      · exact congrArg Except.ok (conj_one a).symm

theorem drift_turn (p : Particle) (L : ℝ) : conj a (driftM p L) = driftM p L := by
  have : driftM p L * turner a = turner a * driftM p L := by
    ext i j
    simp only [Matrix.mul_apply, Fin.sum_univ_seven]
    fin_cases i <;> fin_cases j <;> simp [driftM, setAt, turner, Matrix.one_apply] <;> ring
  rw [conj, ← this, mul_assoc, turner_forth, mul_one]

/-- The matrices given for an element, if it has some. -/
def Given (a : ℝ) (t : MType) (c c' : LCfg) : Prop :=
  t = .tmatrix → ∃ xs xs', c "matrix" = some (.vec xs) ∧ c' "matrix" = some (.vec xs') ∧ TurnedRows a xs xs'

theorem recompute_turn (env : Env) (t : MType) {d d' : MDat} (h : Same a d d') (hm : Given a t d.conf d'.conf) (ref : Particle)
    (real : List Particle) : recompute env t d' ref real = (recompute env t d ref real).map (List.map (conj a)) := by
  cases t with
  | orbtrim => exact orbtrim_turn h ref real
  | sbend => exact sbend_turn h ref real
  | quadrupole => exact quad_turn env h ref real
  | solenoid => exact solenoid_turn env h ref real
  | equad => exact equad_turn env h ref real
  | edipole => exact edipole_turn env h ref real
  | tmatrix =>
    obtain ⟨xs, xs', h1, h2, l1, l2, h3⟩ := hm rfl
    simp only [recompute]
    refine forEach_conj (fun p => ?_) _
    simp only [loadStorage, getVec, h1, h2, l1, l2]
    refine congrArg Except.ok ?_
    rw [turner_inv] at h3
    exact h3
  | drift =>
    simp only [recompute, Except.map, List.map_map, h.placed.length]
    refine congrArg Except.ok (List.map_congr_left (fun p _ => ?_))
    exact (drift_turn p _).symm
  | _ =>
    simp only [recompute, Except.map, List.map_map]
    exact congrArg Except.ok (List.map_congr_left (fun p _ => (conj_one a).symm))

/-! ## envelopes -/

theorem sum_mulVec {ι : Type} (A : Mat) (f : ι → Vec) (l : List ι) : A.mulVec (l.map f).sum = (l.map (fun x => A.mulVec (f x))).sum := by
  induction l with
  | nil => simp
  | cons x l ih => simp only [List.map_cons, List.sum_cons, Matrix.mulVec_add, ih]

theorem sum_congr {ι : Type} (A : Mat) (f : ι → Mat) (l : List ι) :
    Moment.congr A (l.map f).sum = (l.map (fun x => Moment.congr A (f x))).sum := by
  induction l with
  | nil => simp [Moment.congr]
  | cons x l ih =>
    simp only [List.map_cons, List.sum_cons, ← ih]
    simp only [Moment.congr, mul_add, add_mul]

theorem sum_at (l : List Mat) (i j : Fin 7) : l.sum i j = (l.map (fun M : Mat => M i j)).sum := by
  induction l with
  | nil => rfl
  | cons x l ih => simp only [List.map_cons, List.sum_cons, ← ih]; rfl

theorem sum_atV (l : List Vec) (i : Fin 7) : l.sum i = (l.map (fun v : Vec => v i)).sum := by
  induction l with
  | nil => rfl
  | cons x l ih => simp only [List.map_cons, List.sum_cons, ← ih]; rfl

theorem env0_eq (l : List Particle) (m0 : List Vec) :
    env0 l m0 = (totQ l)⁻¹ • ((l.zip m0).map (fun x => x.1.IonQ • x.2)).sum := by
  funext j
  rw [Pi.smul_apply, sum_atV, List.map_map, env0, ← List.map_uncurry_zip_eq_zipWith, smul_eq_mul, div_eq_inv_mul]
  congr 2
  refine List.map_congr_left (fun x _ => ?_)
  simp [Function.uncurry, mul_comm]

theorem env0_turn (l : List Particle) (m0 : List Vec) :
    env0 l (m0.map (fun v => (turner a).mulVec v)) = (turner a).mulVec (env0 l m0) := by
  rw [env0_eq, env0_eq, Matrix.mulVec_smul, sum_mulVec, List.zip_map_right, List.map_map]
  congr 2
  refine List.map_congr_left (fun x _ => ?_)
  simp only [Function.comp, Prod.map, Matrix.mulVec_smul]
  rfl

/-- Only the first six rows and columns. -/
def mask (M : Mat) : Mat := fun i j => if i < 6 ∧ j < 6 then M i j else 0

theorem mask_turn (M : Mat) : mask (Moment.congr (turner a) M) = Moment.congr (turner a) (mask M) := by
  ext i j
  simp only [Moment.congr, mask, Matrix.mul_apply, Fin.sum_univ_seven, Matrix.transpose_apply]
  fin_cases i <;> fin_cases j <;> simp [turner]

/-- What a charge state adds to the covariance of all. -/
noncomputable def share (e : Vec) (x : Particle × Vec × Mat) : Mat :=
  x.1.IonQ • (x.2.2 + Matrix.vecMulVec (x.2.1 - e) (x.2.1 - e))

theorem env1_eq (l : List Particle) (m0 : List Vec) (m1 : List Mat) :
    env1 l m0 m1 = mask ((totQ l)⁻¹ • ((l.zip (m0.zip m1)).map (share (env0 l m0))).sum) := by
  funext i j
  simp only [env1, mask]
  split
  · rw [Matrix.smul_apply, sum_at, List.map_map, ← List.map_uncurry_zip_eq_zipWith, smul_eq_mul, div_eq_inv_mul]
    congr 2
  · rfl

theorem share_turn (e : Vec) (x : Particle × Vec × Mat) :
    share ((turner a).mulVec e) (x.1, (turner a).mulVec x.2.1, Moment.congr (turner a) x.2.2) = Moment.congr (turner a) (share e x) := by
  unfold share
  dsimp only
  rw [← Matrix.mulVec_sub]
  simp only [Moment.congr, mul_add, add_mul, Matrix.mul_smul, Matrix.smul_mul]
  congr 2
  rw [Matrix.mul_vecMulVec, Matrix.vecMulVec_mul, Matrix.vecMul_transpose]

theorem env1_turn (l : List Particle) (m0 : List Vec) (m1 : List Mat) :
    env1 l (m0.map (fun v => (turner a).mulVec v)) (m1.map (Moment.congr (turner a))) = Moment.congr (turner a) (env1 l m0 m1) := by
  rw [env1_eq, env1_eq, ← mask_turn, env0_turn]
  congr 1
  have : Moment.congr (turner a) ((totQ l)⁻¹ • ((l.zip (m0.zip m1)).map (share (env0 l m0))).sum) =
      (totQ l)⁻¹ • Moment.congr (turner a) ((l.zip (m0.zip m1)).map (share (env0 l m0))).sum := by
    simp only [Moment.congr, Matrix.mul_smul, Matrix.smul_mul]
  rw [this, sum_congr]
  congr 1
  rw [List.zip_map, List.zip_map_right, List.map_map]
  congr 1
  refine List.map_congr_left (fun x _ => ?_)
  exact share_turn _ _

/-! ## states -/

/-- The turned beam. -/
noncomputable def turnS (a : ℝ) (x : Vec) (S : MSt) : MSt :=
  { S with moment0 := S.moment0.map (fun v => (turner a).mulVec v), moment1 := S.moment1.map (Moment.congr (turner a)),
           transmat := S.transmat.map (conj a), moment0_env := (turner a).mulVec S.moment0_env,
           moment1_env := Moment.congr (turner a) S.moment1_env, moment0_rms := x }

theorem turned_iff (S S' : MSt) : TurnedBeam a S S' ↔ ∃ x, S' = turnS a x S := by
  constructor
  · rintro ⟨h1, h2, h3, h4, h5, h6, h7, h8, h9⟩
    refine ⟨S'.moment0_rms, ?_⟩
    rw [turner_inv] at h6
    cases S'
    simp only at *
    subst h1 h2 h3 h4 h5 h6 h7 h8 h9
    rfl
  · rintro ⟨x, rfl⟩
    exact ⟨rfl, rfl, rfl, rfl, rfl, by rw [turner_inv]; rfl, rfl, rfl, rfl⟩

theorem recalc_turn (x : Vec) (S : MSt) : (turnS a x S).recalc = turnS a x S.recalc := rfl

theorem calcRms_turn (x : Vec) (S : MSt) : ∃ y, (turnS a x S).calcRms = turnS a y S.calcRms := by
  refine ⟨(turnS a x S).calcRms.moment0_rms, ?_⟩
  simp only [MSt.calcRms, turnS, env0_turn, env1_turn]

theorem zip_conj (T : List Mat) (l : List Vec) :
    List.zipWith (fun (M : Mat) (v : Vec) => M.mulVec v) (T.map (conj a)) (l.map (fun v => (turner a).mulVec v)) =
      (List.zipWith (fun (M : Mat) (v : Vec) => M.mulVec v) T l).map (fun v => (turner a).mulVec v) := by
  rw [List.zipWith_map, List.map_zipWith]
  simp only [conj_mulVec]

theorem zip_conjM (T l : List Mat) : List.zipWith Moment.congr (T.map (conj a)) (l.map (Moment.congr (turner a))) =
      (List.zipWith Moment.congr T l).map (Moment.congr (turner a)) := by
  rw [List.zipWith_map, List.map_zipWith]
  simp only [conj_congr]

theorem forward_turn (T : List Mat) (x : Vec) (S : MSt) : forward (T.map (conj a)) (turnS a x S) = turnS a x (forward T S) := by
  simp only [forward, turnS, zip_conj, zip_conjM]

theorem backLoop_turn : ∀ (T : List Mat) (v : List Vec) (S X : List Mat),
    backLoop (T.map (conj a)) (v.map (fun v => (turner a).mulVec v)) (S.map (Moment.congr (turner a))) (X.map (conj a)) =
      ((backLoop T v S X).1.map (fun v => (turner a).mulVec v), (backLoop T v S X).2.1.map (Moment.congr (turner a)),
        (backLoop T v S X).2.2.1.map (conj a), (backLoop T v S X).2.2.2)
  | [], _, _, _ => by simp only [List.map_nil, backLoop]
  | _ :: _, [], _, _ => by simp only [List.map_nil, List.map_cons, backLoop]
  | _ :: _, _ :: _, [], _ => by simp only [List.map_nil, List.map_cons, backLoop]
  | _ :: _, _ :: _, _ :: _, [] => by simp only [List.map_nil, List.map_cons, backLoop]
  | T :: Ts, v :: vs, S :: Ss, X :: Xs => by
    simp only [List.map_cons, backLoop, conj_inverse, backLoop_turn Ts vs Ss Xs]
    cases inverse T with
    | error e => rfl
    | ok I => simp only [Except.map, conj_mulVec, conj_congr, List.map_cons]

theorem backward_turn (T : List Mat) (x : Vec) (S : MSt) :
    backward (T.map (conj a)) (turnS a x S) = (turnS a x (backward T S).1, (backward T S).2) := by
  simp only [backward, turnS, backLoop_turn]

/-! ## elements -/

/-- The data of the turned element. -/
noncomputable def turnD (a : ℝ) (c' : LCfg) (d : MDat) : MDat :=
  { d with conf := c', dx := Real.cos a * d.dx - Real.sin a * d.dy, dy := Real.sin a * d.dx + Real.cos a * d.dy, roll := d.roll + a,
           transfer := d.transfer.map (conj a) }

/-- The data of an element in both runs. -/
def DRel (a : ℝ) (t : MType) (d d' : MDat) : Prop :=
  ∃ c', Other d.conf c' ∧ Given a t d.conf c' ∧ d.pitch = 0 ∧ d.yaw = 0 ∧ d' = turnD a c' d

theorem DRel.same {t : MType} {d d' : MDat} (h : DRel a t d d') : Same a d d' := by
  obtain ⟨c', h1, h2, h3, h4, rfl⟩ := h
  exact ⟨⟨rfl, rfl, rfl, rfl, ⟨h3, h3⟩, ⟨h4, h4⟩⟩, h1, rfl⟩

/-- What has to be shown of an element. -/
def Alike (a : ℝ) (P : MDat → MDat → Prop) (x x' : MDat × St MSt × Option Err) : Prop :=
  x'.2.2 = x.2.2 ∧ (∃ y, x'.2.1 = { x.2.1 with payload := turnS a y x.2.1.payload }) ∧ (x.2.2 = none → P x.1 x'.1)

noncomputable def turnT (a : ℝ) (x : Vec) (s : St MSt) : St MSt := { s with payload := turnS a x s.payload }

theorem resize_turn (n : Nat) (l : List Mat) : resize n (l.map (conj a)) = (resize n l).map (conj a) := by
  simp only [resize, List.map_append, List.map_take, List.length_map, List.map_replicate, conj_one]

theorem hit_turn (c' : LCfg) (d : MDat) (x : Vec) (S : MSt) : hit (turnD a c' d) (turnS a x S) ↔ hit d S := Iff.rfl

theorem particles_turn (env : Env) (t : MType) (move : Particle → Particle) {d d' : MDat} (h : DRel a t d d') (x : Vec) (S : MSt) (b : Bool) :
    match particles (recompute env t) move d S b, particles (recompute env t) move d' (turnS a x S) b with
    | (_, .error e), y => y.2 = .error e
    | (d1, .ok z), y => y.2 = .ok z ∧ y.1.transfer = d1.transfer.map (conj a) ∧ DRel a t d1 y.1 := by
  obtain ⟨c', h1, h2, h3, h4, rfl⟩ := h
  unfold particles
  by_cases hb : b = true
  · rw [if_pos hb, if_pos hb]
    exact ⟨rfl, rfl, c', h1, h2, h3, h4, rfl⟩
  · rw [if_neg hb, if_neg hb]
    have e : ({ turnD a c' d with refIn := some (turnS a x S).ref, realIn := (turnS a x S).real, transfer := resize (turnS a x S).real.length (turnD a c' d).transfer } : MDat) =
        turnD a c' { d with refIn := some S.ref, realIn := S.real, transfer := resize S.real.length d.transfer } := by
      simp only [turnD, turnS, resize_turn]
    dsimp only
    rw [e]
    generalize hD : ({ d with refIn := some S.ref, realIn := S.real, transfer := resize S.real.length d.transfer } : MDat) = D
    have k1 : Other D.conf c' := by rw [← hD]; exact h1
    have k2 : Given a t D.conf c' := by rw [← hD]; exact h2
    have k3 : D.pitch = 0 := by rw [← hD]; exact h3
    have k4 : D.yaw = 0 := by rw [← hD]; exact h4
    have hrec := recompute_turn env t (DRel.same ⟨c', k1, k2, k3, k4, rfl⟩ : Same a D (turnD a c' D)) k2 S.ref S.real
    rw [show (turnS a x S).ref = S.ref from rfl, show (turnS a x S).real = S.real from rfl, hrec]
    cases recompute env t D S.ref S.real with
    | error e => rfl
    | ok T => exact ⟨rfl, rfl, c', h1, h2, h3, h4, rfl⟩

theorem DRel.length {t : MType} {d d' : MDat} (h : DRel a t d d') : d'.length = d.length := h.same.placed.length

theorem DRel.hit {t : MType} {d d' : MDat} (h : DRel a t d d') (x : Vec) (S : MSt) :
    @decide (hit d' (turnS a x S)) (Classical.propDecidable _) = @decide (hit d S) (Classical.propDecidable _) := by
  obtain ⟨c', h1, h2, h3, h4, rfl⟩ := h
  rfl

theorem base_turn (env : Env) (t : MType) {d d' : MDat} (h : DRel a t d d') (x : Vec) (s : St MSt) :
    Alike a (DRel a t) (advanceBase (recompute env t) d s) (advanceBase (recompute env t) d' (turnT a x s)) := by
  unfold advanceBase
  dsimp only
  rw [show (turnT a x s).payload.recalc = turnS a x s.payload.recalc from rfl, h.hit, h.length, show (turnT a x s).retreat = s.retreat from rfl]
  have hp := particles_turn env t (·.drifted s.retreat d.length) h x s.payload.recalc (@decide (Moment.hit d s.payload.recalc) (Classical.propDecidable _))
  generalize particles (recompute env t) (·.drifted s.retreat d.length) d s.payload.recalc _ = z at hp ⊢
  generalize particles (recompute env t) (·.drifted s.retreat d.length) d' (turnS a x s.payload.recalc) _ = z' at hp ⊢
  obtain ⟨d1, z⟩ := z
  obtain ⟨d1', z'⟩ := z'
  cases z with
  | error e =>
    dsimp only at hp
    subst hp
    exact ⟨rfl, ⟨x, rfl⟩, fun h => by cases h⟩
  | ok z =>
    obtain ⟨h1, h2, h3⟩ := hp
    dsimp only at h1 h2 h3
    subst h1
    dsimp only
    rw [h2, show ({ turnS a x s.payload.recalc with ref := z.1, real := z.2, pos := (turnS a x s.payload.recalc).pos + sign s.retreat * d.length } : MSt)
        = turnS a x { s.payload.recalc with ref := z.1, real := z.2, pos := s.payload.recalc.pos + sign s.retreat * d.length } from rfl]
    generalize ({ s.payload.recalc with ref := z.1, real := z.2, pos := s.payload.recalc.pos + sign s.retreat * d.length } : MSt) = S0
    split
    · rw [backward_turn]
      generalize backward d1.transfer S0 = w
      obtain ⟨S1, o⟩ := w
      cases o with
      | some e => exact ⟨rfl, ⟨x, rfl⟩, fun h => by cases h⟩
      | none =>
        obtain ⟨y, hy⟩ := calcRms_turn (a := a) x S1
        exact ⟨rfl, ⟨y, congrArg (St.mk _ _) hy⟩, fun _ => h3⟩
    · rw [forward_turn]
      obtain ⟨y, hy⟩ := calcRms_turn (a := a) x (forward d1.transfer S0)
      exact ⟨rfl, ⟨y, congrArg (St.mk _ _) hy⟩, fun _ => h3⟩

theorem turner_4 (v : Vec) : (turner a).mulVec v 4 = v 4 := by
  simp [Matrix.mulVec, dotProduct, Fin.sum_univ_seven, turner]

theorem bendPhis_turn (b : Bool) (L : ℝ) : ∀ (l : List Particle) (v w : List Vec),
    bendPhis b L l (v.map (fun v => (turner a).mulVec v)) (w.map (fun v => (turner a).mulVec v)) = bendPhis b L l v w
  | [], _, _ => by simp only [bendPhis]
  | _ :: _, [], _ => by simp only [List.map_nil, bendPhis]
  | _ :: _, _ :: _, [] => by simp only [List.map_nil, List.map_cons, bendPhis]
  | p :: l, x :: v, y :: w => by
    simp only [List.map_cons, bendPhis, bendPhis_turn b L l v w, turner_4]

theorem bend_turn (env : Env) {d d' : MDat} (h : DRel a .sbend d d') (x : Vec) (s : St MSt) :
    Alike a (DRel a .sbend) (advanceBend (recompute env .sbend) d s) (advanceBend (recompute env .sbend) d' (turnT a x s)) := by
  unfold advanceBend
  dsimp only
  rw [show (turnT a x s).payload.recalc = turnS a x s.payload.recalc from rfl, h.hit, h.length, show (turnT a x s).retreat = s.retreat from rfl]
  have hp := particles_turn env .sbend id h x s.payload.recalc (@decide (Moment.hit d s.payload.recalc) (Classical.propDecidable _))
  generalize particles (recompute env .sbend) id d s.payload.recalc _ = z at hp ⊢
  generalize particles (recompute env .sbend) id d' (turnS a x s.payload.recalc) _ = z' at hp ⊢
  obtain ⟨d1, z⟩ := z
  obtain ⟨d1', z'⟩ := z'
  cases z with
  | error e =>
    dsimp only at hp
    subst hp
    exact ⟨rfl, ⟨x, rfl⟩, fun h => by cases h⟩
  | ok z =>
    obtain ⟨h1, h2, h3⟩ := hp
    dsimp only at h1 h2 h3
    subst h1
    dsimp only
    rw [h2, show ({ turnS a x s.payload.recalc with ref := z.1.drifted s.retreat d.length, real := z.2, pos := (turnS a x s.payload.recalc).pos + sign s.retreat * d.length } : MSt)
        = turnS a x { s.payload.recalc with ref := z.1.drifted s.retreat d.length, real := z.2, pos := s.payload.recalc.pos + sign s.retreat * d.length } from rfl]
    generalize ({ s.payload.recalc with ref := z.1.drifted s.retreat d.length, real := z.2, pos := s.payload.recalc.pos + sign s.retreat * d.length } : MSt) = S0
    have key : ∀ (S1 : MSt), ∃ y, ({ turnS a x S1 with real := bendPhis s.retreat d.length (turnS a x S1).real (s.payload.recalc.moment0.map (fun v => (turner a).mulVec v)) (turnS a x S1).moment0 } : MSt).calcRms =
        turnS a y ({ S1 with real := bendPhis s.retreat d.length S1.real s.payload.recalc.moment0 S1.moment0 } : MSt).calcRms := by
      intro S1
      obtain ⟨y, hy⟩ := calcRms_turn (a := a) x { S1 with real := bendPhis s.retreat d.length S1.real s.payload.recalc.moment0 S1.moment0 }
      refine ⟨y, hy ▸ ?_⟩
      simp only [turnS, bendPhis_turn]
    split
    · rw [backward_turn]
      generalize backward d1.transfer S0 = w
      obtain ⟨S1, o⟩ := w
      cases o with
      | some e => exact ⟨rfl, ⟨x, rfl⟩, fun h => by cases h⟩
      | none =>
        obtain ⟨y, hy⟩ := key S1
        exact ⟨rfl, ⟨y, congrArg (St.mk _ _) hy⟩, fun _ => h3⟩
    · rw [forward_turn]
      obtain ⟨y, hy⟩ := key (forward d1.transfer S0)
      exact ⟨rfl, ⟨y, congrArg (St.mk _ _) hy⟩, fun _ => h3⟩

theorem cancel_vec (M : Mat) (v : Vec) : (M * turner (-a)).mulVec ((turner a).mulVec v) = M.mulVec v := by
  rw [Matrix.mulVec_mulVec, mul_assoc, turner_back, mul_one]

theorem cancel_mat (M S : Mat) : Moment.congr (M * turner (-a)) (Moment.congr (turner a) S) = Moment.congr M S := by
  rw [congr_mul, mul_assoc, turner_back, mul_one]

theorem sextOne_turn {d d' : MDat} (h : Placed a d d') (B3 L stp : ℝ) (thin dst : Bool) (ref p : Particle) (v : Vec) (S : Mat) :
    sextOne d' B3 L stp thin dst ref p ((turner a).mulVec v) (Moment.congr (turner a) S) =
      (sextOne d B3 L stp thin dst ref p v S).map (fun r => ((turner a).mulVec r.1, Moment.congr (turner a) r.2.1, conj a r.2.2)) := by
  unfold sextOne
  rw [getMisalign_turn h]
  cases getMisalign d ref p with
  | error e => rfl
  | ok m =>
    simp only [Except.map, cancel_vec, cancel_mat]
    simp only [congr_mul, conj, Matrix.mulVec_mulVec, mul_assoc]

/-- The forward part of `advanceSext`, under a name. -/
noncomputable def sextGo (B3 L stp : ℝ) (thin dst : Bool) (D : MDat) (S : MSt) (s : St MSt) : MDat × St MSt × Option Err :=
  match forEach (fun (q : Particle × Vec × Mat) => sextOne D B3 L stp thin dst S.ref q.1 q.2.1 q.2.2) (S.real.zip (S.moment0.zip S.moment1)) with
  | .error e => (D, { s with payload := S }, some e)
  | .ok (rs : List (Vec × Mat × Mat)) =>
    let ref := S.ref.recalc.drifted false D.length
    let real := S.real.map (fun p => p.recalc.drifted false D.length)
    let d := { D with refOut := ref, realOut := real }
    (d, { s with payload :=
      { S with ref := ref, real := real, pos := S.pos + d.length, moment0 := rs.map (fun (q : Vec × Mat × Mat) => q.1),
               moment1 := rs.map (fun (q : Vec × Mat × Mat) => q.2.1),
               transmat := rs.map (fun (q : Vec × Mat × Mat) => q.2.2) }.calcRms }, none)

theorem sextGo_turn {c' : LCfg} {D : MDat} (h1 : Other D.conf c') (h3 : D.pitch = 0) (h4 : D.yaw = 0) (B3 L stp : ℝ)
    (thin dst : Bool) (x : Vec) (S : MSt) (s : St MSt) :
    Alike a (DRel a .sextupole) (sextGo B3 L stp thin dst D S s) (sextGo B3 L stp thin dst (turnD a c' D) (turnS a x S) (turnT a x s)) := by
  have h2 : Given a .sextupole D.conf c' := fun h => by cases h
  have hP : Placed a D (turnD a c' D) := (DRel.same ⟨c', h1, h2, h3, h4, rfl⟩ : Same a D (turnD a c' D)).placed
  have hz : (turnS a x S).real.zip ((turnS a x S).moment0.zip (turnS a x S).moment1) =
      (S.real.zip (S.moment0.zip S.moment1)).map (fun q => (q.1, (turner a).mulVec q.2.1, Moment.congr (turner a) q.2.2)) := by
    simp only [turnS]
    rw [List.zip_map, List.zip_map_right]
    rfl
  unfold sextGo
  rw [hz, Flame.Scale.forEach_map]
  simp only [sextOne_turn hP, show (turnS a x S).ref = S.ref from rfl]
  rw [Flame.Scale.forEach_post (f := fun (q : Particle × Vec × Mat) => sextOne D B3 L stp thin dst S.ref q.1 q.2.1 q.2.2) (fun _ => rfl)]
  generalize forEach _ (S.real.zip (S.moment0.zip S.moment1)) = z
  cases z with
  | error e => exact ⟨rfl, ⟨x, rfl⟩, fun h => by cases h⟩
  | ok rs =>
    simp only [Except.map]
    obtain ⟨y, hy⟩ := calcRms_turn (a := a) x ({ S with ref := S.ref.recalc.drifted false D.length, real := S.real.map (fun p => p.recalc.drifted false D.length), pos := S.pos + D.length, moment0 := rs.map (fun (q : Vec × Mat × Mat) => q.1), moment1 := rs.map (fun (q : Vec × Mat × Mat) => q.2.1), transmat := rs.map (fun (q : Vec × Mat × Mat) => q.2.2) } : MSt)
    refine ⟨rfl, ⟨y, congrArg (St.mk _ _) ?_⟩, fun _ => ⟨c', h1, h2, h3, h4, rfl⟩⟩
    rw [← hy]
    simp only [turnS, List.map_map]
    rfl

theorem sext_turn {d d' : MDat} (h : DRel a .sextupole d d') (x : Vec) (s : St MSt) :
    Alike a (DRel a .sextupole) (advanceSext d s) (advanceSext d' (turnT a x s)) := by
  obtain ⟨c', h1, h2, h3, h4, rfl⟩ := h
  unfold advanceSext
  simp only [show (turnD a c' d).conf = c' from rfl, num_o h1 "B3" (by decide), num_o h1 "L" (by decide), numD_o h1 "step" 1 (by decide),
    numD_o h1 "thinlens" 0 (by decide), numD_o h1 "dstkick" 1 (by decide),
    show (turnT a x s).payload.recalc = turnS a x s.payload.recalc from rfl, show (turnT a x s).retreat = s.retreat from rfl]
  cases getNum d.conf "B3" with
  | error e => exact ⟨rfl, ⟨x, rfl⟩, fun h => by cases h⟩
  | ok B3 =>
    cases getNum d.conf "L" with
    | error e => exact ⟨rfl, ⟨x, rfl⟩, fun h => by cases h⟩
    | ok L =>
      dsimp only
      split
      · exact ⟨rfl, ⟨x, rfl⟩, fun h => by cases h⟩
      · generalize s.payload.recalc = S
        have e : ({ turnD a c' d with refIn := some (turnS a x S).ref, realIn := (turnS a x S).real, transfer := resize (turnS a x S).real.length (turnD a c' d).transfer } : MDat) =
            turnD a c' { d with refIn := some S.ref, realIn := S.real, transfer := resize S.real.length d.transfer } := by
          simp only [turnD, turnS, resize_turn]
        have := sextGo_turn (a := a) (c' := c') (D := { d with refIn := some S.ref, realIn := S.real, transfer := resize S.real.length d.transfer }) h1 h3 h4 B3 (L * MtoMM)
          (toSteps (getNumD d.conf "step" 1) : ℝ) (@decide (getNumD d.conf "thinlens" 0 = 1) (Classical.propDecidable _))
          (@decide (getNumD d.conf "dstkick" 1 = 1) (Classical.propDecidable _)) x S s
        rw [← e] at this
        exact this

/-- All element types but sources, cavities and strippers. -/
theorem advance_turn (env : Env) (t : MType) (ht : t ≠ .source) {d d' : MDat} (h : DRel a t d d') (x : Vec) (s : St MSt) :
    Alike a (DRel a t) (advance env t d s) (advance env t d' (turnT a x s)) := by
  cases t with
  | source => exact absurd rfl ht
  | sbend => exact bend_turn env h x s
  | sextupole => exact sext_turn h x s
  | _ => exact base_turn env _ h x s

end Flame.Turn
