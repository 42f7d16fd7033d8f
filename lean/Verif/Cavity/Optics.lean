import Verif.Cavity.Boost
import Verif.Moment.Optics
import Mathlib.Tactic.FinCases

/-!
# The matrices of an RF cavity: C61, C62
-/

namespace Flame.Cavity

open Flame.Mach (Err)
open Flame.Moment
open Flame.Moment.Spec (phaseSpace)

/-! ## areas -/

/-- Transverse areas are multiplied by `r`, and the seventh row is that of the identity. -/
def Damp (r : ℝ) (M : Mat) : Prop := Keeps7 M ∧ Spec.Damps r (phaseSpace M)

theorem damps_mul {r s : ℝ} {A B : Matrix (Fin 6) (Fin 6) ℝ} (hA : Spec.Damps r A) (hB : Spec.Damps s B) :
    Spec.Damps (r * s) (A * B) := by
  constructor
  · rw [Matrix.transpose_mul]
    calc B.transpose * A.transpose * Spec.areaT * (A * B) = B.transpose * (A.transpose * Spec.areaT * A) * B := by
          simp only [Matrix.mul_assoc]
      _ = (r * s) • Spec.areaT := by rw [hA.1, Matrix.mul_smul, Matrix.smul_mul, hB.1, smul_smul]
  · rw [Matrix.transpose_mul]
    calc B.transpose * A.transpose * Spec.areaL * (A * B) = B.transpose * (A.transpose * Spec.areaL * A) * B := by
          simp only [Matrix.mul_assoc]
      _ = Spec.areaL := by rw [hA.2, hB.2]

theorem Damp.mul {r s : ℝ} {A B : Mat} (hA : Damp r A) (hB : Damp s B) : Damp (r * s) (A * B) :=
  ⟨hA.1.mul hB.1, by rw [phaseSpace_mul hB.1]; exact damps_mul hA.2 hB.2⟩

theorem Damp.one : Damp 1 1 := ⟨Keeps7.one, by rw [phaseSpace_one]; simp [Spec.Damps]⟩

/-- The seven matrices of which a cavity consists. -/
theorem damp_of {r : ℝ} {M : Mat} {a b c d e f : ℝ} (h7 : Keeps7 M)
    (h : phaseSpace M = !![1, a, 0, 0, 0, 0; b, r, 0, 0, 0, 0; 0, 0, 1, c, 0, 0; 0, 0, d, r, 0, 0;
      0, 0, 0, 0, 1, e; 0, 0, 0, 0, f, 1])
    (hb : a * b = 0) (hd : c * d = 0) (hf : e * f = 0) : Damp r M := by
  refine ⟨h7, ?_, ?_⟩
  · rw [h]
    ext i j
    fin_cases i <;> fin_cases j <;> simp [Spec.areaT, Matrix.mul_apply, Fin.sum_univ_six] <;> grind
  · rw [h]
    ext i j
    fin_cases i <;> fin_cases j <;> simp [Spec.areaL, Matrix.mul_apply, Fin.sum_univ_six] <;> grind

theorem driftT_damp (l : ℝ) : Damp 1 (driftT l) := by
  refine damp_of (a := l) (b := 0) (c := l) (d := 0) (e := 0) (f := 0) (fun j => ?_) ?_ (by simp) (by simp) (by simp)
  · fin_cases j <;> simp [driftT, setAt, Matrix.one_apply]
  · ext i j; fin_cases i <;> fin_cases j <;> simp [phaseSpace, driftT, setAt]

theorem focusT_damp (x y : ℝ) : Damp 1 (focusT x y) := by
  refine damp_of (a := 0) (b := x) (c := 0) (d := y) (e := 0) (f := 0) (fun j => ?_) ?_ (by simp) (by simp) (by simp)
  · fin_cases j <;> simp [focusT, setAt, Matrix.one_apply]
  · ext i j; fin_cases i <;> fin_cases j <;> simp [phaseSpace, focusT, setAt]

theorem kickT_damp (x : ℝ) : Damp 1 (kickT x) := by
  refine damp_of (a := 0) (b := 0) (c := 0) (d := 0) (e := 0) (f := 0) (fun j => ?_) ?_ (by simp) (by simp) (by simp)
  · fin_cases j <;> simp [kickT, setAt, Matrix.one_apply]
  · ext i j; fin_cases i <;> fin_cases j <;> simp [phaseSpace, kickT, setAt]

theorem accelT_damp (x : ℝ) : Damp x (accelT x) := by
  refine damp_of (a := 0) (b := 0) (c := 0) (d := 0) (e := 0) (f := 0) (fun j => ?_) ?_ (by simp) (by simp) (by simp)
  · fin_cases j <;> simp [accelT, setAt, Matrix.one_apply]
  · ext i j; fin_cases i <;> fin_cases j <;> simp [phaseSpace, accelT, setAt]

theorem driftL_damp (x : ℝ) : Damp 1 (driftL x) := by
  refine damp_of (a := 0) (b := 0) (c := 0) (d := 0) (e := x) (f := 0) (fun j => ?_) ?_ (by simp) (by simp) (by simp)
  · fin_cases j <;> simp [driftL, setAt, Matrix.one_apply]
  · ext i j; fin_cases i <;> fin_cases j <;> simp [phaseSpace, driftL, setAt]

theorem kickL_damp (x : ℝ) : Damp 1 (kickL x) := by
  refine damp_of (a := 0) (b := 0) (c := 0) (d := 0) (e := 0) (f := x) (fun j => ?_) ?_ (by simp) (by simp) (by simp)
  · fin_cases j <;> simp [kickL, setAt, Matrix.one_apply]
  · ext i j; fin_cases i <;> fin_cases j <;> simp [phaseSpace, kickL, setAt]

/-! ## planes -/

/-- Index of the longitudinal plane. -/
def lonIx (i : Fin 7) : Prop := i = 4 ∨ i = 5

instance (i : Fin 7) : Decidable (lonIx i) := inferInstanceAs (Decidable (_ ∨ _))

/-- Identity in the longitudinal plane, or outside of it. -/
def OnlyT (M : Mat) : Prop := ∀ i j, lonIx i ∨ lonIx j → M i j = (1 : Mat) i j
def OnlyL (M : Mat) : Prop := ∀ i j, ¬ (lonIx i ∧ lonIx j) → M i j = (1 : Mat) i j

theorem OnlyT.mul {A B : Mat} (hA : OnlyT A) (hB : OnlyT B) : OnlyT (A * B) := by
  rintro i j (h | h)
  · rw [Matrix.mul_apply, Finset.sum_congr rfl (fun k _ => by rw [hA i k (Or.inl h)]), ← Matrix.mul_apply, Matrix.one_mul]
    exact hB i j (Or.inl h)
  · rw [Matrix.mul_apply, Finset.sum_congr rfl (fun k _ => by rw [hB k j (Or.inr h)]), ← Matrix.mul_apply, Matrix.mul_one]
    exact hA i j (Or.inr h)

theorem OnlyL.mul {A B : Mat} (hA : OnlyL A) (hB : OnlyL B) : OnlyL (A * B) := by
  intro i j h
  by_cases hi : lonIx i
  · have hj : ¬ lonIx j := fun hj => h ⟨hi, hj⟩
    rw [Matrix.mul_apply, Finset.sum_congr rfl (fun k _ => by rw [hB k j (fun hc => hj hc.2)]), ← Matrix.mul_apply,
      Matrix.mul_one]
    exact hA i j h
  · rw [Matrix.mul_apply, Finset.sum_congr rfl (fun k _ => by rw [hA i k (fun hc => hi hc.1)]), ← Matrix.mul_apply,
      Matrix.one_mul]
    exact hB i j h

theorem OnlyT.one : OnlyT 1 := fun _ _ _ => rfl
theorem OnlyL.one : OnlyL 1 := fun _ _ _ => rfl

theorem driftT_only (l : ℝ) : OnlyT (driftT l) := by
  intro i j h; revert h; fin_cases i <;> fin_cases j <;> simp [lonIx, driftT, setAt]
theorem focusT_only (a b : ℝ) : OnlyT (focusT a b) := by
  intro i j h; revert h; fin_cases i <;> fin_cases j <;> simp [lonIx, focusT, setAt]
theorem kickT_only (a : ℝ) : OnlyT (kickT a) := by
  intro i j h; revert h; fin_cases i <;> fin_cases j <;> simp [lonIx, kickT, setAt]
theorem accelT_only (a : ℝ) : OnlyT (accelT a) := by
  intro i j h; revert h; fin_cases i <;> fin_cases j <;> simp [lonIx, accelT, setAt]
theorem driftL_only (l : ℝ) : OnlyL (driftL l) := by
  intro i j h; revert h; fin_cases i <;> fin_cases j <;> simp [lonIx, driftL, setAt]
theorem kickL_only (l : ℝ) : OnlyL (kickL l) := by
  intro i j h; revert h; fin_cases i <;> fin_cases j <;> simp [lonIx, kickL, setAt]

/-- `combine` is the product. -/
theorem combine_eq {T L : Mat} (hT : OnlyT T) (hL : OnlyL L) : combine T L = T * L := by
  ext i j
  rw [Matrix.mul_apply]
  by_cases hj : lonIx j
  · by_cases hi : lonIx i
    · rw [Finset.sum_congr rfl (fun k _ => by rw [hT i k (Or.inl hi)]), ← Matrix.mul_apply, Matrix.one_mul]
      rcases hi with rfl | rfl <;> rcases hj with rfl | rfl <;> simp [combine, setAt]
    · have e : ∀ k, T i k * L k j = T i k * (if lonIx k then L k j else 0) := by
        intro k
        by_cases hk : lonIx k
        · simp [hk]
        · have : L k j = 0 := by
            rw [hL k j (fun h => hk h.1), Matrix.one_apply, if_neg]
            rintro rfl; exact hk hj
          simp [hk, this]
      have z : ∀ k, T i k * (if lonIx k then L k j else 0) = 0 := by
        intro k
        by_cases hk : lonIx k
        · have : T i k = 0 := by
            rw [hT i k (Or.inr hk), Matrix.one_apply, if_neg]
            rintro rfl; exact hi hk
          simp [this]
        · simp [hk]
      rw [Finset.sum_eq_zero (fun k _ => by rw [e, z])]
      have : T i j = 0 := by
        rw [hT i j (Or.inr hj), Matrix.one_apply, if_neg]
        rintro rfl; exact hi hj
      have h4 : i ≠ 4 := fun h => hi (Or.inl h)
      have h5 : i ≠ 5 := fun h => hi (Or.inr h)
      simp [combine, setAt, h4, h5, this]
  · rw [Finset.sum_congr rfl (fun k _ => by rw [hL k j (fun hc => hj hc.2)]), ← Matrix.mul_apply, Matrix.mul_one]
    have h4 : j ≠ 4 := fun h => hj (Or.inl h)
    have h5 : j ≠ 5 := fun h => hj (Or.inr h)
    simp [combine, setAt, h4, h5]

/-! ## the frequency jump -/

theorem jump_eq (m : ℝ) (M : Mat) :
    jump m M = fun i j => M i j * (if j = 4 then m else 1) / (if i = 4 then m else 1) := by
  funext i j
  simp only [jump, List.finRange_succ, List.finRange_zero, List.map_nil, List.map_cons, List.foldl_cons, List.foldl_nil]
  fin_cases i <;> fin_cases j <;> simp [setAt]

/-- The matrix of the change of coordinate. -/
noncomputable def jumpD (m : ℝ) : Mat := Matrix.diagonal (fun i => if i = 4 then m else 1)

/-- C62: the frequency jump is a change of the unit of the phase. -/
theorem C62_jump {m : ℝ} (hm : m ≠ 0) (M : Mat) :
    jump m M = (jumpD m)⁻¹ * M * jumpD m ∧ IsUnit (jumpD m).det := by
  have hd : (jumpD m).det ≠ 0 := by
    rw [jumpD, Matrix.det_diagonal, Finset.prod_ne_zero_iff]
    intro i _
    split <;> simp [hm]
  have hu : IsUnit (jumpD m).det := isUnit_iff_ne_zero.mpr hd
  refine ⟨?_, hu⟩
  have hi : (jumpD m)⁻¹ = Matrix.diagonal (fun i => if i = 4 then m⁻¹ else 1) := by
    apply Matrix.inv_eq_right_inv
    rw [jumpD, Matrix.diagonal_mul_diagonal, ← Matrix.diagonal_one]
    congr 1
    funext i
    split <;> simp [hm]
  rw [hi, jump_eq]
  ext i j
  rw [jumpD, Matrix.mul_diagonal, Matrix.diagonal_mul]
  by_cases h1 : i = 4 <;> by_cases h2 : j = 4 <;> simp [h1, h2] <;> field_simp

theorem jump_mul {m : ℝ} (hm : m ≠ 0) (A B : Mat) : jump m (A * B) = jump m A * jump m B := by
  obtain ⟨h1, hu⟩ := C62_jump hm A
  rw [h1, (C62_jump hm B).1, (C62_jump hm (A * B)).1]
  calc (jumpD m)⁻¹ * (A * B) * jumpD m = (jumpD m)⁻¹ * A * (jumpD m * (jumpD m)⁻¹) * B * jumpD m := by
        rw [Matrix.mul_nonsing_inv _ hu]; simp only [Matrix.mul_one, Matrix.mul_assoc]
    _ = _ := by simp only [Matrix.mul_assoc]

theorem jump_damp {m r : ℝ} (hm : m ≠ 0) {M : Mat} (h : Damp r M) : Damp r (jump m M) := by
  rw [jump_eq]
  have e : phaseSpace (fun i j => M i j * (if j = 4 then m else 1) / (if i = 4 then m else 1)) =
      Matrix.diagonal (fun i : Fin 6 => if i = 4 then m⁻¹ else 1) * phaseSpace M *
        Matrix.diagonal (fun i : Fin 6 => if i = 4 then m else 1) := by
    ext i j
    rw [Matrix.mul_diagonal, Matrix.diagonal_mul]
    show M i.castSucc j.castSucc * _ / _ = _
    have c : ∀ i : Fin 6, (i.castSucc = 4) = (i = 4) := by decide
    simp only [c, phaseSpace]
    by_cases h1 : i = 4 <;> by_cases h2 : j = 4 <;> simp [h1, h2] <;> field_simp
  have cT : ∀ x : ℝ, (Matrix.diagonal (fun i : Fin 6 => if i = 4 then x else 1)).transpose * Spec.areaT *
      Matrix.diagonal (fun i : Fin 6 => if i = 4 then x else 1) = Spec.areaT := by
    intro x
    ext i j
    rw [Matrix.diagonal_transpose, Matrix.mul_diagonal, Matrix.diagonal_mul]
    fin_cases i <;> fin_cases j <;> simp [Spec.areaT]
  have cL : ∀ x : ℝ, (Matrix.diagonal (fun i : Fin 6 => if i = 4 then x else 1)).transpose * Spec.areaL *
      Matrix.diagonal (fun i : Fin 6 => if i = 4 then x else 1) = x • Spec.areaL := by
    intro x
    ext i j
    rw [Matrix.diagonal_transpose, Matrix.mul_diagonal, Matrix.diagonal_mul]
    fin_cases i <;> fin_cases j <;> simp [Spec.areaL]
  refine ⟨fun j => ?_, ?_, ?_⟩
  · have := h.1 j
    show M 6 j * _ / _ = _
    rw [this]
    by_cases hj : j = 4 <;> simp [hj]
  · have t : ∀ A X B F : Matrix (Fin 6) (Fin 6) ℝ, (A * X * B).transpose * F * (A * X * B) =
        B.transpose * (X.transpose * (A.transpose * F * A) * X) * B := by
      intro A X B F
      simp only [Matrix.transpose_mul, Matrix.mul_assoc]
    rw [e, t, cT, h.2.1, Matrix.mul_smul, Matrix.smul_mul, cT]
  · have t : ∀ A X B F : Matrix (Fin 6) (Fin 6) ℝ, (A * X * B).transpose * F * (A * X * B) =
        B.transpose * (X.transpose * (A.transpose * F * A) * X) * B := by
      intro A X B F
      simp only [Matrix.transpose_mul, Matrix.mul_assoc]
    rw [e, t, cL, Matrix.mul_smul, Matrix.smul_mul, h.2.2, Matrix.mul_smul, Matrix.smul_mul, cL, smul_smul,
      inv_mul_cancel₀ hm, one_smul]

/-! ## loops -/

theorem foldE_inv {α β : Type} {f : α → β → Except Err β} {P : β → Prop} (h : ∀ a b b', f a b = .ok b' → P b → P b') :
    ∀ (l : List α) (b b' : β), foldE f l b = .ok b' → P b → P b'
  | [], b, b', he, hb => by cases he; exact hb
  | a :: l, b, b', he, hb => by
    rw [foldE] at he
    split at he
    · cases he
    · rename_i c hc
      exact foldE_inv h l c b' he (h a b c hc hb)

theorem kin_ok {Es W lam : ℝ} {q : Kin} (h : kin Es W lam = .ok q) : q.gamma = W / Es ∧
    q.beta = Real.sqrt (1 - 1 / (q.gamma * q.gamma)) ∧ q.k = 2 * Real.pi / (q.beta * lam) ∧ 1 < q.gamma * q.gamma := by
  unfold kin at h
  dsimp only at h
  split at h
  · cases h
  · rename_i hn
    cases h
    exact ⟨rfl, rfl, rfl, not_le.mp hn⟩

theorem kin_momentum {Es W lam : ℝ} {q : Kin} (h : kin Es W lam = .ok q) :
    q.beta * q.gamma = Spec.momentum Es W ∧ Spec.momentum Es W ≠ 0 := by
  obtain ⟨h1, h2, -, h4⟩ := kin_ok h
  have e : q.beta * q.gamma = Spec.momentum Es W := by
    rw [h2, h1, Spec.momentum]
    congr 3
    by_cases hs : Es = 0
    · simp [hs]
    · by_cases hw : W = 0
      · simp [hw]
      · field_simp
  refine ⟨e, ?_⟩
  rw [← e]
  have hg : q.gamma ≠ 0 := by rintro h0; rw [h0] at h4; norm_num at h4
  have hb : 0 < q.beta := by
    rw [h2]
    apply Real.sqrt_pos.mpr
    have : 1 / (q.gamma * q.gamma) < 1 := (div_lt_one (by linarith)).mpr h4
    linarith
  exact mul_ne_zero hb.ne' hg

/-- What the loop of a generic cavity keeps. -/
structure GenInv (Es p0 : ℝ) (t : Gen) : Prop where
  mom : t.beta * t.gamma = Spec.momentum Es t.W
  ne : Spec.momentum Es t.W ≠ 0
  onlyT : OnlyT t.M
  onlyL : OnlyL t.lon
  dampT : Damp (p0 / Spec.momentum Es t.W) t.M
  dampL : Damp 1 t.lon

theorem GenInv.keep {Es p0 : ℝ} {t : Gen} (h : GenInv Es p0 t) {E : Mat} (hE : OnlyT E) (hD : Damp 1 E) (fy : ℝ) :
    GenInv Es p0 { t with fy := fy, M := E * t.M } :=
  { h with onlyT := hE.mul h.onlyT, dampT := by have := hD.mul h.dampT; rwa [one_mul] at this }

theorem genStep_inv {mpole : Nat} {Z Es scl Rm lam p0 : ℝ} (P : RawParams) (t t' : Gen)
    (h : genStep mpole Z Es scl Rm lam P t = .ok t') (hi : GenInv Es p0 t) : GenInv Es p0 t' := by
  unfold genStep at h
  dsimp only at h
  split at h
  · cases h
    have := hi.keep (driftT_only P.length) (driftT_damp P.length) (t.fy + t.kfac * P.length)
    exact { this with
      onlyL := (driftL_only _).mul hi.onlyL
      dampL := by have := (driftL_damp (-2 * Real.pi / lam *
        (1 / ((t.beta * t.gamma) * (t.beta * t.gamma) * (t.beta * t.gamma)) * MeVtoeV / Es * P.length))).mul hi.dampL
                  rwa [one_mul] at this }
  · cases h; exact hi.keep (focusT_only _ _) (focusT_damp _ _) t.fy
  · cases h; split
    · exact hi.keep (kickT_only _) (kickT_damp _) t.fy
    · exact hi
  · cases h; split
    · exact hi.keep (focusT_only _ _) (focusT_damp _ _) t.fy
    · exact hi
  · cases h; split
    · exact hi.keep (focusT_only _ _) (focusT_damp _ _) t.fy
    · exact hi
  · cases h; split
    · exact hi.keep (kickT_only _) (kickT_damp _) t.fy
    · exact hi
  · cases h; split
    · exact hi.keep (focusT_only _ _) (focusT_damp _ _) t.fy
    · exact hi
  · split at h
    · cases h
    · rename_i q hq
      cases h
      obtain ⟨hm, hn⟩ := kin_momentum hq
      refine ⟨hm, hn, (accelT_only _).mul hi.onlyT, (kickL_only _).mul hi.onlyL, ?_, ?_⟩
      · have := (accelT_damp (t.beta * t.gamma / (q.beta * q.gamma))).mul hi.dampT
        rw [hm, hi.mom] at this ⊢
        convert this using 1
        have := hi.ne
        field_simp
      · have := (kickL_damp (-Z * (P.E0 * scl) * calFitPow t.kfac P.Tfit * Real.sin t.fy
          - Z * (P.E0 * scl) * calFitPow t.kfac P.Sfit * Real.cos t.fy)).mul hi.dampL
        rwa [one_mul] at this
  · cases h

/-- C62, generic cavities: transverse areas shrink as the momentum of the gap model grows, longitudinal areas are kept and the
planes are not mixed. -/
theorem C62_generic {cav : Cav} {Z Es scl fy0 Ek : ℝ} {M : Mat} (h : getCavMatGeneric cav Z Es scl fy0 Ek = .ok M) :
    ∃ a t, kin Es (Ek + Es) (C0 / cav.fRF * MtoMM) = .ok a ∧
      foldE (genStep cav.mpoleLevel Z Es scl cav.cRm (C0 / cav.fRF * MtoMM)) cav.lattice
        { W := Ek + Es, gamma := a.gamma, beta := a.beta, fy := fy0, kfac := a.k, M := 1, lon := 1 } = .ok t ∧
      Damp (Spec.momentum Es (Ek + Es) / Spec.momentum Es t.W) M := by
  unfold getCavMatGeneric at h
  dsimp only at h
  split at h
  · cases h
  · rename_i a ha
    split at h
    · cases h
    · split at h
      · cases h
      · rename_i t ht
        cases h
        obtain ⟨hm, hn⟩ := kin_momentum ha
        have h0 : GenInv Es (Spec.momentum Es (Ek + Es))
            { W := Ek + Es, gamma := a.gamma, beta := a.beta, fy := fy0, kfac := a.k, M := 1, lon := 1 } :=
          ⟨hm, hn, OnlyT.one, OnlyL.one, by rw [div_self hn]; exact Damp.one, Damp.one⟩
        have hi := foldE_inv (fun P b b' => genStep_inv P b b') _ _ _ ht h0
        refine ⟨a, t, ha, ht, ?_⟩
        rw [combine_eq hi.onlyT hi.onlyL]
        have := hi.dampT.mul hi.dampL
        rwa [mul_one] at this

/-! ## two gaps -/

/-- Positions of the accelerating gaps of a lattice that begins at `s`. -/
def gapsAt : ℝ → List RawParams → List ℝ
  | _, [] => []
  | s, P :: l => if P.type = "AccGap" then (s + P.length) :: gapsAt (s + P.length) l else gapsAt (s + P.length) l

open Classical in
theorem transStep_inv {mpole : Nat} {Z scl Rm lam r : ℝ} {a b c : Kin} {q : RawParams × ℝ × Line} {t t' : Trans}
    (h : transStep mpole Z scl Rm lam a b c q t = .ok t') (hT : OnlyT t.M) (hD : Damp r t.M) :
    OnlyT t'.M ∧ Damp ((if q.1.type = "AccGap" then q.2.2.Accel else 1) * r) t'.M := by
  have keep : ∀ {E : Mat}, OnlyT E → Damp 1 E → OnlyT (E * t.M) ∧ Damp (1 * r) (E * t.M) :=
    fun h1 h2 => ⟨h1.mul hT, h2.mul hD⟩
  have same : OnlyT t.M ∧ Damp (1 * r) t.M := ⟨hT, by rwa [one_mul]⟩
  have one : q.1.type ≠ "AccGap" → (if q.1.type = "AccGap" then q.2.2.Accel else 1) = 1 := fun h => if_neg h
  unfold transStep at h
  dsimp only at h
  split at h
  · rename_i e; cases h; rw [e, if_neg (by decide)]; exact keep (driftT_only _) (driftT_damp _)
  · rename_i e; cases h; rw [e, if_neg (by decide)]; exact keep (focusT_only _ _) (focusT_damp _ _)
  · rename_i e; cases h; rw [e, if_neg (by decide)]; exact keep (focusT_only _ _) (focusT_damp _ _)
  · rename_i e; have ne := one (by rw [e]; decide)
    cases h; rw [ne]; split
    · exact keep (kickT_only _) (kickT_damp _)
    · exact same
  · rename_i e; have ne := one (by rw [e]; decide)
    cases h; rw [ne]; split
    · exact keep (focusT_only _ _) (focusT_damp _ _)
    · exact same
  · rename_i e; have ne := one (by rw [e]; decide)
    cases h; rw [ne]; split
    · exact keep (focusT_only _ _) (focusT_damp _ _)
    · exact same
  · rename_i e; have ne := one (by rw [e]; decide)
    cases h; rw [ne]; split
    · exact keep (kickT_only _) (kickT_damp _)
    · exact same
  · rename_i e; have ne := one (by rw [e]; decide)
    cases h; rw [ne]; split
    · exact keep (focusT_only _ _) (focusT_damp _ _)
    · exact same
  · rename_i e
    split at h
    · cases h
    · cases h; rw [e, if_pos rfl]; exact ⟨(accelT_only _).mul hT, (accelT_damp _).mul hD⟩
  · cases h

theorem transFold_inv {mpole : Nat} {Z scl Rm lam : ℝ} {a b c : Kin} (l : List (RawParams × ℝ × Line)) {r : ℝ} {t t' : Trans}
    (h : foldE (transStep mpole Z scl Rm lam a b c) l t = .ok t') (hT : OnlyT t.M) (hD : Damp r t.M) :
    OnlyT t'.M ∧ Damp ((l.map (fun q => if q.1.type = "AccGap" then q.2.2.Accel else 1)).prod * r) t'.M := by
  induction l generalizing t r with
  | nil => cases h; exact ⟨hT, by simpa using hD⟩
  | cons q l ih =>
    rw [foldE] at h
    split at h
    · cases h
    · rename_i u hu
      obtain ⟨h1, h2⟩ := transStep_inv hu hT hD
      obtain ⟨h3, h4⟩ := ih h h1 h2
      refine ⟨h3, ?_⟩
      rw [List.map_cons, List.prod_cons]
      convert h4 using 1
      ring

open Classical in
theorem linesFrom_accel {cav : Cav} {k0 k1 : ℝ} {a b c : Kin} (l : List RawParams) {s : ℝ} {r : List (RawParams × ℝ × Line)}
    (h : linesFrom cav k0 k1 a b c s l = .ok r) :
    (r.map (fun q => if q.1.type = "AccGap" then q.2.2.Accel else 1)).prod =
      ((gapsAt s l).map (fun s => if s < 0 then a.beta * a.gamma / (b.beta * b.gamma)
        else b.beta * b.gamma / (c.beta * c.gamma))).prod := by
  induction l generalizing s r with
  | nil => cases h; simp [gapsAt]
  | cons P l ih =>
    rw [linesFrom] at h
    split at h
    · cases h
    · rename_i x hx
      split at h
      · cases h
      · rename_i r' hr
        cases h
        rw [List.map_cons, List.prod_cons, ih hr, gapsAt]
        dsimp only
        by_cases hP : P.type = "AccGap"
        · rw [if_pos hP, if_pos hP, List.map_cons, List.prod_cons]
          congr 1
          unfold lineOf at hx
          simp only [hP] at hx
          cases hx
          rfl
        · rw [if_neg hP, if_neg hP, one_mul]

theorem lonM_only (Z Es dis lam : ℝ) (a b c : Kin) (g1 g2 : Gap) (fy1 fy2 : ℝ) :
    OnlyL (lonM Z Es dis lam a b c g1 g2 fy1 fy2) ∧ Damp 1 (lonM Z Es dis lam a b c g1 g2 fy1 fy2) := by
  have m : ∀ {A B : Mat}, OnlyL A ∧ Damp 1 A → OnlyL B ∧ Damp 1 B → OnlyL (A * B) ∧ Damp 1 (A * B) :=
    fun h1 h2 => ⟨h1.1.mul h2.1, by have := h1.2.mul h2.2; rwa [one_mul] at this⟩
  exact m ⟨driftL_only _, driftL_damp _⟩ (m ⟨kickL_only _, kickL_damp _⟩ (m ⟨driftL_only _, driftL_damp _⟩
    (m ⟨kickL_only _, kickL_damp _⟩ ⟨driftL_only _, driftL_damp _⟩)))

/-- C62, cavities with two gaps: the same, if the lattice has one gap before and one gap behind the middle; `W2` is the energy
behind the second gap. -/
theorem C62_twogap {cav : Cav} {label : Nat} {Rm Z Es scl fy0 Ek : ℝ} {M : Mat}
    (h : getCavMat cav label Rm Z Es scl fy0 Ek = .ok M) {s1 s2 : ℝ}
    (hg : gapsAt ((cav.cavData.rows.map (·.getD 0 0)).headD 0) cav.lattice = [s1, s2]) (h1 : s1 < 0) (h2 : 0 ≤ s2) :
    ∃ a b c g1 g2 W1 W2 fy1 fy2, let lam := C0 / cav.fRF * MtoMM
      kin Es (Ek + Es) lam = .ok a ∧
      transFacts cav.forcettfcalc cav.cavData label a.beta a.k 1 scl = .ok g1 ∧
      evalGapModel (extent cav.cavData / 2) (Ek + Es) Z Es fy0 a.k lam g1 = .ok (W1, b, fy1) ∧
      transFacts cav.forcettfcalc cav.cavData label b.beta b.k 2 scl = .ok g2 ∧
      evalGapModel (extent cav.cavData / 2) W1 Z Es fy1 b.k lam g2 = .ok (W2, c, fy2) ∧
      Damp (Spec.momentum Es (Ek + Es) / Spec.momentum Es W2) M := by
  unfold getCavMat at h
  dsimp only at h
  split at h
  · cases h
  rename_i a ha
  split at h
  · cases h
  rename_i g1 hg1
  split at h
  · cases h
  rename_i W1 b fy1 he1
  split at h
  · cases h
  rename_i g2 hg2
  split at h
  · cases h
  rename_i W2 c fy2 he2
  split at h
  · cases h
  rename_i lines hl
  split at h
  · cases h
  rename_i t ht
  cases h
  refine ⟨a, b, c, g1, g2, W1, W2, fy1, fy2, ha, hg1, he1, hg2, he2, ?_⟩
  obtain ⟨hT, hD⟩ := transFold_inv lines ht OnlyT.one Damp.one
  obtain ⟨hL, hDL⟩ := lonM_only Z Es (extent cav.cavData / 2) (C0 / cav.fRF * MtoMM) a b c
    { g1 with Ecen := g1.Ecen - extent cav.cavData / 2 } g2 fy0 fy1
  rw [combine_eq hT hL]
  have hM := hD.mul hDL
  convert hM using 1
  unfold getCavMatParams at hl
  split at hl
  · cases hl
  rw [linesFrom_accel _ hl]
  rw [show positions cav.cavData = cav.cavData.rows.map (·.getD 0 0) from rfl, hg]
  have kb : kin Es W1 (C0 / cav.fRF * MtoMM) = .ok b := by
    unfold evalGapModel at he1
    dsimp only at he1
    split at he1
    · cases he1
    · rename_i q hq; cases he1; exact hq
  have kc : kin Es W2 (C0 / cav.fRF * MtoMM) = .ok c := by
    unfold evalGapModel at he2
    dsimp only at he2
    split at he2
    · cases he2
    · rename_i q hq; cases he2; exact hq
  obtain ⟨ma, na⟩ := kin_momentum ha
  obtain ⟨mb, nb⟩ := kin_momentum kb
  obtain ⟨mc, nc⟩ := kin_momentum kc
  simp only [List.map_cons, List.map_nil, List.prod_cons, List.prod_nil, if_pos h1, if_neg (not_lt.mpr h2), ma, mb, mc]
  field_simp

end Flame.Cavity
