import Verif.Sext.SpecSlices
import Verif.Cavity.Split

/-! # Sextupoles cut between their slices (C103) -/

namespace Flame.Sext

open Flame.Moment
open Flame.Mach (Err St Elem Machine CView propagate Run run propagate_eq sizeMod)
open Flame.Linear (LCfg LVal getNum getNumD)
open Flame.Moment.Spec (numOr)
open Flame.Cavity (MadeFrom Together run_together sameBeam_iff name_inj name_ne drifted_add cavityCls)
open Flame.Cavity.Spec (SameBeam)
open Flame.Sext.Spec

/-! ## the loop over the slices -/

theorem loop_add (p : Particle) (dL K : ℝ) (thin dst : Bool) (n : ℕ) : ∀ (m : ℕ) (x : Vec × Mat × Mat × Mat),
    sextLoop p dL K thin dst (m + n) x = sextLoop p dL K thin dst n (sextLoop p dL K thin dst m x)
  | 0, x => by rw [Nat.zero_add]; rfl
  | m + 1, (v, S, X, T) => by
    rw [Nat.add_right_comm]
    simp only [sextLoop]
    exact loop_add p dL K thin dst n m _

/-- The reported matrix does not matter for the beam. -/
theorem loop_report (p : Particle) (dL K : ℝ) (thin dst : Bool) : ∀ (n : ℕ) (v : Vec) (S X X' T : Mat),
    (sextLoop p dL K thin dst n (v, S, X, T)).1 = (sextLoop p dL K thin dst n (v, S, X', T)).1 ∧
    (sextLoop p dL K thin dst n (v, S, X, T)).2.1 = (sextLoop p dL K thin dst n (v, S, X', T)).2.1
  | 0, _, _, _, _, _ => ⟨rfl, rfl⟩
  | n + 1, v, S, X, X', T => by
    simp only [sextLoop]
    exact loop_report p dL K thin dst n _ _ _ _ _

/-- The matrices that the loop has when it starts or after some turns: the identity except in the entries that are set. -/
def Kept (dst : Bool) (T : Mat) : Prop :=
  ∀ i j : Fin 7, ¬ ((i : ℕ) < 4 ∧ (j : ℕ) < 4) → ¬ (i = 4 ∧ j = 5) → ¬ (dst = true ∧ (i = 1 ∨ i = 3) ∧ j = 6) → T i j = (1 : Mat) i j

theorem kept_one (dst : Bool) : Kept dst 1 := fun _ _ _ _ _ => rfl

theorem kept_set {dst : Bool} {T : Mat} (h : Kept dst T) {i j : Fin 7} (x : ℝ)
    (hij : ((i : ℕ) < 4 ∧ (j : ℕ) < 4) ∨ (i = 4 ∧ j = 5) ∨ (dst = true ∧ (i = 1 ∨ i = 3) ∧ j = 6)) : Kept dst (setAt T i j x) := by
  intro a b h1 h2 h3
  unfold setAt
  rw [if_neg, h a b h1 h2 h3]
  rintro ⟨rfl, rfl⟩
  rcases hij with e | e | e
  · exact h1 e
  · exact h2 e
  · exact h3 e

theorem kept_turn {dst : Bool} {T : Mat} (h : Kept dst T) (L K Dx Dy D2x D2y D2xy s : ℝ) :
    Kept dst (setAt (sextM L K Dx Dy D2x D2y D2xy false dst T) 4 5 s) := by
  refine kept_set ?_ s (.inr (.inl ⟨rfl, rfl⟩))
  unfold sextM
  dsimp only
  have key : ∀ M : Mat, Kept dst M → Kept dst (if dst = true then setAt (setAt M 1 6 (-K * L * (D2x - D2y))) 3 6 (2 * K * L * D2xy) else M) := by
    intro M hM
    split
    · rename_i e
      exact kept_set (kept_set hM _ (.inr (.inr ⟨e, by decide, rfl⟩))) _ (.inr (.inr ⟨e, by decide, rfl⟩))
    · exact hM
  apply key
  simp only [Bool.false_eq_true, if_false]
  split
  · repeat' (first | exact h | refine kept_set ?_ _ (.inl (by decide)))
  · repeat' (first | exact h | refine kept_set ?_ _ (.inl (by decide)))

theorem kept_loop (p : Particle) (dL K : ℝ) (dst : Bool) : ∀ (n : ℕ) (v : Vec) (S X T : Mat), Kept dst T →
    Kept dst (sextLoop p dL K false dst n (v, S, X, T)).2.2.2
  | 0, _, _, _, _, h => h
  | n + 1, v, S, X, T, h => by
    simp only [sextLoop]
    exact kept_loop p dL K dst n _ _ _ _ (kept_turn h _ _ _ _ _ _ _ _)

/-- A turn overwrites what the turns before it have left, if the beam is off axis. -/
theorem turn_fresh {dst : Bool} {T : Mat} (h : Kept dst T) (L K Dx Dy D2x D2y D2xy s : ℝ) (hD : K * Dx ≠ 0) :
    setAt (sextM L K Dx Dy D2x D2y D2xy false dst T) 4 5 s = setAt (sextM L K Dx Dy D2x D2y D2xy false dst 1) 4 5 s := by
  have hK : K ≠ 0 := fun e => hD (by rw [e, zero_mul])
  have hx : Dx ≠ 0 := fun e => hD (by rw [e, mul_zero])
  have hq : Real.sqrt (|K| * Real.sqrt (Dx * Dx + Dx * Dx)) ≠ 0 := by
    have : 0 < Dx * Dx + Dx * Dx := by nlinarith [mul_self_pos.2 hx]
    exact (Real.sqrt_pos.2 (mul_pos (abs_pos.2 hK) (Real.sqrt_pos.2 this))).ne'
  unfold sextM
  dsimp only
  rw [if_pos hq, if_pos hq]
  simp only [Bool.false_eq_true, if_false]
  funext i j
  cases dst with
  | true =>
    simp only [if_true]
    by_cases c1 : (i : ℕ) < 4 ∧ (j : ℕ) < 4
    · obtain ⟨i, hi⟩ := i
      obtain ⟨j, hj⟩ := j
      dsimp only at c1
      obtain ⟨a, b⟩ := c1
      interval_cases i <;> interval_cases j <;> simp [setAt]
    · by_cases c2 : i = 4 ∧ j = 5
      · obtain ⟨rfl, rfl⟩ := c2
        simp [setAt]
      · by_cases c3 : (i = 1 ∨ i = 3) ∧ j = 6
        · obtain ⟨rfl | rfl, rfl⟩ := c3 <;> simp [setAt]
        · have e := h i j c1 c2 (fun e => c3 e.2)
          simp only [setAt, e]
  | false =>
    simp only [Bool.false_eq_true, if_false]
    by_cases c1 : (i : ℕ) < 4 ∧ (j : ℕ) < 4
    · obtain ⟨i, hi⟩ := i
      obtain ⟨j, hj⟩ := j
      dsimp only at c1
      obtain ⟨a, b⟩ := c1
      interval_cases i <;> interval_cases j <;> simp [setAt]
    · by_cases c2 : i = 4 ∧ j = 5
      · obtain ⟨rfl, rfl⟩ := c2
        simp [setAt]
      · have e := h i j c1 c2 (by simp)
        simp only [setAt, e]

/-- The same for a sextupole that is switched off. -/
def KeptOff (T : Mat) : Prop :=
  ∀ i j : Fin 7, ¬ (i = 0 ∧ j = 1) → ¬ (i = 2 ∧ j = 3) → ¬ (i = 4 ∧ j = 5) → T i j = (1 : Mat) i j

theorem off_eq (T : Mat) (L Dx Dy D2x D2y D2xy s : ℝ) (dst : Bool) (h : KeptOff T) :
    setAt (sextM L 0 Dx Dy D2x D2y D2xy false dst T) 4 5 s = setAt (sextM L 0 Dx Dy D2x D2y D2xy false dst 1) 4 5 s ∧
    KeptOff (setAt (sextM L 0 Dx Dy D2x D2y D2xy false dst T) 4 5 s) := by
  have e : ∀ T : Mat, sextM L 0 Dx Dy D2x D2y D2xy false dst T =
      if dst = true then setAt (setAt (setAt (setAt T 0 1 L) 2 3 L) 1 6 0) 3 6 0 else setAt (setAt T 0 1 L) 2 3 L := by
    intro T
    unfold sextM
    simp
  rw [e, e]
  have h16 := h 1 6 (by decide) (by decide) (by decide)
  have h36 := h 3 6 (by decide) (by decide) (by decide)
  constructor
  · funext i j
    by_cases c1 : i = 0 ∧ j = 1
    · obtain ⟨rfl, rfl⟩ := c1
      cases dst <;> simp [setAt]
    · by_cases c2 : i = 2 ∧ j = 3
      · obtain ⟨rfl, rfl⟩ := c2
        cases dst <;> simp [setAt]
      · by_cases c3 : i = 4 ∧ j = 5
        · obtain ⟨rfl, rfl⟩ := c3
          cases dst <;> simp [setAt]
        · have := h i j c1 c2 c3
          cases dst <;> simp only [setAt, this, if_true, Bool.false_eq_true, if_false]
  · intro i j c1 c2 c3
    have := h i j c1 c2 c3
    cases dst with
    | false => simp only [setAt, Bool.false_eq_true, if_false, if_neg c1, if_neg c2, if_neg c3, this]
    | true =>
      simp only [setAt, if_true, if_neg c1, if_neg c2, if_neg c3, this]
      by_cases c4 : i = 3 ∧ j = 6
      · obtain ⟨rfl, rfl⟩ := c4
        simp
      · by_cases c5 : i = 1 ∧ j = 6
        · obtain ⟨rfl, rfl⟩ := c5
          simp
        · rw [if_neg c4, if_neg c5]

theorem kept_off (p : Particle) (dL : ℝ) (dst : Bool) : ∀ (n : ℕ) (v : Vec) (S X T : Mat), KeptOff T →
    KeptOff (sextLoop p dL 0 false dst n (v, S, X, T)).2.2.2
  | 0, _, _, _, _, h => h
  | n + 1, v, S, X, T, h => by
    simp only [sextLoop]
    exact kept_off p dL dst n _ _ _ _ (off_eq _ _ _ _ _ _ _ _ _ h).2

/-- What is left of the slices before does not matter for a thin lens, nor for a thick one if the beam is off axis. -/
theorem loop_fresh (p : Particle) (dL K : ℝ) (thin dst : Bool) (n : ℕ) (v : Vec) (S X X' T : Mat)
    (h : thin = true ∨ (thin = false ∧ K = 0 ∧ KeptOff T) ∨ (thin = false ∧ Kept dst T ∧ K * v 0 ≠ 0)) :
    (sextLoop p dL K thin dst n (v, S, X, T)).1 = (sextLoop p dL K thin dst n (v, S, X', 1)).1 ∧
    (sextLoop p dL K thin dst n (v, S, X, T)).2.1 = (sextLoop p dL K thin dst n (v, S, X', 1)).2.1 := by
  cases n with
  | zero => exact ⟨rfl, rfl⟩
  | succ n =>
    simp only [sextLoop]
    rcases h with rfl | ⟨rfl, rfl, h1⟩ | ⟨rfl, h1, h2⟩
    · exact loop_report ..
    · rw [(off_eq _ _ _ _ _ _ _ _ _ h1).1]
      exact loop_report ..
    · rw [turn_fresh h1 _ _ _ _ _ _ _ _ h2]
      exact loop_report ..

/-! ## one charge state -/

/-- What a sextupole of `n` slices that is moved by `R` does. -/
noncomputable def through (R : Mat) (p : Particle) (dL K : ℝ) (thin dst : Bool) (n : ℕ) (v : Vec) (S : Mat) : Vec × Mat × Mat :=
  let r := sextLoop p dL K thin dst n (R.mulVec v, Moment.congr R S, 1, 1)
  (R⁻¹.mulVec r.1, Moment.congr R⁻¹ r.2.1, R⁻¹ * (r.2.2.1 * R))

theorem steps_nat (n : ℕ) : toSteps (n : ℝ) = n := by
  unfold toSteps
  rw [Int.floor_natCast]
  rfl

theorem one_upright (d : MDat) (B3 L : ℝ) (n : ℕ) (thin dst : Bool) (ref p : Particle) (v : Vec) (S : Mat) (h1 : d.pitch = 0) (h2 : d.yaw = 0) :
    (unitZ p ≠ 0 ∧ unitP ref p ≠ 0 → sextOne d B3 L n thin dst ref p v S =
      .ok (through (rotMat d.dx d.dy 0 0 d.roll) p (L / n) (B3 / p.Brho / (MtoMM * MtoMM * MtoMM)) thin dst n v S)) ∧
    (¬ (unitZ p ≠ 0 ∧ unitP ref p ≠ 0) → ∃ e, sextOne d B3 L n thin dst ref p v S = .error e) := by
  constructor
  · rintro ⟨hz, hp⟩
    unfold sextOne
    rw [getMisalign_roll d ref p h1 h2 hz hp, steps_nat]
    rfl
  · intro h
    unfold sextOne
    cases he : getMisalign d ref p with
    | error e => exact ⟨e, rfl⟩
    | ok r => exact absurd (getMisalign_ok he) h

theorem congr_congr (A B S : Mat) : Moment.congr A (Moment.congr B S) = Moment.congr (A * B) S := by
  unfold Moment.congr
  rw [Matrix.transpose_mul]
  simp only [Matrix.mul_assoc]

theorem congr_one (S : Mat) : Moment.congr 1 S = S := by
  unfold Moment.congr
  rw [Matrix.transpose_one, Matrix.one_mul, Matrix.mul_one]

/-- Two parts do what the whole does. -/
theorem through_cut {R : Mat} (hR : R * R⁻¹ = 1) (p : Particle) (x : ℝ) (dL K : ℝ) (thin dst : Bool) (m n : ℕ) (v : Vec) (S : Mat)
    (h : thin = true ∨ R.mulVec (through R p dL K thin dst m v S).1 0 ≠ 0) :
    (through R p dL K thin dst (m + n) v S).1 =
      (through R { p with phis := x } dL K thin dst n (through R p dL K thin dst m v S).1 (through R p dL K thin dst m v S).2.1).1 ∧
    (through R p dL K thin dst (m + n) v S).2.1 =
      (through R { p with phis := x } dL K thin dst n (through R p dL K thin dst m v S).1 (through R p dL K thin dst m v S).2.1).2.1 := by
  have hph : ∀ (n : ℕ) (q : Vec × Mat × Mat × Mat), sextLoop { p with phis := x } dL K thin dst n q = sextLoop p dL K thin dst n q := by
    intro n
    induction n with
    | zero => exact fun _ => rfl
    | succ n ih =>
      rintro ⟨v, S, X, T⟩
      simp only [sextLoop]
      exact ih _
  have e1 : R.mulVec (through R p dL K thin dst m v S).1 = (sextLoop p dL K thin dst m (R.mulVec v, Moment.congr R S, 1, 1)).1 := by
    unfold through
    dsimp only
    rw [Matrix.mulVec_mulVec, hR, Matrix.one_mulVec]
  have e2 : Moment.congr R (through R p dL K thin dst m v S).2.1 = (sextLoop p dL K thin dst m (R.mulVec v, Moment.congr R S, 1, 1)).2.1 := by
    unfold through
    dsimp only
    rw [congr_congr, hR, congr_one]
  rw [e1] at h
  have hk : thin = true ∨ (thin = false ∧ K = 0 ∧ KeptOff (sextLoop p dL K thin dst m (R.mulVec v, Moment.congr R S, 1, 1)).2.2.2) ∨
      (thin = false ∧ Kept dst (sextLoop p dL K thin dst m (R.mulVec v, Moment.congr R S, 1, 1)).2.2.2 ∧
      K * (sextLoop p dL K thin dst m (R.mulVec v, Moment.congr R S, 1, 1)).1 0 ≠ 0) := by
    cases thin with
    | true => exact .inl rfl
    | false =>
      by_cases hK : K = 0
      · subst hK
        exact .inr (.inl ⟨rfl, rfl, kept_off _ _ _ _ _ _ _ _ fun _ _ _ _ _ => rfl⟩)
      · exact .inr (.inr ⟨rfl, kept_loop _ _ _ _ _ _ _ _ _ (kept_one dst), mul_ne_zero hK (by simpa using h)⟩)
  have f := loop_fresh p dL K thin dst n _ (sextLoop p dL K thin dst m (R.mulVec v, Moment.congr R S, 1, 1)).2.1
    (sextLoop p dL K thin dst m (R.mulVec v, Moment.congr R S, 1, 1)).2.2.1 1 _ hk
  unfold through at e1 e2 ⊢
  dsimp only at e1 e2 ⊢
  rw [e1, e2, hph, loop_add]
  exact ⟨congrArg _ f.1, congrArg _ f.2⟩

/-! ## all charge states -/

theorem each_ok {α β : Type} {f : α → Except Err β} {g : α → β} {l : List α} (h : ∀ q ∈ l, f q = .ok (g q)) : forEach f l = .ok (l.map g) := by
  refine forEach_ok.2 ?_
  rw [List.forall₂_map_right_iff, List.forall₂_same]
  exact h

theorem each_error {α β : Type} {f : α → Except Err β} {l : List α} (h : ∃ q ∈ l, ∃ e, f q = .error e) : ∃ e, forEach f l = .error e := by
  cases he : forEach f l with
  | error e => exact ⟨e, rfl⟩
  | ok r =>
    obtain ⟨q, hq, e, hf⟩ := h
    have hF := forEach_ok.1 he
    clear he
    exfalso
    induction hF with
    | nil => cases hq
    | cons hd _ ih =>
      rcases List.mem_cons.1 hq with rfl | hq
      · rw [hf] at hd
        cases hd
      · exact ih hq

theorem zip_through {α β γ : Type} (f : α → α) (g : α × β → γ) : ∀ (l : List α) (m : List β),
    (l.map f).zip ((l.zip m).map g) = (l.zip m).map (fun q => (f q.1, g q))
  | [], _ => rfl
  | a :: l, [] => by simp
  | a :: l, b :: m => by
    simp only [List.map_cons, List.zip_cons_cons]
    rw [zip_through f g l m]

/-- What the whole and the parts have in common. -/
structure Cut (d a b : MDat) (B3 x : ℝ) (m n : ℕ) (thin dst : Bool) : Prop where
  place : SamePlace d a b
  field : getNum d.conf "B3" = .ok B3 ∧ getNum a.conf "B3" = .ok B3 ∧ getNum b.conf "B3" = .ok B3
  long : getNum d.conf "L" = .ok ((m + n) * x) ∧ getNum a.conf "L" = .ok (m * x) ∧ getNum b.conf "L" = .ok (n * x)
  length : d.length = (m + n) * x ∧ a.length = m * x ∧ b.length = n * x
  steps : toSteps (getNumD d.conf "step" 1) = m + n ∧ toSteps (getNumD a.conf "step" 1) = m ∧ toSteps (getNumD b.conf "step" 1) = n
  thin : decide (getNumD d.conf "thinlens" 0 = 1) = thin ∧ decide (getNumD a.conf "thinlens" 0 = 1) = thin ∧
    decide (getNumD b.conf "thinlens" 0 = 1) = thin
  kick : decide (getNumD d.conf "dstkick" 1 = 1) = dst ∧ decide (getNumD a.conf "dstkick" 1 = 1) = dst ∧
    decide (getNumD b.conf "dstkick" 1 = 1) = dst

/-- A sextupole that is not inclined: its result. -/
theorem sext_upright {d : MDat} {B3 L0 : ℝ} {n : ℕ} {thin dst : Bool} (h1 : d.pitch = 0) (h2 : d.yaw = 0) (hB : getNum d.conf "B3" = .ok B3)
    (hL : getNum d.conf "L" = .ok L0) (hn : toSteps (getNumD d.conf "step" 1) = n) (ht : decide (getNumD d.conf "thinlens" 0 = 1) = thin)
    (hk : decide (getNumD d.conf "dstkick" 1 = 1) = dst) (s : St MSt) (hr : s.retreat = false) :
    ((∀ q ∈ s.payload.recalc.real.zip (s.payload.recalc.moment0.zip s.payload.recalc.moment1), unitZ q.1 ≠ 0 ∧ unitP s.payload.recalc.ref q.1 ≠ 0) →
      (advanceSext d s).2.2 = none ∧ (advanceSext d s).2.1.payload =
        { s.payload.recalc with
          ref := s.payload.recalc.ref.recalc.drifted false d.length
          real := s.payload.recalc.real.map (fun p : Particle => p.recalc.drifted false d.length)
          pos := s.payload.recalc.pos + d.length
          moment0 := (s.payload.recalc.real.zip (s.payload.recalc.moment0.zip s.payload.recalc.moment1)).map (fun q : Particle × Vec × Mat =>
            (through (rotMat d.dx d.dy 0 0 d.roll) q.1 (L0 * MtoMM / n) (B3 / q.1.Brho / (MtoMM * MtoMM * MtoMM)) thin dst n q.2.1 q.2.2).1)
          moment1 := (s.payload.recalc.real.zip (s.payload.recalc.moment0.zip s.payload.recalc.moment1)).map (fun q : Particle × Vec × Mat =>
            (through (rotMat d.dx d.dy 0 0 d.roll) q.1 (L0 * MtoMM / n) (B3 / q.1.Brho / (MtoMM * MtoMM * MtoMM)) thin dst n q.2.1 q.2.2).2.1)
          transmat := (advanceSext d s).2.1.payload.transmat }.calcRms) ∧
    ((¬ ∀ q ∈ s.payload.recalc.real.zip (s.payload.recalc.moment0.zip s.payload.recalc.moment1), unitZ q.1 ≠ 0 ∧ unitP s.payload.recalc.ref q.1 ≠ 0) →
      (advanceSext d s).2.2 ≠ none) := by
  unfold advanceSext
  rw [hB, hL, hn, hr]
  dsimp only
  have ht' : @decide (getNumD d.conf "thinlens" 0 = 1) (Classical.propDecidable _) = thin := by rw [← ht]
  have hk' : @decide (getNumD d.conf "dstkick" 1 = 1) (Classical.propDecidable _) = dst := by rw [← hk]
  rw [ht', hk']
  generalize s.payload.recalc = S
  simp only [Bool.false_eq_true, if_false]
  constructor
  · intro hU
    rw [each_ok (g := fun q => through (rotMat d.dx d.dy 0 0 d.roll) q.1 (L0 * MtoMM / n) (B3 / q.1.Brho / (MtoMM * MtoMM * MtoMM)) thin dst n q.2.1 q.2.2)
      (fun q hq => (one_upright { d with refIn := some S.ref, realIn := S.real, transfer := resize S.real.length d.transfer } _ _ n _ _ _ _ _ _ h1 h2).1 (hU q hq))]
    refine ⟨rfl, ?_⟩
    simp only [List.map_map]
    rfl
  · intro hU
    simp only [not_forall] at hU
    obtain ⟨q, hq, hu⟩ := hU
    obtain ⟨e, he⟩ := each_error (f := fun q : Particle × Vec × Mat => sextOne { d with refIn := some S.ref, realIn := S.real, transfer := resize S.real.length d.transfer }
      B3 (L0 * MtoMM) n thin dst S.ref q.1 q.2.1 q.2.2) (l := S.real.zip (S.moment0.zip S.moment1))
      ⟨q, hq, (one_upright _ _ _ n _ _ _ _ _ _ h1 h2).2 hu⟩
    rw [he]
    nofun

theorem rot_inv (d : MDat) : rotMat d.dx d.dy 0 0 d.roll * (rotMat d.dx d.dy 0 0 d.roll)⁻¹ = 1 := (rotMat_inv d.dx d.dy 0 0 d.roll).2

theorem sext_cut {d a b : MDat} {B3 x : ℝ} {m n : ℕ} {thin dst : Bool} (h : Cut d a b B3 x m n thin dst) (hm : 0 < m) (hn : 0 < n)
    (s s' s'' : St MSt) (hr : s.retreat = false) (hr' : s'.retreat = false) (hr'' : s''.retreat = false)
    (hR : SameBeam s.payload s'.payload) (hs : s''.payload = (advanceSext a s').2.1.payload)
    (hc : thin = true ∨ ∀ v ∈ (advanceSext a s').2.1.payload.moment0, (rotMat d.dx d.dy 0 0 d.roll).mulVec v 0 ≠ 0) :
    ((advanceSext d s).2.2 = none ↔ (advanceSext a s').2.2 = none ∧ (advanceSext b s'').2.2 = none) ∧
    ((advanceSext d s).2.2 = none → SameBeam (advanceSext d s).2.1.payload (advanceSext b s'').2.1.payload) := by
  obtain ⟨d1, d2⟩ := sext_upright h.place.pitch.1 h.place.yaw.1 h.field.1 h.long.1 h.steps.1 h.thin.1 h.kick.1 s hr
  obtain ⟨a1, a2⟩ := sext_upright h.place.pitch.2.1 h.place.yaw.2.1 h.field.2.1 h.long.2.1 h.steps.2.1 h.thin.2.1 h.kick.2.1 s' hr'
  obtain ⟨b1, b2⟩ := sext_upright h.place.pitch.2.2 h.place.yaw.2.2 h.field.2.2 h.long.2.2 h.steps.2.2 h.thin.2.2 h.kick.2.2 s'' hr''
  obtain ⟨Y, hY⟩ := sameBeam_iff.1 hR
  have e3 : s'.payload.recalc = { s.payload.recalc with transmat := Y } := by rw [hY]; rfl
  rw [e3] at a1 a2
  have hrr : s.payload.recalc.ref.recalc = s.payload.recalc.ref := rfl
  have hrl : ∀ p ∈ s.payload.recalc.real, p.recalc = p := by
    intro p hp
    simp only [MSt.recalc, List.mem_map] at hp
    obtain ⟨q, -, rfl⟩ := hp
    rfl
  clear e3 hY hR
  generalize s.payload.recalc = S at d1 d2 a1 a2 hrr hrl
  dsimp only at a1 a2
  by_cases hU : ∀ q ∈ S.real.zip (S.moment0.zip S.moment1), unitZ q.1 ≠ 0 ∧ unitP S.ref q.1 ≠ 0
  · obtain ⟨d3, d4⟩ := d1 hU
    obtain ⟨a3, a4⟩ := a1 hU
    rw [a4] at hs hc
    rw [a3, d3]
    have e1 : (m * x * MtoMM / m : ℝ) = x * MtoMM := by
      have : (m : ℝ) ≠ 0 := by positivity
      field_simp
    have e2 : (n * x * MtoMM / n : ℝ) = x * MtoMM := by
      have : (n : ℝ) ≠ 0 := by positivity
      field_simp
    have e0 : ((m + n) * x * MtoMM / ((m + n : ℕ) : ℝ) : ℝ) = x * MtoMM := by
      have : (m : ℝ) + n ≠ 0 := by positivity
      push_cast
      field_simp
    rw [e1] at hs hc
    rw [e0] at d4
    rw [e2] at b1
    rw [h.place.dx.1, h.place.dy.1, h.place.roll.1] at hs hc
    rw [h.place.dx.2, h.place.dy.2, h.place.roll.2] at b1
    have hRi := rot_inv d
    generalize rotMat d.dx d.dy 0 0 d.roll = R at *
    have hre : s''.payload.recalc = s''.payload := by
      rw [hs]
      unfold MSt.recalc MSt.calcRms
      dsimp only
      rw [List.map_map]
      rfl
    rw [hre] at b1 b2
    generalize (advanceSext a s').2.1.payload.transmat = Z at hs hc
    have k1 : s''.payload.ref = S.ref.recalc.drifted false a.length := by rw [hs]; rfl
    have k2 : s''.payload.real = S.real.map (fun p : Particle => p.recalc.drifted false a.length) := by rw [hs]; rfl
    have k3 : s''.payload.pos = S.pos + a.length := by rw [hs]; rfl
    have k4 : s''.payload.moment0 = (S.real.zip (S.moment0.zip S.moment1)).map (fun q : Particle × Vec × Mat =>
            (through R q.1 (x * MtoMM) (B3 / q.1.Brho / (MtoMM * MtoMM * MtoMM)) thin dst m q.2.1 q.2.2).1) := by rw [hs]; rfl
    have k5 : s''.payload.moment1 = (S.real.zip (S.moment0.zip S.moment1)).map (fun q : Particle × Vec × Mat =>
            (through R q.1 (x * MtoMM) (B3 / q.1.Brho / (MtoMM * MtoMM * MtoMM)) thin dst m q.2.1 q.2.2).2.1) := by rw [hs]; rfl
    have k6 : s''.payload.last_caviphi0 = S.last_caviphi0 := by rw [hs]; rfl
    rw [k1, k2, k3, k4, k5] at b1
    rw [← hs, k4] at hc
    have hzip : (S.real.map (fun p : Particle => p.recalc.drifted false a.length)).zip
        (((S.real.zip (S.moment0.zip S.moment1)).map (fun q : Particle × Vec × Mat =>
            (through R q.1 (x * MtoMM) (B3 / q.1.Brho / (MtoMM * MtoMM * MtoMM)) thin dst m q.2.1 q.2.2).1)).zip
          ((S.real.zip (S.moment0.zip S.moment1)).map (fun q : Particle × Vec × Mat =>
            (through R q.1 (x * MtoMM) (B3 / q.1.Brho / (MtoMM * MtoMM * MtoMM)) thin dst m q.2.1 q.2.2).2.1))) =
        (S.real.zip (S.moment0.zip S.moment1)).map (fun q : Particle × Vec × Mat => (q.1.recalc.drifted false a.length,
          ((through R q.1 (x * MtoMM) (B3 / q.1.Brho / (MtoMM * MtoMM * MtoMM)) thin dst m q.2.1 q.2.2).1,
          (through R q.1 (x * MtoMM) (B3 / q.1.Brho / (MtoMM * MtoMM * MtoMM)) thin dst m q.2.1 q.2.2).2.1))) := by
      rw [List.zip_map', zip_through (fun p : Particle => p.recalc.drifted false a.length)]
    rw [hzip] at b1
    have hreal : ∀ q ∈ S.real.zip (S.moment0.zip S.moment1), q.1 ∈ S.real := by
      rintro ⟨p, y⟩ hq
      exact (List.of_mem_zip hq).1
    obtain ⟨b3, b4⟩ := b1 (by
      intro q' hq'
      obtain ⟨q, hq, rfl⟩ := List.mem_map.1 hq'
      have := hU q hq
      dsimp only
      rw [hrr, hrl q.1 (hreal q hq)]
      exact this)
    rw [b3]
    refine ⟨by simp, fun _ => ?_⟩
    rw [List.map_map, List.map_map, List.map_map] at b4
    have hm0 : (S.real.zip (S.moment0.zip S.moment1)).map (fun q : Particle × Vec × Mat =>
        (through R q.1 (x * MtoMM) (B3 / q.1.Brho / (MtoMM * MtoMM * MtoMM)) thin dst (m + n) q.2.1 q.2.2).1) =
      (S.real.zip (S.moment0.zip S.moment1)).map ((fun q : Particle × Vec × Mat =>
        (through R q.1 (x * MtoMM) (B3 / q.1.Brho / (MtoMM * MtoMM * MtoMM)) thin dst n q.2.1 q.2.2).1) ∘
        fun q : Particle × Vec × Mat => (q.1.recalc.drifted false a.length,
          ((through R q.1 (x * MtoMM) (B3 / q.1.Brho / (MtoMM * MtoMM * MtoMM)) thin dst m q.2.1 q.2.2).1,
          (through R q.1 (x * MtoMM) (B3 / q.1.Brho / (MtoMM * MtoMM * MtoMM)) thin dst m q.2.1 q.2.2).2.1))) := by
      refine List.map_congr_left fun q hq => ?_
      show _ = (through R (q.1.recalc.drifted false a.length) (x * MtoMM) (B3 / (q.1.recalc.drifted false a.length).Brho / (MtoMM * MtoMM * MtoMM)) _ _ _ _ _).1
      rw [hrl q.1 (hreal q hq)]
      exact (through_cut hRi q.1 _ _ _ _ _ m n q.2.1 q.2.2 (hc.imp id fun h => h _ (List.mem_map.2 ⟨q, hq, rfl⟩))).1
    have hm1 : (S.real.zip (S.moment0.zip S.moment1)).map (fun q : Particle × Vec × Mat =>
        (through R q.1 (x * MtoMM) (B3 / q.1.Brho / (MtoMM * MtoMM * MtoMM)) thin dst (m + n) q.2.1 q.2.2).2.1) =
      (S.real.zip (S.moment0.zip S.moment1)).map ((fun q : Particle × Vec × Mat =>
        (through R q.1 (x * MtoMM) (B3 / q.1.Brho / (MtoMM * MtoMM * MtoMM)) thin dst n q.2.1 q.2.2).2.1) ∘
        fun q : Particle × Vec × Mat => (q.1.recalc.drifted false a.length,
          ((through R q.1 (x * MtoMM) (B3 / q.1.Brho / (MtoMM * MtoMM * MtoMM)) thin dst m q.2.1 q.2.2).1,
          (through R q.1 (x * MtoMM) (B3 / q.1.Brho / (MtoMM * MtoMM * MtoMM)) thin dst m q.2.1 q.2.2).2.1))) := by
      refine List.map_congr_left fun q hq => ?_
      show _ = (through R (q.1.recalc.drifted false a.length) (x * MtoMM) (B3 / (q.1.recalc.drifted false a.length).Brho / (MtoMM * MtoMM * MtoMM)) _ _ _ _ _).2.1
      rw [hrl q.1 (hreal q hq)]
      exact (through_cut hRi q.1 _ _ _ _ _ m n q.2.1 q.2.2 (hc.imp id fun h => h _ (List.mem_map.2 ⟨q, hq, rfl⟩))).2
    have hrl2 : S.real.map ((fun p : Particle => p.recalc.drifted false b.length) ∘ fun p : Particle => p.recalc.drifted false a.length) =
        S.real.map (fun p : Particle => p.recalc.drifted false d.length) := by
      rw [h.length.1, h.length.2.1, h.length.2.2, add_mul]
      exact List.map_congr_left fun p _ => drifted_add p _ _
    have href : (S.ref.recalc.drifted false a.length).recalc.drifted false b.length = S.ref.recalc.drifted false d.length := by
      rw [h.length.1, h.length.2.1, h.length.2.2, add_mul]
      exact drifted_add S.ref _ _
    have hpos : S.pos + a.length + b.length = S.pos + d.length := by
      rw [h.length.1, h.length.2.1, h.length.2.2]
      ring
    rw [← hm0, ← hm1, hrl2, href, hpos] at b4
    rw [d4, b4]
    generalize (advanceSext d s).2.1.payload.transmat = Z1
    generalize (advanceSext b s'').2.1.payload.transmat = Z2
    unfold SameBeam MSt.calcRms
    dsimp only
    rw [k6]
  · refine ⟨⟨fun h => absurd h (d2 hU), fun h => absurd h.1 (a2 hU)⟩, fun h => absurd h (d2 hU)⟩

/-! ## C103 -/

theorem steps_of {c : LCfg} {n : ℕ} (h : Steps c n) : toSteps (getNumD c "step" 1) = n := by
  unfold toSteps
  have : ⌊getNumD c "step" 1⌋ = (n : ℤ) := Int.floor_eq_iff.2 ⟨by exact_mod_cast h.1, by exact_mod_cast h.2⟩
  rw [this]
  rfl

/-- A sextupole among the elements of a machine. -/
theorem made_sext {env : Env} {files : Flame.Cavity.Files} {junk : Mat} {base : Nat} {cv : CView LCfg} {c : LCfg} {e : Elem LCfg MDat MSt}
    (hty : cv.str c "type" = .ok "sextupole") (h : MadeFrom env files junk base cv c e) :
    e.cls = cls env junk base .sextupole ∧ build env junk .sextupole c = .ok e.dat := by
  obtain ⟨ty', hty', h⟩ := h
  rw [hty] at hty'
  cases hty'
  rcases h with ⟨u, c1, c2, c3⟩ | ⟨c1, c2, c3⟩ | ⟨c1, c2, c3⟩
  · obtain rfl := name_inj (t := u) (u := .sextupole) c2
    exact ⟨c1, c3⟩
  · exact absurd c2 (by decide)
  · exact absurd c2 (by decide)

theorem parts_cut {env : Env} {junk : Mat} {c ca cb : LCfg} {d a b : MDat} (h : Parts c ca cb) {B3 : ℝ} (hB : getNum c "B3" = .ok B3)
    (hd : build env junk .sextupole c = .ok d) (ha : build env junk .sextupole ca = .ok a) (hb : build env junk .sextupole cb = .ok b) :
    ∃ (m n : ℕ) (x : ℝ), 0 < m ∧ 0 < n ∧ Cut d a b B3 x m n (decide (numOr c "thinlens" 0 = 1)) (decide (numOr c "dstkick" 1 = 1)) := by
  obtain ⟨m, n, x, hm, hn, s0, s1, s2, L0, L1, L2⟩ := h.slices
  obtain ⟨l0, c0, -⟩ := build_length hd
  obtain ⟨l1, c1, -⟩ := build_length ha
  obtain ⟨l2, c2, -⟩ := build_length hb
  have hnum : ∀ k, k ≠ "L" → k ≠ "step" → k ≠ "name" → getNum ca k = getNum c k ∧ getNum cb k = getNum c k := by
    intro k h1 h2 h3
    unfold getNum
    rw [(h.same k h1 h2 h3).1, (h.same k h1 h2 h3).2]
    exact ⟨rfl, rfl⟩
  have hnumD : ∀ k x, k ≠ "L" → k ≠ "step" → k ≠ "name" → getNumD ca k x = getNumD c k x ∧ getNumD cb k x = getNumD c k x := by
    intro k x h1 h2 h3
    unfold getNumD
    rw [(h.same k h1 h2 h3).1, (h.same k h1 h2 h3).2]
    exact ⟨rfl, rfl⟩
  have place : ∀ {c : LCfg} {d : MDat}, build env junk .sextupole c = .ok d → d.dx = getNumD c "dx" 0 * MtoMM ∧ d.dy = getNumD c "dy" 0 * MtoMM ∧
      d.pitch = getNumD c "pitch" 0 ∧ d.yaw = getNumD c "yaw" 0 ∧ d.roll = getNumD c "roll" 0 := by
    intro c d h
    simp only [build] at h
    cases h
    exact ⟨rfl, rfl, rfl, rfl, rfl⟩
  obtain ⟨p1, p2, p3, p4, p5⟩ := place hd
  obtain ⟨q1, q2, q3, q4, q5⟩ := place ha
  obtain ⟨r1, r2, r3, r4, r5⟩ := place hb
  have u : getNumD c "pitch" 0 = 0 := h.upright.1
  have w : getNumD c "yaw" 0 = 0 := h.upright.2
  have hL : ∀ {c : LCfg} {x : ℝ}, c "L" = some (.num x) → getNum c "L" = .ok x := by
    intro c x h
    unfold getNum
    rw [h]
  refine ⟨m, n, x, hm, hn, ⟨⟨?_, ?_, ?_, ?_, ?_⟩, ?_, ?_, ?_, ?_, ?_, ?_⟩⟩
  · rw [p1, q1, r1, (hnumD "dx" 0 (by decide) (by decide) (by decide)).1, (hnumD "dx" 0 (by decide) (by decide) (by decide)).2]
    exact ⟨rfl, rfl⟩
  · rw [p2, q2, r2, (hnumD "dy" 0 (by decide) (by decide) (by decide)).1, (hnumD "dy" 0 (by decide) (by decide) (by decide)).2]
    exact ⟨rfl, rfl⟩
  · rw [p5, q5, r5, (hnumD "roll" 0 (by decide) (by decide) (by decide)).1, (hnumD "roll" 0 (by decide) (by decide) (by decide)).2]
    exact ⟨rfl, rfl⟩
  · rw [p3, q3, r3, (hnumD "pitch" 0 (by decide) (by decide) (by decide)).1, (hnumD "pitch" 0 (by decide) (by decide) (by decide)).2]
    exact ⟨u, u, u⟩
  · rw [p4, q4, r4, (hnumD "yaw" 0 (by decide) (by decide) (by decide)).1, (hnumD "yaw" 0 (by decide) (by decide) (by decide)).2]
    exact ⟨w, w, w⟩
  · rw [c0, c1, c2, (hnum "B3" (by decide) (by decide) (by decide)).1, (hnum "B3" (by decide) (by decide) (by decide)).2]
    exact ⟨hB, hB, hB⟩
  · rw [c0, c1, c2]
    exact ⟨hL L0, hL L1, hL L2⟩
  · rw [l0, l1, l2]
    simp [Moment.Spec.lengthOf, MType.name, L0, L1, L2]
  · rw [c0, c1, c2]
    exact ⟨steps_of s0, steps_of s1, steps_of s2⟩
  · rw [c0, c1, c2, (hnumD "thinlens" 0 (by decide) (by decide) (by decide)).1, (hnumD "thinlens" 0 (by decide) (by decide) (by decide)).2]
    exact ⟨rfl, rfl, rfl⟩
  · rw [c0, c1, c2, (hnumD "dstkick" 1 (by decide) (by decide) (by decide)).1, (hnumD "dstkick" 1 (by decide) (by decide) (by decide)).2]
    exact ⟨rfl, rfl, rfl⟩

/-- Without a strength there is an exception. -/
theorem sext_none {d : MDat} {e : Err} (h : getNum d.conf "B3" = .error e) (s : St MSt) : (advanceSext d s).2.2 ≠ none := by
  unfold advanceSext
  rw [h]
  nofun

theorem parts_together {env : Env} {files : Flame.Cavity.Files} {junk : Mat} {base : Nat} {cv : CView LCfg} {c ca cb : LCfg}
    {e a b : Elem LCfg MDat MSt} (h : Spec.Parts c ca cb) (ht : Thin c) (hty : cv.str c "type" = .ok "sextupole")
    (hta : cv.str ca "type" = .ok "sextupole") (htb : cv.str cb "type" = .ok "sextupole") (he : MadeFrom env files junk base cv c e)
    (ha : MadeFrom env files junk base cv ca a) (hb : MadeFrom env files junk base cv cb b) : Together SameBeam e a b := by
  refine ⟨he.keeps.1, ha.keeps.1, hb.keeps.1, ?_⟩
  obtain ⟨c0, b0⟩ := made_sext hty he
  obtain ⟨c1, b1⟩ := made_sext hta ha
  obtain ⟨c2, b2⟩ := made_sext htb hb
  rw [c0, c1, c2]
  intro s s' s'' hr hr' hr'' hR hs
  show ((advanceSext e.dat s).2.2 = none ↔ (advanceSext a.dat s').2.2 = none ∧ (advanceSext b.dat s'').2.2 = none) ∧
    ((advanceSext e.dat s).2.2 = none → SameBeam (advanceSext e.dat s).2.1.payload (advanceSext b.dat s'').2.1.payload)
  cases hB : getNum c "B3" with
  | error x =>
    have h0 : getNum e.dat.conf "B3" = .error x := by rw [(build_length b0).2.1, hB]
    have h1 : getNum a.dat.conf "B3" = .error x := by
      rw [(build_length b1).2.1, ← hB]
      unfold getNum
      rw [(h.same "B3" (by decide) (by decide) (by decide)).1]
    exact ⟨⟨fun q => absurd q (sext_none h0 s), fun q => absurd q.1 (sext_none h1 s')⟩, fun q => absurd q (sext_none h0 s)⟩
  | ok B3 =>
    obtain ⟨m, n, x, hm, hn, hcut⟩ := parts_cut h hB b0 b1 b2
    have : decide (numOr c "thinlens" 0 = 1) = true := decide_eq_true ht
    rw [this] at hcut
    exact sext_cut hcut hm hn s s' s'' hr hr' hr'' hR hs (.inl rfl)

/-- C103: two machines are built, the second one from the lattice of the first one with a sextupole cut between two of its slices.  The
slices are thin lenses between drifts, the element may be shifted and rolled.  The fraction of the setting `step` is of no importance.  A
beam is sent forward from the same element on through a range that contains the sextupole.  Then there is an exception in both simulations
or in none of them; in the latter case the states at the end are equal in all respects, except perhaps in the matrix that is reported for
the last element. -/
theorem C103_slices {env : Env} {files : Flame.Cavity.Files} {junk : Mat} {base : Nat} (cv : CView LCfg) (c c' : LCfg)
    (m m' : Machine LCfg MDat MSt)
    (h : Machine.new cv (registry env junk base (cavityCls env files junk base) (stripperCls env junk base)) c = .ok m)
    (h' : Machine.new cv (registry env junk base (cavityCls env files junk base) (stripperCls env junk base)) c' = .ok m')
    (pre post : List LCfg) (ce ca cb : LCfg) (hes : cv.elems c = .ok (pre ++ ce :: post))
    (hes' : cv.elems c' = .ok (pre ++ ca :: cb :: post)) (hl : pre.length + post.length + 2 < sizeMod)
    (hty : cv.str ce "type" = .ok "sextupole") (hta : cv.str ca "type" = .ok "sextupole") (htb : cv.str cb "type" = .ok "sextupole")
    (hh : Spec.Parts ce ca cb) (ht : Thin ce) (start k l : Nat) (hk : start + k = pre.length) (hn : l ≤ post.length) (s : St MSt) :
    ∃ R R', propagate m.elems s start ((k + 1 + l : Nat) : Int) = some R ∧
      propagate m'.elems s start ((k + 2 + l : Nat) : Int) = some R' ∧ (R.err = none ↔ R'.err = none) ∧
      (R.err = none → SameBeam R.st.payload R'.st.payload) := by
  have hF : List.Forall₂ (MadeFrom env files junk base cv) (pre ++ ce :: post) m.elems := machine_moment h hes
  have hF' : List.Forall₂ (MadeFrom env files junk base cv) (pre ++ ca :: cb :: post) m'.elems := machine_moment h' hes'
  have hlen := hF.length_eq
  have hlen' := hF'.length_eq
  simp only [List.length_append, List.length_cons] at hlen hlen'
  have hp : ∀ (n : Nat) (els : List (Elem LCfg MDat MSt)), propagate els s start (n : Int) =
      some (run n els { s with nextElem := start, retreat := false }) := by
    intro n els
    rw [propagate_eq els s start n (by omega)]
    have : decide ((n : Int) < 0) = false := by simp
    rw [this, Int.natAbs_natCast]
  refine ⟨_, _, hp _ _, hp _ _, ?_⟩
  have get : ∀ {es : List LCfg} {els : List (Elem LCfg MDat MSt)}, List.Forall₂ (MadeFrom env files junk base cv) es els →
      ∀ (j : Nat) (ec : LCfg), es[j]? = some ec → ∃ e, els[j]? = some e ∧ MadeFrom env files junk base cv ec e := by
    intro es els hF j ec hj
    have hlt : j < els.length := by rw [← hF.length_eq]; exact Flame.Cavity.lt_of_get hj
    obtain ⟨ec', h1, h2⟩ := Flame.Cavity.forall₂_get hF (List.getElem?_eq_getElem hlt)
    rw [hj] at h1
    cases h1
    exact ⟨_, List.getElem?_eq_getElem hlt, h2⟩
  refine run_together (R := SameBeam) l k m.elems m'.elems _ _ (by omega) (by omega) rfl rfl rfl ?_ ?_ ?_
  · intro j hj
    show ∃ e e', m.elems[start + j]? = some e ∧ m'.elems[start + j]? = some e' ∧ _
    have hj1 : start + j < pre.length := by omega
    obtain ⟨e, q1, q2⟩ := get hF (start + j) pre[start + j] (by rw [List.getElem?_append_left hj1]; exact List.getElem?_eq_getElem hj1)
    obtain ⟨e', r1, r2⟩ := get hF' (start + j) pre[start + j]
      (by rw [List.getElem?_append_left hj1]; exact List.getElem?_eq_getElem hj1)
    exact ⟨e, e', q1, r1, q2.matched r2⟩
  · show ∃ e a b, m.elems[start + k]? = some e ∧ m'.elems[start + k]? = some a ∧ m'.elems[start + (k + 1)]? = some b ∧ _
    obtain ⟨e, q1, q2⟩ := get hF (start + k) ce (by rw [hk]; simp)
    obtain ⟨a, r1, r2⟩ := get hF' (start + k) ca (by rw [hk]; simp)
    obtain ⟨b, t1, t2⟩ := get hF' (start + (k + 1)) cb (by rw [← add_assoc, hk, List.getElem?_append_right (by omega)]; simp)
    exact ⟨e, a, b, q1, r1, t1, parts_together hh ht hty hta htb q2 r2 t2⟩
  · intro j hj
    show ∃ e e', m.elems[start + (k + 1 + j)]? = some e ∧ m'.elems[start + (k + 2 + j)]? = some e' ∧ _
    have hj1 : j < post.length := by omega
    obtain ⟨e, q1, q2⟩ := get hF (start + (k + 1 + j)) post[j] (by
      rw [show start + (k + 1 + j) = pre.length + (j + 1) by omega, List.getElem?_append_right (by omega)]
      simp [hj1])
    obtain ⟨e', r1, r2⟩ := get hF' (start + (k + 2 + j)) post[j] (by
      rw [show start + (k + 2 + j) = pre.length + (j + 2) by omega, List.getElem?_append_right (by omega)]
      simp [hj1])
    exact ⟨e, e', q1, r1, q2.matched r2⟩

/-- C103 for thick lenses, a single element: the parts do what the whole does if no charge state is in the vertical plane of the element
where it is cut.  Partial: otherwise the code goes on with the matrix of the slice before, see `C103_stale_false`. -/
theorem C103_thick_partial {env : Env} {junk : Mat} {c ca cb : LCfg} {d a b : MDat} (h : Spec.Parts c ca cb) (hS : Straight c)
    (hd : build env junk .sextupole c = .ok d) (ha : build env junk .sextupole ca = .ok a) (hb : build env junk .sextupole cb = .ok b)
    (s s'' : St MSt) (hr : s.retreat = false) (hr'' : s''.retreat = false) (hs : s''.payload = (advanceSext a s).2.1.payload)
    (hx : ∀ v ∈ s''.payload.moment0, v 0 ≠ 0) :
    ((advanceSext d s).2.2 = none ↔ (advanceSext a s).2.2 = none ∧ (advanceSext b s'').2.2 = none) ∧
    ((advanceSext d s).2.2 = none → SameBeam (advanceSext d s).2.1.payload (advanceSext b s'').2.1.payload) := by
  cases hB : getNum c "B3" with
  | error x =>
    have h0 : getNum d.conf "B3" = .error x := by rw [(build_length hd).2.1, hB]
    have h1 : getNum a.conf "B3" = .error x := by
      rw [(build_length ha).2.1, ← hB]
      unfold getNum
      rw [(h.same "B3" (by decide) (by decide) (by decide)).1]
    exact ⟨⟨fun q => absurd q (sext_none h0 s), fun q => absurd q.1 (sext_none h1 s)⟩, fun q => absurd q (sext_none h0 s)⟩
  | ok B3 =>
    obtain ⟨m, n, x, hm, hn, hcut⟩ := parts_cut h hB hd ha hb
    refine sext_cut hcut hm hn s s s'' hr hr hr'' rfl hs (.inr ?_)
    rw [← hs]
    intro v hv
    have e1 : d.dx = 0 ∧ d.dy = 0 ∧ d.roll = 0 := by
      simp only [build] at hd
      cases hd
      obtain ⟨s1, s2, s3⟩ := hS
      refine ⟨?_, ?_, s3⟩
      · show numOr c "dx" 0 * MtoMM = 0
        rw [s1, zero_mul]
      · show numOr c "dy" 0 * MtoMM = 0
        rw [s2, zero_mul]
    rw [e1.1, e1.2.1, e1.2.2]
    have e2 : rotMat 0 0 0 0 0 = 1 := by
      rw [rotMat_split, offs_zero, mul_one, turn_zero]
    rw [e2, Matrix.one_mulVec]
    exact hx v hv

/-! ## the matrix of the slice before -/

/-- A thick sextupole of strength `B`, without the kick from the size of the beam. -/
noncomputable def exThick (B L n : ℝ) : LCfg := fun k =>
  if k = "type" then some (.str "sextupole") else if k = "name" then some (.str "s") else if k = "L" then some (.num L)
  else if k = "B3" then some (.num B) else if k = "step" then some (.num n) else if k = "dstkick" then some (.num 0) else none

/-- The first two rows of the matrix of a slice whose phase advance is a whole turn. -/
theorem turn_rows (p : Particle) : ∃ (dL A B C : ℝ), 0 < dL ∧ 1 < A ∧ 0 < B ∧ 0 < A * A - B * C ∧ ∀ (Dx : ℝ), Dx = 1 → ∀ j : Fin 7,
    setAt (sextM dL 1 Dx 0 0 0 0 false false 1) 4 5 (slip p dL) 0 j = ![A, B, 0, 0, 0, 0, 0] j ∧
    setAt (sextM dL 1 Dx 0 0 0 0 false false 1) 4 5 (slip p dL) 1 j = ![C, A, 0, 0, 0, 0, 0] j ∧
    setAt (sextM dL 1 Dx 0 0 0 0 false false 1) 4 5 (slip p dL) 2 j = ![0, 0,
      setAt (sextM dL 1 Dx 0 0 0 0 false false 1) 4 5 (slip p dL) 2 2,
      setAt (sextM dL 1 Dx 0 0 0 0 false false 1) 4 5 (slip p dL) 2 3, 0, 0, 0] j := by
  have hr : 0 < Real.sqrt (1 * 1 + 1 * 1 : ℝ) := Real.sqrt_pos.2 (by norm_num)
  have hr2 : Real.sqrt (1 * 1 + 1 * 1 : ℝ) ^ 2 = 2 := by rw [Real.sq_sqrt (by norm_num)]; norm_num
  have hq : 0 < Real.sqrt (|(1 : ℝ)| * Real.sqrt (1 * 1 + 1 * 1 : ℝ)) := Real.sqrt_pos.2 (by rw [abs_one, one_mul]; exact hr)
  have hr1 : 1 < Real.sqrt (1 * 1 + 1 * 1 : ℝ) := by nlinarith
  have hturn : Real.sqrt (|(1 : ℝ)| * Real.sqrt (1 * 1 + 1 * 1 : ℝ)) * (2 * Real.pi / Real.sqrt (|(1 : ℝ)| * Real.sqrt (1 * 1 + 1 * 1 : ℝ))) =
      2 * Real.pi := by field_simp
  have hch : 1 < Real.cosh (2 * Real.pi) := Real.one_lt_cosh.2 (by positivity)
  have hsh : 0 < Real.sinh (2 * Real.pi) := Real.sinh_pos_iff.2 (by positivity)
  have hcs := Real.cosh_sq (2 * Real.pi)
  refine ⟨2 * Real.pi / Real.sqrt (|(1 : ℝ)| * Real.sqrt (1 * 1 + 1 * 1 : ℝ)),
    ((Real.sqrt (1 * 1 + 1 * 1 : ℝ) + 1) + (Real.sqrt (1 * 1 + 1 * 1 : ℝ) - 1) * Real.cosh (2 * Real.pi)) / (2 * Real.sqrt (1 * 1 + 1 * 1 : ℝ)),
    ((Real.sqrt (1 * 1 + 1 * 1 : ℝ) - 1) * Real.sinh (2 * Real.pi)) /
      (2 * Real.sqrt (|(1 : ℝ)| * Real.sqrt (1 * 1 + 1 * 1 : ℝ)) * Real.sqrt (1 * 1 + 1 * 1 : ℝ)),
    Real.sqrt (|(1 : ℝ)| * Real.sqrt (1 * 1 + 1 * 1 : ℝ)) * ((Real.sqrt (1 * 1 + 1 * 1 : ℝ) - 1) * Real.sinh (2 * Real.pi)) /
      (2 * Real.sqrt (1 * 1 + 1 * 1 : ℝ)), ?_, ?_, ?_, ?_, ?_⟩
  · positivity
  · rw [lt_div_iff₀ (by positivity)]
    nlinarith
  · have : 0 < Real.sqrt (1 * 1 + 1 * 1 : ℝ) - 1 := by linarith
    positivity
  · generalize Real.sqrt (|(1 : ℝ)| * Real.sqrt (1 * 1 + 1 * 1 : ℝ)) = q at *
    generalize Real.sqrt (1 * 1 + 1 * 1 : ℝ) = r at *
    generalize Real.cosh (2 * Real.pi) = ch at *
    generalize Real.sinh (2 * Real.pi) = sh at *
    have e : (r + 1 + (r - 1) * ch) / (2 * r) * ((r + 1 + (r - 1) * ch) / (2 * r)) -
        (r - 1) * sh / (2 * q * r) * (q * ((r - 1) * sh) / (2 * r)) = ((r + 1 + (r - 1) * ch) ^ 2 - ((r - 1) * sh) ^ 2) / (4 * r ^ 2) := by
      field_simp
      ring
    rw [e]
    refine div_pos ?_ (by positivity)
    have : (r + 1 + (r - 1) * ch) ^ 2 - ((r - 1) * sh) ^ 2 = (r + 1) ^ 2 + 2 * (r + 1) * (r - 1) * ch + (r - 1) ^ 2 := by
      linear_combination (r - 1) ^ 2 * hcs
    rw [this]
    have : 0 < r - 1 := by linarith
    positivity
  · rintro Dx rfl j
    unfold sextM
    dsimp only
    rw [hturn]
    simp only [Real.cos_two_pi, Real.sin_two_pi, ne_eq, hq.ne', not_false_eq_true, if_true, Bool.false_eq_true, if_false]
    generalize Real.sqrt (|(1 : ℝ)| * Real.sqrt (1 * 1 + 1 * 1 : ℝ)) = q at *
    generalize Real.sqrt (1 * 1 + 1 * 1 : ℝ) = r at *
    have h1 : ¬ (1 : ℝ) < 0 := by norm_num
    rw [if_neg h1]
    fin_cases j <;> simp [setAt]

/-- A thick sextupole of two slices, the two parts, and a particle at `x = 1` with the slope `px`. -/
theorem exThick_cut (env : Env) (junk : Mat) : ∃ (A B : ℝ) (c ca : LCfg) (d a : MDat), 1 < A ∧ 0 < B ∧ Spec.Parts c ca ca ∧ Straight c ∧
    build env junk .sextupole c = .ok d ∧ build env junk .sextupole ca = .ok a ∧ ∀ px, ∃ s s'' : St MSt,
    s.retreat = false ∧ s''.retreat = false ∧ s''.payload = (advanceSext a s).2.1.payload ∧ (advanceSext d s).2.2 = none ∧
    (advanceSext a s).2.2 = none ∧ (advanceSext a s'').2.2 = none ∧ (∃ w : Vec, s''.payload.moment0 = [w] ∧ w 0 = A + B * px) ∧
    (px = -A / B → ¬ SameBeam (advanceSext d s).2.1.payload (advanceSext a s'').2.1.payload) := by
  obtain ⟨p, hp⟩ : ∃ p : Particle, p = (⟨33 / 238, 1, 931494320, 0, 0, 0, 0, 80500000, 0, 0, 0, 500000⟩ : Particle).recalc := ⟨_, rfl⟩
  have hpr : p.recalc = p := by rw [hp]; rfl
  obtain ⟨u1, u2, u3, u4⟩ := moving ⟨33 / 238, 1, 931494320, 0, 0, 0, 0, 80500000, 0, 0, 0, 500000⟩ (by norm_num) (by norm_num) (by norm_num)
  rw [← hp] at u1 u2 u3 u4
  have hbr : p.Brho ≠ 0 := by
    have : p.IonW = 931494320 + 500000 := by rw [hp]; rfl
    have h2 : p.IonZ = 33 / 238 := by rw [hp]; rfl
    unfold Particle.Brho C0
    rw [this, h2]
    positivity
  have hU : unitZ p ≠ 0 ∧ unitP p p ≠ 0 := by
    unfold unitZ unitP MeVtoeV
    constructor
    · exact one_div_ne_zero (neg_ne_zero.2 u1)
    · positivity
  clear hp
  obtain ⟨dL, A, B, C, h0, hA, hB, hdet, hrow⟩ := turn_rows p
  have hnum : ∀ B L n k x, exThick B L n k = some (.num x) → getNum (exThick B L n) k = .ok x ∧ ∀ y, getNumD (exThick B L n) k y = x := by
    intro B L n k x h
    unfold getNum getNumD
    rw [h]
    exact ⟨rfl, fun _ => rfl⟩
  have built : ∀ B L n, ∃ d, build env junk .sextupole (exThick B L n) = .ok d ∧ d.conf = exThick B L n ∧ d.pitch = 0 ∧ d.yaw = 0 ∧
      rotMat d.dx d.dy 0 0 d.roll = 1 := by
    intro B L n
    refine ⟨_, rfl, rfl, rfl, rfl, ?_⟩
    show rotMat (0 * MtoMM) (0 * MtoMM) 0 0 0 = 1
    rw [zero_mul, rotMat_split, offs_zero, mul_one, turn_zero]
  have hthin : ∀ B L n, getNumD (exThick B L n) "thinlens" 0 = 0 := fun _ _ _ => rfl
  obtain ⟨K, hK⟩ : ∃ K, K = p.Brho * (MtoMM * MtoMM * MtoMM) := ⟨_, rfl⟩
  have hMM : MtoMM ≠ 0 := by unfold MtoMM; norm_num
  have hK1 : K / p.Brho / (MtoMM * MtoMM * MtoMM) = 1 := by
    rw [hK]
    field_simp
  obtain ⟨d, d1, d2, d3, d4, d5⟩ := built K ((1 + 1) * (dL / MtoMM)) 2
  obtain ⟨a, a1, a2, a3, a4, a5⟩ := built K (1 * (dL / MtoMM)) 1
  have hst : ∀ (n : ℕ) (L y : ℝ), y = n → toSteps (getNumD (exThick K L y) "step" 1) = n := by
    rintro n L y rfl
    exact steps_nat n
  refine ⟨A, B, _, _, d, a, hA, hB, ?_, ⟨rfl, rfl, rfl⟩, d1, a1, fun px => ?_⟩
  · refine ⟨fun k h1 h2 h3 => ?_, ⟨1, 1, dL / MtoMM, one_pos, one_pos, ?_, ?_, ?_, ?_, ?_, ?_⟩, rfl, rfl⟩
    · simp [exThick, h1, h2]
    · show ((1 + 1 : ℕ) : ℝ) ≤ 2 ∧ (2 : ℝ) < ((1 + 1 : ℕ) : ℝ) + 1
      norm_num
    · show ((1 : ℕ) : ℝ) ≤ 1 ∧ (1 : ℝ) < ((1 : ℕ) : ℝ) + 1
      norm_num
    · show ((1 : ℕ) : ℝ) ≤ 1 ∧ (1 : ℝ) < ((1 : ℕ) : ℝ) + 1
      norm_num
    · simp [exThick]
    · simp [exThick]
    · simp [exThick]
  obtain ⟨s, hs⟩ : ∃ s : St MSt, s.retreat = false ∧ s.payload = ⟨0, p, [p], [![1, px, 0, 0, 0, 0, 1]], [0], [1], 0, 0, 0, 0⟩ :=
    ⟨⟨0, false, ⟨0, p, [p], [![1, px, 0, 0, 0, 0, 1]], [0], [1], 0, 0, 0, 0⟩⟩, rfl, rfl⟩
  have hsr : s.payload.recalc = s.payload := by
    rw [hs.2]
    unfold MSt.recalc
    simp only [List.map_cons, List.map_nil, hpr]
  have hUs : ∀ q ∈ s.payload.recalc.real.zip (s.payload.recalc.moment0.zip s.payload.recalc.moment1), unitZ q.1 ≠ 0 ∧ unitP s.payload.recalc.ref q.1 ≠ 0 := by
    rw [hsr, hs.2]
    intro q hq
    simp only [List.zip_cons_cons, List.zip_nil_right, List.mem_singleton] at hq
    rw [hq]
    exact hU
  have D := (sext_upright (n := 2) (thin := false) (dst := false) d3 d4 (by rw [d2]; exact (hnum _ _ _ _ _ rfl).1) (by rw [d2]; exact (hnum _ _ _ _ _ rfl).1)
    (by rw [d2]; exact hst 2 _ _ (by norm_num)) (by rw [d2, hthin]; simp) (by rw [d2, (hnum _ _ _ "dstkick" 0 rfl).2]; simp) s hs.1).1 hUs
  have E := (sext_upright (n := 1) (thin := false) (dst := false) a3 a4 (by rw [a2]; exact (hnum _ _ _ _ _ rfl).1) (by rw [a2]; exact (hnum _ _ _ _ _ rfl).1)
    (by rw [a2]; exact hst 1 _ _ (by norm_num)) (by rw [a2, hthin]; simp) (by rw [a2, (hnum _ _ _ "dstkick" 0 rfl).2]; simp) s hs.1).1 hUs
  obtain ⟨s'', hs''⟩ : ∃ s'' : St MSt, s''.retreat = false ∧ s''.payload = (advanceSext a s).2.1.payload := ⟨⟨0, false, _⟩, rfl, rfl⟩
  have hr'' : s''.payload.recalc = s''.payload := by
    rw [hs''.2, E.2, hsr, hs.2]
    rfl
  have hreal : s''.payload.real = [p.drifted false a.length] ∧ s''.payload.ref = p.drifted false a.length := by
    rw [hs''.2, E.2, hsr, hs.2]
    simp only [MSt.calcRms, List.map_cons, List.map_nil, hpr, and_self]
  have hm : s''.payload.moment0.length = 1 ∧ s''.payload.moment1.length = 1 := by
    rw [hs''.2, E.2, hsr, hs.2]
    exact ⟨rfl, rfl⟩
  have hUs'' : ∀ q ∈ s''.payload.recalc.real.zip (s''.payload.recalc.moment0.zip s''.payload.recalc.moment1), unitZ q.1 ≠ 0 ∧
      unitP s''.payload.recalc.ref q.1 ≠ 0 := by
    rw [hr'', hreal.1, hreal.2]
    rintro ⟨q1, q2⟩ hq
    have := (List.of_mem_zip hq).1
    rw [List.mem_singleton] at this
    rw [this]
    exact hU
  have F := (sext_upright (n := 1) (thin := false) (dst := false) a3 a4 (by rw [a2]; exact (hnum _ _ _ _ _ rfl).1) (by rw [a2]; exact (hnum _ _ _ _ _ rfl).1)
    (by rw [a2]; exact hst 1 _ _ (by norm_num)) (by rw [a2, hthin]; simp) (by rw [a2, (hnum _ _ _ "dstkick" 0 rfl).2]; simp) s'' hs''.1).1 hUs''
  have hm0 : s''.payload.moment0 = [(through 1 p dL 1 false false 1 ![1, px, 0, 0, 0, 0, 1] 0).1] := by
    rw [hs''.2, E.2, hsr, hs.2, a5]
    have : 1 * (dL / MtoMM) * MtoMM / ((1 : ℕ) : ℝ) = dL := by
      push_cast
      field_simp
    rw [this]
    simp only [MSt.calcRms, List.zip_cons_cons, List.zip_nil_right, List.map_cons, List.map_nil, hK1]
  obtain ⟨T, hT⟩ : ∃ T, T = setAt (sextM dL 1 1 0 0 0 0 false false 1) 4 5 (slip p dL) := ⟨_, rfl⟩
  have hrow' := hrow 1 rfl
  rw [← hT] at hrow'
  have hT' : setAt (sextM dL 1 ((![1, px, 0, 0, 0, 0, 1] : Vec) 0) ((![1, px, 0, 0, 0, 0, 1] : Vec) 2) ((0 : Mat) 0 0) ((0 : Mat) 2 2)
      ((0 : Mat) 0 2) false false 1) 4 5 (slip p dL) = T := hT.symm
  have hw : T.mulVec ![1, px, 0, 0, 0, 0, 1] 0 = A + B * px := by
    simp only [Matrix.mulVec, dotProduct, fun j => (hrow' j).1, Fin.sum_univ_seven]
    simp
  refine ⟨s, s'', hs.1, hs''.1, hs''.2, D.1, E.1, F.1, ⟨_, hm0, ?_⟩, ?_⟩
  · simp only [through, sextLoop, inv_one, Matrix.one_mulVec, congr_one]
    rw [hT', hw]
  · intro hpx hsame
    have hmom := congrArg MSt.moment0 hsame
    dsimp only at hmom
    rw [D.2, F.2, hr'', hreal.1] at hmom
    obtain ⟨S1, hm1⟩ : ∃ S1, s''.payload.moment1 = [S1] := List.length_eq_one_iff.1 hm.2
    rw [hm0, hm1, hsr, hs.2, a5, d5] at hmom
    have e1 : 1 * (dL / MtoMM) * MtoMM / ((1 : ℕ) : ℝ) = dL := by
      push_cast
      field_simp
    have e2 : (1 + 1) * (dL / MtoMM) * MtoMM / ((2 : ℕ) : ℝ) = dL := by
      push_cast
      field_simp
      norm_num
    have e3 : K / (p.drifted false a.length).Brho / (MtoMM * MtoMM * MtoMM) = 1 := hK1
    rw [e1, e2] at hmom
    simp only [MSt.calcRms, List.zip_cons_cons, List.zip_nil_right, List.map_cons, List.map_nil, hK1, e3, List.cons.injEq, and_true] at hmom
    have hflat : ∀ Dy a b c (M : Mat), sextM dL 1 0 Dy a b c false false M = setAt (setAt M 0 1 dL) 2 3 dL := by
      intro Dy a b c M
      simp [sextM]
    have hsz : ∀ Dx Dy a b c (M : Mat), sextM dL 1 Dx Dy a b c false false M = sextM dL 1 Dx Dy 0 0 0 false false M := by
      intro Dx Dy a b c M
      simp [sextM]
    simp only [through, sextLoop, inv_one, Matrix.one_mulVec, congr_one] at hmom
    rw [hT'] at hmom
    have hw0 : T.mulVec ![1, px, 0, 0, 0, 0, 1] 0 = 0 := by
      rw [hw, hpx]
      field_simp
      ring
    have hw1 : T.mulVec ![1, px, 0, 0, 0, 0, 1] 1 = C - A * A / B := by
      simp only [Matrix.mulVec, dotProduct, fun j => (hrow' j).2.1, Fin.sum_univ_seven]
      simp [hpx]
      ring
    rw [hw0, hflat, hflat] at hmom
    generalize T.mulVec ![1, px, 0, 0, 0, 0, 1] = w at hmom hw0 hw1
    have h1 := congrFun hmom 1
    have r1 : (setAt (setAt (setAt (1 : Mat) 0 1 dL) 2 3 dL) 4 5 (slip (p.drifted false a.length) dL)).mulVec w 1 = w 1 := by
      simp [Matrix.mulVec, dotProduct, Fin.sum_univ_seven, setAt, Matrix.one_apply]
    have r2 : (setAt (setAt (setAt T 0 1 dL) 2 3 dL) 4 5 (slip p dL)).mulVec w 1 = A * w 1 := by
      have : ∀ j, setAt (setAt (setAt T 0 1 dL) 2 3 dL) 4 5 (slip p dL) 1 j = T 1 j := by
        intro j
        simp [setAt]
      simp only [Matrix.mulVec, dotProduct, this, fun j => (hrow' j).2.1, Fin.sum_univ_seven]
      simp [hw0]
    rw [r1, r2, hw1] at h1
    have : (A - 1) * (A * A - B * C) = 0 := by
      have hB' := hB.ne'
      field_simp at h1
      linear_combination h1
    rcases mul_eq_zero.1 this with h | h
    · linarith
    · linarith

/-- C103 fails for thick lenses: a slice in which the beam is exactly in the vertical plane of the element is computed with the matrix of
the slice before (/repo/src/moment_sup.cpp:161-182, /repo/src/moment.cpp:1180).  Cut there, the sextupole has another result. -/
theorem C103_stale_false (env : Env) (junk : Mat) : ∃ (c ca cb : LCfg) (d a b : MDat) (s s'' : St MSt), Spec.Parts c ca cb ∧ Straight c ∧
    build env junk .sextupole c = .ok d ∧ build env junk .sextupole ca = .ok a ∧ build env junk .sextupole cb = .ok b ∧
    s.retreat = false ∧ s''.retreat = false ∧ s''.payload = (advanceSext a s).2.1.payload ∧ (advanceSext d s).2.2 = none ∧
    (advanceSext a s).2.2 = none ∧ (advanceSext b s'').2.2 = none ∧
    ¬ SameBeam (advanceSext d s).2.1.payload (advanceSext b s'').2.1.payload := by
  obtain ⟨A, B, c, ca, d, a, hA, hB, h1, h2, h3, h4, h5⟩ := exThick_cut env junk
  obtain ⟨s, s'', e1, e2, e3, e4, e5, e6, -, e7⟩ := h5 (-A / B)
  exact ⟨c, ca, ca, d, a, a, s, s'', h1, h2, h3, h4, h4, e1, e2, e3, e4, e5, e6, e7 rfl⟩

/-- The hypotheses of `C103_thick_partial` are met by a particle that enters in parallel to the axis. -/
example (env : Env) (junk : Mat) : ∃ (c ca cb : LCfg) (d a b : MDat) (s s'' : St MSt), Spec.Parts c ca cb ∧ Straight c ∧
    build env junk .sextupole c = .ok d ∧ build env junk .sextupole ca = .ok a ∧ build env junk .sextupole cb = .ok b ∧
    s.retreat = false ∧ s''.retreat = false ∧ s''.payload = (advanceSext a s).2.1.payload ∧ (advanceSext d s).2.2 = none ∧
    s''.payload.moment0 ≠ [] ∧ ∀ v ∈ s''.payload.moment0, v 0 ≠ 0 := by
  obtain ⟨A, B, c, ca, d, a, hA, hB, h1, h2, h3, h4, h5⟩ := exThick_cut env junk
  obtain ⟨s, s'', e1, e2, e3, e4, e5, e6, ⟨w, e8, e9⟩, -⟩ := h5 0
  refine ⟨c, ca, ca, d, a, a, s, s'', h1, h2, h3, h4, h4, e1, e2, e3, e4, by rw [e8]; simp, ?_⟩
  rw [e8]
  intro v hv
  rw [List.mem_singleton.1 hv, e9]
  linarith

/-- A thin sextupole that is shifted and rolled. -/
noncomputable def exThin (L n : ℝ) : LCfg := fun k =>
  if k = "type" then some (.str "sextupole") else if k = "name" then some (.str "s") else if k = "L" then some (.num L)
  else if k = "B3" then some (.num 40) else if k = "step" then some (.num n) else if k = "thinlens" then some (.num 1)
  else if k = "dx" then some (.num (1 / 1000)) else if k = "roll" then some (.num (1 / 10)) else none

/-- A sextupole and a cavity; or the same with the sextupole cut in two. -/
noncomputable def exSliced : CView LCfg where
  str c k := match c k with
    | some (.str x) => .ok x
    | _ => .error .keyError
  elems c := .ok (
    match c "cut" with
    | none => [] ++ exThin (1 / 4) (11 / 2) :: [Flame.Cavity.exMono]
    | some _ => [] ++ exThin (1 / 10) 2 :: exThin (3 / 20) 3 :: [Flame.Cavity.exMono])

/-- The hypotheses of `C103_slices` are met by a shifted and rolled sextupole of five slices before a cavity. -/
example (env : Env) (junk : Mat) : ∃ c c' m m' pre post, Machine.new exSliced
      (registry env junk 0 (cavityCls env Flame.Cavity.exFiles junk 0) (stripperCls env junk 0)) c = .ok m ∧
    Machine.new exSliced (registry env junk 0 (cavityCls env Flame.Cavity.exFiles junk 0) (stripperCls env junk 0)) c' = .ok m' ∧
    exSliced.elems c = .ok (pre ++ exThin (1 / 4) (11 / 2) :: post) ∧
    exSliced.elems c' = .ok (pre ++ exThin (1 / 10) 2 :: exThin (3 / 20) 3 :: post) ∧ pre.length = 0 ∧ post.length = 1 ∧
    (∀ L n, exSliced.str (exThin L n) "type" = .ok "sextupole") ∧ Thin (exThin (1 / 4) (11 / 2)) ∧
    Spec.Parts (exThin (1 / 4) (11 / 2)) (exThin (1 / 10) 2) (exThin (3 / 20) 3) := by
  obtain ⟨hk, hreg⟩ := registered_shipped env junk 0 (cavityCls env Flame.Cavity.exFiles junk 0) (stripperCls env junk 0)
  obtain ⟨d, hd⟩ := Flame.Cavity.exMono_builds env junk
  obtain ⟨m, hm⟩ := (Flame.Mach.C18_success_iff exSliced
    (registry env junk 0 (cavityCls env Flame.Cavity.exFiles junk 0) (stripperCls env junk 0))
    (fun k => if k = "sim_type" then some (.str "MomentMatrix") else none)).2 ⟨"MomentMatrix", _, rfl, hk, rfl, by
      show ∀ ec ∈ [exThin (1 / 4) (11 / 2), Flame.Cavity.exMono], _
      simp only [List.mem_cons, List.not_mem_nil, or_false, forall_eq_or_imp, forall_eq]
      exact ⟨⟨"sextupole", _, "s", _, rfl, hreg _ _ rfl, rfl, rfl, rfl⟩, ⟨"rfcavity", _, "c", d, rfl, hreg _ _ rfl, rfl, rfl, hd⟩⟩⟩
  obtain ⟨m', hm'⟩ := (Flame.Mach.C18_success_iff exSliced
    (registry env junk 0 (cavityCls env Flame.Cavity.exFiles junk 0) (stripperCls env junk 0))
    (fun k => if k = "sim_type" ∨ k = "cut" then some (.str "MomentMatrix") else none)).2 ⟨"MomentMatrix", _, rfl, hk, rfl, by
      show ∀ ec ∈ [exThin (1 / 10) 2, exThin (3 / 20) 3, Flame.Cavity.exMono], _
      simp only [List.mem_cons, List.not_mem_nil, or_false, forall_eq_or_imp, forall_eq]
      exact ⟨⟨"sextupole", _, "s", _, rfl, hreg _ _ rfl, rfl, rfl, rfl⟩, ⟨"sextupole", _, "s", _, rfl, hreg _ _ rfl, rfl, rfl, rfl⟩,
        ⟨"rfcavity", _, "c", d, rfl, hreg _ _ rfl, rfl, rfl, hd⟩⟩⟩
  refine ⟨_, _, m, m', _, _, hm, hm', rfl, rfl, rfl, rfl, fun L n => rfl, rfl, fun k h1 h2 h3 => ?_,
    ⟨2, 3, 1 / 20, by norm_num, by norm_num, ?_, ?_, ?_, ?_, ?_, ?_⟩, rfl, rfl⟩
  · simp [exThin, h1, h2]
  · show ((2 + 3 : ℕ) : ℝ) ≤ 11 / 2 ∧ (11 / 2 : ℝ) < ((2 + 3 : ℕ) : ℝ) + 1
    norm_num
  · show ((2 : ℕ) : ℝ) ≤ 2 ∧ (2 : ℝ) < ((2 : ℕ) : ℝ) + 1
    norm_num
  · show ((3 : ℕ) : ℝ) ≤ 3 ∧ (3 : ℝ) < ((3 : ℕ) : ℝ) + 1
    norm_num
  · show some (LVal.num (1 / 4)) = _
    norm_num
  · show some (LVal.num (1 / 10)) = _
    norm_num
  · show some (LVal.num (3 / 20)) = _
    norm_num

end Flame.Sext
