import Verif.Cavity.Divide
import Verif.Moment.Foil

/-!
# The order of charge states in front of a stripper: where C99 fails
-/

namespace Flame.Cavity

open Flame.Mach (St Err)
open Flame.Linear (LVal LCfg)
open Flame.Moment Flame.Moment.Spec Flame.Moment.Baron
open ProbabilityTheory (gaussianPDFReal)

/-- A slower particle, with 9/41 of the velocity of light. -/
noncomputable def exSlower : Particle := { exParticle with IonEs := 40, IonEk := 1 }

theorem exSlower_beta : exSlower.recalc.beta = 9 / 41 := by
  have : exSlower.recalc.beta = Real.sqrt ((9 / 41) ^ 2) := by
    simp only [Particle.recalc, exSlower]
    norm_num
  rw [this, Real.sqrt_sq (by norm_num)]

/-- A stripper with the default model for uranium, whose charge states are the mean charges of ions with these two velocities. -/
noncomputable def exTwoMeans : LCfg := fun k =>
  if k = "IonChargeStates" then some (.vec [charge 92 (7 / 25) / 238, charge 92 (9 / 41) / 238])
  else if k = "NCharge" then some (.vec [1, 1])
  else none

/-- A beam of two charge states. -/
noncomputable def exBefore (p q : Particle) : St MSt :=
  { nextElem := 0, retreat := false, payload :=
    { pos := 0, ref := Moment.exSlowly, real := [p, q], moment0 := [fun _ => 1, fun _ => 1], moment1 := [1, 1], transmat := [1, 1]
      moment0_env := 0, moment0_rms := 0, moment1_env := 0, last_caviphi0 := 0 } }

theorem exTwoMeans_weights (env : Env) {p q : Particle} {b : ℝ} (hb : p.recalc.beta = b) (h0 : 0 < b)
    (hs : 83.275 * b ≤ 8.5 * 92 ^ (0.447 : ℝ)) :
    ∃ t, advanceStripper (exDat env exTwoMeans 0) (exBefore p q) = (exDat env exTwoMeans 0, t, none) ∧ 0 < spread 92 b ∧
      t.payload.real.map (·.IonZ) = [charge 92 (7 / 25) / 238, charge 92 (9 / 41) / 238] ∧
      t.payload.real.map (·.IonQ) = [gaussianPDFReal (charge 92 b) (spread 92 b).toNNReal (charge 92 (7 / 25)),
        gaussianPDFReal (charge 92 b) (spread 92 b).toNNReal (charge 92 (9 / 41))] := by
  have e : numOr (exDat env exTwoMeans 0).conf "Stripper_IonProton" 92 = 92 := by simp [numOr, exDat, exTwoMeans]
  have e' : numOr (exDat env exTwoMeans 0).conf "Stripper_IonMass" 238 = 238 := by simp [numOr, exDat, exTwoMeans]
  obtain ⟨t, ht⟩ := C80_accepts_partial (d := exDat env exTwoMeans 0) (s := exBefore p q)
    (chg := [charge 92 (7 / 25) / 238, charge 92 (9 / 41) / 238]) (n := [1, 1]) (p := p) rfl
    (by simp [textOr, exDat, exTwoMeans]) (by simp [exDat, exTwoMeans]) (by simp [exDat, exTwoMeans]) rfl
    (by simp [listOr, exDat, exTwoMeans]) (by simp [listOr, exDat, exTwoMeans]) (by rw [e]; norm_num) (by rw [hb]; exact h0)
    (by rw [e, hb]; exact hs)
  obtain ⟨chg, p', h1, h2, -, -, h3, h4, h5⟩ := C80_weights (by simp [textOr, exDat, exTwoMeans]) ht
  simp only [exDat, exTwoMeans, if_true, Option.some.injEq, LVal.vec.injEq] at h1
  simp only [exBefore, List.head?_cons, Option.some.injEq] at h2
  subst h1 h2
  rw [e, hb] at h3
  refine ⟨t, ht, h3, h4, ?_⟩
  rw [h5, e, e', hb]
  simp only [List.map_cons, List.map_nil]
  rw [div_mul_cancel₀ _ (by norm_num : (238 : ℝ) ≠ 0), div_mul_cancel₀ _ (by norm_num : (238 : ℝ) ≠ 0)]

/-- C99 needs the hypothesis on the first charge state: for a stripper that computes the weights the order in which the charge
states in front of it are listed makes a difference, because it takes the velocity of the first one
(/repo/src/chg_stripper.cpp:99).  Two descriptions of one beam, with two charge states exchanged, both pass, and are different beams
behind it: the charge state with the larger weight in the one has the smaller weight in the other. -/
theorem C99_order_false (env : Env) :
    ∃ (d : MDat) (s s' t t' : St MSt), Spec.Complete s.payload ∧ Spec.Complete s'.payload ∧ s.retreat = false ∧ s'.retreat = false ∧
      Spec.OneBeam false s.payload s'.payload ∧ advanceStripper d s = (d, t, none) ∧ advanceStripper d s' = (d, t', none) ∧
      ¬ Spec.OneBeam false t.payload t'.payload := by
  have h1 : (92 : ℝ) ^ (1 / 4 : ℝ) ≤ 92 ^ (0.447 : ℝ) := Real.rpow_le_rpow_of_exponent_le (by norm_num) (by norm_num)
  have h2 : (3 : ℝ) ≤ 92 ^ (1 / 4 : ℝ) := by
    refine le_of_pow_le_pow_left₀ (n := 4) (by norm_num) (by positivity) ?_
    rw [← Real.rpow_natCast (92 ^ (1 / 4 : ℝ)), ← Real.rpow_mul (by norm_num)]
    norm_num
  have h3 := le_trans h2 h1
  obtain ⟨t, a1, a2, a3, a4⟩ := exTwoMeans_weights env (q := exSlower) Moment.exSlow_beta (by norm_num)
    (by norm_num at h3 ⊢; linarith)
  obtain ⟨t', b1, b2, b3, b4⟩ := exTwoMeans_weights env (q := Moment.exSlowly) exSlower_beta (by norm_num)
    (by norm_num at h3 ⊢; linarith)
  have hm : charge 92 (9 / 41) < charge 92 (7 / 25) := (C80_mean (by norm_num) (by norm_num)).2.2 _ (by norm_num)
  refine ⟨_, exBefore Moment.exSlowly exSlower, exBefore exSlower Moment.exSlowly, t, t', ⟨rfl, rfl, rfl⟩, ⟨rfl, rfl, rfl⟩, rfl, rfl, ?_, a1, b1, ?_⟩
  · refine ⟨⟨fun j => 1 - j, 1, ⟨one_ne_zero, ⟨rfl, rfl, rfl, ?_⟩, ?_, ?_⟩, fun h => by cases h⟩, rfl, rfl, rfl⟩
    · intro j hj
      match j, hj with
      | 0, _ => exact ⟨⟨_, _, rfl, rfl, rfl, rfl, rfl, rfl, rfl, rfl, rfl, rfl, rfl, rfl, rfl⟩, rfl, rfl, rfl⟩
      | 1, _ => exact ⟨⟨_, _, rfl, rfl, rfl, rfl, rfl, rfl, rfl, rfl, rfl, rfl, rfl, rfl, rfl⟩, rfl, rfl, rfl⟩
      | (j + 2), hj => simp [exBefore] at hj
    · intro i hi
      match i, hi with
      | 0, _ => exact ⟨1, by simp [exBefore], rfl⟩
      | 1, _ => exact ⟨0, by simp [exBefore], rfl⟩
      | (j + 2), hj => simp [exBefore] at hj
    · intro i p hp
      match i, hp with
      | 0, hp => cases hp; simp [Spec.weightOf, exBefore, Finset.sum_range_succ, Moment.exSlowly, exSlower, exParticle]
      | 1, hp => cases hp; simp [Spec.weightOf, exBefore, Finset.sum_range_succ, Moment.exSlowly, exSlower, exParticle]
      | (j + 2), hj => simp [exBefore] at hj
  · rintro ⟨⟨f, c, hd, -⟩, -⟩
    obtain ⟨p0, p1, hp⟩ : ∃ p0 p1, t.payload.real = [p0, p1] :=
      List.length_eq_two.1 (by simpa using congrArg List.length a3)
    obtain ⟨q0, q1, hq⟩ : ∃ q0 q1, t'.payload.real = [q0, q1] :=
      List.length_eq_two.1 (by simpa using congrArg List.length b3)
    rw [hp] at a3 a4
    rw [hq] at b3 b4
    simp only [List.map_cons, List.map_nil, List.cons.injEq, and_true] at a3 a4 b3 b4
    have hz : p0.IonZ ≠ p1.IonZ := by
      rw [a3.1, a3.2]
      intro he
      linarith
    have hf0 : f 0 = 0 := by
      obtain ⟨x, y, x1, x2, -, x3, -⟩ := (hd.part.states 0 (by rw [hq]; simp)).particle
      rw [hq] at x2
      cases x2
      rw [hp] at x1
      match hn : f 0, x1 with
      | 0, _ => rfl
      | 1, x1 => cases x1; exact absurd (by rw [← x3, b3.1, a3.1]) hz
      | (n + 2), x1 => simp at x1
    have hf1 : f 1 = 1 := by
      obtain ⟨x, y, x1, x2, -, x3, -⟩ := (hd.part.states 1 (by rw [hq]; simp)).particle
      rw [hq] at x2
      cases x2
      rw [hp] at x1
      match hn : f 1, x1 with
      | 0, x1 => cases x1; exact absurd (by rw [← x3, b3.2, a3.2]) hz
      | 1, _ => rfl
      | (n + 2), x1 => simp at x1
    have w0 := hd.weight 0 p0 (by rw [hp]; rfl)
    have w1 := hd.weight 1 p1 (by rw [hp]; rfl)
    simp [Spec.weightOf, hq, Finset.sum_range_succ, hf0, hf1] at w0 w1
    have g1 : p1.IonQ < p0.IonQ := by
      rw [a4.1, a4.2]
      refine (C80_order a2).2.2 ?_
      rw [sub_self, abs_zero, abs_pos]
      intro he
      linarith
    have g2 : q0.IonQ < q1.IonQ := by
      rw [b4.1, b4.2]
      refine (C80_order b2).2.2 ?_
      rw [sub_self, abs_zero, abs_pos]
      intro he
      linarith
    have k0 : 0 < p0.IonQ := by rw [a4.1]; exact (C80_order (y := 0) a2).1
    have k1 : 0 < p1.IonQ := by rw [a4.2]; exact (C80_order (y := 0) a2).1
    have l0 : 0 < q0.IonQ := by rw [b4.1]; exact (C80_order (y := 0) b2).1
    rw [w0] at l0
    have hc := (mul_pos_iff_of_pos_right k0).1 l0
    rw [w0, w1] at g2
    have := lt_of_mul_lt_mul_left g2 hc.le
    linarith

end Flame.Cavity
