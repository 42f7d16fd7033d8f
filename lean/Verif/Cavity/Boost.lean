import Verif.Cavity.Model
import Verif.Cavity.Spec
import Verif.Moment.Cache

/-!
# Polynomials, energy and phase in an RF cavity: C44, C45
-/

namespace Flame.Cavity

open Flame.Mach (Err)
open Flame.Moment

/-! ## C44 -/

theorem ipowLoop_eq (n : Nat) (x r : ℝ) : ipowLoop n x r = r * x ^ n := by
  induction n using Nat.strongRecOn generalizing x r with
  | _ n ih =>
    rw [ipowLoop]
    split
    · rename_i h; simp [h]
    · rename_i h
      rw [ih (n / 2) (by omega)]
      have e : x * x = x ^ 2 := by ring
      rw [e, ← pow_mul]
      split
      · rename_i h1
        conv_rhs => rw [show n = 1 + 2 * (n / 2) by omega, pow_add]
        ring
      · rename_i h1
        conv_rhs => rw [show n = 2 * (n / 2) by omega]

/-- C44: `ipow` is the power. -/
theorem C44_ipow (x : ℝ) (n : Nat) : ipow x n = x ^ n := by simp [ipow, ipowLoop_eq]

theorem foldl_add_map {α : Type} (f : α → ℝ) (l : List α) (r : ℝ) : l.foldl (fun r a => r + f a) r = r + (l.map f).sum := by
  induction l generalizing r with
  | nil => simp
  | cons a l ih => rw [List.foldl_cons, ih, List.map_cons, List.sum_cons]; ring

theorem polyDown_from (x : ℝ) (a : List ℝ) (r : ℝ) :
    a.foldl (fun r c => r * x + c) r = r * x ^ a.length + Spec.polyDown x a := by
  induction a generalizing r with
  | nil => simp [Spec.polyDown]
  | cons c l ih =>
    have h : Spec.polyDown x (c :: l) = (0 * x + c) * x ^ l.length + Spec.polyDown x l := ih (0 * x + c)
    rw [h, List.foldl_cons, ih, List.length_cons]
    ring

/-- C44: `calFitPow` evaluates the polynomial with the highest power first. -/
theorem C44_fit (k : ℝ) (a : List ℝ) : calFitPow k a = Spec.polyDown k a := by
  unfold calFitPow
  rw [foldl_add_map, zero_add]
  induction a with
  | nil => simp [Spec.polyDown]
  | cons c l ih =>
    have hc : Spec.polyDown k (c :: l) = c * k ^ l.length + Spec.polyDown k l := by
      rw [Spec.polyDown, List.foldl_cons, polyDown_from]; ring
    rw [hc, ← ih, List.length_cons, List.range_succ_eq_map, List.map_cons, List.sum_cons, List.map_map]
    congr 1
    · rw [C44_ipow]; simp
    · congr 1
      apply List.map_congr_left
      intro i hi
      simp only [Function.comp_apply, List.getD_cons_succ]
      rw [show l.length + 1 - i.succ - 1 = l.length - i - 1 by omega]

/-- C44: `PwrSeries` evaluates the polynomial with the constant term first. -/
theorem C44_series (x : ℝ) (a : List ℝ) : pwrSeries x a = Spec.polyUp x a := by
  unfold pwrSeries
  rw [foldl_add_map]
  have key : ∀ (l : List ℝ), Spec.polyUp x l = ((List.range l.length).map (fun k => l.getD k 0 * x ^ k)).sum := by
    intro l
    induction l with
    | nil => simp [Spec.polyUp]
    | cons c l ih =>
      rw [Spec.polyUp, ih, List.length_cons, List.range_succ_eq_map, List.map_cons, List.sum_cons, List.map_map,
        ← List.sum_map_mul_left]
      congr 1
      · simp
      · congr 1
        apply List.map_congr_left
        intro i hi
        simp only [Function.comp_apply, List.getD_cons_succ]
        rw [pow_succ]; ring
  rw [key]
  cases a with
  | nil => simp
  | cons c l =>
    rw [List.length_cons, Nat.add_sub_cancel, List.range_succ_eq_map, List.map_cons, List.sum_cons]
    congr 1
    · simp
    · rw [List.range'_eq_map_range, List.map_map, List.map_map]
      congr 1
      apply List.map_congr_left
      intro i hi
      simp only [Function.comp_apply, Nat.succ_eq_add_one, Nat.add_comm 1 i]

/-- The two orders are reverse to each other. -/
theorem C44_order (x : ℝ) (a : List ℝ) : Spec.polyDown x a = Spec.polyUp x a.reverse := by
  induction a using List.reverseRecOn with
  | nil => rfl
  | append_singleton l c ih =>
    rw [List.reverse_append, List.reverse_singleton, List.singleton_append, Spec.polyUp, ← ih, Spec.polyDown,
      List.foldl_append]
    simp only [List.foldl_cons, List.foldl_nil, Spec.polyDown]
    ring

/-- `3 x^2 + 2 x + 1` at 10 in both orders, and a power. -/
example : calFitPow 10 [3, 2, 1] = 321 ∧ pwrSeries 10 [3, 2, 1] = 123 ∧ ipow 3 5 = 243 := by
  rw [C44_fit, C44_series, C44_ipow]
  norm_num [Spec.polyDown, Spec.polyUp]

/-! ## C45 -/

theorem boostStep_ge {Z Es scl lam dz E0 E1 : ℝ} {b b' : Boost} (h : boostStep Z Es scl lam dz E0 E1 b = some b') :
    Es ≤ b'.W := by
  unfold boostStep at h
  split at h
  · cases h
  · dsimp only at h
    split at h
    · cases h; exact le_refl _
    · rename_i hn
      have hn := not_lt.mp hn
      split at h <;> cases h <;> linarith

theorem boostLoop_ge {Z Es scl lam dz : ℝ} (l : List ℝ) {b b' : Boost} (h : boostLoop Z Es scl lam dz l b = some b')
    (hl : 2 ≤ l.length ∨ Es ≤ b.W) : Es ≤ b'.W := by
  induction l generalizing b with
  | nil => cases h; simpa using hl
  | cons e l ih =>
    cases l with
    | nil => cases h; simpa using hl
    | cons e1 l =>
      rw [boostLoop] at h
      split at h
      · cases h
      · rename_i b1 h1
        exact ih h (Or.inr (boostStep_ge h1))

/-- C45, energy: behind a cavity no particle has less than its rest energy. -/
theorem C45_energy {t : Table} {fRF : ℝ} {p : Particle} {fy0 scl W fy : ℝ} (h : getCavBoost t fRF p fy0 scl = .ok (W, fy)) :
    p.IonEs ≤ W := by
  unfold getCavBoost at h
  dsimp only at h
  split at h
  · cases h
  · rename_i hn
    split at h
    · cases h
    · rename_i b hb
      cases h
      exact boostLoop_ge _ hb (Or.inl (by simp only [fields, List.length_map]; omega))

theorem gamma_moving {Es W : ℝ} (he : 0 < Es) (hw : Es ≤ W) : W / Es * (W / Es) ≤ 1 ↔ ¬ Es < W := by
  have hg : 1 ≤ W / Es := (one_le_div he).mpr hw
  constructor
  · intro h hlt
    have := (one_lt_div he).mpr hlt
    nlinarith
  · intro h
    have : W = Es := le_antisymm (not_lt.mp h) hw
    rw [this, div_self he.ne']; norm_num

/-- The loop follows the motion. -/
theorem boostLoop_track {Z Es scl lam dz : ℝ} (he : 0 < Es) (l : List ℝ) (b : Boost) (r : Boost) (k0 : ℝ) (hk : b.k = some k0)
    (hl : l ≠ []) :
    boostLoop Z Es scl lam dz l b = some r →
      ∃ W φ K, Spec.Track Z Es scl lam dz (fun i => l.getD i 0) (l.length - 1) W φ K ∧ W 0 = b.W ∧ φ 0 = b.fy ∧ K 0 = k0 ∧
        r.fy = φ (l.length - 1) ∧ (r.W = W (l.length - 1) ∨ r.W = Es ∧ W (l.length - 1) < Es) ∧
        (2 ≤ l.length → Es ≤ r.W) := by
  induction l generalizing b k0 with
  | nil => exact absurd rfl hl
  | cons e l ih =>
    intro h
    cases l with
    | nil =>
      cases h
      exact ⟨fun _ => r.W, fun _ => r.fy, fun _ => k0,
        ⟨fun i hi => by simp at hi, fun i hi => by simp at hi, fun i hi => by simp at hi, fun i hi => by simp at hi⟩,
        rfl, rfl, rfl, rfl, Or.inl rfl, by simp⟩
    | cons e1 l =>
      have h0 := h
      rw [boostLoop] at h
      split at h
      · cases h
      · rename_i b1 h1
        have hge := boostLoop_ge _ h0 (Or.inl (by simp))
        have hge1 := boostStep_ge h1
        unfold boostStep at h1
        rw [hk] at h1
        dsimp only at h1
        -- one step
        by_cases hlast : l = []
        · subst hlast
          cases h
          refine ⟨fun i => if i = 0 then b.W else
              b.W + Z * scl * (e + e1) / 2 * Real.cos ((b.fy + (b.fy + k0 * dz)) / 2) * dz / MtoMM,
            fun i => if i = 0 then b.fy else b.fy + k0 * dz, fun _ => k0, ⟨?_, ?_, ?_, ?_⟩, ?_⟩
          · intro i hi
            obtain rfl : i = 0 := by simpa using hi
            simp
          · intro i hi
            obtain rfl : i = 0 := by simpa using hi
            simp [MtoMM]; ring
          · intro i hi h0
            simp at hi; omega
          · intro i hi h0
            simp at hi; omega
          · split at h1
            · rename_i hlt
              cases h1
              refine ⟨by simp, by simp, rfl, by simp, Or.inr ⟨rfl, ?_⟩, fun _ => hge⟩
              simpa using hlt
            · split at h1 <;> cases h1 <;> exact ⟨by simp, by simp, rfl, by simp, Or.inl (by simp), fun _ => hge⟩
        · -- more steps: the particle is still moving
          obtain ⟨e2, l', rfl⟩ := List.exists_cons_of_ne_nil hlast
          have hmov : ∃ k1, b1.k = some k1 := by
            cases hb : b1.k with
            | some k => exact ⟨k, rfl⟩
            | none => rw [boostLoop, boostStep, hb] at h; cases h
          obtain ⟨k1, hk1⟩ := hmov
          obtain ⟨W, φ, K, hT, hW, hφ, hK, hr1, hr2, hr3⟩ := ih b1 k1 hk1 (by simp) h
          have hb1 : b1.fy = b.fy + k0 * dz ∧
              b1.W = b.W + Z * scl * (e + e1) / 2 * Real.cos ((b.fy + (b.fy + k0 * dz)) / 2) * dz / MtoMM ∧
              Es < b1.W ∧ k1 = 2 * Real.pi / (Real.sqrt (1 - 1 / (b1.W / Es * (b1.W / Es))) * lam) := by
            split at h1
            · cases h1; simp at hk1
            · split at h1
              · cases h1; simp at hk1
              · rename_i hnl hng
                cases h1
                refine ⟨rfl, rfl, ?_, ?_⟩
                · have := mt (gamma_moving he hge1).mpr (fun hc => hng ⟨he.ne', hc⟩)
                  exact not_not.mp this
                · simpa using hk1.symm
          obtain ⟨f1, f2, f3, f4⟩ := hb1
          refine ⟨fun i => if i = 0 then b.W else W (i - 1), fun i => if i = 0 then b.fy else φ (i - 1),
            fun i => if i = 0 then k0 else K (i - 1), ⟨?_, ?_, ?_, ?_⟩, rfl, rfl, rfl, ?_, ?_, fun _ => hge⟩
          · intro i hi
            rcases Nat.eq_zero_or_pos i with rfl | hp
            · simp [hφ, f1]
            · have := hT.phase (i - 1) (by simp at hi ⊢; omega)
              rw [Nat.sub_add_cancel hp] at this
              simp only [Nat.ne_of_gt hp, if_false, Nat.add_sub_cancel]
              simpa using this
          · intro i hi
            rcases Nat.eq_zero_or_pos i with rfl | hp
            · simp [hφ, hW, f1, f2, MtoMM]; ring
            · have := hT.energy (i - 1) (by simp at hi ⊢; omega)
              rw [Nat.sub_add_cancel hp] at this
              simp only [Nat.ne_of_gt hp, if_false, Nat.add_sub_cancel]
              obtain ⟨j, rfl⟩ : ∃ j, i = j + 1 := ⟨i - 1, by omega⟩
              simpa using this
          · intro i hi h0
            simp only [Nat.ne_of_gt h0, if_false]
            rcases Nat.eq_zero_or_pos (i - 1) with hz | hp
            · rw [hz, hW]; exact f3
            · exact hT.moving (i - 1) (by simp at hi ⊢; omega) hp
          · intro i hi h0
            simp only [Nat.ne_of_gt h0, if_false]
            rcases Nat.eq_zero_or_pos (i - 1) with hz | hp
            · rw [hz, hW, hK, f4]
              congr 3
              congr 1
              have : b1.W ≠ 0 := by linarith
              field_simp
            · exact hT.wave (i - 1) (by simp at hi ⊢; omega) hp
          · simpa using hr1
          · simpa using hr2

/-- Conversely the loop comes to an end for every motion. -/
theorem track_boostLoop {Z Es scl lam dz : ℝ} (he : 0 < Es) (l : List ℝ) (b : Boost) (k0 : ℝ) (hk : b.k = some k0)
    (hl : l ≠ []) {W φ K : ℕ → ℝ} (hT : Spec.Track Z Es scl lam dz (fun i => l.getD i 0) (l.length - 1) W φ K)
    (hW : W 0 = b.W) (hφ : φ 0 = b.fy) (hK : K 0 = k0) :
    ∃ r, boostLoop Z Es scl lam dz l b = some r ∧ r.fy = φ (l.length - 1) ∧
      r.W = if 2 ≤ l.length then max Es (W (l.length - 1)) else W 0 := by
  induction l generalizing b k0 W φ K with
  | nil => exact absurd rfl hl
  | cons e l ih =>
    cases l with
    | nil => exact ⟨b, rfl, by simp [hφ], by simp [hW]⟩
    | cons e1 l =>
      have p0 := hT.phase 0 (by simp)
      have w0 := hT.energy 0 (by simp)
      simp only [zero_add, List.getD_cons_zero, List.getD_cons_succ] at p0 w0
      have e1' : b.fy + k0 * dz = φ 1 := by rw [p0, hφ, hK]
      have e2' : b.W + Z * scl * (e + e1) / 2 * Real.cos ((b.fy + φ 1) / 2) * dz / MtoMM = W 1 := by
        rw [w0, hW, hφ]; simp [MtoMM]; ring
      have hs : boostStep Z Es scl lam dz e e1 b =
          if W 1 - Es < 0 then some { W := Es, fy := φ 1, k := none }
          else if Es ≠ 0 ∧ W 1 / Es * (W 1 / Es) ≤ 1 then some { W := W 1, fy := φ 1, k := none }
          else some { W := W 1, fy := φ 1, k := some (2 * Real.pi / (Real.sqrt (1 - 1 / (W 1 / Es * (W 1 / Es))) * lam)) } := by
        unfold boostStep
        rw [hk]
        simp only [e1', e2']
      by_cases hlast : l = []
      · subst hlast
        rw [boostLoop, hs]
        by_cases hc : W 1 - Es < 0
        · rw [if_pos hc]
          exact ⟨_, rfl, by simp, by
            simp only [List.length_cons, List.length_nil, le_refl, if_true]
            exact (max_eq_left (by linarith)).symm⟩
        · rw [if_neg hc]
          have hm : max Es (W 1) = W 1 := max_eq_right (by linarith)
          by_cases hg : Es ≠ 0 ∧ W 1 / Es * (W 1 / Es) ≤ 1
          · rw [if_pos hg]
            exact ⟨_, rfl, by simp, by simp [hm]⟩
          · rw [if_neg hg]
            exact ⟨_, rfl, by simp, by simp [hm]⟩
      · obtain ⟨e2, l', rfl⟩ := List.exists_cons_of_ne_nil hlast
        have hmov := hT.moving 1 (by simp) (by norm_num)
        have hwav := hT.wave 1 (by simp) (by norm_num)
        rw [boostLoop, hs, if_neg (by linarith), if_neg (by
          rintro ⟨-, hc⟩
          exact absurd hmov ((gamma_moving he hmov.le).mp hc))]
        dsimp only
        have hTs : Spec.Track Z Es scl lam dz (fun i => (e1 :: e2 :: l').getD i 0) ((e1 :: e2 :: l').length - 1)
            (fun i => W (i + 1)) (fun i => φ (i + 1)) (fun i => K (i + 1)) := by
          refine ⟨?_, ?_, ?_, ?_⟩
          · intro i hi
            exact hT.phase (i + 1) (by simp at hi ⊢; omega)
          · intro i hi
            have := hT.energy (i + 1) (by simp at hi ⊢; omega)
            simpa using this
          · intro i hi h0
            exact hT.moving (i + 1) (by simp at hi ⊢; omega) (by omega)
          · intro i hi h0
            exact hT.wave (i + 1) (by simp at hi ⊢; omega) (by omega)
        obtain ⟨r, h1, h2, h3⟩ := ih
            ⟨W 1, φ 1, some (2 * Real.pi / (Real.sqrt (1 - 1 / (W 1 / Es * (W 1 / Es))) * lam))⟩ _ rfl (by simp) hTs rfl rfl (by
          show K 1 = _
          rw [hwav]
          congr 3
          congr 1
          have : W 1 ≠ 0 := by linarith
          field_simp)
        refine ⟨r, h1, by simpa using h2, ?_⟩
        rw [if_pos (by simp)] at h3 ⊢
        simpa using h3

/-- C45: a cavity moves a particle along the integrated equations of motion, and its result is defined exactly if the particle
keeps moving up to the last point but one.  If it comes to rest in the last interval it keeps its rest energy. -/
theorem C45_motion {t : Table} {fRF : ℝ} {p : Particle} {fy0 scl w fy : ℝ} (he : 0 < p.IonEs) (hb : p.beta ≠ 0)
    (hn : 2 ≤ t.rows.length) :
    getCavBoost t fRF p fy0 scl = .ok (w, fy) ↔
      ∃ W φ K, Spec.Track p.IonZ p.IonEs scl (C0 / fRF * 1000)
          (((t.rows.map (·.getD 0 0)).getLastD 0 - (t.rows.map (·.getD 0 0)).headD 0) / (t.rows.length - 1))
          (fun i => ((t.rows.map (·.getD 1 0)).getD i 0)) (t.rows.length - 1) W φ K ∧
        W 0 = p.IonW ∧ φ 0 = fy0 ∧ K 0 = 2 * Real.pi * fRF / (p.beta * C0 * 1000) ∧
        fy = φ (t.rows.length - 1) ∧ w = max p.IonEs (W (t.rows.length - 1)) := by
  have hlen : (fields t).length = t.rows.length := by simp [fields]
  have hne : fields t ≠ [] := by
    intro h
    rw [h] at hlen; simp at hlen; omega
  have hM : (MtoMM : ℝ) = 1000 := by norm_num [MtoMM]
  unfold getCavBoost
  simp only [if_neg (by omega : ¬ t.rows.length ≤ 1), if_neg hb, hM]
  constructor
  · intro h
    split at h
    · cases h
    · rename_i r hr
      cases h
      obtain ⟨W, φ, K, hT, h1, h2, h3, h4, h5, h6⟩ := boostLoop_track he _ _ _ _ rfl hne hr
      rw [hlen] at hT h4 h5 h6
      refine ⟨W, φ, K, hT, h1, h2, h3, h4, ?_⟩
      rcases h5 with h5 | ⟨h5, h7⟩
      · rw [h5, max_eq_right (h5 ▸ h6 hn)]
      · rw [h5, max_eq_left h7.le]
  · rintro ⟨W, φ, K, hT, h1, h2, h3, h4, h5⟩
    rw [← hlen] at hT
    obtain ⟨r, hr, h6, h7⟩ := track_boostLoop he (fields t)
      { W := p.IonW, fy := fy0, k := some (2 * Real.pi * fRF / (p.beta * C0 * 1000)) } _ rfl hne
      (by rw [hlen] at hT ⊢; exact hT) h1 h2 h3
    rw [show (extent t / ((t.rows.length : ℝ) - 1)) =
      ((t.rows.map (·.getD 0 0)).getLastD 0 - (t.rows.map (·.getD 0 0)).headD 0) / (t.rows.length - 1) from rfl, hr]
    dsimp only
    rw [hlen] at h6 h7
    rw [if_pos hn] at h7
    rw [h6, h7, h4, h5]

/-- A particle of total energy 2 and rest energy 1. -/
noncomputable def exSlow : Particle :=
  Particle.recalc { exParticle with IonEs := 1, IonEk := 1, IonW := 2, IonZ := 1 }

/-- A field map of three points. -/
def exMap : Table := { cols := 2, rows := [[0, 1000], [1, 1000], [2, 1000]] }

theorem exSlow_beta : exSlow.beta = Real.sqrt (3 / 4) := by
  simp only [exSlow, Particle.recalc]
  norm_num

/-- A particle that is accelerated from 2 to 3. -/
example : ∃ k, getCavBoost { cols := 2, rows := [[0, 1000], [1, 1000]] } 1 exSlow (-(k / 2)) 1 = .ok (3, k / 2) ∧
    0 < exSlow.IonEs ∧ exSlow.beta ≠ 0 := by
  have hb : exSlow.beta ≠ 0 := by rw [exSlow_beta]; exact (Real.sqrt_pos.mpr (by norm_num)).ne'
  have h1 : exSlow.IonEs = 1 := rfl
  have h2 : exSlow.IonW = 2 := by show (1 : ℝ) + 1 = 2; norm_num
  have h3 : exSlow.IonZ = 1 := rfl
  refine ⟨2 * Real.pi * 1 / (exSlow.beta * C0 * 1000), ?_, by rw [h1]; norm_num, hb⟩
  generalize hk : 2 * Real.pi * 1 / (exSlow.beta * C0 * 1000) = k
  rw [C45_motion (by rw [h1]; norm_num) hb (by simp)]
  refine ⟨fun i => 2 + i, fun i => -(k / 2) + i * k, fun _ => k, ⟨?_, ?_, ?_, ?_⟩, by simp [h2], by simp, hk.symm, ?_, ?_⟩
  · intro i hi
    simp
    ring
  · intro i hi
    obtain rfl : i = 0 := by simpa using hi
    simp only [h3, List.map_cons, List.map_nil, List.getD_cons_zero, List.getD_cons_succ, zero_add, Nat.cast_zero, Nat.cast_one]
    rw [show (-(k / 2) + 0 * k + (-(k / 2) + 1 * k)) / 2 = 0 by ring, Real.cos_zero]
    norm_num
  · intro i hi h0
    simp at hi; omega
  · intro i hi h0
    simp at hi; omega
  · simp; ring
  · rw [h1]; norm_num

/-- C45, phase: a particle that loses its energy before the last interval has an infinite wave number; energy and phase behind
the cavity are then not numbers. -/
theorem C45_false : ∃ (t : Table) (fRF : ℝ) (p : Particle) (fy0 scl : ℝ), 0 < p.IonEs ∧ p.IonEs < p.IonW ∧ p.beta ≠ 0 ∧
    2 ≤ t.rows.length ∧ p = p.recalc ∧ ∀ r, getCavBoost t fRF p fy0 scl ≠ .ok r := by
  have hb : exSlow.beta ≠ 0 := by rw [exSlow_beta]; exact (Real.sqrt_pos.mpr (by norm_num)).ne'
  have h1 : exSlow.IonEs = 1 := rfl
  have h2 : exSlow.IonW = 2 := by show (1 : ℝ) + 1 = 2; norm_num
  have h3 : exSlow.IonZ = 1 := rfl
  refine ⟨exMap, 1, exSlow, Real.pi - 2 * Real.pi * 1 / (exSlow.beta * C0 * 1000) / 2, 2, ?_, ?_, hb, by simp [exMap], ?_, ?_⟩
  · rw [h1]; norm_num
  · rw [h1, h2]; norm_num
  · rfl
  · rintro ⟨w, fy⟩ h
    rw [C45_motion (by rw [h1]; norm_num) hb (by simp [exMap])] at h
    obtain ⟨W, φ, K, hT, hW, hφ, hK, -, -⟩ := h
    have a := hT.phase 0 (by simp [exMap])
    have b := hT.energy 0 (by simp [exMap])
    have c := hT.moving 1 (by simp [exMap]) (by norm_num)
    simp only [exMap, zero_add, List.map_cons, List.map_nil, List.getD_cons_zero, List.getD_cons_succ, List.length_cons,
      List.length_nil, List.getLastD_cons, List.headD_cons, List.getLastD_nil] at a b
    rw [hφ, hK] at a
    norm_num at a
    have hs : (φ 0 + φ 1) / 2 = Real.pi := by rw [hφ, a]; ring
    rw [hs, Real.cos_pi, hW, h2, h3] at b
    rw [h1] at c
    norm_num at b
    linarith

end Flame.Cavity
