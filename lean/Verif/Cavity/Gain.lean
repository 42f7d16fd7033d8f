import Verif.Cavity.SpecPass
import Verif.Cavity.Off

/-!
# Energy gain in a cavity

A particle that has more kinetic energy than the cavity can take gets through, so nothing is NaN, and its energy changes by at
most the voltage times its charge.
-/

namespace Flame.Cavity

open Flame.Mach (Err)
open Flame.Moment

/-- The field map of a cavity. -/
noncomputable def mapOf (t : Table) : Spec.FieldMap where
  E := fun i => (t.rows.map (·.getD 1 0)).getD i 0
  n := t.rows.length - 1
  dz := ((t.rows.map (·.getD 0 0)).getLastD 0 - (t.rows.map (·.getD 0 0)).headD 0) / (t.rows.length - 1)

theorem boostLoop_bound {Z Es scl lam dz : ℝ} (he : 0 < Es) (l : List ℝ) (b : Boost) (k0 : ℝ) (hk : b.k = some k0)
    (hb : |Z| * (∑ i ∈ Finset.range (l.length - 1), |scl * ((l.getD i 0 + l.getD (i + 1) 0) / 2) * (dz / 1000)|) < b.W - Es) :
    ∃ r, boostLoop Z Es scl lam dz l b = some r ∧
      |r.W - b.W| ≤ |Z| * (∑ i ∈ Finset.range (l.length - 1), |scl * ((l.getD i 0 + l.getD (i + 1) 0) / 2) * (dz / 1000)|) := by
  induction l generalizing b k0 with
  | nil => exact ⟨b, rfl, by simp⟩
  | cons e l ih =>
    cases l with
    | nil => exact ⟨b, rfl, by simp⟩
    | cons e1 l =>
      simp only [List.length_cons, Nat.add_sub_cancel] at hb ⊢
      rw [Finset.sum_range_succ'] at hb ⊢
      simp only [List.getD_cons_zero, List.getD_cons_succ, zero_add] at hb ⊢
      have hih := ih
      simp only [List.length_cons, Nat.add_sub_cancel, List.getD_cons_succ] at hih
      clear ih
      have hV : 0 ≤ |Z| * (∑ i ∈ Finset.range l.length, |scl * (((e1 :: l).getD i 0 + l.getD i 0) / 2) * (dz / 1000)|) :=
        mul_nonneg (abs_nonneg _) (Finset.sum_nonneg fun _ _ => abs_nonneg _)
      generalize (∑ i ∈ Finset.range l.length, |scl * (((e1 :: l).getD i 0 + l.getD i 0) / 2) * (dz / 1000)|) = V at *
      rw [mul_add] at hb ⊢
      rw [boostLoop]
      have hc := Real.abs_cos_le_one ((b.fy + (b.fy + k0 * dz)) / 2)
      have hw : |Z * scl * (e + e1) / 2 * Real.cos ((b.fy + (b.fy + k0 * dz)) / 2) * dz / MtoMM| ≤
          |Z| * |scl * ((e + e1) / 2) * (dz / 1000)| := by
        have e1 : Z * scl * (e + e1) / 2 * Real.cos ((b.fy + (b.fy + k0 * dz)) / 2) * dz / MtoMM =
            Z * (scl * ((e + e1) / 2) * (dz / 1000)) * Real.cos ((b.fy + (b.fy + k0 * dz)) / 2) := by
          simp [MtoMM]; ring
        rw [e1, abs_mul, abs_mul]
        exact mul_le_of_le_one_right (by positivity) hc
      have hw' := abs_le.1 hw
      unfold boostStep
      rw [hk]
      dsimp only
      generalize Z * scl * (e + e1) / 2 * Real.cos ((b.fy + (b.fy + k0 * dz)) / 2) * dz / MtoMM = w at *
      generalize |Z| * |scl * ((e + e1) / 2) * (dz / 1000)| = v at *
      have hgt : Es < b.W + w := by linarith [hw'.1]
      rw [if_neg (by linarith), if_neg (by
        rintro ⟨-, hc⟩
        exact absurd hgt ((gamma_moving he hgt.le).mp hc))]
      dsimp only
      obtain ⟨r, h1, h2⟩ := hih { W := b.W + w, fy := b.fy + k0 * dz, k := _ } _ rfl (by
        show _ < b.W + w - Es
        linarith [hw'.1])
      refine ⟨r, h1, ?_⟩
      have h2 := abs_le.1 h2
      dsimp only at h2
      rw [abs_le]
      constructor <;> linarith [hw'.1, hw'.2, h2.1, h2.2]

/-- A particle whose kinetic energy exceeds what the cavity can take from it gets through, and gains or loses at most the
voltage times its charge. -/
theorem C45_gain {t : Table} {f : ℝ} {p : Particle} (fy0 scl : ℝ) (hp : Moving p) (hn : 2 ≤ t.rows.length)
    (hb : |p.IonZ| * (mapOf t).voltage scl < p.IonEk) :
    ∃ W fy, getCavBoost t f p fy0 scl = .ok (W, fy) ∧ |W - (p.IonEs + p.IonEk)| ≤ |p.IonZ| * (mapOf t).voltage scl ∧
      p.IonEs < W := by
  unfold getCavBoost
  simp only [if_neg (by omega : ¬ t.rows.length ≤ 1), if_neg hp.beta_pos.ne']
  have hl : (fields t).length = t.rows.length := by simp [fields]
  have hv : (mapOf t).voltage scl = ∑ i ∈ Finset.range ((fields t).length - 1),
      |scl * (((fields t).getD i 0 + (fields t).getD (i + 1) 0) / 2) * (extent t / ((t.rows.length : ℝ) - 1) / 1000)| := by
    rw [hl]
    rfl
  have := boostLoop_bound (Z := p.IonZ) (scl := scl) (lam := C0 / f * MtoMM) (dz := extent t / ((t.rows.length : ℝ) - 1)) hp.mass
    (fields t) { W := p.IonW, fy := fy0, k := some (2 * Real.pi * f / (p.beta * C0 * MtoMM)) } _ rfl (by
      rw [← hv]
      show _ < p.IonW - p.IonEs
      rw [hp.ionW]
      linarith)
  obtain ⟨r, h1, h2⟩ := this
  rw [← hv] at h2
  rw [h1]
  dsimp only at h2
  rw [hp.ionW] at h2
  refine ⟨r.W, r.fy, rfl, h2, ?_⟩
  have := (abs_le.1 h2).1
  linarith

end Flame.Cavity
