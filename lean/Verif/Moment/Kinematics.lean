import Verif.Moment.Model
import Mathlib.Tactic.Linarith
import Mathlib.Tactic.Positivity
import Mathlib.Tactic.FieldSimp
import Mathlib.Tactic.Ring
import Mathlib.Tactic.NormNum
import Mathlib.Analysis.SpecialFunctions.Pow.Real

/-! # Energies and velocities of particles: C38 -/

namespace Flame.Moment

/-- Total energy, Lorentz factor and velocity after `recalc`, for any particle with a positive rest energy that is at rest
or moves: total = rest + kinetic, the factor is total over rest and at least 1, the velocity is at least 0 and less than 1
and belongs to the factor, and what was put in is not touched.  A second `recalc` changes nothing. -/
theorem C38_energy (p : Particle) (h0 : 0 < p.IonEs) (hk : 0 ≤ p.IonEk) :
    p.recalc.IonW = p.IonEs + p.IonEk ∧ p.recalc.gamma * p.IonEs = p.IonEs + p.IonEk ∧ 1 ≤ p.recalc.gamma ∧
    0 ≤ p.recalc.beta ∧ p.recalc.beta < 1 ∧ p.recalc.gamma ^ 2 * (1 - p.recalc.beta ^ 2) = 1 ∧
    (p.recalc.beta = 0 ↔ p.IonEk = 0) ∧
    p.recalc.IonZ = p.IonZ ∧ p.recalc.IonQ = p.IonQ ∧ p.recalc.IonEs = p.IonEs ∧ p.recalc.IonEk = p.IonEk ∧
    p.recalc.SampleFreq = p.SampleFreq ∧ p.recalc.phis = p.phis ∧ p.recalc.recalc = p.recalc := by
  have hg : p.recalc.gamma = (p.IonEs + p.IonEk) / p.IonEs := by simp [Particle.recalc, h0.ne']
  have hb : p.recalc.beta = Real.sqrt (1 - 1 / (p.recalc.gamma * p.recalc.gamma)) := rfl
  have hg1 : 1 ≤ p.recalc.gamma := by rw [hg, le_div_iff₀ h0]; linarith
  generalize p.recalc.gamma = g at hg hb hg1
  generalize p.recalc.beta = b at hb
  have hgp : 0 < g * g := by positivity
  have hle : 1 / (g * g) ≤ 1 := by rw [div_le_one hgp]; nlinarith
  have hpos : 0 < 1 / (g * g) := by positivity
  have hsq : b ^ 2 = 1 - 1 / (g * g) := by rw [hb, Real.sq_sqrt (by linarith)]
  have hbn : 0 ≤ b := by rw [hb]; exact Real.sqrt_nonneg _
  refine ⟨rfl, by rw [hg]; field_simp, hg1, hbn, ?_, ?_, ?_, rfl, rfl, rfl, rfl, rfl, rfl, rfl⟩
  · nlinarith
  · rw [hsq]
    field_simp
    ring
  · constructor
    · intro h
      rw [h] at hsq
      have h1 : 1 / (g * g) = 1 := by linarith
      have h2 : g * g = 1 := by
        rw [div_eq_one_iff_eq hgp.ne'] at h1
        exact h1.symm
      have h3 : g = 1 := by nlinarith
      rw [h3, eq_div_iff h0.ne'] at hg
      linarith
    · intro h
      have h3 : g = 1 := by rw [hg, h, add_zero, div_self h0.ne']
      rw [h3] at hb
      rw [hb]
      simp

/-- The reported product of velocity and Lorentz factor, and what follows from it for a moving particle: it is the momentum
in units of the rest energy, the rigidity is momentum over charge, and the phase advance per length belongs to the
velocity.  Partial with respect to C38 because of particles at rest (`C38_at_rest_false`). -/
theorem C38_momentum_partial (p : Particle) (h0 : 0 < p.IonEs) (hk : 0 < p.IonEk) :
    p.recalc.bg = p.recalc.beta * p.recalc.gamma ∧ 0 < p.recalc.bg ∧
    (p.recalc.bg * p.IonEs) ^ 2 + p.IonEs ^ 2 = p.recalc.IonW ^ 2 ∧
    (p.IonZ ≠ 0 → p.recalc.Brho * (C0 * p.IonZ) = p.recalc.bg * p.IonEs) ∧
    (p.SampleFreq ≠ 0 → p.recalc.SampleLambda * p.SampleFreq = 1000 * C0 ∧
      p.recalc.SampleIonK * (p.recalc.beta * p.recalc.SampleLambda) = 2 * Real.pi) := by
  obtain ⟨hW, hg, hg1, hb0, hb1, hgb, hbz, -⟩ := C38_energy p h0 hk.le
  have hbne : p.recalc.beta ≠ 0 := fun h => hk.ne' (hbz.1 h)
  have hbp : 0 < p.recalc.beta := lt_of_le_of_ne hb0 hbne.symm
  have hbg : p.recalc.bg = p.recalc.beta * p.recalc.gamma := by
    show (if p.recalc.beta ≠ 0 then p.recalc.beta * p.recalc.gamma else 1) = _
    rw [if_pos hbne]
  have hBr : p.recalc.Brho = p.recalc.beta * p.recalc.IonW / (C0 * p.IonZ) := rfl
  have hlam : p.recalc.SampleLambda = C0 / p.SampleFreq * MtoMM := rfl
  have hK : p.recalc.SampleIonK = 2 * Real.pi / (p.recalc.beta * p.recalc.SampleLambda) := rfl
  refine ⟨hbg, by rw [hbg]; positivity, ?_, ?_, ?_⟩
  · rw [hbg, hW, ← hg]
    linear_combination (-p.IonEs ^ 2) * hgb
  · intro hZ
    have hC : C0 ≠ 0 := by norm_num [C0]
    rw [hBr, hbg, hW, ← hg]
    field_simp
  · intro hf
    have hC : C0 ≠ 0 := by norm_num [C0]
    have hl : p.recalc.SampleLambda ≠ 0 := by
      rw [hlam]
      have : MtoMM ≠ 0 := by norm_num [MtoMM]
      positivity
    refine ⟨?_, ?_⟩
    · rw [hlam]
      simp only [MtoMM]
      field_simp
    · rw [hK]
      field_simp

/-- A particle at rest is reported with 1 instead of the product 0. -/
theorem C38_at_rest_false (p : Particle) (h0 : 0 < p.IonEs) (hk : p.IonEk = 0) :
    p.recalc.beta * p.recalc.gamma = 0 ∧ p.recalc.bg = 1 := by
  obtain ⟨-, -, -, -, -, -, hbz, -⟩ := C38_energy p h0 hk.ge
  have hb : p.recalc.beta = 0 := hbz.2 hk
  refine ⟨by rw [hb, zero_mul], ?_⟩
  show (if p.recalc.beta ≠ 0 then p.recalc.beta * p.recalc.gamma else 1) = _
  rw [if_neg (by simpa using hb)]

/-- More kinetic energy means a larger velocity, of particles of the same rest energy. -/
theorem C38_monotone (p q : Particle) (h0 : 0 < p.IonEs) (hE : q.IonEs = p.IonEs) (hk : 0 ≤ p.IonEk)
    (hpq : p.IonEk < q.IonEk) : p.recalc.beta < q.recalc.beta ∧ p.recalc.gamma < q.recalc.gamma := by
  obtain ⟨-, hg, hg1, hb0, -, hgb, -⟩ := C38_energy p h0 hk
  obtain ⟨-, hg', hg1', hb0', -, hgb', -⟩ := C38_energy q (by rw [hE]; exact h0) (by linarith)
  rw [hE] at hg'
  have hgg : p.recalc.gamma < q.recalc.gamma := by
    by_contra hc
    push Not at hc
    nlinarith
  refine ⟨?_, hgg⟩
  by_contra hc
  push Not at hc
  have h1 : q.recalc.beta ^ 2 ≤ p.recalc.beta ^ 2 := by nlinarith
  have h2 : p.recalc.gamma ^ 2 < q.recalc.gamma ^ 2 := by nlinarith
  have h3 : 0 < 1 - p.recalc.beta ^ 2 := by
    by_contra h
    push Not at h
    nlinarith [sq_nonneg p.recalc.gamma]
  nlinarith [sq_nonneg q.recalc.gamma, sq_nonneg p.recalc.gamma]

/-- A uranium nucleon of 500 keV meets the hypotheses, also with a faster one. -/
example : let p : Particle := ⟨33 / 238, 1, 931494320, 0, 0, 0, 0, 80500000, 0, 0, 0, 500000⟩
    let q : Particle := { p with IonEk := 600000 }
    0 < p.IonEs ∧ 0 < p.IonEk ∧ p.IonZ ≠ 0 ∧ p.SampleFreq ≠ 0 ∧ q.IonEs = p.IonEs ∧ p.IonEk < q.IonEk := by
  norm_num

/-! ## particles that move -/

/-- A particle whose derived numbers are up to date and which moves. -/
structure Moving (p : Particle) : Prop where
  same : p.recalc = p
  mass : 0 < p.IonEs
  energy : 0 < p.IonEk

theorem Moving.ionW {p : Particle} (h : Moving p) : p.IonW = p.IonEs + p.IonEk := by rw [← h.same]; rfl

theorem Moving.gamma {p : Particle} (h : Moving p) : p.gamma = p.IonW / p.IonEs := by
  have : p.gamma = p.recalc.gamma := by rw [h.same]
  rw [this, h.ionW]
  simp only [Particle.recalc, if_pos h.mass.ne']

theorem Moving.beta {p : Particle} (h : Moving p) : p.beta = Real.sqrt (1 - 1 / (p.gamma * p.gamma)) := by
  have : p.beta = p.recalc.beta := by rw [h.same]
  have g : p.gamma = p.recalc.gamma := by rw [h.same]
  rw [this, g]; rfl

theorem Moving.one_lt {p : Particle} (h : Moving p) : 1 < p.gamma := by
  rw [h.gamma, one_lt_div h.mass, h.ionW]
  linarith [h.energy]

theorem Moving.beta_pos {p : Particle} (h : Moving p) : 0 < p.beta := by
  rw [h.beta]
  apply Real.sqrt_pos.mpr
  have h1 := h.one_lt
  have : 1 / (p.gamma * p.gamma) < 1 := (div_lt_one (by nlinarith)).mpr (by nlinarith)
  linarith

theorem Moving.bg {p : Particle} (h : Moving p) : p.bg = p.beta * p.gamma := by
  have e : p.bg = p.recalc.bg := by rw [h.same]
  have g : p.gamma = p.recalc.gamma := by rw [h.same]
  have b : p.beta = p.recalc.beta := by rw [h.same]
  have hb := h.beta_pos.ne'
  rw [b] at hb
  rw [e, b, g]
  simp only [Particle.recalc] at hb ⊢
  rw [if_pos hb]

theorem Moving.lambda {p : Particle} (h : Moving p) : p.SampleLambda = C0 / p.SampleFreq * MtoMM := by
  have : p.SampleLambda = p.recalc.SampleLambda := by rw [h.same]
  rw [this]; rfl

theorem Moving.wave {p : Particle} (h : Moving p) : p.SampleIonK = 2 * Real.pi / (p.beta * p.SampleLambda) := by
  have : p.SampleIonK = p.recalc.SampleIonK := by rw [h.same]
  have b : p.beta = p.recalc.beta := by rw [h.same]
  have l : p.SampleLambda = p.recalc.SampleLambda := by rw [h.same]
  rw [this, b, l]; rfl

theorem C0_ne : (C0 : ℝ) ≠ 0 := by norm_num [C0]
theorem MtoMM_ne : (MtoMM : ℝ) ≠ 0 := by norm_num [MtoMM]
theorem MeVtoeV_ne : (MeVtoeV : ℝ) ≠ 0 := by norm_num [MeVtoeV]

end Flame.Moment
