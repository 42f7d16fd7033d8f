import Verif.Cavity.Optics

/-!
# A cavity that is switched off: C61
-/

namespace Flame.Cavity

open Flame.Mach (Err)
open Flame.Linear (LCfg getNum getNumD)
open Flame.Moment

/-- C61, energy and phase: without a field the energy stays and the phase advances over the length of the field map. -/
theorem C61_boost {t : Table} {f : ℝ} {p : Particle} (fy0 : ℝ) (hp : Moving p) (hf : f ≠ 0) (hn : 2 ≤ t.rows.length) :
    getCavBoost t f p fy0 0 = .ok (p.IonW, fy0 + 2 * Real.pi * f / (p.beta * C0 * 1000) * extent t) := by
  have hb := hp.beta_pos.ne'
  have hw : p.IonEs < p.IonW := by rw [hp.ionW]; linarith [hp.energy]
  have hn1 : (t.rows.length : ℝ) - 1 ≠ 0 := by
    have : (2 : ℝ) ≤ t.rows.length := by exact_mod_cast hn
    linarith
  rw [C45_motion hp.mass hb hn]
  refine ⟨fun _ => p.IonW, fun i => fy0 + i * (2 * Real.pi * f / (p.beta * C0 * 1000) * (extent t / (t.rows.length - 1))),
    fun _ => 2 * Real.pi * f / (p.beta * C0 * 1000), ⟨?_, ?_, ?_, ?_⟩, rfl, by simp, rfl, ?_, ?_⟩
  · intro i _
    rw [show ((t.rows.map (·.getD 0 0)).getLastD 0 - (t.rows.map (·.getD 0 0)).headD 0 : ℝ) = extent t from rfl]
    push_cast
    ring
  · intro i _
    ring
  · intro i _ _
    exact hw
  · intro i _ _
    have e : Real.sqrt (1 - (p.IonEs / p.IonW) ^ 2) = p.beta := by
      rw [hp.beta, hp.gamma]
      congr 2
      have h1 := hp.mass.ne'
      have h2 : p.IonW ≠ 0 := by linarith [hp.mass]
      field_simp
    rw [e]
    have := C0_ne
    field_simp
  · show _ = fy0 + ((t.rows.length - 1 : ℕ) : ℝ) * _
    rw [Nat.cast_sub (by omega), Nat.cast_one]
    field_simp
  · exact (max_eq_right hw.le).symm

/-- Behind it a particle is where a drift of the length of the field map leaves it. -/
theorem boosted_off {p : Particle} {f fy0 L : ℝ} (hp : Moving p) (hf : f ≠ 0) :
    boosted p p.IonW fy0 (fy0 + 2 * Real.pi * f / (p.beta * C0 * 1000) * L) (f / p.SampleFreq) =
      { p with phis := p.phis + p.SampleIonK * L } := by
  have e : Particle.recalc { p with IonW := p.IonW, IonEk := p.IonW - p.IonEs } = p := by
    rw [hp.ionW, add_sub_cancel_left]
    conv_rhs => rw [← hp.same]
    rfl
  unfold boosted
  simp only [e]
  congr 1
  rw [hp.wave, hp.lambda]
  have h1 := hp.beta_pos.ne'
  have h2 := C0_ne
  rw [show (MtoMM : ℝ) = 1000 by norm_num [MtoMM]]
  field_simp
  ring

theorem kin_moving {p : Particle} (hp : Moving p) (lam : ℝ) :
    kin p.IonEs (p.IonEk + p.IonEs) lam = .ok ⟨p.gamma, p.beta, 2 * Real.pi / (p.beta * lam)⟩ := by
  have h1 := hp.one_lt
  unfold kin
  simp only
  rw [show (p.IonEk + p.IonEs) / p.IonEs = p.gamma by rw [hp.gamma, hp.ionW, add_comm], if_neg (by nlinarith), ← hp.beta]

/-! ## matrices without a field -/

/-- Length of the drifts of a lattice. -/
def drifts : List RawParams → ℝ
  | [] => 0
  | P :: l => (if P.type = "drift" then P.length else 0) + drifts l

theorem driftT_mul (a b : ℝ) : driftT a * driftT b = driftT (a + b) := by
  ext i j
  rw [Matrix.mul_apply, Fin.sum_univ_seven]
  fin_cases i <;> fin_cases j <;> simp [driftT, setAt, Matrix.one_apply] <;> ring

theorem driftL_mul (a b : ℝ) : driftL a * driftL b = driftL (a + b) := by
  ext i j
  rw [Matrix.mul_apply, Fin.sum_univ_seven]
  fin_cases i <;> fin_cases j <;> (simp [driftL, setAt, Matrix.one_apply]; try ring)

theorem setAt_one_self (i j : Fin 7) (h : i ≠ j) : setAt 1 i j 0 = 1 := by
  ext a b
  unfold setAt
  split
  · rename_i hab
    rw [hab.1, hab.2, Matrix.one_apply, if_neg h]
  · rfl

theorem focusT_zero : focusT 0 0 = 1 := by
  rw [focusT, setAt_one_self _ _ (by decide), setAt_one_self _ _ (by decide)]
theorem kickT_zero : kickT 0 = 1 := setAt_one_self _ _ (by decide)
theorem kickL_zero : kickL 0 = 1 := setAt_one_self _ _ (by decide)
theorem driftT_zero : driftT 0 = 1 := by
  rw [driftT, setAt_one_self _ _ (by decide), setAt_one_self _ _ (by decide)]
theorem driftL_zero : driftL 0 = 1 := setAt_one_self _ _ (by decide)
theorem accelT_one : accelT 1 = 1 := by
  ext a b
  fin_cases a <;> fin_cases b <;> simp [accelT, setAt]

theorem eKick_zero (Z b g T S fy : ℝ) : eKick Z 0 b g T S fy = 0 := by simp [eKick]
theorem hKick_zero (Z b g T S fy : ℝ) : hKick Z 0 b g T S fy = 0 := by simp [hKick]

/-- Longitudinal entry of a drift of length 1 at the frequency of the cavity. -/
noncomputable def slipOf (p : Particle) (lam : ℝ) : ℝ :=
  -2 * Real.pi / lam * (1 / ((p.beta * p.gamma) * (p.beta * p.gamma) * (p.beta * p.gamma)) * MeVtoeV / p.IonEs)

theorem genFold_off {mpole : Nat} {Z Rm lam : ℝ} {p : Particle} (hp : Moving p) (l : List RawParams) {t t' : Gen}
    (h : foldE (genStep mpole Z p.IonEs 0 Rm lam) l t = .ok t') (hW : t.W = p.IonEk + p.IonEs) (hg : t.gamma = p.gamma)
    (hb : t.beta = p.beta) :
    t'.M = driftT (drifts l) * t.M ∧ t'.lon = driftL (slipOf p lam * drifts l) * t.lon := by
  induction l generalizing t with
  | nil => cases h; simp [drifts, driftT_zero, driftL_zero]
  | cons P l ih =>
    rw [foldE] at h
    split at h
    · cases h
    · rename_i u hu
      have key : u.W = p.IonEk + p.IonEs ∧ u.gamma = p.gamma ∧ u.beta = p.beta ∧
          u.M = driftT (if P.type = "drift" then P.length else 0) * t.M ∧
          u.lon = driftL (slipOf p lam * (if P.type = "drift" then P.length else 0)) * t.lon := by
        have one : P.type ≠ "drift" → (if P.type = "drift" then P.length else 0) = 0 := fun h => if_neg h
        unfold genStep at hu
        simp only [mul_zero, eKick_zero, hKick_zero, zero_div, neg_zero, focusT_zero, kickT_zero, one_mul, ite_self,
          zero_mul, kickL_zero, sub_zero, add_zero] at hu
        split at hu
        · rename_i e
          cases hu
          rw [if_pos e]
          refine ⟨hW, hg, hb, rfl, ?_⟩
          rw [hb, hg, slipOf]
          ring_nf
        all_goals first | (rename_i e; rw [one (by rw [e]; decide)]) | skip
        all_goals try (cases hu; simp [driftT_zero, driftL_zero, hW, hg, hb])
        · rw [hW, kin_moving hp] at hu
          cases hu
          have h0 : p.beta * p.gamma ≠ 0 := mul_ne_zero hp.beta_pos.ne' (by linarith [hp.one_lt])
          simp [driftT_zero, driftL_zero, hg, hb, div_self h0, accelT_one]
        · cases hu
      obtain ⟨k1, k2, k3, k4, k5⟩ := key
      obtain ⟨h1, h2⟩ := ih h k1 k2 k3
      rw [h1, h2, k4, k5, ← Matrix.mul_assoc, ← Matrix.mul_assoc, driftT_mul, driftL_mul, drifts]
      constructor
      · rw [add_comm]
      · rw [← mul_add, add_comm (drifts l)]

open Classical in
theorem transFold_off {mpole : Nat} {Z Rm lam : ℝ} {a b c : Kin} (l : List (RawParams × ℝ × Line)) {t t' : Trans}
    (hl : ∀ q ∈ l, q.1.type = "AccGap" → q.2.2.Accel = 1) (h : foldE (transStep mpole Z 0 Rm lam a b c) l t = .ok t') :
    t'.M = driftT (drifts (l.map (·.1))) * t.M := by
  induction l generalizing t with
  | nil => cases h; simp [drifts, driftT_zero]
  | cons q l ih =>
    rw [foldE] at h
    split at h
    · cases h
    · rename_i u hu
      have key : u.M = driftT (if q.1.type = "drift" then q.1.length else 0) * t.M := by
        have one : q.1.type ≠ "drift" → (if q.1.type = "drift" then q.1.length else 0) = 0 := fun h => if_neg h
        have acc := hl q (List.mem_cons_self ..)
        unfold transStep at hu
        simp only [mul_zero, eKick_zero, hKick_zero, zero_div, neg_zero, focusT_zero, kickT_zero, one_mul, ite_self] at hu
        split at hu
        · rename_i e
          cases hu
          rw [if_pos e]
        all_goals first | (rename_i e; rw [one (by rw [e]; decide)]) | skip
        all_goals try (cases hu; simp [driftT_zero])
        · split <;> rfl
        · rename_i e
          rw [acc e, accelT_one] at hu
          split at hu
          · cases hu
          · cases hu; simp [driftT_zero]
        · cases hu
      rw [ih (fun q hq => hl q (List.mem_cons_of_mem _ hq)) h, key, ← Matrix.mul_assoc, driftT_mul, List.map_cons, drifts,
        add_comm]

open Classical in
theorem linesFrom_off {cav : Cav} {k0 k1 : ℝ} {a : Kin} (ha : a.beta * a.gamma ≠ 0) (l : List RawParams) {s : ℝ}
    {r : List (RawParams × ℝ × Line)} (h : linesFrom cav k0 k1 a a a s l = .ok r) :
    (∀ q ∈ r, q.1.type = "AccGap" → q.2.2.Accel = 1) ∧ r.map (·.1) = l := by
  induction l generalizing s r with
  | nil => cases h; simp
  | cons P l ih =>
    rw [linesFrom] at h
    split at h
    · cases h
    · rename_i x hx
      split at h
      · cases h
      · rename_i r' hr
        cases h
        obtain ⟨h1, h2⟩ := ih hr
        refine ⟨?_, by simp [h2]⟩
        intro q hq hP
        rcases List.mem_cons.mp hq with rfl | hq
        · unfold lineOf at hx
          simp only at hP
          simp only [hP] at hx
          cases hx
          show (if _ then _ else _) = _
          rw [ite_self, div_self ha]
        · exact h1 q hq hP

theorem transFacts_off {b : Bool} {t : Table} {label gap : Nat} {beta k : ℝ} {g : Gap}
    (h : transFacts b t label beta k gap 0 = .ok g) : g.V0 = 0 := by
  unfold transFacts at h
  have hT : ∀ x, (match tableFactors t 2 gap k true with
    | .error e => .error e
    | .ok g => .ok { g with V0 := g.V0 * 0 } : Except Err Gap) = .ok x → x.V0 = 0 := by
    intro x hx
    split at hx
    · cases hx
    · cases hx; simp
  dsimp only at h
  split at h
  · exact hT g h
  · split at h
    · cases h
    · split at h
      · exact hT g h
      · unfold gapFit at h
        split at h <;> first | (cases h; simp) | cases h

/-- The matrix of a cavity with two gaps. -/
theorem getCavMat_off {cav : Cav} {label : Nat} {Rm fy0 : ℝ} {p : Particle} (hp : Moving p) {M : Mat}
    (h : getCavMat cav label Rm p.IonZ p.IonEs 0 fy0 p.IonEk = .ok M) :
    M = driftT (drifts cav.lattice) * driftL (slipOf p (C0 / cav.fRF * MtoMM) * extent cav.cavData) := by
  have h0 : p.beta * p.gamma ≠ 0 := mul_ne_zero hp.beta_pos.ne' (by linarith [hp.one_lt])
  have ev : ∀ {dis fy k lam : ℝ} {g : Gap} {r : ℝ × Kin × ℝ}, g.V0 = 0 →
      evalGapModel dis (p.IonEk + p.IonEs) p.IonZ p.IonEs fy k lam g = .ok r →
      r.1 = p.IonEk + p.IonEs ∧ r.2.1 = ⟨p.gamma, p.beta, 2 * Real.pi / (p.beta * lam)⟩ := by
    intro dis fy k lam g r hg hr
    unfold evalGapModel at hr
    simp only [hg, mul_zero, zero_mul, add_zero, sub_zero, kin_moving hp] at hr
    cases hr
    exact ⟨rfl, rfl⟩
  unfold getCavMat at h
  dsimp only at h
  rw [kin_moving hp] at h
  dsimp only at h
  split at h
  · cases h
  rename_i g1 hg1
  split at h
  · cases h
  rename_i W1 b fy1 he1
  split at h
  · cases h
  rename_i g2 hg2
  split at h
  · cases h
  rename_i W2 c fy2 he2
  have v1 := transFacts_off hg1
  have v2 := transFacts_off hg2
  obtain ⟨e1, e2⟩ := ev v1 he1
  dsimp only at e1 e2
  subst e1 e2
  obtain ⟨e3, e4⟩ := ev v2 he2
  dsimp only at e3 e4
  subst e3 e4
  split at h
  · cases h
  rename_i lines hl
  split at h
  · cases h
  rename_i t ht
  cases h
  unfold getCavMatParams at hl
  split at hl
  · cases hl
  obtain ⟨a1, a2⟩ := linesFrom_off (by exact h0) _ hl
  have hT := transFold_off lines a1 ht
  rw [a2, Matrix.mul_one] at hT
  rw [combine_eq (by rw [hT]; exact driftT_only _) (lonM_only ..).1, hT]
  congr 1
  simp only [lonM, v1, v2, mul_zero, zero_mul, sub_zero, kickL_zero, Matrix.one_mul, driftL_mul]
  congr 1
  rw [slipOf]
  ring

/-- C61: a cavity whose field is scaled to zero is a drift.  Every charge state is moved by the length of the field map; its
matrix is that of a drift, transversely over the drifts of the lattice of the cavity, longitudinally over the same length or
over that of the field map. -/
theorem C61_particle {c : LCfg} {cav : Cav} {phiRef : ℝ} {p p' : Particle} {M : Mat} (hp : Moving p) (hf : cav.fRF ≠ 0)
    (hs : p.SampleFreq ≠ 0) (h0 : getNum c "scl_fac" = .ok 0) (h : initRFCav c cav phiRef p = .ok (p', M)) :
    p' = { p with phis := p.phis + p.SampleIonK * extent cav.cavData } ∧
    M = setAt (setAt (setAt 1 0 1 (drifts cav.lattice)) 2 3 (drifts cav.lattice)) 4 5
      (slip p (if cav.cavi = 0 then drifts cav.lattice else extent cav.cavData)) := by
  unfold initRFCav at h
  split at h
  · cases h
  rename_i label Rm hl
  dsimp only at h
  rw [h0] at h
  dsimp only at h
  have hW : p.IonEk + p.IonEs = p.IonW := by rw [hp.ionW, add_comm]
  rw [hW] at h
  have hn : 2 ≤ cav.cavData.rows.length := by
    by_contra hn
    rw [getCavBoost] at h
    simp only [if_pos (by omega : cav.cavData.rows.length ≤ 1)] at h
    cases h
  have hq : Moving { p with IonW := p.IonW } := hp
  rw [C61_boost _ hq hf hn] at h
  dsimp only at h
  split at h
  · cases h
  rename_i M0 hM
  rw [boosted_off hp hf] at h
  simp only [Except.ok.injEq, Prod.mk.injEq] at h
  obtain ⟨rfl, h⟩ := h
  refine ⟨rfl, ?_⟩
  -- the matrix at the frequency of the cavity
  have hM0 : M0 = driftT (drifts cav.lattice) * driftL (slipOf p (C0 / cav.fRF * MtoMM) *
      (if cav.cavi = 0 then drifts cav.lattice else extent cav.cavData)) := by
    split at hM
    · rename_i hc
      rw [if_neg (by omega)]
      exact getCavMat_off hp hM
    · rename_i hc
      rw [if_pos (by omega)]
      unfold getCavMatGeneric at hM
      dsimp only at hM
      rw [kin_moving hp] at hM
      dsimp only at hM
      split at hM
      · cases hM
      split at hM
      · cases hM
      rename_i t ht
      cases hM
      obtain ⟨h1, h2⟩ := genFold_off hp _ ht rfl rfl rfl
      rw [Matrix.mul_one] at h1 h2
      rw [combine_eq (by rw [h1]; exact driftT_only _) (by rw [h2]; exact driftL_only _), h1, h2]
  generalize (if cav.cavi = 0 then drifts cav.lattice else extent cav.cavData) = L at hM0 ⊢
  generalize drifts cav.lattice = D at hM0 ⊢
  have hm : cav.fRF / p.SampleFreq ≠ 0 := div_ne_zero hf hs
  have hslip : slipOf p (C0 / cav.fRF * MtoMM) * L / (cav.fRF / p.SampleFreq) = slip p L := by
    rw [slipOf, slip, hp.bg, hp.lambda]
    have h1 := hp.beta_pos.ne'
    have h2 : p.gamma ≠ 0 := by linarith [hp.one_lt]
    have h3 := C0_ne
    have h4 := MtoMM_ne
    have h5 := MeVtoeV_ne
    have h6 := hp.mass.ne'
    field_simp
  have hj : jump (cav.fRF / p.SampleFreq) M0 = M := by
    rw [← h]
    split
    · rfl
    · rename_i h1
      rw [not_not.mp h1, jump_eq]
      ext i j
      simp
  rw [← hj, hM0, jump_eq]
  ext i j
  rw [Matrix.mul_apply, Fin.sum_univ_seven]
  fin_cases i <;> fin_cases j <;> simp [driftT, driftL, setAt, Matrix.one_apply, hslip, hm]

/-- The reference particle likewise. -/
theorem C61_reference {c : LCfg} {cav : Cav} {ref ref' : Particle} {phi : ℝ} (hp : Moving ref) (hf : cav.fRF ≠ 0)
    (h0 : getNum c "scl_fac" = .ok 0) (h : propagateLong c cav ref = .ok (ref', phi)) :
    ref' = { ref with phis := ref.phis + ref.SampleIonK * extent cav.cavData } := by
  unfold propagateLong at h
  dsimp only at h
  rw [h0] at h
  dsimp only at h
  split at h
  · cases h
  have hn : 2 ≤ cav.cavData.rows.length := by
    by_contra hn
    rw [getCavBoost] at h
    simp only [if_pos (by omega : cav.cavData.rows.length ≤ 1)] at h
    cases h
  rw [C61_boost _ hp hf hn] at h
  dsimp only at h
  rw [boosted_off hp hf] at h
  simp only [Except.ok.injEq, Prod.mk.injEq] at h
  exact h.1.symm

/-- C61 for a beam of any number of charge states. -/
theorem C61_off {c : LCfg} {cav : Cav} {ref ref' : Particle} {real : List Particle} {phi : ℝ} {l : List (Particle × Mat)}
    (hr : Moving ref) (hp : ∀ p ∈ real, Moving p ∧ p.SampleFreq ≠ 0) (hf : cav.fRF ≠ 0) (h0 : getNum c "scl_fac" = .ok 0)
    (h : recomputeCav c cav ref real = .ok (ref', phi, l)) :
    ref' = { ref with phis := ref.phis + ref.SampleIonK * extent cav.cavData } ∧
    l = real.map (fun p => ({ p with phis := p.phis + p.SampleIonK * extent cav.cavData },
      setAt (setAt (setAt 1 0 1 (drifts cav.lattice)) 2 3 (drifts cav.lattice)) 4 5
        (slip p (if cav.cavi = 0 then drifts cav.lattice else extent cav.cavData)))) := by
  unfold recomputeCav at h
  split at h
  · cases h
  rename_i r f hl
  split at h
  · cases h
  rename_i l' hl'
  cases h
  refine ⟨C61_reference hr hf h0 hl, ?_⟩
  have h2 := forEach_ok.1 hl'
  clear hl' hl
  induction h2 with
  | nil => rfl
  | @cons p q real l' hd _ ih =>
    rw [List.map_cons, ← ih (fun p h => hp p (List.mem_cons_of_mem _ h))]
    congr 1
    split at hd
    · cases hd
    · rename_i p' M he
      obtain ⟨h1, h2⟩ := hp p (List.mem_cons_self ..)
      obtain ⟨a, b⟩ := C61_particle h1 hf h2 h0 he
      cases hd
      rw [a, b]

/-! ### an example: one gap between two drifts -/

/-- A field map of 240 mm. -/
noncomputable def exTable : Table := { cols := 2, rows := [[-120, 0], [0, 5], [120, 0]] }

/-- A generic cavity with one gap. -/
noncomputable def exGap : Cav :=
  { lattice := [⟨"drift", 100, 0, [], []⟩, ⟨"AccGap", 0, 1, [0, 0, 0, 0, 0, 0, 0, 0, 0, 1], [0, 0, 0, 0, 0, 0, 0, 0, 0, 0]⟩,
      ⟨"drift", 140, 0, [], []⟩]
    mlptable := ⟨0, []⟩, cavData := exTable, cavType := "Generic", dataFile := "gap.lat", synAccTab := [1, 2, 3],
    refNrm := none, synComplex := none, fRF := 2, ionFys := 0, phiRef := none, cRm := 17, cavi := 0, forcettfcalc := false,
    mpoleLevel := 2, emitGrowth := 0, misalign := [] }

/-- Its settings: the field is scaled by `x`. -/
noncomputable def exScale (x : ℝ) : LCfg := fun s => if s = "scl_fac" then some (.num x) else none

theorem exParticle_moving : Moving exParticle.recalc :=
  ⟨recalc_idem _, by norm_num [exParticle, Particle.recalc], by norm_num [exParticle, Particle.recalc]⟩

example : ∃ r phi l, recomputeCav (exScale 0) exGap exParticle.recalc [exParticle.recalc] = .ok (r, phi, l) ∧
    l.length = 1 ∧ getNum (exScale 0) "scl_fac" = .ok 0 ∧ exGap.fRF ≠ 0 ∧ exParticle.recalc.SampleFreq ≠ 0 ∧
    drifts exGap.lattice = 240 ∧ extent exGap.cavData = 240 ∧ slip exParticle.recalc 240 ≠ 0 := by
  have h0 : getNum (exScale 0) "scl_fac" = .ok 0 := by simp [getNum, exScale]
  have hm := exParticle_moving
  have hf : exGap.fRF ≠ 0 := by norm_num [exGap]
  have hn : 2 ≤ exGap.cavData.rows.length := by simp [exGap, exTable]
  have hW : exParticle.recalc.IonEk + exParticle.recalc.IonEs = exParticle.recalc.IonW := by rw [hm.ionW, add_comm]
  have hs : getNumD (exScale 0) "syncflag" 1 = 1 := by simp [getNumD, exScale]
  have hph : ∃ x, drivenPhase (exScale 0) exGap exParticle.recalc (exGap.fRF / exParticle.recalc.SampleFreq) 0 = .ok x := by
    unfold drivenPhase
    rw [hs]
    simp only [le_refl, if_true]
    unfold getCavPhase
    rw [if_neg]
    · exact ⟨_, rfl⟩
    · norm_num [exParticle, Particle.recalc, MeVtoeV]
  obtain ⟨x, hx⟩ := hph
  have hlong : ∃ r, propagateLong (exScale 0) exGap exParticle.recalc = .ok (r, x) := by
    unfold propagateLong
    dsimp only
    rw [h0]
    dsimp only
    rw [hx]
    dsimp only
    rw [C61_boost _ hm hf hn]
    exact ⟨_, rfl⟩
  obtain ⟨r, hr⟩ := hlong
  have hi : ∃ q, initRFCav (exScale 0) exGap x exParticle.recalc = .ok q := by
    unfold initRFCav
    rw [show labelOf exGap.cavi = .ok (0, 0) from rfl]
    dsimp only
    rw [h0]
    dsimp only
    rw [hW, C61_boost _ (by exact hm) hf hn]
    dsimp only
    rw [if_neg (by simp [exGap])]
    unfold getCavMatGeneric
    dsimp only
    rw [kin_moving hm]
    dsimp only
    rw [if_neg (by norm_num [exGap])]
    have hl : exGap.lattice = [⟨"drift", 100, 0, [], []⟩,
        ⟨"AccGap", 0, 1, [0, 0, 0, 0, 0, 0, 0, 0, 0, 1], [0, 0, 0, 0, 0, 0, 0, 0, 0, 0]⟩, ⟨"drift", 140, 0, [], []⟩] := rfl
    rw [hl]
    simp only [foldE, genStep, mul_zero, zero_mul, add_zero, sub_zero, kin_moving hm]
    exact ⟨_, rfl⟩
  obtain ⟨q, hq⟩ := hi
  refine ⟨r, x, [({ q.1 with SampleIonK := exParticle.recalc.SampleIonK }, q.2)], ?_, rfl, h0, hf,
    by norm_num [exParticle, Particle.recalc], by norm_num [drifts, exGap], by norm_num [extent, positions, exGap, exTable], ?_⟩
  · unfold recomputeCav
    rw [hr]
    simp only [forEach, hq]
  · rw [slip, hm.bg, hm.lambda]
    have h1 := hm.beta_pos.ne'
    have h2 : exParticle.recalc.gamma ≠ 0 := by linarith [hm.one_lt]
    have h3 := C0_ne
    have h4 := MtoMM_ne
    have h5 := MeVtoeV_ne
    have h6 := hm.mass.ne'
    have h7 : exParticle.recalc.SampleFreq ≠ 0 := by norm_num [exParticle, Particle.recalc]
    have := Real.pi_ne_zero
    field_simp
    norm_num
    tauto

end Flame.Cavity
