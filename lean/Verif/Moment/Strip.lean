import Verif.Moment.Baron
import Verif.Moment.Stats
import Verif.Moment.Walk
import Verif.Moment.Cache
import Mathlib.Tactic.FinCases

/-! # The charge stripper: C39 -/

namespace Flame.Moment

open Spec
open Flame.Mach (Cls St Err)
open Flame.Linear (LVal LCfg getNum getNumD getVec)

/-! ## growth -/

theorem growStep_apply (a k : Fin 7) (g : ℝ) (M : Mat) (i j : Fin 7) :
    growStep a k g M i j = M i j * (if i = k ∧ j = a then g else 1) * (if i = a ∧ j = k then g else 1) := by
  unfold growStep setAt
  by_cases h1 : i = a ∧ j = k
  · obtain ⟨rfl, rfl⟩ := h1
    by_cases h : i = j
    · subst h; simp
    · simp [h]
  · by_cases h2 : i = k ∧ j = a
    · obtain ⟨rfl, rfl⟩ := h2
      simp [h1]
    · simp [h1, h2]

/-- Scale factors of the coordinates. -/
noncomputable def dscale (gx gy g : ℝ) : Fin 7 → ℝ := ![1, gx, 1, gy, 1, g, 1]

theorem grow5 (g : ℝ) (M : Mat) (i j : Fin 6) :
    (List.finRange 6).foldl (fun M k => growStep 5 k.castSucc g M) M i.castSucc j.castSucc =
      dscale 1 1 g i.castSucc * dscale 1 1 g j.castSucc * M i.castSucc j.castSucc := by
  simp only [List.finRange_succ, List.finRange_zero, List.map_cons, List.map_nil, List.foldl_cons, List.foldl_nil,
    growStep_apply]
  fin_cases i <;> fin_cases j <;> simp [dscale] <;> ring

theorem grow13 (gx gy : ℝ) (M : Mat) (i j : Fin 6) :
    (List.finRange 6).foldl (fun M k => growStep 3 k.castSucc gy (growStep 1 k.castSucc gx M)) M i.castSucc j.castSucc =
      dscale gx gy 1 i.castSucc * dscale gx gy 1 j.castSucc * M i.castSucc j.castSucc := by
  simp only [List.finRange_succ, List.finRange_zero, List.map_cons, List.map_nil, List.foldl_cons, List.foldl_nil,
    growStep_apply]
  fin_cases i <;> fin_cases j <;> simp [dscale] <;> ring

theorem grow5_six (g : ℝ) (M : Mat) (i : Fin 7) :
    (List.finRange 6).foldl (fun M k => growStep 5 k.castSucc g M) M i 6 = M i 6 ∧
    (List.finRange 6).foldl (fun M k => growStep 5 k.castSucc g M) M 6 i = M 6 i := by
  simp only [List.finRange_succ, List.finRange_zero, List.map_cons, List.map_nil, List.foldl_cons, List.foldl_nil,
    growStep_apply]
  fin_cases i <;> simp

theorem grow13_six (gx gy : ℝ) (M : Mat) (i : Fin 7) :
    (List.finRange 6).foldl (fun M k => growStep 3 k.castSucc gy (growStep 1 k.castSucc gx M)) M i 6 = M i 6 ∧
    (List.finRange 6).foldl (fun M k => growStep 3 k.castSucc gy (growStep 1 k.castSucc gx M)) M 6 i = M 6 i := by
  simp only [List.finRange_succ, List.finRange_zero, List.map_cons, List.map_nil, List.foldl_cons, List.foldl_nil,
    growStep_apply]
  fin_cases i <;> simp

/-- Variance the foil adds to the angles. -/
noncomputable def foilAngle (f : Foil) : ℝ := f.upara / f.lambda ^ 2 / 10 ^ 6

/-- Variance the foil adds to the energy. -/
noncomputable def foilEnergy (f : Foil) : ℝ :=
  f.E1Para ^ 2 + 1 / 3 * (f.Para.getD 1 0 / 100 * f.Para.getD 0 0 * f.E0Para.getD 2 0) ^ 2

theorem foilEnergy_nonneg (f : Foil) : 0 ≤ foilEnergy f := by unfold foilEnergy; positivity

theorem growth {x y : ℝ} (hx : 0 < x) (hy : 0 ≤ y) :
    0 < Real.sqrt ((x + y) / x) ∧ Real.sqrt ((x + y) / x) * Real.sqrt ((x + y) / x) * x = x + y := by
  refine ⟨Real.sqrt_pos.2 (by positivity), ?_⟩
  rw [Real.mul_self_sqrt (by positivity)]
  field_simp

/-- What the foil does to a covariance. -/
theorem widened_grow (f : Foil) (M : Mat) (hu : 0 ≤ f.upara) (h1 : 0 < M 1 1) (h3 : 0 < M 3 3) (h5 : 0 < M 5 5) :
    Widened (foilAngle f) (foilEnergy f) (phaseSpace M) (phaseSpace (growAngles f (growEnergy f M))) := by
  obtain ⟨g, hg, hg2, hE⟩ : ∃ g, 0 < g ∧ g * g * M 5 5 = M 5 5 + foilEnergy f ∧ ∀ i j : Fin 6,
      growEnergy f M i.castSucc j.castSucc = dscale 1 1 g i.castSucc * dscale 1 1 g j.castSucc * M i.castSucc j.castSucc := by
    have e : M 5 5 + f.E1Para * f.E1Para +
        Real.sqrt (1 / 3) * f.Para.getD 1 0 / 100 * f.Para.getD 0 0 * f.E0Para.getD 2 0 *
        (Real.sqrt (1 / 3) * f.Para.getD 1 0 / 100 * f.Para.getD 0 0 * f.E0Para.getD 2 0) = M 5 5 + foilEnergy f := by
      have hs : Real.sqrt (1 / 3) * Real.sqrt (1 / 3) = 1 / 3 := Real.mul_self_sqrt (by norm_num)
      unfold foilEnergy
      generalize Real.sqrt (1 / 3) = r at hs ⊢
      linear_combination (f.Para.getD 1 0 / 100 * f.Para.getD 0 0 * f.E0Para.getD 2 0) ^ 2 * hs
    refine ⟨Real.sqrt ((M 5 5 + foilEnergy f) / M 5 5), (growth h5 (foilEnergy_nonneg f)).1,
      (growth h5 (foilEnergy_nonneg f)).2, fun i j => ?_⟩
    rw [← grow5]
    simp only [growEnergy, e]
  have hA0 : 0 ≤ foilAngle f := by unfold foilAngle; positivity
  have e11 : growEnergy f M 1 1 = M 1 1 := by simpa [dscale] using hE 1 1
  have e33 : growEnergy f M 3 3 = M 3 3 := by simpa [dscale] using hE 3 3
  obtain ⟨gx, gy, hgx, hgy, hx2, hy2, hA⟩ : ∃ gx gy, 0 < gx ∧ 0 < gy ∧ gx * gx * M 1 1 = M 1 1 + foilAngle f ∧
      gy * gy * M 3 3 = M 3 3 + foilAngle f ∧ ∀ i j : Fin 6, growAngles f (growEnergy f M) i.castSucc j.castSucc =
        dscale gx gy 1 i.castSucc * dscale gx gy 1 j.castSucc * growEnergy f M i.castSucc j.castSucc := by
    have e : Real.sqrt (f.upara / (f.lambda * f.lambda)) * (1 / 1000) *
        (Real.sqrt (f.upara / (f.lambda * f.lambda)) * (1 / 1000)) = foilAngle f := by
      have hs := Real.mul_self_sqrt (show 0 ≤ f.upara / (f.lambda * f.lambda) from
        div_nonneg hu (mul_self_nonneg _))
      unfold foilAngle
      rw [sq]
      generalize Real.sqrt (f.upara / (f.lambda * f.lambda)) = r at hs ⊢
      linear_combination 1 / 10 ^ 6 * hs
    refine ⟨Real.sqrt ((M 1 1 + foilAngle f) / M 1 1), Real.sqrt ((M 3 3 + foilAngle f) / M 3 3), (growth h1 hA0).1,
      (growth h3 hA0).1, (growth h1 hA0).2, (growth h3 hA0).2, fun i j => ?_⟩
    rw [← grow13]
    simp only [growAngles, e, e11, e33]
  have all : ∀ i j : Fin 6, phaseSpace (growAngles f (growEnergy f M)) i j =
      dscale gx gy g i.castSucc * dscale gx gy g j.castSucc * phaseSpace M i j := by
    intro i j
    show growAngles f (growEnergy f M) i.castSucc j.castSucc = _ * _ * M i.castSucc j.castSucc
    rw [hA, hE]
    fin_cases i <;> fin_cases j <;> simp [dscale] <;> ring
  refine ⟨⟨fun i => dscale gx gy g i.castSucc, fun i => ?_, all⟩, ?_⟩
  · fin_cases i <;> simp [dscale, hg, hgx, hgy]
  · simp only [all]
    simp only [phaseSpace, dscale]
    refine ⟨?_, ?_, ?_, ?_, ?_, ?_⟩
    · simp
    · simpa using hx2
    · simp
    · simpa using hy2
    · simp
    · simpa using hg2

theorem covariance_widened {a e : ℝ} {A B : Matrix (Fin 6) (Fin 6) ℝ} (h : Widened a e A B) (hA : Covariance A) :
    Covariance B := by
  obtain ⟨⟨d, -, hB⟩, -⟩ := h
  refine ⟨?_, fun x => ?_⟩
  · ext i j
    rw [Matrix.transpose_apply, hB, hB]
    have := congrFun (congrFun hA.1 i) j
    rw [Matrix.transpose_apply] at this
    rw [this]
    ring
  · have := hA.2 (fun i => x i * d i)
    refine le_of_le_of_eq this ?_
    refine Finset.sum_congr rfl fun i _ => Finset.sum_congr rfl fun j _ => ?_
    rw [hB]
    ring

/-! ## the stripper -/

theorem getVec_ok' {c : LCfg} {k : String} {v : List ℝ} : getVec c k = .ok v ↔ c k = some (.vec v) := by
  unfold getVec
  split <;> simp_all

theorem recalc_ionQ (p : Particle) : p.recalc.IonQ = p.IonQ := rfl

theorem Parts.recalc {s : MSt} {l : List Tri} (h : Parts s l) :
    Parts s.recalc (l.map (fun t => (t.1.recalc, t.2))) := by
  obtain ⟨hr, h0, h1⟩ := h
  refine ⟨?_, ?_, ?_⟩
  · simp only [MSt.recalc, hr, List.map_map]; rfl
  · simp only [MSt.recalc, h0, List.map_map]; rfl
  · simp only [MSt.recalc, h1, List.map_map]; rfl

theorem describes_recalc {Xs : List Cloud} {l : List Tri} (h : List.Forall₂ Describes Xs l) :
    List.Forall₂ Describes Xs (l.map (fun t => (t.1.recalc, t.2))) := by
  rw [List.forall₂_map_right_iff]
  exact h

/-- Mean over the charge states. -/
theorem recombined_eq {s : MSt} {l : List Tri} (h : Parts s l) (q : Particle → ℝ) :
    recombined s.real q = weighted (l.map (fun t => (t.1.IonQ, q t.1))) := by
  unfold recombined weighted totQ
  rw [h.1]
  simp only [List.map_map, Function.comp_def]

/-- The covariance of the recombined beam is the envelope covariance. -/
theorem recombinedCov_eq (s : MSt) (i j : Fin 6) :
    recombinedCov s.calcRms i.castSucc j.castSucc = s.calcRms.moment1_env i.castSucc j.castSucc := by
  show _ = env1 s.real s.moment0 s.moment1 i.castSucc j.castSucc
  unfold env1 recombinedCov
  rw [if_pos ⟨castSucc_lt_six i, castSucc_lt_six j⟩]
  rfl

/-- The ways a stripper comes to an end. -/
theorem stripperGetMat_ok {c : LCfg} {s s' : MSt} (h : stripperGetMat c s = .ok s') :
    ∃ chg n w, c "IonChargeStates" = some (.vec chg) ∧ c "NCharge" = some (.vec n) ∧ s' = stripped (foilOf c) chg w s ∧
      w.length = chg.length ∧ ((textOr c "charge_model" "baron" = "off" ∧ w = n) ∨
      (textOr c "charge_model" "baron" = "baron" ∧ ∃ p, s.real.head? = some p ∧ w = chargeStripper (foilOf c) p.beta chg ∧
        0 < (foilOf c).IonProton ∧ 0 < stripperRadicand (foilOf c) p.beta)) := by
  have hm : getStrD c "charge_model" "baron" = textOr c "charge_model" "baron" := rfl
  unfold stripperGetMat at h
  split at h
  · rename_i chg n h1 h2
    rw [hm] at h
    rw [getVec_ok'] at h1 h2
    dsimp only at h
    split at h
    · cases h
    · rename_i hlen
      split at h
      · cases h
      · rename_i hmdl
        split at h
        · cases h
        · split at h
          · rename_i hoff
            cases h
            refine ⟨chg, n, n, h1, h2, rfl, ?_, .inl ⟨hoff, rfl⟩⟩
            by_contra hc
            exact hlen ⟨hoff, fun e => hc e.symm⟩
          · rename_i hoff
            split at h
            · cases h
            · rename_i p ps hreal
              split at h
              · cases h
              rename_i hnum
              rw [not_or, not_le, not_le] at hnum
              cases h
              refine ⟨chg, n, _, h1, h2, rfl, by simp [chargeStripper], .inr ⟨?_, p, by rw [hreal]; rfl, rfl, hnum⟩⟩
              by_contra hb
              exact hmdl ⟨hoff, hb⟩
  · cases h

theorem zipWith_fst {α β γ δ : Type} (f : α → β → γ) (g : γ → δ) (h : α → δ) (H : ∀ a b, g (f a b) = h a) :
    ∀ (as : List α) (bs : List β), bs.length = as.length → (List.zipWith f as bs).map g = as.map h
  | [], [], _ => rfl
  | a :: as, b :: bs, hl => by
    simp only [List.zipWith_cons_cons, List.map_cons, H]
    rw [zipWith_fst f g h H as bs (by simpa using hl)]
  | [], _ :: _, hl => by simp at hl
  | _ :: _, [], hl => by simp at hl

theorem zipWith_snd {α β γ δ : Type} (f : α → β → γ) (g : γ → δ) (h : β → δ) (H : ∀ a b, g (f a b) = h b) :
    ∀ (as : List α) (bs : List β), bs.length = as.length → (List.zipWith f as bs).map g = bs.map h
  | [], [], _ => rfl
  | a :: as, b :: bs, hl => by
    simp only [List.zipWith_cons_cons, List.map_cons, H]
    rw [zipWith_snd f g h H as bs (by simpa using hl)]
  | [], _ :: _, hl => by simp at hl
  | _ :: _, [], hl => by simp at hl

theorem mem_zipWith {α β γ : Type} {f : α → β → γ} {as : List α} {bs : List β} {c : γ} (h : c ∈ List.zipWith f as bs) :
    ∃ a b, c = f a b := by
  induction as generalizing bs with
  | nil => simp at h
  | cons a as ih =>
    cases bs with
    | nil => simp at h
    | cons b bs =>
      simp only [List.zipWith_cons_cons, List.mem_cons] at h
      rcases h with rfl | h
      · exact ⟨a, b, rfl⟩
      · exact ih h

theorem getVecD_eq (c : LCfg) (k : String) (l : List ℝ) : getVecD c k l = listOr c k l := by
  unfold getVecD listOr getVec
  split <;> split at * <;> simp_all

/-- C39: a beam that passes a stripper.  Each of its charge states is described by a cloud of particles. -/
theorem C39_stripper (d d' : MDat) (s s' : St MSt) (l : List Tri) (Xs : List Cloud)
    (hp : Parts s.payload l) (hX : List.Forall₂ Describes Xs l) (hQ : weight Xs.flatten ≠ 0)
    (hvx : 0 < cov Xs.flatten 1 1) (hvy : 0 < cov Xs.flatten 3 3) (hve : 0 < cov Xs.flatten 5 5)
    (hu : 0 ≤ numOr d.conf "Stripper_upara" (26903 / 10000))
    (h : advanceStripper d s = (d', s', none)) :
    ∃ chg para e0 S, d.conf "IonChargeStates" = some (.vec chg) ∧
      para = listOr d.conf "Stripper_Para" [3, 20, 16623000] ∧
      e0 = listOr d.conf "Stripper_E0Para" [16348000, 100547 / 100000, -10681 / 100000] ∧
      s'.payload.real.map (·.IonZ) = chg ∧
      (∀ p ∈ s'.payload.real,
        p.IonEk = (weighted (l.map (fun t => (t.1.IonQ, t.1.IonEk))) - para.getD 2 0) * e0.getD 1 0 + e0.getD 0 0 ∧
        p.phis = weighted (l.map (fun t => (t.1.IonQ, t.1.phis))) ∧
        p.IonEs = s.payload.ref.IonEs ∧ p.SampleFreq = s.payload.ref.SampleFreq ∧ p.recalc = p) ∧
      s'.payload.moment0 = List.replicate chg.length (mean Xs.flatten) ∧
      s'.payload.moment1 = List.replicate chg.length S ∧
      Widened
        (numOr d.conf "Stripper_upara" (26903 / 10000) / numOr d.conf "Stripper_lambda" (5574 / 1000) ^ 2 / 10 ^ 6)
        (numOr d.conf "Stripper_E1Para" (28874 / 10000000) ^ 2 +
          1 / 3 * (para.getD 1 0 / 100 * para.getD 0 0 * e0.getD 2 0) ^ 2)
        (phaseSpace (cov Xs.flatten)) (phaseSpace S) ∧
      s'.payload.ref.IonZ = numOr d.conf "Stripper_IonZ" (78 / 238) ∧
      s'.payload.ref.IonEk = (s.payload.ref.IonEk - para.getD 2 0) * e0.getD 1 0 + e0.getD 0 0 ∧
      s'.payload.ref.phis = s.payload.ref.phis ∧ s'.payload.ref.IonEs = s.payload.ref.IonEs ∧
      s'.payload.pos = s.payload.pos ∧ s'.payload.transmat = List.replicate chg.length 1 := by
  unfold advanceStripper at h
  dsimp only at h
  split at h
  · cases h
  · split at h
    · cases h
    · rename_i S' hS'
      obtain ⟨chg, n, w, h1, h2, rfl, hw, -⟩ := stripperGetMat_ok hS'
      simp only [Prod.mk.injEq, and_true] at h
      obtain ⟨rfl, rfl⟩ := h
      have hp' := hp.recalc
      obtain ⟨hm0, hm1, -⟩ := C34_mixture s.payload.recalc Xs _ hp'.1 hp'.2.1 hp'.2.2 (describes_recalc hX) hQ
      have hcov : phaseSpace (recombinedCov s.payload.recalc.calcRms) = phaseSpace (cov Xs.flatten) := by
        rw [← hm1]
        funext i j
        exact recombinedCov_eq _ i j
      have hd : ∀ i j : Fin 6, recombinedCov s.payload.recalc.calcRms i.castSucc j.castSucc =
          cov Xs.flatten i.castSucc j.castSucc := fun i j => congrFun (congrFun hcov i) j
      have hwid := widened_grow (foilOf d.conf) (recombinedCov s.payload.recalc.calcRms) hu
        (by have := hd 1 1; exact lt_of_lt_of_eq hvx this.symm) (by have := hd 3 3; exact lt_of_lt_of_eq hvy this.symm)
        (by have := hd 5 5; exact lt_of_lt_of_eq hve this.symm)
      rw [hcov] at hwid
      have hP : listOr d.conf "Stripper_Para" [3, 20, 16623000] = (foilOf d.conf).Para := (getVecD_eq _ _ _).symm
      have hE : listOr d.conf "Stripper_E0Para" [16348000, 100547 / 100000, -10681 / 100000] = (foilOf d.conf).E0Para :=
        (getVecD_eq _ _ _).symm
      refine ⟨chg, _, _, growAngles (foilOf d.conf) (growEnergy (foilOf d.conf) (recombinedCov s.payload.recalc.calcRms)),
        h1, rfl, rfl, ?_, ?_, ?_, ?_, ?_, rfl, ?_, rfl, rfl, rfl, ?_⟩
      · show (List.zipWith (strippedParticle _ _ _) chg w).map (·.IonZ) = chg
        have := zipWith_fst (strippedParticle (stripRef (foilOf d.conf) s.payload.recalc.calcRms.ref)
          (foilEk (foilOf d.conf) (recombined s.payload.recalc.calcRms.real (·.IonEk)))
          (recombined s.payload.recalc.calcRms.real (·.phis))) (·.IonZ) id (fun _ _ => rfl) chg w hw
        rwa [List.map_id] at this
      · intro p hpm
        obtain ⟨z, q, rfl⟩ := mem_zipWith hpm
        rw [hP, hE]
        refine ⟨?_, ?_, rfl, rfl, rfl⟩
        · show foilEk _ (recombined s.payload.recalc.real _) = _
          rw [recombined_eq hp', List.map_map]
          rfl
        · show recombined s.payload.recalc.real _ = _
          rw [recombined_eq hp', List.map_map]
          rfl
      · show chg.map (fun _ => s.payload.recalc.calcRms.moment0_env) = _
        rw [hm0, List.map_const']
      · show chg.map (fun _ => _) = _
        rw [List.map_const']
      · rw [hP, hE]
        exact hwid
      · rw [hP, hE]
        rfl
      · show chg.map (fun _ => _) = _
        rw [List.map_const']

theorem advanceStripper_ok {d d' : MDat} {s s' : St MSt} (h : advanceStripper d s = (d', s', none)) :
    s.retreat = false ∧ d' = d ∧ s'.retreat = s.retreat ∧ s'.nextElem = s.nextElem ∧
    stripperGetMat d.conf s.payload.recalc.calcRms = .ok s'.payload := by
  unfold advanceStripper at h
  dsimp only at h
  split at h
  · cases h
  · rename_i hr
    split at h
    · cases h
    · rename_i S' hS'
      simp only [Prod.mk.injEq, and_true] at h
      obtain ⟨rfl, rfl⟩ := h
      exact ⟨by simpa using hr, rfl, rfl, rfl, hS'⟩

theorem stripped_ionQ (f : Foil) {chg w : List ℝ} (s : MSt) (h : w.length = chg.length) :
    (stripped f chg w s).real.map (·.IonQ) = w := by
  have := zipWith_snd (strippedParticle (stripRef f s.ref) (foilEk f (recombined s.real (·.IonEk)))
    (recombined s.real (·.phis))) (·.IonQ) id (fun _ _ => rfl) chg w h
  rwa [List.map_id] at this

/-- C39: with the charge model "off" the weights are the configured ones.  Missing: with the default model, "baron", they
are not, see `C39_weights_false`. -/
theorem C39_weights_partial (d d' : MDat) (s s' : St MSt) (hoff : d.conf "charge_model" = some (.str "off"))
    (h : advanceStripper d s = (d', s', none)) :
    ∃ n, d.conf "NCharge" = some (.vec n) ∧ s'.payload.real.map (·.IonQ) = n := by
  obtain ⟨-, -, -, -, h⟩ := advanceStripper_ok h
  obtain ⟨chg, n, w, h1, h2, e, hw, ⟨-, rfl⟩ | ⟨hb, -⟩⟩ := stripperGetMat_ok h
  · refine ⟨w, h2, ?_⟩
    rw [e, stripped_ionQ _ _ hw]
  · simp [textOr, hoff] at hb

/-- With the default model the weights are those of a formula: positive, and the closer a charge state is to the mean charge
the larger. -/
theorem C39_baron (f : Foil) (beta : ℝ) (chg : List ℝ) (hd : 0 < (stripperCharge f beta).2) :
    (∀ w ∈ chargeStripper f beta chg, 0 < w) ∧
    ∀ (i j : Nat) (a b u v : ℝ), chg[i]? = some a → chg[j]? = some b → (chargeStripper f beta chg)[i]? = some u →
      (chargeStripper f beta chg)[j]? = some v →
      (u < v ↔ |b * f.IonMass - (stripperCharge f beta).1| < |a * f.IonMass - (stripperCharge f beta).1|) := by
  have hpi := Real.pi_pos
  have hpos : 0 < 1 / Real.sqrt (2 * Real.pi) / (stripperCharge f beta).2 :=
    div_pos (div_pos one_pos (Real.sqrt_pos.2 (by positivity))) hd
  refine ⟨?_, ?_⟩
  · intro w hw
    obtain ⟨z, -, rfl⟩ := List.mem_map.1 hw
    exact mul_pos hpos (Real.exp_pos _)
  · intro i j a b u v ha hb hu hv
    simp only [chargeStripper, List.getElem?_map, ha, hb, Option.map_some, Option.some.injEq] at hu hv
    subst hu hv
    unfold gaussian
    rw [mul_lt_mul_iff_right₀ hpos, Real.exp_lt_exp, ← sq_lt_sq, sq, sq,
      div_lt_div_iff_of_pos_right (by positivity)]
    constructor <;> intro h <;> linarith

/-- A particle with 7/25 of the velocity of light. -/
noncomputable def exSlowly : Particle := { exParticle with IonEs := 24, IonEk := 1 }

/-- A beam of one charge state. -/
noncomputable def exSlow : St MSt :=
  { exState false with payload := { (exState false).payload with ref := exSlowly, real := [exSlowly] } }

theorem exSlow_beta : exSlowly.recalc.beta = 7 / 25 := by
  have : exSlowly.recalc.beta = Real.sqrt ((7 / 25) ^ 2) := by
    simp only [Particle.recalc, exSlowly]
    norm_num
  rw [this, Real.sqrt_sq (by norm_num)]

theorem exSlow_spread : 0 < Baron.spread 92 (7 / 25) := by
  rw [spread_pos (by norm_num) (by norm_num)]
  have h0 : 0 < Baron.lost 92 (7 / 25) := (lost_pos (by norm_num)).mpr (by norm_num)
  refine ⟨by norm_num, narrow h0 (slow_enough (by norm_num) ?_)⟩
  have h1 : (92 : ℝ) ^ (1 / 4 : ℝ) ≤ 92 ^ (0.447 : ℝ) := Real.rpow_le_rpow_of_exponent_le (by norm_num) (by norm_num)
  have h2 : (3 : ℝ) ≤ 92 ^ (1 / 4 : ℝ) := by
    refine le_of_pow_le_pow_left₀ (n := 4) (by norm_num) (by positivity) ?_
    rw [← Real.rpow_natCast (92 ^ (1 / 4 : ℝ)), ← Real.rpow_mul (by norm_num)]
    norm_num
  have h3 := le_trans h2 h1
  norm_num at h3 ⊢
  linarith

/-- C39: the covariance stays symmetric and positive semidefinite. -/
theorem C39_psd (d d' : MDat) (s s' : St MSt) (l : List Tri) (hp : Parts s.payload l) (hQ : ∀ t ∈ l, 0 ≤ t.1.IonQ)
    (hS : ∀ t ∈ l, Covariance (phaseSpace t.2.2)) (hu : 0 ≤ numOr d.conf "Stripper_upara" (26903 / 10000))
    (hvx : 0 < s.payload.calcRms.moment1_env 1 1) (hvy : 0 < s.payload.calcRms.moment1_env 3 3)
    (hve : 0 < s.payload.calcRms.moment1_env 5 5) (h : advanceStripper d s = (d', s', none)) :
    (∀ S ∈ s'.payload.moment1, Covariance (phaseSpace S)) ∧
    ((∀ w ∈ s'.payload.real.map (·.IonQ), 0 ≤ w) → Covariance (phaseSpace s'.payload.moment1_env)) := by
  obtain ⟨-, -, -, -, h⟩ := advanceStripper_ok h
  obtain ⟨chg, n, w, h1, h2, e, hw, -⟩ := stripperGetMat_ok h
  have hp' := hp.recalc
  have hcov := (C34_psd s.payload.recalc _ hp'
    (fun t ht => by obtain ⟨t, ht', rfl⟩ := List.mem_map.1 ht; exact hQ t ht')
    (fun t ht => by obtain ⟨t, ht', rfl⟩ := List.mem_map.1 ht; exact hS t ht')).1
  have hd : ∀ i j : Fin 6, recombinedCov s.payload.recalc.calcRms i.castSucc j.castSucc =
      s.payload.recalc.calcRms.moment1_env i.castSucc j.castSucc := recombinedCov_eq _
  have he : s.payload.recalc.calcRms.moment1_env = s.payload.calcRms.moment1_env := by
    funext i j
    show env1 (s.payload.real.map Particle.recalc) s.payload.moment0 s.payload.moment1 i j =
      env1 s.payload.real s.payload.moment0 s.payload.moment1 i j
    simp only [env1, env0, totQ, List.zipWith_map_left, List.map_map]
    rfl
  have hwid := widened_grow (foilOf d.conf) (recombinedCov s.payload.recalc.calcRms) hu
    (by have := hd 1 1; rw [he] at this; exact lt_of_lt_of_eq hvx this.symm)
    (by have := hd 3 3; rw [he] at this; exact lt_of_lt_of_eq hvy this.symm)
    (by have := hd 5 5; rw [he] at this; exact lt_of_lt_of_eq hve this.symm)
  have hA : Covariance (phaseSpace (recombinedCov s.payload.recalc.calcRms)) := by
    have : phaseSpace (recombinedCov s.payload.recalc.calcRms) = phaseSpace s.payload.recalc.calcRms.moment1_env := by
      funext i j
      exact hd i j
    rw [this]
    exact hcov
  have hB := covariance_widened hwid hA
  have hm1 : ∀ S ∈ s'.payload.moment1, Covariance (phaseSpace S) := by
    intro S hS
    rw [e] at hS
    obtain ⟨_, -, rfl⟩ := List.mem_map.1 hS
    exact hB
  refine ⟨hm1, fun hw0 => ?_⟩
  rw [e, stripped_ionQ _ _ hw] at hw0
  rw [e]
  set S0 := s.payload.recalc.calcRms
  set P := List.zipWith (strippedParticle (stripRef (foilOf d.conf) S0.ref)
    (foilEk (foilOf d.conf) (recombined S0.real (·.IonEk))) (recombined S0.real (·.phis))) chg w with hP
  have hlen : P.length = chg.length := by rw [hP, List.length_zipWith, hw, Nat.min_self]
  refine (C34_psd { S0 with
      ref := stripRef (foilOf d.conf) S0.ref, real := P, moment0 := chg.map (fun _ => S0.moment0_env),
      moment1 := chg.map (fun _ => growAngles (foilOf d.conf) (growEnergy (foilOf d.conf) (recombinedCov S0))),
      transmat := chg.map (fun _ => 1) }
    (P.map (fun p => (p, S0.moment0_env, growAngles (foilOf d.conf) (growEnergy (foilOf d.conf) (recombinedCov S0)))))
    ⟨?_, ?_, ?_⟩ ?_ ?_).1
  · simp [Function.comp_def]
  · simp [Function.comp_def, List.map_const', hlen]
  · simp [Function.comp_def, List.map_const', hlen]
  · intro t ht
    obtain ⟨p, hp, rfl⟩ := List.mem_map.1 ht
    refine hw0 _ ?_
    rw [← stripped_ionQ (foilOf d.conf) S0 hw]
    exact List.mem_map_of_mem hp
  · intro t ht
    obtain ⟨p, hp, rfl⟩ := List.mem_map.1 ht
    exact hB

/-- C39: what a stripper needs.  With less the outcome is an exception or undefined behaviour. -/
theorem C39_accepts (d : MDat) (s : St MSt) :
    (∃ s', advanceStripper d s = (d, s', none)) ↔
      s.retreat = false ∧ ∃ chg n, d.conf "IonChargeStates" = some (.vec chg) ∧ d.conf "NCharge" = some (.vec n) ∧
        ((textOr d.conf "charge_model" "baron" = "off" ∧ n.length = chg.length) ∨
          (textOr d.conf "charge_model" "baron" = "baron" ∧ 0 < numOr d.conf "Stripper_IonProton" 92 ∧
            ∃ p, s.payload.real.head? = some p ∧ 0 < Baron.spread (numOr d.conf "Stripper_IonProton" 92) p.recalc.beta)) ∧
        3 ≤ (listOr d.conf "Stripper_Para" [3, 20, 16623000]).length ∧
        3 ≤ (listOr d.conf "Stripper_E0Para" [16348000, 100547 / 100000, -10681 / 100000]).length := by
  have hP : listOr d.conf "Stripper_Para" [3, 20, 16623000] = (foilOf d.conf).Para := (getVecD_eq _ _ _).symm
  have hE : listOr d.conf "Stripper_E0Para" [16348000, 100547 / 100000, -10681 / 100000] = (foilOf d.conf).E0Para :=
    (getVecD_eq _ _ _).symm
  have hm : getStrD d.conf "charge_model" "baron" = textOr d.conf "charge_model" "baron" := rfl
  rw [hP, hE]
  constructor
  · rintro ⟨s', h⟩
    obtain ⟨hr, -, -, -, h⟩ := advanceStripper_ok h
    obtain ⟨chg, n, w, h1, h2, e, hw, hc⟩ := stripperGetMat_ok h
    refine ⟨hr, chg, n, h1, h2, ?_, ?_⟩
    · rcases hc with ⟨ho, rfl⟩ | ⟨hb, p, hp, -, hZ, hsp⟩
      · exact .inl ⟨ho, hw⟩
      · refine .inr ⟨hb, hZ, ?_⟩
        cases hreal : s.payload.real with
        | nil => simp [MSt.calcRms, MSt.recalc, hreal] at hp
        | cons q qs =>
          simp only [MSt.calcRms, MSt.recalc, hreal, List.map_cons, List.head?_cons, Option.some.injEq] at hp
          subst hp
          rw [radicand_eq hZ] at hsp
          exact ⟨q, rfl, hsp⟩
    · unfold stripperGetMat at h
      rw [getVec_ok'.2 h1, getVec_ok'.2 h2] at h
      dsimp only at h
      split at h
      · cases h
      · split at h
        · cases h
        · split at h
          · cases h
          · rename_i hlen
            push Not at hlen
            exact hlen
  · rintro ⟨hr, chg, n, h1, h2, hc, hl1, hl2⟩
    have : ∃ S, stripperGetMat d.conf s.payload.recalc.calcRms = .ok S := by
      unfold stripperGetMat
      rw [getVec_ok'.2 h1, getVec_ok'.2 h2, hm]
      dsimp only
      rcases hc with ⟨ho, hl⟩ | ⟨hb, hZ, q, hn, hsp⟩
      · rw [if_neg (by simp [hl]), if_neg (by simp [ho]), if_neg (by omega), if_pos ho]
        exact ⟨_, rfl⟩
      · rw [if_neg (by simp [hb]), if_neg (by simp [hb]), if_neg (by omega), if_neg (by simp [hb])]
        cases hreal : s.payload.real with
        | nil => rw [hreal] at hn; cases hn
        | cons p ps =>
          rw [hreal] at hn
          cases hn
          simp only [MSt.calcRms, MSt.recalc, hreal, List.map_cons]
          have hZ' : 0 < (foilOf d.conf).IonProton := hZ
          rw [if_neg]
          · exact ⟨_, rfl⟩
          · rw [not_or, not_le, not_le, radicand_eq hZ']
            exact ⟨hZ', hsp⟩
    obtain ⟨S, hS⟩ := this
    refine ⟨{ s with payload := S }, ?_⟩
    unfold advanceStripper
    dsimp only
    rw [if_neg (by simp [hr])]
    simp only [hS]

/-- Without 'charge_model' the parameter 'NCharge' is required but has no influence at all, so that the weights of the
charge states are not the configured ones: here they are `w` for all of its values. -/
theorem C39_weights_false : ∃ (d : MDat) (s : St MSt) (w : List ℝ), ∀ n : List ℝ, ∃ s',
    advanceStripper { d with conf := fun k => if k = "NCharge" then some (.vec n) else d.conf k } s =
      ({ d with conf := fun k => if k = "NCharge" then some (.vec n) else d.conf k }, s', none) ∧
    s'.payload.real.map (·.IonQ) = w := by
  refine ⟨exDat ⟨fun _ => none, fun _ => .error .runtime, exParticle⟩
    (fun k => if k = "IonChargeStates" then some (.vec [1 / 3]) else none) 0, exSlow,
    chargeStripper (foilOf (fun _ => none)) (7 / 25) [1 / 3], fun n => ?_⟩
  have hf : foilOf (fun k => if k = "NCharge" then some (.vec n)
      else if k = "IonChargeStates" then some (.vec [1 / 3]) else none) = foilOf (fun _ => none) := by
    simp [foilOf, getNumD, getVecD, getVec]
  obtain ⟨s', h⟩ := (C39_accepts { exDat ⟨fun _ => none, fun _ => .error .runtime, exParticle⟩
      (fun k => if k = "IonChargeStates" then some (.vec [1 / 3]) else none) 0 with
      conf := fun k => if k = "NCharge" then some (.vec n)
        else if k = "IonChargeStates" then some (.vec [1 / 3]) else none } exSlow).2
    ⟨rfl, [1 / 3], n, by simp, by simp, .inr ⟨by simp [textOr], by simp [numOr], exSlowly, rfl, by
      rw [exSlow_beta]
      simpa [numOr] using exSlow_spread⟩, by simp [listOr], by simp [listOr]⟩
  refine ⟨s', h, ?_⟩
  obtain ⟨-, -, -, -, h⟩ := advanceStripper_ok h
  obtain ⟨chg, n', w, h1, h2, e, hw, ⟨ho, -⟩ | ⟨-, p, hp, rfl, -⟩⟩ := stripperGetMat_ok h
  · simp [textOr] at ho
  · rw [e, stripped_ionQ _ _ hw]
    simp at h1
    subst h1
    have hp' : p = exSlowly.recalc := (Option.some.inj hp).symm
    rw [hp', exSlow_beta, show [(1 / 3 : ℝ)] = [3⁻¹] by norm_num, ← hf, show [(1 / 3 : ℝ)] = [3⁻¹] by norm_num]

theorem C39_refuses_back (d : MDat) (s : St MSt) (hr : s.retreat = true) :
    (advanceStripper d s).2.2 = some .runtime := by
  simp [advanceStripper, hr]

theorem totQ_stripped (f : Foil) {chg w : List ℝ} (s : MSt) (h : w.length = chg.length) :
    totQ (stripped f chg w s).real = w.sum := by
  unfold totQ
  rw [stripped_ionQ f s h]

/-- C39: the envelope of the new charge states is that of each of them, provided they have charge; so the centroid of the
whole beam is not changed. -/
theorem C39_envelope (d d' : MDat) (s s' : St MSt) (l : List Tri) (Xs : List Cloud)
    (hp : Parts s.payload l) (hX : List.Forall₂ Describes Xs l) (hQ : weight Xs.flatten ≠ 0)
    (h : advanceStripper d s = (d', s', none)) (hQ' : (s'.payload.real.map (·.IonQ)).sum ≠ 0) :
    s'.payload.moment0_env = mean Xs.flatten ∧
    ∀ S ∈ s'.payload.moment1, phaseSpace s'.payload.moment1_env = phaseSpace S := by
  obtain ⟨-, -, -, -, h⟩ := advanceStripper_ok h
  obtain ⟨chg, n, w, h1, h2, e, hw, -⟩ := stripperGetMat_ok h
  have hp' := hp.recalc
  obtain ⟨hm0, -, -⟩ := C34_mixture s.payload.recalc Xs _ hp'.1 hp'.2.1 hp'.2.2 (describes_recalc hX) hQ
  rw [e, stripped_ionQ _ _ hw] at hQ'
  set S0 := s.payload.recalc.calcRms
  have key : ∀ (P : List Particle) (v : Vec), totQ P ≠ 0 → P.length = chg.length →
      env0 P (chg.map (fun _ => v)) = v ∧ ∀ S : Mat, phaseSpace (env1 P (chg.map (fun _ => v)) (chg.map (fun _ => S))) =
        phaseSpace S := by
    intro P v hP hl
    have e0 : chg.map (fun _ => v) = P.map (fun _ => v) := by rw [List.map_const', List.map_const', hl]
    have e1 : ∀ S : Mat, chg.map (fun _ => S) = P.map (fun _ => S) := by
      intro S; rw [List.map_const', List.map_const', hl]
    have c0 : env0 P (P.map (fun _ => v)) = v := by
      funext j
      unfold env0
      rw [div_eq_iff hP]
      unfold totQ
      rw [List.zipWith_map_right, List.zipWith_self, ← List.sum_map_mul_left]
    refine ⟨by rw [e0, c0], fun S => ?_⟩
    funext i j
    show env1 _ _ _ i.castSucc j.castSucc = S i.castSucc j.castSucc
    rw [e0, e1 S]
    unfold env1
    rw [if_pos ⟨castSucc_lt_six i, castSucc_lt_six j⟩, div_eq_iff hP, c0, List.zip_map', List.zipWith_map_right,
      List.zipWith_self]
    unfold totQ
    rw [← List.sum_map_mul_left]
    congr 1
    refine List.map_congr_left fun p _ => ?_
    simp only [sub_self, mul_zero, add_zero]
    ring
  have hl : (List.zipWith (strippedParticle (stripRef (foilOf d.conf) S0.ref)
    (foilEk (foilOf d.conf) (recombined S0.real (·.IonEk))) (recombined S0.real (·.phis))) chg w).length = chg.length := by
    rw [List.length_zipWith, hw, Nat.min_self]
  have htot := totQ_stripped (foilOf d.conf) S0 hw
  obtain ⟨k0, k1⟩ := key _ S0.moment0_env (by rw [← htot] at hQ'; exact hQ') hl
  rw [e]
  refine ⟨?_, ?_⟩
  · rw [← hm0]
    exact k0
  · intro S hS
    obtain ⟨_, -, rfl⟩ := List.mem_map.1 hS
    exact k1 _

/-! ## position and direction -/

theorem stripped_pos (f : Foil) (chg w : List ℝ) (s : MSt) : (stripped f chg w s).pos = s.pos := rfl

theorem stripperGetMat_pos {c : LCfg} {s s' : MSt} (h : stripperGetMat c s = .ok s') : s'.pos = s.pos := by
  unfold stripperGetMat at h
  dsimp only at h
  repeat' split at h
  all_goals cases h
  all_goals exact stripped_pos _ _ _ _

/-- The stripper meets the hypotheses of `C30_moment_machine`: it has no length and does not move the beam. -/
theorem measured_stripper (env : Env) (junk : Mat) (base : Nat) :
    ∀ c d, (stripperCls env junk base).build c = .ok d →
      d.length = lengthOf "stripper" c ∧ MeasuredAt (stripperCls env junk base) d.length := by
  intro c d h
  have hl : d.length = 0 := by
    rw [(build_length (env := env) (junk := junk) (t := .marker) h).1]
    simp [lengthOf, MType.name]
  refine ⟨by rw [hl]; simp [lengthOf], ?_⟩
  rw [hl]
  have key : ∀ d s, (advanceStripper d s).1 = d ∧ (advanceStripper d s).2.1.nextElem = s.nextElem ∧
      (advanceStripper d s).2.1.retreat = s.retreat ∧ (advanceStripper d s).2.1.payload.pos = s.payload.pos := by
    intro d s
    unfold advanceStripper
    dsimp only
    split
    · exact ⟨rfl, rfl, rfl, rfl⟩
    · split
      · exact ⟨rfl, rfl, rfl, rfl⟩
      · rename_i S hS
        exact ⟨rfl, rfl, rfl, (stripperGetMat_pos hS).trans rfl⟩
  refine ⟨fun d s => ⟨(key d s).2.1, (key d s).2.2.1⟩, fun d s hd => ⟨?_, fun _ => ?_⟩⟩
  · exact (congrArg MDat.length (key d s).1).trans hd
  · rw [mul_zero, add_zero]
    exact (key d s).2.2.2

/-! ## an example -/

/-- A stripper that makes charge states 1/3 and 1/4 of weights 2 and 5. -/
noncomputable def exStripper : LCfg := fun k =>
  if k = "IonChargeStates" then some (.vec [1 / 3, 1 / 4])
  else if k = "NCharge" then some (.vec [2, 5])
  else if k = "charge_model" then some (.str "off")
  else none

/-- The charge states of `exTri`. -/
noncomputable def exMixed : St MSt :=
  { exState false with
    payload := { (exState false).payload with
      real := (exTri exParticle).map (·.1), moment0 := (exTri exParticle).map (·.2.1),
      moment1 := (exTri exParticle).map (·.2.2), transmat := [1, 1] } }

example (env : Env) :
    Parts exMixed.payload (exTri exParticle) ∧ 0 < cov exClouds.flatten 1 1 ∧ 0 < cov exClouds.flatten 3 3 ∧
    0 < cov exClouds.flatten 5 5 ∧ 0 ≤ numOr exStripper "Stripper_upara" (26903 / 10000) ∧
    (exDat env exStripper 0).conf "charge_model" = some (.str "off") ∧
    ∃ s', advanceStripper (exDat env exStripper 0) exMixed = (exDat env exStripper 0, s', none) ∧
      (s'.payload.real.map (·.IonQ)).sum ≠ 0 := by
  have hc : ∀ i, 0 < cov exClouds.flatten i i := by
    intro i
    simp only [exClouds, cov, mean, weight]
    norm_num
  refine ⟨⟨rfl, rfl, rfl⟩, hc 1, hc 3, hc 5, ?_, ?_, ?_⟩
  · simp [numOr, exStripper]; norm_num
  · simp [exDat, exStripper]
  · obtain ⟨s', h⟩ := (C39_accepts (exDat env exStripper 0) exMixed).2
      ⟨rfl, [1 / 3, 1 / 4], [2, 5], by simp [exDat, exStripper], by simp [exDat, exStripper],
        .inl ⟨by simp [textOr, exDat, exStripper], rfl⟩, by simp [listOr, exDat, exStripper],
        by simp [listOr, exDat, exStripper]⟩
    refine ⟨s', h, ?_⟩
    obtain ⟨n, h1, h2⟩ := C39_weights_partial _ _ _ _ (by simp [exDat, exStripper]) h
    rw [h2]
    simp [exDat, exStripper] at h1
    rw [← h1]
    norm_num

end Flame.Moment
