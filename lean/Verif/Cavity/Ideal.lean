import Verif.Cavity.Alone
import Verif.Cavity.SpecIdeal
import Verif.Cavity.Settings
import Verif.Cavity.Optics
import Verif.Moment.Orbit

/-!
# A charge state on the axis stays with the reference particle: C85
-/

namespace Flame.Cavity

open Flame.Mach (Cls St Err CView Machine propagate sizeMod Elem Run Event run visits stepNext viewEvents run_succ_none run_succ_err run_succ_ok propagate_eq)
open Flame.Linear (LVal LCfg getNum getNumD getVec)
open Flame.Moment Flame.Moment.Spec

/-! ## matrices without constant terms -/

/-- The last column is that of the identity. -/
def Fix (M : Mat) : Prop := ∀ i, M i 6 = Spec.onAxis i

theorem Fix.one : Fix 1 := by
  intro i
  simp only [Matrix.one_apply, Spec.onAxis]

theorem mulVec_onAxis (M : Mat) (i : Fin 7) : M.mulVec Spec.onAxis i = M i 6 := by
  simp [Matrix.mulVec, dotProduct, Spec.onAxis]

theorem fix_iff {M : Mat} : Fix M ↔ M.mulVec Spec.onAxis = Spec.onAxis := by
  constructor
  · intro h
    funext i
    rw [mulVec_onAxis]
    exact h i
  · intro h i
    rw [← mulVec_onAxis M i, h]

theorem Fix.mul {M N : Mat} (h : Fix M) (h' : Fix N) : Fix (M * N) := by
  rw [fix_iff] at *
  rw [← Matrix.mulVec_mulVec, h', h]

theorem Fix.inv {M : Mat} (h : Fix M) (hd : M.det ≠ 0) : Fix M⁻¹ := by
  rw [fix_iff] at *
  conv_lhs => rw [← h]
  rw [Matrix.mulVec_mulVec, Matrix.nonsing_inv_mul _ (isUnit_iff_ne_zero.2 hd), Matrix.one_mulVec]

theorem Fix.set {M : Mat} (h : Fix M) {i j : Fin 7} (hj : j ≠ 6) (x : ℝ) : Fix (setAt M i j x) := by
  intro k
  rw [setAt, if_neg (fun h => hj h.2.symm)]
  exact h k

theorem Fix.clear {M : Mat} (h : Fix M) {i : Fin 7} (hi : i ≠ 6) {x : ℝ} (hx : x = 0) : Fix (setAt M i 6 x) := by
  intro k
  unfold setAt
  split
  · rename_i hk
    rw [hx, Spec.onAxis, if_neg (by rw [hk.1]; exact hi)]
  · exact h k

theorem Fix.quadPlane {M : Mat} (h : Fix M) (L K : ℝ) {i j : Fin 7} (hi : i ≠ 6) (hj : j ≠ 6) : Fix (quadPlane L K i j M) := by
  unfold Flame.Moment.quadPlane
  split <;> exact (((h.set hj _).set hi _).set hj _).set hi _

theorem driftM_fix (p : Particle) (L : ℝ) : Fix (driftM p L) :=
  ((Fix.one.set (by decide) _).set (by decide) _).set (by decide) _

theorem quadM_fix (p : Particle) (L K : ℝ) : Fix (quadM p L K) :=
  ((Fix.one.quadPlane _ _ (by decide) (by decide)).quadPlane _ _ (by decide) (by decide)).set (by decide) _

theorem solenoidM_fix (p : Particle) (L K : ℝ) : Fix (solenoidM p L K) := by
  unfold solenoidM solM
  dsimp only
  repeat' first
    | exact Fix.one
    | refine Fix.set ?_ (by decide) _

theorem Fix.slices {f : Nat → Mat} (h : ∀ j, Fix (f j)) (n : Nat) : Fix (slices n f) := by
  unfold Flame.Moment.slices
  suffices ∀ (l : List Nat) (M : Mat), Fix M → Fix (l.foldl (fun M j => f j * M) M) from this _ _ Fix.one
  intro l
  induction l with
  | nil => intro M hM; exact hM
  | cons j l ih => intro M hM; exact ih _ ((h j).mul hM)

theorem edgeM_fix (rho phi : ℝ) : Fix (edgeM rho phi) := (Fix.one.set (by decide) _).set (by decide) _

theorem eedgeM_fix (fx fy k : ℝ) : Fix (eedgeM fx fy k) :=
  (((Fix.one.set (by decide) _).set (by decide) _).set (by decide) _).set (by decide) _

theorem sbendM_fix (L phi phi1 phi2 K IonEs g b g' k : ℝ) : Fix (sbendM L phi phi1 phi2 K IonEs g 0 b g' 0 k 1) := by
  refine (edgeM_fix _ _).mul (Fix.mul ?_ (edgeM_fix _ _))
  refine Fix.clear (Fix.clear (Fix.clear ?_ (by decide) (by ring)) (by decide) (by ring)) (by decide) (by ring)
  repeat' refine Fix.set ?_ (by decide) _
  exact (Fix.one.quadPlane _ _ (by decide) (by decide)).quadPlane _ _ (by decide) (by decide)

theorem ebendM_fix (L phi fx fy kappa Kx Ky IonEs g eta0 h k : ℝ) : Fix (ebendM L phi fx fy kappa Kx Ky IonEs g eta0 h 0 0 k 1) := by
  refine (eedgeM_fix _ _ _).mul (Fix.mul ?_ (eedgeM_fix _ _ _))
  refine Fix.clear (Fix.clear ?_ (by decide) (by ring)) (by decide) (by ring)
  repeat' refine Fix.set ?_ (by decide) _
  exact (Fix.one.quadPlane _ _ (by decide) (by decide)).quadPlane _ _ (by decide) (by decide)

theorem rot90_fix : Fix rot90 := by
  unfold rot90
  dsimp only
  repeat' first
    | exact Fix.one
    | refine Fix.set ?_ (by decide) _

theorem rot90_transpose_fix : Fix rot90.transpose := by
  rw [rot90_inv]
  refine rot90_fix.inv fun h => ?_
  have := congrArg Matrix.det rot90_transpose
  rw [Matrix.det_mul, h, zero_mul, Matrix.det_one] at this
  exact one_ne_zero this.symm

theorem roll_fix (a : ℝ) : Fix (rotMat 0 0 0 0 a) := by
  rw [fix_iff, rotMat_frame]
  funext i
  fin_cases i <;> simp [Spec.inFrame, Spec.onAxis]

theorem sextM_fix (L K a b c e f : ℝ) (thin : Bool) {M : Mat} (h : Fix M) : Fix (sextM L K a b c e f thin false M) := by
  have h2 : ∀ x, Fix (setAt (setAt (1 : Mat) 0 1 x) 2 3 x) := fun x => (Fix.one.set (by decide) _).set (by decide) _
  unfold sextM
  dsimp only
  rw [if_neg (by decide)]
  split
  · refine (h2 _).mul (Fix.mul ?_ (h2 _))
    repeat' first
      | exact Fix.one
      | refine Fix.set ?_ (by decide) _
  · split
    · repeat' first
        | exact h
        | refine Fix.set ?_ (by decide) _
    · exact (h.set (by decide) _).set (by decide) _

theorem sextLoop_fix (p : Particle) (L K : ℝ) (thin : Bool) : ∀ (n : Nat) (x : Vec × Mat × Mat × Mat), x.1 = Spec.onAxis →
    Fix x.2.2.2 → (sextLoop p L K thin false n x).1 = Spec.onAxis
  | 0, _, h, _ => h
  | n + 1, (v, S, X, T), h, hT => by
    have hf : Fix (setAt (sextM L K (v 0) (v 2) (S 0 0) (S 2 2) (S 0 2) thin false T) 4 5 (slip p L)) :=
      (sextM_fix _ _ _ _ _ _ _ _ hT).set (by decide) _
    refine sextLoop_fix p L K thin n _ ?_ hf
    dsimp only at h ⊢
    rw [h]
    rw [h] at hf
    exact fix_iff.1 hf

/-! ## misalignment -/

/-- Neither shifted nor inclined. -/
def Straight (d : MDat) : Prop := d.dx = 0 ∧ d.dy = 0 ∧ d.pitch = 0 ∧ d.yaw = 0

theorem misalign_fix {d : MDat} {r p : Particle} {M : Mat × Mat} (hd : Straight d) (h : getMisalign d r p = .ok M) :
    Fix M.1 ∧ Fix M.2 := by
  obtain ⟨h1, h2⟩ := getMisalign_ok h
  rw [getMisalign_roll d r p hd.2.2.1 hd.2.2.2 h1 h2, hd.1, hd.2.1] at h
  cases h
  exact ⟨roll_fix _, (roll_fix _).inv (rotMat_det _ _ _ _ _)⟩

theorem aligned_fix {d : MDat} {r p : Particle} {T A : Mat} (hd : Straight d) (hT : Fix T) (h : aligned d r p T = .ok A) : Fix A := by
  unfold aligned at h
  split at h
  · cases h
  · rename_i M IM hm
    cases h
    obtain ⟨h1, h2⟩ := misalign_fix hd hm
    exact h2.mul (hT.mul h1)

/-! ## elements without cavities -/

theorem each_at {α β : Type} {g : α → Except Err β} {l : List α} {T : List β} {i : Nat} {p : α} (h : forEach g l = .ok T)
    (hp : l[i]? = some p) : ∃ M, T[i]? = some M ∧ g p = .ok M := by
  have hF := forEach_ok.1 h
  have hlt := lt_of_get hp
  have hlen := hF.length_eq
  have h1 := (List.forall₂_iff_get.1 hF).2 i hlt (by omega)
  rw [List.getElem?_eq_getElem hlt] at hp
  cases hp
  exact ⟨_, List.getElem?_eq_getElem (by omega), h1⟩

theorem kickM_fix {x y : ℝ} (hx : x = 0) (hy : y = 0) : Fix (setAt (setAt (1 : Mat) 1 6 x) 3 6 y) :=
  (Fix.one.clear (by decide) hx).clear (by decide) hy

/-- The matrix of a charge state that follows the reference particle. -/
theorem recompute_fix {env : Env} {t : MType} {d : MDat} {r p : Particle} {l : List Particle} {T : List Mat} {i : Nat}
    (hd : Straight d) (hfit : t = .sbend → d.fitMode = 1) (hu : Spec.Unkicked env t.name d.conf) (hZ : r.IonZ ≠ 0)
    (hp : l[i]? = some p) (hw : Weighed r p) (hT : recompute env t d r l = .ok T) :
    ∃ M, T[i]? = some M ∧ Fix M := by
  have hmap : ∀ g : Particle → Mat, (∀ p, Fix (g p)) → Except.ok (l.map g) = (Except.ok T : Except Err (List Mat)) →
      ∃ M, T[i]? = some M ∧ Fix M := by
    intro g hg hT
    cases hT
    exact ⟨g p, by rw [List.getElem?_map, hp]; rfl, hg p⟩
  have hone : ∀ g : Particle → Except Err Mat, (∀ M, g p = .ok M → Fix M) → forEach g l = .ok T → ∃ M, T[i]? = some M ∧ Fix M := by
    intro g hg hT
    obtain ⟨M, h1, h2⟩ := each_at hT hp
    exact ⟨M, h1, hg M h2⟩
  rw [Weighed] at hw
  cases t
  case drift => exact hmap _ (fun p => driftM_fix _ _) hT
  case orbtrim =>
    have hs := hu.steerer rfl
    simp only [← numOr_eq] at hs
    refine hone _ (fun M hM => ?_) hT
    dsimp only at hM
    split at hM
    · cases hM
    rename_i A hA
    have hfa : Fix A := by
      refine aligned_fix hd (kickM_fix ?_ ?_) hA
      · split
        · rename_i h1
          rw [(hs.1 h1).1]; ring
        · rename_i h1
          rw [(hs.2 h1).1]; ring
      · split
        · rename_i h1
          rw [(hs.1 h1).2]; ring
        · rename_i h1
          rw [(hs.2 h1).2]; ring
    cases hM
    split
    · exact hfa.mul (roll_fix _)
    · exact hfa
  case sbend =>
    simp only [recompute, sbendRec] at hT
    split at hT
    · refine hone _ (fun M hM => ?_) hT
      split at hM
      · unfold sbendOne at hM
        rw [if_neg (by rw [hfit rfl]; decide)] at hM
        refine aligned_fix hd ?_ hM
        rw [hw]
        show Fix (sbendM _ _ _ _ _ _ _ ((r.IonZ - r.IonZ) / r.IonZ) _ _ (-((r.IonZ - r.IonZ) / r.IonZ)) _ 1)
        rw [sub_self, zero_div, neg_zero]
        exact sbendM_fix _ _ _ _ _ _ _ _ _ _
      · cases hM; exact Fix.one
    · cases hT
  case quadrupole =>
    simp only [recompute, quadRec] at hT
    split at hT
    · cases hT
    split at hT
    · cases hT
    split at hT
    · split at hT
      · cases hT
      · exact hone _ (fun M hM => aligned_fix hd (quadM_fix _ _ _) hM) hT
    · split at hT
      · cases hT
      · exact hone _ (fun M hM => aligned_fix hd (Fix.slices (fun _ => quadM_fix _ _ _) _) hM) hT
  case solenoid =>
    simp only [recompute, solenoidRec] at hT
    split at hT
    · cases hT
    split at hT
    · cases hT
    split at hT
    · split at hT
      · cases hT
      · exact hone _ (fun M hM => aligned_fix hd (solenoidM_fix _ _ _) hM) hT
    · split at hT
      · cases hT
      · exact hone _ (fun M hM => aligned_fix hd (Fix.slices (fun _ => solenoidM_fix _ _ _) _) hM) hT
  case edipole =>
    have hmode := (flag_switch (env := env) (c := d.conf) (k := "HdipoleFitMode") (dflt := 1) (n := 1)).2
      ⟨hu.dipole (.inr rfl), by norm_num⟩
    simp only [recompute, edipoleRec, hmode] at hT
    split at hT
    · rw [if_neg (by decide)] at hT
      refine hone _ (fun M hM => ?_) hT
      split at hM
      · unfold edipoleOne at hM
        dsimp only at hM
        simp only [ne_eq, one_ne_zero, not_false_eq_true, if_true] at hM
        obtain ⟨-, hP⟩ := aligned_ok hM
        have hb : r.beta ≠ 0 := by
          intro h0
          apply hP
          rw [hw]
          simp [unitP, weigh, h0]
        refine aligned_fix hd ?_ hM
        have e1 : p.beta = r.beta := by rw [hw]; rfl
        have e2 : p.IonZ = r.IonZ := by rw [hw]; rfl
        have e3 : p.IonEk = r.IonEk := by rw [hw]; rfl
        rw [e1, e2, e3]
        have e4 : r.beta * r.beta / r.IonZ / (r.beta * r.beta / r.IonZ) = 1 :=
          div_self (div_ne_zero (mul_ne_zero hb hb) hZ)
        rw [e4, div_self hZ, sub_self, sub_self, zero_div, sub_zero]
        split
        · exact (rot90_fix.mul (ebendM_fix _ _ _ _ _ _ _ _ _ _ _ _)).mul rot90_transpose_fix
        · exact ebendM_fix _ _ _ _ _ _ _ _ _ _ _ _
      · cases hM; exact Fix.one
    · cases hT
  case equad =>
    simp only [recompute, equadRec] at hT
    split at hT
    · cases hT
    split at hT
    · cases hT
    split at hT
    · split at hT
      · exact hone _ (fun M hM => aligned_fix hd (quadM_fix _ _ _) hM) hT
      · cases hT
    · split at hT
      · cases hT
      · exact hone _ (fun M hM => aligned_fix hd (Fix.slices (fun _ => quadM_fix _ _ _) _) hM) hT
  case tmatrix =>
    refine hone _ (fun M hM => ?_) hT
    split at hM
    · cases hM
    rename_i xs hxs
    cases hM
    have hx : d.conf "matrix" = some (.vec xs) := by
      unfold loadStorage at hxs
      unfold getVec at hxs
      split at hxs
      · rename_i v hv
        split at hv
        · cases hv
          split at hxs <;> cases hxs
          assumption
        · cases hv
      · cases hxs
    obtain ⟨h1, h2⟩ := hu.matrix rfl xs hx
    intro k
    by_cases hk : k = 6
    · subst hk
      simpa [matOf, Spec.onAxis] using h1
    · have := h2 k.val (by omega)
      simpa [matOf, Spec.onAxis, hk] using this
  all_goals exact hmap _ (fun p => Fix.one) hT

/-- What is carried along the beamline. -/
structure On (S : MSt) (i : Nat) : Prop where
  particle : ∃ p, S.real[i]? = some p ∧ Weighed S.ref p
  centroid : S.moment0[i]? = some Spec.onAxis
  charged : S.ref.IonZ ≠ 0
  complete : Spec.Complete S

theorem On.recalc {S : MSt} {i : Nat} (h : On S i) : On S.recalc i := by
  obtain ⟨⟨p, h1, h2⟩, h3, h4, h5⟩ := h
  exact ⟨⟨p.recalc, by simp [MSt.recalc, h1], h2.recalc⟩, h3, h4,
    ⟨by simpa [MSt.recalc] using h5.moment0, by simpa [MSt.recalc] using h5.moment1, by simpa [MSt.recalc] using h5.transmat⟩⟩

theorem Part.refl (S : MSt) : Part id S S :=
  ⟨rfl, rfl, rfl, fun _ b h => ⟨b, h, rfl⟩, fun _ b h => ⟨b, h, rfl⟩, fun _ b h => ⟨b, h, rfl⟩, fun _ b h => ⟨b, h, rfl⟩⟩

theorem advance_on {env : Env} {t : MType} {d : MDat} {i : Nat} {s : St MSt} (ht : t ≠ .source) (h0 : d.refIn = none)
    (hd : Straight d) (hfit : t = .sbend → d.fitMode = 1) (hu : Spec.Unkicked env t.name d.conf) (hr : s.retreat = false)
    (h : On s.payload i) (hok : (advance env t d s).2.2 = none) : On (advance env t d s).2.1.payload i := by
  have hcomp := (advance_part ht h0 hr hr h.complete h.complete (Part.refl _) hok).2.2.1
  have hR := h.recalc
  obtain ⟨⟨p, hp, hw⟩, hm, hZ, hC⟩ := hR
  have base : ∀ t, t ≠ .sbend → Spec.Unkicked env t.name d.conf → (advanceBase (recompute env t) d s).2.2 = none →
      Spec.Complete (advanceBase (recompute env t) d s).2.1.payload → On (advanceBase (recompute env t) d s).2.1.payload i := by
    intro t ht hu hok hcomp
    have e1 := advanceBase_first (fun d a b c e f => recompute_cached env t d a b c e f) h0 hr
    rw [hok] at e1
    generalize s.payload.recalc = S at *
    cases hT : recompute env t d S.ref S.real with
    | error e => rw [hT] at e1; cases congrArg Prod.fst e1
    | ok T =>
      obtain ⟨M, hM1, hM2⟩ := recompute_fix hd (fun h => absurd h ht) hu hZ hp hw hT
      rw [hT] at e1
      have e3 := congrArg Prod.snd e1
      dsimp only at e3
      have hz : (List.zipWith (fun M v => Matrix.mulVec M v) T S.moment0)[i]? = some Spec.onAxis := by
        rw [List.getElem?_zipWith, hM1, hm]
        exact congrArg some (fix_iff.1 hM2)
      refine ⟨?_, ?_, ?_, hcomp⟩
      all_goals rw [e3]
      · exact ⟨p.recalc.drifted false d.length, by simp [MSt.calcRms, forward, hp], hw.recalc.drifted _ _⟩
      · exact hz
      · exact hZ
  have bend : d.fitMode = 1 → Spec.Unkicked env MType.sbend.name d.conf → (advanceBend (recompute env .sbend) d s).2.2 = none →
      Spec.Complete (advanceBend (recompute env .sbend) d s).2.1.payload → On (advanceBend (recompute env .sbend) d s).2.1.payload i := by
    intro hfit hu hok hcomp
    have e1 := advanceBend_first (fun d a b c e f => recompute_cached env .sbend d a b c e f) h0 hr
    rw [hok] at e1
    generalize s.payload.recalc = S at *
    cases hT : recompute env .sbend d S.ref S.real with
    | error e => rw [hT] at e1; cases congrArg Prod.fst e1
    | ok T =>
      obtain ⟨M, hM1, hM2⟩ := recompute_fix hd (fun _ => hfit) hu hZ hp hw hT
      have l1 := recompute_length hT
      rw [hT] at e1
      dsimp only at e1
      have e3 := congrArg Prod.snd e1
      dsimp only at e3
      have hz : (List.zipWith (fun M v => Matrix.mulVec M v) T S.moment0)[i]? = some Spec.onAxis := by
        rw [List.getElem?_zipWith, hM1, hm]
        exact congrArg some (fix_iff.1 hM2)
      refine ⟨?_, ?_, ?_, hcomp⟩
      all_goals rw [e3]
      · refine ⟨p.recalc.drifted false d.length, ?_, hw.recalc.drifted _ _⟩
        show (bendPhis false d.length (S.real.map (fun p => p.recalc)) S.moment0 (List.zipWith (fun M v => M.mulVec v) T S.moment0))[i]? = _
        rw [bendPhis_eq d.length (S.real.map (fun p => p.recalc)) S.moment0 _ (by simpa using hC.moment0) (by simp [l1, hC.moment0])]
        rw [List.getElem?_zipWith, List.getElem?_map, hp, List.getElem?_zip_eq_some (z := (Spec.onAxis, Spec.onAxis)).2 ⟨hm, hz⟩]
        show some _ = some _
        congr 1
        simp [Spec.onAxis, Particle.drifted]
      · exact hz
      · exact hZ
  have sext : Spec.Unkicked env MType.sextupole.name d.conf → (advanceSext d s).2.2 = none →
      Spec.Complete (advanceSext d s).2.1.payload → On (advanceSext d s).2.1.payload i := by
    intro hu hok hcomp
    have hst := hu.sextupole rfl
    rw [← numOr_eq] at hst
    have hdec : @decide (getNumD d.conf "dstkick" 1 = 1) (Classical.propDecidable _) = false := decide_eq_false hst
    refine ⟨?_, ?_, ?_, hcomp⟩
    all_goals
      clear hcomp
      unfold advanceSext at hok ⊢
      simp only [hr, Bool.false_eq_true, if_false, hdec] at hok ⊢
      generalize s.payload.recalc = S at *
      cases hB : getNum d.conf "B3" with
      | error e => rw [hB] at hok; cases hok
      | ok B3 =>
        cases hL : getNum d.conf "L" with
        | error e => rw [hB, hL] at hok; cases hok
        | ok L0 =>
          rw [hB, hL] at hok
          dsimp only at hok ⊢
          split at hok
          · cases hok
          rename_i rs hrs
          first
            | exact ⟨p.recalc.drifted false d.length, by simp [MSt.calcRms, hp], hw.recalc.drifted _ _⟩
            | exact hZ
            | (have hq : i < S.moment1.length := by rw [hC.moment1]; exact lt_of_get hp
               obtain ⟨x, hx1, hx2⟩ := each_at hrs (List.getElem?_zip_eq_some (z := (p, Spec.onAxis, S.moment1[i])).2
                 ⟨hp, List.getElem?_zip_eq_some.2 ⟨hm, List.getElem?_eq_getElem hq⟩⟩)
               show (List.map _ _)[i]? = _
               rw [List.getElem?_map, hx1]
               unfold sextOne at hx2
               split at hx2
               · cases hx2
               rename_i M IM hmis
               obtain ⟨f1, f2⟩ := misalign_fix (M := (M, IM)) hd hmis
               cases hx2
               refine congrArg some ?_
               have := sextLoop_fix p (L0 * MtoMM / (toSteps (getNumD d.conf "step" 1) : ℝ)) (B3 / p.Brho / (MtoMM * MtoMM * MtoMM))
                 (@decide (getNumD d.conf "thinlens" 0 = 1) (Classical.propDecidable _)) (toSteps (toSteps (getNumD d.conf "step" 1) : ℝ))
                 (M.mulVec Spec.onAxis, congr M S.moment1[i], 1, 1) (fix_iff.1 f1) Fix.one
               dsimp only at this ⊢
               rw [this]
               exact fix_iff.1 f2)
  cases t with
  | source => exact absurd rfl ht
  | sbend => exact bend (hfit rfl) hu hok hcomp
  | sextupole => exact sext hu hok hcomp
  | _ => exact base _ (fun h => nomatch h) hu hok hcomp

/-! ## cavities -/

theorem transStep_fix {Z scl Rm lam : ℝ} {a b c : Kin} {q : RawParams × ℝ × Line} {t t' : Trans} (ht : Fix t.M)
    (h : transStep 0 Z scl Rm lam a b c q t = .ok t') : Fix t'.M := by
  have hf : ∀ x y, Fix (focusT x y) := fun x y => (Fix.one.set (by decide) _).set (by decide) _
  unfold transStep at h
  dsimp only at h
  split at h
  · cases h
    exact Fix.mul ((Fix.one.set (by decide) _).set (by decide) _) ht
  · cases h; exact (hf _ _).mul ht
  · cases h; exact (hf _ _).mul ht
  · rw [if_neg (by decide)] at h; cases h; exact ht
  · rw [if_neg (by decide)] at h; cases h; exact ht
  · rw [if_neg (by decide)] at h; cases h; exact ht
  · rw [if_neg (by decide)] at h; cases h; exact ht
  · rw [if_neg (by decide)] at h; cases h; exact ht
  · split at h
    · cases h
    · cases h
      exact Fix.mul ((Fix.one.set (by decide) _).set (by decide) _) ht
  · cases h

theorem genStep_fix {Z Es scl Rm lam : ℝ} {P : RawParams} {t t' : Gen} (ht : Fix t.M)
    (h : genStep 0 Z Es scl Rm lam P t = .ok t') : Fix t'.M := by
  have hf : ∀ x y, Fix (focusT x y) := fun x y => (Fix.one.set (by decide) _).set (by decide) _
  unfold genStep at h
  dsimp only at h
  split at h
  · cases h
    exact Fix.mul ((Fix.one.set (by decide) _).set (by decide) _) ht
  · cases h; exact (hf _ _).mul ht
  · rw [if_neg (by decide)] at h; cases h; exact ht
  · rw [if_neg (by decide)] at h; cases h; exact ht
  · rw [if_neg (by decide)] at h; cases h; exact ht
  · rw [if_neg (by decide)] at h; cases h; exact ht
  · rw [if_neg (by decide)] at h; cases h; exact ht
  · split at h
    · cases h
    · cases h
      exact Fix.mul ((Fix.one.set (by decide) _).set (by decide) _) ht
  · cases h

theorem combine_fix {A B : Mat} (h : Fix A) : Fix (combine A B) :=
  (((h.set (by decide) _).set (by decide) _).set (by decide) _).set (by decide) _

theorem getCavMat_fix {cav : Cav} {label : Nat} {Rm Z Es scl fy0 Ek : ℝ} {M : Mat} (hm : cav.mpoleLevel = 0)
    (h : getCavMat cav label Rm Z Es scl fy0 Ek = .ok M) : Fix M := by
  unfold getCavMat at h
  dsimp only at h
  split at h
  · cases h
  split at h
  · cases h
  split at h
  · cases h
  split at h
  · cases h
  split at h
  · cases h
  split at h
  · cases h
  split at h
  · cases h
  rename_i hf
  cases h
  rw [hm] at hf
  exact combine_fix (foldE_inv (P := fun t : Trans => Fix t.M) (fun _ _ _ h ht => transStep_fix ht h) _ _ _ hf Fix.one)

theorem getCavMatGeneric_fix {cav : Cav} {Z Es scl fy0 Ek : ℝ} {M : Mat} (hm : cav.mpoleLevel = 0)
    (h : getCavMatGeneric cav Z Es scl fy0 Ek = .ok M) : Fix M := by
  unfold getCavMatGeneric at h
  dsimp only at h
  split at h
  · cases h
  split at h
  · cases h
  split at h
  · cases h
  rename_i hf
  cases h
  rw [hm] at hf
  exact combine_fix (foldE_inv (P := fun t : Gen => Fix t.M) (fun _ _ _ h ht => genStep_fix ht h) _ _ _ hf Fix.one)

theorem initRFCav_fix {c : LCfg} {cav : Cav} {phi : ℝ} {p q : Particle} {M : Mat} (hm : cav.mpoleLevel = 0)
    (h : initRFCav c cav phi p = .ok (q, M)) : Fix M := by
  unfold initRFCav at h
  dsimp only at h
  split at h
  · cases h
  split at h
  · cases h
  split at h
  · cases h
  split at h
  · cases h
  rename_i N hN
  have hf : Fix N := by
    split at hN
    · exact getCavMat_fix hm hN
    · exact getCavMatGeneric_fix hm hN
  cases h
  split
  · intro i
    rw [jump_eq]
    dsimp only
    rw [if_neg (by decide), mul_one, hf i]
    by_cases hi : i = 4
    · subst hi; simp [Spec.onAxis]
    · rw [if_neg hi, div_one]
  · exact hf

/-- In a cavity a charge state like the reference particle gains the same energy and phase. -/
theorem initRFCav_ref {c : LCfg} {cav : Cav} {phi : ℝ} {r r' q : Particle} {M : Mat} (hr : r.IonW = r.IonEs + r.IonEk)
    (h : propagateLong c cav r = .ok (r', phi)) (hi : initRFCav c cav phi r = .ok (q, M)) : q = r' := by
  unfold propagateLong at h
  unfold initRFCav at hi
  dsimp only at h hi
  split at hi
  · cases hi
  split at h
  · cases h
  rename_i scl hscl
  rw [hscl] at hi
  dsimp only at hi
  split at h
  · cases h
  rename_i fy hfy
  split at h
  · cases h
  rename_i W f hW
  cases h
  have : ({ r with IonW := r.IonEk + r.IonEs } : Particle) = r := by
    rw [show r.IonEk + r.IonEs = r.IonW by rw [hr]; ring]
  rw [this, hW] at hi
  dsimp only at hi
  split at hi
  · cases hi
  · cases hi
    rfl

theorem recomputeCav_on {c : LCfg} {cav : Cav} {r r' p : Particle} {l : List Particle} {phi : ℝ} {k : List (Particle × Mat)} {i : Nat}
    (hm : cav.mpoleLevel = 0) (hr : r.IonW = r.IonEs + r.IonEk) (hp : l[i]? = some p) (hw : Weighed r p)
    (hk : recomputeCav c cav r l = .ok (r', phi, k)) :
    ∃ q M, k[i]? = some (q, M) ∧ Fix M ∧ Weighed r'.recalc q.recalc ∧ r'.IonZ = r.IonZ := by
  unfold recomputeCav at hk
  split at hk
  · cases hk
  rename_i r0 phi0 hl
  split at hk
  · cases hk
  rename_i k0 hf
  cases hk
  obtain ⟨⟨q, M⟩, h1, h2⟩ := each_at hf hp
  split at h2
  · cases h2
  rename_i q0 M0 hi
  cases h2
  refine ⟨_, M, h1, initRFCav_fix hm hi, ?_, ?_⟩
  · rw [Weighed] at hw
    have hi2 : initRFCav c cav phi r = .ok (weigh r.IonQ q0, M) := by
      have := initRFCav_weigh (w := r.IonQ) hi
      rwa [show weigh r.IonQ p = r by rw [hw]; rfl] at this
    have e := initRFCav_ref hr hl hi2
    rw [← e]
    rfl
  · unfold propagateLong at hl
    dsimp only at hl
    repeat' split at hl
    all_goals cases hl
    rfl

theorem advanceCavity_on {env : Env} {files : Files} {d : MDat} {cav : Cav} {i : Nat} {s : St MSt} (hcav : d.cav = some cav)
    (h0 : d.refIn = none) (ht : getStr d.conf "cavtype" = .ok cav.cavType)
    (hg : cav.cavType = "Generic" → ∃ f, getStr d.conf "datafile" = .ok f ∧
      cav.dataFile = getStrD d.conf "Eng_Data_Dir" "." ++ "/" ++ f) (hd : Straight d) (hm : cav.mpoleLevel = 0)
    (hr : s.retreat = false) (h : On s.payload i) (hok : (advanceCavity env files d s).2.2 = none) :
    On (advanceCavity env files d s).2.1.payload i := by
  have hcomp := (advanceCavity_part hcav h0 ht hg hr hr h.complete h.complete (Part.refl _) hok).2.2.1
  obtain ⟨⟨p, hp, hw⟩, hm0, hZ, hC⟩ := h.recalc
  have hW : s.payload.recalc.ref.IonW = s.payload.recalc.ref.IonEs + s.payload.recalc.ref.IonEk := rfl
  suffices (∃ p, (advanceCavity env files d s).2.1.payload.real[i]? = some p ∧ Weighed (advanceCavity env files d s).2.1.payload.ref p) ∧
      (advanceCavity env files d s).2.1.payload.moment0[i]? = some Spec.onAxis ∧ (advanceCavity env files d s).2.1.payload.ref.IonZ ≠ 0 from
    ⟨this.1, this.2.1, this.2.2, hcomp⟩
  clear hcomp
  unfold advanceCavity at hok ⊢
  simp only [hcav, hr, Bool.false_eq_true, if_false, if_neg (miss _ h0)] at hok ⊢
  generalize s.payload.recalc = S at *
  rw [reload_same ht hg] at hok ⊢
  dsimp only at hok ⊢
  have hmm : ∀ (m : List (Mat × Mat)) (r : Particle) (l : List Particle),
      recomputeCav d.conf { cav with misalign := m } r l = recomputeCav d.conf cav r l := fun m r l =>
    recomputeCav_cov (cd := cav) (o := { cav with misalign := m }) (fun _ => ⟨rfl, rfl, rfl⟩) d.conf r l
  simp only [hmm] at hok ⊢
  cases hR : recomputeCav d.conf cav S.ref S.real with
  | error e => rw [hR] at hok; cases hok
  | ok x =>
    obtain ⟨ref, phi, k⟩ := x
    obtain ⟨q, M, hk1, hk2, hk3, hk4⟩ := recomputeCav_on hm hW hp hw hR
    have hkl := recomputeCav_length hR
    rw [hR] at hok
    dsimp only at hok ⊢
    have hm2 : ∀ (d1 : MDat) (l : List Particle), (∀ r p, getMisalign d1 r p = getMisalign d r p) →
        forEach (fun p => getMisalign d1 ref p) l = forEach (fun p => getMisalign d ref p) l := by
      intro d1 l h1
      simp only [h1]
    have hd1 := hm2 { d with
      refIn := some S.ref, realIn := S.real, transfer := resize S.real.length d.transfer
      cav := some { cav with misalign := resizeMis S.real.length cav.misalign } }
    rw [hd1 _ (fun _ _ => rfl)] at hok ⊢
    cases hM : forEach (fun p => getMisalign d ref p) (k.map (fun q => q.1)) with
    | error e => rw [hM] at hok; cases hok
    | ok mis =>
      rw [hM] at hok
      obtain ⟨mi, hmi1, hmi2⟩ := each_at (i := i) (p := q) hM (by rw [List.getElem?_map, hk1]; rfl)
      obtain ⟨f1, f2⟩ := misalign_fix hd hmi2
      dsimp only at hok ⊢
      have hq : i < S.moment1.length := by rw [hC.moment1]; exact lt_of_get hp
      have hreal : (((k.map (fun q => q.1))).map Particle.recalc)[i]? = some q.recalc := by
        rw [List.getElem?_map, List.getElem?_map, hk1]
        rfl
      have hT : (k.map (fun q => q.2))[i]? = some M := by
        rw [List.getElem?_map, hk1]
        rfl
      refine ⟨⟨q.recalc, hreal, hk3⟩, ?_, ?_⟩
      · unfold cavForward
        dsimp only
        show (List.map _ (cavLoop _ ref.recalc (k.map (fun q => q.2)) mis ((k.map (fun q => q.1)).map Particle.recalc) (ends env _)
          S.moment0 S.moment1))[i]? = _
        have hends : (ends env { d with
          refIn := some S.ref, realIn := S.real, transfer := k.map (fun q => q.2), refOut := ref.recalc
          realOut := (k.map (fun q => q.1)).map Particle.recalc, cav := some { cav with phiRef := some phi, misalign := mis } })[i]? =
            some (p, q.recalc) := by
          unfold ends
          rw [show ((k.map (fun q => q.1)).map Particle.recalc).length = S.real.length by simp [hkl], Nat.sub_self]
          refine List.getElem?_zip_eq_some.2 ⟨hp, ?_⟩
          simpa using hreal
        rw [cavLoop_eq, List.map_map, List.getElem?_map]
        erw [List.getElem?_zip_eq_some (z := (M, mi, q.recalc, (p, q.recalc), Spec.onAxis, S.moment1[i])).2
          ⟨hT, List.getElem?_zip_eq_some.2 ⟨hmi1, List.getElem?_zip_eq_some.2 ⟨hreal, List.getElem?_zip_eq_some.2 ⟨hends,
            List.getElem?_zip_eq_some.2 ⟨hm0, List.getElem?_eq_getElem hq⟩⟩⟩⟩⟩]
        refine congrArg some ?_
        have e1 : q.recalc.phis = ref.recalc.phis := by rw [Weighed] at hk3; rw [hk3]; rfl
        have e2 : q.recalc.IonEk = ref.recalc.IonEk := by rw [Weighed] at hk3; rw [hk3]; rfl
        have f0 : Fix (setAt (setAt M 4 6 0) 5 6 0) := (hk2.clear (by decide) rfl).clear (by decide) rfl
        show mi.2.mulVec (fun i => if i = 4 then q.recalc.phis - ref.recalc.phis else if i = 5 then
          (q.recalc.IonEk - ref.recalc.IonEk) / MeVtoeV else (setAt (setAt M 4 6 0) 5 6 0).mulVec (mi.1.mulVec Spec.onAxis) i) = _
        rw [fix_iff.1 f1, fix_iff.1 f0, e1, e2]
        have : (fun i : Fin 7 => if i = 4 then ref.recalc.phis - ref.recalc.phis else if i = 5 then
          (ref.recalc.IonEk - ref.recalc.IonEk) / MeVtoeV else Spec.onAxis i) = Spec.onAxis := by
          funext j
          fin_cases j <;> simp [Spec.onAxis]
        rw [this]
        exact fix_iff.1 f2
      · show ref.IonZ ≠ 0
        rw [hk4]
        exact hZ

/-! ## runs -/

section general
variable {C X S : Type}

/-- A forward run which meets every element for the first time: what each element keeps holds at the end and in all records. -/
theorem run_holds {E : Nat → Elem C X S → Prop} {P Q : S → Prop}
    (hk : ∀ j e, E j e → Keeps e.cls)
    (hstep : ∀ j e (s : St S), E j e → s.retreat = false → P s.payload → (e.cls.advance e.dat s).2.2 = none →
        P (e.cls.advance e.dat s).2.1.payload ∧ Q (e.cls.advance e.dat s).2.1.payload)
    (n : Nat) : ∀ (els : List (Elem C X S)) (s : St S), els.length < sizeMod →
      (∀ j e, s.nextElem ≤ j → els[j]? = some e → E j e) → s.retreat = false → P s.payload →
      (run n els s).err = none →
      P (run n els s).st.payload ∧ ∀ o j t, Event.view o j t ∈ (run n els s).trace → P t.payload ∧ Q t.payload := by
  induction n with
  | zero => intro els s _ _ _ hP _; exact ⟨hP, fun o j t h => nomatch h⟩
  | succ n ih =>
    intro els s hl hE hr hP hok
    have hpay : ∀ s : St S, (stepNext s).payload = s.payload := by intro s; unfold stepNext; split <;> rfl
    have hret : ∀ s : St S, (stepNext s).retreat = s.retreat := by intro s; unfold stepNext; split <;> rfl
    cases h : els[s.nextElem]? with
    | none =>
      rw [run_succ_none h]
      exact ⟨hP, fun o j t h => nomatch h⟩
    | some e =>
      have hEe := hE _ e (le_refl _) h
      have hlt : s.nextElem < els.length := lt_of_get h
      cases h3 : (e.cls.advance e.dat (stepNext s)).2.2 with
      | some x => rw [run_succ_err h h3] at hok; cases hok
      | none =>
        have g := hstep _ e (stepNext s) hEe (by rw [hret]; exact hr) (by rw [hpay]; exact hP) h3
        obtain ⟨k1, k2⟩ := hk _ e hEe e.dat (stepNext s)
        have hup : (stepNext s).nextElem = s.nextElem + 1 := by
          unfold stepNext
          rw [if_neg (by rw [hr]; simp)]
          exact Nat.mod_eq_of_lt (by omega)
        rw [hup] at k1
        rw [hret, hr] at k2
        rw [run_succ_ok h h3] at hok ⊢
        dsimp only at hok ⊢
        obtain ⟨i1, i2⟩ := ih (els.set s.nextElem { e with dat := (e.cls.advance e.dat (stepNext s)).1 })
          (e.cls.advance e.dat (stepNext s)).2.1 (by rwa [List.length_set])
          (by
            intro j e' hj hj'
            rw [k1] at hj
            rw [List.getElem?_set_ne (by omega)] at hj'
            exact hE j e' (by omega) hj')
          k2 g.1 hok
        refine ⟨i1, fun o j t ht => ?_⟩
        rw [List.cons_append] at ht
        rcases List.mem_cons.1 ht with ht | ht
        · cases ht
        rcases List.mem_append.1 ht with ht | ht
        · unfold viewEvents at ht
          cases ho : e.obs with
          | none => rw [ho] at ht; cases ht
          | some o' =>
            rw [ho] at ht
            cases List.mem_singleton.1 ht
            exact g
        · exact i2 o j t ht

end general

theorem build_straight {env : Env} {junk : Mat} {t : MType} {c : LCfg} {d : MDat} (h : build env junk t c = .ok d)
    (hs : numOr c "dx" 0 = 0 ∧ numOr c "dy" 0 = 0) (ha : numOr c "pitch" 0 = 0 ∧ numOr c "yaw" 0 = 0) : Straight d := by
  have key : d.dx = getNumD c "dx" 0 * MtoMM ∧ d.dy = getNumD c "dy" 0 * MtoMM ∧ d.pitch = getNumD c "pitch" 0 ∧ d.yaw = getNumD c "yaw" 0 := by
    unfold build at h
    cases t
    all_goals dsimp only at h
    all_goals repeat' split at h
    all_goals cases h
    all_goals exact ⟨rfl, rfl, rfl, rfl⟩
  obtain ⟨h1, h2, h3, h4⟩ := key
  rw [numOr_eq] at h1 h2 h3 h4
  exact ⟨by rw [h1, hs.1, zero_mul], by rw [h2, hs.2, zero_mul], by rw [h3, ha.1], by rw [h4, ha.2]⟩

theorem on_iff {S : MSt} {i : Nat} : On S i ↔ Spec.Follows S i ∧ S.ref.IonZ ≠ 0 ∧ Spec.Complete S := by
  constructor
  · rintro ⟨⟨p, h1, h2⟩, h3, h4, h5⟩
    exact ⟨⟨⟨p, h1, weighed_iff.2 h2⟩, h3⟩, h4, h5⟩
  · rintro ⟨⟨⟨p, h1, h2⟩, h3⟩, h4, h5⟩
    exact ⟨⟨p, h1, weighed_iff.1 h2⟩, h3, h4, h5⟩

/-- C85: a machine is built from a lattice, and a beam is sent forward from element `start` on, through elements without effect on
the orbit of the reference particle.  A charge state that follows the reference particle at the start still does so everywhere and
at the end: it has the energy and the phase of the reference particle, and its centroid is on the axis, whatever its weight, its
covariance and the other charge states are. -/
theorem C85_follows {env : Env} {files : Files} {junk : Mat} {base : Nat} (cv : CView LCfg) (c : LCfg)
    (m : Machine LCfg MDat MSt)
    (h : Machine.new cv (registry env junk base (cavityCls env files junk base) (stripperCls env junk base)) c = .ok m)
    (es : List LCfg) (hes : cv.elems c = .ok es) (hl : es.length < sizeMod) (start : Nat) (max : Int) (hm : 0 ≤ max)
    (hu : ∀ j ec ty, start ≤ j → es[j]? = some ec → cv.str ec "type" = .ok ty → Spec.Unkicked env ty ec)
    (s : St MSt) (i : Nat) (hc : Spec.Complete s.payload) (hZ : s.payload.ref.IonZ ≠ 0) (hi : Spec.Follows s.payload i) :
    ∃ r, propagate m.elems s start max = some r ∧ (r.err = none →
      Spec.Follows r.st.payload i ∧ ∀ o j t, Event.view o j t ∈ r.trace → Spec.Follows t.payload i) := by
  have hF := machine_moment h hes
  have hlen := hF.length_eq
  have hall := fun j e (hj : m.elems[j]? = some e) => forall₂_get hF hj
  let E : Nat → Elem LCfg MDat MSt → Prop := fun j e => start ≤ j ∧ m.elems[j]? = some e
  have hk : ∀ j e, E j e → Keeps e.cls := by
    rintro j e ⟨h1, h2⟩
    obtain ⟨ec, hec, ty, hty, ⟨t, ht, htn, hb⟩ | ⟨ht, -, hb⟩ | ⟨ht, -, hb⟩⟩ := hall j e h2
    · rw [ht]
      refine (measured_cls env junk base t ?_).1
      rintro rfl
      exact (hu j ec ty h1 hec hty).kinds.1 (by rw [← htn]; rfl)
    · rw [ht]
      exact (measured_cavity env files junk base _ _ hb).2.1
    · rw [ht]
      exact (measured_stripper env junk base _ _ hb).2.1
  have hstep : ∀ j e (s : St MSt), E j e → s.retreat = false → On s.payload i → (e.cls.advance e.dat s).2.2 = none →
      On (e.cls.advance e.dat s).2.1.payload i ∧ True := by
    rintro j e s ⟨h1, h2⟩ hr hP hok
    refine ⟨?_, trivial⟩
    obtain ⟨ec, hec, ty, hty, ⟨t, ht, rfl, hb⟩ | ⟨ht, rfl, hb⟩ | ⟨ht, rfl, hb⟩⟩ := hall j e h2
    · have huk := hu j ec _ h1 hec hty
      have hts : t ≠ .source := by
        rintro rfl
        exact huk.kinds.1 rfl
      have hconf := (build_length hb).2.1
      rw [ht] at hok ⊢
      refine advance_on (env := env) (t := t) hts (build_length hb).2.2.1 (build_straight hb huk.shifts huk.angles) ?_
        (by rw [hconf]; exact huk) hr hP hok
      rintro rfl
      have hfl := (flag_switch (env := env) (c := ec) (k := "HdipoleFitMode") (dflt := 1) (n := 1)).2
        ⟨huk.dipole (.inl rfl), by norm_num⟩
      have hb' : build env junk .sbend ec = .ok e.dat := hb
      unfold build at hb'
      dsimp only at hb'
      rw [hfl] at hb'
      dsimp only at hb'
      rw [if_pos (.inr rfl)] at hb'
      rw [← Except.ok.inj hb']
    · have huk := hu j ec _ h1 hec hty
      rw [ht] at hok ⊢
      obtain ⟨d0, cav, hd0, hload, hdat⟩ := loadCavity_ok (show buildCavity env files junk ec = .ok e.dat from hb)
      obtain ⟨l1, -, l3, l4⟩ := loadCavity_map hload
      have hconf : e.dat.conf = ec := by rw [hdat]; exact (build_length hd0).2.1
      have hnone : e.dat.refIn = none := by rw [hdat]; exact (build_length hd0).2.2.1
      have hcv : e.dat.cav = some cav := by rw [hdat]
      have hst : Straight e.dat := by
        have := build_straight hd0 huk.shifts huk.angles
        rw [hdat]
        exact this
      obtain ⟨cav', hc1, hc2⟩ := C81_asked (show buildCavity env files junk ec = .ok e.dat from hb)
      rw [hcv] at hc1
      cases hc1
      have hmp : cav.mpoleLevel = 0 := by
        have a := (flag_switch (env := env) (c := ec) (k := "MpoleLevel") (dflt := 2)).2 ⟨hc2.level.1, by have := hc2.level.2; omega⟩
        have b := (flag_switch (env := env) (c := ec) (k := "MpoleLevel") (dflt := 2) (n := 0)).2 ⟨huk.cavity rfl, by norm_num⟩
        rw [a] at b
        exact Except.ok.inj b
      exact advanceCavity_on (env := env) (files := files) hcv hnone (by rw [hconf]; exact l3) (by rw [hconf]; exact l4) hst hmp hr hP hok
    · exact absurd rfl (hu j ec _ h1 hec hty).kinds.2
  have hm' : max ≠ -2 ^ 31 := by omega
  refine ⟨_, propagate_eq m.elems s start max hm', fun hok => ?_⟩
  have hret : decide (max < 0) = false := by simp; omega
  obtain ⟨r1, r2⟩ := run_holds (E := E) (P := fun S => On S i) (Q := fun _ => True) hk hstep max.natAbs m.elems
    { s with nextElem := start, retreat := decide (max < 0) } (by rw [← hlen]; exact hl) (fun j e h1 h2 => ⟨h1, h2⟩) hret
    (on_iff.2 ⟨hi, hZ, hc⟩) hok
  exact ⟨(on_iff.1 r1).1, fun o j t ht => (on_iff.1 (r2 o j t ht).1).1⟩

/-- The cavity of the other examples, without multipoles. -/
noncomputable def exMono : LCfg := fun k => if k = "MpoleLevel" then some (.num 0) else exFull k

/-- A drift of 1 m and this cavity. -/
noncomputable def exMonoView : CView LCfg where
  str c k := match c k with
    | some (.str x) => .ok x
    | _ => .error .keyError
  elems _ := .ok [fun k => if k = "type" then some (.str "drift") else if k = "name" then some (.str "d")
      else if k = "L" then some (.num 1) else none,
    exMono]

/-- A charge state on the axis with half the weight of the reference particle, and another one. -/
noncomputable def exOnAxis : St MSt :=
  { nextElem := 0, retreat := false, payload :=
    { pos := 0, ref := exParticle, real := [{ exParticle with IonZ := 2 }, { exParticle with IonQ := 1 / 2 }]
      moment0 := [fun _ => 1, Spec.onAxis], moment1 := [1, 2], transmat := [1, 1], moment0_env := 0, moment0_rms := 0
      moment1_env := 0, last_caviphi0 := 0 } }

theorem exMono_builds (env : Env) (junk : Mat) : ∃ d, buildCavity env exFiles junk exMono = .ok d := by
  have hb : ∃ d, buildCavity env exFiles junk exFull = .ok d := by
    unfold buildCavity
    rw [exFull_loads]
    exact ⟨_, rfl⟩
  obtain ⟨d, hd⟩ := hb
  obtain ⟨cav, -, A⟩ := C81_asked hd
  have hk : ∀ k, k ≠ "MpoleLevel" → exMono k = exFull k := fun k h => if_neg h
  have hR := hk "Rm" (by decide)
  have hD := hk "Eng_Data_Dir" (by decide)
  have hF := hk "datafile" (by decide)
  refine C81_accepts env exFiles junk exMono ⟨{ cav with mpoleLevel := 0 }, A.frequency, A.phase,
    ⟨.inl (.inl (by simp [exMono])), by simp⟩, A.growth, A.force, A.type, ?_⟩
  obtain ⟨dir, h1, ⟨i, lab, h2, B⟩ | ⟨h2, B⟩⟩ := A.data
  · refine ⟨dir, ?_, .inl ⟨i, lab, h2, B.type, B.map, B.map_fits, B.poles, B.poles_fit, B.pieces, ?_⟩⟩
    · unfold Settings.Dir at h1 ⊢
      rwa [hD]
    · have := B.radius
      unfold Settings.Number at this ⊢
      rwa [hR]
  · refine ⟨dir, ?_, .inr ⟨h2, B.type, ?_⟩⟩
    · unfold Settings.Dir at h1 ⊢
      rwa [hD]
    · have := B.file
      unfold Settings.Number at this ⊢
      rwa [hR, hF]

theorem exMono_machine (env : Env) (junk : Mat) : ∃ m es, Machine.new exMonoView
      (registry env junk 0 (cavityCls env exFiles junk 0) (stripperCls env junk 0))
      (fun k => if k = "sim_type" then some (.str "MomentMatrix") else none) = .ok m ∧
    exMonoView.elems (fun k => if k = "sim_type" then some (.str "MomentMatrix") else none) = .ok es ∧ es.length = 2 ∧
    Spec.Complete exOnAxis.payload := by
  obtain ⟨hk, hreg⟩ := registered_shipped env junk 0 (cavityCls env exFiles junk 0) (stripperCls env junk 0)
  obtain ⟨d, hd⟩ := exMono_builds env junk
  obtain ⟨m, hm⟩ := (Flame.Mach.C18_success_iff exMonoView
    (registry env junk 0 (cavityCls env exFiles junk 0) (stripperCls env junk 0))
    (fun k => if k = "sim_type" then some (.str "MomentMatrix") else none)).2 ⟨"MomentMatrix", _, rfl, hk, rfl, by
      simp only [List.mem_cons, List.not_mem_nil, or_false, forall_eq_or_imp, forall_eq]
      exact ⟨⟨"drift", _, "d", _, rfl, hreg _ _ rfl, rfl, rfl, rfl⟩, ⟨"rfcavity", _, "c", d, rfl, hreg _ _ rfl, rfl, rfl, hd⟩⟩⟩
  exact ⟨m, _, hm, rfl, rfl, rfl, rfl, rfl⟩

/-- The hypotheses of `C85_follows` are met by a drift and a cavity, for the second of two charge states. -/
example (env : Env) (junk : Mat) : ∃ m es, Machine.new exMonoView
      (registry env junk 0 (cavityCls env exFiles junk 0) (stripperCls env junk 0))
      (fun k => if k = "sim_type" then some (.str "MomentMatrix") else none) = .ok m ∧
    exMonoView.elems (fun k => if k = "sim_type" then some (.str "MomentMatrix") else none) = .ok es ∧ es.length = 2 ∧
    (∀ (j : Nat) ec ty, 0 ≤ j → es[j]? = some ec → exMonoView.str ec "type" = .ok ty → Spec.Unkicked env ty ec) ∧
    Spec.Complete exOnAxis.payload ∧ exOnAxis.payload.ref.IonZ ≠ 0 ∧ Spec.Follows exOnAxis.payload 1 := by
  obtain ⟨m, es, hm, h2, h3, h4⟩ := exMono_machine env junk
  cases h2
  refine ⟨m, _, hm, rfl, rfl, ?_, ⟨rfl, rfl, rfl⟩, one_ne_zero, ⟨⟨_, rfl, weighed_iff.2 rfl⟩, rfl⟩⟩
  intro j ec ty _ hj hty
  match j, hj with
  | 0, hj =>
    cases hj
    cases hty
    constructor <;> simp [numOr]
  | 1, hj =>
    cases hj
    cases hty
    refine ⟨by simp, ?_, ?_, by simp, by simp, by simp, fun _ => .inl (.inl (by simp [exMono])), by simp⟩
    all_goals simp [numOr, exMono, exFull, exSet]

end Flame.Cavity
