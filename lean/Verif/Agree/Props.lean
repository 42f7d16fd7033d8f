import Verif.Agree.Spec
import Verif.Cavity.Total
import Verif.Linear.Props
import Verif.Linear.Optics
import Verif.Moment.Bends

/-! # C93: the linear simulations and the moment simulation agree in the transverse planes -/

namespace Flame.Agree

open Flame.Mach (Cls St Err CView Machine propagate sizeMod Elem Run Event run visits stepNext viewEvents run_succ_none run_succ_err run_succ_ok propagate_eq)
open Flame.Linear (LVal LCfg getNum getNumD getVec LDat LSt LType Kind Lawful)
open Flame.Moment (MSt MDat Particle Env MType MCls Later Keeps recompute getNum_ok C36_aligned recalc_moving forEach aligned)
open Flame.Agree.Spec

/-! ## two runs of different machines -/

section

variable {C X S C' X' S' : Type}

/-- Two forward runs side by side. -/
theorem run_pair {E : Nat → Elem C X S → Elem C' X' S' → Prop} {R : S → S' → Prop}
    (hk : ∀ j e e', E j e e' → Keeps e.cls ∧ Keeps e'.cls)
    (hstep : ∀ j e e' (s : St S) (s' : St S'), E j e e' → s.retreat = false → s'.retreat = false → R s.payload s'.payload →
      (e.cls.advance e.dat s).2.2 = none ∧ (e'.cls.advance e'.dat s').2.2 = none ∧
        R (e.cls.advance e.dat s).2.1.payload (e'.cls.advance e'.dat s').2.1.payload)
    (n : Nat) : ∀ (els : List (Elem C X S)) (els' : List (Elem C' X' S')) (s : St S) (s' : St S'),
      els.length < sizeMod → els'.length = els.length →
      (∀ j e e', s.nextElem ≤ j → j < s.nextElem + n → els[j]? = some e → els'[j]? = some e' → E j e e') →
      s'.nextElem = s.nextElem → s.retreat = false → s'.retreat = false → R s.payload s'.payload →
      (run n els s).err = none ∧ (run n els' s').err = none ∧
        R (run n els s).st.payload (run n els' s').st.payload ∧
        (run n els' s').st.nextElem = (run n els s).st.nextElem := by
  induction n with
  | zero => intro els els' s s' _ _ _ hn _ _ hR; exact ⟨rfl, rfl, hR, hn⟩
  | succ n ih =>
    intro els els' s s' hl hl' hE hn hr hr' hR
    have hpay : ∀ {S : Type} (s : St S), (stepNext s).payload = s.payload := by intro S s; unfold stepNext; split <;> rfl
    have hret : ∀ {S : Type} (s : St S), (stepNext s).retreat = s.retreat := by intro S s; unfold stepNext; split <;> rfl
    cases h : els[s.nextElem]? with
    | none =>
      have h' : els'[s'.nextElem]? = none := by
        rw [List.getElem?_eq_none_iff] at h ⊢
        omega
      rw [run_succ_none h, run_succ_none h']
      exact ⟨rfl, rfl, hR, hn⟩
    | some e =>
      have hlt : s.nextElem < els.length := Cavity.lt_of_get h
      obtain ⟨e', h'⟩ : ∃ e', els'[s'.nextElem]? = some e' := ⟨_, List.getElem?_eq_getElem (by omega)⟩
      have hEe := hE _ e e' (le_refl _) (by omega) h (by rw [← hn]; exact h')
      obtain ⟨g1, g2, g3⟩ := hstep _ e e' (stepNext s) (stepNext s') hEe (by rw [hret]; exact hr) (by rw [hret]; exact hr')
        (by rw [hpay, hpay]; exact hR)
      obtain ⟨kk, kk'⟩ := hk _ e e' hEe
      obtain ⟨k1, k2⟩ := kk e.dat (stepNext s)
      obtain ⟨k1', k2'⟩ := kk' e'.dat (stepNext s')
      have hup : ∀ {S : Type} (s : St S), s.retreat = false → s.nextElem < els.length → (stepNext s).nextElem = s.nextElem + 1 := by
        intro S s hs hlt
        unfold stepNext
        rw [if_neg (by rw [hs]; simp)]
        exact Nat.mod_eq_of_lt (by omega)
      rw [hup s hr hlt] at k1
      rw [hup s' hr' (by omega), hn] at k1'
      rw [hret, hr] at k2
      rw [hret, hr'] at k2'
      rw [run_succ_ok h g1, run_succ_ok h' g2]
      dsimp only
      exact ih (els.set s.nextElem { e with dat := (e.cls.advance e.dat (stepNext s)).1 })
        (els'.set s'.nextElem { e' with dat := (e'.cls.advance e'.dat (stepNext s')).1 })
        (e.cls.advance e.dat (stepNext s)).2.1 (e'.cls.advance e'.dat (stepNext s')).2.1 (by rwa [List.length_set])
        (by rw [List.length_set, List.length_set]; exact hl')
        (by
          intro j a b h1 h2 ha hb
          rw [k1] at h1 h2
          rw [List.getElem?_set_ne (by omega)] at ha hb
          exact hE j a b (by omega) (by omega) ha hb)
        (by rw [k1, k1']) k2 k2' g3

end

/-! ## the matrices -/

/-- `T` acts in the transverse planes as `A`, keeps the energy and, unless there are `bends`, takes no other coordinate into
them. -/
structure Same (bends : Prop) (T : Moment.Mat) (A : Linear.Mat) : Prop where
  block : ∀ a b, T (at7 a) (at7 b) = A (at6 a) (at6 b)
  time : ∀ a, T (at7 a) 4 = 0
  kick : ∀ a, T (at7 a) 6 = 0
  disp : ¬ bends → ∀ a, T (at7 a) 5 = 0
  energy : ∀ b, T 5 b = if b = 5 then 1 else 0
  lin4 : ∀ a, A (at6 a) 4 = 0
  lin5 : ∀ a, A (at6 a) 5 = 0

theorem same_one (bends : Prop) : Same bends 1 1 := by
  constructor
  · intro a b; fin_cases a <;> fin_cases b <;> simp [at7, at6, Matrix.one_apply]
  · intro a; fin_cases a <;> simp [at7, Matrix.one_apply]
  · intro a; fin_cases a <;> simp [at7, Matrix.one_apply]
  · intro _ a; fin_cases a <;> simp [at7, Matrix.one_apply]
  · intro b; fin_cases b <;> simp [Matrix.one_apply]
  · intro a; fin_cases a <;> simp [at6, Matrix.one_apply]
  · intro a; fin_cases a <;> simp [at6, Matrix.one_apply]

theorem same_drift (bends : Prop) (p : Particle) (L : ℝ) : Same bends (Moment.driftM p L) (Linear.driftT L) := by
  constructor
  · intro a b; fin_cases a <;> fin_cases b <;> simp [at7, at6, Matrix.one_apply, Moment.driftM, Linear.driftT, Moment.setAt, Linear.setAt]
  · intro a; fin_cases a <;> simp [at7, Matrix.one_apply, Moment.driftM, Moment.setAt]
  · intro a; fin_cases a <;> simp [at7, Matrix.one_apply, Moment.driftM, Moment.setAt]
  · intro _ a; fin_cases a <;> simp [at7, Matrix.one_apply, Moment.driftM, Moment.setAt]
  · intro b; fin_cases b <;> simp [Matrix.one_apply, Moment.driftM, Moment.setAt]
  · intro a; fin_cases a <;> simp [at6, Matrix.one_apply, Linear.driftT, Linear.setAt]
  · intro a; fin_cases a <;> simp [at6, Matrix.one_apply, Linear.driftT, Linear.setAt]

theorem same_quad (bends : Prop) (p : Particle) (L K : ℝ) : Same bends (Moment.quadM p L K) (Linear.quadT L K) := by
  unfold Moment.quadM Linear.quadT
  rw [Moment.quadPlane_eq, Moment.quadPlane_eq, Linear.get2by2_eq, Linear.get2by2_eq]
  generalize Linear.cc K L = c1
  generalize Linear.ss K L = s1
  generalize Linear.cc (-K) L = c2
  generalize Linear.ss (-K) L = s2
  constructor
  · intro a b; fin_cases a <;> fin_cases b <;> simp [at7, at6, Matrix.one_apply, Moment.setAt, Linear.setAt]
  · intro a; fin_cases a <;> simp [at7, Matrix.one_apply, Moment.setAt]
  · intro a; fin_cases a <;> simp [at7, Matrix.one_apply, Moment.setAt]
  · intro _ a; fin_cases a <;> simp [at7, Matrix.one_apply, Moment.setAt]
  · intro b; fin_cases b <;> simp [Matrix.one_apply, Moment.setAt]
  · intro a; fin_cases a <;> simp [at6, Matrix.one_apply, Linear.setAt]
  · intro a; fin_cases a <;> simp [at6, Matrix.one_apply, Linear.setAt]

theorem same_solenoid (bends : Prop) (p : Particle) (L K : ℝ) : Same bends (Moment.solenoidM p L K) (Linear.solenoidT L K) := by
  unfold Moment.solenoidM Moment.solM Linear.solenoidT
  dsimp only
  constructor
  · intro a b; fin_cases a <;> fin_cases b <;> simp [at7, at6, Moment.setAt, Linear.setAt]
  · intro a; fin_cases a <;> simp [at7, Matrix.one_apply, Moment.setAt]
  · intro a; fin_cases a <;> simp [at7, Matrix.one_apply, Moment.setAt]
  · intro _ a; fin_cases a <;> simp [at7, Matrix.one_apply, Moment.setAt]
  · intro b; fin_cases b <;> simp [Matrix.one_apply, Moment.setAt]
  · intro a; fin_cases a <;> simp [at6, Matrix.one_apply, Linear.setAt]
  · intro a; fin_cases a <;> simp [at6, Matrix.one_apply, Linear.setAt]

theorem same_sbend {bends : Prop} (hb : bends) (L phi K Es rg b g k : ℝ) :
    Same bends (Moment.sbendM L phi 0 0 K Es rg 0 b g (-0) k 1) (Linear.sbendT L phi K) := by
  unfold Moment.sbendM Linear.sbendT
  dsimp only
  rw [Moment.edgeM_zero, Matrix.one_mul, Matrix.mul_one, Moment.quadPlane_eq, Moment.quadPlane_eq, Linear.get2by2_eq, Linear.get2by2_eq]
  generalize K + 1 / (L / phi * (L / phi)) = kx
  generalize Linear.cc kx L = c1
  generalize Linear.ss kx L = s1
  generalize Linear.cc (-K) L = c2
  generalize Linear.ss (-K) L = s2
  constructor
  · intro a b; fin_cases a <;> fin_cases b <;> simp [at7, at6, Matrix.one_apply, Moment.setAt, Linear.setAt]
  · intro a; fin_cases a <;> simp [at7, Matrix.one_apply, Moment.setAt]
  · intro a; fin_cases a <;> simp [at7, Matrix.one_apply, Moment.setAt]
  · intro h; exact absurd hb h
  · intro b; fin_cases b <;> simp [Matrix.one_apply, Moment.setAt]
  · intro a; fin_cases a <;> simp [at6, Matrix.one_apply, Linear.setAt]
  · intro a; fin_cases a <;> simp [at6, Matrix.one_apply, Linear.setAt]

/-! ## moving a centroid and a covariance -/

theorem movedBy_iff {A : Linear.Mat} {v v' : Moment.Vec} {M M' : Moment.Mat} : MovedBy A v v' M M' ↔
    v' ∘ at7 = (A.submatrix at6 at6).mulVec (v ∘ at7) ∧
    M'.submatrix at7 at7 = A.submatrix at6 at6 * M.submatrix at7 at7 * (A.submatrix at6 at6).transpose := by
  constructor
  · intro h
    refine ⟨funext fun a => h.centroid a, ?_⟩
    ext a b
    rw [Matrix.submatrix_apply, h.covariance, Finset.sum_comm, Matrix.mul_apply]
    refine Finset.sum_congr rfl fun d _ => ?_
    rw [Matrix.mul_apply, Finset.sum_mul]
    rfl
  · rintro ⟨h1, h2⟩
    refine ⟨fun a => congrFun h1 a, fun a b => ?_⟩
    have := congrFun (congrFun h2 a) b
    rw [Matrix.submatrix_apply] at this
    rw [this, Finset.sum_comm, Matrix.mul_apply]
    refine Finset.sum_congr rfl fun d _ => ?_
    rw [Matrix.mul_apply, Finset.sum_mul]
    rfl

theorem sum7 (f : Fin 7 → ℝ) : ∑ a, f a = (∑ a, f (at7 a)) + f 4 + f 5 + f 6 := by
  simp only [Fin.sum_univ_succ, Fin.sum_univ_zero]
  simp [at7, Fin.succ]
  ring_nf

theorem sum6 (f : Fin 6 → ℝ) : ∑ a, f a = (∑ a, f (at6 a)) + f 4 + f 5 := by
  simp only [Fin.sum_univ_succ, Fin.sum_univ_zero]
  simp [at6, Fin.succ]
  ring_nf

theorem same_moved {bends : Prop} {T : Moment.Mat} {A : Linear.Mat} (h : Same bends T A) {v : Moment.Vec} {M : Moment.Mat}
    (he : bends → v 5 = 0 ∧ ∀ a, M 5 a = 0 ∧ M a 5 = 0) :
    MovedBy A v (T.mulVec v) M (Moment.congr T M) ∧
    (bends → T.mulVec v 5 = 0 ∧ ∀ a, Moment.congr T M 5 a = 0 ∧ Moment.congr T M a 5 = 0) := by
  have row : ∀ w : Fin 7 → ℝ, (bends → w 5 = 0) → ∀ a, ∑ b, T (at7 a) b * w b = ∑ b, A (at6 a) (at6 b) * w (at7 b) := by
    intro w hw a
    rw [sum7, h.time, h.kick, Finset.sum_congr rfl (fun b _ => by rw [h.block a b])]
    by_cases hb : bends
    · rw [hw hb]
      ring
    · rw [h.disp hb]
      ring
  have row5 : ∀ w : Fin 7 → ℝ, ∑ b, T 5 b * w b = w 5 := by
    intro w
    rw [Finset.sum_eq_single 5]
    · rw [h.energy]
      simp
    · intro b _ hb
      rw [h.energy, if_neg hb, zero_mul]
    · simp
  have cov : ∀ a b, Moment.congr T M a b = ∑ c, T b c * ∑ d, T a d * M d c := by
    intro a b
    unfold Moment.congr
    rw [Matrix.mul_apply]
    refine Finset.sum_congr rfl fun c _ => ?_
    rw [Matrix.mul_apply, mul_comm]
    rfl
  refine ⟨⟨fun a => ?_, fun a b => ?_⟩, fun hb => ⟨?_, fun a => ⟨?_, ?_⟩⟩⟩
  · exact row v (fun hb => (he hb).1) a
  · rw [cov, row (fun c => ∑ d, T (at7 a) d * M d c) _ b]
    · rw [Finset.sum_comm]
      refine Finset.sum_congr rfl fun c _ => ?_
      rw [row (fun d => M d (at7 c)) (fun hb => ((he hb).2 _).1) a, Finset.mul_sum]
      refine Finset.sum_congr rfl fun d _ => ?_
      ring
    · intro hb
      exact Finset.sum_eq_zero fun d _ => by rw [((he hb).2 d).2, mul_zero]
  · exact (row5 v).trans (he hb).1
  · rw [cov]
    refine Finset.sum_eq_zero fun c _ => ?_
    rw [row5 (fun d => M d c), ((he hb).2 c).1, mul_zero]
  · rw [cov, row5 (fun c => ∑ d, T a d * M d c)]
    exact Finset.sum_eq_zero fun d _ => by rw [((he hb).2 d).2, mul_zero]

theorem moved_mul {A N : Linear.Mat} (h4 : ∀ a, N (at6 a) 4 = 0) (h5 : ∀ a, N (at6 a) 5 = 0) {v w x : Moment.Vec} {M M' M'' : Moment.Mat}
    (h : MovedBy A v w M M') (h' : MovedBy N w x M' M'') : MovedBy (N * A) v x M M'' := by
  rw [movedBy_iff] at *
  have e : (N * A).submatrix at6 at6 = N.submatrix at6 at6 * A.submatrix at6 at6 := by
    ext a b
    rw [Matrix.submatrix_apply, Matrix.mul_apply, sum6, h4, h5, Matrix.mul_apply]
    simp
  refine ⟨?_, ?_⟩
  · rw [h'.1, h.1, e, Matrix.mulVec_mulVec]
  · rw [h'.2, h.2, e, Matrix.transpose_mul]
    simp only [Matrix.mul_assoc]

/-! ## one element of the moment simulation -/

theorem forEach_map {α β : Type} {f : α → Except Err β} (g : α → β) : ∀ {l : List α}, (∀ a ∈ l, f a = .ok (g a)) →
    forEach f l = .ok (l.map g)
  | [], _ => rfl
  | a :: l, h => by
    rw [forEach, h a (by simp), forEach_map g (fun b hb => h b (by simp [hb]))]
    rfl

/-- What a first pass forward through an element with the matrices `T` does. -/
structure Passed (d : MDat) (T : List Moment.Mat) (S S' : MSt) : Prop where
  pos : S'.pos = S.pos + d.length
  moment0 : S'.moment0 = List.zipWith (fun M v => M.mulVec v) T S.moment0
  moment1 : S'.moment1 = List.zipWith Moment.congr T S.moment1
  transmat : S'.transmat = T
  length : S'.real.length = S.real.length
  ref : Later S.ref S'.ref
  real : ∀ (i : Nat) (p : Particle), S.real[i]? = some p → ∃ p', S'.real[i]? = some p' ∧ Later p p'

theorem moment_pass {env : Env} {t : MType} {d : MDat} {s : St MSt} {T : List Moment.Mat} (ht : t ≠ .source) (ht' : t ≠ .sextupole)
    (h0 : d.refIn = none) (hr : s.retreat = false) (hC : Cavity.Spec.Complete s.payload)
    (hT : recompute env t d s.payload.recalc.ref s.payload.recalc.real = .ok T) :
    (Moment.advance env t d s).2.2 = none ∧ Passed d T s.payload (Moment.advance env t d s).2.1.payload := by
  have hlT : T.length = s.payload.real.length := by
    rw [Moment.recompute_length hT]
    simp [MSt.recalc]
  have base : ∀ t, recompute env t d s.payload.recalc.ref s.payload.recalc.real = .ok T →
      (Moment.advanceBase (recompute env t) d s).2.2 = none ∧ Passed d T s.payload (Moment.advanceBase (recompute env t) d s).2.1.payload := by
    intro t hT
    have e := Cavity.advanceBase_first (rec := recompute env t) (fun d a b c e f => Moment.recompute_cached env t d a b c e f) h0 hr
    rw [hT] at e
    have e1 := congrArg Prod.fst e
    have e2 := congrArg Prod.snd e
    dsimp only at e1 e2
    refine ⟨e1, ?_⟩
    rw [e2]
    refine ⟨?_, rfl, rfl, rfl, ?_, Moment.drifted_later _ _ _, ?_⟩
    · show s.payload.pos + Moment.sign false * d.length = _
      simp [Moment.sign]
    · simp [Moment.forward, MSt.recalc, MSt.calcRms]
    · intro i p hp
      refine ⟨p.recalc.recalc.drifted false d.length, ?_, Moment.drifted_later _ _ _⟩
      simp [Moment.forward, MSt.recalc, MSt.calcRms, hp]
  have bend : recompute env .sbend d s.payload.recalc.ref s.payload.recalc.real = .ok T →
      (Moment.advanceBend (recompute env .sbend) d s).2.2 = none ∧
      Passed d T s.payload (Moment.advanceBend (recompute env .sbend) d s).2.1.payload := by
    intro hT
    have e := Cavity.advanceBend_first (rec := recompute env .sbend)
      (fun d a b c e f => Moment.recompute_cached env .sbend d a b c e f) h0 hr
    rw [hT] at e
    have e1 := congrArg Prod.fst e
    have e2 := congrArg Prod.snd e
    dsimp only at e1 e2
    refine ⟨e1, ?_⟩
    rw [e2]
    have hget : ∀ (i : Nat) (p : Particle), s.payload.real[i]? = some p → ∃ v w,
        s.payload.moment0[i]? = some v ∧ (List.zipWith (fun (M : Moment.Mat) v => M.mulVec v) T s.payload.moment0)[i]? = some w := by
      intro i p hp
      have hi := Cavity.lt_of_get hp
      have h1 : i < s.payload.moment0.length := by rw [hC.moment0]; exact hi
      exact ⟨_, _, List.getElem?_eq_getElem h1, List.getElem?_eq_getElem (by simp; omega)⟩
    refine ⟨?_, rfl, rfl, rfl, ?_, Moment.drifted_later _ _ _, ?_⟩
    · show s.payload.pos + Moment.sign false * d.length = _
      simp [Moment.sign]
    · show (Moment.bendPhis false d.length _ _ _).length = _
      rw [Cavity.bendPhis_eq _ _ _ _ (by simp [Moment.forward, MSt.recalc, hC.moment0])
        (by simp [Moment.forward, MSt.recalc, hC.moment0, hlT])]
      simp [Moment.forward, MSt.recalc, hC.moment0, hlT]
    · intro i p hp
      obtain ⟨v, w, hv, hw⟩ := hget i p hp
      have := Moment.bendPhis_get false d.length (s.payload.recalc.real.map (fun p => p.recalc)) s.payload.moment0
        (List.zipWith (fun (M : Moment.Mat) v => M.mulVec v) T s.payload.moment0) i p.recalc.recalc v w
        (by simp [MSt.recalc, hp]) hv hw
      exact ⟨_, this, rfl, rfl, rfl, rfl, rfl, rfl⟩
  cases t
  case source => exact absurd rfl ht
  case sextupole => exact absurd rfl ht'
  case sbend => exact bend hT
  all_goals exact base _ hT

/-! ## matching elements -/

theorem upright_num {c : LCfg} (h : Upright c) (k : String) (hk : k ∈ ["dx", "dy", "pitch", "yaw", "roll"]) : getNumD c k 0 = 0 := by
  unfold getNumD
  rcases h k hk with h | h <;> rw [h]

theorem flag_none (env : Env) {c : LCfg} {k : String} (h : c k = none) (n : Nat) (hn : n < 2) :
    Moment.getFlag env c k n = .ok n := by
  unfold Moment.getFlag
  simp only [Moment.getStr, getNum, h]
  interval_cases n <;> norm_num [Moment.asUnsigned]

theorem moving_k {p : Particle} (h : Moment.Moving p) (hf : p.SampleFreq ≠ 0) : p.SampleIonK ≠ 0 := by
  rw [h.wave, h.lambda]
  have := h.beta_pos.ne'
  have := Real.pi_ne_zero
  simp [Moment.C0, Moment.MtoMM, *]

theorem match_pass {env : Env} {junk : Moment.Mat} {B : ℝ} {l m : LCfg} {t : MType} {lt : LType} {d : MDat} {N : Linear.Mat}
    {bends : Prop} {S : MSt} (h : Match B l m lt.name t.name) (hd : Moment.build env junk t m = .ok d)
    (hN : Linear.transferOf lt l = .ok N) (hS : Flying S) (hb : lt.name = "sbend" → bends) :
    t ≠ .source ∧ t ≠ .sextupole ∧ lt ≠ .source ∧ d.length = getNumD l "L" 0 ∧
    (∀ a, N (at6 a) 4 = 0 ∧ N (at6 a) 5 = 0) ∧ ∃ T, recompute env t d S.recalc.ref S.recalc.real = .ok T ∧
      ∀ (i : Nat) (p : Particle), S.real[i]? = some p → p.IonZ ≠ 0 → Moment.Spec.rigidity p.IonZ p.IonEs p.IonEk = B →
        (bends → p.IonZ = S.ref.IonZ) → ∃ A, T[i]? = some A ∧ Same bends A N := by
  have hmov : ∀ p ∈ S.real, Moment.Moving p.recalc ∧ p.recalc.SampleFreq ≠ 0 := fun p hp =>
    ⟨recalc_moving (hS.real p hp).1 (hS.real p hp).2.1, (hS.real p hp).2.2⟩
  have hal : Upright m → d.dx = 0 → d.dy = 0 → d.pitch = 0 → d.yaw = 0 → d.roll = 0 → ∀ q ∈ S.recalc.real, ∀ T,
      aligned d S.recalc.ref q T = .ok T := by
    intro _ h1 h2 h3 h4 h5 q hq T
    obtain ⟨p, hp, rfl⟩ := List.mem_map.1 (show q ∈ S.real.map (fun p => p.recalc) from hq)
    have hm := hmov p hp
    exact (C36_aligned d S.recalc.ref p.recalc h1 h2 h3 h4 h5 (moving_k hm.1 hm.2) hm.1.beta_pos.ne'
      (by linarith [hm.1.one_lt] : p.recalc.gamma ≠ 0) hS.ref.ne').2 T
  have hget : ∀ (g : Particle → Moment.Mat) (i : Nat) (p : Particle), S.real[i]? = some p → (S.recalc.real.map g)[i]? = some (g p.recalc) := by
    intro g i p hp
    simp [MSt.recalc, hp]
  have hK : ∀ (p : Particle), p ∈ S.real → p.IonZ ≠ 0 → Moment.Spec.rigidity p.IonZ p.IonEs p.IonEk = B →
      p.recalc.Brho = B ∧ B ≠ 0 := by
    intro p hp hz hB
    have e := (hmov p hp).1.brho
    have e' : p.recalc.Brho = B := e.trans hB
    refine ⟨e', ?_⟩
    rw [← hB, Moment.Spec.rigidity]
    have h1 := (hS.real p hp).1
    have h2 := (hS.real p hp).2.1
    have : 0 < Real.sqrt ((p.IonEs + p.IonEk) ^ 2 - p.IonEs ^ 2) := Real.sqrt_pos.2 (by nlinarith)
    have := this.ne'
    positivity
  have hu : Upright m → getNumD m "dx" 0 = 0 ∧ getNumD m "dy" 0 = 0 ∧ getNumD m "pitch" 0 = 0 ∧ getNumD m "yaw" 0 = 0 ∧
      getNumD m "roll" 0 = 0 := fun h => ⟨upright_num h _ (by simp), upright_num h _ (by simp), upright_num h _ (by simp),
    upright_num h _ (by simp), upright_num h _ (by simp)⟩
  generalize hty' : t.name = ty' at h
  generalize hty : lt.name = ty at h hb
  cases h with
  | drift L h1 h2 =>
    cases t <;> simp only [MType.name, String.reduceEq] at hty'
    cases lt <;> simp only [LType.name, String.reduceEq] at hty
    cases hd
    cases hN
    have e1 : getNumD m "L" 0 = L := by simp [getNumD, h2]
    have e2 : getNumD l "L" 0 = L := by simp [getNumD, h1]
    refine ⟨by simp, by simp, by simp, by rw [e2]; exact e1, fun a => ⟨(same_drift False S.ref _).lin4 a, (same_drift False S.ref _).lin5 a⟩, _, rfl,
      fun i p hp _ _ _ => ⟨_, hget _ i p hp, ?_⟩⟩
    dsimp only
    rw [e1, e2]
    exact same_drift _ _ _
  | marker h1 =>
    cases t <;> simp only [MType.name, String.reduceEq] at hty'
    cases lt <;> simp only [LType.name, String.reduceEq] at hty
    cases hd
    cases hN
    refine ⟨by simp, by simp, by simp, by simp [getNumD, h1], fun a => ⟨(same_one False).lin4 a, (same_one False).lin5 a⟩, _, rfl,
      fun i p hp _ _ _ => ⟨_, hget _ i p hp, same_one _⟩⟩
  | bpm h1 =>
    cases t <;> simp only [MType.name, String.reduceEq] at hty'
    cases lt <;> simp only [LType.name, String.reduceEq] at hty
    cases hd
    cases hN
    refine ⟨by simp, by simp, by simp, by simp [getNumD, h1], fun a => ⟨(same_one False).lin4 a, (same_one False).lin5 a⟩, _, rfl,
      fun i p hp _ _ _ => ⟨_, hget _ i p hp, same_one _⟩⟩
  | quadrupole L K h1 h2 h3 h4 h5 h6 =>
    cases t <;> simp only [MType.name, String.reduceEq] at hty'
    cases lt <;> simp only [LType.name, String.reduceEq] at hty
    obtain ⟨u1, u2, u3, u4, u5⟩ := hu h6
    cases hd
    cases hN
    have e1 : getNumD m "L" 0 = L := by simp [getNumD, h2]
    have e2 : getNumD l "L" 0 = L := by simp [getNumD, h1]
    have e3 : getNumD l "K" 0 = K := by simp [getNumD, h3]
    have f1 : getNum m "L" = .ok L := getNum_ok.2 h2
    have f2 : getNum m "B2" = .ok (K * B) := getNum_ok.2 h4
    have f3 := flag_none env h5 0 (by norm_num)
    have ha := hal h6 (by simp [u1]) (by simp [u2]) u3 u4 u5
    refine ⟨by simp, by simp, by simp, by rw [e2]; exact e1,
      fun a => ⟨(same_quad False S.ref _ _).lin4 a, (same_quad False S.ref _ _).lin5 a⟩,
      S.recalc.real.map (fun p => Moment.quadM p (L * Moment.MtoMM) (K * B / p.Brho / (Moment.MtoMM * Moment.MtoMM))), ?_,
      fun i p hp hz hB _ => ⟨_, hget _ i p hp, ?_⟩⟩
    · show Moment.quadRec env _ _ _ = _
      unfold Moment.quadRec
      simp only [f1, f2, f3, if_true]
      exact forEach_map _ fun q hq => ha q hq _
    · obtain ⟨b1, b2⟩ := hK p (List.mem_of_getElem? hp) hz hB
      rw [b1, e2, e3, mul_div_assoc, div_self b2, mul_one]
      exact same_quad _ _ _ _
  | solenoid L K h1 h2 h3 h4 h5 h6 =>
    cases t <;> simp only [MType.name, String.reduceEq] at hty'
    cases lt <;> simp only [LType.name, String.reduceEq] at hty
    obtain ⟨u1, u2, u3, u4, u5⟩ := hu h6
    cases hd
    cases hN
    have e1 : getNumD m "L" 0 = L := by simp [getNumD, h2]
    have e2 : getNumD l "L" 0 = L := by simp [getNumD, h1]
    have e3 : getNumD l "K" 0 = K := by simp [getNumD, h3]
    have f1 : getNum m "L" = .ok L := getNum_ok.2 h2
    have f2 : getNum m "B" = .ok (2 * K * B) := getNum_ok.2 h4
    have f3 := flag_none env h5 0 (by norm_num)
    have ha := hal h6 (by simp [u1]) (by simp [u2]) u3 u4 u5
    refine ⟨by simp, by simp, by simp, by rw [e2]; exact e1,
      fun a => ⟨(same_solenoid False S.ref _ _).lin4 a, (same_solenoid False S.ref _ _).lin5 a⟩,
      S.recalc.real.map (fun p => Moment.solenoidM p (L * Moment.MtoMM) (2 * K * B / (2 * p.Brho) / Moment.MtoMM)), ?_,
      fun i p hp hz hB _ => ⟨_, hget _ i p hp, ?_⟩⟩
    · show Moment.solenoidRec env _ _ _ = _
      unfold Moment.solenoidRec
      simp only [f1, f2, f3, if_true]
      exact forEach_map _ fun q hq => ha q hq _
    · obtain ⟨b1, b2⟩ := hK p (List.mem_of_getElem? hp) hz hB
      rw [b1, e2, e3, show 2 * K * B / (2 * B) = K by field_simp]
      exact same_solenoid _ _ _ _
  | sbend L phi K hL _ _ h1 h2 h3 h4 h5 h6 h7 h8 h9 h10 =>
    cases t <;> simp only [MType.name, String.reduceEq] at hty'
    cases lt <;> simp only [LType.name, String.reduceEq] at hty
    obtain ⟨u1, u2, u3, u4, u5⟩ := hu h10
    have f3 := flag_none env h9 1 (by norm_num)
    simp only [Moment.build, f3] at hd
    norm_num at hd
    simp only [Linear.transferOf, getNum_ok.2 h3] at hN
    cases hd
    cases hN
    have e1 : getNumD m "L" 0 = L := by simp [getNumD, h2]
    have e2 : getNumD l "L" 0 = L := by simp [getNumD, h1]
    have e3 : getNumD l "K" 0 = K := by simp [getNumD, h7]
    have e4 : getNumD m "K" 0 = K := by simp [getNumD, h8]
    have ha := hal h10 (by simp [u1]) (by simp [u2]) u3 u4 u5
    have hb' := hb rfl
    refine ⟨by simp, by simp, by simp, by rw [e2]; exact e1,
      fun a => ⟨(same_sbend trivial _ _ _ 0 0 0 0 0).lin4 a, (same_sbend trivial _ _ _ 0 0 0 0 0).lin5 a⟩,
      S.recalc.real.map (fun p => Moment.sbendM (L * Moment.MtoMM) (phi * 180 / Real.pi * Real.pi / 180) (0 * Real.pi / 180)
        (0 * Real.pi / 180) (K / (Moment.MtoMM * Moment.MtoMM)) S.recalc.ref.IonEs S.recalc.ref.gamma
        ((p.IonZ - S.recalc.ref.IonZ) / S.recalc.ref.IonZ) S.recalc.ref.beta S.recalc.ref.gamma
        (-((p.IonZ - S.recalc.ref.IonZ) / S.recalc.ref.IonZ)) S.recalc.ref.SampleIonK 1), ?_,
      fun i p hp hz hB hq => ⟨_, hget _ i p hp, ?_⟩⟩
    · show Moment.sbendRec _ _ _ = _
      unfold Moment.sbendRec
      simp only [getNum_ok.2 h2, getNum_ok.2 h4, getNum_ok.2 h5, getNum_ok.2 h6, e4]
      refine forEach_map _ fun q hq => ?_
      rw [if_pos (by simpa [Moment.MtoMM] using hL)]
      unfold Moment.sbendOne
      dsimp only
      rw [if_neg (by norm_num)]
      exact ha q hq _
    · have hz' : p.recalc.IonZ - S.recalc.ref.IonZ = 0 := by
        have := hq hb'
        show p.IonZ - S.ref.IonZ = 0
        rw [this, sub_self]
      rw [hz', zero_div, e2, e3, zero_mul, zero_div, show phi * 180 / Real.pi * Real.pi / 180 = phi by
        have := Real.pi_ne_zero
        field_simp]
      exact same_sbend hb' _ _ _ _ _ _ _ _

/-! ## lattices -/

/-- A machine of a linear simulation, seen through its lattice. -/
theorem machine_linear {σ : Type} {k : Kind σ} {base : Nat} {sim : String} {cv : CView LCfg} {c : LCfg}
    {m : Machine LCfg (LDat σ) (LSt σ)} (h : Machine.new cv (Linear.registry k base sim) c = .ok m)
    {es : List LCfg} (hes : cv.elems c = .ok es) :
    List.Forall₂ (fun (ec : LCfg) (e : Elem LCfg (LDat σ) (LSt σ)) => ∃ t : LType, cv.str ec "type" = .ok t.name ∧
      e.cls = Linear.cls k base t ∧ Linear.build k t ec = .ok e.dat) es m.elems := by
  obtain ⟨sim', es', _, hes', _, _, hl, hall⟩ := Flame.Mach.C18_machine_matches_lattice cv _ c m h
  rw [hes] at hes'
  cases hes'
  rw [List.forall₂_iff_get]
  refine ⟨hl.symm, ?_⟩
  intro i h1 h2
  obtain ⟨e, c', he, hreg, hmade⟩ := hall i es[i] (List.getElem?_eq_getElem h1)
  rw [List.getElem?_eq_getElem h2] at he
  cases he
  obtain ⟨t, rfl, _⟩ := Linear.registered_linear hreg
  have hty := hmade.type
  rw [hmade.cls] at hty
  exact ⟨t, hty, hmade.cls, hmade.dat⟩

/-- What is kept while the two simulations run. -/
structure Rel {σ : Type} (k : Kind σ) (B : ℝ) (bends : Prop) (S0 : MSt) (x0 : σ) (gap : ℝ) (S : MSt) (X : LSt σ) : Prop where
  flying : Flying S
  pos : S.pos - X.pos = gap
  mat : ∃ A, X.state = k.prod A x0 ∧ (∀ a, A (at6 a) 4 = 0 ∧ A (at6 a) 5 = 0) ∧
    ∀ i v M, Suits B bends S0 i v M → ∃ v' M', Suits B bends S i v' M' ∧ MovedBy A v v' M M'

theorem moved_one (v : Moment.Vec) (M : Moment.Mat) : MovedBy 1 v v M M := by
  rw [movedBy_iff]
  have : (1 : Linear.Mat).submatrix at6 at6 = 1 := Matrix.submatrix_one at6 (fun a b h => by
    simpa [at6, Fin.ext_iff] using h)
  simp [this]

theorem zip_get {α β γ : Type} {f : α → β → γ} {l : List α} {l' : List β} {i : Nat} {a : α} {b : β} (h : l[i]? = some a)
    (h' : l'[i]? = some b) : (List.zipWith f l l')[i]? = some (f a b) := by
  rw [List.getElem?_zipWith, h, h']

theorem flying_passed {d : MDat} {T : List Moment.Mat} {S S' : MSt} (h : Flying S) (hT : T.length = S.real.length)
    (hp : Passed d T S S') : Flying S' := by
  refine ⟨⟨?_, ?_, ?_⟩, ?_, ?_⟩
  · rw [hp.moment0, hp.length, List.length_zipWith, hT, h.complete.moment0, Nat.min_self]
  · rw [hp.moment1, hp.length, List.length_zipWith, hT, h.complete.moment1, Nat.min_self]
  · rw [hp.transmat, hp.length, hT]
  · rw [hp.ref.2.2.1]
    exact h.ref
  · intro q hq
    obtain ⟨i, hi, rfl⟩ := List.getElem_of_mem hq
    have hi' : i < S.real.length := by rw [← hp.length]; exact hi
    obtain ⟨p', h1, h2⟩ := hp.real i _ (List.getElem?_eq_getElem hi')
    rw [List.getElem?_eq_getElem hi] at h1
    cases h1
    obtain ⟨-, -, e1, e2, e3, -⟩ := h2
    rw [e1, e2, e3]
    exact h.real _ (List.getElem_mem hi')

/-- C93: a lattice of a linear simulation and one of the moment simulation that describe the same magnets for particles of rigidity
`B`, from `start` on over `n` elements.  Both simulations succeed, end at the same element and advance by the same length.  There is
a matrix `A` by which the linear simulation multiplies its state.  In the moment simulation, for each charge state of that rigidity,
the transverse part of `A` moves the transverse part of the centroid and of the covariance. -/
theorem C93_agree {σ : Type} {k : Kind σ} (hkind : Lawful k) {env : Env} {junk : Moment.Mat} {base base' : Nat} {sim : String}
    {cavity stripper : MCls} (cv : CView LCfg) (c c' : LCfg) (m : Machine LCfg MDat MSt) (m' : Machine LCfg (LDat σ) (LSt σ))
    (h : Machine.new cv (Moment.registry env junk base cavity stripper) c = .ok m)
    (h' : Machine.new cv (Linear.registry k base' sim) c' = .ok m')
    (es es' : List LCfg) (hes : cv.elems c = .ok es) (hes' : cv.elems c' = .ok es') (hl : es.length < sizeMod)
    (hl' : es'.length = es.length) (start n : Nat) (B : ℝ)
    (hmatch : ∀ j ec ec' ty ty', start ≤ j → j < start + n → es[j]? = some ec → es'[j]? = some ec' → cv.str ec "type" = .ok ty →
      cv.str ec' "type" = .ok ty' → Match B ec' ec ty' ty)
    (s : St MSt) (s' : St (LSt σ)) (hs : Flying s.payload) :
    ∃ r r' A, propagate m.elems s start n = some r ∧ propagate m'.elems s' start n = some r' ∧ r.err = none ∧ r'.err = none ∧
      r.st.nextElem = r'.st.nextElem ∧ r.st.payload.pos - s.payload.pos = r'.st.payload.pos - s'.payload.pos ∧
      r'.st.payload.state = k.prod A s'.payload.state ∧ (∀ a, A (at6 a) 4 = 0 ∧ A (at6 a) 5 = 0) ∧
      ∀ i v M, Suits B (∃ j ec', start ≤ j ∧ j < start + n ∧ es'[j]? = some ec' ∧ cv.str ec' "type" = .ok "sbend") s.payload i v M →
        ∃ v' M', r.st.payload.moment0[i]? = some v' ∧ r.st.payload.moment1[i]? = some M' ∧ MovedBy A v v' M M' := by
  generalize hbends : (∃ (j : Nat) (ec' : LCfg), start ≤ j ∧ j < start + n ∧ es'[j]? = some ec' ∧ cv.str ec' "type" = .ok "sbend") = bends
  have hF := Moment.machine_moment h hes
  have hF' := machine_linear h' hes'
  have hall := fun j e (hj : m.elems[j]? = some e) => Cavity.forall₂_get hF hj
  have hall' := fun j e (hj : m'.elems[j]? = some e) => Cavity.forall₂_get hF' hj
  have key : ∀ j e e', start ≤ j → j < start + n → m.elems[j]? = some e → m'.elems[j]? = some e' →
      ∃ ec ec' t t', e.cls = Moment.cls env junk base t ∧ e'.cls = Linear.cls k base' t' ∧ Moment.build env junk t ec = .ok e.dat ∧
        Linear.build k t' ec' = .ok e'.dat ∧ Match B ec' ec t'.name t.name ∧ (t'.name = "sbend" → bends) := by
    intro j e e' h1 h2 he he'
    obtain ⟨ec, hec, ty, hty, hb⟩ := hall j e he
    obtain ⟨ec', hec', t', hty', hc', hb'⟩ := hall' j e' he'
    have hM := hmatch j ec ec' ty _ h1 h2 hec hec' hty hty'
    have hbd : t'.name = "sbend" → bends := by
      intro ht
      rw [← hbends]
      exact ⟨j, ec', h1, h2, hec', by rw [← ht]; exact hty'⟩
    obtain ⟨t, ht, rfl, hb⟩ | ⟨-, rfl, -⟩ | ⟨-, rfl, -⟩ := hb
    · exact ⟨ec, ec', t, t', ht, hc', hb, hb', hM, hbd⟩
    · generalize t'.name = tn at hM
      generalize hq : "rfcavity" = q at hM
      cases hM <;> simp at hq
    · generalize t'.name = tn at hM
      generalize hq : "stripper" = q at hM
      cases hM <;> simp at hq
  let E : Nat → Elem LCfg MDat MSt → Elem LCfg (LDat σ) (LSt σ) → Prop := fun j e e' =>
    start ≤ j ∧ j < start + n ∧ m.elems[j]? = some e ∧ m'.elems[j]? = some e'
  have hkeeps' : ∀ t, Keeps (Linear.cls k base' t) := fun t x s => by
    obtain ⟨a, b, -⟩ := Linear.cls_straight k base' t x s
    exact ⟨a, b⟩
  have hk : ∀ j e e', E j e e' → Keeps e.cls ∧ Keeps e'.cls := by
    rintro j e e' ⟨h1, h2, h3, h4⟩
    obtain ⟨ec, ec', t, t', g1, g2, g3, g4, g5, g6⟩ := key j e e' h1 h2 h3 h4
    obtain ⟨b1, b2, b3⟩ := Linear.build_ok g4
    obtain ⟨q1, -⟩ := match_pass g5 g3 b1 hs g6
    rw [g1, g2]
    exact ⟨(Moment.measured_cls env junk base t q1).1, hkeeps' t'⟩
  have hstep : ∀ j e e' (s1 : St MSt) (s1' : St (LSt σ)), E j e e' → s1.retreat = false → s1'.retreat = false →
      Rel k B bends s.payload s'.payload.state (s.payload.pos - s'.payload.pos) s1.payload s1'.payload →
      (e.cls.advance e.dat s1).2.2 = none ∧ (e'.cls.advance e'.dat s1').2.2 = none ∧
        Rel k B bends s.payload s'.payload.state (s.payload.pos - s'.payload.pos) (e.cls.advance e.dat s1).2.1.payload
          (e'.cls.advance e'.dat s1').2.1.payload := by
    rintro j e e' s1 s1' ⟨h1, h2, h3, h4⟩ hr hr' hR
    obtain ⟨ec, ec', t, t', g1, g2, g3, g4, g5, g6⟩ := key j e e' h1 h2 h3 h4
    obtain ⟨b1, b2, b3⟩ := Linear.build_ok g4
    obtain ⟨q1, q2, q3, q4, q7, T, q5, q6⟩ := match_pass g5 g3 b1 hR.flying g6
    rw [g1, g2]
    obtain ⟨p1, p2⟩ := moment_pass q1 q2 (Moment.build_length g3).2.2.1 hr hR.flying.complete q5
    have elin : Linear.advance k e'.dat s1' = (e'.dat, { s1' with payload :=
        ⟨s1'.payload.pos + e'.dat.length, k.prod e'.dat.transfer s1'.payload.state⟩ }, none) := by
      unfold Linear.advance
      rw [b3 q3]
    refine ⟨p1, ?_, ?_⟩
    · show (Linear.advance k e'.dat s1').2.2 = none
      rw [elin]
    · show Rel k B bends s.payload s'.payload.state _ (Moment.advance env t e.dat s1).2.1.payload (Linear.advance k e'.dat s1').2.1.payload
      rw [elin]
      generalize (Moment.advance env t e.dat s1).2.1.payload = S' at p2
      have hlen : T.length = s1.payload.real.length := by
        rw [Moment.recompute_length q5]
        simp [MSt.recalc]
      refine ⟨flying_passed hR.flying hlen p2, ?_, ?_⟩
      · show S'.pos - (s1'.payload.pos + e'.dat.length) = _
        rw [p2.pos, q4, b2, ← hR.pos]
        ring
      · obtain ⟨A, a1, a2, a3⟩ := hR.mat
        refine ⟨e'.dat.transfer * A, ?_, ?_, ?_⟩
        · show k.prod e'.dat.transfer s1'.payload.state = _
          rw [a1, hkind.mul]
        · intro a
          constructor <;> rw [Matrix.mul_apply, sum6] <;> simp [a2, q7]
        · intro i v M hi
          obtain ⟨v', M', c1, c2⟩ := a3 i v M hi
          obtain ⟨p, hp, hz, hB, hbz⟩ := c1.rigid
          obtain ⟨C, hC, hsame⟩ := q6 i p hp hz hB hbz
          obtain ⟨d1, d2⟩ := same_moved hsame c1.energy
          refine ⟨C.mulVec v', Moment.congr C M', ⟨?_, ?_, ?_, d2⟩, moved_mul hsame.lin4 hsame.lin5 c2 d1⟩
          · rw [p2.moment0]
            exact zip_get hC c1.moment0
          · rw [p2.moment1]
            exact zip_get hC c1.moment1
          · obtain ⟨p', e1, e2⟩ := p2.real i p hp
            obtain ⟨f1, -, f3, f4, -, -⟩ := e2
            exact ⟨p', e1, by rw [f1]; exact hz, by rw [f1, f3, f4]; exact hB, fun hb => by rw [f1, p2.ref.1]; exact hbz hb⟩
  have hlen : m.elems.length = es.length := hF.length_eq.symm
  have hlen' : m'.elems.length = es'.length := hF'.length_eq.symm
  obtain ⟨r1, r2, r3, r4⟩ := run_pair (E := E) (R := Rel k B bends s.payload s'.payload.state (s.payload.pos - s'.payload.pos)) hk hstep n
    m.elems m'.elems { s with nextElem := start, retreat := false } { s' with nextElem := start, retreat := false }
    (by rw [hlen]; exact hl) (by rw [hlen, hlen', hl']) (fun j e e' h1 h2 h3 h4 => ⟨h1, h2, h3, h4⟩) rfl rfl rfl
    ⟨hs, rfl, 1, (hkind.one _).symm, fun a => by fin_cases a <;> simp [at6, Matrix.one_apply], fun i v M hi => ⟨v, M, hi, moved_one v M⟩⟩
  obtain ⟨A, a1, a2, a3⟩ := r3.mat
  have hprop : ∀ {C X S : Type} (els : List (Elem C X S)) (s : St S),
      propagate els s start n = some (run n els { s with nextElem := start, retreat := false }) := by
    intro C X S els s
    rw [propagate_eq els s start n (by omega)]
    have : decide ((n : Int) < 0) = false := by simp
    rw [this, Int.natAbs_natCast]
  refine ⟨_, _, A, hprop _ _, hprop _ _, r1, r2, r4.symm, ?_, a1, a2, fun i v M hi => ?_⟩
  · have := r3.pos
    linarith
  · obtain ⟨v', M', c1, c2⟩ := a3 i v M hi
    exact ⟨v', M', c1.moment0, c1.moment1, c2⟩

/-- C93 for the simulation "Vector": a vector that starts with the transverse coordinates of a centroid keeps them equal. -/
theorem C93_vector {env : Env} {junk : Moment.Mat} {base base' : Nat}
    {cavity stripper : MCls} (cv : CView LCfg) (c c' : LCfg) (m : Machine LCfg MDat MSt) (m' : Machine LCfg (LDat Linear.Vec) (LSt Linear.Vec))
    (h : Machine.new cv (Moment.registry env junk base cavity stripper) c = .ok m)
    (h' : Machine.new cv (Linear.registry Linear.vector base' "Vector") c' = .ok m')
    (es es' : List LCfg) (hes : cv.elems c = .ok es) (hes' : cv.elems c' = .ok es') (hl : es.length < sizeMod)
    (hl' : es'.length = es.length) (start n : Nat) (B : ℝ)
    (hmatch : ∀ j ec ec' ty ty', start ≤ j → j < start + n → es[j]? = some ec → es'[j]? = some ec' → cv.str ec "type" = .ok ty →
      cv.str ec' "type" = .ok ty' → Match B ec' ec ty' ty)
    (s : St MSt) (s' : St (LSt Linear.Vec)) (hs : Flying s.payload) (i : Nat) (v : Fin 7 → ℝ) (M : Matrix (Fin 7) (Fin 7) ℝ)
    (hi : Suits B (∃ j ec', start ≤ j ∧ j < start + n ∧ es'[j]? = some ec' ∧ cv.str ec' "type" = .ok "sbend") s.payload i v M)
    (hv : ∀ a, v (at7 a) = s'.payload.state (at6 a)) :
    ∃ r r' v', propagate m.elems s start n = some r ∧ propagate m'.elems s' start n = some r' ∧ r.err = none ∧ r'.err = none ∧
      r.st.payload.moment0[i]? = some v' ∧ ∀ a, v' (at7 a) = r'.st.payload.state (at6 a) := by
  obtain ⟨r, r', A, h1, h2, h3, h4, _, _, h7, h8, h9⟩ := C93_agree Linear.lawful_vector cv c c' m m' h h' es es' hes hes' hl hl' start n B
    hmatch s s' hs
  obtain ⟨v', M', g1, _, g3⟩ := h9 i v M hi
  refine ⟨r, r', v', h1, h2, h3, h4, g1, fun a => ?_⟩
  rw [g3.centroid, h7]
  show _ = ∑ b, A (at6 a) b * s'.payload.state b
  rw [sum6, (h8 a).1, (h8 a).2, zero_mul, zero_mul, add_zero, add_zero]
  exact Finset.sum_congr rfl fun b _ => by rw [hv]

/-- C93 for the simulation "TransferMatrix": started with the identity, it ends with the matrix that moves the transverse parts of
the centroid and of the covariance. -/
theorem C93_matrix {env : Env} {junk : Moment.Mat} {base base' : Nat}
    {cavity stripper : MCls} (cv : CView LCfg) (c c' : LCfg) (m : Machine LCfg MDat MSt) (m' : Machine LCfg (LDat Linear.Mat) (LSt Linear.Mat))
    (h : Machine.new cv (Moment.registry env junk base cavity stripper) c = .ok m)
    (h' : Machine.new cv (Linear.registry Linear.matrix base' "TransferMatrix") c' = .ok m')
    (es es' : List LCfg) (hes : cv.elems c = .ok es) (hes' : cv.elems c' = .ok es') (hl : es.length < sizeMod)
    (hl' : es'.length = es.length) (start n : Nat) (B : ℝ)
    (hmatch : ∀ j ec ec' ty ty', start ≤ j → j < start + n → es[j]? = some ec → es'[j]? = some ec' → cv.str ec "type" = .ok ty →
      cv.str ec' "type" = .ok ty' → Match B ec' ec ty' ty)
    (s : St MSt) (s' : St (LSt Linear.Mat)) (hs : Flying s.payload) (hone : s'.payload.state = 1) :
    ∃ r r', propagate m.elems s start n = some r ∧ propagate m'.elems s' start n = some r' ∧ r.err = none ∧ r'.err = none ∧
      ∀ i v M, Suits B (∃ j ec', start ≤ j ∧ j < start + n ∧ es'[j]? = some ec' ∧ cv.str ec' "type" = .ok "sbend") s.payload i v M →
        ∃ v' M', r.st.payload.moment0[i]? = some v' ∧ r.st.payload.moment1[i]? = some M' ∧
          MovedBy r'.st.payload.state v v' M M' := by
  obtain ⟨r, r', A, h1, h2, h3, h4, _, _, h7, _, h9⟩ := C93_agree Linear.lawful_matrix cv c c' m m' h h' es es' hes hes' hl hl' start n B
    hmatch s s' hs
  have : r'.st.payload.state = A := by
    rw [h7, hone]
    exact Matrix.mul_one A
  exact ⟨r, r', h1, h2, h3, h4, by rw [this]; exact h9⟩

/-! ## the angle of a bend -/

theorem sbendM_corner (L phi K Es rg qm b g dd k : ℝ) :
    Moment.sbendM L phi 0 0 K Es rg qm b g dd k 1 0 0 = Linear.cc (K + 1 / (L / phi * (L / phi))) L := by
  unfold Moment.sbendM
  rw [Moment.edgeM_zero, Matrix.one_mul, Matrix.mul_one, Moment.quadPlane_eq, Moment.quadPlane_eq]
  simp [Moment.setAt]

theorem cc_bend {L phi : ℝ} (hL : 0 < L) (hp : 0 < phi) : Linear.cc (0 + 1 / (L / phi * (L / phi))) L = Real.cos phi := by
  have h0 : 0 < L / phi := by positivity
  have h1 : (0 : ℝ) + 1 / (L / phi * (L / phi)) = (phi / L) * (phi / L) := by field_simp; ring
  have h2 : 0 < phi / L := by positivity
  rw [h1]
  unfold Linear.cc
  rw [if_pos (by positivity), Real.sqrt_mul_self h2.le]
  congr 1
  field_simp

/-- A bend of a metre with the angle 3.14159... -/
noncomputable def exBend : LCfg := fun k =>
  if k = "L" then some (.num 1) else if k = "phi" then some (.num Real.pi) else if k = "phi1" then some (.num 0)
  else if k = "phi2" then some (.num 0) else none

/-- That the settings of a bend mean the same in the two simulations is false: the linear ones take the angle in radians, the moment
simulation in degrees.  With the same settings the matrices differ for every beam. -/
theorem C93_bend_false : ∃ N, Linear.transferOf .sbend exBend = .ok N ∧
    ∀ (env : Env) (junk : Moment.Mat) (d : MDat), Moment.build env junk .sbend exBend = .ok d →
    ∀ S : MSt, Flying S → ∀ T, recompute env .sbend d S.recalc.ref S.recalc.real = .ok T → ∀ A ∈ T, A 0 0 ≠ N 0 0 := by
  have hN : Linear.transferOf .sbend exBend = .ok (Linear.sbendT (1 * Linear.MtoMM) Real.pi (0 / (Linear.MtoMM * Linear.MtoMM))) := by
    simp [Linear.transferOf, getNum, exBend, getNumD]
  have hcorner : Linear.sbendT (1 * Linear.MtoMM) Real.pi (0 / (Linear.MtoMM * Linear.MtoMM)) 0 0 = -1 := by
    unfold Linear.sbendT
    rw [Linear.get2by2_eq, Linear.get2by2_eq, zero_div]
    simp only [Linear.setAt]
    simp only [Fin.isValue, and_true, Fin.reduceEq, and_false, and_self, if_false, if_true]
    rw [cc_bend (by norm_num [Linear.MtoMM]) Real.pi_pos, Real.cos_pi]
  refine ⟨_, hN, ?_⟩
  intro env junk d hd S hS T hT A hA
  rw [hcorner]
  have f3 := flag_none env (show exBend "HdipoleFitMode" = none by simp [exBend]) 1 (by norm_num)
  simp only [Moment.build, f3] at hd
  norm_num at hd
  replace hT : Moment.sbendRec d S.recalc.ref S.recalc.real = .ok T := hT
  subst hd
  unfold Moment.sbendRec at hT
  simp only [getNum_ok.2 (show exBend "L" = some (.num 1) by simp [exBend]),
    getNum_ok.2 (show exBend "phi" = some (.num Real.pi) by simp [exBend]),
    getNum_ok.2 (show exBend "phi1" = some (.num 0) by simp [exBend]),
    getNum_ok.2 (show exBend "phi2" = some (.num 0) by simp [exBend]), show getNumD exBend "K" 0 = 0 by simp [getNumD, exBend]] at hT
  rw [Moment.forEach_ok] at hT
  obtain ⟨i, hi, rfl⟩ := List.getElem_of_mem hA
  have hi' : i < S.recalc.real.length := by rw [hT.length_eq]; exact hi
  have hg := List.forall₂_iff_get.1 hT |>.2 i hi' hi
  simp only [List.get_eq_getElem] at hg
  rw [if_pos (by norm_num [Moment.MtoMM])] at hg
  unfold Moment.sbendOne at hg
  dsimp only at hg
  rw [if_neg (by norm_num)] at hg
  have hq : S.recalc.real[i] ∈ S.real.map (fun p => p.recalc) := List.getElem_mem hi'
  obtain ⟨p, hp, hpe⟩ := List.mem_map.1 hq
  rw [← hpe] at hg
  have hm : Moment.Moving p.recalc := recalc_moving (hS.real p hp).1 (hS.real p hp).2.1
  rw [(C36_aligned _ S.recalc.ref p.recalc (by simp [getNumD, exBend]) (by simp [getNumD, exBend]) (by simp [getNumD, exBend])
    (by simp [getNumD, exBend]) (by simp [getNumD, exBend]) (moving_k hm (hS.real p hp).2.2) hm.beta_pos.ne'
      (by linarith [hm.one_lt] : p.recalc.gamma ≠ 0) hS.ref.ne').2] at hg
  have hA' := Except.ok.inj hg
  rw [← hA', zero_mul, zero_div, sbendM_corner, zero_div, cc_bend (by norm_num [Moment.MtoMM]) (by have := Real.pi_pos; positivity)]
  have hpi := Real.pi_pos
  have h4 := Real.pi_le_four
  have := Real.cos_pos_of_mem_Ioo (x := Real.pi * Real.pi / 180) ⟨by nlinarith, by nlinarith⟩
  linarith

/-! ## an example -/

/-- Settings given as a list. -/
noncomputable def exSettings (l : List (String × LVal)) : LCfg := fun k => (l.find? (·.1 = k)).map (·.2)

/-- The rigidity of the particle of the example. -/
noncomputable def exB : ℝ := Moment.Spec.rigidity 1 1 1

/-- A drift, a bend and a quadrupole for the linear simulations. -/
noncomputable def exLin : List LCfg :=
  [exSettings [("type", .str "drift"), ("name", .str "d"), ("L", .num 1)],
   exSettings [("type", .str "sbend"), ("name", .str "b"), ("L", .num 2), ("phi", .num 1), ("K", .num 0)],
   exSettings [("type", .str "quadrupole"), ("name", .str "q"), ("L", .num 3), ("K", .num (-5))]]

/-- The same for the moment simulation. -/
noncomputable def exMom : List LCfg :=
  [exSettings [("type", .str "drift"), ("name", .str "d"), ("L", .num 1)],
   exSettings [("type", .str "sbend"), ("name", .str "b"), ("L", .num 2), ("phi", .num (1 * 180 / Real.pi)), ("phi1", .num 0),
     ("phi2", .num 0), ("K", .num 0)],
   exSettings [("type", .str "quadrupole"), ("name", .str "q"), ("L", .num 3), ("B2", .num (-5 * exB))]]

/-- How the example reads a configuration. -/
noncomputable def exAgree : CView LCfg where
  str c k := match c k with
    | some (.str x) => .ok x
    | _ => .error .keyError
  elems c := match c "sim_type" with
    | some (.str "MomentMatrix") => .ok exMom
    | _ => .ok exLin

/-- One charge state off axis, without spread of the energy. -/
noncomputable def exBeam : St MSt :=
  { nextElem := 0, retreat := false, payload :=
    { pos := 0, ref := Moment.exParticle, real := [Moment.exParticle]
      moment0 := [fun i => if i = 5 then 0 else 1], moment1 := [fun i j => if i = 5 ∨ j = 5 then 0 else if i = j then 2 else 0]
      transmat := [1], moment0_env := 0, moment0_rms := 0, moment1_env := 0, last_caviphi0 := 0 } }

/-- The hypotheses of `C93_agree`, `C93_vector` and `C93_matrix` are met by these lattices and this beam. -/
example (env : Env) (junk : Moment.Mat) (cavity stripper : MCls) :
    (∃ m, Machine.new exAgree (Moment.registry env junk 0 cavity stripper)
      (fun k => if k = "sim_type" then some (.str "MomentMatrix") else none) = .ok m) ∧
    (∃ m', Machine.new exAgree (Linear.registry Linear.vector 0 "Vector")
      (fun k => if k = "sim_type" then some (.str "Vector") else none) = .ok m') ∧
    (∃ m', Machine.new exAgree (Linear.registry Linear.matrix 0 "TransferMatrix")
      (fun k => if k = "sim_type" then some (.str "TransferMatrix") else none) = .ok m') ∧
    exLin.length = exMom.length ∧
    (∀ (j : Nat) ec ec' ty ty', 0 ≤ j → j < 0 + 3 → exMom[j]? = some ec → exLin[j]? = some ec' → exAgree.str ec "type" = .ok ty →
      exAgree.str ec' "type" = .ok ty' → Match exB ec' ec ty' ty) ∧
    Flying exBeam.payload ∧ ∃ v M, Suits exB (∃ (j : Nat) (ec' : LCfg), 0 ≤ j ∧ j < 0 + 3 ∧ exLin[j]? = some ec' ∧
      exAgree.str ec' "type" = .ok "sbend") exBeam.payload 0 v M ∧ v 0 = 1 := by
  refine ⟨?_, ⟨_, rfl⟩, ⟨_, rfl⟩, rfl, ?_, ?_, ?_⟩
  · obtain ⟨hk, hreg⟩ := Moment.registered_shipped env junk 0 cavity stripper
    refine (Flame.Mach.C18_success_iff exAgree (Moment.registry env junk 0 cavity stripper)
      (fun k => if k = "sim_type" then some (.str "MomentMatrix") else none)).2 ⟨"MomentMatrix", exMom, rfl, hk, rfl, ?_⟩
    have f3 := flag_none env (c := exSettings [("type", .str "sbend"), ("name", .str "b"), ("L", .num 2), ("phi", .num (1 * 180 / Real.pi)),
      ("phi1", .num 0), ("phi2", .num 0), ("K", .num 0)]) (k := "HdipoleFitMode") (by simp [exSettings]) 1 (by norm_num)
    simp only [exMom, List.mem_cons, List.not_mem_nil, or_false, forall_eq_or_imp, forall_eq]
    have hb : ∃ d, Moment.build env junk .sbend (exSettings [("type", .str "sbend"), ("name", .str "b"), ("L", .num 2),
        ("phi", .num (1 * 180 / Real.pi)), ("phi1", .num 0), ("phi2", .num 0), ("K", .num 0)]) = .ok d := by
      simp only [Moment.build, f3]
      norm_num
    obtain ⟨d, hd⟩ := hb
    exact ⟨⟨"drift", _, "d", _, rfl, hreg _ _ rfl, rfl, rfl, rfl⟩, ⟨"sbend", _, "b", d, rfl, hreg _ _ rfl, rfl, rfl, hd⟩,
      ⟨"quadrupole", _, "q", _, rfl, hreg _ _ rfl, rfl, rfl, rfl⟩⟩
  · intro j ec ec' ty ty' _ hj h1 h2 h3 h4
    match j, hj, h1, h2 with
    | 0, _, h1, h2 =>
      cases h1; cases h2; cases h3; cases h4
      exact .drift 1 rfl rfl
    | 1, _, h1, h2 =>
      cases h1; cases h2; cases h3; cases h4
      refine .sbend 2 1 0 (by norm_num) (by norm_num) (by norm_num) rfl rfl rfl rfl rfl rfl rfl rfl rfl ?_
      intro k hk
      simp only [List.mem_cons, List.not_mem_nil, or_false] at hk
      rcases hk with rfl | rfl | rfl | rfl | rfl <;> exact .inl rfl
    | 2, _, h1, h2 =>
      cases h1; cases h2; cases h3; cases h4
      refine .quadrupole 3 (-5) rfl rfl rfl rfl rfl ?_
      intro k hk
      simp only [List.mem_cons, List.not_mem_nil, or_false] at hk
      rcases hk with rfl | rfl | rfl | rfl | rfl <;> exact .inl rfl
  · refine ⟨⟨rfl, rfl, rfl⟩, ?_, ?_⟩
    · show (0 : ℝ) < 1
      norm_num
    · intro p hp
      have : p = Moment.exParticle := by simpa [exBeam] using hp
      subst this
      simp [Moment.exParticle]
  · refine ⟨_, _, ⟨rfl, rfl, ⟨Moment.exParticle, rfl, ?_, rfl, fun _ => rfl⟩, fun _ => ⟨by simp, fun a => by simp⟩⟩, by simp⟩
    simp [Moment.exParticle]

end Flame.Agree
