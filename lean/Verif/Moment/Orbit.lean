import Verif.Moment.Bends
import Verif.Moment.Walk

/-!
# What all elements do to centroids and covariances: C58, C60

Each advance multiplies every centroid by a matrix and every covariance from both sides.  The matrices are those
computed by the element now or earlier, or their inverses.  Here a property `Q` of matrices is carried through.
-/

set_option linter.unusedSimpArgs false

namespace Flame.Moment

open Flame.Mach
open Spec (phaseSpace form Preserves Homogeneous AffineMatrix)
open Flame.Linear (getNum getNumD LCfg)

/-- The state `new` has the moments of `old`, moved by matrices with property `Q`. -/
def MovedIn (Q : Mat → Prop) (old new : MSt) : Prop :=
  (∀ (k : Nat) v', new.moment0[k]? = some v' → ∃ v M, old.moment0[k]? = some v ∧ Q M ∧ v' = M.mulVec v) ∧
  (∀ (k : Nat) S', new.moment1[k]? = some S' → ∃ S M, old.moment1[k]? = some S ∧ Q M ∧ S' = congr M S)

/-- A property of matrices that survives products and inverses and holds for those that preserve areas. -/
structure Nice (Q : Mat → Prop) : Prop where
  mul : ∀ {A B}, Q A → Q B → Q (A * B)
  inv : ∀ {A}, Q A → A.det ≠ 0 → Q A⁻¹
  good : ∀ {M w}, w ≠ 0 → Good w M → Q M

theorem Nice.one {Q : Mat → Prop} (h : Nice Q) : Q 1 := h.good one_ne_zero (Good.one 1)

theorem MovedIn.refl {Q : Mat → Prop} (h : Nice Q) (s : MSt) : MovedIn Q s s :=
  ⟨fun _ v' hv => ⟨v', 1, hv, h.one, by rw [Matrix.one_mulVec]⟩, fun _ S' hS => ⟨S', 1, hS, h.one, by simp [congr]⟩⟩

theorem Nice.misalign {Q : Mat → Prop} (h : Nice Q) {d : MDat} {ref p : Particle} {M IM : Mat}
    (hm : getMisalign d ref p = .ok (M, IM)) : Q M ∧ Q IM := by
  obtain ⟨hz, hp⟩ := getMisalign_ok hm
  rw [getMisalign_eq d ref p hz hp] at hm
  cases hm
  exact ⟨h.good (mul_ne_zero hz hp) (conj_good ref p _ hz hp _ (rotMat_good _ _ _ _ _)),
    h.good (mul_ne_zero hz hp) (conj_good ref p _ hz hp _ ((rotMat_good _ _ _ _ _).inv (rotMat_det _ _ _ _ _)))⟩

theorem Nice.aligned {Q : Mat → Prop} (h : Nice Q) {d : MDat} {ref p : Particle} {T A : Mat} (hT : Q T)
    (ha : aligned d ref p T = .ok A) : Q A := by
  unfold Flame.Moment.aligned at ha
  split at ha
  · cases ha
  · rename_i M IM hm
    cases ha
    obtain ⟨h1, h2⟩ := h.misalign hm
    exact h.mul h2 (h.mul hT h1)

theorem all_of_forall₂ {α β : Type} {R : α → β → Prop} {P : β → Prop} {l : List α} {r : List β} (h : List.Forall₂ R l r)
    (hp : ∀ a b, R a b → P b) : ∀ b ∈ r, P b := by
  induction h with
  | nil => simp
  | cons hd _ ih =>
    intro b hb
    rcases List.mem_cons.1 hb with rfl | hb
    · exact hp _ _ hd
    · exact ih b hb

/-- Straight elements have only such matrices. -/
theorem Nice.straight {Q : Mat → Prop} (h : Nice Q) {env : Env} {t : MType} {d : MDat} {ref : Particle}
    {real : List Particle} {Ts : List Mat}
    (ht : t = .marker ∨ t = .bpm ∨ t = .drift ∨ t = .orbtrim ∨ t = .quadrupole ∨ t = .solenoid ∨ t = .equad)
    (hr : recompute env t d ref real = .ok Ts) : ∀ T ∈ Ts, Q T := by
  refine all_of_forall₂ (straight_cases ht hr) ?_
  rintro p T (hg | ⟨M, A, a, hM, hA, hT⟩)
  · exact h.good one_ne_zero (hg 1)
  · have hQ := h.aligned (h.good one_ne_zero (hM 1)) hA
    rcases hT with rfl | rfl
    · exact hQ
    · exact h.mul hQ (h.good one_ne_zero (roll_good 1 0 0 a))

theorem Nice.sbend {Q : Mat → Prop} (h : Nice Q)
    (hb : ∀ L phi phi1 phi2 K IonEs refGamma qmrel dipBeta dipGamma dd dipIonK,
      Q (sbendM L phi phi1 phi2 K IonEs refGamma qmrel dipBeta dipGamma dd dipIonK 1))
    {d : MDat} {ref : Particle} {real : List Particle} {Ts : List Mat} (hr : sbendRec d ref real = .ok Ts) :
    ∀ T ∈ Ts, Q T := by
  unfold sbendRec at hr
  split at hr
  · refine all_of_forall₂ (forEach_ok.1 hr) ?_
    intro p T hT
    split at hT
    · unfold sbendOne at hT
      dsimp only at hT
      split at hT
      · split at hT
        · cases hT
        · exact h.aligned (hb _ _ _ _ _ _ _ _ _ _ _ _) hT
      · exact h.aligned (hb _ _ _ _ _ _ _ _ _ _ _ _) hT
    · cases hT
      exact h.one
  · cases hr

theorem rot90_inv : rot90.transpose = rot90⁻¹ := (Matrix.inv_eq_right_inv rot90_transpose).symm

theorem Nice.edipole {Q : Mat → Prop} (h : Nice Q) {env : Env} {d : MDat}
    (hb : ∀ L phi fx fy Kx Ky IonEs realGamma eta0 h deltaK deltaKZ k,
      Q (ebendM L phi fx fy (getNumD d.conf "asym_fac" 0) Kx Ky IonEs realGamma eta0 h deltaK deltaKZ k 1))
    {ref : Particle} {real : List Particle} {Ts : List Mat} (hr : edipoleRec env d ref real = .ok Ts) :
    ∀ T ∈ Ts, Q T := by
  have q9 : Q rot90 := h.good one_ne_zero (rot90_good 1)
  have q9t : Q rot90.transpose := by rw [rot90_inv]; exact h.inv q9 (det_of_mul_one rot90_transpose).1
  unfold edipoleRec at hr
  split at hr
  · split at hr
    · cases hr
    · split at hr
      · cases hr
      · refine all_of_forall₂ (forEach_ok.1 hr) ?_
        intro p T hT
        split at hT
        · unfold edipoleOne at hT
          dsimp only at hT
          refine h.aligned ?_ hT
          split
          · exact h.mul (h.mul q9 (hb _ _ _ _ _ _ _ _ _ _ _ _ _)) q9t
          · exact hb _ _ _ _ _ _ _ _ _ _ _ _ _
        · cases hT
          exact h.one
  · cases hr

/-- What an element must fulfil so that all its matrices have property `Q`, whatever the beam. -/
def Gives (Q : Mat → Prop) (env : Env) (t : MType) (c : LCfg) : Prop :=
  (∀ d ref real Ts, d.conf = c → recompute env t d ref real = .ok Ts → ∀ T ∈ Ts, Q T) ∧
  (t = .sextupole → ∀ d B3 L stp thin dst ref p v S r, d.conf = c → thin = decide (getNumD c "thinlens" 0 = 1) →
    sextOne d B3 L stp thin dst ref p v S = .ok r → Q r.2.2)

theorem resize_all {Q : Mat → Prop} (h1 : Q 1) {n : Nat} {l : List Mat} (h : ∀ T ∈ l, Q T) : ∀ T ∈ resize n l, Q T := by
  intro T hT
  unfold resize at hT
  rcases List.mem_append.1 hT with hT | hT
  · exact h T (List.mem_of_mem_take hT)
  · rw [(List.mem_replicate.1 hT).2]
    exact h1

theorem particles_all {Q : Mat → Prop} (h1 : Q 1) {rec : MDat → Particle → List Particle → Except Err (List Mat)} {mv d S b}
    (hd : ∀ T ∈ d.transfer, Q T)
    (hr : ∀ d' ref real Ts, d'.conf = d.conf → rec d' ref real = .ok Ts → ∀ T ∈ Ts, Q T) :
    ∀ T ∈ (particles rec mv d S b).1.transfer, Q T := by
  unfold particles
  split
  · exact hd
  · dsimp only
    split
    · exact resize_all h1 hd
    · rename_i Ts hT
      have := hr _ _ _ Ts (by rfl) hT
      exact this

theorem forward_moved {Q : Mat → Prop} {T : List Mat} (hT : ∀ M ∈ T, Q M) (s : MSt) : MovedIn Q s (forward T s) := by
  constructor
  · intro k v' hv
    simp only [forward, List.getElem?_zipWith] at hv
    split at hv
    · rename_i M v h1 h2
      cases hv
      exact ⟨v, M, h2, hT M (List.mem_of_getElem? h1), rfl⟩
    · cases hv
  · intro k S' hS
    simp only [forward, List.getElem?_zipWith] at hS
    split at hS
    · rename_i M S h1 h2
      cases hS
      exact ⟨S, M, h2, hT M (List.mem_of_getElem? h1), rfl⟩
    · cases hS

theorem backLoop_moved {Q : Mat → Prop} (h : Nice Q) : ∀ (T : List Mat) (vs : List Vec) (Ss Xs : List Mat),
    (∀ M ∈ T, Q M) →
    (∀ (k : Nat) v', (backLoop T vs Ss Xs).1[k]? = some v' → ∃ v M, vs[k]? = some v ∧ Q M ∧ v' = M.mulVec v) ∧
    (∀ (k : Nat) S', (backLoop T vs Ss Xs).2.1[k]? = some S' → ∃ S M, Ss[k]? = some S ∧ Q M ∧ S' = congr M S)
  | M :: T, v :: vs, S :: Ss, X :: Xs, hT => by
    have hQ := hT M (by simp)
    obtain ⟨i1, i2⟩ := backLoop_moved h T vs Ss Xs (fun M hM => hT M (by simp [hM]))
    simp only [backLoop]
    cases hI : inverse M with
    | error e =>
      exact ⟨fun _ v' hv => ⟨v', 1, hv, h.one, by rw [Matrix.one_mulVec]⟩,
        fun _ S' hS => ⟨S', 1, hS, h.one, by simp [congr]⟩⟩
    | ok I =>
      obtain ⟨hd, rfl⟩ := inverse_ok hI
      have hQI := h.inv hQ hd
      dsimp only
      constructor
      · intro k v' hv
        cases k with
        | zero =>
          simp only [List.getElem?_cons_zero, Option.some.injEq] at hv ⊢
          exact ⟨v, _, rfl, hQI, hv.symm⟩
        | succ k => exact i1 k v' hv
      · intro k S' hS
        cases k with
        | zero =>
          simp only [List.getElem?_cons_zero, Option.some.injEq] at hS ⊢
          exact ⟨S, _, rfl, hQI, hS.symm⟩
        | succ k => exact i2 k S' hS
  | [], vs, Ss, Xs, _ => by
    simp only [backLoop]
    exact ⟨fun _ v' hv => ⟨v', 1, hv, h.one, by rw [Matrix.one_mulVec]⟩,
      fun _ S' hS => ⟨S', 1, hS, h.one, by simp [congr]⟩⟩
  | _ :: _, [], Ss, Xs, _ => by
    simp only [backLoop]
    exact ⟨fun _ v' hv => ⟨v', 1, hv, h.one, by rw [Matrix.one_mulVec]⟩,
      fun _ S' hS => ⟨S', 1, hS, h.one, by simp [congr]⟩⟩
  | _ :: _, _ :: _, [], Xs, _ => by
    simp only [backLoop]
    exact ⟨fun _ v' hv => ⟨v', 1, hv, h.one, by rw [Matrix.one_mulVec]⟩,
      fun _ S' hS => ⟨S', 1, hS, h.one, by simp [congr]⟩⟩
  | _ :: _, _ :: _, _ :: _, [], _ => by
    simp only [backLoop]
    exact ⟨fun _ v' hv => ⟨v', 1, hv, h.one, by rw [Matrix.one_mulVec]⟩,
      fun _ S' hS => ⟨S', 1, hS, h.one, by simp [congr]⟩⟩

theorem particles_conf {rec : MDat → Particle → List Particle → Except Err (List Mat)} {mv d S b} :
    (particles rec mv d S b).1.conf = d.conf ∧ (particles rec mv d S b).1.istate = d.istate := by
  unfold particles
  split
  · exact ⟨rfl, rfl⟩
  · dsimp only
    split <;> exact ⟨rfl, rfl⟩

theorem advanceBase_all {Q : Mat → Prop} (h : Nice Q) {rec : MDat → Particle → List Particle → Except Err (List Mat)} {d : MDat}
    {s : St MSt} (hd : ∀ T ∈ d.transfer, Q T)
    (hr : ∀ d' ref real Ts, d'.conf = d.conf → rec d' ref real = .ok Ts → ∀ T ∈ Ts, Q T) :
    (∀ T ∈ (advanceBase rec d s).1.transfer, Q T) ∧ MovedIn Q s.payload (advanceBase rec d s).2.1.payload ∧
      (advanceBase rec d s).1.conf = d.conf ∧ (advanceBase rec d s).1.istate = d.istate := by
  have hp := particles_all h.one (mv := (·.drifted s.retreat d.length)) (S := s.payload.recalc)
    (b := @decide (hit d s.payload.recalc) (Classical.propDecidable _)) hd hr
  have hc := particles_conf (rec := rec) (mv := (·.drifted s.retreat d.length)) (d := d) (S := s.payload.recalc)
    (b := @decide (hit d s.payload.recalc) (Classical.propDecidable _))
  unfold advanceBase
  dsimp only
  split
  · rename_i heq
    rw [heq] at hp hc
    exact ⟨hp, MovedIn.refl h _, hc⟩
  · rename_i d' ref real heq
    rw [heq] at hp hc
    split
    · split
      · rename_i S' e hb
        simp only [backward, Prod.mk.injEq] at hb
        obtain ⟨rfl, -⟩ := hb
        exact ⟨hp, backLoop_moved h _ _ _ _ hp, hc⟩
      · rename_i S' hb
        simp only [backward, Prod.mk.injEq] at hb
        obtain ⟨rfl, -⟩ := hb
        exact ⟨hp, backLoop_moved h _ _ _ _ hp, hc⟩
    · exact ⟨hp, forward_moved hp _, hc⟩

theorem advanceBend_all {Q : Mat → Prop} (h : Nice Q) {rec : MDat → Particle → List Particle → Except Err (List Mat)} {d : MDat}
    {s : St MSt} (hd : ∀ T ∈ d.transfer, Q T)
    (hr : ∀ d' ref real Ts, d'.conf = d.conf → rec d' ref real = .ok Ts → ∀ T ∈ Ts, Q T) :
    (∀ T ∈ (advanceBend rec d s).1.transfer, Q T) ∧ MovedIn Q s.payload (advanceBend rec d s).2.1.payload ∧
      (advanceBend rec d s).1.conf = d.conf ∧ (advanceBend rec d s).1.istate = d.istate := by
  have hp := particles_all h.one (mv := id) (S := s.payload.recalc)
    (b := @decide (hit d s.payload.recalc) (Classical.propDecidable _)) hd hr
  have hc := particles_conf (rec := rec) (mv := id) (d := d) (S := s.payload.recalc)
    (b := @decide (hit d s.payload.recalc) (Classical.propDecidable _))
  unfold advanceBend
  dsimp only
  split
  · rename_i heq
    rw [heq] at hp hc
    exact ⟨hp, MovedIn.refl h _, hc⟩
  · rename_i d' ref real heq
    rw [heq] at hp hc
    split
    · split
      · rename_i S' e hb
        simp only [backward, Prod.mk.injEq] at hb
        obtain ⟨rfl, -⟩ := hb
        exact ⟨hp, backLoop_moved h _ _ _ _ hp, hc⟩
      · rename_i S' hb
        simp only [backward, Prod.mk.injEq] at hb
        obtain ⟨rfl, -⟩ := hb
        exact ⟨hp, backLoop_moved h _ _ _ _ hp, hc⟩
    · exact ⟨hp, forward_moved hp _, hc⟩

theorem forall₂_get {α β : Type} {R : α → β → Prop} {l : List α} {r : List β} (h : List.Forall₂ R l r) (k : Nat) (b : β)
    (hb : r[k]? = some b) : ∃ a, l[k]? = some a ∧ R a b := by
  induction h generalizing k with
  | nil => simp at hb
  | cons hd _ ih =>
    cases k with
    | zero =>
      simp only [List.getElem?_cons_zero, Option.some.injEq] at hb
      subst hb
      exact ⟨_, rfl, hd⟩
    | succ k => exact ih k hb

theorem advanceSext_all {Q : Mat → Prop} (h : Nice Q) {d : MDat} {s : St MSt} (hd : ∀ T ∈ d.transfer, Q T)
    (hr : ∀ d' B3 L stp thin dst ref p v S r, d'.conf = d.conf → thin = decide (getNumD d.conf "thinlens" 0 = 1) →
      sextOne d' B3 L stp thin dst ref p v S = .ok r → Q r.2.2) :
    (∀ T ∈ (advanceSext d s).1.transfer, Q T) ∧ MovedIn Q s.payload (advanceSext d s).2.1.payload ∧
      (advanceSext d s).1.conf = d.conf ∧ (advanceSext d s).1.istate = d.istate := by
  unfold advanceSext
  split
  · dsimp only
    split
    · exact ⟨resize_all h.one hd, MovedIn.refl h _, rfl, rfl⟩
    · split
      · exact ⟨resize_all h.one hd, MovedIn.refl h _, rfl, rfl⟩
      · rename_i rs hrs
        refine ⟨resize_all h.one hd, ?_, rfl, rfl⟩
        have hF := forEach_ok.1 hrs
        constructor
        · intro k v' hv
          change (rs.map (fun (q : Vec × Mat × Mat) => q.1))[k]? = some v' at hv
          rw [List.getElem?_map] at hv
          obtain ⟨r, hrk, rfl⟩ := Option.map_eq_some_iff.1 hv
          obtain ⟨⟨p, v, S⟩, hq, hf⟩ := forall₂_get hF k r hrk
          refine ⟨v, r.2.2, ?_, hr _ _ _ _ _ _ _ _ _ _ _ rfl rfl hf, (sextOne_ok hf).1⟩
          simp only [List.zip, List.getElem?_zipWith] at hq
          split at hq
          · rename_i h1 h2
            split at h2
            · rename_i h3 h4
              cases h2
              cases hq
              exact h3
            · cases h2
          · cases hq
        · intro k S' hS
          change (rs.map (fun (q : Vec × Mat × Mat) => q.2.1))[k]? = some S' at hS
          rw [List.getElem?_map] at hS
          obtain ⟨r, hrk, rfl⟩ := Option.map_eq_some_iff.1 hS
          obtain ⟨⟨p, v, S⟩, hq, hf⟩ := forall₂_get hF k r hrk
          refine ⟨S, r.2.2, ?_, hr _ _ _ _ _ _ _ _ _ _ _ rfl rfl hf, (sextOne_ok hf).2⟩
          simp only [List.zip, List.getElem?_zipWith] at hq
          split at hq
          · rename_i h1 h2
            split at h2
            · rename_i h3 h4
              cases h2
              cases hq
              exact h4
            · cases h2
          · cases hq
  · exact ⟨hd, MovedIn.refl h _, rfl, rfl⟩

/-- Every advance, successful or not, moves by matrices with property `Q` and keeps only such matrices. -/
theorem advance_all {Q : Mat → Prop} (h : Nice Q) {env : Env} {t : MType} (ht : t ≠ .source) {d : MDat} {s : St MSt}
    (hd : ∀ T ∈ d.transfer, Q T) (hg : Gives Q env t d.conf) :
    (∀ T ∈ (advance env t d s).1.transfer, Q T) ∧ MovedIn Q s.payload (advance env t d s).2.1.payload ∧
      (advance env t d s).1.conf = d.conf ∧ (advance env t d s).1.istate = d.istate := by
  cases t with
  | source => exact absurd rfl ht
  | sbend => exact advanceBend_all h hd hg.1
  | sextupole => exact advanceSext_all h hd (hg.2 rfl)
  | _ => exact advanceBase_all h hd hg.1

/-! ## runs -/

section general
variable {C X S : Type}

/-- An invariant `P` of the state and `E` of the elements numbered by `A` survives a run that visits only these. -/
theorem run_inv {E : Elem C X S → Prop} {P : S → Prop} {A : Nat → Prop}
    (hstep : ∀ e s, E e → P s.payload → E { e with dat := (e.cls.advance e.dat s).1 } ∧ P (e.cls.advance e.dat s).2.1.payload)
    (n : Nat) : ∀ (els : List (Elem C X S)) (s : St S), (∀ (j : Nat) e, els[j]? = some e → A j → E e) → P s.payload →
      (∀ j ∈ visits (run n els s).trace, A j) →
      P (run n els s).st.payload ∧ ∀ (j : Nat) e, (run n els s).elems[j]? = some e → A j → E e := by
  induction n with
  | zero => intro els s hE hP _; exact ⟨hP, hE⟩
  | succ n ih =>
    intro els s hE hP hv
    have hpay : (stepNext s).payload = s.payload := by unfold stepNext; split <;> rfl
    cases h : els[s.nextElem]? with
    | none => rw [run_succ_none h]; exact ⟨hP, hE⟩
    | some e =>
      have hA : A s.nextElem := by
        cases h3 : (e.cls.advance e.dat (stepNext s)).2.2 with
        | some x => rw [run_succ_err h h3] at hv; exact hv _ (by simp [visits])
        | none => rw [run_succ_ok h h3] at hv; exact hv _ (by simp [visits])
      obtain ⟨hE', hP'⟩ := hstep e (stepNext s) (hE _ e h hA) (by rw [hpay]; exact hP)
      have hset : ∀ (j : Nat) e', (els.set s.nextElem { e with dat := (e.cls.advance e.dat (stepNext s)).1 })[j]? = some e' →
          A j → E e' := by
        intro j e' hj hAj
        rw [List.getElem?_set] at hj
        split at hj
        · split at hj
          · cases hj
            exact hE'
          · cases hj
        · exact hE j e' hj hAj
      cases h3 : (e.cls.advance e.dat (stepNext s)).2.2 with
      | some x => rw [run_succ_err h h3]; exact ⟨hP', hset⟩
      | none =>
        rw [run_succ_ok h h3] at hv ⊢
        refine ih _ _ hset hP' fun j hj => hv j ?_
        simp only [List.cons_append, visits, visits_append, visits_view, List.nil_append, List.mem_cons]
        exact .inr hj

/-- The same for all elements, whatever the run does. -/
theorem propagate_inv {E : Elem C X S → Prop} {P : S → Prop}
    (hstep : ∀ e s, E e → P s.payload → E { e with dat := (e.cls.advance e.dat s).1 } ∧ P (e.cls.advance e.dat s).2.1.payload)
    {els : List (Elem C X S)} {s : St S} (hE : ∀ e ∈ els, E e) (hP : P s.payload) (start : Nat) (max : Int)
    {r : Run C X S} (hr : propagate els s start max = some r) : P r.st.payload ∧ ∀ e ∈ r.elems, E e := by
  have hm : max ≠ -2 ^ 31 := by
    intro h
    unfold propagate cAbs at hr
    rw [if_pos h] at hr
    cases hr
  rw [propagate_eq els s start max hm] at hr
  cases hr
  obtain ⟨h1, h2⟩ := run_inv (A := fun _ => True) hstep max.natAbs els { s with nextElem := start, retreat := decide (max < 0) }
    (fun j e he _ => hE e (List.mem_of_getElem? he)) hP (fun _ _ => trivial)
  refine ⟨h1, fun e he => ?_⟩
  obtain ⟨j, hj⟩ := List.getElem?_of_mem he
  exact h2 j e hj trivial

end general

/-! ## C58: the seventh coordinate -/

theorem keeps_nice : Nice Keeps7 := ⟨Keeps7.mul, fun h hd => h.inv hd, fun _ h => h.1⟩

theorem Keeps7.setAt {M : Mat} (h : Keeps7 M) {i : Fin 7} (hi : i ≠ 6) (j : Fin 7) (x : ℝ) : Keeps7 (setAt M i j x) := by
  intro k
  unfold Flame.Moment.setAt
  rw [if_neg (fun hc => hi hc.1.symm)]
  exact h k

theorem sextM_keeps (L K3 Dx Dy D2x D2y D2xy : ℝ) (thin dst : Bool) {M : Mat} (h : Keeps7 M) :
    Keeps7 (sextM L K3 Dx Dy D2x D2y D2xy thin dst M) := by
  have one := Keeps7.one
  unfold sextM
  dsimp only
  have key : ∀ N : Mat, Keeps7 N → Keeps7 (if dst = true then
      Flame.Moment.setAt (Flame.Moment.setAt N 1 6 (-K3 * L * (D2x - D2y))) 3 6 (2 * K3 * L * D2xy) else N) := by
    intro N hN
    split
    · exact (hN.setAt (by decide) _ _).setAt (by decide) _ _
    · exact hN
  apply key
  split
  · refine Keeps7.mul ?_ (Keeps7.mul ?_ ?_) <;> exact one
  · split <;> exact h

theorem sextLoop_keeps (p : Particle) (dL K : ℝ) (thin dst : Bool) : ∀ (n : Nat) (x : Vec × Mat × Mat × Mat),
    Keeps7 x.2.2.1 → Keeps7 x.2.2.2 → Keeps7 (sextLoop p dL K thin dst n x).2.2.1
  | 0, _, h, _ => h
  | n + 1, (v, S, X, T), h, hT => by
    simp only [sextLoop]
    have h1 := (sextM_keeps dL K (v 0) (v 2) (S 0 0) (S 2 2) (S 0 2) thin dst hT).setAt (i := 4) (by decide) 5 (slip p dL)
    exact sextLoop_keeps p dL K thin dst n _ (h1.mul h) h1

theorem sextOne_keeps {d B3 L stp thin dst ref p v S r} (h : sextOne d B3 L stp thin dst ref p v S = .ok r) :
    Keeps7 r.2.2 := by
  unfold sextOne at h
  split at h
  · cases h
  · rename_i M IM hm
    cases h
    obtain ⟨h1, h2⟩ := keeps_nice.misalign hm
    exact h2.mul ((sextLoop_keeps _ _ _ _ _ _ _ Keeps7.one Keeps7.one).mul h1)

theorem sbendM_keeps (L phi phi1 phi2 K IonEs refGamma qmrel dipBeta dipGamma dd dipIonK : ℝ) :
    Keeps7 (sbendM L phi phi1 phi2 K IonEs refGamma qmrel dipBeta dipGamma dd dipIonK 1) := by
  rw [sbendM_split]
  exact (edgeM_good 1 _ _).1.mul ((sbendCore_keeps _ _ _ _ _ _ _ _ _ _).mul (edgeM_good 1 _ _).1)

theorem eedgeM_keeps (fx fy kappa : ℝ) : Keeps7 (eedgeM fx fy kappa) := by
  unfold eedgeM
  dsimp only
  exact Keeps7.one

theorem ebendM_keeps (L phi fx fy kappa Kx Ky IonEs realGamma eta0 h deltaK deltaKZ k : ℝ) :
    Keeps7 (ebendM L phi fx fy kappa Kx Ky IonEs realGamma eta0 h deltaK deltaKZ k 1) := by
  have e : ebendM L phi fx fy kappa Kx Ky IonEs realGamma eta0 h deltaK deltaKZ k 1 =
      eedgeM fx fy kappa * (ebendCore L phi Kx Ky IonEs realGamma eta0 h deltaK deltaKZ k * eedgeM fx fy kappa) := by
    unfold ebendCore ebendM
    simp only [eedgeM_zero, one_mul, mul_one]
  rw [e]
  exact (eedgeM_keeps _ _ _).mul ((ebendCore_keeps _ _ _ _ _ _ _ _ _ _ _).mul (eedgeM_keeps _ _ _))

theorem keeps_gives (env : Env) (t : MType) (c : LCfg) (h : t = .tmatrix → AffineMatrix c) : Gives Keeps7 env t c := by
  refine ⟨?_, fun _ d B3 L stp thin dst ref p v S r _ _ hr => sextOne_keeps hr⟩
  intro d ref real Ts hc hr
  have one : ∀ l : List Particle, ∀ T ∈ l.map (fun _ => (1 : Mat)), Keeps7 T := by
    intro l T hT
    obtain ⟨_, _, rfl⟩ := List.mem_map.1 hT
    exact Keeps7.one
  cases t with
  | sbend => exact keeps_nice.sbend sbendM_keeps hr
  | edipole => exact keeps_nice.edipole (fun _ _ _ _ _ _ _ _ _ _ _ _ _ => ebendM_keeps _ _ _ _ _ _ _ _ _ _ _ _ _ _) hr
  | tmatrix =>
    refine all_of_forall₂ (forEach_ok.1 hr) ?_
    intro p T hT
    split at hT
    · cases hT
    · rename_i xs hx
      cases hT
      unfold loadStorage at hx
      split at hx
      · rename_i ys hy
        split at hx
        · rename_i hl
          cases hx
          have hy' : c "matrix" = some (.vec xs) := by
            rw [← hc]
            unfold Flame.Linear.getVec at hy
            split at hy
            · rename_i h1
              cases hy
              exact h1
            · cases hy
          have hd := h rfl xs hy' hl
          intro j
          have e : matOf xs 6 j = (xs.drop 42).getD j 0 := by
            unfold matOf
            simp only [List.getD_eq_getElem?_getD, List.getElem?_drop]
            rfl
          rw [e, hd]
          fin_cases j <;> rfl
        · cases hx
      · cases hx
  | source => cases hr; exact one real
  | sextupole => cases hr; exact one real
  | _ => exact keeps_nice.straight (by simp) hr

theorem homogeneous_moved {s s' : MSt} (h : Homogeneous s.moment0 s.moment1) (hm : MovedIn Keeps7 s s') :
    Homogeneous s'.moment0 s'.moment1 := by
  constructor
  · intro v' hv
    obtain ⟨k, hk⟩ := List.getElem?_of_mem hv
    obtain ⟨v, M, h1, hM, rfl⟩ := hm.1 k v' hk
    have e : M.mulVec v 6 = ∑ j, M 6 j * v j := rfl
    rw [e, Finset.sum_eq_single 6]
    · rw [hM 6, if_pos rfl, one_mul, h.1 v (List.mem_of_getElem? h1)]
    · intro j _ hj
      rw [hM j, if_neg hj, zero_mul]
    · simp
  · intro S' hS
    obtain ⟨k, hk⟩ := List.getElem?_of_mem hS
    obtain ⟨S, M, h1, hM, rfl⟩ := hm.2 k S' hk
    have hz := h.2 S (List.mem_of_getElem? h1)
    intro i
    unfold congr
    have e1 : ∀ a, (M * S) a 6 = 0 := by
      intro a
      rw [Matrix.mul_apply]
      exact Finset.sum_eq_zero fun j _ => by rw [(hz j).1, mul_zero]
    have e2 : ∀ b, (M * S) 6 b = 0 := by
      intro b
      rw [Matrix.mul_apply, Finset.sum_eq_single 6]
      · rw [(hz b).2, mul_zero]
      · intro j _ hj
        rw [hM j, if_neg hj, zero_mul]
      · simp
    constructor
    · rw [Matrix.mul_apply, Finset.sum_eq_single 6]
      · rw [e1, zero_mul]
      · intro j _ hj
        rw [Matrix.transpose_apply, hM j, if_neg hj, mul_zero]
      · simp
    · rw [Matrix.mul_apply]
      exact Finset.sum_eq_zero fun j _ => by rw [e2, zero_mul]

/-- An element of one of the modelled types whose matrices, including those in its cache, act on the seventh coordinate
as the identity; if it is a source, its beam is homogeneous. -/
def Affine (env : Env) (junk : Mat) (base : Nat) (e : MElem) : Prop :=
  ∃ t : MType, e.cls = cls env junk base t ∧ (t = .tmatrix → AffineMatrix e.dat.conf) ∧
    (∀ i, e.dat.istate = some i → Homogeneous i.moment0 i.moment1) ∧
    ∀ T ∈ e.dat.transfer, ∀ j, T 6 j = if j = 6 then 1 else 0

theorem affine_step (env : Env) (junk : Mat) (base : Nat) (e : MElem) (s : St MSt) (he : Affine env junk base e)
    (hs : Homogeneous s.payload.moment0 s.payload.moment1) :
    Affine env junk base { e with dat := (e.cls.advance e.dat s).1 } ∧
      Homogeneous (e.cls.advance e.dat s).2.1.payload.moment0 (e.cls.advance e.dat s).2.1.payload.moment1 := by
  obtain ⟨t, hc, ht, hi, hT⟩ := he
  have ha : e.cls.advance = advance env t := by rw [hc]; rfl
  rw [ha]
  by_cases hsrc : t = .source
  · subst hsrc
    have : advance env .source e.dat s = advanceSource e.dat s := rfl
    rw [this]
    unfold advanceSource
    cases hI : e.dat.istate with
    | none => exact ⟨⟨.source, hc, ht, hi, hT⟩, hs⟩
    | some i =>
      dsimp only
      split
      · exact ⟨⟨.source, hc, ht, hi, hT⟩, hs⟩
      · exact ⟨⟨.source, hc, ht, hi, hT⟩, hi i hI⟩
  · obtain ⟨h1, h2, h3, h4⟩ := advance_all keeps_nice hsrc (s := s) hT (keeps_gives env t e.dat.conf ht)
    refine ⟨⟨t, hc, ?_, ?_, h1⟩, homogeneous_moved hs h2⟩
    · dsimp only
      rw [h3]
      exact ht
    · dsimp only
      rw [h4]
      exact hi

/-- In every propagation in either direction, whether it succeeds or throws, the seventh coordinate of all centroids
stays one, so that the seventh column of the matrices acts as a shift of the orbit, and nothing gets correlated with
it.  The elements stay as required, so this holds for any number of propagations. -/
theorem C58_orbit (env : Env) (junk : Mat) (base : Nat) (els : List MElem) (s : St MSt) (start : Nat) (max : Int)
    (hE : ∀ e ∈ els, Affine env junk base e) (hs : Homogeneous s.payload.moment0 s.payload.moment1)
    (r : Run LCfg MDat MSt) (hr : propagate els s start max = some r) :
    Homogeneous r.st.payload.moment0 r.st.payload.moment1 ∧ ∀ e ∈ r.elems, Affine env junk base e :=
  propagate_inv (E := Affine env junk base) (P := fun p => Homogeneous p.moment0 p.moment1)
    (fun e s he hp => affine_step env junk base e s he hp) hE hs start max hr

theorem build_conf {env : Env} {junk : Mat} {t : MType} {c : LCfg} {d : MDat} (h : build env junk t c = .ok d) :
    d.conf = c ∧ d.transfer = [] ∧ ∀ i, d.istate = some i → t = .source ∧ newState junk c = .ok i := by
  unfold build at h
  dsimp only at h
  split at h
  · split at h
    · cases h
    · cases h
    · rename_i hn
      cases h
      exact ⟨rfl, rfl, fun i hi => by cases hi; exact ⟨rfl, hn⟩⟩
  · cases h; exact ⟨rfl, rfl, fun i hi => by cases hi⟩
  · cases h; exact ⟨rfl, rfl, fun i hi => by cases hi⟩
  · cases h; exact ⟨rfl, rfl, fun i hi => by cases hi⟩
  · split at h
    · cases h
    · split at h
      · cases h; exact ⟨rfl, rfl, fun i hi => by cases hi⟩
      · cases h
  · cases h; exact ⟨rfl, rfl, fun i hi => by cases hi⟩

/-- A newly built machine without RF cavities and strippers whose sources have homogeneous beams. -/
theorem C58_machine {env : Env} {junk : Mat} {base : Nat} {cavity stripper : MCls} (cv : CView LCfg) (c : LCfg)
    (m : Machine LCfg MDat MSt) (h : Machine.new cv (registry env junk base cavity stripper) c = .ok m)
    (es : List LCfg) (hes : cv.elems c = .ok es)
    (hty : ∀ ec ∈ es, ∀ ty, cv.str ec "type" = .ok ty → ty ≠ "rfcavity" ∧ ty ≠ "stripper" ∧
      (ty = "tmatrix" → AffineMatrix ec) ∧
      (ty = "source" → ∀ i, newState junk ec = .ok i → Homogeneous i.moment0 i.moment1)) :
    ∀ e ∈ m.elems, Affine env junk base e := by
  have hF := machine_moment h hes
  generalize m.elems = l at hF
  clear h hes
  induction hF with
  | nil => intro e he; simp at he
  | @cons ec e _ _ hd _ ih =>
    intro e' he'
    rcases List.mem_cons.1 he' with rfl | he'
    · obtain ⟨ty, h1, h2⟩ := hd
      obtain ⟨n1, n2, n3, n4⟩ := hty ec (by simp) ty h1
      rcases h2 with ⟨t, hc, hn, hb⟩ | ⟨-, rfl, -⟩ | ⟨-, rfl, -⟩
      · obtain ⟨b1, b2, b3⟩ := build_conf hb
        refine ⟨t, hc, ?_, ?_, ?_⟩
        · intro ht
          rw [b1]
          exact n3 (by rw [← hn, ht]; rfl)
        · intro i hi
          obtain ⟨ht, hst⟩ := b3 i hi
          exact n4 (by rw [← hn, ht]; rfl) i hst
        · rw [b2]
          simp
      · exact absurd rfl n1
      · exact absurd rfl n2
    · exact ih (fun ec hec => hty ec (by simp [hec])) e' he'

/-- A quadrupole that has not been used, and a beam off axis with a size: the conditions of `C58_orbit`. -/
example (env : Env) (junk : Mat) (base : Nat) (e : MElem) (d : MDat) (c : LCfg) (hc : e.cls = cls env junk base .quadrupole)
    (hb : build env junk .quadrupole c = .ok d) (he : e.dat = d) :
    Affine env junk base e ∧
      Homogeneous [![1, 2, 3, 4, 5, 6, 1]] [Matrix.diagonal ![2, 0, 0, 0, 0, 1, 0]] := by
  obtain ⟨b1, b2, b3⟩ := build_conf hb
  refine ⟨⟨.quadrupole, hc, by simp, fun i hi => ?_, ?_⟩, ?_, ?_⟩
  · rw [he] at hi
    have := (b3 i hi).1
    simp at this
  · rw [he, b2]
    simp
  · simp
  · intro S hS i
    rw [List.mem_singleton.1 hS]
    fin_cases i <;> simp [Matrix.diagonal]

/-! ## C60: emittance -/

/-- The phase space volume is preserved, the seventh coordinate is kept. -/
def Volume (M : Mat) : Prop := Keeps7 M ∧ (phaseSpace M).det ^ 2 = 1

theorem form_det {w : ℝ} (hw : w ≠ 0) : (form w).det ≠ 0 := by
  have h : form w * form w⁻¹ = -1 := by
    ext i j
    fin_cases i <;> fin_cases j <;> simp [form, Matrix.mul_apply, Fin.sum_univ_six, Matrix.one_apply, hw]
  have hd := congrArg Matrix.det h
  rw [Matrix.det_mul, Matrix.det_neg, Matrix.det_one] at hd
  intro h0
  rw [h0] at hd
  norm_num at hd

theorem preserves_det {w : ℝ} (hw : w ≠ 0) {M : Matrix (Fin 6) (Fin 6) ℝ} (h : Preserves w M) : M.det ^ 2 = 1 := by
  have hd := congrArg Matrix.det h
  rw [Matrix.det_mul, Matrix.det_mul, Matrix.det_transpose] at hd
  have h0 := form_det hw
  have : (form w).det * (M.det ^ 2 - 1) = 0 := by linear_combination hd
  have := (mul_eq_zero.1 this).resolve_left h0
  linarith

theorem volume_nice : Nice Volume where
  mul := fun hA hB => ⟨hA.1.mul hB.1, by rw [phaseSpace_mul hB.1, Matrix.det_mul, mul_pow, hA.2, hB.2, one_mul]⟩
  inv := by
    intro A hA hd
    have hk := hA.1.inv hd
    refine ⟨hk, ?_⟩
    have h : phaseSpace A * phaseSpace A⁻¹ = 1 := by
      rw [← phaseSpace_mul hk, Matrix.mul_nonsing_inv A (isUnit_iff_ne_zero.2 hd), phaseSpace_one]
    have hdet := congrArg Matrix.det h
    rw [Matrix.det_mul, Matrix.det_one] at hdet
    have := hA.2
    have h2 : ((phaseSpace A).det * (phaseSpace A⁻¹).det) ^ 2 = 1 := by rw [hdet]; norm_num
    rw [mul_pow, this, one_mul] at h2
    exact h2
  good := fun hw h => ⟨h.1, preserves_det hw h.2⟩

/-- A bend has volume one whatever its dispersion. -/
theorem bendS_det (kx ky L u v a b s : ℝ) : (bendS kx ky L u v a b s).det ^ 2 = 1 := by
  let U : Matrix (Fin 6) (Fin 6) ℝ :=
    !![1, 0, 0, 0, 0, u; 0, 1, 0, 0, 0, v; 0, 0, 1, 0, 0, 0; 0, 0, 0, 1, 0, 0; 0, 0, 0, 0, 1, 0; 0, 0, 0, 0, 0, 1]
  let W : Matrix (Fin 6) (Fin 6) ℝ :=
    !![1, 0, 0, 0, 0, 0; 0, 1, 0, 0, 0, 0; 0, 0, 1, 0, 0, 0; 0, 0, 0, 1, 0, 0; a, b, 0, 0, 1, 0; 0, 0, 0, 0, 0, 1]
  have h : bendS kx ky L u v a b s = U * (planesS kx ky L s * W) := by
    ext i j
    simp only [Matrix.mul_apply, Fin.sum_univ_six]
    fin_cases i <;> fin_cases j <;> simp [U, W, bendS, planesS]
  have hU : U.det = 1 := by
    rw [Matrix.det_of_isUpperTriangular]
    · simp [U, Fin.prod_univ_six]
    · intro i j hij
      fin_cases i <;> fin_cases j <;> first | rfl | exact absurd hij (by decide)
  have hW : W.det = 1 := by
    rw [Matrix.det_of_isLowerTriangular]
    · simp [W, Fin.prod_univ_six]
    · intro i j hij
      fin_cases i <;> fin_cases j <;> first | rfl | exact absurd hij (by decide)
  rw [h, Matrix.det_mul, Matrix.det_mul, hU, hW, one_mul, mul_one]
  exact preserves_det one_ne_zero (planesS_preserves 1 kx ky L s)


theorem sbendM_volume (L phi phi1 phi2 K IonEs refGamma qmrel dipBeta dipGamma dd dipIonK : ℝ) :
    Volume (sbendM L phi phi1 phi2 K IonEs refGamma qmrel dipBeta dipGamma dd dipIonK 1) := by
  rw [sbendM_split]
  have he := fun a b => volume_nice.good one_ne_zero (edgeM_good 1 a b)
  refine volume_nice.mul (he _ _) (volume_nice.mul ⟨sbendCore_keeps _ _ _ _ _ _ _ _ _ _, ?_⟩ (he _ _))
  obtain ⟨u, v, a, b, s, h, -⟩ := sbendCore_phase L phi K IonEs refGamma qmrel dipBeta dipGamma dd dipIonK
  rw [h]
  exact bendS_det _ _ _ _ _ _ _ _

theorem ebendM_volume (L phi fx fy Kx Ky IonEs realGamma eta0 h deltaK deltaKZ k : ℝ) :
    Volume (ebendM L phi fx fy 0 Kx Ky IonEs realGamma eta0 h deltaK deltaKZ k 1) := by
  rw [ebendM_split]
  have he := volume_nice.good one_ne_zero (eedgeM_good 1 fx fy)
  refine volume_nice.mul he (volume_nice.mul ⟨ebendCore_keeps _ _ _ _ _ _ _ _ _ _ _, ?_⟩ he)
  have : phaseSpace (ebendCore L phi Kx Ky IonEs realGamma eta0 h deltaK deltaKZ k) = bendS Kx Ky L
      (ebendCore L phi Kx Ky IonEs realGamma eta0 h deltaK deltaKZ k 0 5)
      (ebendCore L phi Kx Ky IonEs realGamma eta0 h deltaK deltaKZ k 1 5)
      (ebendCore L phi Kx Ky IonEs realGamma eta0 h deltaK deltaKZ k 4 0)
      (ebendCore L phi Kx Ky IonEs realGamma eta0 h deltaK deltaKZ k 4 1)
      (ebendCore L phi Kx Ky IonEs realGamma eta0 h deltaK deltaKZ k 4 5) := by
    unfold ebendCore ebendM
    simp only [eedgeM_zero, one_mul, mul_one]
    rw [quadPlane_eq, quadPlane_eq]
    ext i j
    fin_cases i <;> fin_cases j <;> simp [phaseSpace, setAt, bendS, Matrix.one_apply]
  rw [this]
  exact bendS_det _ _ _ _ _ _ _ _

/-- The elements that preserve volumes: not matrices of the user, electrostatic dipoles with an asymmetry factor and
thick sextupoles. -/
def Conserving (t : MType) (c : LCfg) : Prop :=
  t ≠ .source ∧ t ≠ .tmatrix ∧ (t = .edipole → Spec.numOr c "asym_fac" 0 = 0) ∧
    (t = .sextupole → Spec.numOr c "thinlens" 0 = 1)

theorem numOr_eq (c : LCfg) (k : String) (d : ℝ) : getNumD c k d = Spec.numOr c k d := by
  unfold Flame.Linear.getNumD Spec.numOr
  split <;> simp_all

theorem volume_gives (env : Env) (t : MType) (c : LCfg) (h : Conserving t c) : Gives Volume env t c := by
  obtain ⟨h1, h2, h3, h4⟩ := h
  constructor
  · intro d ref real Ts hc hr
    cases t with
    | sbend => exact volume_nice.sbend sbendM_volume hr
    | edipole =>
      have h0 : getNumD d.conf "asym_fac" 0 = 0 := by rw [hc, numOr_eq]; exact h3 rfl
      refine volume_nice.edipole (fun _ _ _ _ _ _ _ _ _ _ _ _ _ => ?_) hr
      rw [h0]
      exact ebendM_volume _ _ _ _ _ _ _ _ _ _ _ _ _
    | tmatrix => exact absurd rfl h2
    | source => exact absurd rfl h1
    | sextupole =>
      cases hr
      intro T hT
      obtain ⟨_, _, rfl⟩ := List.mem_map.1 hT
      exact volume_nice.one
    | _ => exact volume_nice.straight (by simp) hr
  · intro ht d B3 L stp thin dst ref p v S r hc hthin hr
    have : thin = true := by
      rw [hthin, numOr_eq, h4 ht]
      simp
    subst this
    unfold sextOne at hr
    split at hr
    · cases hr
    · rename_i M IM hm
      cases hr
      obtain ⟨m1, m2⟩ := volume_nice.misalign hm
      exact volume_nice.mul m2 (volume_nice.mul
        (volume_nice.good one_ne_zero (sextLoop_thin_good 1 _ _ _ _ _ _ (Good.one 1))) m1)

theorem phaseSpace_congr (M S : Mat) (hz : ∀ i, S i 6 = 0 ∧ S 6 i = 0) :
    phaseSpace (congr M S) = phaseSpace M * phaseSpace S * (phaseSpace M).transpose := by
  ext i j
  have e : (phaseSpace M * phaseSpace S * (phaseSpace M).transpose) i j =
      ∑ b : Fin 6, (∑ a : Fin 6, M i.castSucc a.castSucc * S a.castSucc b.castSucc) * M j.castSucc b.castSucc := by
    rw [Matrix.mul_apply]
    exact Finset.sum_congr rfl fun b _ => by rw [Matrix.mul_apply]; rfl
  rw [e]
  change (M * S * M.transpose) i.castSucc j.castSucc = _
  rw [Matrix.mul_apply, Fin.sum_univ_castSucc]
  have hl : (M * S) i.castSucc (Fin.last 6) = 0 := by
    rw [Matrix.mul_apply]
    exact Finset.sum_eq_zero fun a _ => by rw [show (Fin.last 6 : Fin 7) = 6 from rfl, (hz a).1, mul_zero]
  rw [hl, zero_mul, add_zero]
  refine Finset.sum_congr rfl fun b _ => ?_
  rw [Matrix.mul_apply, Fin.sum_univ_castSucc, show (Fin.last 6 : Fin 7) = 6 from rfl, (hz _).2, mul_zero, add_zero,
    Matrix.transpose_apply]

/-- An element that preserves volumes, with a cache of such matrices. -/
def Conservative (env : Env) (junk : Mat) (base : Nat) (e : MElem) : Prop :=
  ∃ t : MType, e.cls = cls env junk base t ∧ Conserving t e.dat.conf ∧
    ∀ T ∈ e.dat.transfer, (∀ j, T 6 j = if j = 6 then 1 else 0) ∧ (phaseSpace T).det ^ 2 = 1

theorem conservative_step (env : Env) (junk : Mat) (base : Nat) (m1 : List Mat) (e : MElem) (s : St MSt)
    (he : Conservative env junk base e)
    (hs : Homogeneous s.payload.moment0 s.payload.moment1 ∧ ∀ (k : Nat) S', s.payload.moment1[k]? = some S' →
      ∃ S, m1[k]? = some S ∧ (phaseSpace S').det = (phaseSpace S).det) :
    Conservative env junk base { e with dat := (e.cls.advance e.dat s).1 } ∧
      Homogeneous (e.cls.advance e.dat s).2.1.payload.moment0 (e.cls.advance e.dat s).2.1.payload.moment1 ∧
      ∀ (k : Nat) S', (e.cls.advance e.dat s).2.1.payload.moment1[k]? = some S' →
        ∃ S, m1[k]? = some S ∧ (phaseSpace S').det = (phaseSpace S).det := by
  obtain ⟨t, hc, ht, hT⟩ := he
  have ha : e.cls.advance = advance env t := by rw [hc]; rfl
  rw [ha]
  obtain ⟨h1, h2, h3, -⟩ := advance_all volume_nice ht.1 (s := s) hT (volume_gives env t e.dat.conf ht)
  refine ⟨⟨t, hc, ?_, h1⟩, homogeneous_moved hs.1 ⟨?_, ?_⟩, ?_⟩
  · dsimp only
    rw [h3]
    exact ht
  · intro k v' hv
    obtain ⟨v, M, a, b, c⟩ := h2.1 k v' hv
    exact ⟨v, M, a, b.1, c⟩
  · intro k S' hS
    obtain ⟨S, M, a, b, c⟩ := h2.2 k S' hS
    exact ⟨S, M, a, b.1, c⟩
  · intro k S' hS
    obtain ⟨S, M, a, b, rfl⟩ := h2.2 k S' hS
    obtain ⟨S0, c1, c2⟩ := hs.2 k S a
    refine ⟨S0, c1, ?_⟩
    rw [phaseSpace_congr M S (hs.1.2 S (List.mem_of_getElem? a)), Matrix.det_mul, Matrix.det_mul, Matrix.det_transpose,
      ← c2]
    linear_combination (phaseSpace S).det * b.2

/-- A successful propagation through elements that preserve volumes, in either direction, leaves the six dimensional
emittance (the determinant of the covariance) of each charge state as it was: with any fields, misalignments,
dispersion, kicks, caches and directions. -/
theorem C60_emittance (env : Env) (junk : Mat) (base : Nat) (els : List MElem) (s : St MSt) (start : Nat) (max : Int)
    (hl : els.length < sizeMod) (hm : max ≠ -2 ^ 31)
    (hk : ∀ e ∈ els, Keeps e.cls) (hE : ∀ e ∈ Linear.Spec.passed els start max, Conservative env junk base e)
    (hs : Homogeneous s.payload.moment0 s.payload.moment1) :
    ∃ r, propagate els s start max = some r ∧ (r.err = none →
      ∀ (k : Nat) S', r.st.payload.moment1[k]? = some S' →
        ∃ S, s.payload.moment1[k]? = some S ∧ (phaseSpace S').det = (phaseSpace S).det) := by
  refine ⟨_, propagate_eq els s start max hm, fun he => ?_⟩
  have hv := propagate_visits els s start max hk hl he els rfl
  generalize hr : run max.natAbs els { s with nextElem := start, retreat := decide (max < 0) } = r at *
  have := run_inv (E := Conservative env junk base)
    (P := fun p => Homogeneous p.moment0 p.moment1 ∧ ∀ (k : Nat) S', p.moment1[k]? = some S' →
      ∃ S, s.payload.moment1[k]? = some S ∧ (phaseSpace S').det = (phaseSpace S).det)
    (A := fun j => j ∈ visits r.trace) (fun e s' h1 h2 => conservative_step env junk base s.payload.moment1 e s' h1 h2)
    max.natAbs els { s with nextElem := start, retreat := decide (max < 0) }
    (fun j e hj hA => hE e (by rw [← hv]; exact List.mem_filterMap.2 ⟨j, hA, hj⟩))
    ⟨hs, fun k S' hS => ⟨S', hS, rfl⟩⟩ (by rw [hr]; exact fun _ h => h)
  rw [hr] at this
  exact this.1.2

theorem keeps_cls (env : Env) (junk : Mat) (base : Nat) (t : MType) : Keeps (cls env junk base t) := by
  by_cases ht : t = .source
  · subst ht
    intro d s
    show (advanceSource d s).2.1.nextElem = s.nextElem ∧ (advanceSource d s).2.1.retreat = s.retreat
    unfold advanceSource
    split
    · exact ⟨rfl, rfl⟩
    · split <;> exact ⟨rfl, rfl⟩
  · exact (measured_cls env junk base t ht).1

/-- The same for a newly built machine and entries of its lattice of suitable types. -/
theorem C60_machine {env : Env} {junk : Mat} {base : Nat} {cavity stripper : MCls} (hcav : Keeps cavity)
    (hstr : Keeps stripper) (cv : CView LCfg) (c : LCfg) (m : Machine LCfg MDat MSt)
    (h : Machine.new cv (registry env junk base cavity stripper) c = .ok m) (es : List LCfg) (hes : cv.elems c = .ok es)
    (s : St MSt) (start : Nat) (max : Int) (hl : es.length < sizeMod) (hm : max ≠ -2 ^ 31)
    (hty : ∀ ec ∈ Linear.Spec.passed es start max, ∀ ty, cv.str ec "type" = .ok ty →
      ty ≠ "source" ∧ ty ≠ "tmatrix" ∧ ty ≠ "rfcavity" ∧ ty ≠ "stripper" ∧
      (ty = "edipole" → Spec.numOr ec "asym_fac" 0 = 0) ∧ (ty = "sextupole" → Spec.numOr ec "thinlens" 0 = 1))
    (hs : Homogeneous s.payload.moment0 s.payload.moment1) :
    ∃ r, propagate m.elems s start max = some r ∧ (r.err = none →
      ∀ (k : Nat) S', r.st.payload.moment1[k]? = some S' →
        ∃ S, s.payload.moment1[k]? = some S ∧ (phaseSpace S').det = (phaseSpace S).det) := by
  have hF := machine_moment h hes
  have hlen := hF.length_eq
  refine C60_emittance env junk base m.elems s start max (by omega) hm ?_ ?_ hs
  · clear hlen hty h
    generalize m.elems = l at hF
    clear hes hl
    induction hF with
    | nil => intro e he; simp at he
    | @cons ec e _ _ hd _ ih =>
      intro e' he'
      rcases List.mem_cons.1 he' with rfl | he'
      · obtain ⟨ty, -, ⟨t, hc, -⟩ | ⟨hc, -⟩ | ⟨hc, -⟩⟩ := hd
        · rw [hc]; exact keeps_cls env junk base t
        · rw [hc]; exact hcav
        · rw [hc]; exact hstr
      · exact ih e' he'
  · have part := Linear.passed_forall₂ hF start max
    generalize Linear.Spec.passed es start max = a at part hty
    generalize Linear.Spec.passed m.elems start max = b at part
    clear hF
    induction part with
    | nil => intro e he; simp at he
    | @cons ec e _ _ hd _ ih =>
      intro e' he'
      rcases List.mem_cons.1 he' with rfl | he'
      · obtain ⟨ty, h1, h2⟩ := hd
        obtain ⟨n1, n2, n3, n4, n5, n6⟩ := hty ec (by simp) ty h1
        rcases h2 with ⟨t, hc, hn, hb⟩ | ⟨-, rfl, -⟩ | ⟨-, rfl, -⟩
        · obtain ⟨b1, b2, -⟩ := build_conf hb
          refine ⟨t, hc, ⟨?_, ?_, ?_, ?_⟩, by rw [b2]; simp⟩
          · rintro rfl; exact n1 hn.symm
          · rintro rfl; exact n2 hn.symm
          · rintro rfl; rw [b1]; exact n5 hn.symm
          · rintro rfl; rw [b1]; exact n6 hn.symm
        · exact absurd rfl n3
        · exact absurd rfl n4
      · exact ih (fun ec hec => hty ec (by simp [hec])) e' he'

/-- The emittance is no trivial quantity: a beam of sizes 1 to 6 has one, and a sextupole with thin lenses and a dipole
are among the elements. -/
example : Conserving .sbend (fun _ => none) ∧
    Conserving .sextupole (fun k => if k = "thinlens" then some (.num 1) else none) ∧
    (phaseSpace (Matrix.diagonal ![1, 2, 3, 4, 5, 6, 0])).det = 720 := by
  refine ⟨⟨by simp, by simp, by simp, by simp⟩, ⟨by simp, by simp, by simp, fun _ => by simp [Spec.numOr]⟩, ?_⟩
  have : phaseSpace (Matrix.diagonal ![1, 2, 3, 4, 5, 6, 0]) = Matrix.diagonal ![1, 2, 3, 4, 5, 6] := by
    ext i j
    fin_cases i <;> fin_cases j <;> simp [phaseSpace, Matrix.diagonal]
  rw [this, Matrix.det_diagonal]
  simp [Fin.prod_univ_six]
  norm_num

end Flame.Moment
