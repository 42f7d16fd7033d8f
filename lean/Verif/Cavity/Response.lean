import Verif.Cavity.Total
import Verif.Cavity.SpecResponse
import Mathlib.LinearAlgebra.Prod
import Mathlib.LinearAlgebra.Pi
import Mathlib.LinearAlgebra.Matrix.ToLin

/-! # C94: the orbit answers linearly to correctors and to the orbit at the start

A corrector changes its matrix only in the last column.  Everything else of the lattice has the same matrices for all orbits, as long
as the phases of the charge states are the same where cavities use them. -/

namespace Flame.Cavity

open Flame.Mach (Cls St Err CView Machine propagate sizeMod Elem Run Event run visits stepNext viewEvents run_succ_none run_succ_err run_succ_ok propagate_eq)
open Flame.Linear (LVal LCfg getNum getNumD getVec)
open Flame.Moment Flame.Moment.Spec

/-! ## two runs, the second one displaced -/

section

variable {C X S K W : Type} [AddCommGroup K] [Module ℝ K] [AddCommGroup W] [Module ℝ W]

theorem run_response {E : Nat → Elem C X S → Prop} {F : Nat → Elem C X S → Elem C X S → K → Prop} {P : S → Prop}
    {R : Nat → S → S → W → Prop} (hk : ∀ j e, E j e → Keeps e.cls) (hk' : ∀ j e e' κ, F j e e' κ → Keeps e'.cls)
    (hstep : ∀ j e (s : St S), E j e → s.retreat = false → P s.payload → (e.cls.advance e.dat s).2.2 = none →
      P (e.cls.advance e.dat s).2.1.payload ∧ ∃ ρ : K × W →ₗ[ℝ] W, ∀ e' (s' : St S) κ D, F j e e' κ → s'.retreat = false →
        R j s.payload s'.payload D → (e'.cls.advance e'.dat s').2.2 = none ∧
          R (j + 1) (e.cls.advance e.dat s).2.1.payload (e'.cls.advance e'.dat s').2.1.payload (ρ (κ, D)))
    (n : Nat) : ∀ (els : List (Elem C X S)) (s : St S), els.length < sizeMod → s.nextElem + n ≤ els.length →
      (∀ j e, s.nextElem ≤ j → j < s.nextElem + n → els[j]? = some e → E j e) → s.retreat = false → P s.payload →
      (run n els s).err = none →
      ∃ ρ : (ℕ → K) × W →ₗ[ℝ] W, ∀ (els' : List (Elem C X S)) (s' : St S) (κ : ℕ → K) (D : W), els'.length = els.length →
        s'.nextElem = s.nextElem → s'.retreat = false → R s.nextElem s.payload s'.payload D →
        (∀ j e e', s.nextElem ≤ j → j < s.nextElem + n → els[j]? = some e → els'[j]? = some e' → F j e e' (κ j)) →
        (run n els' s').err = none ∧
          R (s.nextElem + n) (run n els s).st.payload (run n els' s').st.payload (ρ (κ, D)) := by
  induction n with
  | zero =>
    intro els s _ _ _ _ _ _
    exact ⟨LinearMap.snd ℝ _ _, fun els' s' κ D _ _ _ hR _ => ⟨rfl, hR⟩⟩
  | succ n ih =>
    intro els s hl hn hE hr hP hok
    have hpay : ∀ s : St S, (stepNext s).payload = s.payload := by intro s; unfold stepNext; split <;> rfl
    have hret : ∀ s : St S, (stepNext s).retreat = s.retreat := by intro s; unfold stepNext; split <;> rfl
    have hup : ∀ s : St S, s.retreat = false → s.nextElem < els.length → (stepNext s).nextElem = s.nextElem + 1 := by
      intro s hs hlt
      unfold stepNext
      rw [if_neg (by rw [hs]; simp)]
      exact Nat.mod_eq_of_lt (by omega)
    cases h : els[s.nextElem]? with
    | none =>
      rw [List.getElem?_eq_none_iff] at h
      omega
    | some e =>
      have hEe := hE _ e (le_refl _) (by omega) h
      cases h3 : (e.cls.advance e.dat (stepNext s)).2.2 with
      | some x => rw [run_succ_err h h3] at hok; cases hok
      | none =>
        obtain ⟨gP, ρ1, g⟩ := hstep _ e (stepNext s) hEe (by rw [hret]; exact hr) (by rw [hpay]; exact hP) h3
        rw [hpay] at g
        obtain ⟨k1, k2⟩ := hk _ e hEe e.dat (stepNext s)
        rw [hup s hr (by omega)] at k1
        rw [hret, hr] at k2
        rw [run_succ_ok h h3] at hok
        obtain ⟨ρ, hρ⟩ := ih (els.set s.nextElem { e with dat := (e.cls.advance e.dat (stepNext s)).1 })
          (e.cls.advance e.dat (stepNext s)).2.1 (by rwa [List.length_set]) (by rw [List.length_set, k1]; omega)
          (by
            intro j e' hj hj2 hj'
            rw [k1] at hj hj2
            rw [List.getElem?_set_ne (by omega)] at hj'
            exact hE j e' (by omega) (by omega) hj')
          k2 gP hok
        refine ⟨ρ.comp (LinearMap.prod (LinearMap.fst ℝ _ _)
          (ρ1.comp (LinearMap.prodMap (LinearMap.proj s.nextElem) LinearMap.id))), ?_⟩
        intro els' s' κ D hl' hn' hr' hR hF
        have hlt' : s'.nextElem < els'.length := by omega
        have h' : els'[s'.nextElem]? = some els'[s'.nextElem] := List.getElem?_eq_getElem hlt'
        generalize els'[s'.nextElem] = e' at h'
        have hFe := hF _ e e' (le_refl _) (by omega) h (by rw [← hn']; exact h')
        obtain ⟨g1, g2⟩ := g e' (stepNext s') (κ s.nextElem) D hFe (by rw [hret]; exact hr') (by rw [hpay]; exact hR)
        obtain ⟨k1', k2'⟩ := hk' _ e e' _ hFe e'.dat (stepNext s')
        rw [hup s' hr' (by omega), hn'] at k1'
        rw [hret, hr'] at k2'
        have hi := hρ (els'.set s'.nextElem { e' with dat := (e'.cls.advance e'.dat (stepNext s')).1 })
          (e'.cls.advance e'.dat (stepNext s')).2.1 κ (ρ1 (κ s.nextElem, D)) (by simpa using hl') (by rw [k1, k1']) k2'
          (by rw [k1]; exact g2)
          (by
            intro j a b hj hj2 ha hb
            rw [k1] at hj hj2
            rw [List.getElem?_set_ne (by omega)] at ha
            rw [List.getElem?_set_ne (by omega)] at hb
            exact hF j a b (by omega) (by omega) ha hb)
        rw [run_succ_ok h h3, run_succ_ok h' g1]
        rw [k1, show s.nextElem + 1 + n = s.nextElem + (n + 1) by omega] at hi
        exact hi

end

/-! ## matrices that differ in the last column -/

/-- A matrix with the given last column and nothing else. -/
def bump (g : Vec) : Mat := Matrix.of fun a b => if b = 6 then g a else 0

theorem bump_mulVec (g v : Vec) : (bump g).mulVec v = v 6 • g := by
  ext a
  simp [bump, Matrix.mulVec, dotProduct, mul_comm]

theorem mul_bump (N : Mat) (g : Vec) : N * bump g = bump (N.mulVec g) := by
  ext a b
  by_cases hb : b = 6
  · simp [bump, Matrix.mul_apply, Matrix.mulVec, dotProduct, hb]
  · simp [bump, Matrix.mul_apply, hb]

theorem bump_mul (g : Vec) {P : Mat} (h : Keeps7 P) : bump g * P = bump g := by
  ext a b
  simp only [bump, Matrix.mul_apply, Matrix.of_apply]
  rw [Finset.sum_eq_single 6]
  · rw [if_pos rfl, h b]
    split <;> simp
  · intro k _ hk
    rw [if_neg hk, zero_mul]
  · simp

theorem bump_flat (g : Vec) {S : Mat} (h : Flat S) : bump g * S = 0 := by
  ext a b
  simp only [bump, Matrix.mul_apply, Matrix.of_apply, Matrix.zero_apply]
  refine Finset.sum_eq_zero fun k _ => ?_
  by_cases hk : k = 6
  · rw [hk, (h b).2, mul_zero]
  · rw [if_neg hk, zero_mul]

theorem flat_bump (g : Vec) {S : Mat} (h : Flat S) : S * (bump g).transpose = 0 := by
  have : Flat S.transpose := fun i => ⟨(h i).2, (h i).1⟩
  rw [← Matrix.transpose_transpose S, ← Matrix.transpose_mul, bump_flat g this, Matrix.transpose_zero]

theorem congr_bump (T : Mat) (g : Vec) {S : Mat} (h : Flat S) : Moment.congr (T + bump g) S = Moment.congr T S := by
  unfold Moment.congr
  rw [Matrix.add_mul, bump_flat g h, add_zero, Matrix.transpose_add, Matrix.mul_add, Matrix.mul_assoc T S (bump g).transpose,
    flat_bump g h, Matrix.mul_zero, add_zero]

/-- The change of the last column of the matrix of a corrector, seen through the matrix `IM`. -/
noncomputable def kickMap (f : ℝ) (IM : Mat) : ℝ × ℝ →ₗ[ℝ] Vec where
  toFun κ := IM.mulVec (fun a => if a = 1 then κ.1 * f else if a = 3 then κ.2 * f else 0)
  map_add' a b := by
    rw [← Matrix.mulVec_add]
    congr 1
    ext i
    by_cases h1 : i = 1
    · simp [h1, add_mul]
    · by_cases h3 : i = 3 <;> simp [h1, h3, add_mul]
  map_smul' c a := by
    rw [RingHom.id_apply, ← Matrix.mulVec_smul]
    congr 1
    ext i
    by_cases h1 : i = 1
    · simp [h1, mul_assoc]
    · by_cases h3 : i = 3 <;> simp [h1, h3, mul_assoc]

theorem kickMap_six {f : ℝ} {IM : Mat} (h : Keeps7 IM) (κ : ℝ × ℝ) : kickMap f IM κ 6 = 0 := by
  simp only [kickMap, LinearMap.coe_mk, AddHom.coe_mk]
  rw [mulVec_six h]
  simp

/-! ## elements in steered lattices -/

/-- The element of the second lattice that belongs to the given one. -/
def Kicked (t : MType) (d d' : MDat) (κ : ℝ × ℝ) : Prop :=
  (t ≠ .orbtrim → d' = d) ∧
  (t = .orbtrim → Spec.Steered d.conf d'.conf κ ∧ d'.refIn = d.refIn ∧ d'.length = d.length ∧ getMisalign d' = getMisalign d)

theorem numOr_getNumD (c : LCfg) (k : String) : getNumD c k 0 = numOr c k 0 := by
  unfold getNumD numOr
  cases c k with
  | none => rfl
  | some v => cases v <;> rfl

open Classical in
/-- The matrix of a corrector for one charge state, as a function of the angles (/repo/src/moment.cpp:896-909). -/
noncomputable def trimOne (d : MDat) (r p : Particle) (thx thy : ℝ) : Except Err Mat :=
  match aligned d r p (setAt (setAt 1 1 6 (thx * p.IonZ / r.IonZ)) 3 6 (thy * p.IonZ / r.IonZ)) with
  | .error e => .error e
  | .ok M => .ok (if getNumD d.conf "xyrotate" 0 * Real.pi / 180 ≠ 0 then
      M * rotMat 0 0 0 0 (getNumD d.conf "xyrotate" 0 * Real.pi / 180) else M)

theorem trimOne_kick {d d' : MDat} {r p : Particle} {a b x y : ℝ} {M Mis IM : Mat} (h : trimOne d r p a b = .ok M)
    (hm : getMisalign d r p = .ok (Mis, IM)) (hm' : getMisalign d' = getMisalign d) (hx : d'.conf "xyrotate" = d.conf "xyrotate") :
    trimOne d' r p (a + x) (b + y) = .ok (M + bump (kickMap (p.IonZ / r.IonZ) IM (x, y))) := by
  obtain ⟨k1, -⟩ := keeps_nice.misalign hm
  have hrot : getNumD d'.conf "xyrotate" 0 = getNumD d.conf "xyrotate" 0 := by
    rw [numOr_getNumD, numOr_getNumD]
    unfold numOr
    rw [hx]
  have hT : (setAt (setAt 1 1 6 ((a + x) * p.IonZ / r.IonZ)) 3 6 ((b + y) * p.IonZ / r.IonZ) : Mat) =
      setAt (setAt 1 1 6 (a * p.IonZ / r.IonZ)) 3 6 (b * p.IonZ / r.IonZ) +
        bump (fun i => if i = 1 then x * (p.IonZ / r.IonZ) else if i = 3 then y * (p.IonZ / r.IonZ) else 0) := by
    ext i j
    fin_cases i <;> fin_cases j <;> simp [setAt, bump] <;> ring
  unfold trimOne Moment.aligned at h ⊢
  rw [hm', hrot]
  rw [hm] at h ⊢
  dsimp only at h ⊢
  have hgo : ∀ A B : Mat, IM * ((A + bump (fun i => if i = 1 then x * (p.IonZ / r.IonZ) else if i = 3 then y * (p.IonZ / r.IonZ) else 0)) * Mis) =
      IM * (A * Mis) + bump (kickMap (p.IonZ / r.IonZ) IM (x, y)) := by
    intro A B
    rw [Matrix.add_mul, bump_mul _ k1, Matrix.mul_add, mul_bump]
    rfl
  rw [hT, hgo _ 1]
  by_cases hR : getNumD d.conf "xyrotate" 0 * Real.pi / 180 ≠ 0
  · rw [if_pos hR] at h ⊢
    cases h
    rw [Matrix.add_mul, bump_mul _ (rotMat_good _ _ _ _ _).1]
  · rw [if_neg hR] at h ⊢
    cases h
    rfl

theorem orbtrimRec_eq (r : Particle) (l : List Particle) : ∃ e : ℝ, ∀ d' : MDat,
    orbtrimRec d' r l = forEach (fun p => trimOne d' r p
      (@ite ℝ (getNumD d'.conf "realpara" 0 = 1) (Classical.propDecidable _) (getNumD d'.conf "tm_xkick" 0 * e) (getNumD d'.conf "theta_x" 0))
      (@ite ℝ (getNumD d'.conf "realpara" 0 = 1) (Classical.propDecidable _) (getNumD d'.conf "tm_ykick" 0 * e) (getNumD d'.conf "theta_y" 0))) l :=
  ⟨r.IonZ * C0 / Real.sqrt (r.IonW * r.IonW - r.IonEs * r.IonEs), fun _ => rfl⟩

theorem trimOne_misalign {d : MDat} {r p : Particle} {a b : ℝ} {M : Mat} (h : trimOne d r p a b = .ok M) :
    ∃ Mis IM, getMisalign d r p = .ok (Mis, IM) := by
  unfold trimOne Moment.aligned at h
  cases hm : getMisalign d r p with
  | error e => rw [hm] at h; cases h
  | ok x => exact ⟨x.1, x.2, rfl⟩

theorem orbtrim_kick {d : MDat} {r : Particle} {l : List Particle} {T : List Mat} (h : orbtrimRec d r l = .ok T) :
    ∃ N : ℕ → ℝ × ℝ →ₗ[ℝ] Vec, ∀ d' κ, Kicked .orbtrim d d' κ → ∃ T', orbtrimRec d' r l = .ok T' ∧ T'.length = T.length ∧
      ∀ i M, T[i]? = some M → T'[i]? = some (M + bump (N i κ)) ∧ N i κ 6 = 0 := by
  obtain ⟨e, he⟩ := orbtrimRec_eq r l
  rw [he] at h
  have hF := forEach_ok.1 h
  have hlen := hF.length_eq
  -- the factor in front of the strengths
  let g : ℝ := @ite ℝ (getNumD d.conf "realpara" 0 = 1) (Classical.propDecidable _) e 1
  have hN : ∀ i : ℕ, ∃ N : ℝ × ℝ →ₗ[ℝ] Vec, ∀ (M : Mat) (p : Particle), T[i]? = some M → l[i]? = some p → (∀ κ, N κ 6 = 0) ∧
      ∀ d' κ, Kicked .orbtrim d d' κ → trimOne d' r p
        (@ite ℝ (getNumD d'.conf "realpara" 0 = 1) (Classical.propDecidable _) (getNumD d'.conf "tm_xkick" 0 * e) (getNumD d'.conf "theta_x" 0))
        (@ite ℝ (getNumD d'.conf "realpara" 0 = 1) (Classical.propDecidable _) (getNumD d'.conf "tm_ykick" 0 * e) (getNumD d'.conf "theta_y" 0)) =
        .ok (M + bump (N κ)) := by
    intro i
    by_cases hi : i < l.length
    · have hp : l[i]? = some l[i] := List.getElem?_eq_getElem hi
      have hM : T[i]? = some T[i] := List.getElem?_eq_getElem (by omega)
      generalize l[i] = p at hp
      generalize T[i] = M at hM
      obtain ⟨p', hp', h1⟩ := forall₂_get hF hM
      rw [hp] at hp'
      cases hp'
      obtain ⟨Mis, IM, hm⟩ := trimOne_misalign h1
      refine ⟨(kickMap (p.IonZ / r.IonZ) IM).comp (g • LinearMap.id), ?_⟩
      intro M' p' hM' hp'
      rw [hM] at hM'
      rw [hp] at hp'
      cases hM'
      cases hp'
      refine ⟨fun κ => kickMap_six (keeps_nice.misalign hm).2 _, ?_⟩
      rintro d' κ ⟨-, hK⟩
      obtain ⟨hs, -, -, hm'⟩ := hK rfl
      have hreal : getNumD d'.conf "realpara" 0 = getNumD d.conf "realpara" 0 := by
        rw [numOr_getNumD, numOr_getNumD]
        unfold numOr
        rw [hs.rest "realpara" (by decide)]
      have key : ∀ a b a' b' : ℝ, a' = a + g * κ.1 → b' = b + g * κ.2 → trimOne d r p a b = .ok M →
          trimOne d' r p a' b' = .ok (M + bump ((kickMap (p.IonZ / r.IonZ) IM).comp (g • LinearMap.id) κ)) := by
        intro a b a' b' ha hb h1
        rw [ha, hb, trimOne_kick h1 hm hm' (hs.rest "xyrotate" (by decide))]
        rfl
      refine key _ _ _ _ ?_ ?_ h1
      all_goals
        rw [hreal]
        simp only [g]
        by_cases hc : getNumD d.conf "realpara" 0 = 1
        · rw [if_pos hc, if_pos hc, if_pos hc]
          rw [numOr_getNumD] at hc
          rw [numOr_getNumD, numOr_getNumD]
          first
            | rw [(hs.field hc).1]; ring
            | rw [(hs.field hc).2]; ring
        · rw [if_neg hc, if_neg hc, if_neg hc]
          rw [numOr_getNumD] at hc
          rw [numOr_getNumD, numOr_getNumD]
          first
            | rw [(hs.angle hc).1]; ring
            | rw [(hs.angle hc).2]; ring
    · refine ⟨0, fun M p _ hp => ?_⟩
      rw [List.getElem?_eq_none (by omega)] at hp
      cases hp
  choose N hN using hN
  refine ⟨N, fun d' κ hK => ?_⟩
  have hall : ∀ i (hi : i < l.length), trimOne d' r l[i]
        (@ite ℝ (getNumD d'.conf "realpara" 0 = 1) (Classical.propDecidable _) (getNumD d'.conf "tm_xkick" 0 * e) (getNumD d'.conf "theta_x" 0))
        (@ite ℝ (getNumD d'.conf "realpara" 0 = 1) (Classical.propDecidable _) (getNumD d'.conf "tm_ykick" 0 * e) (getNumD d'.conf "theta_y" 0)) =
        .ok (T[i] + bump (N i κ)) := fun i hi =>
    (hN i _ _ (List.getElem?_eq_getElem (by omega)) (List.getElem?_eq_getElem hi)).2 d' κ hK
  refine ⟨T.mapIdx (fun i M => M + bump (N i κ)), ?_, by simp, ?_⟩
  · rw [he, forEach_ok, List.forall₂_iff_get]
    refine ⟨by simpa using hlen, fun i h1 h2 => ?_⟩
    simpa using hall i h1
  · intro i M hM
    refine ⟨by rw [List.getElem?_mapIdx, hM]; rfl, ?_⟩
    have hi := lt_of_get hM
    exact (hN i M _ hM (List.getElem?_eq_getElem (by omega))).1 κ

/-- A particle without its phase. -/
def calm (p : Particle) : Particle := { p with phis := 0 }

theorem recompute_calm (env : Env) (t : MType) (d : MDat) (r : Particle) (l : List Particle) :
    recompute env t d r (l.map calm) = recompute env t d r l := by
  cases t <;> simp only [recompute, orbtrimRec, sbendRec, quadRec, solenoidRec, edipoleRec, equadRec, forEach_map, List.map_map]
  all_goals rfl

/-- The matrices of an element of the second lattice. -/
theorem recompute_kick {env : Env} {t : MType} {d : MDat} {r : Particle} {l : List Particle} {T : List Mat}
    (h : recompute env t d r l = .ok T) :
    ∃ N : ℕ → ℝ × ℝ →ₗ[ℝ] Vec, ∀ d' κ (l' : List Particle), Kicked t d d' κ → l'.map calm = l.map calm →
      ∃ T', recompute env t d' r l' = .ok T' ∧ T'.length = T.length ∧
        ∀ i M, T[i]? = some M → T'[i]? = some (M + bump (N i κ)) ∧ N i κ 6 = 0 := by
  have hsame : ∀ (d' : MDat) (l' : List Particle), l'.map calm = l.map calm → recompute env t d' r l' = recompute env t d' r l := by
    intro d' l' hl
    rw [← recompute_calm, hl, recompute_calm]
  by_cases ht : t = .orbtrim
  · subst ht
    obtain ⟨N, hN⟩ := orbtrim_kick (show orbtrimRec d r l = .ok T from h)
    refine ⟨N, fun d' κ l' hK hl => ?_⟩
    rw [hsame d' l' hl]
    exact hN d' κ hK
  · refine ⟨fun _ => 0, fun d' κ l' hK hl => ⟨T, ?_, rfl, fun i M hM => ⟨?_, rfl⟩⟩⟩
    · rw [hsame d' l' hl, hK.1 ht]
      exact h
    · rw [hM]
      congr 1
      ext a b
      simp [bump]

/-! ## one element -/

/-- The second beam is the first one with displaced centroids, and under condition `ex` with the same phases. -/
structure Disp (ex : Prop) (S S' : MSt) (D : ℕ → Vec) : Prop where
  pos : S'.pos = S.pos
  ref : S'.ref = S.ref
  phi : S'.last_caviphi0 = S.last_caviphi0
  real : S'.real.map calm = S.real.map calm
  exact : ex → S'.real = S.real
  m1 : S'.moment1 = S.moment1
  len : S'.moment0.length = S.moment0.length
  m0 : ∀ (i : ℕ) (v : Vec), S.moment0[i]? = some v → S'.moment0[i]? = some (v + D i) ∧ D i 6 = 0

/-- How matrices and kicks change the displacement. -/
noncomputable def stepMap (T : List Mat) (N : ℕ → ℝ × ℝ →ₗ[ℝ] Vec) : (ℝ × ℝ) × (ℕ → Vec) →ₗ[ℝ] (ℕ → Vec) :=
  LinearMap.pi fun i => (Matrix.mulVecLin (T[i]?.getD 0)).comp ((LinearMap.proj i).comp (LinearMap.snd ℝ _ _)) +
    (N i).comp (LinearMap.fst ℝ _ _)

theorem stepMap_at {T : List Mat} {N : ℕ → ℝ × ℝ →ₗ[ℝ] Vec} {i : ℕ} {M : Mat} (h : T[i]? = some M) (κ : ℝ × ℝ) (D : ℕ → Vec) :
    stepMap T N (κ, D) i = M.mulVec (D i) + N i κ := by
  simp [stepMap, h]

theorem zipWith_congr_kick {T T' : List Mat} {N : ℕ → Vec} {l : List Mat} (hl : T'.length = T.length)
    (hT : ∀ (i : ℕ) M, T[i]? = some M → T'[i]? = some (M + bump (N i))) (h : ∀ C ∈ l, Flat C) :
    List.zipWith Moment.congr T' l = List.zipWith Moment.congr T l := by
  apply List.ext_getElem?
  intro i
  rw [List.getElem?_zipWith, List.getElem?_zipWith]
  cases hM : T[i]? with
  | none =>
    rw [List.getElem?_eq_none_iff] at hM
    rw [List.getElem?_eq_none (by omega)]
  | some M =>
    rw [hT i M hM]
    cases hC : l[i]? with
    | none => rfl
    | some C =>
      simp only [congr_bump M (N i) (h C (List.mem_of_getElem? hC))]

theorem centroid_kick {T T' : List Mat} {N : ℕ → ℝ × ℝ →ₗ[ℝ] Vec} {l l' : List Vec} {κ : ℝ × ℝ} {D : ℕ → Vec}
    (hk : ∀ M ∈ T, Keeps7 M) (hT : ∀ (i : ℕ) M, T[i]? = some M → T'[i]? = some (M + bump (N i κ)) ∧ N i κ 6 = 0)
    (h : ∀ v ∈ l, v 6 = 1) (hm : ∀ (i : ℕ) (v : Vec), l[i]? = some v → l'[i]? = some (v + D i) ∧ D i 6 = 0) :
    ∀ (i : ℕ) (w : Vec), (List.zipWith (fun M v => M.mulVec v) T l)[i]? = some w →
      (List.zipWith (fun M v => M.mulVec v) T' l')[i]? = some (w + stepMap T N (κ, D) i) ∧ stepMap T N (κ, D) i 6 = 0 := by
  intro i w hw
  rw [List.getElem?_zipWith] at hw ⊢
  cases hM : T[i]? with
  | none => rw [hM] at hw; cases hw
  | some M =>
    cases hv : l[i]? with
    | none => rw [hM, hv] at hw; cases hw
    | some v =>
      rw [hM, hv] at hw
      cases hw
      obtain ⟨t1, t2⟩ := hT i M hM
      obtain ⟨m1, m2⟩ := hm i v hv
      have hv6 := h v (List.mem_of_getElem? hv)
      rw [t1, m1, stepMap_at hM]
      constructor
      · dsimp only
        rw [Matrix.add_mulVec, bump_mulVec, Matrix.mulVec_add, Pi.add_apply, hv6, m2, add_zero, one_smul, add_assoc]
      · rw [Pi.add_apply, mulVec_six (hk M (List.mem_of_getElem? hM)), m2, t2, add_zero]

theorem calm_map {l l' : List Particle} {f : Particle → Particle} (h : l'.map calm = l.map calm)
    (hf : ∀ p, calm (f p) = calm (f (calm p))) : (l'.map f).map calm = (l.map f).map calm := by
  have : ∀ k : List Particle, (k.map f).map calm = (k.map calm).map (fun p => calm (f p)) := by
    intro k
    rw [List.map_map, List.map_map]
    exact List.map_congr_left fun p _ => hf p
  rw [this, this, h]

theorem Disp.recalc {ex : Prop} {S S' : MSt} {D : ℕ → Vec} (h : Disp ex S S' D) : Disp ex S.recalc S'.recalc D :=
  ⟨h.pos, congrArg Particle.recalc h.ref, h.phi, calm_map h.real (fun _ => rfl), fun e => congrArg (List.map Particle.recalc) (h.exact e),
    h.m1, h.len, h.m0⟩

theorem Disp.length {ex : Prop} {S S' : MSt} {D : ℕ → Vec} (h : Disp ex S S' D) : S'.real.length = S.real.length := by
  have := congrArg List.length h.real
  simpa using this

/-- What is known of the first beam before each element. -/
def KnownBeam (S : MSt) : Prop := Spec.Complete S ∧ Homogeneous S.moment0 S.moment1

theorem KnownBeam.recalc {S : MSt} (h : KnownBeam S) : KnownBeam S.recalc :=
  ⟨⟨by simpa [MSt.recalc] using h.1.moment0, by simpa [MSt.recalc] using h.1.moment1, by simpa [MSt.recalc] using h.1.transmat⟩, h.2⟩

theorem bendPhis_calm (b : Bool) (L : ℝ) : ∀ (l : List Particle) (v w : List Vec),
    (bendPhis b L l v w).map calm = l.map calm
  | [], _, _ => by simp [bendPhis]
  | p :: l, [], _ => by simp [bendPhis]
  | p :: l, a :: v, [] => by simp [bendPhis]
  | p :: l, a :: v, c :: w => by
    simp only [bendPhis, List.map_cons, bendPhis_calm b L l v w]
    rfl

theorem base_response {env : Env} {t : MType} {d : MDat} {s : St MSt} {ex ex' : Prop} (h0 : d.refIn = none) (hr : s.retreat = false)
    (ht : t = .tmatrix → AffineMatrix d.conf) (hP : KnownBeam s.payload) (hx : ex' → ex)
    (hok : (advanceBase (recompute env t) d s).2.2 = none) :
    ∃ ρ : (ℝ × ℝ) × (ℕ → Vec) →ₗ[ℝ] (ℕ → Vec), ∀ d' (s' : St MSt) κ D, Kicked t d d' κ → s'.retreat = false →
      Disp ex s.payload s'.payload D → (advanceBase (recompute env t) d' s').2.2 = none ∧
        Disp ex' (advanceBase (recompute env t) d s).2.1.payload (advanceBase (recompute env t) d' s').2.1.payload (ρ (κ, D)) := by
  have e1 := advanceBase_first (fun d a b c e f => recompute_cached env t d a b c e f) h0 hr
  rw [hok] at e1
  have hK := hP.recalc
  cases hT : recompute env t d s.payload.recalc.ref s.payload.recalc.real with
  | error e => rw [hT] at e1; cases congrArg Prod.fst e1
  | ok T =>
    obtain ⟨N, hN⟩ := recompute_kick hT
    refine ⟨stepMap T N, fun d' s' κ D hKd hr' hD => ?_⟩
    have h0' : d'.refIn = none ∧ d'.length = d.length := by
      by_cases ho : t = .orbtrim
      · obtain ⟨-, k1, k2, -⟩ := hKd.2 ho
        exact ⟨k1.trans h0, k2⟩
      · rw [hKd.1 ho]
        exact ⟨h0, rfl⟩
    have e2 := advanceBase_first (s := s') (fun d a b c e f => recompute_cached env t d a b c e f) h0'.1 hr'
    have hD2 := hD.recalc
    obtain ⟨T', hT', hl, hNi⟩ := hN d' κ s'.payload.recalc.real hKd hD2.real
    have hkeep : ∀ M ∈ T, Keeps7 M := (keeps_gives env t d.conf ht).1 d _ _ _ rfl hT
    generalize s.payload.recalc = S at *
    generalize s'.payload.recalc = S' at *
    rw [hT] at e1
    rw [hD2.ref, hT', h0'.2] at e2
    have e3 := congrArg Prod.snd e1
    have e4 := congrArg Prod.snd e2
    dsimp only at e3 e4
    rw [e3, e4]
    refine ⟨congrArg Prod.fst e2, ?_⟩
    constructor
    · show S'.pos + _ = S.pos + _
      rw [hD2.pos]
    · rfl
    · exact hD2.phi
    · exact calm_map hD2.real (fun p => rfl)
    · intro h
      show S'.real.map _ = S.real.map _
      rw [hD2.exact (hx h)]
    · show List.zipWith Moment.congr T' S'.moment1 = List.zipWith Moment.congr T S.moment1
      rw [hD2.m1]
      exact zipWith_congr_kick hl (fun i M h => (hNi i M h).1) hK.2.2
    · show (List.zipWith _ T' S'.moment0).length = (List.zipWith _ T S.moment0).length
      simp [hl, hD2.len]
    · exact centroid_kick hkeep hNi hK.2.1 hD2.m0

theorem bend_response {env : Env} {d : MDat} {s : St MSt} {ex ex' : Prop} (h0 : d.refIn = none) (hr : s.retreat = false)
    (hP : KnownBeam s.payload) (hx : ¬ ex') (hok : (advanceBend (recompute env .sbend) d s).2.2 = none) :
    ∃ ρ : (ℝ × ℝ) × (ℕ → Vec) →ₗ[ℝ] (ℕ → Vec), ∀ (s' : St MSt) κ D, s'.retreat = false →
      Disp ex s.payload s'.payload D → (advanceBend (recompute env .sbend) d s').2.2 = none ∧
        Disp ex' (advanceBend (recompute env .sbend) d s).2.1.payload (advanceBend (recompute env .sbend) d s').2.1.payload (ρ (κ, D)) := by
  have e1 := advanceBend_first (fun d a b c e f => recompute_cached env .sbend d a b c e f) h0 hr
  rw [hok] at e1
  have hK := hP.recalc
  cases hT : recompute env .sbend d s.payload.recalc.ref s.payload.recalc.real with
  | error e => rw [hT] at e1; cases congrArg Prod.fst e1
  | ok T =>
    obtain ⟨N, hN⟩ := recompute_kick hT
    refine ⟨stepMap T N, fun s' κ D hr' hD => ?_⟩
    have e2 := advanceBend_first (s := s') (fun d a b c e f => recompute_cached env .sbend d a b c e f) h0 hr'
    have hD2 := hD.recalc
    obtain ⟨T', hT', hl, hNi⟩ := hN d κ s'.payload.recalc.real ⟨fun _ => rfl, by simp⟩ hD2.real
    have hkeep : ∀ M ∈ T, Keeps7 M := (keeps_gives env .sbend d.conf (by simp)).1 d _ _ _ rfl hT
    generalize s.payload.recalc = S at *
    generalize s'.payload.recalc = S' at *
    rw [hT] at e1
    rw [hD2.ref, hT'] at e2
    have e3 := congrArg Prod.snd e1
    have e4 := congrArg Prod.snd e2
    dsimp only at e3 e4
    rw [e3, e4]
    refine ⟨congrArg Prod.fst e2, ?_⟩
    constructor
    · show S'.pos + _ = S.pos + _
      rw [hD2.pos]
    · rfl
    · exact hD2.phi
    · show (bendPhis _ _ _ _ _).map calm = (bendPhis _ _ _ _ _).map calm
      rw [bendPhis_calm, bendPhis_calm]
      exact calm_map hD2.real (fun p => rfl)
    · intro h
      exact absurd h hx
    · show List.zipWith Moment.congr T' S'.moment1 = List.zipWith Moment.congr T S.moment1
      rw [hD2.m1]
      exact zipWith_congr_kick hl (fun i M h => (hNi i M h).1) hK.2.2
    · show (List.zipWith _ T' S'.moment0).length = (List.zipWith _ T S.moment0).length
      simp [hl, hD2.len]
    · exact centroid_kick hkeep hNi hK.2.1 hD2.m0

/-! ## cavities -/

/-- Coordinates 4 and 5 removed: behind a cavity they are those of the particle. -/
def drop45 : Mat := Matrix.of fun a b => if a = b ∧ a ≠ 4 ∧ a ≠ 5 then 1 else 0

/-- What a cavity does to a displacement. -/
def cavDisp (T : Mat) (mis : Mat × Mat) : Mat := mis.2 * (drop45 * (setAt (setAt T 4 6 0) 5 6 0 * mis.1))

theorem drop45_mulVec (v : Vec) (i : Fin 7) : drop45.mulVec v i = if i = 4 ∨ i = 5 then 0 else v i := by
  fin_cases i <;> simp [drop45, Matrix.mulVec, dotProduct]

theorem cavOne_disp (cav : Cav) (ref : Particle) (T : Mat) (mis : Mat × Mat) (p pin pout : Particle) (v D : Vec) {C : Mat}
    (he : cav.emitGrowth = 0) (h1 : Keeps7 mis.1) (hC : Flat C) :
    (cavOne cav ref T mis p pin pout (v + D) C).2.1 = (cavOne cav ref T mis p pin pout v C).2.1 + (cavDisp T mis).mulVec D ∧
    (cavOne cav ref T mis p pin pout (v + D) C).2.2.1 = (cavOne cav ref T mis p pin pout v C).2.2.1 := by
  constructor
  · simp only [cavOne, cavDisp, ← Matrix.mulVec_mulVec, ← Matrix.mulVec_add]
    congr 1
    ext i
    simp only [Pi.add_apply, drop45_mulVec, Matrix.mulVec_add]
    by_cases h4 : i = 4
    · simp [h4]
    · by_cases h5 : i = 5
      · simp [h5]
      · simp [h4, h5]
  · simp only [cavOne, if_neg (not_not.2 he)]
    congr 1
    have hset : ∀ (A : Mat) (a b a' b' : ℝ), setAt (setAt A 4 6 a') 5 6 b' =
        setAt (setAt A 4 6 a) 5 6 b + bump (fun i => if i = 4 then a' - a else if i = 5 then b' - b else 0) := by
      intro A a b a' b'
      ext i j
      fin_cases i <;> fin_cases j <;> simp [setAt, bump]
    rw [hset _ (-((setAt (setAt T 4 6 0) 5 6 0).mulVec (mis.1.mulVec v) 4) + (p.phis - ref.phis))
      (-((setAt (setAt T 4 6 0) 5 6 0).mulVec (mis.1.mulVec v) 5) + (p.IonEk - ref.IonEk) / MeVtoeV)]
    exact congr_bump _ _ (keeps_carried.mat h1 hC)

theorem cavDisp_keeps {T : Mat} {mis : Mat × Mat} (hT : Keeps7 T) (h1 : Keeps7 mis.1) (h2 : Keeps7 mis.2) : Keeps7 (cavDisp T mis) := by
  refine Keeps7.mul h2 (Keeps7.mul ?_ (Keeps7.mul ?_ h1))
  · intro j
    fin_cases j <;> simp [drop45]
  · exact keeps_carried.cell (by decide) (keeps_carried.cell (by decide) hT)

/-- The first pass through a cavity whose matrices can be computed. -/
theorem advanceCavity_first {env : Env} {files : Files} {d : MDat} {cav : Cav} {s : St MSt} {ref : Particle} {phi : ℝ}
    {l : List (Particle × Mat)} {mis : List (Mat × Mat)} (hcav : d.cav = some cav)
    (h0 : d.refIn = none) (ht : getStr d.conf "cavtype" = .ok cav.cavType)
    (hg : cav.cavType = "Generic" → ∃ f, getStr d.conf "datafile" = .ok f ∧
      cav.dataFile = getStrD d.conf "Eng_Data_Dir" "." ++ "/" ++ f)
    (hr : s.retreat = false)
    (hrec : recomputeCav d.conf { cav with misalign := resizeMis s.payload.recalc.real.length cav.misalign }
      s.payload.recalc.ref s.payload.recalc.real = .ok (ref, phi, l))
    (hmis : forEach (fun p => getMisalign d ref p) (l.map (fun q => q.1)) = .ok mis) :
    ((advanceCavity env files d s).2.2, (advanceCavity env files d s).2.1.payload) =
      (cavFault env { cav with phiRef := some phi, misalign := mis }
        (filledDat d s.payload.recalc { cav with phiRef := some phi, misalign := mis } ref l) (filledSt s.payload.recalc ref l),
       (cavForward env { cav with phiRef := some phi, misalign := mis }
        (filledDat d s.payload.recalc { cav with phiRef := some phi, misalign := mis } ref l) (filledSt s.payload.recalc ref l)).2) := by
  unfold advanceCavity
  simp only [hcav, hr, Bool.false_eq_true, if_false, if_neg (miss _ h0)]
  generalize s.payload.recalc = S at *
  rw [reload_same ht hg]
  dsimp only
  rw [hrec]
  dsimp only
  have hm2 : getMisalign { d with
      refIn := some S.ref, realIn := S.real, transfer := resize S.real.length d.transfer
      cav := some { cav with misalign := resizeMis S.real.length cav.misalign } } = getMisalign d :=
    getMisalign_congr rfl rfl rfl rfl rfl rfl
  rw [hm2, hmis]
  rfl

theorem loops_disp {rs rs' : List (Mat × Vec × Mat × Mat)} {X : ℕ → Vec} (hl : rs'.length = rs.length)
    (h : ∀ (i : ℕ) r, rs[i]? = some r → ∃ r', rs'[i]? = some r' ∧ r'.2.1 = r.2.1 + X i ∧ X i 6 = 0 ∧ r'.2.2.1 = r.2.2.1) :
    rs'.map (fun q => q.2.2.1) = rs.map (fun q => q.2.2.1) ∧
    (rs'.map (fun q => q.2.1)).length = (rs.map (fun q => q.2.1)).length ∧
    ∀ (i : ℕ) (v : Vec), (rs.map (fun q => q.2.1))[i]? = some v → (rs'.map (fun q => q.2.1))[i]? = some (v + X i) ∧ X i 6 = 0 := by
  refine ⟨?_, by simpa using hl, ?_⟩
  · apply List.ext_getElem?
    intro i
    rw [List.getElem?_map, List.getElem?_map]
    cases hr : rs[i]? with
    | none =>
      rw [List.getElem?_eq_none_iff] at hr
      rw [List.getElem?_eq_none (by omega)]
    | some r =>
      obtain ⟨r', h1, -, -, h2⟩ := h i r hr
      rw [h1, Option.map_some, Option.map_some, h2]
  · intro i v hv
    rw [List.getElem?_map] at hv ⊢
    cases hr : rs[i]? with
    | none => rw [hr] at hv; cases hv
    | some r =>
      rw [hr] at hv
      cases hv
      obtain ⟨r', h1, h2, h3, -⟩ := h i r hr
      rw [h1, Option.map_some, h2]
      exact ⟨rfl, h3⟩

theorem cavity_response {env : Env} {files : Files} {d : MDat} {cav : Cav} {s : St MSt} {ex ex' : Prop} (hcav : d.cav = some cav)
    (h0 : d.refIn = none) (ht : getStr d.conf "cavtype" = .ok cav.cavType)
    (hg : cav.cavType = "Generic" → ∃ f, getStr d.conf "datafile" = .ok f ∧
      cav.dataFile = getStrD d.conf "Eng_Data_Dir" "." ++ "/" ++ f)
    (he : cav.emitGrowth = 0) (hr : s.retreat = false) (hP : KnownBeam s.payload) (hx : ex)
    (hok : (advanceCavity env files d s).2.2 = none) :
    ∃ ρ : (ℝ × ℝ) × (ℕ → Vec) →ₗ[ℝ] (ℕ → Vec), ∀ (s' : St MSt) κ D, s'.retreat = false →
      Disp ex s.payload s'.payload D → (advanceCavity env files d s').2.2 = none ∧
        Disp ex' (advanceCavity env files d s).2.1.payload (advanceCavity env files d s').2.1.payload (ρ (κ, D)) := by
  obtain ⟨cav0, hc0, ⟨hh, -⟩ | ⟨-, cav1, ref, phi, l, mis, hre, hrec, hmis, -⟩⟩ := forward_cases hr
    (Prod.ext rfl (Prod.ext rfl hok) : advanceCavity env files d s =
      ((advanceCavity env files d s).1, (advanceCavity env files d s).2.1, none))
  · exact absurd hh (miss _ h0)
  rw [hcav] at hc0
  cases hc0
  rw [reload_same ht hg] at hre
  cases hre
  have hK := hP.recalc
  have hl := recomputeCav_length hrec
  have hlm := forEach_length hmis
  rw [List.length_map, hl] at hlm
  have hTk := recomputeCav_keeps hrec
  have hMk : ∀ m ∈ mis, Keeps7 m.1 ∧ Keeps7 m.2 := fun m hm => by
    obtain ⟨p, -, hp⟩ := forEach_all hmis m hm
    exact keeps_nice.misalign hp
  have e1 := advanceCavity_first (env := env) (files := files) (s := s) hcav h0 ht hg hr hrec hmis
  refine ⟨stepMap (List.zipWith cavDisp (l.map (fun q => q.2)) mis) (fun _ => 0), fun s' κ D hr' hD => ?_⟩
  have hD2 := hD.recalc
  have e2 := advanceCavity_first (env := env) (files := files) (s := s') hcav h0 ht hg hr'
    (by rw [hD2.exact hx, hD2.ref]; exact hrec) hmis
  generalize s.payload.recalc = S at *
  generalize s'.payload.recalc = S' at *
  have he' : ({ cav with phiRef := some phi, misalign := mis } : Cav).emitGrowth = 0 := he
  rw [cavFault_off he'] at e1 e2
  have e3 := congrArg Prod.snd e1
  have e4 := congrArg Prod.snd e2
  dsimp only at e3 e4
  rw [e3, e4]
  refine ⟨congrArg Prod.fst e2, ?_⟩
  have hS' : (filledSt S' ref l).real = (filledSt S ref l).real := rfl
  have hl0 : (cavLoop { cav with phiRef := some phi, misalign := mis } (filledSt S ref l).ref (l.map (fun q => q.2)) mis
      (filledSt S ref l).real (ends env (filledDat d S { cav with phiRef := some phi, misalign := mis } ref l)) S.moment0 S.moment1).length =
      S.real.length := by
    rw [cavLoop_eq]
    simp [filledSt, MSt.recalc, ends, filledDat, hl, hlm, hK.1.moment0, hK.1.moment1]
  have hl1 : (cavLoop { cav with phiRef := some phi, misalign := mis } (filledSt S ref l).ref (l.map (fun q => q.2)) mis
      (filledSt S ref l).real (ends env (filledDat d S { cav with phiRef := some phi, misalign := mis } ref l)) S'.moment0 S.moment1).length =
      S.real.length := by
    rw [cavLoop_eq]
    simp [filledSt, MSt.recalc, ends, filledDat, hl, hlm, hD2.len, hK.1.moment0, hK.1.moment1]
  have hends : ends env (filledDat d S' { cav with phiRef := some phi, misalign := mis } ref l) =
      ends env (filledDat d S { cav with phiRef := some phi, misalign := mis } ref l) := by
    unfold ends filledDat
    rw [hD2.exact hx]
  have key : ∀ (i : ℕ) r, (cavLoop { cav with phiRef := some phi, misalign := mis } (filledSt S ref l).ref (l.map (fun q => q.2)) mis
      (filledSt S ref l).real (ends env (filledDat d S { cav with phiRef := some phi, misalign := mis } ref l)) S.moment0 S.moment1)[i]? = some r →
      ∃ r', (cavLoop { cav with phiRef := some phi, misalign := mis } (filledSt S ref l).ref (l.map (fun q => q.2)) mis
        (filledSt S ref l).real (ends env (filledDat d S { cav with phiRef := some phi, misalign := mis } ref l)) S'.moment0 S.moment1)[i]? = some r' ∧
      r'.2.1 = r.2.1 + stepMap (List.zipWith cavDisp (l.map (fun q => q.2)) mis) (fun _ => 0) (κ, D) i ∧
      stepMap (List.zipWith cavDisp (l.map (fun q => q.2)) mis) (fun _ => 0) (κ, D) i 6 = 0 ∧ r'.2.2.1 = r.2.2.1 := by
    intro i r hri
    have hi := lt_of_get hri
    have hri' := List.getElem?_eq_getElem (l := cavLoop { cav with phiRef := some phi, misalign := mis } (filledSt S ref l).ref (l.map (fun q => q.2)) mis
        (filledSt S ref l).real (ends env (filledDat d S { cav with phiRef := some phi, misalign := mis } ref l)) S'.moment0 S.moment1) (i := i) (by omega)
    refine ⟨_, hri', ?_⟩
    obtain ⟨T, m, p, e, v, C, a1, a2, a3, a4, a5, a6, a7⟩ := cavLoop_get hri
    obtain ⟨T', m', p', e', v', C', b1, b2, b3, b4, b5, b6, b7⟩ := cavLoop_get hri'
    obtain ⟨m1, m2⟩ := hD2.m0 i v a5
    rw [a1] at b1; rw [a2] at b2; rw [a3] at b3; rw [a4] at b4; rw [m1] at b5; rw [a6] at b6
    cases b1; cases b2; cases b3; cases b4; cases b5; cases b6
    rw [b7, a7]
    have hTT : Keeps7 T := by
      obtain ⟨q, hq, rfl⟩ := List.mem_map.1 (List.mem_of_getElem? a1)
      exact hTk q hq
    have hmm := hMk m (List.mem_of_getElem? a2)
    have hz : (List.zipWith cavDisp (l.map (fun q => q.2)) mis)[i]? = some (cavDisp T m) := by
      rw [List.getElem?_zipWith, a1, a2]
    obtain ⟨c1, c2⟩ := cavOne_disp { cav with phiRef := some phi, misalign := mis } (filledSt S ref l).ref T m p e.1 e.2 v (D i) he hmm.1
      (hK.2.2 C (List.mem_of_getElem? a6))
    rw [stepMap_at hz]
    refine ⟨?_, ?_, c2⟩
    · rw [c1]
      simp
    · rw [Pi.add_apply, mulVec_six (cavDisp_keeps hTT hmm.1 hmm.2), m2]
      simp
  obtain ⟨z1, z2, z3⟩ := loops_disp (hl1.trans hl0.symm) key
  constructor
  · show S'.pos + _ = S.pos + _
    rw [hD2.pos]
    rfl
  · rfl
  · rfl
  · rfl
  · intro _
    rfl
  · show (cavLoop _ _ _ _ _ _ S'.moment0 S'.moment1).map (fun q => q.2.2.1) = (cavLoop _ _ _ _ _ _ S.moment0 S.moment1).map (fun q => q.2.2.1)
    rw [hends, hD2.m1]
    exact z1
  · show ((cavLoop _ _ _ _ _ _ S'.moment0 S'.moment1).map (fun q => q.2.1)).length = ((cavLoop _ _ _ _ _ _ S.moment0 S.moment1).map (fun q => q.2.1)).length
    rw [hends, hD2.m1]
    exact z2
  · show ∀ (i : ℕ) (v : Vec), ((cavLoop _ _ _ _ _ _ S.moment0 S.moment1).map (fun q => q.2.1))[i]? = some v →
      ((cavLoop _ _ _ _ _ _ S'.moment0 S'.moment1).map (fun q => q.2.1))[i]? = some (v + _) ∧ _
    rw [hends, hD2.m1]
    exact z3

/-! ## C94 -/

theorem forall₂_calm {l l' : List Particle} (h : l'.map calm = l.map calm) : List.Forall₂ Spec.SameButPhase l l' := by
  rw [List.forall₂_iff_get]
  have hlen : l'.length = l.length := by simpa using congrArg List.length h
  refine ⟨hlen.symm, fun i h1 h2 => ?_⟩
  have := congrArg (fun k => k[i]?) h
  simp only [List.getElem?_map, List.getElem?_eq_getElem h1, List.getElem?_eq_getElem h2, Option.map_some, Option.some.injEq] at this
  simp only [List.get_eq_getElem]
  generalize l[i] = p at this
  generalize l'[i] = q at this
  cases p
  cases q
  simp only [calm, Particle.mk.injEq] at this
  simp only [Spec.SameButPhase]
  tauto

theorem calm_of_forall₂ {l l' : List Particle} (h : List.Forall₂ Spec.SameButPhase l l') : l'.map calm = l.map calm := by
  induction h with
  | nil => rfl
  | @cons p q _ _ hpq _ ih =>
    rw [List.map_cons, List.map_cons, ih]
    congr 1
    cases p
    cases q
    simp only [Spec.SameButPhase] at hpq
    simp only [calm, Particle.mk.injEq]
    tauto

theorem displaced_disp {ex : Prop} {S S' : MSt} {D : ℕ → Vec} (h : Disp ex S S' D) : Spec.Displaced S S' D where
  pos := h.pos
  ref := h.ref
  last_caviphi0 := h.phi
  real := forall₂_calm h.real
  moment1 := h.m1
  count := h.len
  moment0 := fun i v hv => (h.m0 i v hv).1
  seventh := fun i hi => (h.m0 i _ (List.getElem?_eq_getElem hi)).2

theorem cls_inj {env : Env} {junk : Mat} {base : Nat} {t t' : MType} (h : cls env junk base t = cls env junk base t') : t = t' := by
  have := congrArg Cls.id h
  simp only [cls, Nat.add_left_cancel_iff] at this
  revert this
  cases t <;> cases t' <;> decide

theorem cls_ne_cavity {env : Env} {files : Files} {junk : Mat} {base : Nat} (t : MType) :
    cls env junk base t ≠ cavityCls env files junk base := by
  intro h
  have := congrArg Cls.id h
  simp only [cls, cavityCls, Nat.add_left_cancel_iff] at this
  revert this
  cases t <;> decide

theorem cls_ne_stripper {env : Env} {junk : Mat} {base : Nat} (t : MType) :
    cls env junk base t ≠ stripperCls env junk base := by
  intro h
  have := congrArg Cls.id h
  simp only [cls, stripperCls, Nat.add_left_cancel_iff] at this
  revert this
  cases t <;> decide

theorem name_inj {t t' : MType} (h : t.name = t'.name) : t = t' := by
  revert h
  cases t <;> cases t' <;> decide

theorem name_orbtrim {t : MType} (h : t.name = "orbtrim") : t = .orbtrim := name_inj (t' := .orbtrim) h

theorem name_ne (t : MType) : t.name ≠ "rfcavity" ∧ t.name ≠ "stripper" := by
  cases t <;> decide

theorem orbtrim_case {env : Env} {files : Files} {junk : Mat} {base : Nat} {ec : LCfg} {e : Elem LCfg MDat MSt}
    (h : (∃ t : MType, e.cls = cls env junk base t ∧ t.name = "orbtrim" ∧ build env junk t ec = .ok e.dat) ∨
       (e.cls = cavityCls env files junk base ∧ "orbtrim" = "rfcavity" ∧ (cavityCls env files junk base).build ec = .ok e.dat) ∨
       (e.cls = stripperCls env junk base ∧ "orbtrim" = "stripper" ∧ (stripperCls env junk base).build ec = .ok e.dat)) :
    ∃ t : MType, e.cls = cls env junk base t ∧ t.name = "orbtrim" ∧ build env junk t ec = .ok e.dat := by
  rcases h with h | ⟨-, h, -⟩ | ⟨-, h, -⟩
  · exact h
  · exact absurd h (by decide)
  · exact absurd h (by decide)

theorem built_steered {env : Env} {junk : Mat} {c c' : LCfg} {d d' : MDat} {κ : ℝ × ℝ} (h : build env junk .orbtrim c = .ok d)
    (h' : build env junk .orbtrim c' = .ok d') (hs : Spec.Steered c c' κ) :
    Spec.Steered d.conf d'.conf κ ∧ d'.refIn = d.refIn ∧ d'.length = d.length ∧ getMisalign d' = getMisalign d := by
  have hnum : ∀ k, k ∉ ["theta_x", "theta_y", "tm_xkick", "tm_ykick"] → getNumD c' k 0 = getNumD c k 0 := by
    intro k hk
    rw [numOr_getNumD, numOr_getNumD]
    unfold numOr
    rw [hs.rest k hk]
  cases h
  cases h'
  refine ⟨hs, rfl, rfl, getMisalign_congr rfl ?_ ?_ ?_ ?_ ?_⟩
  · exact congrArg (· * MtoMM) (hnum "dx" (by decide))
  · exact congrArg (· * MtoMM) (hnum "dy" (by decide))
  · exact hnum "pitch" (by decide)
  · exact hnum "yaw" (by decide)
  · exact hnum "roll" (by decide)

/-- C94: a machine is built from a lattice `c`, and a beam is sent forward without exception through `n` elements from `start` on:
no sources, strippers or sextupoles, no cavity with growth of the emittance, no cavity behind a bend.  Then there is a linear map
`ρ`, the response, with the following property.  Take any lattice that differs from `c` only in the strengths of the correctors of
the range, by `κ`, and any beam that differs from the given one only in the centroids, by `D`.  The simulation of that beam in
that lattice ends without exception as well, and its beam differs only in the centroids, by `ρ (κ, D)`; only the phases of the
charge states may differ, and they do not if there is no bend in the range. -/
theorem C94_response {env : Env} {files : Files} {junk : Mat} {base : Nat} (cv : CView LCfg) (c : LCfg)
    (m : Machine LCfg MDat MSt)
    (h : Machine.new cv (registry env junk base (cavityCls env files junk base) (stripperCls env junk base)) c = .ok m)
    (es : List LCfg) (hes : cv.elems c = .ok es) (hl : es.length < sizeMod) (start n : Nat) (hn : start + n ≤ es.length)
    (hu : ∀ j ec ty, start ≤ j → j < start + n → es[j]? = some ec → cv.str ec "type" = .ok ty → Spec.Linear env ty ec)
    (hbend : ∀ j k ej ek, start ≤ j → j < k → k < start + n → es[j]? = some ej → es[k]? = some ek →
      cv.str ej "type" = .ok "sbend" → cv.str ek "type" ≠ .ok "rfcavity")
    (s : St MSt) (hc : Spec.Complete s.payload) (hh : Homogeneous s.payload.moment0 s.payload.moment1) :
    ∃ A, propagate m.elems s start n = some A ∧ (A.err = none →
      ∃ ρ : (ℕ → ℝ × ℝ) × (ℕ → Fin 7 → ℝ) →ₗ[ℝ] (ℕ → Fin 7 → ℝ),
        ∀ (c' : LCfg) (m' : Machine LCfg MDat MSt) (es' : List LCfg) (κ : ℕ → ℝ × ℝ) (s' : St MSt) (D : ℕ → Fin 7 → ℝ),
          Machine.new cv (registry env junk base (cavityCls env files junk base) (stripperCls env junk base)) c' = .ok m' →
          cv.elems c' = .ok es' →
          Spec.SteeredLattice (fun ec t => cv.str ec "type" = .ok t) start n es es' κ →
          Spec.Displaced s.payload s'.payload D → s'.payload.real = s.payload.real →
          ∃ B, propagate m'.elems s' start n = some B ∧ B.err = none ∧
            Spec.Displaced A.st.payload B.st.payload (ρ (κ, D)) ∧
            ((∀ j ec, start ≤ j → j < start + n → es[j]? = some ec → cv.str ec "type" ≠ .ok "sbend") →
              B.st.payload.real = A.st.payload.real)) := by
  have hF := machine_moment h hes
  have hlen := hF.length_eq
  have hall := fun j e (hj : m.elems[j]? = some e) => forall₂_get hF hj
  let ex : Nat → Prop := fun j => ∀ k ec, start ≤ k → k < j → es[k]? = some ec → cv.str ec "type" ≠ .ok "sbend"
  let E : Nat → Elem LCfg MDat MSt → Prop := fun j e => start ≤ j ∧ j < start + n ∧ m.elems[j]? = some e
  let F : Nat → Elem LCfg MDat MSt → Elem LCfg MDat MSt → ℝ × ℝ → Prop := fun j e e' κ =>
    E j e ∧ e'.cls = e.cls ∧ (∀ t, e.cls = cls env junk base t → Kicked t e.dat e'.dat κ) ∧
      (e.cls = cavityCls env files junk base → e'.dat = e.dat)
  have hk : ∀ j e, E j e → Keeps e.cls := by
    rintro j e ⟨h1, h1', h2⟩
    obtain ⟨ec, hec, ty, hty, ⟨t, ht, htn, hb⟩ | ⟨ht, -, hb⟩ | ⟨ht, -, hb⟩⟩ := hall j e h2
    · rw [ht]
      refine (measured_cls env junk base t ?_).1
      rintro rfl
      exact (hu j ec ty h1 h1' hec hty).kinds.1 (by rw [← htn]; rfl)
    · rw [ht]
      exact (measured_cavity env files junk base _ _ hb).2.1
    · rw [ht]
      exact (measured_stripper env junk base _ _ hb).2.1
  have hk' : ∀ j e e' κ, F j e e' κ → Keeps e'.cls := by
    rintro j e e' κ ⟨h1, h2, -⟩
    rw [h2]
    exact hk j e h1
  have hstep : ∀ j e (s : St MSt), E j e → s.retreat = false → KnownBeam s.payload → (e.cls.advance e.dat s).2.2 = none →
      KnownBeam (e.cls.advance e.dat s).2.1.payload ∧ ∃ ρ : (ℝ × ℝ) × (ℕ → Vec) →ₗ[ℝ] (ℕ → Vec), ∀ e' (s' : St MSt) κ D,
        F j e e' κ → s'.retreat = false → Disp (ex j) s.payload s'.payload D → (e'.cls.advance e'.dat s').2.2 = none ∧
          Disp (ex (j + 1)) (e.cls.advance e.dat s).2.1.payload (e'.cls.advance e'.dat s').2.1.payload (ρ (κ, D)) := by
    rintro j e s ⟨h1, h1', h2⟩ hr hP hok
    have hexj : ex (j + 1) → ex j := fun h k ec a b => h k ec a (by omega)
    obtain ⟨ec, hec, ty, hty, ⟨t, ht, rfl, hb⟩ | ⟨ht, rfl, hb⟩ | ⟨ht, rfl, hb⟩⟩ := hall j e h2
    · have huk := hu j ec _ h1 h1' hec hty
      have hts : t ≠ .source := by
        rintro rfl
        exact huk.kinds.1 rfl
      have htx : t ≠ .sextupole := by
        rintro rfl
        exact huk.kinds.2.2 rfl
      obtain ⟨b1, b2, b3⟩ := build_conf hb
      have hmat : t = .tmatrix → AffineMatrix e.dat.conf := fun h => by rw [b1]; exact huk.matrix (by rw [h]; rfl)
      have haff : AffineAny env files junk base e := .inl ⟨t, ht, hmat, fun i hi => absurd (b3 i hi).1 hts, by rw [b2]; simp⟩
      have hhom := (affineAny_step env files junk base e s haff hP.2).2
      have h0 := (build_length hb).2.2.1
      rw [ht] at hok hhom ⊢
      obtain ⟨r1, -⟩ := advance_reported (env := env) (t := t) (d := e.dat) (s := s) hts h0
        (build_length hb).2.2.2 hr hP.1 hok True
      refine ⟨⟨r1, hhom⟩, ?_⟩
      have hgo : ∃ ρ : (ℝ × ℝ) × (ℕ → Vec) →ₗ[ℝ] (ℕ → Vec), ∀ d' (s' : St MSt) κ D, Kicked t e.dat d' κ → s'.retreat = false →
          Disp (ex j) s.payload s'.payload D → (advance env t d' s').2.2 = none ∧
            Disp (ex (j + 1)) (advance env t e.dat s).2.1.payload (advance env t d' s').2.1.payload (ρ (κ, D)) := by
        have hok' : (advance env t e.dat s).2.2 = none := hok
        clear hok r1 hhom haff huk hb
        cases t with
        | source => exact absurd rfl hts
        | sextupole => exact absurd rfl htx
        | sbend =>
          have hnx : ¬ ex (j + 1) := fun h => h j ec h1 (by omega) hec hty
          obtain ⟨ρ, hρ⟩ := bend_response (ex := ex j) h0 hr hP hnx hok'
          refine ⟨ρ, fun d' s' κ D hK hr' hD => ?_⟩
          rw [hK.1 (by simp)]
          exact hρ s' κ D hr' hD
        | _ => exact base_response h0 hr hmat hP hexj hok'
      obtain ⟨ρ, hρ⟩ := hgo
      refine ⟨ρ, fun e' s' κ D hFe hr' hD => ?_⟩
      rw [hFe.2.1, ht]
      exact hρ e'.dat s' κ D (hFe.2.2.1 t ht) hr' hD
    · have huk := hu j ec _ h1 h1' hec hty
      obtain ⟨d0, cav, hd0, hload, hdat⟩ := loadCavity_ok (show buildCavity env files junk ec = .ok e.dat from hb)
      obtain ⟨l1, -, l3, l4⟩ := loadCavity_map hload
      have hconf : e.dat.conf = ec := by rw [hdat]; exact (build_length hd0).2.1
      have hnone : e.dat.refIn = none := by rw [hdat]; exact (build_length hd0).2.2.1
      have hcv : e.dat.cav = some cav := by rw [hdat]
      have haff : AffineAny env files junk base e := by
        refine .inr ⟨ht, ?_, ?_⟩
        · rw [hdat]
          show ∀ T ∈ d0.transfer, _
          rw [(build_conf hd0).2.1]
          simp
        · intro cav' hcc
          rw [hcv] at hcc
          cases hcc
          have := loadCavity_misalign env files ec noCav
          rw [hload] at this
          have e0 : cav.misalign = [] := this
          rw [e0]
          simp
      have hhom := (affineAny_step env files junk base e s haff hP.2).2
      obtain ⟨cav', hc1, hc2⟩ := C81_asked (show buildCavity env files junk ec = .ok e.dat from hb)
      rw [hcv] at hc1
      cases hc1
      have hGg : cav.emitGrowth = 0 := by
        have a := (flag_switch (env := env) (c := ec) (k := "EmitGrowth") (dflt := 0)).2
          ⟨hc2.growth.1, by have := hc2.growth.2; omega⟩
        have b := (flag_switch (env := env) (c := ec) (k := "EmitGrowth") (dflt := 0) (n := 0)).2
          ⟨huk.growth rfl, by norm_num⟩
        rw [a] at b
        exact Except.ok.inj b
      rw [ht] at hok hhom ⊢
      obtain ⟨r1, -⟩ := cavity_reported (env := env) (files := files) hcv hnone (by rw [hconf]; exact l3)
        (by rw [hconf]; exact l4) hr ⟨hP.1, hP.2.1⟩ hok
      refine ⟨⟨r1, hhom⟩, ?_⟩
      have hexact : ex j := fun k ek a b hek hs => hbend k j ek ec a b h1' hek hec hs hty
      obtain ⟨ρ, hρ⟩ := cavity_response (env := env) (files := files) (ex := ex j) (ex' := ex (j + 1)) hcv hnone
        (by rw [hconf]; exact l3) (by rw [hconf]; exact l4) hGg hr hP hexact hok
      refine ⟨ρ, fun e' s' κ D hFe hr' hD => ?_⟩
      rw [hFe.2.1, ht, hFe.2.2.2 ht]
      exact hρ s' κ D hr' hD
    · exact absurd rfl (hu j ec _ h1 h1' hec hty).kinds.2.1
  have hprop : ∀ (els : List (Elem LCfg MDat MSt)) (s : St MSt), els.length = es.length →
      propagate els s start n = some (run n els { s with nextElem := start, retreat := false }) := by
    intro els s hle
    rw [propagate_eq els s start n (by omega)]
    have : decide ((n : Int) < 0) = false := by simp
    rw [this, Int.natAbs_natCast]
  refine ⟨_, hprop _ _ hlen.symm, fun hok => ?_⟩
  obtain ⟨ρ, hρ⟩ := run_response (E := E) (F := F) (P := KnownBeam) (R := fun j => Disp (ex j)) hk hk' hstep n m.elems
    { s with nextElem := start, retreat := false } (by rw [← hlen]; exact hl) (by rw [← hlen]; exact hn)
    (fun j e h1 h2 h3 => ⟨h1, h2, h3⟩) rfl ⟨hc, hh⟩ hok
  refine ⟨ρ, fun c' m' es' κ s' D h' hes' hst hD hreal => ?_⟩
  have hF' := machine_moment h' hes'
  have hlen' := hF'.length_eq
  have hD0 : Disp (ex start) s.payload s'.payload D := ⟨hD.pos, hD.ref, hD.last_caviphi0, calm_of_forall₂ hD.real,
    fun _ => hreal, hD.moment1, hD.count, fun i v hv => ⟨hD.moment0 i v hv, hD.seventh i (lt_of_get hv)⟩⟩
  obtain ⟨g1, g2⟩ := hρ m'.elems { s' with nextElem := start, retreat := false } κ D
    (by rw [← hlen', ← hlen, hst.length]) rfl rfl hD0 (by
      intro j e e' h1 h2 h3 h4
      obtain ⟨ec, hec, ty, hty, hcase⟩ := hall j e h3
      obtain ⟨ec', hec', ty', hty', hcase'⟩ := forall₂_get hF' h4
      obtain ⟨hs1, hs2⟩ := hst.elements j ec ec' h1 h2 hec hec'
      refine ⟨⟨h1, h2, h3⟩, ?_⟩
      by_cases ho : cv.str ec "type" = .ok "orbtrim"
      · obtain ⟨ho', hk⟩ := hs1 ho
        rw [ho] at hty
        rw [ho'] at hty'
        cases hty
        cases hty'
        obtain ⟨t, ht, htn, hb⟩ := orbtrim_case hcase
        obtain ⟨t', ht', htn', hb'⟩ := orbtrim_case hcase'
        obtain rfl := name_orbtrim htn
        obtain rfl := name_orbtrim htn'
        refine ⟨by rw [ht, ht'], fun t hc => ?_, fun hc => ?_⟩
        · rw [ht] at hc
          obtain rfl := cls_inj hc
          exact ⟨fun hne => absurd rfl hne, fun _ => built_steered hb hb' hk⟩
        · rw [ht] at hc
          exact absurd hc (cls_ne_cavity _)
      · obtain rfl := hs2 ho
        rw [hty] at hty'
        cases hty'
        have hsame : e'.cls = e.cls ∧ e'.dat = e.dat := by
          rcases hcase with ⟨t, ht, htn, hb⟩ | ⟨ht, htn, hb⟩ | ⟨ht, htn, hb⟩ <;>
          rcases hcase' with ⟨t', ht', htn', hb'⟩ | ⟨ht', htn', hb'⟩ | ⟨ht', htn', hb'⟩
          · obtain rfl := name_inj (htn.trans htn'.symm)
            exact ⟨by rw [ht, ht'], Except.ok.inj (hb'.symm.trans hb)⟩
          · exact absurd (htn.trans htn') (name_ne t).1
          · exact absurd (htn.trans htn') (name_ne t).2
          · exact absurd (htn'.trans htn) (name_ne t').1
          · exact ⟨by rw [ht, ht'], Except.ok.inj (hb'.symm.trans hb)⟩
          · rw [htn] at htn'
            exact absurd htn' (by decide)
          · exact absurd (htn'.trans htn) (name_ne t').2
          · rw [htn] at htn'
            exact absurd htn' (by decide)
          · exact ⟨by rw [ht, ht'], Except.ok.inj (hb'.symm.trans hb)⟩
        refine ⟨hsame.1, fun t hc => ⟨fun _ => hsame.2, fun hto => ?_⟩, fun _ => hsame.2⟩
        exfalso
        subst hto
        rcases hcase with ⟨t, ht, htn, hb⟩ | ⟨ht, htn, hb⟩ | ⟨ht, htn, hb⟩
        · rw [ht] at hc
          obtain rfl := cls_inj hc
          rw [← htn] at hty
          exact ho hty
        · rw [ht] at hc
          exact absurd hc.symm (cls_ne_cavity _)
        · rw [ht] at hc
          exact absurd hc.symm (cls_ne_stripper _))
  refine ⟨_, hprop _ _ (by rw [← hlen', hst.length]), g1, displaced_disp g2, fun hno => ?_⟩
  exact g2.exact hno

/-! ## an example -/

/-- A corrector of the given strength, a drift of 1 m and a cavity. -/
noncomputable def exSteerView : CView LCfg where
  str c k := match c k with
    | some (.str x) => .ok x
    | _ => .error .keyError
  elems c := .ok [fun k => if k = "type" then some (.str "orbtrim") else if k = "name" then some (.str "o")
      else if k = "theta_x" then c "strength" else if k = "roll" then some (.num (1 / 10)) else none,
    fun k => if k = "type" then some (.str "drift") else if k = "name" then some (.str "d")
      else if k = "L" then some (.num 1) else none,
    exMono]

/-- The lattice with a corrector of strength `a`. -/
noncomputable def exSteer (a : ℝ) : LCfg := fun k =>
  if k = "sim_type" then some (.str "MomentMatrix") else if k = "strength" then some (.num a) else none

/-- Two charge states, the first one with an orbit of `x` mm. -/
noncomputable def exOrbit (x : ℝ) : St MSt :=
  { nextElem := 0, retreat := false, payload :=
    { pos := 0, ref := exParticle, real := [{ exParticle with IonZ := 2 }, { exParticle with IonQ := 1 / 2 }]
      moment0 := [Spec.onAxis + Pi.single 0 x, Spec.onAxis], moment1 := [Matrix.diagonal (Function.update 1 6 0), 0], transmat := [1, 1]
      moment0_env := 0, moment0_rms := 0, moment1_env := 0, last_caviphi0 := 0 } }

theorem exSteer_machine (env : Env) (junk : Mat) (a : ℝ) : ∃ m es, Machine.new exSteerView
      (registry env junk 0 (cavityCls env exFiles junk 0) (stripperCls env junk 0)) (exSteer a) = .ok m ∧
    exSteerView.elems (exSteer a) = .ok es := by
  obtain ⟨hk, hreg⟩ := registered_shipped env junk 0 (cavityCls env exFiles junk 0) (stripperCls env junk 0)
  obtain ⟨d, hd⟩ := exMono_builds env junk
  obtain ⟨m, hm⟩ := (Flame.Mach.C18_success_iff exSteerView
    (registry env junk 0 (cavityCls env exFiles junk 0) (stripperCls env junk 0)) (exSteer a)).2 ⟨"MomentMatrix", _, rfl, hk, rfl, by
      simp only [List.mem_cons, List.not_mem_nil, or_false, forall_eq_or_imp, forall_eq]
      exact ⟨⟨"orbtrim", _, "o", _, rfl, hreg _ _ rfl, rfl, rfl, rfl⟩, ⟨"drift", _, "d", _, rfl, hreg _ _ rfl, rfl, rfl, rfl⟩,
        ⟨"rfcavity", _, "c", d, rfl, hreg _ _ rfl, rfl, rfl, hd⟩⟩⟩
  exact ⟨m, _, hm, rfl⟩

/-- The hypotheses of `C94_response` are met by a rolled corrector, a drift and a cavity and a beam of two charge states; the other
lattice has a corrector of another strength and the other beam starts with another orbit. -/
example (env : Env) (junk : Mat) (a b x : ℝ) : ∃ m m' es es', Machine.new exSteerView
      (registry env junk 0 (cavityCls env exFiles junk 0) (stripperCls env junk 0)) (exSteer a) = .ok m ∧
    exSteerView.elems (exSteer a) = .ok es ∧ es.length = 3 ∧
    (∀ (j : Nat) ec ty, 0 ≤ j → j < 0 + 3 → es[j]? = some ec → exSteerView.str ec "type" = .ok ty → Spec.Linear env ty ec) ∧
    (∀ (j k : Nat) ej ek, 0 ≤ j → j < k → k < 0 + 3 → es[j]? = some ej → es[k]? = some ek →
      exSteerView.str ej "type" = .ok "sbend" → exSteerView.str ek "type" ≠ .ok "rfcavity") ∧
    Spec.Complete (exOrbit 0).payload ∧ Homogeneous (exOrbit 0).payload.moment0 (exOrbit 0).payload.moment1 ∧
    Machine.new exSteerView
      (registry env junk 0 (cavityCls env exFiles junk 0) (stripperCls env junk 0)) (exSteer (a + b)) = .ok m' ∧
    exSteerView.elems (exSteer (a + b)) = .ok es' ∧
    Spec.SteeredLattice (fun ec t => exSteerView.str ec "type" = .ok t) 0 3 es es' (fun _ => (b, 0)) ∧
    Spec.Displaced (exOrbit 0).payload (exOrbit x).payload (fun i => if i = 0 then Pi.single 0 x else 0) ∧
    (exOrbit x).payload.real = (exOrbit 0).payload.real ∧ (run 2 m.elems (exOrbit 0)).err = none := by
  obtain ⟨m, es, h1, h2⟩ := exSteer_machine env junk a
  obtain ⟨m', es', h1', h2'⟩ := exSteer_machine env junk (a + b)
  refine ⟨m, m', es, es', h1, h2, ?_, ?_, ?_, ⟨rfl, rfl, rfl⟩, ?_, h1', h2', ?_, ?_, rfl, ?_⟩
  · cases h2
    rfl
  · cases h2
    intro j ec ty _ _ hj hty
    match j, hj with
    | 0, hj =>
      cases hj
      cases hty
      constructor <;> simp
    | 1, hj =>
      cases hj
      cases hty
      constructor <;> simp
    | 2, hj =>
      cases hj
      cases hty
      constructor
      · simp
      · simp
      · intro _
        refine .inr ⟨rfl, ?_⟩
        simp [Settings.Says, exMono, exFull, exSet]
  · cases h2
    intro j k ej ek _ hjk hk hj _ hs
    match j, hj with
    | 0, hj =>
      cases hj
      exact absurd (Except.ok.inj hs) (by decide)
    | 1, hj =>
      cases hj
      exact absurd (Except.ok.inj hs) (by decide)
    | j + 2, hj => omega
  · constructor
    · simp [exOrbit, Spec.onAxis]
    · simp only [exOrbit, List.mem_cons, List.not_mem_nil, or_false, forall_eq_or_imp, forall_eq]
      constructor
      · intro i
        fin_cases i <;> simp [Matrix.diagonal, Function.update]
      · intro i
        simp
  · cases h2
    cases h2'
    refine ⟨rfl, fun j ea eb _ _ ha hb => ?_⟩
    match j, ha, hb with
    | 0, ha, hb =>
      cases ha
      cases hb
      refine ⟨fun _ => ⟨rfl, ⟨?_, ?_, ?_⟩⟩, fun h => absurd rfl h⟩
      · intro n hn
        have : n ≠ "theta_x" := fun h => hn (by simp [h])
        simp [this]
      · intro h
        simp [numOr] at h
      · intro _
        simp [numOr, exSteer]
    | 1, ha, hb =>
      cases ha
      cases hb
      exact ⟨fun h => absurd (Except.ok.inj h) (by decide), fun _ => rfl⟩
    | 2, ha, hb =>
      cases ha
      cases hb
      exact ⟨fun h => absurd (Except.ok.inj h) (by decide), fun _ => rfl⟩
  · refine ⟨rfl, rfl, rfl, forall₂_calm rfl, rfl, rfl, ?_, ?_⟩
    · intro i v hv
      match i, hv with
      | 0, hv =>
        cases hv
        simp [exOrbit]
      | 1, hv =>
        cases hv
        simp [exOrbit]
    · intro i _
      split <;> simp
  · have hF := machine_moment h1 h2
    cases h2
    clear h1
    generalize m.elems = els at hF ⊢
    cases hF with
    | @cons _ e0 _ l0 p0 hF =>
      cases hF with
      | @cons _ e1 _ l1 p1 hF =>
        obtain ⟨ty0, ht0, p0⟩ := p0
        obtain ⟨ty1, ht1, p1⟩ := p1
        cases ht0
        cases ht1
        obtain ⟨t0, hc0, hn0, hb0⟩ := orbtrim_case p0
        obtain rfl := name_orbtrim hn0
        obtain ⟨hc1, hb1⟩ : e1.cls = cls env junk 0 .drift ∧ ∃ c, build env junk .drift c = .ok e1.dat := by
          rcases p1 with ⟨t, h1, h2, h3⟩ | ⟨-, h, -⟩ | ⟨-, h, -⟩
          · obtain rfl := name_inj (t' := .drift) h2
            exact ⟨h1, _, h3⟩
          · exact absurd h (by decide)
          · exact absurd h (by decide)
        have a0 : (e0.cls.advance e0.dat (stepNext (exOrbit 0))).2.2 = none := by
          rw [hc0]
          have hs : (stepNext (exOrbit 0)).retreat = false := rfl
          have := advanceBase_first (rec := recompute env .orbtrim) (s := stepNext (exOrbit 0))
            (fun d a b c e f => recompute_cached env .orbtrim d a b c e f) (build_length hb0).2.2.1 hs
          obtain ⟨T, hT⟩ : ∃ T, recompute env .orbtrim e0.dat (stepNext (exOrbit 0)).payload.recalc.ref
              (stepNext (exOrbit 0)).payload.recalc.real = .ok T := by
            have hone : ∀ z q u v : ℝ, ∃ M, trimOne e0.dat exParticle.recalc ({ exParticle with IonZ := z, IonQ := q } : Particle).recalc u v = .ok M := by
              intro z q u v
              obtain ⟨m1, m2, m3⟩ := moving ({ exParticle with IonZ := z, IonQ := q } : Particle) (by norm_num [exParticle])
                (by norm_num [exParticle]) (by norm_num [exParticle])
              obtain ⟨u1, u2⟩ := unit_ne exParticle.recalc ({ exParticle with IonZ := z, IonQ := q } : Particle).recalc m1 m2 m3.1
                (by norm_num [exParticle, Particle.recalc])
              unfold trimOne Moment.aligned
              rw [getMisalign_eq _ _ _ u1 u2]
              exact ⟨_, rfl⟩
            obtain ⟨e, he⟩ := orbtrimRec_eq exParticle.recalc [({ exParticle with IonZ := 2 } : Particle).recalc, ({ exParticle with IonQ := 1 / 2 } : Particle).recalc]
            show ∃ T, orbtrimRec e0.dat exParticle.recalc [({ exParticle with IonZ := 2 } : Particle).recalc, ({ exParticle with IonQ := 1 / 2 } : Particle).recalc] = .ok T
            rw [he]
            obtain ⟨M1, hM1⟩ := hone 2 1 _ _
            obtain ⟨M2, hM2⟩ := hone 1 (1 / 2) _ _
            exact ⟨[M1, M2], forEach_ok.2 (.cons hM1 (.cons hM2 .nil))⟩
          rw [hT] at this
          exact congrArg Prod.fst this
        have a1 : ∀ s : St MSt, s.retreat = false → (e1.cls.advance e1.dat s).2.2 = none := by
          intro s hs
          rw [hc1]
          obtain ⟨c, hb1⟩ := hb1
          have := advanceBase_first (rec := recompute env .drift) (s := s)
            (fun d a b c e f => recompute_cached env .drift d a b c e f) (build_length hb1).2.2.1 hs
          exact congrArg Prod.fst this
        have hk0 : Keeps e0.cls := by
          rw [hc0]
          exact (measured_cls env junk 0 .orbtrim (by simp)).1
        obtain ⟨k1, k2⟩ := hk0 e0.dat (stepNext (exOrbit 0))
        have hret : ∀ s : St MSt, (stepNext s).retreat = s.retreat := by intro s; unfold stepNext; split <;> rfl
        have hs : stepNext (exOrbit 0) = { exOrbit 0 with nextElem := 1, retreat := false } := Flame.Mach.stepNext_fwd rfl (by decide)
        rw [run_succ_ok (e := e0) rfl a0]
        dsimp only
        rw [run_succ_ok (e := e1) (by rw [k1, hs]; rfl) (a1 _ (by rw [hret, k2, hs]))]
        rfl

end Flame.Cavity
