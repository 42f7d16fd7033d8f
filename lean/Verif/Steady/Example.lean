import Verif.Steady.Run
import Verif.Cavity.Ideal

/-! # A quadrupole ramped through zero: a case of C107 -/

namespace Flame.Steady

open Flame.Mach (Cls St Err CView Machine propagate sizeMod Elem Run run stepNext run_succ_err run_succ_ok propagate_eq)
open Flame.Linear (LVal LCfg getNum getNumD getVec)
open Flame.Moment Flame.Steady.Spec

variable {X : Type} [TopologicalSpace X]

theorem particles_const (p : Particle) : Particles fun _ : X => p :=
  ⟨continuous_const, continuous_const, continuous_const, continuous_const, continuous_const, continuous_const, continuous_const,
    continuous_const, continuous_const, continuous_const, continuous_const, continuous_const⟩

theorem each_const {α : Type} {P : (X → α) → Prop} (h : ∀ a, P fun _ => a) (l : List α) : Each P fun _ => l :=
  ⟨l.map (fun a _ => a), by
    intro f hf
    obtain ⟨a, -, rfl⟩ := List.mem_map.1 hf
    exact h a, fun x => by
    rw [List.map_map]
    exact (List.map_id l).symm⟩

theorem beams_const (s : MSt) : Beams fun _ : X => s :=
  ⟨continuous_const, particles_const _, each_const particles_const _, each_const (fun _ => continuous_const) _,
    each_const (fun _ => continuous_const) _, each_const (fun _ => continuous_const) _, continuous_const, continuous_const,
    continuous_const⟩

/-- The matrices of the element can be computed for every moving beam; a sextupole has its settings. -/
def Fine (env : Env) (t : MType) (d : MDat) : Prop :=
  (t = .sextupole → ∃ B3 L, getNum d.conf "B3" = .ok B3 ∧ getNum d.conf "L" = .ok L) ∧
  (t ≠ .sextupole → ∀ d1 ref real, d1.conf = d.conf → d1.fitMode = d.fitMode → Live ref → (∀ p ∈ real, Live p) → ∃ T, recompute env t d1 ref real = .ok T)

theorem forEach_fine {α β : Type} {f : α → Except Err β} {l : List α} (h : ∀ p ∈ l, ∃ M, f p = .ok M) : ∃ T, forEach f l = .ok T := by
  induction l with
  | nil => exact ⟨[], rfl⟩
  | cons p l ih =>
    obtain ⟨M, hM⟩ := h p List.mem_cons_self
    obtain ⟨T, hT⟩ := ih (fun q hq => h q (List.mem_cons_of_mem _ hq))
    exact ⟨M :: T, by simp only [forEach, hM, hT]⟩

theorem fine_advance {env : Env} {t : MType} {d : MDat} {s : St MSt} (hst : straight t = true ∨ t = .sbend ∨ t = .edipole ∨ t = .sextupole)
    (hd : d.refIn = none) (hf : Fine env t d) (hr : s.retreat = false) (hg : Going s.payload) : (advance env t d s).2.2 = none := by
  by_cases hsx : t = .sextupole
  · subst hsx
    obtain ⟨B3, L, h1, h2⟩ := hf.1 rfl
    obtain ⟨rs, hrs⟩ := forEach_fine (f := fun q : Particle × Vec × Mat =>
      sextOne { d with refIn := some s.payload.recalc.ref, realIn := s.payload.recalc.real, transfer := resize s.payload.recalc.real.length d.transfer }
        B3 (L * MtoMM) (toSteps (getNumD d.conf "step" 1) : ℝ) (decide (getNumD d.conf "thinlens" 0 = 1)) (decide (getNumD d.conf "dstkick" 1 = 1))
        s.payload.recalc.ref q.1 q.2.1 q.2.2) (l := s.payload.recalc.real.zip (s.payload.recalc.moment0.zip s.payload.recalc.moment1)) (by
      intro q hq
      obtain ⟨p, hp, e⟩ := List.mem_map.1 (List.of_mem_zip (a := q.1) (b := q.2) hq).1
      have hl := live_recalc (hg.real p hp)
      rw [e] at hl
      obtain ⟨M, IM, -, -, -, h, -⟩ := C36_rigid { d with refIn := some s.payload.recalc.ref, realIn := s.payload.recalc.real, transfer := resize s.payload.recalc.real.length d.transfer }
        s.payload.recalc.ref q.1 hl.k hl.beta.ne' hl.gamma.ne' (live_recalc hg.ref).mass.ne'
      exact ⟨_, by simp only [sextOne, h]; rfl⟩)
    rw [show advance env .sextupole d s = advanceSext d s from rfl, advanceSext]
    simp only [h1, h2, hr, Bool.false_eq_true, if_false, hrs]
  have hnh : ¬ hit d s.payload.recalc := by
    rintro ⟨-, ⟨r, hr, -⟩, -⟩
    rw [hd] at hr
    cases hr
  obtain ⟨T, hT⟩ := hf.2 hsx { d with refIn := some s.payload.recalc.ref, realIn := s.payload.recalc.real, transfer := resize s.payload.recalc.real.length d.transfer } s.payload.recalc.ref s.payload.recalc.real rfl rfl (live_recalc hg.ref) (by
    intro p hp
    obtain ⟨q, hq, rfl⟩ := List.mem_map.1 hp
    exact live_recalc (hg.real q hq))
  by_cases hsb : t = .sbend
  · subst hsb
    rw [show advance env .sbend d s = advanceBend (recompute env .sbend) d s from rfl, advanceBend]
    simp only [particles, hnh, decide_false, Bool.false_eq_true, if_false, hr, hT]
  · have hadv : advance env t d s = advanceBase (recompute env t) d s := by
      cases t <;> first | rfl | exact absurd rfl hsb | exact absurd rfl hsx | exact absurd hst (by decide)
    rw [hadv, advanceBase]
    simp only [particles, hnh, decide_false, Bool.false_eq_true, if_false, hr, hT]

theorem fine_run {env : Env} {junk : Mat} {base : Nat} (n : Nat) : ∀ (els : List (Elem LCfg MDat MSt)) (s : St MSt),
    els.length < sizeMod → s.nextElem + n ≤ els.length → s.retreat = false →
    (∀ j e, s.nextElem ≤ j → j < s.nextElem + n → els[j]? = some e → ∃ t, e.cls = cls env junk base t ∧
      Fine env t e.dat ∧ Good t fun _ : Unit => e.dat) →
    Going s.payload → (run n els s).err = none := by
  induction n with
  | zero => intros; rfl
  | succ n ih =>
    intro els s hl hn hr hE hg
    have hpay : (stepNext s).payload = s.payload := by unfold stepNext; split <;> rfl
    have hret : (stepNext s).retreat = s.retreat := by unfold stepNext; split <;> rfl
    have hlt : s.nextElem < els.length := by omega
    have he := List.getElem?_eq_getElem hlt
    obtain ⟨t, hc, hf, hgood⟩ := hE _ _ (le_refl _) (by omega) he
    have hts : t ≠ .source := by
      rintro rfl
      exact absurd hgood.kind (by decide)
    have h3 : (advance env t els[s.nextElem].dat (stepNext s)).2.2 = none :=
      fine_advance hgood.kind (hgood.fresh ()) hf (hret.trans hr) (by rw [hpay]; exact hg)
    have hx : els[s.nextElem].cls.advance = advance env t := by rw [hc]; rfl
    obtain ⟨-, g⟩ := step_cont (X := Unit) (d := fun _ => els[s.nextElem].dat) (s := fun _ => stepNext s) (env := env) (t := t)
      hgood (fun _ => hret.trans hr) (beams_const _)
      (fun _ => by rw [hpay]; exact hg) () (fun _ => h3)
    obtain ⟨k1, k2⟩ := (measured_cls env junk base t hts).1 els[s.nextElem].dat (stepNext s)
    have hup : (stepNext s).nextElem = s.nextElem + 1 := by
      unfold stepNext
      rw [if_neg (by rw [hr]; simp)]
      exact Nat.mod_eq_of_lt (by omega)
    have k1' : (advance env t els[s.nextElem].dat (stepNext s)).2.1.nextElem = s.nextElem + 1 := k1.trans hup
    rw [run_succ_ok he (by rw [hx]; exact h3), hx]
    refine ih _ _ (by rwa [List.length_set]) (by rw [List.length_set, k1']; omega) (k2.trans (hret.trans hr)) ?_ (g ())
    intro j e hj hj2 hje
    rw [k1'] at hj hj2
    rw [List.getElem?_set_ne (by omega)] at hje
    exact hE j e (by omega) (by omega) hje

theorem aligned_fine {d : MDat} {ref p : Particle} (hr : Live ref) (hp : Live p) (T : Mat) : ∃ M, aligned d ref p T = .ok M := by
  obtain ⟨M, IM, -, -, -, h, -⟩ := C36_rigid d ref p hp.k hp.beta.ne' hp.gamma.ne' hr.mass.ne'
  exact ⟨IM * (T * M), by simp only [aligned, h]⟩

theorem good_const {env : Env} {junk : Mat} {t : MType} {c : LCfg} {d : MDat} (hb : build env junk t c = .ok d)
    (hs : Regular t.name fun _ : Unit => c) : Good t fun _ : Unit => d :=
  good_build (c := fun _ => c) (fun _ => hb) hs fun _ => .inl fun _ _ => rfl

/-- A drift of one metre, a quadrupole of 0.2 m with the gradient `x`, a sector magnet of 30 degrees with the gradient `x * x`, and an
electrostatic dipole of 30 degrees with spherical electrodes, and a sextupole of two thin lenses with the strength `x`. -/
noncomputable def exRamp : List (ℝ → LCfg) :=
  [fun _ k => if k = "type" then some (.str "drift") else if k = "name" then some (.str "d")
      else if k = "L" then some (.num 1) else none,
    fun x k => if k = "type" then some (.str "quadrupole") else if k = "name" then some (.str "q")
      else if k = "L" then some (.num (1 / 5)) else if k = "B2" then some (.num x) else none,
    fun x k => if k = "type" then some (.str "sbend") else if k = "name" then some (.str "b")
      else if k = "L" then some (.num 1) else if k = "phi" then some (.num 30) else if k = "phi1" then some (.num 0)
      else if k = "phi2" then some (.num 0) else if k = "K" then some (.num (x * x)) else none,
    fun _ k => if k = "type" then some (.str "edipole") else if k = "name" then some (.str "e")
      else if k = "L" then some (.num 1) else if k = "phi" then some (.num 30) else if k = "spher" then some (.num 1)
      else if k = "ver" then some (.num 0) else none,
    fun x k => if k = "type" then some (.str "sextupole") else if k = "name" then some (.str "s")
      else if k = "L" then some (.num (1 / 5)) else if k = "B3" then some (.num x) else if k = "thinlens" then some (.num 1)
      else if k = "step" then some (.num 2) else none]

theorem exRamp_regular : ∀ e ∈ exRamp, ∃ ty, (∀ x, e x "type" = some (.str ty)) ∧ Regular ty e := by
  intro e he
  simp only [exRamp, List.mem_cons, List.not_mem_nil, or_false] at he
  rcases he with rfl | rfl | rfl | rfl | rfl
  · exact ⟨"drift", fun _ => rfl, .inl (by unfold Straight; decide), fun h => absurd h (by decide), fun h => absurd h (by decide),
      fun h => absurd h (by decide), fun h => absurd h (by decide), fun h => absurd h (by decide), fun h => absurd h (by decide)⟩
  · exact ⟨"quadrupole", fun _ => rfl, .inl (by unfold Straight; decide), fun h => absurd h (by decide), fun h => absurd h (by decide),
      fun h => absurd h (by decide), fun h => absurd h (by decide), fun h => absurd h (by decide), fun h => absurd h (by decide)⟩
  · refine ⟨"sbend", fun _ => rfl, .inr (.inl rfl), fun h => absurd h (by decide), fun _ _ _ => rfl,
      fun _ x => ⟨⟨1, 30, 0, 0, rfl, rfl, rfl, rfl, by norm_num, by norm_num, by norm_num, by norm_num, ?_⟩, ?_⟩,
      fun h => absurd h (by decide), fun h => absurd h (by decide), fun h => absurd h (by decide)⟩
    · have : gradient (fun k => if k = "type" then some (LVal.str "sbend") else if k = "name" then some (.str "b")
        else if k = "L" then some (.num 1) else if k = "phi" then some (.num 30) else if k = "phi1" then some (.num 0)
        else if k = "phi2" then some (.num 0) else if k = "K" then some (.num (x * x)) else none) = x * x := rfl
      rw [this]
      have := Real.pi_pos
      have : 0 < (30 * Real.pi / 180 / 1) ^ 2 := by positivity
      have := mul_self_nonneg x
      linarith
    · intro v h
      simp at h
  · refine ⟨"edipole", fun _ => rfl, .inr (.inr (.inl rfl)), fun h => absurd h (by decide), fun _ _ _ => rfl, fun h => absurd h (by decide),
      fun _ _ _ => rfl, fun _ x => ⟨⟨1, 30, 1, rfl, rfl, rfl, by norm_num, by norm_num, by norm_num⟩, ?_⟩, fun h => absurd h (by decide)⟩
    intro v h
    simp at h
  · exact ⟨"sextupole", fun _ => rfl, .inr (.inr (.inr rfl)), fun h => absurd h (by decide), fun h => absurd h (by decide),
      fun h => absurd h (by decide), fun h => absurd h (by decide), fun h => absurd h (by decide),
      fun _ => ⟨fun _ => rfl, fun _ _ => rfl, fun _ _ => rfl⟩⟩

/-- The lattice, which carries the gradient. -/
noncomputable def exRampView : CView LCfg where
  str c k := match c k with
    | some (.str x) => .ok x
    | _ => .error .keyError
  elems c := match c "g" with
    | some (.num x) => .ok (exRamp.map (fun e => e x))
    | _ => .error .keyError

/-- The configuration with the gradient `x`. -/
noncomputable def exRampConf (x : ℝ) : LCfg :=
  fun k => if k = "sim_type" then some (.str "MomentMatrix") else if k = "g" then some (.num x) else none

theorem exRamp_fine (env : Env) {junk : Mat} {t : MType} (x : ℝ) {e : ℝ → LCfg} (he : e ∈ exRamp) {d : MDat}
    (htn : e x "type" = some (.str t.name)) (hb : build env junk t (e x) = .ok d) : Fine env t d := by
  have hn0 : asUnsigned 0 = .ok 0 := by norm_num [asUnsigned]
  have hn1 : asUnsigned 1 = .ok 1 := by norm_num [asUnsigned]
  have hconf : d.conf = e x := (build_length hb).2.1
  refine ⟨fun ht => ?_, fun hnt => ?_⟩
  · subst ht
    simp only [exRamp, List.mem_cons, List.not_mem_nil, or_false] at he
    rw [hconf]
    rcases he with rfl | rfl | rfl | rfl | rfl
    · simp [MType.name] at htn
    · simp [MType.name] at htn
    · simp [MType.name] at htn
    · simp [MType.name] at htn
    · exact ⟨x, 1 / 5, rfl, rfl⟩
  intro d1 ref real hd hfit h1 h2
  rw [hconf] at hd
  simp only [exRamp, List.mem_cons, List.not_mem_nil, or_false] at he
  rcases he with rfl | rfl | rfl | rfl | rfl
  · have : t = .drift := by
      have h : t.name = "drift" := by injection htn with h; injection h with h; exact h.symm
      revert h; cases t <;> decide
    subst this
    exact ⟨_, rfl⟩
  · have : t = .quadrupole := by
      have h : t.name = "quadrupole" := by injection htn with h; injection h with h; exact h.symm
      revert h; cases t <;> decide
    subst this
    have hflag : getFlag env d1.conf "ncurve" 0 = .ok 0 := by
      rw [hd]
      simp [getFlag, getStr, getNum, hn0]
    have hL : getNum d1.conf "L" = .ok (1 / 5) := by rw [hd]; rfl
    have hB2 : getNum d1.conf "B2" = .ok x := by rw [hd]; rfl
    simp only [recompute, quadRec, hL, hflag, hB2, if_true]
    exact forEach_fine fun p hp => aligned_fine h1 (h2 p hp) _
  · have : t = .sbend := by
      have h : t.name = "sbend" := by injection htn with h; injection h with h; exact h.symm
      revert h; cases t <;> decide
    subst this
    have hL : getNum d1.conf "L" = .ok 1 := by rw [hd]; rfl
    have hp : getNum d1.conf "phi" = .ok 30 := by rw [hd]; rfl
    have ha : getNum d1.conf "phi1" = .ok 0 := by rw [hd]; rfl
    have hbb : getNum d1.conf "phi2" = .ok 0 := by rw [hd]; rfl
    have hM : (1 : ℝ) * MtoMM ≠ 0 := by norm_num [MtoMM]
    have hfit1 : d1.fitMode = 1 := by
      rw [hfit]
      simp [build, getFlag, getStr, getNum, hn1] at hb
      rw [← hb]
    simp only [recompute, sbendRec, hL, hp, ha, hbb, if_pos hM, sbendOne, hfit1, if_neg one_ne_zero]
    exact forEach_fine fun p hp => aligned_fine h1 (h2 p hp) _
  · have : t = .edipole := by
      have h : t.name = "edipole" := by injection htn with h; injection h with h; exact h.symm
      revert h; cases t <;> decide
    subst this
    have hflag : getFlag env d1.conf "HdipoleFitMode" 1 = .ok 1 := by
      rw [hd]
      simp [getFlag, getStr, getNum, hn1]
    have hL : getNum d1.conf "L" = .ok 1 := by rw [hd]; rfl
    have hp : getNum d1.conf "phi" = .ok 30 := by rw [hd]; rfl
    have ha : getNum d1.conf "spher" = .ok 1 := by rw [hd]; rfl
    have hbb : getNum d1.conf "ver" = .ok 0 := by rw [hd]; rfl
    simp only [recompute, edipoleRec, hL, hp, ha, hbb, hflag]
    norm_num [MtoMM]
    exact forEach_fine fun p hp => aligned_fine h1 (h2 p hp) _
  · have : t = .sextupole := by
      have h : t.name = "sextupole" := by injection htn with h; injection h with h; exact h.symm
      revert h; cases t <;> decide
    exact absurd this hnt

theorem exRamp_tuned : ∀ e ∈ exRamp, Tuned e := by
  intro e he
  simp only [exRamp, List.mem_cons, List.not_mem_nil, or_false] at he
  rcases he with rfl | rfl | rfl | rfl | rfl
  · exact fun k => .inl fun _ _ => rfl
  · intro k
    by_cases hk : k = "B2"
    · subst hk
      exact .inr ⟨by decide, by decide, by decide, by decide, id, continuous_id, fun x => by simp⟩
    · exact .inl fun x y => by simp [hk]
  · intro k
    by_cases hk : k = "K"
    · subst hk
      exact .inr ⟨by decide, by decide, by decide, by decide, fun x => x * x, continuous_id.mul continuous_id, fun x => by simp⟩
    · exact .inl fun x y => by simp [hk]
  · exact fun k => .inl fun _ _ => rfl
  · intro k
    by_cases hk : k = "B3"
    · subst hk
      exact .inr ⟨by decide, by decide, by decide, by decide, id, continuous_id, fun x => by simp⟩
    · exact .inl fun x y => by simp [hk]

theorem exOnAxis_going : Going Flame.Cavity.exOnAxis.payload := by
  refine ⟨⟨?_, ?_, ?_, ?_⟩, ?_, ?_⟩
  · simp [Flame.Cavity.exOnAxis, exParticle]
  · simp [Flame.Cavity.exOnAxis, exParticle]
  · simp [Flame.Cavity.exOnAxis, exParticle]
  · simp [Flame.Cavity.exOnAxis, exParticle]
  · intro p hp
    simp only [Flame.Cavity.exOnAxis, List.mem_cons, List.not_mem_nil, or_false] at hp
    rcases hp with rfl | rfl <;> constructor <;> norm_num [exParticle]
  · norm_num [Flame.Cavity.exOnAxis, exParticle]

theorem exRamp_built (env : Env) (junk : Mat) (cavity stripper : Cls LCfg MDat MSt) :
    ∀ x, ∃ m, Machine.new exRampView (registry env junk 0 cavity stripper) (exRampConf x) = .ok m := by
  obtain ⟨hk, hreg⟩ := registered_shipped env junk 0 cavity stripper
  have h1 : asUnsigned 1 = .ok 1 := by norm_num [asUnsigned]
  have hes : ∀ x, exRampView.elems (exRampConf x) = .ok (exRamp.map (fun e => e x)) := fun x => rfl
  have hsb : ∀ x : ℝ, ∃ d, build env junk .sbend (fun k => if k = "type" then some (LVal.str "sbend") else if k = "name" then some (.str "b")
      else if k = "L" then some (.num 1) else if k = "phi" then some (.num 30) else if k = "phi1" then some (.num 0)
      else if k = "phi2" then some (.num 0) else if k = "K" then some (.num (x * x)) else none) = .ok d := by
    intro x
    simp [build, getFlag, getStr, getNum, h1]
  choose dsb hdsb using hsb
  intro x
  refine (Flame.Mach.C18_success_iff exRampView (registry env junk 0 cavity stripper) (exRampConf x)).2
    ⟨"MomentMatrix", _, rfl, hk, hes x, ?_⟩
  simp only [exRamp, List.map_cons, List.map_nil, List.mem_cons, List.not_mem_nil, or_false, forall_eq_or_imp, forall_eq]
  exact ⟨⟨"drift", _, "d", _, rfl, hreg _ _ rfl, rfl, rfl, rfl⟩, ⟨"quadrupole", _, "q", _, rfl, hreg _ _ rfl, rfl, rfl, rfl⟩,
    ⟨"sbend", _, "b", dsb x, rfl, hreg _ _ rfl, rfl, rfl, hdsb x⟩, ⟨"edipole", _, "e", _, rfl, hreg _ _ rfl, rfl, rfl, rfl⟩,
    ⟨"sextupole", _, "s", _, rfl, hreg _ _ rfl, rfl, rfl, rfl⟩⟩

/-- The hypotheses of `C107_steady_partial` are met by a drift, a quadrupole with any gradient, a sector magnet, an electrostatic dipole,
a sextupole and a beam of two charge states; there is no exception, so what it says about the beam holds while the gradient of the quadrupole and
the strength of the sextupole are changed through zero. -/
example (env : Env) (junk : Mat) (cavity stripper : Cls LCfg MDat MSt) : ∃ m : ℝ → Machine LCfg MDat MSt, ∃ R : ℝ → ℕ → Run LCfg MDat MSt,
    (∀ x, Machine.new exRampView (registry env junk 0 cavity stripper) (exRampConf x) = .ok (m x)) ∧
    (∀ x, ∀ k : ℕ, k ≤ 5 → propagate (m x).elems Flame.Cavity.exOnAxis 0 k = some (R x k)) ∧ (∀ x, (R x 5).err = none) ∧
    ∀ k ≤ 5, Beams fun x => (R x k).st.payload := by
  have hes : ∀ x, exRampView.elems (exRampConf x) = .ok (exRamp.map (fun e => e x)) := fun x => rfl
  have hm := exRamp_built env junk cavity stripper
  choose m hm using hm
  obtain ⟨R, hR, hB⟩ := C107_steady_partial (X := ℝ) exRampView exRampConf m hm exRamp hes (by norm_num [exRamp, sizeMod]) 0 5 (by simp [exRamp])
    (fun j e hj he => ⟨exRamp_tuned e (List.mem_of_getElem? he), by
      obtain ⟨ty, h1, h2⟩ := exRamp_regular e (List.mem_of_getElem? he)
      exact ⟨ty, fun x => by simp [exRampView, h1], h2⟩⟩)
    (fun _ => Flame.Cavity.exOnAxis) (beams_const _) (fun _ => exOnAxis_going)
  have hF := fun x => machine_moment (hm x) (hes x)
  have hlen : ∀ x, (m x).elems.length = 5 := fun x => by rw [← (hF x).length_eq, List.length_map]; rfl
  have herr : ∀ x, (R x 5).err = none := by
    intro x
    have h1 := hR x 5 le_rfl
    rw [propagate_eq (m x).elems _ 0 (5 : ℕ) (by omega)] at h1
    rw [← Option.some.inj h1]
    refine fine_run (env := env) (junk := junk) (base := 0) 5 _ _ (by rw [hlen]; norm_num [sizeMod]) (by rw [hlen]) rfl ?_ exOnAxis_going
    intro j e _ hj he
    obtain ⟨ec, hec, ty, hty, hcase⟩ := Flame.Cavity.forall₂_get (hF x) he
    rw [List.getElem?_map] at hec
    obtain ⟨ef, hef, rfl⟩ := Option.map_eq_some_iff.1 hec
    have hmem := List.mem_of_getElem? hef
    obtain ⟨ty', hty', hregu⟩ := exRamp_regular ef hmem
    have : ty' = ty := by
      have h := hty
      simp only [exRampView, hty'] at h
      exact Except.ok.inj h
    subst this
    have hshape : Regular ty' fun _ : Unit => ef x :=
      ⟨hregu.kind, fun h _ => hregu.radius h x, fun _ _ _ => rfl, fun h _ => hregu.bent h x, fun _ _ _ => rfl, fun h _ => hregu.deflecting h x,
        fun h => ⟨fun _ => (hregu.lens h).1 x, fun _ _ => rfl, fun _ _ => rfl⟩⟩
    rcases hcase with ⟨t, ht, htn, hb⟩ | ⟨-, rfl, -⟩ | ⟨-, rfl, -⟩
    · refine ⟨t, ht, ?_, good_const hb (by rw [htn]; exact hshape)⟩
      exact exRamp_fine env x hmem (htn ▸ hty' x) (hb)
    · exact absurd hregu.kind (by unfold Straight; decide)
    · exact absurd hregu.kind (by unfold Straight; decide)
  exact ⟨m, R, hm, hR, herr, hB herr⟩

end Flame.Steady
