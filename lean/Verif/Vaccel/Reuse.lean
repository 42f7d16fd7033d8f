import Verif.Cavity.Reuse
import Verif.Vaccel.PropsReadback

/-! # C89 for the virtual accelerator -/

namespace Flame.Vaccel

open Flame.Mach
open Flame.Moment (MSt MDat MCls MElem Env Mat registry newState newState_shape stripperCls)
open Flame.Cavity (Files cavityCls AsNew C89_reuse history_sane forward_eq names_of)
open Flame.Linear (LCfg)
open Flame.Cavity.Spec (History FailedAt)
open Spec (behind)
open Flame.Cavity (exDriftL exFiles)

/-! ## what the steps of an IOC do to the machine -/

theorem getMeasure_history {cv : CView LCfg} {w : Mach.World LCfg MDat MSt} {es : List LCfg} {T : Nat → Prop} {q q' : Sim LCfg MDat MSt} {i o : Nat}
    (h : History cv w q.m es T) (hq : q.getMeasure i = .ok (q', o)) : History cv w q'.m es T := by
  unfold Sim.getMeasure at hq
  split at hq
  · cases hq
    exact h
  · split at hq
    · cases hq
    · rename_i e he
      split at hq
      · cases hq
      · cases hq
        exact h.observed i _ he

theorem measureInit_history {cv : CView LCfg} {w : Mach.World LCfg MDat MSt} {es : List LCfg} {T : Nat → Prop} {v : Params MSt}
    {alloc : Except Err MSt} {q : Sim LCfg MDat MSt} {g : MeasGroups} (h : History cv w q.m es T) :
    History cv w (measureInit v alloc q g).1.m es T := by
  unfold measureInit
  split
  · exact h
  split
  · split
    · exact h
    · split
      · exact h
      · split
        · exact h
        · exact h
        · exact h
        · rename_i hq
          have := getMeasure_history h hq
          split <;> exact this
  · exact h

theorem measureAll_history {cv : CView LCfg} {w : Mach.World LCfg MDat MSt} {es : List LCfg} {T : Nat → Prop} : ∀ (l : List Nat)
    {q : Sim LCfg MDat MSt}, History cv w q.m es T → History cv w (measureAll q l).1.m es T
  | [], _, h => h
  | pos :: l, q, h => by
    unfold measureAll
    split
    · exact h
    · split
      · exact h
      · exact h
      · exact h
      · rename_i hq
        exact measureAll_history l (getMeasure_history h hq)

theorem orbitInit_history {cv : CView LCfg} {w : Mach.World LCfg MDat MSt} {es : List LCfg} {T : Nat → Prop} {v : Params MSt}
    {alloc : Except Err MSt} {q : Sim LCfg MDat MSt} {g : OrbitGroups} (h : History cv w q.m es T) :
    History cv w (orbitInit v alloc q g).1.m es T := by
  unfold orbitInit
  split
  · exact h
  split
  · exact h
  dsimp only
  split
  · exact h
  have hk := measureAll_history (q.m.equalRangeType (String.ofList g.type)) h
  split
  · rename_i e; rw [e] at hk; exact hk
  · rename_i e; rw [e] at hk; exact hk
  · rename_i e; rw [e] at hk; exact hk
  · rename_i e
    rw [e] at hk
    split <;> exact hk

/-- Setting an element's values is accepted. -/
def Accepted (W : World LCfg MDat MSt) (q : Ioc LCfg MDat MSt) (i : Nat) (c : LCfg) : Prop :=
  (q.sim.m.reconfigure W.cv W.w i c).2 = .ok ()

theorem step_history {W : World LCfg MDat MSt} {es : List LCfg} {T : Nat → Prop}
    {q q' : Ioc LCfg MDat MSt} {op : Op LCfg} (h : History W.cv W.w q.sim.m es T) (hq : q.step W op = some q')
    (hv : op ≠ .simulate) : ∃ es' T', History W.cv W.w q'.sim.m es' T' ∧
      ∀ j, T' j → T j ∧ ∀ c, op = .change j c → ¬ Accepted W q j c := by
  cases op with
  | measure g =>
    have hk := measureInit_history (v := W.v) (alloc := W.alloc) (g := g) h
    unfold Ioc.step at hq
    dsimp only at hq
    split at hq
    · rename_i e; cases hq; rw [e] at hk; exact ⟨_, _, hk, fun j hj => ⟨hj, nofun⟩⟩
    · rename_i e; cases hq; rw [e] at hk; exact ⟨_, _, hk, fun j hj => ⟨hj, nofun⟩⟩
    · cases hq
  | orbit g =>
    have hk := orbitInit_history (v := W.v) (alloc := W.alloc) (g := g) h
    unfold Ioc.step at hq
    dsimp only at hq
    split at hq
    · rename_i e; cases hq; rw [e] at hk; exact ⟨_, _, hk, fun j hj => ⟨hj, nofun⟩⟩
    · rename_i e; cases hq; rw [e] at hk; exact ⟨_, _, hk, fun j hj => ⟨hj, nofun⟩⟩
    · cases hq
  | change idx c =>
    unfold Ioc.step at hq
    dsimp only at hq
    split at hq
    · cases hq
    · rename_i m' o hne hr
      cases hq
      by_cases ho : o = .ok ()
      · subst ho
        refine ⟨_, _, h.reconfigured idx c hr, fun j hj => ⟨hj.1, fun c' hc' => ?_⟩⟩
        cases hc'
        exact absurd rfl hj.2
      · refine ⟨_, _, h.refused idx c hr ho, fun j hj => ⟨hj, fun c' hc' ha => ho ?_⟩⟩
        cases hc'
        unfold Accepted at ha
        rw [hr] at ha
        exact ha
  | simulate => exact absurd rfl hv

theorem simulate_history {W : World LCfg MDat MSt} (hc : ∀ s, W.alloc = .ok s → Cavity.Spec.Complete s) {es : List LCfg}
    {T : Nat → Prop} {q q' : Ioc LCfg MDat MSt} (h : History W.cv W.w q.sim.m es T) (hT : ∀ j, ¬ T j)
    (hq : q.step W .simulate = some q') : ∃ T', History W.cv W.w q'.sim.m es T' ∧
      ∀ j, T' j → ∃ s R, W.alloc = .ok s ∧ propagate q.sim.m.elems ⟨0, false, s⟩ 0 (2 ^ 31 - 1) = some R ∧ FailedAt R j := by
  unfold Ioc.step at hq
  dsimp only at hq
  unfold Sim.simulate at hq
  cases ha : W.alloc with
  | error e =>
    rw [ha] at hq
    simp only [Option.map_some, Option.some.injEq] at hq
    subst hq
    exact ⟨T, h, fun j hj => absurd hj (hT j)⟩
  | ok s =>
    rw [ha] at hq
    simp only [Option.map_map, Option.map_eq_some_iff] at hq
    obtain ⟨r, hr, rfl⟩ := hq
    refine ⟨_, h.forward ⟨0, false, s⟩ 0 (2 ^ 31 - 1) (by decide) (hc s ha) hr fun j _ => hT j, fun j hj => ?_⟩
    exact ⟨s, r, rfl, hr, hj.resolve_left (hT j)⟩

/-- C89 in the virtual accelerator: records were connected, settings changed and simulations run in any order.  If a simulation
failed, new values were accepted for the element that threw the exception before the next simulation.  Then the states that
the records show after another simulation are those behind the elements of a machine newly built from the present settings. -/
theorem C89_vaccel {env : Env} {files : Files} {junk : Mat} {base : Nat} (W : World LCfg MDat MSt)
    (hw : W.w = registry env junk base (cavityCls env files junk base) (stripperCls env junk base))
    (ha : ∀ s, W.alloc = .ok s → newState junk (fun _ => none) = .ok s) (c : LCfg) (m0 : Machine LCfg MDat MSt)
    (h : Machine.new W.cv W.w c = .ok m0) {name : String} {ops : List (Op LCfg)} {q : Ioc LCfg MDat MSt}
    (hq : (Ioc.fresh name m0).runs W ops = some q)
    (hv : ∀ a b qa s R j, ops = a ++ .simulate :: b → (Ioc.fresh name m0).runs W a = some qa → W.alloc = .ok s →
      propagate qa.sim.m.elems ⟨0, false, s⟩ 0 (2 ^ 31 - 1) = some R → FailedAt R j →
      ∃ b₁ c b₂ qb, b = b₁ ++ .change j c :: b₂ ∧ .simulate ∉ b₁ ∧ (Ioc.fresh name m0).runs W (a ++ .simulate :: b₁) = some qb ∧
        (qb.sim.m.reconfigure W.cv W.w j c).2 = .ok ()) :
    History W.cv W.w q.sim.m (q.sim.m.elems.map (·.conf)) (fun _ => False) ∧
    ∀ c' m', W.cv.elems c' = .ok (q.sim.m.elems.map (·.conf)) → Machine.new W.cv W.w c' = .ok m' →
      ∀ s, W.alloc = .ok s → behind q s = passages (2 ^ 31 - 1) m'.elems ⟨0, false, s⟩ := by
  have hc : ∀ s, W.alloc = .ok s → Cavity.Spec.Complete s := by
    intro s hs
    obtain ⟨-, w1, w2, w3⟩ := newState_shape (ha s hs)
    exact ⟨w1, w2, w3⟩
  have key : ∀ (l pre : List (Op LCfg)) (p : Ioc LCfg MDat MSt), ops = pre ++ l → (Ioc.fresh name m0).runs W pre = some p →
      (∃ es T, History W.cv W.w p.sim.m es T ∧ ∀ j, T j → ∃ l₁ c l₂ pb, l = l₁ ++ .change j c :: l₂ ∧ .simulate ∉ l₁ ∧
        p.runs W l₁ = some pb ∧ Accepted W pb j c) →
      p.runs W l = some q → ∃ es, History W.cv W.w q.sim.m es (fun _ => False) := by
    intro l
    induction l with
    | nil =>
      intro pre p _ _ ⟨es, T, hes, hT⟩ hp
      cases hp
      have : T = fun _ => False := by
        funext j
        refine propext ⟨fun hj => ?_, fun h => h.elim⟩
        obtain ⟨l₁, c, l₂, pb, h1, -⟩ := hT j hj
        cases l₁ <;> cases h1
      exact ⟨es, this ▸ hes⟩
    | cons o l ih =>
      intro pre p hops hpre ⟨es, T, hes, hT⟩ hp
      unfold Ioc.runs at hp
      split at hp
      · cases hp
      rename_i p1 h1
      have hpre' : (Ioc.fresh name m0).runs W (pre ++ [o]) = some p1 := by
        rw [runs_append, hpre]
        show p.runs W [o] = _
        unfold Ioc.runs
        rw [h1]
        rfl
      refine ih (pre ++ [o]) p1 (by rw [hops]; simp) hpre' ?_ hp
      by_cases ho : o = .simulate
      · subst ho
        obtain ⟨T', hT1, hT2⟩ := simulate_history hc hes (fun j hj => by
          obtain ⟨l₁, c, l₂, pb, k1, k2, -⟩ := hT j hj
          cases l₁ with
          | nil => cases k1
          | cons x l₁ =>
            cases k1
            exact k2 (List.mem_cons_self ..)) h1
        refine ⟨es, T', hT1, fun j hj => ?_⟩
        obtain ⟨s, R, hs, hR, hF⟩ := hT2 j hj
        obtain ⟨b₁, c, b₂, qb, k1, k2, k3, k4⟩ := hv pre l p s R j hops hpre hs hR hF
        refine ⟨b₁, c, b₂, qb, k1, k2, ?_, k4⟩
        have : pre ++ Op.simulate :: b₁ = (pre ++ [.simulate]) ++ b₁ := by simp
        rw [this, runs_append, hpre'] at k3
        exact k3
      · obtain ⟨es', T', hT1, hT2⟩ := step_history hes h1 ho
        refine ⟨es', T', hT1, fun j hj => ?_⟩
        obtain ⟨hj1, hj2⟩ := hT2 j hj
        obtain ⟨l₁, c, l₂, pb, k1, k2, k3, k4⟩ := hT j hj1
        cases l₁ with
        | nil =>
          cases k1
          cases k3
          exact absurd k4 (hj2 c rfl)
        | cons x l₁ =>
          cases k1
          refine ⟨l₁, c, l₂, pb, rfl, fun hm => k2 (List.mem_cons_of_mem _ hm), ?_, k4⟩
          unfold Ioc.runs at k3
          rw [h1] at k3
          exact k3
  obtain ⟨sim', es0, -, hes0, -⟩ := C18_machine_matches_lattice W.cv _ c m0 h
  obtain ⟨es, hes⟩ := key ops [] (Ioc.fresh name m0) rfl rfl ⟨es0, _, .built h hes0, fun _ h => h.elim⟩ hq
  have hs := history_sane (by rw [hw] at hes; exact hes)
  have hconf : q.sim.m.elems.map (·.conf) = es := Cavity.conf_of hs.held
  rw [hconf]
  refine ⟨hes, fun c' m' hc' hm' s hal => ?_⟩
  exact (Cavity.run_asNew _ _ _ _ _ hs.held (names_of (by rw [hw] at hm'; exact hm') hc').held rfl (hc s hal)
    fun _ _ h => h).2.2.1.symm

/-- An element that multiplies with a given matrix; without the matrix it cannot be passed. -/
noncomputable def exMatrix (x : Option (List ℝ)) : LCfg := fun k =>
  if k = "type" then some (.str "tmatrix") else if k = "name" then some (.str "t") else if k = "matrix" then x.map .vec else none

/-- A lattice of one such element. -/
noncomputable def exMatrixView : CView LCfg where
  str c k := match c k with
    | some (.str x) => .ok x
    | _ => .error .keyError
  elems c := .ok (
    match c "given" with
    | none => [exMatrix none]
    | some _ => [exMatrix (some (List.replicate 49 1))])

theorem newState_empty (junk : Mat) : newState junk (fun _ => none) = .ok (Flame.Moment.newSingle junk (fun _ => none)) := by
  have : Flame.Moment.toSize 0 = some 0 := by
    unfold Flame.Moment.toSize
    rw [if_pos (by norm_num)]
    simp
  unfold newState
  simp [Flame.Moment.optNum, Flame.Linear.getVec, Flame.Linear.getNum, this]

/-- The hypotheses of `C89_vaccel` are met by an accelerator of a matrix that was forgotten: the simulation fails, the
matrix is set, and the next simulation goes through. -/
example (env : Env) (junk : Mat) (v : Params MSt) : ∃ (W : World LCfg MDat MSt) (c : LCfg) (m0 : Machine LCfg MDat MSt)
    (ops : List (Op LCfg)) (q : Ioc LCfg MDat MSt),
    W.w = registry env junk 0 (cavityCls env exFiles junk 0) (stripperCls env junk 0) ∧
    (∃ s, W.alloc = .ok s) ∧ (∀ s, W.alloc = .ok s → newState junk (fun _ => none) = .ok s) ∧ Machine.new W.cv W.w c = .ok m0 ∧
    ops = [.simulate, .change 0 (exMatrix (some (List.replicate 49 1)))] ∧ (Ioc.fresh "acc" m0).runs W ops = some q ∧
    (∃ q1, (Ioc.fresh "acc" m0).runs W [.simulate] = some q1 ∧ q1.sim.valid = false) ∧
    (∀ a b qa s R j, ops = a ++ .simulate :: b → (Ioc.fresh "acc" m0).runs W a = some qa → W.alloc = .ok s →
      propagate qa.sim.m.elems ⟨0, false, s⟩ 0 (2 ^ 31 - 1) = some R → FailedAt R j →
      ∃ b₁ c b₂ qb, b = b₁ ++ .change j c :: b₂ ∧ .simulate ∉ b₁ ∧ (Ioc.fresh "acc" m0).runs W (a ++ .simulate :: b₁) = some qb ∧
        (qb.sim.m.reconfigure W.cv W.w j c).2 = .ok ()) := by
  obtain ⟨hk, hreg⟩ := Flame.Moment.registered_shipped env junk 0 (cavityCls env exFiles junk 0) (stripperCls env junk 0)
  obtain ⟨m, hm⟩ := (C18_success_iff exMatrixView
    (registry env junk 0 (cavityCls env exFiles junk 0) (stripperCls env junk 0))
    (fun k => if k = "sim_type" then some (.str "MomentMatrix") else none)).2 ⟨"MomentMatrix", _, rfl, hk, rfl, by
      show ∀ ec ∈ [_], _
      simp only [List.mem_cons, List.not_mem_nil, or_false, forall_eq]
      exact ⟨"tmatrix", _, "t", _, rfl, hreg _ _ rfl, rfl, rfl, rfl⟩⟩
  have hes : exMatrixView.elems (fun k => if k = "sim_type" then some (.str "MomentMatrix") else none) = .ok [exMatrix none] := rfl
  have hF : List.Forall₂ (Cavity.MadeFrom env exFiles junk 0 exMatrixView) [exMatrix none] m.elems :=
    Flame.Moment.machine_moment hm hes
  have hlen : m.elems.length = 1 := hF.length_eq.symm
  obtain ⟨-, -, hsim, hinfo, -⟩ := new_ok hm
  have hsim : m.simtype = "MomentMatrix" := (Except.ok.inj hsim).symm
  obtain ⟨e, he, ht⟩ : ∃ e, m.elems[0]? = some e ∧ Cavity.MadeFrom env exFiles junk 0 exMatrixView (exMatrix none) e := by
    have hlt : 0 < m.elems.length := by omega
    obtain ⟨ec, k1, k2⟩ := Cavity.forall₂_get hF (List.getElem?_eq_getElem hlt)
    cases k1
    exact ⟨_, List.getElem?_eq_getElem hlt, k2⟩
  obtain ⟨hcls, hdat⟩ : e.cls = Flame.Moment.cls env junk 0 .tmatrix ∧
      Flame.Moment.build env junk .tmatrix (exMatrix none) = .ok e.dat := by
    obtain ⟨ty, hty, ⟨t, c1, c2, c3⟩ | ⟨-, rfl, -⟩ | ⟨-, rfl, -⟩⟩ := ht
    · obtain rfl : ty = "tmatrix" := (Except.ok.inj hty).symm
      obtain rfl : t = .tmatrix := Cavity.name_inj c2
      exact ⟨c1, c3⟩
    · exact absurd (Except.ok.inj hty) (by decide)
    · exact absurd (Except.ok.inj hty) (by decide)
  generalize hs0 : (⟨0, false, Flame.Moment.newSingle junk (fun _ => none)⟩ : St MSt) = s0
  have hr0 : s0.retreat = false := by rw [← hs0]
  have hn0 : s0.nextElem = 0 := by rw [← hs0]
  have hok : (e.cls.advance e.dat (stepNext s0)).2.2 = some .invalidArg := by
    rw [hcls]
    have e0 := Cavity.advanceBase_first (rec := Flame.Moment.recompute env .tmatrix) (s := stepNext s0)
      (fun d a b c e f => Flame.Moment.recompute_cached env .tmatrix d a b c e f) (Flame.Moment.build_length hdat).2.2.1
      (by unfold stepNext; split <;> exact hr0)
    have hp : ∃ p, (stepNext s0).payload.recalc.real = [p] := by
      have : (stepNext s0).payload = s0.payload := by
        unfold stepNext
        split <;> rfl
      rw [this, ← hs0]
      exact ⟨_, rfl⟩
    obtain ⟨p, hp⟩ := hp
    have e1 : Flame.Moment.recompute env .tmatrix e.dat (stepNext s0).payload.recalc.ref (stepNext s0).payload.recalc.real =
        .error .invalidArg := by
      rw [hp]
      unfold Flame.Moment.recompute
      dsimp only
      unfold Flame.Moment.forEach
      rw [(Flame.Moment.build_length hdat).2.1]
      rfl
    rw [e1] at e0
    exact congrArg Prod.fst e0
  have he0 : m.elems[s0.nextElem]? = some e := by rw [hn0]; exact he
  have hrun : run (2 ^ 31 - 1) m.elems s0 = _ := run_succ_err (n := 2 ^ 31 - 2) he0 hok
  generalize hR : run (2 ^ 31 - 1) m.elems s0 = R at hrun
  have hp : propagate m.elems s0 0 (2 ^ 31 - 1) = some R := by
    rw [Cavity.forward_eq _ _ _ _ (by decide), ← hR, ← hs0]
    rfl
  obtain ⟨W, w1, w2, w3⟩ : ∃ W : World LCfg MDat MSt, W.cv = exMatrixView ∧
      W.w = registry env junk 0 (cavityCls env exFiles junk 0) (stripperCls env junk 0) ∧
      W.alloc = .ok (Flame.Moment.newSingle junk (fun _ => none)) := ⟨⟨_, _, v, _⟩, rfl, rfl, rfl⟩
  obtain ⟨q1, h1, h4, h5⟩ : ∃ q1, (Ioc.fresh "acc" m).step W .simulate = some q1 ∧ q1.sim.m = { m with elems := R.elems } ∧
      q1.sim.valid = false := by
    unfold Ioc.step
    dsimp only
    unfold Sim.simulate
    rw [w3]
    dsimp only
    rw [hs0, show (Ioc.fresh "acc" m).sim.m.elems = m.elems from rfl, hp]
    refine ⟨_, rfl, rfl, ?_⟩
    show R.err.isNone = false
    rw [hrun]
    rfl
  have he1 : q1.sim.m.elems[0]? = some { e with dat := (e.cls.advance e.dat (stepNext s0)).1 } := by
    rw [h4]
    show R.elems[0]? = _
    rw [hrun]
    show (m.elems.set s0.nextElem _)[0]? = _
    rw [hn0, List.getElem?_set_self (by omega)]
  have h2 : (q1.sim.m.reconfigure W.cv W.w 0 (exMatrix (some (List.replicate 49 1)))).2 = .ok () := by
    rw [w1, w2]
    exact Cavity.reconfigure_ok (k := Flame.Moment.cls env junk 0 .tmatrix) (ty := "tmatrix") (nm := "t") he1
      (by rw [h4]; exact hinfo) (by rw [h4, show _ = _ from hsim]; exact hreg _ _ rfl) (by rw [hcls]) rfl rfl rfl
  obtain ⟨q2, h3⟩ : ∃ q2, q1.step W (.change 0 (exMatrix (some (List.replicate 49 1)))) = some q2 := by
    unfold Ioc.step
    dsimp only
    have h2' := h2
    generalize q1.sim.m.reconfigure W.cv W.w 0 (exMatrix (some (List.replicate 49 1))) = x at h2'
    obtain ⟨m', o⟩ := x
    dsimp only at h2'
    subst h2'
    exact ⟨_, rfl⟩
  have hone : (Ioc.fresh "acc" m).runs W [.simulate] = some q1 := by
    unfold Ioc.runs
    rw [h1]
    rfl
  refine ⟨W, _, m, _, q2, w2, ⟨_, w3⟩, fun s hs => ?_, by rw [w1, w2]; exact hm, rfl, ?_, ⟨q1, hone, h5⟩, ?_⟩
  · rw [w3] at hs
    rw [← Except.ok.inj hs]
    exact newState_empty junk
  · unfold Ioc.runs
    rw [h1]
    dsimp only
    unfold Ioc.runs
    rw [h3]
    rfl
  · intro a b qa s R' j hab hqa hs hR' hf
    cases a with
    | nil =>
      rw [List.nil_append] at hab
      obtain rfl := (List.cons.inj hab).2
      cases hqa
      rw [w3] at hs
      rw [← Except.ok.inj hs, hs0, show (Ioc.fresh "acc" m).sim.m.elems = m.elems from rfl, hp] at hR'
      cases hR'
      have hj := hf.2
      rw [hrun] at hj
      have hj : some (Event.visit s0.nextElem) = some (Event.visit (S := MSt) j) := hj
      rw [hn0] at hj
      cases hj
      exact ⟨[], _, [], q1, rfl, by simp, hone, h2⟩
    | cons x a =>
      rw [List.cons_append] at hab
      have := (List.cons.inj hab).2
      cases a with
      | nil => cases this
      | cons y a =>
        rw [List.cons_append] at this
        have := (List.cons.inj this).2
        simp at this

end Flame.Vaccel
