import Verif.Cavity.Reuse

/-! # C92: simulations from a source can be repeated -/

namespace Flame.Cavity

open Flame.Mach (Cls St Err CView World Machine propagate Elem Run run stepNext run_succ_none run_succ_err run_succ_ok propagate_eq new_ok
  C18_success_iff Event viewEvents passages sizeMod stepNext_fwd stepNext_retreat all_cls_set)
open Flame.Linear (LVal LCfg)
open Flame.Moment Flame.Moment.Spec
open Spec (Complete History Touched FailedAt)

/-! ## runs -/

section

variable {els els' : List (Elem LCfg MDat MSt)}

/-- A forward run does not look back. -/
theorem run_ahead : ∀ (n : Nat) (els els' : List (Elem LCfg MDat MSt)) (s : St MSt), (∀ e ∈ els, Keeps e.cls) →
    els.length < sizeMod → s.retreat = false → (∀ j, s.nextElem ≤ j → els'[j]? = els[j]?) →
    (run n els' s).st = (run n els s).st ∧ (run n els' s).err = (run n els s).err ∧ passages n els' s = passages n els s ∧
      (run n els' s).trace = (run n els s).trace
  | 0, _, _, _, _, _, _, _ => ⟨rfl, rfl, rfl, rfl⟩
  | n + 1, els, els', s, hk, hl, hr, ha => by
    unfold passages
    have h0 := ha s.nextElem (le_refl _)
    cases he : els[s.nextElem]? with
    | none =>
      rw [he] at h0
      rw [run_succ_none he, run_succ_none h0, h0]
      exact ⟨rfl, rfl, rfl, rfl⟩
    | some e =>
      rw [he] at h0
      rw [h0]
      dsimp only
      have hlt := lt_of_get he
      have hst := stepNext_fwd hr (show s.nextElem + 1 < sizeMod by omega)
      obtain ⟨k1, k2⟩ := hk e (List.mem_of_getElem? he) e.dat (stepNext s)
      cases h3 : (e.cls.advance e.dat (stepNext s)).2.2 with
      | some x =>
        rw [run_succ_err he h3, run_succ_err h0 h3]
        exact ⟨rfl, rfl, rfl, rfl⟩
      | none =>
        rw [run_succ_ok he h3, run_succ_ok h0 h3]
        dsimp only
        obtain ⟨r1, r2, r3, r4⟩ := run_ahead n (els.set s.nextElem { e with dat := (e.cls.advance e.dat (stepNext s)).1 })
          (els'.set s.nextElem { e with dat := (e.cls.advance e.dat (stepNext s)).1 })
          (e.cls.advance e.dat (stepNext s)).2.1 (all_cls_set _ he hk) (by simpa using hl)
          (by rw [k2, stepNext_retreat, hr]) (fun j hj => by
            rw [k1, hst] at hj
            dsimp only at hj
            rw [List.getElem?_set_ne (by omega), List.getElem?_set_ne (by omega)]
            exact ha j (by omega))
        exact ⟨r1, r2, by rw [r3], by rw [r4]⟩

/-- A forward run that reaches element `k` is a run from there on; in front of it nothing counts but the state. -/
theorem run_reach (k : Nat) : ∀ (n : Nat) (els : List (Elem LCfg MDat MSt)) (s : St MSt), (∀ e ∈ els, Keeps e.cls) →
    els.length < sizeMod → s.retreat = false → s.nextElem ≤ k → Touched (run n els s) k →
    ∃ (n' : Nat) (s' : St MSt), n' + k = n + s.nextElem ∧ 0 < n' ∧ s'.nextElem = k ∧ s'.retreat = false ∧
      (run n els s).st = (run n' els s').st ∧ (run n els s).err = (run n' els s').err ∧
      (passages n els s).filter (fun p => k ≤ p.1) = (passages n' els s').filter (fun p => k ≤ p.1) ∧
      ∀ j, Touched (run n' els s') j → Touched (run n els s) j
  | 0, _, _, _, _, _, _, ht => by simp [Touched, run] at ht
  | n + 1, els, s, hk, hl, hr, hs, ht => by
    rcases Nat.lt_or_ge s.nextElem k with hlt | hge
    · cases he : els[s.nextElem]? with
      | none =>
        unfold Touched at ht
        rw [run_succ_none he] at ht
        simp at ht
      | some e =>
        have hlen := lt_of_get he
        have hst := stepNext_fwd hr (show s.nextElem + 1 < sizeMod by omega)
        obtain ⟨k1, k2⟩ := hk e (List.mem_of_getElem? he) e.dat (stepNext s)
        cases h3 : (e.cls.advance e.dat (stepNext s)).2.2 with
        | some x =>
          unfold Touched at ht
          rw [run_succ_err he h3] at ht
          simp at ht
          omega
        | none =>
          have ht' := (visit_ok he h3 k).1 ht
          rcases ht' with ht' | ht'
          · omega
          have hn : (e.cls.advance e.dat (stepNext s)).2.1.nextElem = s.nextElem + 1 := by rw [k1, hst]
          have hr' : (e.cls.advance e.dat (stepNext s)).2.1.retreat = false := by rw [k2, stepNext_retreat, hr]
          have hk' := all_cls_set Keeps (x := (e.cls.advance e.dat (stepNext s)).1) he hk
          obtain ⟨n', s', a1, a2, a3, a4, a5, a6, a7, a8⟩ := run_reach k n _ _ hk' (by simpa using hl) hr' (by omega) ht'
          have hahead := run_ahead n' els (els.set s.nextElem { e with dat := (e.cls.advance e.dat (stepNext s)).1 }) s' hk hl a4
            (fun j hj => List.getElem?_set_ne (by omega))
          refine ⟨n', s', by omega, a2, a3, a4, ?_, ?_, ?_, ?_⟩
          · rw [run_succ_ok he h3]
            dsimp only
            rw [a5, hahead.1]
          · rw [run_succ_ok he h3]
            dsimp only
            rw [a6, hahead.2.1]
          · rw [← hahead.2.2.1, ← a7]
            conv_lhs => unfold passages
            rw [he]
            dsimp only
            rw [h3]
            simp only [Option.isSome_none, Bool.false_eq_true, if_false]
            rw [List.filter_cons_of_neg (by simpa using hlt)]
          · intro j hj
            refine (visit_ok he h3 j).2 (.inr (a8 j ?_))
            unfold Touched at hj ⊢
            rw [hahead.2.2.2]
            exact hj
    · obtain rfl : s.nextElem = k := by omega
      exact ⟨n + 1, s, by omega, by omega, rfl, hr, rfl, rfl, rfl, fun _ h => h⟩

/-- The element replaces the state. -/
def Resets (e : Elem LCfg MDat MSt) : Prop :=
  ∀ s s' : St MSt, s.retreat = false → s'.retreat = false → s.nextElem = s'.nextElem →
    e.cls.advance e.dat s = e.cls.advance e.dat s'

theorem run_forgets {k : Nat} {e : Elem LCfg MDat MSt} (he : els[k]? = some e) (hres : Resets e) (hl : els.length < sizeMod)
    (n : Nat) (s s' : St MSt) (h1 : s.nextElem = k) (h2 : s'.nextElem = k) (h3 : s.retreat = false) (h4 : s'.retreat = false)
    (hn : 0 < n) : (run n els s).st = (run n els s').st ∧ (run n els s).err = (run n els s').err ∧
      passages n els s = passages n els s' ∧ (run n els s).trace = (run n els s').trace := by
  obtain ⟨n, rfl⟩ : ∃ m, n = m + 1 := ⟨n - 1, by omega⟩
  have hlt := lt_of_get he
  have e1 : els[s.nextElem]? = some e := by rw [h1]; exact he
  have e2 : els[s'.nextElem]? = some e := by rw [h2]; exact he
  have hs := stepNext_fwd h3 (show s.nextElem + 1 < sizeMod by omega)
  have hs' := stepNext_fwd h4 (show s'.nextElem + 1 < sizeMod by omega)
  have hadv : e.cls.advance e.dat (stepNext s) = e.cls.advance e.dat (stepNext s') :=
    hres _ _ (by rw [stepNext_retreat, h3]) (by rw [stepNext_retreat, h4]) (by rw [hs, hs']; dsimp only; omega)
  unfold passages
  rw [e1, e2]
  dsimp only
  cases hx : (e.cls.advance e.dat (stepNext s)).2.2 with
  | some x =>
    have hx' : (e.cls.advance e.dat (stepNext s')).2.2 = some x := by rw [← hadv, hx]
    rw [run_succ_err e1 hx, run_succ_err e2 hx', hadv, hx', h1, h2]
    exact ⟨rfl, rfl, rfl, rfl⟩
  | none =>
    have hx' : (e.cls.advance e.dat (stepNext s')).2.2 = none := by rw [← hadv, hx]
    rw [run_succ_ok e1 hx, run_succ_ok e2 hx', hadv, hx', h1, h2]
    exact ⟨rfl, rfl, rfl, rfl⟩

end

/-! ## C92 -/

theorem source_of {env : Env} {files : Files} {junk : Mat} {base : Nat} {cv : CView LCfg} {ec : LCfg} {e : Elem LCfg MDat MSt}
    (h : AsNew env files junk base cv ec e) (hty : cv.str ec "type" = .ok "source") :
    ∃ i, e.cls = cls env junk base .source ∧ e.dat.istate = some i ∧ Complete i := by
  obtain ⟨-, ty, d, hty', ⟨t, c1, c2, c3, c4, -⟩ | ⟨-, rfl, -⟩ | ⟨-, rfl, -⟩⟩ := h
  · rw [hty] at hty'
    cases hty'
    obtain rfl : t = .source := name_inj c2
    obtain ⟨i, hi, -⟩ := source_state c3
    have h1 : e.dat.istate = some i := (congrArg MDat.istate c4).trans hi
    refine ⟨i, c1, h1, ?_⟩
    have hm : MadeFrom env files junk base cv ec { e with dat := d } := ⟨"source", hty, .inl ⟨.source, c1, rfl, c3⟩⟩
    have h2 : (e.cls.advance d exOnAxis).2 = ({ exOnAxis with payload := i }, none) := by
      rw [c1]
      show (advanceSource d exOnAxis).2 = _
      unfold advanceSource
      rw [hi]
      rfl
    have := hm.complete exOnAxis rfl ⟨rfl, rfl, rfl⟩ (by rw [h2])
    rw [h2] at this
    exact this
  · rw [hty] at hty'
    exact absurd (Except.ok.inj hty') (by decide)
  · rw [hty] at hty'
    exact absurd (Except.ok.inj hty') (by decide)

theorem source_resets {env : Env} {junk : Mat} {base : Nat} {e : Elem LCfg MDat MSt} {i : MSt}
    (h1 : e.cls = cls env junk base .source) (h2 : e.dat.istate = some i) : Resets e := by
  rintro ⟨k, b, P⟩ ⟨k', b', P'⟩ hr hr' hk
  obtain rfl : b = false := hr
  obtain rfl : b' = false := hr'
  obtain rfl : k = k' := hk
  rw [h1]
  show advanceSource _ _ = advanceSource _ _
  unfold advanceSource
  rw [h2]
  rfl

theorem Held.keeps {env : Env} {files : Files} {junk : Mat} {base : Nat} {cv : CView LCfg} {T : Nat → Prop} {es : List LCfg}
    {els : List (Elem LCfg MDat MSt)} (h : Held env files junk base cv T es els) : ∀ e ∈ els, Keeps e.cls := by
  intro e he
  obtain ⟨j, hj, rfl⟩ := List.getElem_of_mem he
  obtain ⟨ec, hec⟩ := h.get (List.getElem?_eq_getElem hj)
  obtain ⟨-, ty, d, hty, k⟩ := h.weak _ _ _ hec (List.getElem?_eq_getElem hj)
  rcases k with ⟨t, c1, c2, c3⟩ | ⟨c1, c2, c3, -⟩ | ⟨c1, c2, c3⟩
  · exact MadeFrom.keeps (files := files) (e := { els[j] with dat := d }) (cv := cv) ⟨ty, hty, .inl ⟨t, c1, c2, c3⟩⟩ |>.1
  · exact MadeFrom.keeps (files := files) (e := { els[j] with dat := d }) (cv := cv) ⟨ty, hty, .inr (.inl ⟨c1, c2, c3⟩)⟩ |>.1
  · exact MadeFrom.keeps (files := files) (e := { els[j] with dat := d }) (cv := cv) ⟨ty, hty, .inr (.inr ⟨c1, c2, c3⟩)⟩ |>.1

/-- C92: two machines with the same settings, of which each may have been built, used and reconfigured in its own way - for
instance one machine before and after some simulations.  A forward simulation of each, with any state, from any element on, up to
the same place.  If both reach a source, then from the source on the results are the same: the states behind all elements, the state
at the end and the exception, if there is one - provided no element to be distrusted is touched. -/
theorem C92_repeat {env : Env} {files : Files} {junk : Mat} {base : Nat} {cv : CView LCfg} {m m' : Machine LCfg MDat MSt}
    {es : List LCfg} {T T' : Nat → Prop}
    (h : History cv (registry env junk base (cavityCls env files junk base) (stripperCls env junk base)) m es T)
    (h' : History cv (registry env junk base (cavityCls env files junk base) (stripperCls env junk base)) m' es T')
    {k : Nat} {ec : LCfg} (hk : es[k]? = some ec) (hty : cv.str ec "type" = .ok "source") (hlen : es.length < 2 ^ 64)
    (s s' : St MSt) (start start' : Nat) (max max' : Int) (h0 : 0 ≤ max) (h0' : 0 ≤ max') (hs : start ≤ k) (hs' : start' ≤ k)
    (hend : (start : Int) + max = start' + max') {R R' : Run LCfg MDat MSt} (hR : propagate m.elems s start max = some R)
    (hR' : propagate m'.elems s' start' max' = some R') (ht : Touched R k) (ht' : Touched R' k)
    (hT : ∀ j, Touched R j → ¬ T j ∧ ¬ T' j) (hT' : ¬ T' k) :
    R'.st = R.st ∧ R'.err = R.err ∧
      (passages max'.natAbs m'.elems { s' with nextElem := start', retreat := false }).filter (fun p => k ≤ p.1) =
        (passages max.natAbs m.elems { s with nextElem := start, retreat := false }).filter (fun p => k ≤ p.1) := by
  have hh := (history_sane h).held
  have hh' := (history_sane h').held
  rw [forward_eq _ _ _ _ h0] at hR
  rw [forward_eq _ _ _ _ h0'] at hR'
  cases hR
  cases hR'
  have hl : m.elems.length < sizeMod := by rw [hh.len]; exact hlen
  have hl' : m'.elems.length < sizeMod := by rw [hh'.len]; exact hlen
  obtain ⟨n, s1, a1, a2, a3, a4, a5, a6, a7, a8⟩ := run_reach k _ _ _ hh.keeps hl rfl hs ht
  obtain ⟨n', s1', b1, b2, b3, b4, b5, b6, b7, -⟩ := run_reach k _ _ _ hh'.keeps hl' rfl hs' ht'
  dsimp only at a1 b1
  obtain rfl : n = n' := by omega
  obtain ⟨e, he⟩ : ∃ e, m.elems[k]? = some e := ⟨_, List.getElem?_eq_getElem (by rw [hh.len]; exact lt_of_get hk)⟩
  obtain ⟨e', he'⟩ : ∃ e', m'.elems[k]? = some e' := ⟨_, List.getElem?_eq_getElem (by rw [hh'.len]; exact lt_of_get hk)⟩
  obtain ⟨i, c1, c2, c3⟩ := source_of (hh.good _ _ _ hk he (hT k ht).1) hty
  obtain ⟨i', c1', c2', -⟩ := source_of (hh'.good _ _ _ hk he' hT') hty
  have f := run_forgets he (source_resets c1 c2) hl n s1 ⟨k, false, i⟩ a3 rfl a4 rfl a2
  have f' := run_forgets he' (source_resets c1' c2') hl' n s1' ⟨k, false, i⟩ b3 rfl b4 rfl a2
  obtain ⟨r1, r2, r3, -⟩ := run_asNew n (fun j => T j ∨ T' j) m.elems m'.elems ⟨k, false, i⟩ (hh.mono fun _ => .inl)
    (hh'.mono fun _ => .inr) rfl c3 (fun j hj => by
      have : Touched (run n m.elems s1) j := by
        unfold Touched at hj ⊢
        rw [f.2.2.2]
        exact hj
      have := hT j (a8 j this)
      tauto)
  refine ⟨?_, ?_, ?_⟩
  · rw [a5, b5, f.1, f'.1, r1]
  · rw [a6, b6, f.2.1, f'.2.1, r2]
  · rw [a7, b7, f.2.2.1, f'.2.2.1, r3]

/-- A source with the default beam. -/
noncomputable def exStart : LCfg := fun k =>
  if k = "type" then some (.str "source") else if k = "name" then some (.str "s") else none

/-- A source and a drift. -/
noncomputable def exStartView : CView LCfg where
  str c k := match c k with
    | some (.str x) => .ok x
    | _ => .error .keyError
  elems _ := .ok [exStart, exDriftL 1]

/-- The hypotheses of `C92_repeat` are met by a machine of a source and a drift, and the same machine after a simulation with
another state: the second simulation starts with the state the first one left. -/
example (env : Env) (junk : Mat) : ∃ m m' es T T' R R',
    History exStartView (registry env junk 0 (cavityCls env exFiles junk 0) (stripperCls env junk 0)) m es T ∧
    History exStartView (registry env junk 0 (cavityCls env exFiles junk 0) (stripperCls env junk 0)) m' es T' ∧
    es[0]? = some exStart ∧ exStartView.str exStart "type" = .ok "source" ∧ m'.elems = R.elems ∧
    propagate m.elems exOnAxis 0 2 = some R ∧ propagate m'.elems R.st 0 2 = some R' ∧ R.err = none ∧
    Touched R 0 ∧ Touched R' 0 ∧ ∀ j, ¬ T j ∧ ¬ T' j := by
  obtain ⟨hk, hreg⟩ := registered_shipped env junk 0 (cavityCls env exFiles junk 0) (stripperCls env junk 0)
  obtain ⟨i0, _, _, _, hnew, -⟩ := C54_single junk exStart (by simp [exStart]) (by simp [exStart])
  obtain ⟨d, hd⟩ : ∃ d, build env junk .source exStart = .ok d := by
    simp only [build, hnew]
    exact ⟨_, rfl⟩
  obtain ⟨m, hm⟩ := (C18_success_iff exStartView
    (registry env junk 0 (cavityCls env exFiles junk 0) (stripperCls env junk 0))
    (fun k => if k = "sim_type" then some (.str "MomentMatrix") else none)).2 ⟨"MomentMatrix", _, rfl, hk, rfl, by
      show ∀ ec ∈ [exStart, exDriftL 1], _
      simp only [List.mem_cons, List.not_mem_nil, or_false, forall_eq_or_imp, forall_eq]
      exact ⟨⟨"source", _, "s", d, rfl, hreg _ _ rfl, rfl, rfl, hd⟩, ⟨"drift", _, "d", _, rfl, hreg _ _ rfl, rfl, rfl, rfl⟩⟩⟩
  have hes : exStartView.elems (fun k => if k = "sim_type" then some (.str "MomentMatrix") else none) = .ok [exStart, exDriftL 1] := rfl
  have h0 := History.built hm hes
  have sane := history_sane h0
  have hl : m.elems.length = 2 := sane.held.len
  obtain ⟨e0, he0⟩ : ∃ e, m.elems[0]? = some e := ⟨_, List.getElem?_eq_getElem (by omega)⟩
  obtain ⟨e1, he1⟩ : ∃ e, m.elems[1]? = some e := ⟨_, List.getElem?_eq_getElem (by omega)⟩
  obtain ⟨i, c1, c2, c3⟩ := source_of (sane.held.good 0 _ _ rfl he0 id) rfl
  have a0 : ∀ s : St MSt, s.retreat = false → e0.cls.advance e0.dat s = (e0.dat, { s with payload := i }, none) := by
    intro s hs
    rw [c1]
    show advanceSource _ _ = _
    unfold advanceSource
    rw [c2, hs]
    rfl
  obtain ⟨c4, c5⟩ : e1.cls = cls env junk 0 .drift ∧ build env junk .drift (exDriftL 1) = .ok e1.dat := by
    have hF : List.Forall₂ (MadeFrom env exFiles junk 0 exStartView) [exStart, exDriftL 1] m.elems := machine_moment hm hes
    obtain ⟨ec, k1, k2⟩ := forall₂_get hF he1
    cases k1
    obtain ⟨ty, hty, ⟨t, c1, c2, c3⟩ | ⟨-, rfl, -⟩ | ⟨-, rfl, -⟩⟩ := k2
    · obtain rfl : ty = "drift" := (Except.ok.inj hty).symm
      obtain rfl : t = .drift := name_inj c2
      exact ⟨c1, c3⟩
    · exact absurd (Except.ok.inj hty) (by decide)
    · exact absurd (Except.ok.inj hty) (by decide)
  have a1 : ∀ s : St MSt, s.retreat = false → (e1.cls.advance e1.dat s).2.2 = none := by
    intro s hs
    rw [c4]
    have e0 := advanceBase_first (rec := recompute env .drift) (s := s)
      (fun d a b c e f => recompute_cached env .drift d a b c e f) (build_length c5).2.2.1 hs
    exact congrArg Prod.fst e0
  have ht : ∀ (els : List (Elem LCfg MDat MSt)) (n : Nat) (s : St MSt), 0 < els.length → s.nextElem = 0 →
      Touched (run (n + 1) els s) 0 := by
    intro els n s hlen hs
    obtain ⟨e, he⟩ : ∃ e, els[s.nextElem]? = some e := ⟨_, List.getElem?_eq_getElem (by omega)⟩
    cases h3 : (e.cls.advance e.dat (stepNext s)).2.2 with
    | some x =>
      unfold Touched
      rw [run_succ_err he h3, hs]
      simp
    | none => exact (visit_ok he h3 0).2 (.inl hs.symm)
  have hrun : (run 2 m.elems { exOnAxis with nextElem := 0, retreat := false }).err = none := by
    have hs : stepNext { exOnAxis with nextElem := 0, retreat := false } = { exOnAxis with nextElem := 1, retreat := false } := by
      rw [stepNext_fwd rfl (by decide)]
    have h3 := a0 (stepNext { exOnAxis with nextElem := 0, retreat := false }) (by rw [stepNext_retreat])
    rw [run_succ_ok (e := e0) he0 (by rw [h3])]
    dsimp only
    rw [h3]
    dsimp only
    rw [hs]
    have he1' : (m.elems.set 0 { e0 with dat := e0.dat })[1]? = some e1 := by
      rw [List.getElem?_set_ne (by decide)]
      exact he1
    rw [run_succ_ok (e := e1) he1' (a1 _ (by rw [stepNext_retreat]))]
    rfl
  have h1 := h0.forward exOnAxis 0 2 (by decide) ⟨rfl, rfl, rfl⟩ (forward_eq _ _ _ _ (by decide)) (fun _ _ h => h)
  refine ⟨m, _, _, _, _, _, _, h0, h1, rfl, rfl, rfl, forward_eq _ _ _ _ (by decide), forward_eq _ _ _ _ (by decide), hrun,
    ht _ _ _ (by omega) rfl, ht _ _ _ ?_ rfl, fun j => ⟨id, fun hj => hj.elim id fun hf => hf.1 hrun⟩⟩
  have := (history_sane h1).held.len
  dsimp only at this
  rw [this]
  decide

end Flame.Cavity
