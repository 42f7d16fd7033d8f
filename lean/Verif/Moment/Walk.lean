import Verif.Moment.Advance
import Verif.Moment.State
import Verif.Linear.Props

/-! # Propagation through moment elements: position -/

namespace Flame.Moment

open Flame.Mach
open Flame.Linear (LVal LCfg getNum getNumD getVec filterMap_range' filterMap_down)
open Flame.Linear.Spec (passed)
open Spec

abbrev MCls := Cls LCfg MDat MSt
abbrev MElem := Elem LCfg MDat MSt

section general

variable {C X S : Type}

/-- Elements of the class leave the place and the direction alone, whether they throw or not. -/
def Keeps (c : Cls C X S) : Prop :=
  ∀ x s, (c.advance x s).2.1.nextElem = s.nextElem ∧ (c.advance x s).2.1.retreat = s.retreat

theorem run_place_fwd (n : Nat) : ∀ (els : List (Elem C X S)) (s : St S),
    (∀ e ∈ els, Keeps e.cls) → els.length < sizeMod → s.retreat = false → (run n els s).err = none →
    visits (run n els s).trace = List.range' s.nextElem (min n (els.length - s.nextElem)) ∧
    (run n els s).st.nextElem = s.nextElem + min n (els.length - s.nextElem) := by
  induction n with
  | zero => intro els s _ _ _ _; simp [run, visits]
  | succ n ih =>
    intro els s hs hl hr he
    cases h : els[s.nextElem]? with
    | none =>
      have hge := List.getElem?_eq_none_iff.1 h
      rw [run_succ_none h]
      have : min (n + 1) (els.length - s.nextElem) = 0 := by omega
      simp [this, visits]
    | some e =>
      have hlt := (List.getElem?_eq_some_iff.1 h).1
      have hst := stepNext_fwd hr (show s.nextElem + 1 < sizeMod by omega)
      obtain ⟨h1, h2⟩ := hs e (List.mem_of_getElem? h) e.dat (stepNext s)
      cases h3 : (e.cls.advance e.dat (stepNext s)).2.2 with
      | some x => rw [run_succ_err h h3] at he; simp at he
      | none =>
        rw [run_succ_ok h h3] at he ⊢
        dsimp only at he ⊢
        rw [show min (n + 1) (els.length - s.nextElem) =
          (min n (els.length - (s.nextElem + 1))) + 1 by omega]
        have h1' : (e.cls.advance e.dat (stepNext s)).2.1.nextElem = s.nextElem + 1 := by
          rw [h1, hst]
        have h2' : (e.cls.advance e.dat (stepNext s)).2.1.retreat = false := by
          rw [h2, stepNext_retreat, hr]
        obtain ⟨i2, i3⟩ := ih
          (els.set s.nextElem { e with dat := (e.cls.advance e.dat (stepNext s)).1 })
          (e.cls.advance e.dat (stepNext s)).2.1 (all_cls_set _ h hs) (by simpa using hl) h2' he
        rw [h1', List.length_set] at i2 i3
        refine ⟨?_, ?_⟩
        · simp only [List.cons_append, visits, visits_append, visits_view, List.nil_append, i2]
          rw [List.range'_succ]
        · omega

theorem stepNext_down {s : St S} (h : s.retreat = true) (hs : s.nextElem < sizeMod) :
    (stepNext s).nextElem = if s.nextElem = 0 then sizeMod - 1 else s.nextElem - 1 := by
  rw [stepNext_bwd h]
  dsimp only
  have hp := sizeMod_pos
  split
  · rename_i h0
    rw [h0, Nat.zero_add, Nat.mod_eq_of_lt (by omega)]
  · rw [show s.nextElem + (sizeMod - 1) = (s.nextElem - 1) + sizeMod by omega, Nat.add_mod_right, Nat.mod_eq_of_lt (by omega)]

theorem run_place_bwd (n : Nat) : ∀ (els : List (Elem C X S)) (s : St S),
    (∀ e ∈ els, Keeps e.cls) → els.length < sizeMod → s.retreat = true → s.nextElem < els.length →
    (run n els s).err = none →
    visits (run n els s).trace = (List.range (min n (s.nextElem + 1))).map (fun j => s.nextElem - j) := by
  induction n with
  | zero => intro els s _ _ _ _ _; simp [run, visits]
  | succ n ih =>
    intro els s hs hl hr hlt he
    have h : els[s.nextElem]? = some els[s.nextElem] := List.getElem?_eq_getElem hlt
    generalize els[s.nextElem] = e at h
    have hst := stepNext_down hr (show s.nextElem < sizeMod by omega)
    obtain ⟨h1, h2⟩ := hs e (List.mem_of_getElem? h) e.dat (stepNext s)
    cases h3 : (e.cls.advance e.dat (stepNext s)).2.2 with
    | some x => rw [run_succ_err h h3] at he; simp at he
    | none =>
      rw [run_succ_ok h h3] at he ⊢
      dsimp only at he ⊢
      have h2' : (e.cls.advance e.dat (stepNext s)).2.1.retreat = true := by
        rw [h2, stepNext_retreat, hr]
      rw [hst] at h1
      by_cases h0 : s.nextElem = 0
      · rw [if_pos h0] at h1
        have hnone : (els.set s.nextElem { e with dat := (e.cls.advance e.dat (stepNext s)).1 })[(e.cls.advance e.dat (stepNext s)).2.1.nextElem]? = none :=
          List.getElem?_eq_none (by rw [h1, List.length_set]; omega)
        have hrun : (run n (els.set s.nextElem { e with dat := (e.cls.advance e.dat (stepNext s)).1 })
            (e.cls.advance e.dat (stepNext s)).2.1).trace = [] := by
          cases n with
          | zero => rfl
          | succ n => rw [run_succ_none hnone]
        rw [hrun, h0]
        rw [show min (n + 1) (0 + 1) = 1 by omega]
        simp [visits, visits_view]
      · rw [if_neg h0] at h1
        have i2 := ih
          (els.set s.nextElem { e with dat := (e.cls.advance e.dat (stepNext s)).1 })
          (e.cls.advance e.dat (stepNext s)).2.1 (all_cls_set _ h hs) (by simpa using hl) h2'
          (by rw [h1, List.length_set]; omega) he
        rw [h1] at i2
        simp only [List.cons_append, visits, visits_append, visits_view, List.nil_append, i2]
        rw [show min (n + 1) (s.nextElem + 1) = min n (s.nextElem - 1 + 1) + 1 by omega, List.range_succ_eq_map]
        simp only [List.map_cons, Nat.sub_zero, List.map_map]
        congr 1
        apply List.map_congr_left
        intro j _
        simp only [Function.comp_apply]
        omega

/-- A successful propagation passes the elements of the requested range. -/
theorem propagate_visits (els : List (Elem C X S)) (s : St S) (start : Nat) (max : Int)
    (hk : ∀ e ∈ els, Keeps e.cls) (hl : els.length < sizeMod)
    (he : (run max.natAbs els { s with nextElem := start, retreat := decide (max < 0) }).err = none)
    {β : Type} (l : List β) (hll : l.length = els.length) :
    (visits (run max.natAbs els { s with nextElem := start, retreat := decide (max < 0) }).trace).filterMap (l[·]?) =
      passed l start max := by
  unfold passed
  by_cases h0 : 0 ≤ max
  · have hr : decide (max < 0) = false := by simp; omega
    obtain ⟨hv, -⟩ := run_place_fwd max.natAbs els { s with nextElem := start, retreat := decide (max < 0) } hk hl hr he
    rw [hv, if_pos h0, ← hll, show max.natAbs = max.toNat by omega]
    exact filterMap_range' l _ _
  · rw [if_neg h0, hll]
    by_cases hst : start < els.length
    · have hv := run_place_bwd max.natAbs els { s with nextElem := start, retreat := decide (max < 0) } hk hl (by simp; omega) hst he
      rw [hv, if_pos hst]
      exact filterMap_down l start _ (by omega)
    · rw [if_neg hst]
      have hnone : els[({ s with nextElem := start, retreat := decide (max < 0) } : St S).nextElem]? = none :=
        List.getElem?_eq_none (by simpa using hst)
      cases hN : max.natAbs with
      | zero => simp [run, visits]
      | succ n => rw [run_succ_none hnone]; simp [visits]

end general

/-! ## lengths -/

/-- Elements of the class keep the place and, unless they throw, add their own length to the position or subtract it. -/
def Measured (c : MCls) : Prop :=
  Keeps c ∧ ∀ d s, (c.advance d s).1.length = d.length ∧
    ((c.advance d s).2.2 = none →
      (c.advance d s).2.1.payload.pos = s.payload.pos + sign s.retreat * d.length)

/-- The same for elements of length `L`. -/
def MeasuredAt (c : MCls) (L : ℝ) : Prop :=
  Keeps c ∧ ∀ d s, d.length = L → (c.advance d s).1.length = L ∧
    ((c.advance d s).2.2 = none → (c.advance d s).2.1.payload.pos = s.payload.pos + sign s.retreat * L)

theorem Measured.at {c : MCls} (h : Measured c) (L : ℝ) : MeasuredAt c L :=
  ⟨h.1, fun d s hd => by rw [← hd]; exact h.2 d s⟩

theorem particles_length {rec : MDat → Particle → List Particle → Except Err (List Mat)} {mv d S b} :
    (particles rec mv d S b).1.length = d.length := by
  unfold particles
  split
  · rfl
  · dsimp only
    split <;> rfl

theorem advanceBase_place (rec : MDat → Particle → List Particle → Except Err (List Mat)) (d : MDat) (s : St MSt) :
    ((advanceBase rec d s).2.1.nextElem = s.nextElem ∧ (advanceBase rec d s).2.1.retreat = s.retreat) ∧
    (advanceBase rec d s).1.length = d.length ∧
    ((advanceBase rec d s).2.2 = none →
      (advanceBase rec d s).2.1.payload.pos = s.payload.pos + sign s.retreat * d.length) := by
  have hl := particles_length (rec := rec) (mv := (·.drifted s.retreat d.length)) (d := d) (S := s.payload.recalc)
    (b := @decide (hit d s.payload.recalc) (Classical.propDecidable _))
  unfold advanceBase
  dsimp only
  split
  · rename_i heq
    rw [heq] at hl
    exact ⟨⟨rfl, rfl⟩, hl, fun h => by simp at h⟩
  · rename_i heq
    rw [heq] at hl
    split
    · split
      · exact ⟨⟨rfl, rfl⟩, hl, fun h => by simp at h⟩
      · rename_i hb
        simp only [backward, Prod.mk.injEq] at hb
        obtain ⟨rfl, -⟩ := hb
        exact ⟨⟨rfl, rfl⟩, hl, fun _ => rfl⟩
    · exact ⟨⟨rfl, rfl⟩, hl, fun _ => rfl⟩

theorem advanceBend_place (rec : MDat → Particle → List Particle → Except Err (List Mat)) (d : MDat) (s : St MSt) :
    ((advanceBend rec d s).2.1.nextElem = s.nextElem ∧ (advanceBend rec d s).2.1.retreat = s.retreat) ∧
    (advanceBend rec d s).1.length = d.length ∧
    ((advanceBend rec d s).2.2 = none →
      (advanceBend rec d s).2.1.payload.pos = s.payload.pos + sign s.retreat * d.length) := by
  have hl := particles_length (rec := rec) (mv := id) (d := d) (S := s.payload.recalc)
    (b := @decide (hit d s.payload.recalc) (Classical.propDecidable _))
  unfold advanceBend
  dsimp only
  split
  · rename_i heq
    rw [heq] at hl
    exact ⟨⟨rfl, rfl⟩, hl, fun h => by simp at h⟩
  · rename_i heq
    rw [heq] at hl
    split
    · split
      · exact ⟨⟨rfl, rfl⟩, hl, fun h => by simp at h⟩
      · rename_i hb
        simp only [backward, Prod.mk.injEq] at hb
        obtain ⟨rfl, -⟩ := hb
        exact ⟨⟨rfl, rfl⟩, hl, fun _ => rfl⟩
    · exact ⟨⟨rfl, rfl⟩, hl, fun _ => rfl⟩

theorem advanceSext_place (d : MDat) (s : St MSt) :
    ((advanceSext d s).2.1.nextElem = s.nextElem ∧ (advanceSext d s).2.1.retreat = s.retreat) ∧
    (advanceSext d s).1.length = d.length ∧
    ((advanceSext d s).2.2 = none →
      (advanceSext d s).2.1.payload.pos = s.payload.pos + sign s.retreat * d.length) := by
  unfold advanceSext
  split
  · dsimp only
    split
    · exact ⟨⟨rfl, rfl⟩, rfl, fun h => by simp at h⟩
    · rename_i hr
      split
      · exact ⟨⟨rfl, rfl⟩, rfl, fun h => by simp at h⟩
      · refine ⟨⟨rfl, rfl⟩, rfl, fun _ => ?_⟩
        have : s.retreat = false := by simpa using hr
        rw [this]
        simp [sign, MSt.calcRms, MSt.recalc]
  · exact ⟨⟨rfl, rfl⟩, rfl, fun h => by simp at h⟩

theorem measured_cls (env : Env) (junk : Mat) (base : Nat) (t : MType) (ht : t ≠ .source) : Measured (cls env junk base t) := by
  have key : ∀ d s, ((advance env t d s).2.1.nextElem = s.nextElem ∧ (advance env t d s).2.1.retreat = s.retreat) ∧
    (advance env t d s).1.length = d.length ∧
    ((advance env t d s).2.2 = none →
      (advance env t d s).2.1.payload.pos = s.payload.pos + sign s.retreat * d.length) := by
    intro d s
    cases t with
    | source => exact absurd rfl ht
    | sbend => exact advanceBend_place _ d s
    | sextupole => exact advanceSext_place d s
    | _ => exact advanceBase_place _ d s
  exact ⟨fun d s => (key d s).1, fun d s => (key d s).2⟩

theorem run_measured (n : Nat) : ∀ (els : List MElem) (s : St MSt), (∀ e ∈ els, MeasuredAt e.cls e.dat.length) →
    (run n els s).err = none →
    (run n els s).st.payload.pos = s.payload.pos + sign s.retreat *
      ((visits (run n els s).trace).filterMap ((els.map (·.dat.length))[·]?)).sum := by
  induction n with
  | zero => intro els s _ _; simp [run, visits]
  | succ n ih =>
    intro els s hp he
    cases h : els[s.nextElem]? with
    | none => rw [run_succ_none h]; simp [visits]
    | some e =>
      obtain ⟨hk, hm⟩ := hp e (List.mem_of_getElem? h)
      obtain ⟨hlen, hpos⟩ := hm e.dat (stepNext s) rfl
      cases h3 : (e.cls.advance e.dat (stepNext s)).2.2 with
      | some x => rw [run_succ_err h h3] at he; simp at he
      | none =>
        rw [run_succ_ok h h3] at he ⊢
        dsimp only at he ⊢
        have hmap : (els.set s.nextElem { e with dat := (e.cls.advance e.dat (stepNext s)).1 }).map (·.dat.length) =
            els.map (·.dat.length) := by
          rw [List.map_set]
          apply Linear.set_self
          rw [List.getElem?_map, h]
          simp [hlen]
        have hp' : ∀ e' ∈ els.set s.nextElem { e with dat := (e.cls.advance e.dat (stepNext s)).1 },
            MeasuredAt e'.cls e'.dat.length := by
          intro e' he'
          rcases List.mem_or_eq_of_mem_set he' with he' | rfl
          · exact hp e' he'
          · show MeasuredAt e.cls (e.cls.advance e.dat (stepNext s)).1.length
            rw [hlen]
            exact ⟨hk, hm⟩
        rw [ih _ _ hp' he, hmap]
        have hpay : (stepNext s).payload = s.payload := by unfold stepNext; split <;> rfl
        rw [hpos h3, (hk e.dat (stepNext s)).2, stepNext_retreat, hpay]
        have hget : (els.map (·.dat.length))[s.nextElem]? = some e.dat.length := by simp [h]
        simp only [List.cons_append, visits, visits_append, visits_view, List.nil_append, List.filterMap_cons, hget,
          List.sum_cons]
        ring

/-- Position, moment simulations: a successful propagation forward adds the lengths of the elements of the range, one
backward subtracts them. -/
theorem C30_moment_position (els : List MElem) (s : St MSt) (start : Nat) (max : Int)
    (hp : ∀ e ∈ els, MeasuredAt e.cls e.dat.length) (hl : els.length < sizeMod) (hm : max ≠ -2 ^ 31) :
    ∃ r, propagate els s start max = some r ∧ (r.err = none →
      r.st.payload.pos = s.payload.pos + (if 0 ≤ max then 1 else -1) * (passed (els.map (·.dat.length)) start max).sum) := by
  refine ⟨_, propagate_eq els s start max hm, fun he => ?_⟩
  rw [run_measured _ _ _ hp he,
    propagate_visits els s start max (fun e h => (hp e h).1) hl he _ (by simp)]
  congr 2
  simp only [sign]
  by_cases h : 0 ≤ max
  · rw [if_pos h, if_neg (by simp; omega)]
  · rw [if_neg h, if_pos (by simp; omega)]

/-! ## machines built from configurations -/

theorem specAll_from {C X S : Type} (h : List (WOp C X S)) : ∀ (r : AReg C X S) (sim ty : String) (b : Nat)
    (t : String → Option (Cls C X S)) (c : Cls C X S), WOp.specAll r h sim = some (b, t) → t ty = some c →
    (∃ b' t', r sim = some (b', t') ∧ t' ty = some c) ∨ WOp.element sim ty c ∈ h := by
  induction h with
  | nil => intro r sim ty b t c h1 h2; exact .inl ⟨b, t, h1, h2⟩
  | cons o h ih =>
    intro r sim ty b t c h1 h2
    rcases ih (o.spec r).1 sim ty b t c h1 h2 with ⟨b', t', h3, h4⟩ | hm
    · cases o with
      | state n k =>
        simp only [WOp.spec] at h3
        split at h3
        · exact .inl ⟨_, _, h3, h4⟩
        · dsimp only at h3
          split at h3
          · simp only [Option.some.injEq, Prod.mk.injEq] at h3
            rw [← h3.2] at h4
            simp at h4
          · exact .inl ⟨_, _, h3, h4⟩
      | element s e k =>
        simp only [WOp.spec] at h3
        split at h3
        · exact .inl ⟨_, _, h3, h4⟩
        · rename_i b0 t0 hs
          split at h3
          · exact .inl ⟨_, _, h3, h4⟩
          · dsimp only at h3
            split at h3
            · rename_i hsim
              simp only [Option.some.injEq, Prod.mk.injEq] at h3
              rw [← h3.2] at h4
              dsimp only at h4
              split at h4
              · rename_i hty
                simp only [Option.some.injEq] at h4
                subst hsim hty h4
                exact .inr (by simp)
              · subst hsim
                exact .inl ⟨_, _, hs, h4⟩
            · exact .inl ⟨_, _, h3, h4⟩
      | cleanup => simp [WOp.spec] at h3
    · exact .inr (by simp [hm])

/-- A registered class is one of those registered. -/
theorem registered_from {C X S : Type} {h : List (WOp C X S)} {sim ty : String} {c : Cls C X S}
    (hr : Registered (WOp.runAll World.empty h) sim ty c) : WOp.element sim ty c ∈ h := by
  obtain ⟨i, p, h1, h2, h3⟩ := hr
  have ha : (WOp.runAll World.empty h).abs sim =
      some (i.builder, fun e => (i.elements.find e).bind (WOp.runAll World.empty h).deref) := by
    simp [World.abs, h1]
  rw [(C26_registry_refines _).1] at ha
  rcases specAll_from h _ sim ty _ _ c ha (by simp [h2, h3]) with ⟨_, _, h4, _⟩ | hm
  · simp at h4
  · exact hm

theorem specAll_elements {C X S : Type} (sim : String) : ∀ (l : List (String × Cls C X S)) (r : AReg C X S) (b : Nat)
    (t : String → Option (Cls C X S)), r sim = some (b, t) →
    ∃ t', WOp.specAll r (l.map (fun q => WOp.element sim q.1 q.2)) sim = some (b, t') ∧
      ∀ ty, t' ty = (t ty).or (l.lookup ty)
  | [], r, b, t, h => ⟨t, h, fun ty => by simp⟩
  | (e, k) :: l, r, b, t, h => by
    by_cases he : (t e).isSome
    · have hs : ((WOp.element sim e k).spec r).1 = r := by simp [WOp.spec, h, he]
      obtain ⟨t', h1, h2⟩ := specAll_elements sim l r b t h
      refine ⟨t', ?_, fun ty => ?_⟩
      · show WOp.specAll ((WOp.element sim e k).spec r).1 _ sim = _
        rw [hs, h1]
      · rw [h2, List.lookup_cons]
        by_cases hty : ty = e
        · subst hty
          obtain ⟨x, hx⟩ := Option.isSome_iff_exists.1 he
          rw [hx]
          rfl
        · rw [show (ty == e) = false by simpa using hty]
    · have hs : ((WOp.element sim e k).spec r).1 sim = some (b, fun f => if f = e then some k else t f) := by
        simp [WOp.spec, h, he]
      obtain ⟨t', h1, h2⟩ := specAll_elements sim l ((WOp.element sim e k).spec r).1 b _ hs
      refine ⟨t', h1, fun ty => ?_⟩
      rw [h2, List.lookup_cons]
      by_cases hty : ty = e
      · subst hty
        have : t ty = none := by simpa using he
        simp [this]
      · rw [if_neg hty, show (ty == e) = false by simpa using hty]

theorem registered_of_abs {C X S : Type} {w : World C X S} {sim ty : String} {b : Nat} {t : String → Option (Cls C X S)}
    {c : Cls C X S} (h : w.abs sim = some (b, t)) (hc : t ty = some c) : Registered w sim ty c := by
  unfold World.abs at h
  cases hi : w.infos.find sim with
  | none => rw [hi] at h; simp at h
  | some i =>
    rw [hi] at h
    simp only [Option.map_some, Option.some.injEq, Prod.mk.injEq] at h
    obtain ⟨-, rfl⟩ := h
    obtain ⟨p, h1, h2⟩ := Option.bind_eq_some_iff.1 hc
    exact ⟨i, p, hi, h1, h2⟩

/-- What `registerMoment` registers. -/
noncomputable def shipped (env : Env) (junk : Mat) (base : Nat) (cavity stripper : MCls) : List (String × MCls) :=
  [("source", cls env junk base .source), ("marker", cls env junk base .marker), ("bpm", cls env junk base .bpm),
   ("drift", cls env junk base .drift), ("orbtrim", cls env junk base .orbtrim), ("sbend", cls env junk base .sbend),
   ("quadrupole", cls env junk base .quadrupole), ("sextupole", cls env junk base .sextupole),
   ("solenoid", cls env junk base .solenoid), ("rfcavity", cavity), ("stripper", stripper),
   ("edipole", cls env junk base .edipole), ("equad", cls env junk base .equad), ("tmatrix", cls env junk base .tmatrix)]

theorem registered_shipped (env : Env) (junk : Mat) (base : Nat) (cavity stripper : MCls) :
    KnownSim (registry env junk base cavity stripper) "MomentMatrix" ∧ ∀ ty c,
      (shipped env junk base cavity stripper).lookup ty = some c →
      Registered (registry env junk base cavity stripper) "MomentMatrix" ty c := by
  obtain ⟨t, h1, h2⟩ := specAll_elements "MomentMatrix" (shipped env junk base cavity stripper)
    (fun m => if m = "MomentMatrix" then some (base, fun _ => none) else none) base (fun _ => none) (if_pos rfl)
  have ha : (registry env junk base cavity stripper).abs "MomentMatrix" = some (base, t) := by
    unfold registry
    rw [(C26_registry_refines _).1]
    exact h1
  refine ⟨?_, fun ty c hc => registered_of_abs ha (by rw [h2, hc]; rfl)⟩
  unfold World.abs at ha
  cases hi : (registry env junk base cavity stripper).infos.find "MomentMatrix" with
  | none => rw [hi] at ha; simp at ha
  | some i => exact ⟨i, hi⟩

theorem registered_moment {env : Env} {junk : Mat} {base : Nat} {cavity stripper : MCls} {sim' ty : String} {c : MCls}
    (h : Registered (registry env junk base cavity stripper) sim' ty c) :
    (∃ t : MType, c = cls env junk base t ∧ t.name = ty) ∨ (c = cavity ∧ ty = "rfcavity") ∨
      (c = stripper ∧ ty = "stripper") := by
  have := registered_from h
  simp only [List.mem_cons, reduceCtorEq, WOp.element.injEq, List.not_mem_nil, or_false, false_or] at this
  rcases this with h | h | h | h | h | h | h | h | h | h | h | h | h | h
  · exact .inl ⟨.source, h.2.2, h.2.1.symm⟩
  · exact .inl ⟨.marker, h.2.2, h.2.1.symm⟩
  · exact .inl ⟨.bpm, h.2.2, h.2.1.symm⟩
  · exact .inl ⟨.drift, h.2.2, h.2.1.symm⟩
  · exact .inl ⟨.orbtrim, h.2.2, h.2.1.symm⟩
  · exact .inl ⟨.sbend, h.2.2, h.2.1.symm⟩
  · exact .inl ⟨.quadrupole, h.2.2, h.2.1.symm⟩
  · exact .inl ⟨.sextupole, h.2.2, h.2.1.symm⟩
  · exact .inl ⟨.solenoid, h.2.2, h.2.1.symm⟩
  · exact .inr (.inl ⟨h.2.2, h.2.1⟩)
  · exact .inr (.inr ⟨h.2.2, h.2.1⟩)
  · exact .inl ⟨.edipole, h.2.2, h.2.1.symm⟩
  · exact .inl ⟨.equad, h.2.2, h.2.1.symm⟩
  · exact .inl ⟨.tmatrix, h.2.2, h.2.1.symm⟩

theorem build_length {env : Env} {junk : Mat} {t : MType} {c : LCfg} {d : MDat} (h : build env junk t c = .ok d) :
    d.length = lengthOf t.name c ∧ d.conf = c ∧ d.refIn = none ∧ Sized d := by
  have hD : (match c "L" with | some (.num x) => x | _ => 0) = getNumD c "L" 0 := rfl
  cases t <;> simp only [build] at h
  case source =>
    split at h
    · simp at h
    · simp at h
    · simp only [Except.ok.injEq] at h
      subst h
      exact ⟨rfl, rfl, rfl, rfl⟩
  case sbend =>
    split at h
    · simp at h
    · split at h
      · simp only [Except.ok.injEq] at h
        subst h
        exact ⟨rfl, rfl, rfl, rfl⟩
      · simp at h
  all_goals
    simp only [Except.ok.injEq] at h
    subst h
    exact ⟨rfl, rfl, rfl, rfl⟩

/-- A machine of the moment simulation, seen through its lattice. -/
theorem machine_moment {env : Env} {junk : Mat} {base : Nat} {cavity stripper : MCls} {cv : CView LCfg} {c : LCfg}
    {m : Machine LCfg MDat MSt} (h : Machine.new cv (registry env junk base cavity stripper) c = .ok m)
    {es : List LCfg} (hes : cv.elems c = .ok es) :
    List.Forall₂ (fun ec e => ∃ ty, cv.str ec "type" = .ok ty ∧
      ((∃ t : MType, e.cls = cls env junk base t ∧ t.name = ty ∧ build env junk t ec = .ok e.dat) ∨
       (e.cls = cavity ∧ ty = "rfcavity" ∧ cavity.build ec = .ok e.dat) ∨
       (e.cls = stripper ∧ ty = "stripper" ∧ stripper.build ec = .ok e.dat))) es m.elems := by
  obtain ⟨sim', es', _, hes', _, _, hl, hall⟩ := C18_machine_matches_lattice cv _ c m h
  rw [hes] at hes'
  cases hes'
  rw [List.forall₂_iff_get]
  refine ⟨hl.symm, ?_⟩
  intro i h1 h2
  obtain ⟨e, c', he, hreg, hmade⟩ := hall i es[i] (List.getElem?_eq_getElem h1)
  rw [List.getElem?_eq_getElem h2] at he
  cases he
  refine ⟨_, hmade.type, ?_⟩
  rcases registered_moment hreg with ⟨t, ht, hn⟩ | ⟨hc, hn⟩ | ⟨hc, hn⟩
  · exact .inl ⟨t, by rw [← ht]; exact hmade.cls, hn, by have := hmade.dat; rw [ht] at this; exact this⟩
  · exact .inr (.inl ⟨by rw [← hc]; exact hmade.cls, hn, by have := hmade.dat; rw [hc] at this; exact this⟩)
  · exact .inr (.inr ⟨by rw [← hc]; exact hmade.cls, hn, by have := hmade.dat; rw [hc] at this; exact this⟩)

/-- The same from the lattice as configured: a successful propagation forward adds the configured lengths of the entries
of the range, one backward subtracts them.  The classes of RF cavity and stripper are arbitrary ones with this
property, see `C30_moment_full` for the registered ones. -/
theorem C30_moment_machine {env : Env} {junk : Mat} {base : Nat} {cavity stripper : MCls}
    (hcav : ∀ c d, cavity.build c = .ok d → d.length = lengthOf "rfcavity" c ∧ MeasuredAt cavity d.length)
    (hstr : ∀ c d, stripper.build c = .ok d → d.length = lengthOf "stripper" c ∧ MeasuredAt stripper d.length)
    (cv : CView LCfg) (c : LCfg)
    (m : Machine LCfg MDat MSt) (h : Machine.new cv (registry env junk base cavity stripper) c = .ok m)
    (es : List LCfg) (hes : cv.elems c = .ok es) (hns : ∀ ec ∈ es, cv.str ec "type" ≠ .ok "source")
    (hl : es.length < sizeMod) (s : St MSt) (start : Nat) (max : Int) (hm : max ≠ -2 ^ 31) :
    ∃ r, propagate m.elems s start max = some r ∧ (r.err = none →
      ∃ tys, List.Forall₂ (fun ec ty => cv.str ec "type" = .ok ty) (passed es start max) tys ∧
      r.st.payload.pos = s.payload.pos +
        (if 0 ≤ max then 1 else -1) * (List.zipWith lengthOf tys (passed es start max)).sum) := by
  have hF := machine_moment h hes
  have hp : ∀ e ∈ m.elems, MeasuredAt e.cls e.dat.length := by
    intro e he
    obtain ⟨i, hi, rfl⟩ := List.getElem_of_mem he
    have hlen := hF.length_eq
    have := (List.forall₂_iff_get.1 hF).2 i (by omega) hi
    obtain ⟨ty, hty, ⟨t, h1, h2, -⟩ | ⟨h1, -, h3⟩ | ⟨h1, -, h3⟩⟩ := this
    · simp only [List.get_eq_getElem] at h1 hty
      rw [h1]
      refine (measured_cls _ _ _ _ ?_).at _
      rintro rfl
      exact hns _ (List.getElem_mem _) (by rw [hty, ← h2]; rfl)
    · simp only [List.get_eq_getElem] at h1
      rw [h1]; exact (hcav _ _ h3).2
    · simp only [List.get_eq_getElem] at h1
      rw [h1]; exact (hstr _ _ h3).2
  obtain ⟨r, hr, hpos⟩ := C30_moment_position m.elems s start max hp (by rw [← hF.length_eq]; exact hl) hm
  refine ⟨r, hr, fun he => ?_⟩
  have hF2 : List.Forall₂ (fun ec x => ∃ ty, cv.str ec "type" = .ok ty ∧ x = lengthOf ty ec) es
      (m.elems.map (·.dat.length)) := by
    rw [List.forall₂_map_right_iff]
    refine hF.imp ?_
    rintro ec e ⟨ty, hty, ⟨t, h1, rfl, h3⟩ | ⟨h1, rfl, h3⟩ | ⟨h1, rfl, h3⟩⟩
    · exact ⟨_, hty, (build_length h3).1⟩
    · exact ⟨_, hty, (hcav _ _ h3).1⟩
    · exact ⟨_, hty, (hstr _ _ h3).1⟩
  have part := Linear.passed_forall₂ hF2 start max
  rw [hpos he]
  clear hpos hF hF2 hp hr
  generalize passed (m.elems.map (·.dat.length)) start max = b at part
  generalize passed es start max = a at part
  have : ∃ tys, List.Forall₂ (fun ec ty => cv.str ec "type" = .ok ty) a tys ∧ b = List.zipWith lengthOf tys a := by
    induction part with
    | nil => exact ⟨[], .nil, rfl⟩
    | cons hd _ ih =>
      obtain ⟨ty, h1, h2⟩ := hd
      obtain ⟨tys, h3, h4⟩ := ih
      exact ⟨ty :: tys, .cons h1 h3, by rw [h2, h4]; rfl⟩
  obtain ⟨tys, h1, rfl⟩ := this
  exact ⟨tys, h1, rfl⟩

/-- A drift of 1 m, a quadrupole of 0.2 m and a marker. -/
noncomputable def exView : CView LCfg where
  str c k := match c k with
    | some (.str x) => .ok x
    | _ => .error .keyError
  elems _ := .ok [fun k => if k = "type" then some (.str "drift") else if k = "name" then some (.str "d")
      else if k = "L" then some (.num 1) else none,
    fun k => if k = "type" then some (.str "quadrupole") else if k = "name" then some (.str "q")
      else if k = "L" then some (.num 0.2) else if k = "B2" then some (.num 3) else none,
    fun k => if k = "type" then some (.str "marker") else if k = "name" then some (.str "m") else none]

/-- The hypotheses are met, for instance, if the cavity moves the beam like a drift and the stripper like a marker. -/
example (env : Env) (junk : Mat) :
    (∀ c d, (cls env junk 0 .drift).build c = .ok d →
      d.length = lengthOf "rfcavity" c ∧ MeasuredAt (cls env junk 0 .drift) d.length) ∧
    (∀ c d, (cls env junk 0 .marker).build c = .ok d →
      d.length = lengthOf "stripper" c ∧ MeasuredAt (cls env junk 0 .marker) d.length) ∧
    (∃ m, Machine.new exView (registry env junk 0 (cls env junk 0 .drift) (cls env junk 0 .marker))
      (fun k => if k = "sim_type" then some (.str "MomentMatrix") else none) = .ok m) ∧
    ∀ c es, exView.elems c = .ok es → es.length = 3 ∧ ∀ ec ∈ es, ∀ ty, exView.str ec "type" = .ok ty →
      ty ≠ "source" ∧ ty ≠ "sextupole" ∧ ty ≠ "rfcavity" ∧ ty ≠ "stripper" := by
  obtain ⟨hk, hreg⟩ := registered_shipped env junk 0 (cls env junk 0 .drift) (cls env junk 0 .marker)
  refine ⟨?_, ?_, ?_, ?_⟩
  · intro c d h
    refine ⟨?_, (measured_cls _ _ _ _ (by decide)).at _⟩
    rw [(build_length (env := env) (junk := junk) (t := .drift) h).1]
    simp [lengthOf, MType.name]
  · intro c d h
    refine ⟨?_, (measured_cls _ _ _ _ (by decide)).at _⟩
    rw [(build_length (env := env) (junk := junk) (t := .marker) h).1]
    simp [lengthOf, MType.name]
  · refine (C18_success_iff _ _ _).2 ⟨"MomentMatrix", _, rfl, hk, rfl, ?_⟩
    simp only [List.mem_cons, List.not_mem_nil, or_false, forall_eq_or_imp, forall_eq]
    exact ⟨⟨"drift", _, "d", _, rfl, hreg _ _ rfl, rfl, rfl, rfl⟩, ⟨"quadrupole", _, "q", _, rfl, hreg _ _ rfl, rfl, rfl, rfl⟩,
      ⟨"marker", _, "m", _, rfl, hreg _ _ rfl, rfl, rfl, rfl⟩⟩
  · intro c es h
    cases h
    refine ⟨rfl, ?_⟩
    simp [exView]

/-! ## sources -/

open Classical in
/-- The position an element sets, if it is a source, and its length. -/
noncomputable def mark (src : MCls) (e : MElem) : Option ℝ × ℝ :=
  (if e.cls = src then (e.dat.istate.map (·.pos)) else none, e.dat.length)

def posAct (p : ℝ) (q : Option ℝ × ℝ) : ℝ := q.1.getD (p + q.2)

theorem run_marked (env : Env) (junk : Mat) (base : Nat) (n : Nat) : ∀ (els : List MElem) (s : St MSt),
    (∀ e ∈ els, (e.cls = cls env junk base .source ∧ e.dat.istate.isSome) ∨
      (e.cls ≠ cls env junk base .source ∧ MeasuredAt e.cls e.dat.length)) → s.retreat = false →
    (run n els s).err = none →
    (run n els s).st.payload.pos =
      ((visits (run n els s).trace).filterMap ((els.map (mark (cls env junk base .source)))[·]?)).foldl posAct s.payload.pos := by
  induction n with
  | zero => intro els s _ _ _; simp [run, visits]
  | succ n ih =>
    intro els s hp hr he
    cases h : els[s.nextElem]? with
    | none => rw [run_succ_none h]; simp [visits]
    | some e =>
      have hst : (stepNext s).retreat = false := by rw [stepNext_retreat, hr]
      have hpay : (stepNext s).payload = s.payload := by unfold stepNext; split <;> rfl
      have hget : (els.map (mark (cls env junk base .source)))[s.nextElem]? = some (mark (cls env junk base .source) e) := by
        simp [h]
      cases h3 : (e.cls.advance e.dat (stepNext s)).2.2 with
      | some x => rw [run_succ_err h h3] at he; simp at he
      | none =>
        rw [run_succ_ok h h3] at he ⊢
        dsimp only at he ⊢
        have facts : (e.cls.advance e.dat (stepNext s)).2.1.retreat = false ∧
            (e.cls.advance e.dat (stepNext s)).2.1.payload.pos = posAct s.payload.pos (mark (cls env junk base .source) e) ∧
            mark (cls env junk base .source) { e with dat := (e.cls.advance e.dat (stepNext s)).1 } =
              mark (cls env junk base .source) e ∧
            ((e.cls = cls env junk base .source ∧ (e.cls.advance e.dat (stepNext s)).1.istate.isSome) ∨
              (e.cls ≠ cls env junk base .source ∧ MeasuredAt e.cls (e.cls.advance e.dat (stepNext s)).1.length)) := by
          rcases hp e (List.mem_of_getElem? h) with ⟨hc, hi⟩ | ⟨hc, hm⟩
          · obtain ⟨i, hi⟩ := Option.isSome_iff_exists.1 hi
            have hadv : e.cls.advance e.dat (stepNext s) = (e.dat, { stepNext s with payload := i }, none) := by
              rw [hc]
              show advanceSource e.dat (stepNext s) = _
              simp [advanceSource, hi, hst]
            rw [hadv]
            refine ⟨hst, ?_, rfl, .inl ⟨hc, by simp [hi]⟩⟩
            simp [mark, posAct, hc, hi]
          · obtain ⟨hk, hm'⟩ := hm
            obtain ⟨hlen, hpos⟩ := hm' e.dat (stepNext s) rfl
            refine ⟨by rw [(hk _ _).2, hst], ?_, ?_, .inr ⟨hc, by rw [hlen]; exact ⟨hk, hm'⟩⟩⟩
            · rw [hpos h3, hpay, hst]
              simp [mark, posAct, hc, sign]
            · simp [mark, hc, hlen]
        obtain ⟨f1, f2, f3, f4⟩ := facts
        have hmap : (els.set s.nextElem { e with dat := (e.cls.advance e.dat (stepNext s)).1 }).map
            (mark (cls env junk base .source)) = els.map (mark (cls env junk base .source)) := by
          rw [List.map_set]
          apply Linear.set_self
          rw [hget, f3]
        have hp' : ∀ e' ∈ els.set s.nextElem { e with dat := (e.cls.advance e.dat (stepNext s)).1 },
            (e'.cls = cls env junk base .source ∧ e'.dat.istate.isSome) ∨
              (e'.cls ≠ cls env junk base .source ∧ MeasuredAt e'.cls e'.dat.length) := by
          intro e' he'
          rcases List.mem_or_eq_of_mem_set he' with he' | rfl
          · exact hp e' he'
          · exact f4
        rw [ih _ _ hp' f1 he, hmap, f2]
        simp only [List.cons_append, visits, visits_append, visits_view, List.nil_append, List.filterMap_cons, hget,
          List.foldl_cons]

theorem posAct_none : ∀ (l : List (Option ℝ × ℝ)) (p : ℝ), (∀ q ∈ l, q.1 = none) →
    l.foldl posAct p = p + (l.map Prod.snd).sum
  | [], p, _ => by simp
  | q :: l, p, h => by
    rw [List.foldl_cons, posAct_none l _ (fun x hx => h x (by simp [hx]))]
    simp [posAct, h q (by simp), add_assoc]

/-- A source among the elements: after a successful forward propagation whose last source is followed by `post`, the
position is that of the initial state of the source plus the lengths of `post`, whatever it was before. -/
theorem C30_moment_source (env : Env) (junk : Mat) (base : Nat) (els : List MElem) (s : St MSt) (start : Nat) (max : Int)
    (hp : ∀ e ∈ els, (e.cls = cls env junk base .source ∧ e.dat.istate.isSome) ∨
      (e.cls ≠ cls env junk base .source ∧ MeasuredAt e.cls e.dat.length)) (hl : els.length < sizeMod) (h0 : 0 ≤ max)
    (pre post : List MElem) (src : MElem) (i : MSt) (hsplit : passed els start max = pre ++ src :: post)
    (hsrc : src.cls = cls env junk base .source) (hi : src.dat.istate = some i)
    (hpost : ∀ e ∈ post, e.cls ≠ cls env junk base .source) :
    ∃ r, propagate els s start max = some r ∧ (r.err = none →
      r.st.payload.pos = i.pos + (post.map (·.dat.length)).sum) := by
  have hk : ∀ e ∈ els, Keeps e.cls := by
    intro e he
    rcases hp e he with ⟨hc, -⟩ | ⟨-, hm⟩
    · rw [hc]
      intro d s
      show (advanceSource d s).2.1.nextElem = _ ∧ (advanceSource d s).2.1.retreat = _
      unfold advanceSource
      split
      · exact ⟨rfl, rfl⟩
      · split <;> exact ⟨rfl, rfl⟩
    · exact hm.1
  refine ⟨_, propagate_eq els s start max (by omega), fun he => ?_⟩
  rw [run_marked env junk base _ _ _ hp (by simp; omega) he,
    propagate_visits els s start max hk hl he _ (by simp), ← Linear.passed_map, hsplit]
  simp only [List.map_append, List.map_cons, List.foldl_append, List.foldl_cons]
  rw [posAct_none]
  · simp [posAct, mark, hsrc, hi, List.map_map, Function.comp_def]
  · intro q hq
    obtain ⟨e, he, rfl⟩ := List.mem_map.1 hq
    simp [mark, hpost e he]

/-- The hypotheses are met by a source between two drifts. -/
example (env : Env) (junk : Mat) (i : MSt) (d : MDat) (hd : d.istate = some i) :
    let drift : MElem := ⟨cls env junk 0 .drift, "d", 0, fun _ => none, none, { d with length := 1 }⟩
    let src : MElem := ⟨cls env junk 0 .source, "s", 1, fun _ => none, none, d⟩
    let els := [drift, src, drift]
    (∀ e ∈ els, (e.cls = cls env junk 0 .source ∧ e.dat.istate.isSome) ∨
      (e.cls ≠ cls env junk 0 .source ∧ MeasuredAt e.cls e.dat.length)) ∧
    passed els 0 3 = [drift] ++ src :: [drift] ∧ src.dat.istate = some i ∧
    ∀ e ∈ [drift], e.cls ≠ cls env junk 0 .source := by
  have hne : cls env junk 0 .drift ≠ cls env junk 0 .source := fun h => by
    have := congrArg Cls.typeName h
    simp [cls, MType.name] at this
  have hm := measured_cls env junk 0 .drift (by decide)
  refine ⟨?_, rfl, hd, by simp [hne]⟩
  simp only [List.mem_cons, List.not_mem_nil, or_false, forall_eq_or_imp, forall_eq]
  exact ⟨.inr ⟨hne, hm.at _⟩, .inl ⟨trivial, by simp [hd]⟩, .inr ⟨hne, hm.at _⟩⟩

/-- Initial states start at position 0 and have lists of equal length. -/
theorem newState_shape {junk : Mat} {c : LCfg} {s : MSt} (h : newState junk c = .ok s) : s.pos = 0 ∧ WF s := by
  have wf : ∀ ref l, (stateOf ref l).pos = 0 ∧ WF (stateOf ref l) := fun ref l =>
    ⟨rfl, by simp [WF, stateOf, MSt.calcRms]⟩
  unfold newState at h
  split at h
  · cases h
  · split at h
    · split at h
      · cases h
      · cases h
        exact wf _ _
    · split at h
      · cases h
      · rename_i hm
        cases h
        obtain ⟨-, -, nchg, -, -, l, -, rfl⟩ := newMany_ok.1 hm
        exact wf _ _

end Flame.Moment
