import Verif.Turn.Cavity
import Verif.Scale.Run
import Verif.Cavity.Settings

/-! # A beam line turned about its axis: whole machines (C97) -/

namespace Flame.Turn

open Flame.Mach (Elem Cls St Err Run CView Machine propagate run stepNext viewEvents sizeMod)
open Flame.Linear (LVal LCfg getNum getNumD getVec)
open Flame.Moment Flame.Cavity
open Flame.Scale (ERel watched_rel)
open Flame.Scale.Spec (Call Session watched)
open Flame.Turn.Spec

variable {a : ℝ} {c c' : LCfg}

/-! ## runs -/

section general
variable {C X S : Type}

/-- Two states at the same place with related payloads. -/
def SRel (R : S → S → Prop) (s s' : St S) : Prop := s'.nextElem = s.nextElem ∧ s'.retreat = s.retreat ∧ R s.payload s'.payload

theorem stepNext_rel {R : S → S → Prop} {s s' : St S} (h : SRel R s s') : SRel R (stepNext s) (stepNext s') := by
  obtain ⟨h1, h2, h3⟩ := h
  unfold stepNext
  rw [h1, h2]
  refine ⟨?_, ?_, ?_⟩ <;> split <;> first | rfl | exact h3

/-- What an element has to do for a relation of its data and of the states. -/
def Keeps (P : Cls C X S → X → X → Prop) (R : S → S → Prop) : Prop :=
  ∀ k d d' s s', P k d d' → SRel R s s' → (k.advance d' s').2.2 = (k.advance d s).2.2 ∧
    SRel R (k.advance d s).2.1 (k.advance d' s').2.1 ∧ ((k.advance d s).2.2 = none → P k (k.advance d s).1 (k.advance d' s').1)

/-- Two runs over related elements from related states stay related. -/
theorem run_rel {P : Cls C X S → X → X → Prop} {R : S → S → Prop} (hstep : Keeps P R)
    (n : Nat) : ∀ (els els' : List (Elem C X S)) (s s' : St S), List.Forall₂ (ERel P) els els' → SRel R s s' →
      (run n els' s').err = (run n els s).err ∧ SRel R (run n els s).st (run n els' s').st ∧
      List.Forall₂ (Cavity.Spec.Seen R) (run n els s).trace (run n els' s').trace ∧
      ((run n els s).err = none → List.Forall₂ (ERel P) (run n els s).elems (run n els' s').elems) := by
  induction n with
  | zero => intro els els' s s' h hs; exact ⟨rfl, hs, .nil, fun _ => h⟩
  | succ n ih =>
    intro els els' s s' h hs
    have hlen := h.length_eq
    have hne : s'.nextElem = s.nextElem := hs.1
    cases he : els[s.nextElem]? with
    | none =>
      rw [Flame.Mach.run_succ_none he, Flame.Mach.run_succ_none (by
        rw [hne]
        rw [List.getElem?_eq_none_iff] at he ⊢
        omega)]
      exact ⟨rfl, hs, .nil, fun _ => h⟩
    | some e =>
      have hlt : s.nextElem < els.length := (List.getElem?_eq_some_iff.1 he).1
      have hE : ERel P els[s.nextElem] els'[s.nextElem] := (List.forall₂_iff_get.1 h).2 s.nextElem hlt (by omega)
      have he' : els'[s'.nextElem]? = some els'[s.nextElem] := by
        rw [hne]
        exact List.getElem?_eq_getElem _
      have hee : els[s.nextElem] = e := by rw [List.getElem?_eq_getElem hlt] at he; exact Option.some.inj he
      rw [hee] at hE
      generalize els'[s.nextElem] = e' at hE he'
      obtain ⟨k1, k2, k3, k4⟩ := hE
      obtain ⟨s1, s2, s3⟩ := hstep e.cls e.dat e'.dat (stepNext s) (stepNext s') k4 (stepNext_rel hs)
      cases h3 : (e.cls.advance e.dat (stepNext s)).2.2 with
      | some x =>
        rw [Flame.Mach.run_succ_err he h3, Flame.Mach.run_succ_err he' (by rw [k1, s1]; exact h3), hne]
        refine ⟨rfl, ?_, .cons (.visit _) .nil, fun h => by cases h⟩
        rw [k1]
        exact s2
      | none =>
        rw [Flame.Mach.run_succ_ok he h3, Flame.Mach.run_succ_ok he' (by rw [k1, s1]; exact h3), hne]
        dsimp only
        rw [k1]
        obtain ⟨i1, i2, i3, i4⟩ := ih (els.set s.nextElem { e with dat := (e.cls.advance e.dat (stepNext s)).1 })
          (els'.set s.nextElem { e' with cls := e.cls, dat := (e.cls.advance e'.dat (stepNext s')).1 })
          (e.cls.advance e.dat (stepNext s)).2.1 (e.cls.advance e'.dat (stepNext s')).2.1 (by
            rw [List.forall₂_iff_get]
            refine ⟨by simp only [List.length_set]; exact hlen, ?_⟩
            intro i h1 h2
            simp only [List.get_eq_getElem, List.getElem_set]
            split
            · exact ⟨rfl, k2, k3, s3 h3⟩
            · exact (List.forall₂_iff_get.1 h).2 i (by simpa using h1) (by simpa using h2)) s2
        refine ⟨i1, i2, ?_, i4⟩
        rw [List.cons_append, List.cons_append]
        refine .cons (.visit _) (List.rel_append ?_ i3)
        unfold viewEvents
        rw [k2]
        cases e.obs with
        | none => exact .nil
        | some o =>
          rw [k3]
          exact .cons (.view _ _ s2.2.2 s2.1 s2.2.1) .nil

/-- Two sessions with related calls stay related. -/
theorem session_rel {P : Cls C X S → X → X → Prop} {R : S → S → Prop} (hstep : Keeps P R)
    {els els' : List (Elem C X S)} {calls calls' : List (Call S)} {rs : List (Run C X S)} (h : List.Forall₂ (ERel P) els els')
    (hc : List.Forall₂ (fun x y => y.watch = x.watch ∧ y.start = x.start ∧ y.max = x.max ∧ R x.state.payload y.state.payload) calls calls')
    (hs : Session els calls rs) : ∃ rs', Session els' calls' rs' ∧
      List.Forall₂ (fun r r' => r'.err = r.err ∧ SRel R r.st r'.st ∧
        List.Forall₂ (Cavity.Spec.Seen R) r.trace r'.trace) rs rs' := by
  have one : ∀ {els els' : List (Elem C X S)} {x y : Call S} {r}, List.Forall₂ (ERel P) els els' →
      (y.watch = x.watch ∧ y.start = x.start ∧ y.max = x.max ∧ R x.state.payload y.state.payload) →
      propagate (watched x.watch els) x.state x.start x.max = some r →
      ∃ r', propagate (watched y.watch els') y.state y.start y.max = some r' ∧ (r'.err = r.err ∧ SRel R r.st r'.st ∧
        List.Forall₂ (Cavity.Spec.Seen R) r.trace r'.trace) ∧ (r.err = none → List.Forall₂ (ERel P) r.elems r'.elems) := by
    intro els els' x y r h ⟨b1, b2, b3, b4⟩ hr
    have hm : x.max ≠ -2 ^ 31 := by
      intro hm
      unfold propagate Flame.Mach.cAbs at hr
      rw [if_pos hm] at hr
      cases hr
    rw [Flame.Mach.propagate_eq _ _ _ _ hm] at hr
    cases hr
    rw [b1, b2, b3, Flame.Mach.propagate_eq _ _ _ _ hm]
    refine ⟨_, rfl, ?_⟩
    obtain ⟨i1, i2, i3, i4⟩ := run_rel hstep x.max.natAbs _ _ { x.state with nextElem := x.start, retreat := decide (x.max < 0) }
      { y.state with nextElem := x.start, retreat := decide (x.max < 0) } (watched_rel x.watch h) ⟨rfl, rfl, b4⟩
    exact ⟨⟨i1, i2, i3⟩, i4⟩
  induction hs generalizing els' calls' with
  | last hr =>
    cases hc with
    | cons h1 h2 =>
      cases h2
      obtain ⟨r', g1, g2, -⟩ := one h h1 hr
      exact ⟨[r'], .last g1, .cons g2 .nil⟩
  | cons hr hn _ ih =>
    cases hc with
    | cons h1 h2 =>
      obtain ⟨r', g1, g2, g3⟩ := one h h1 hr
      obtain ⟨rs', g4, g5⟩ := ih (g3 hn) h2
      exact ⟨r' :: rs', .cons g1 (by rw [g2.1]; exact hn) g4, .cons g2 g5⟩

end general

/-! ## construction -/

theorem number_eq (c : LCfg) (k : String) : getNumD c k 0 = number c k := by
  unfold getNumD number
  split <;> split <;> simp_all

theorem build_turn {ty : String} (h : TurnedElement a ty c c') (env : Env) (junk : Mat) (t : MType) (ht : t ≠ .source) {d d' : MDat}
    (hd : build env junk t c = .ok d) (hd' : build env junk t c' = .ok d') :
    d.conf = c ∧ d.pitch = 0 ∧ d.yaw = 0 ∧ d.transfer = [] ∧ d.cav = none ∧ d' = turnD a c' d := by
  have ho : Other c c' := h.rest
  have hsk : @decide (getNumD c' "skipcache" 0 ≠ 0) (Classical.propDecidable _) = @decide (getNumD c "skipcache" 0 ≠ 0) (Classical.propDecidable _) := by
    rw [numD_o ho "skipcache" 0 (by decide)]
  have e1 : getNumD c' "dx" 0 * MtoMM = Real.cos a * (getNumD c "dx" 0 * MtoMM) - Real.sin a * (getNumD c "dy" 0 * MtoMM) := by
    rw [number_eq, number_eq, number_eq, h.dx]
    ring
  have e2 : getNumD c' "dy" 0 * MtoMM = Real.sin a * (getNumD c "dx" 0 * MtoMM) + Real.cos a * (getNumD c "dy" 0 * MtoMM) := by
    rw [number_eq, number_eq, number_eq, h.dy]
    ring
  have e3 : getNumD c' "roll" 0 = getNumD c "roll" 0 + a := by
    rw [number_eq, number_eq, h.roll]
  have e4 : getNumD c "pitch" 0 = 0 := by rw [number_eq, h.pitch]
  have e5 : getNumD c "yaw" 0 = 0 := by rw [number_eq, h.yaw]
  unfold build at hd hd'
  simp only [hsk, numD_o ho "L" 0 (by decide), e1, e2, e3, numD_o ho "pitch" 0 (by decide), numD_o ho "yaw" 0 (by decide),
    flag_o ho env "HdipoleFitMode" 1 (by decide)] at hd'
  cases t <;> dsimp only at hd hd'
  case source => exact absurd rfl ht
  case sbend =>
    cases hs : getFlag env c "HdipoleFitMode" 1 with
    | error e => rw [hs] at hd; cases hd
    | ok n =>
      rw [hs] at hd hd'
      dsimp only at hd hd'
      split at hd
      · rename_i hn
        rw [if_pos hn] at hd'
        cases hd; cases hd'
        exact ⟨rfl, e4, e5, rfl, rfl, rfl⟩
      · cases hd
  all_goals
    cases hd; cases hd'
    exact ⟨rfl, e4, e5, rfl, rfl, rfl⟩

theorem buildCavity_turn {ty : String} (h : TurnedElement a ty c c') (env : Env) (files : Files) (junk : Mat)
    (hg : c "EmitGrowth" = none ∨ c "EmitGrowth" = some (.num 0)) {d d' : MDat}
    (hd : buildCavity env files junk c = .ok d) (hd' : buildCavity env files junk c' = .ok d') : VRel a env d d' := by
  have hf : getFlag env c "EmitGrowth" 0 = .ok 0 := by
    rw [flag_switch]
    refine ⟨?_, by norm_num⟩
    rcases hg with hg | hg
    · refine .inr ⟨rfl, ?_⟩
      rintro ⟨x, hx | ⟨t, hx, -⟩⟩ <;> rw [hg] at hx <;> cases hx
    · exact .inl (.inl (by rw [hg, Nat.cast_zero]))
  unfold buildCavity at hd hd'
  rw [loadCavity_o env files h.rest] at hd'
  cases h1 : build env junk .drift c with
  | error e => rw [h1] at hd; cases hd
  | ok d0 =>
    cases h2 : build env junk .drift c' with
    | error e => rw [h2] at hd'; cases hd'
    | ok d0' =>
      rw [h1] at hd
      rw [h2] at hd'
      dsimp only at hd hd'
      obtain ⟨e1, e2, e3, e4, e5, e6⟩ := build_turn h env junk .drift (by decide) h1 h2
      have hem : (loadCavity env files c noCav).1.emitGrowth = 0 := loadCavity_emit hf rfl
      have hmi : (loadCavity env files c noCav).1.misalign = [] := loadCavity_misalign env files c noCav
      generalize loadCavity env files c noCav = z at hd hd' hem hmi
      obtain ⟨cav, o⟩ := z
      cases o with
      | some e => cases hd
      | none =>
        cases hd; cases hd'
        subst e6
        refine ⟨c', by rw [← e1] at h; exact h.rest, e2, e3, ⟨fun v hv => by cases hv; exact hem, by rw [← e1] at hf; exact hf⟩, ?_⟩
        have : turnV a cav = cav := by
          dsimp only at hmi
          unfold turnV withMis
          rw [hmi, List.map_nil, ← hmi]
        simp only [turnD, turnC, e4, List.map_nil, Option.map, this]

/-! ## the theorem -/

/-- Data in both runs, together with the class. -/
def KRel (a : ℝ) (env : Env) (files : Files) (junk : Mat) (base : Nat) (k : MCls) (d d' : MDat) : Prop :=
  (∃ t, k = cls env junk base t ∧ t ≠ .source ∧ DRel a t d d') ∨ (k = cavityCls env files junk base ∧ VRel a env d d')

theorem step_turn (env : Env) (files : Files) (junk : Mat) (base : Nat) : Keeps (KRel a env files junk base) (TurnedBeam a) := by
  intro k d d' s s' hk hs
  obtain ⟨q1, q2, q3⟩ := hs
  obtain ⟨x, q4⟩ := (turned_iff _ _).1 q3
  have e : s' = turnT a x s := by
    clear q3
    cases s'
    dsimp only at q1 q2 q4
    subst q1 q2 q4
    rfl
  subst e
  rcases hk with ⟨t, rfl, ht, hd⟩ | ⟨rfl, hd⟩
  · obtain ⟨h1, ⟨y, h2⟩, h3⟩ := advance_turn env t ht hd x s
    refine ⟨h1, ?_, fun hn => .inl ⟨t, rfl, ht, h3 hn⟩⟩
    show SRel (TurnedBeam a) (advance env t d s).2.1 (advance env t d' (turnT a x s)).2.1
    rw [h2]
    exact ⟨rfl, rfl, (turned_iff _ _).2 ⟨y, rfl⟩⟩
  · obtain ⟨h1, ⟨y, h2⟩, h3⟩ := cavity_turn env files hd x s
    refine ⟨h1, ?_, fun hn => .inr ⟨rfl, h3 hn⟩⟩
    show SRel (TurnedBeam a) (advanceCavity env files d s).2.1 (advanceCavity env files d' (turnT a x s)).2.1
    rw [h2]
    exact ⟨rfl, rfl, (turned_iff _ _).2 ⟨y, rfl⟩⟩

theorem element_turn {env : Env} {files : Files} {junk : Mat} {base : Nat} {ec ec' : LCfg} {ty : String} {e e' : Elem LCfg MDat MSt}
    (t2 : TurnedElement a ty ec ec')
    (g2 : (∃ t : MType, e.cls = cls env junk base t ∧ t.name = ty ∧ build env junk t ec = .ok e.dat) ∨
       (e.cls = cavityCls env files junk base ∧ ty = "rfcavity" ∧ buildCavity env files junk ec = .ok e.dat) ∨
       (e.cls = stripperCls env junk base ∧ ty = "stripper" ∧ build env junk .marker ec = .ok e.dat))
    (g2' : (∃ t : MType, e'.cls = cls env junk base t ∧ t.name = ty ∧ build env junk t ec' = .ok e'.dat) ∨
       (e'.cls = cavityCls env files junk base ∧ ty = "rfcavity" ∧ buildCavity env files junk ec' = .ok e'.dat) ∨
       (e'.cls = stripperCls env junk base ∧ ty = "stripper" ∧ build env junk .marker ec' = .ok e'.dat)) :
    e'.cls = e.cls ∧ KRel a env files junk base e.cls e.dat e'.dat := by
  rcases g2 with ⟨t, a1, a2, a3⟩ | ⟨a1, a2, a3⟩ | ⟨a1, a2, a3⟩ <;> rcases g2' with ⟨t', b1, b2, b3⟩ | ⟨b1, b2, b3⟩ | ⟨b1, b2, b3⟩
  · have : t' = t := by
      rw [← a2] at b2
      revert b2
      cases t <;> cases t' <;> decide
    subst this
    have hsrc : t' ≠ .source := by
      rintro rfl
      exact t2.kind.1 a2.symm
    obtain ⟨e1, e2, e3, e4, e5, e6⟩ := build_turn t2 env junk t' hsrc a3 b3
    refine ⟨b1.trans a1.symm, .inl ⟨t', a1, hsrc, ec', by rw [e1]; exact t2.rest, ?_, e2, e3, e6⟩⟩
    rw [e1]
    rintro rfl
    exact t2.matrix a2.symm
  · exfalso; rw [b2] at a2; revert a2; cases t <;> decide
  · exact absurd b2 t2.kind.2
  · exfalso; rw [a2] at b2; revert b2; cases t' <;> decide
  · exact ⟨b1.trans a1.symm, .inr ⟨a1, buildCavity_turn t2 env files junk (t2.growth a2) a3 b3⟩⟩
  · exact absurd b2 t2.kind.2
  · exact absurd a2 t2.kind.2
  · exact absurd a2 t2.kind.2
  · exact absurd a2 t2.kind.2

/-- C97: only the directions relative to each other matter.  Two machines are built, the second from the lattice turned by the angle
`a` about the axis of the beam line: every offset turned, every roll increased by `a`.  They are used in the same way: the same
calls of `propagate`, forward and backward, over any ranges and with any observers, the second with the beams turned by `a`.  Then the
calls end in the same way, and at the end and in all views the positions, energies and phases are the same and the centroids,
covariances, envelopes and transfer matrices are those of the first, turned by `a`. -/
theorem C97_turn {env : Env} {files : Files} {junk : Mat} {base : Nat} (a : ℝ) (cv : CView LCfg) (c c' : LCfg)
    (m m' : Machine LCfg MDat MSt)
    (h : Machine.new cv (registry env junk base (cavityCls env files junk base) (stripperCls env junk base)) c = .ok m)
    (h' : Machine.new cv (registry env junk base (cavityCls env files junk base) (stripperCls env junk base)) c' = .ok m')
    (es es' : List LCfg) (hes : cv.elems c = .ok es) (hes' : cv.elems c' = .ok es')
    (hc : List.Forall₂ (fun e e' => ∃ ty, cv.str e "type" = .ok ty ∧ cv.str e' "type" = .ok ty ∧ TurnedElement a ty e e') es es')
    (calls calls' : List (Call MSt)) (hcalls : List.Forall₂ (TurnedCall a) calls calls')
    (rs : List (Run LCfg MDat MSt)) (hs : Session m.elems calls rs) :
    ∃ rs', Session m'.elems calls' rs' ∧ List.Forall₂ (SameButTurn a) rs rs' := by
  have hF := machine_moment h hes
  have hF' := machine_moment h' hes'
  have hI : ∀ {c : LCfg} {m : Machine LCfg MDat MSt}, Machine.new cv (registry env junk base (cavityCls env files junk base) (stripperCls env junk base)) c = .ok m →
      ∀ (i : Nat) (hi : i < m.elems.length), m.elems[i].index = i ∧ m.elems[i].obs = none := by
    intro c m h i hi
    obtain ⟨_, es, _, _, _, _, hl, hall⟩ := Flame.Mach.C18_machine_matches_lattice cv _ c m h
    obtain ⟨e, k, he, -, hm⟩ := hall i es[i] (List.getElem?_eq_getElem (by omega))
    rw [List.getElem?_eq_getElem hi] at he
    rw [Option.some.inj he]
    exact ⟨hm.index, hm.obs⟩
  have hE : List.Forall₂ (ERel (KRel a env files junk base)) m.elems m'.elems := by
    rw [List.forall₂_iff_get]
    have l1 := hF.length_eq
    have l2 := hF'.length_eq
    have l3 := hc.length_eq
    refine ⟨by omega, ?_⟩
    intro i i1 i2
    obtain ⟨ty1, g1, g2⟩ := (List.forall₂_iff_get.1 hF).2 i (by omega) i1
    obtain ⟨ty2, g1', g2'⟩ := (List.forall₂_iff_get.1 hF').2 i (by omega) i2
    obtain ⟨ty, t1, t1', t2⟩ := (List.forall₂_iff_get.1 hc).2 i (by omega) (by omega)
    have hty : ty1 = ty := Except.ok.inj (g1.symm.trans t1)
    have hty' : ty2 = ty := Except.ok.inj (g1'.symm.trans t1')
    subst hty hty'
    simp only [List.get_eq_getElem] at *
    obtain ⟨x1, x2⟩ := hI h i i1
    obtain ⟨x3, x4⟩ := hI h' i i2
    have main := element_turn t2 g2 g2'
    exact ⟨main.1, by rw [x2, x4], by rw [x1, x3], main.2⟩
  obtain ⟨rs', r1, r2⟩ := session_rel (step_turn env files junk base) hE hcalls hs
  exact ⟨rs', r1, r2.imp (fun r r' ⟨a1, a2, a3⟩ => ⟨a1, a2.1, a2.2.2, a3⟩)⟩

end Flame.Turn
