import Verif.Scale.Cavity

/-! # Fields and charges in proportion: whole machines (C96) -/

namespace Flame.Scale

open Flame.Mach (Elem Cls St Err Run CView Machine propagate run stepNext viewEvents sizeMod)
open Flame.Linear (LVal LCfg getNum getNumD getVec)
open Flame.Moment Flame.Cavity
open Flame.Scale.Spec

variable {q : ℝ} {c c' : LCfg}

/-! ## construction -/

theorem numbered_ne (t : String) (n : Nat) : t ++ toString n ≠ "IonChargeStates" := by
  intro h
  have h1 := congrArg String.toList h
  rw [String.toList_append, Flame.Util.Stamped.toString_nat] at h1
  have hne : Nat.toDigits 10 n ≠ [] := by
    have := Nat.toDigits_ne_nil (n := n) (b := 10)
    exact this
  have h2 : 's' ∈ Nat.toDigits 10 n := by
    have h3 := congrArg List.getLast? h1
    rw [List.getLast?_append] at h3
    cases h4 : (Nat.toDigits 10 n).getLast? with
    | none => exact absurd (List.getLast?_eq_none_iff.1 h4) hne
    | some x =>
      rw [h4] at h3
      have h5 : x = 's' := by
        have : some x = some 's' := h3
        exact Option.some.inj this
      rw [← h5]
      exact List.mem_of_getLast? h4
  have := Nat.isDigit_of_mem_toDigits (b := 10) (by decide) (by decide) h2
  revert this; decide

theorem storage_up (h : Rescaled q c c') (n : Nat) (k : String) (hk : k ≠ "IonChargeStates") : loadStorage n c' k = loadStorage n c k := by
  simp only [loadStorage, vec_all h k hk]

theorem newRef_up (h : Rescaled q c c') (Z Q : ℝ) : newRef c' (q * Z) Q = up q (newRef c Z Q) := by
  simp only [newRef, numD_same h "IonEs" _ (by decide), numD_same h "SampleFreq" _ (by decide), numD_same h "IonEk" _ (by decide)]
  rfl

theorem newCharges_up (h : Rescaled q c c') (ref : Particle) : ∀ (n : Nat) (l : List (ℝ × ℝ)),
    newCharges c' (up q ref) n (l.map (fun x => (q * x.1, x.2))) =
      (newCharges c ref n l).map (fun r => r.map (fun x : Particle × Vec × Mat => (up q x.1, x.2)))
  | _, [] => rfl
  | n, (Z, Q) :: l => by
    have h1 : newCharge c' (up q ref) n (q * Z) Q = (newCharge c ref n Z Q).map (fun x : Particle × Vec × Mat => (up q x.1, x.2)) := by
      unfold newCharge
      rw [strD_all h, strD_all h, storage_up h _ _ (numbered_ne _ _), storage_up h _ _ (numbered_ne _ _)]
      cases loadStorage 7 c (getStrD c "vector_variable" "moment0" ++ toString n) with
      | error e => rfl
      | ok v =>
        cases loadStorage 49 c (getStrD c "matrix_variable" "initial" ++ toString n) with
        | error e => rfl
        | ok S => rfl
    simp only [List.map_cons, newCharges, h1, newCharges_up h ref (n + 1) l]
    cases newCharge c ref n Z Q with
    | error e => rfl
    | ok x =>
      cases newCharges c ref (n + 1) l with
      | error e => rfl
      | ok r => rfl

theorem stateOf_up (ref : Particle) (l : List (Particle × Vec × Mat)) :
    stateOf (up q ref) (l.map (fun x => (up q x.1, x.2))) = upS q (stateOf ref l) := by
  unfold stateOf
  rw [← calcRms_up]
  simp only [upS, List.map_map]
  rfl

theorem newSingle_up (h : Rescaled q c c') (junk : Mat) (hv : ∀ xs, getVec c "IonChargeStates" ≠ .ok xs) :
    newSingle junk c' = upS q (newSingle junk c) := by
  have hs : ∀ n k, loadStorage n c' k = loadStorage n c k := by
    intro n k
    by_cases hk : k = "IonChargeStates"
    · subst hk
      simp only [loadStorage, vec_charge h]
      cases hg : getVec c "IonChargeStates" with
      | error e => rfl
      | ok x => exact absurd hg (hv x)
    · exact storage_up h n k hk
  unfold newSingle
  simp only [strD_all h, numD_same h "IonQ" _ (by decide), hs]
  rw [show getNumD c' "IonZ" 0 = q * getNumD c "IonZ" 0 from by
    have := numD_charge h "IonZ" (by simp [IsCharge]) 0
    simpa using this, newRef_up h]
  generalize newRef c (getNumD c "IonZ" 0) (getNumD c "IonQ" 1) = ref
  exact stateOf_up ref [(ref, _, _)]

/-- The constructor of the state gives the same beam with `q` times the charge. -/
theorem newState_up (h : Rescaled q c c') (junk : Mat) :
    newState junk c' = match newState junk c with | .ub => .ub | .err e => .err e | .ok S => .ok (upS q S) := by
  have ho : optNum c' "cstate" = optNum c "cstate" := by simp only [optNum, num_same h "cstate" (by decide)]
  unfold newState
  rw [ho]
  cases toSize ((optNum c "cstate").getD 0) with
  | none => rfl
  | some i =>
    dsimp only
    rw [vec_charge h]
    cases hg : getVec c "IonChargeStates" with
    | error e =>
      simp only [Except.map]
      split
      · rfl
      · simp only [newSingle_up h junk (fun xs => by rw [hg]; simp)]
    | ok ics =>
      simp only [Except.map]
      have hm : newMany c' ((optNum c "cstate").map (fun _ => i)) (ics.map (q * ·)) =
          (newMany c ((optNum c "cstate").map (fun _ => i)) ics).map (upS q) := by
        generalize (optNum c "cstate").map (fun _ => i) = cs
        unfold newMany
        simp only [List.map_eq_nil_iff, List.length_map, vec_same h "NCharge" (by decide)]
        split
        · rfl
        split
        · rfl
        cases getVec c "NCharge" with
        | error e => rfl
        | ok nchg =>
          dsimp only
          split
          · rfl
          rw [numD_same h "IonQ" _ (by decide), show getNumD c' "IonZ" ((ics.map (q * ·)).headD 0) = q * getNumD c "IonZ" (ics.headD 0) from by
              rw [← numD_charge h "IonZ" (by simp [IsCharge])]
              congr 1
              cases ics <;> simp, newRef_up h]
          have hc : chosen cs ((ics.map (q * ·)).zip nchg) = (chosen cs (ics.zip nchg)).map (fun x => (q * x.1, x.2)) := by
            rw [List.zip_map_left]
            unfold chosen
            cases cs with
            | none => rfl
            | some i => simp only [List.map_take, List.map_drop]; rfl
          rw [hc, newCharges_up h]
          generalize newRef c (getNumD c "IonZ" (ics.headD 0)) (getNumD c "IonQ" (nchg.headD 0)) = ref
          cases newCharges c ref (cs.getD 0) (chosen cs (ics.zip nchg)) with
          | error e => rfl
          | ok l => exact congrArg Except.ok (stateOf_up ref l)
      rw [hm]
      cases newMany c ((optNum c "cstate").map (fun _ => i)) ics <;> rfl

theorem build_up (h : Rescaled q c c') (env : Env) (junk : Mat) (t : MType) {d d' : MDat} (hd : build env junk t c = .ok d)
    (hd' : build env junk t c' = .ok d') : DRel q d d' ∧ d.conf = c ∧ d.refIn = none ∧ d' = upD q c' env.junk d := by
  suffices hs : d.conf = c ∧ d.refIn = none ∧ d' = upD q c' env.junk d by
    obtain ⟨h1, h2, h3⟩ := hs
    exact ⟨⟨c', env.junk, by rw [h1]; exact h, fun hn => absurd h2 hn, h3⟩, h1, h2, h3⟩
  have hsk : @decide (getNumD c' "skipcache" 0 ≠ 0) (Classical.propDecidable _) = @decide (getNumD c "skipcache" 0 ≠ 0) (Classical.propDecidable _) := by
    rw [numD_same h "skipcache" 0 (by decide)]
  unfold build at hd hd'
  simp only [hsk, numD_same h "L" 0 (by decide), numD_same h "dx" 0 (by decide), numD_same h "dy" 0 (by decide),
    numD_same h "pitch" 0 (by decide), numD_same h "yaw" 0 (by decide), numD_same h "roll" 0 (by decide),
    flag_same h env "HdipoleFitMode" 1 (by decide), newState_up h] at hd'
  cases t <;> dsimp only at hd hd'
  case source =>
    cases hs : newState junk c with
    | ub => rw [hs] at hd; cases hd
    | err e => rw [hs] at hd; cases hd
    | ok S =>
      rw [hs] at hd hd'
      cases hd; cases hd'
      exact ⟨rfl, rfl, rfl⟩
  case sbend =>
    cases hs : getFlag env c "HdipoleFitMode" 1 with
    | error e => rw [hs] at hd; cases hd
    | ok n =>
      rw [hs] at hd hd'
      dsimp only at hd hd'
      split at hd
      · rename_i hn
        rw [if_pos hn] at hd'
        cases hd; cases hd'
        exact ⟨rfl, rfl, rfl⟩
      · cases hd
  all_goals
    cases hd; cases hd'
    exact ⟨rfl, rfl, rfl⟩

theorem buildCavity_up (h : Rescaled q c c') (env : Env) (files : Files) (junk : Mat) {d d' : MDat}
    (hd : buildCavity env files junk c = .ok d) (hd' : buildCavity env files junk c' = .ok d') : DRel q d d' := by
  unfold buildCavity at hd hd'
  rw [loadCavity_up env files h] at hd'
  cases h1 : build env junk .drift c with
  | error e => rw [h1] at hd; cases hd
  | ok d0 =>
    cases h2 : build env junk .drift c' with
    | error e => rw [h2] at hd'; cases hd'
    | ok d0' =>
      rw [h1] at hd
      rw [h2] at hd'
      dsimp only at hd hd'
      obtain ⟨-, e1, e2, e3⟩ := build_up h env junk .drift h1 h2
      generalize loadCavity env files c noCav = z at hd hd'
      obtain ⟨cav, o⟩ := z
      cases o with
      | some e => cases hd
      | none =>
        cases hd; cases hd'
        subst e3
        exact ⟨c', env.junk, by rw [← e1] at h; exact h, fun hn => absurd e2 hn, rfl⟩

/-! ## runs -/

section general
variable {C X S : Type}

/-- Elements in both runs. -/
def ERel (P : Cls C X S → X → X → Prop) (e e' : Elem C X S) : Prop :=
  e'.cls = e.cls ∧ e'.obs = e.obs ∧ e'.index = e.index ∧ P e.cls e.dat e'.dat

/-- The state with another payload. -/
def onPay (g : S → S) (s : St S) : St S := { s with payload := g s.payload }

theorem stepNext_on (g : S → S) (s : St S) : stepNext (onPay g s) = onPay g (stepNext s) := by
  unfold stepNext onPay
  dsimp only
  split <;> rfl

/-- Two runs over related elements from related states stay related. -/
theorem run_up {P : Cls C X S → X → X → Prop} (g : S → S)
    (hstep : ∀ k d d' s, P k d d' → (k.advance d' (onPay g s)).2.2 = (k.advance d s).2.2 ∧
      (k.advance d' (onPay g s)).2.1 = onPay g (k.advance d s).2.1 ∧
      ((k.advance d s).2.2 = none → P k (k.advance d s).1 (k.advance d' (onPay g s)).1))
    (n : Nat) : ∀ (els els' : List (Elem C X S)) (s : St S), List.Forall₂ (ERel P) els els' →
      (run n els' (onPay g s)).err = (run n els s).err ∧ (run n els' (onPay g s)).st = onPay g (run n els s).st ∧
      List.Forall₂ (Cavity.Spec.Seen (fun a b => b = g a)) (run n els s).trace (run n els' (onPay g s)).trace ∧
      ((run n els s).err = none → List.Forall₂ (ERel P) (run n els s).elems (run n els' (onPay g s)).elems) := by
  induction n with
  | zero => intro els els' s h; exact ⟨rfl, rfl, .nil, fun _ => h⟩
  | succ n ih =>
    intro els els' s h
    have hlen := h.length_eq
    have hne : (onPay g s).nextElem = s.nextElem := rfl
    cases he : els[s.nextElem]? with
    | none =>
      rw [Flame.Mach.run_succ_none he, Flame.Mach.run_succ_none (by
        rw [hne, List.getElem?_eq_none_iff] at *
        omega)]
      exact ⟨rfl, rfl, .nil, fun _ => h⟩
    | some e =>
      have hlt : s.nextElem < els.length := (List.getElem?_eq_some_iff.1 he).1
      have hE : ERel P els[s.nextElem] els'[s.nextElem] := (List.forall₂_iff_get.1 h).2 s.nextElem hlt (by omega)
      have he' : els'[(onPay g s).nextElem]? = some els'[s.nextElem] := List.getElem?_eq_getElem _
      have hee : els[s.nextElem] = e := by rw [List.getElem?_eq_getElem hlt] at he; exact Option.some.inj he
      rw [hee] at hE
      generalize els'[s.nextElem] = e' at hE he'
      obtain ⟨k1, k2, k3, k4⟩ := hE
      obtain ⟨s1, s2, s3⟩ := hstep e.cls e.dat e'.dat (stepNext s) k4
      rw [← k1, ← stepNext_on] at s1 s2 s3
      rw [k1] at s3
      cases h3 : (e.cls.advance e.dat (stepNext s)).2.2 with
      | some x =>
        rw [Flame.Mach.run_succ_err he h3, Flame.Mach.run_succ_err he' (by rw [s1, k1]; exact h3)]
        refine ⟨rfl, ?_, .cons (.visit _) .nil, fun h => by cases h⟩
        rw [s2, k1]
      | none =>
        rw [Flame.Mach.run_succ_ok he h3, Flame.Mach.run_succ_ok he' (by rw [s1, k1]; exact h3)]
        dsimp only
        rw [s2, k1]
        obtain ⟨i1, i2, i3, i4⟩ := ih (els.set s.nextElem { e with dat := (e.cls.advance e.dat (stepNext s)).1 })
          (els'.set s.nextElem { e' with cls := e.cls, dat := (e.cls.advance e'.dat (stepNext (onPay g s))).1 })
          (e.cls.advance e.dat (stepNext s)).2.1 (by
            rw [List.forall₂_iff_get]
            refine ⟨by simp only [List.length_set]; exact hlen, ?_⟩
            intro i h1 h2
            simp only [List.get_eq_getElem, List.getElem_set]
            split
            · exact ⟨rfl, k2, k3, s3 h3⟩
            · exact (List.forall₂_iff_get.1 h).2 i (by simpa using h1) (by simpa using h2))
        refine ⟨i1, i2, ?_, i4⟩
        rw [List.cons_append, List.cons_append]
        refine .cons (.visit _) (List.rel_append ?_ i3)
        unfold viewEvents
        rw [k2]
        cases e.obs with
        | none => exact .nil
        | some o =>
          rw [k3]
          exact .cons (.view _ _ rfl rfl rfl) .nil

theorem watched_rel {P : Cls C X S → X → X → Prop} (w : ℕ → Option ℕ) {els els' : List (Elem C X S)}
    (h : List.Forall₂ (ERel P) els els') : List.Forall₂ (ERel P) (watched w els) (watched w els') := by
  rw [List.forall₂_iff_get] at h ⊢
  refine ⟨by simp only [watched, List.length_mapIdx]; exact h.1, ?_⟩
  intro i h1 h2
  simp only [watched, List.get_eq_getElem, List.getElem_mapIdx]
  obtain ⟨k1, k2, k3, k4⟩ := h.2 i (by simpa [watched] using h1) (by simpa [watched] using h2)
  exact ⟨k1, rfl, k3, k4⟩

/-- Two sessions with related calls stay related. -/
theorem session_up {P : Cls C X S → X → X → Prop} (g : S → S)
    (hstep : ∀ k d d' s, P k d d' → (k.advance d' (onPay g s)).2.2 = (k.advance d s).2.2 ∧
      (k.advance d' (onPay g s)).2.1 = onPay g (k.advance d s).2.1 ∧
      ((k.advance d s).2.2 = none → P k (k.advance d s).1 (k.advance d' (onPay g s)).1))
    {els els' : List (Elem C X S)} {calls calls' : List (Call S)} {rs : List (Run C X S)} (h : List.Forall₂ (ERel P) els els')
    (hc : List.Forall₂ (fun a b => b.watch = a.watch ∧ b.start = a.start ∧ b.max = a.max ∧ b.state.payload = g a.state.payload) calls calls')
    (hs : Session els calls rs) : ∃ rs', Session els' calls' rs' ∧
      List.Forall₂ (fun r r' => r'.err = r.err ∧ r'.st = onPay g r.st ∧
        List.Forall₂ (Cavity.Spec.Seen (fun a b => b = g a)) r.trace r'.trace) rs rs' := by
  have one : ∀ {els els' : List (Elem C X S)} {a b : Call S} {r}, List.Forall₂ (ERel P) els els' →
      (b.watch = a.watch ∧ b.start = a.start ∧ b.max = a.max ∧ b.state.payload = g a.state.payload) →
      propagate (watched a.watch els) a.state a.start a.max = some r →
      ∃ r', propagate (watched b.watch els') b.state b.start b.max = some r' ∧ (r'.err = r.err ∧ r'.st = onPay g r.st ∧
        List.Forall₂ (Cavity.Spec.Seen (fun a b => b = g a)) r.trace r'.trace) ∧ (r.err = none → List.Forall₂ (ERel P) r.elems r'.elems) := by
    intro els els' a b r h ⟨b1, b2, b3, b4⟩ hr
    have hm : a.max ≠ -2 ^ 31 := by
      intro hm
      unfold propagate Flame.Mach.cAbs at hr
      rw [if_pos hm] at hr
      cases hr
    rw [Flame.Mach.propagate_eq _ _ _ _ hm] at hr
    cases hr
    rw [b1, b2, b3, Flame.Mach.propagate_eq _ _ _ _ hm]
    refine ⟨_, rfl, ?_⟩
    have e : ({ b.state with nextElem := a.start, retreat := decide (a.max < 0) } : St S) =
        onPay g { a.state with nextElem := a.start, retreat := decide (a.max < 0) } := by
      simp only [onPay, b4]
    rw [e]
    obtain ⟨i1, i2, i3, i4⟩ := run_up g hstep a.max.natAbs _ _ { a.state with nextElem := a.start, retreat := decide (a.max < 0) }
      (watched_rel a.watch h)
    exact ⟨⟨i1, i2, i3⟩, i4⟩
  induction hs generalizing els' calls' with
  | last hr =>
    cases hc with
    | cons h1 h2 =>
      cases h2
      obtain ⟨r', g1, g2, -⟩ := one h h1 hr
      exact ⟨[r'], .last g1, .cons g2 .nil⟩
  | cons hr hn _ ih =>
    cases hc with
    | cons h1 h2 =>
      obtain ⟨r', g1, g2, g3⟩ := one h h1 hr
      obtain ⟨rs', g4, g5⟩ := ih (g3 hn) h2
      exact ⟨r' :: rs', .cons g1 (by rw [g2.1]; exact hn) g4, .cons g2 g5⟩

end general

/-! ## the theorem -/

/-- Data in both runs, together with the class. -/
def CRel (q : ℝ) (env : Env) (files : Files) (junk : Mat) (base : Nat) (k : MCls) (d d' : MDat) : Prop :=
  DRel q d d' ∧ ((∃ t, k = cls env junk base t) ∨ k = cavityCls env files junk base ∨ (k = stripperCls env junk base ∧ Settled d.conf))

theorem stripper_conf (d : MDat) (s : St MSt) : (advanceStripper d s).1.conf = d.conf := by
  unfold advanceStripper
  dsimp only
  split
  · rfl
  · split <;> rfl

theorem step_up (hq : q ≠ 0) (env : Env) (files : Files) (junk : Mat) (base : Nat) (k : MCls) (d d' : MDat) (s : St MSt)
    (h : CRel q env files junk base k d d') :
    (k.advance d' (onPay (upS q) s)).2.2 = (k.advance d s).2.2 ∧
      (k.advance d' (onPay (upS q) s)).2.1 = onPay (upS q) (k.advance d s).2.1 ∧
      ((k.advance d s).2.2 = none → CRel q env files junk base k (k.advance d s).1 (k.advance d' (onPay (upS q) s)).1) := by
  obtain ⟨hd, ⟨t, rfl⟩ | rfl | ⟨rfl, hs⟩⟩ := h
  · obtain ⟨h1, h2, h3⟩ := advance_up hq env t hd s
    exact ⟨h1, h2, fun hn => ⟨h3 hn, .inl ⟨t, rfl⟩⟩⟩
  · obtain ⟨h1, h2, h3⟩ := cavity_up hq env files hd s
    exact ⟨h1, h2, fun hn => ⟨h3 hn, .inr (.inl rfl)⟩⟩
  · obtain ⟨h1, h2, h3⟩ := stripper_up hd hs s
    exact ⟨h1, h2, fun hn => ⟨h3 hn, .inr (.inr ⟨rfl, by
      show Settled (advanceStripper d s).1.conf
      rw [stripper_conf]
      exact hs⟩)⟩⟩

theorem particle_iff (a b : Particle) : RechargedParticle q a b ↔ b = up q a := by
  cases a; cases b
  simp only [RechargedParticle, up, Particle.mk.injEq]
  tauto

theorem recharged_iff (S S' : MSt) : Recharged q S S' ↔ S' = upS q S := by
  constructor
  · rintro ⟨h1, h2, h3, h4, h5, h6, h7, h8, h9, h10⟩
    have hr : S'.real = S.real.map (up q) := by
      generalize S.real = l at h3
      generalize S'.real = l' at h3
      induction h3 with
      | nil => rfl
      | cons h _ ih => rw [List.map_cons, ih, (particle_iff _ _).1 h]
    cases S'
    simp only at *
    subst h1 hr h4 h5 h6 h7 h8 h9 h10
    rw [(particle_iff _ _).1 h2]
    rfl
  · rintro rfl
    refine ⟨rfl, (particle_iff _ _).2 rfl, ?_, rfl, rfl, rfl, rfl, rfl, rfl, rfl⟩
    show List.Forall₂ (RechargedParticle q) S.real (S.real.map (up q))
    rw [List.forall₂_map_right_iff]
    exact List.forall₂_same.2 (fun a _ => (particle_iff _ _).2 rfl)

theorem element_up {env : Env} {files : Files} {junk : Mat} {base : Nat} {ec ec' : LCfg} {ty : String} {e e' : Elem LCfg MDat MSt} (t2 : Rescaled q ec ec')
    (hset : ty = "stripper" → Settled ec)
    (g2 : (∃ t : MType, e.cls = cls env junk base t ∧ t.name = ty ∧ build env junk t ec = .ok e.dat) ∨
       (e.cls = cavityCls env files junk base ∧ ty = "rfcavity" ∧ buildCavity env files junk ec = .ok e.dat) ∨
       (e.cls = stripperCls env junk base ∧ ty = "stripper" ∧ build env junk .marker ec = .ok e.dat))
    (g2' : (∃ t : MType, e'.cls = cls env junk base t ∧ t.name = ty ∧ build env junk t ec' = .ok e'.dat) ∨
       (e'.cls = cavityCls env files junk base ∧ ty = "rfcavity" ∧ buildCavity env files junk ec' = .ok e'.dat) ∨
       (e'.cls = stripperCls env junk base ∧ ty = "stripper" ∧ build env junk .marker ec' = .ok e'.dat)) :
    e'.cls = e.cls ∧ CRel q env files junk base e.cls e.dat e'.dat := by
  rcases g2 with ⟨t, a1, a2, a3⟩ | ⟨a1, a2, a3⟩ | ⟨a1, a2, a3⟩ <;> rcases g2' with ⟨t', b1, b2, b3⟩ | ⟨b1, b2, b3⟩ | ⟨b1, b2, b3⟩
  · have : t' = t := by
      rw [← a2] at b2
      revert b2
      cases t <;> cases t' <;> decide
    subst this
    exact ⟨b1.trans a1.symm, (build_up t2 env junk t' a3 b3).1, .inl ⟨t', a1⟩⟩
  · exfalso; rw [b2] at a2; revert a2; cases t <;> decide
  · exfalso; rw [b2] at a2; revert a2; cases t <;> decide
  · exfalso; rw [a2] at b2; revert b2; cases t' <;> decide
  · exact ⟨b1.trans a1.symm, buildCavity_up t2 env files junk a3 b3, .inr (.inl a1)⟩
  · exfalso; rw [b2] at a2; revert a2; decide
  · exfalso; rw [a2] at b2; revert b2; cases t' <;> decide
  · exfalso; rw [b2] at a2; revert a2; decide
  · obtain ⟨y1, y2, -⟩ := build_up t2 env junk .marker a3 b3
    exact ⟨b1.trans a1.symm, y1, .inr (.inr ⟨a1, by rw [y2]; exact hset a2⟩)⟩

/-- C96: only the product of charge and field matters.  Two machines are built, the second from a lattice with all charges times
`q` and all fields divided by `q` (the strippers give their charges themselves).  They are used in the same way: the same calls of
`propagate`, forward and backward, over any ranges and with any observers, with beams of which the second has `q` times the charge.
Then the calls end in the same way, and the beams at the end and in all views are the same but for the charges: all energies,
phases, moments, envelopes, transfer matrices and positions. -/
theorem C96_scaling (hq : q ≠ 0) {env : Env} {files : Files} {junk : Mat} {base : Nat} (cv : CView LCfg) (c c' : LCfg)
    (m m' : Machine LCfg MDat MSt)
    (h : Machine.new cv (registry env junk base (cavityCls env files junk base) (stripperCls env junk base)) c = .ok m)
    (h' : Machine.new cv (registry env junk base (cavityCls env files junk base) (stripperCls env junk base)) c' = .ok m')
    (es es' : List LCfg) (hes : cv.elems c = .ok es) (hes' : cv.elems c' = .ok es')
    (hc : List.Forall₂ (fun e e' => cv.str e' "type" = cv.str e "type" ∧ Rescaled q e e') es es')
    (hst : ∀ e ∈ es, cv.str e "type" = .ok "stripper" → Settled e)
    (calls calls' : List (Call MSt)) (hcalls : List.Forall₂ (RechargedCall q) calls calls')
    (rs : List (Run LCfg MDat MSt)) (hs : Session m.elems calls rs) :
    ∃ rs', Session m'.elems calls' rs' ∧ List.Forall₂ (SameButCharge q) rs rs' := by
  have hF := machine_moment h hes
  have hF' := machine_moment h' hes'
  have hI : ∀ {c : LCfg} {m : Machine LCfg MDat MSt}, Machine.new cv (registry env junk base (cavityCls env files junk base) (stripperCls env junk base)) c = .ok m →
      ∀ (i : Nat) (hi : i < m.elems.length), m.elems[i].index = i ∧ m.elems[i].obs = none := by
    intro c m h i hi
    obtain ⟨_, es, _, _, _, _, hl, hall⟩ := Flame.Mach.C18_machine_matches_lattice cv _ c m h
    obtain ⟨e, k, he, -, hm⟩ := hall i es[i] (List.getElem?_eq_getElem (by omega))
    rw [List.getElem?_eq_getElem hi] at he
    rw [Option.some.inj he]
    exact ⟨hm.index, hm.obs⟩
  have hE : List.Forall₂ (ERel (CRel q env files junk base)) m.elems m'.elems := by
    rw [List.forall₂_iff_get]
    have l1 := hF.length_eq
    have l2 := hF'.length_eq
    have l3 := hc.length_eq
    refine ⟨by omega, ?_⟩
    intro i i1 i2
    obtain ⟨ty, g1, g2⟩ := (List.forall₂_iff_get.1 hF).2 i (by omega) i1
    obtain ⟨ty', g1', g2'⟩ := (List.forall₂_iff_get.1 hF').2 i (by omega) i2
    obtain ⟨t1, t2⟩ := (List.forall₂_iff_get.1 hc).2 i (by omega) (by omega)
    have hty : ty' = ty := by
      have := g1'.symm.trans (t1.trans g1)
      exact Except.ok.inj this
    subst hty
    simp only [List.get_eq_getElem] at *
    obtain ⟨x1, x2⟩ := hI h i i1
    obtain ⟨x3, x4⟩ := hI h' i i2
    have hmem : es[i] ∈ es := List.getElem_mem _
    have hset := hst _ hmem
    have main := element_up t2 (fun e => hset (by rw [g1, e])) g2 g2'
    exact ⟨main.1, by rw [x2, x4], by rw [x1, x3], main.2⟩
  obtain ⟨rs', r1, r2⟩ := session_up (upS q) (fun k d d' s hP => step_up hq env files junk base k d d' s hP) hE
    (hcalls.imp (fun a b ⟨a1, a2, a3, a4⟩ => ⟨a1, a2, a3, (recharged_iff _ _).1 a4⟩)) hs
  refine ⟨rs', r1, r2.imp ?_⟩
  rintro r r' ⟨a1, a2, a3⟩
  refine ⟨a1, by rw [a2]; rfl, (recharged_iff _ _).2 (by rw [a2]; rfl), a3.imp (fun x y hxy => ?_)⟩
  exact Cavity.Seen.mono (fun _ _ e => (recharged_iff _ _).2 e) hxy

end Flame.Scale
