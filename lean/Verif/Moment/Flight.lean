import Verif.Moment.Strength
import Verif.Moment.Undo

/-!
# The particles and the position behind an element: C65
-/

namespace Flame.Moment

open Flame.Mach (St Err)

/-- `q` is `p` at another phase, with derived numbers that are up to date. -/
def Later (p q : Particle) : Prop :=
  q.IonZ = p.IonZ ∧ q.IonQ = p.IonQ ∧ q.IonEs = p.IonEs ∧ q.IonEk = p.IonEk ∧ q.SampleFreq = p.SampleFreq ∧ q.recalc = q

theorem recalc_moving {p : Particle} (h0 : 0 < p.IonEs) (hk : 0 < p.IonEk) : Moving p.recalc := ⟨rfl, h0, hk⟩

theorem drifted_phase {p : Particle} (h0 : 0 < p.IonEs) (hk : 0 < p.IonEk) (L : ℝ) :
    p.recalc.SampleIonK * L * MtoMM = Spec.phaseAdvance p.SampleFreq p.IonEs (p.IonEs + p.IonEk) (1000 * L) := by
  have := C64_phase (recalc_moving h0 hk) (1000 * L)
  rw [show p.recalc.SampleIonK * L * MtoMM = p.recalc.SampleIonK * (1000 * L) by rw [MtoMM]; ring]
  exact this

theorem drifted_later (p : Particle) (b : Bool) (L : ℝ) : Later p (p.recalc.drifted b L) :=
  ⟨rfl, rfl, rfl, rfl, rfl, rfl⟩

theorem bendPhis_get (b : Bool) (L : ℝ) : ∀ (ps : List Particle) (vs ws : List Vec) (k : Nat) (p : Particle) (v w : Vec),
    ps[k]? = some p → vs[k]? = some v → ws[k]? = some w →
    (bendPhis b L ps vs ws)[k]? = some { p with phis := p.phis + (sign b * (p.SampleIonK * L * MtoMM) + (w 4 - v 4)) }
  | [], _, _, _, _, _, _, h, _, _ => by simp at h
  | _ :: _, [], _, _, _, _, _, _, h, _ => by simp at h
  | _ :: _, _ :: _, [], _, _, _, _, _, _, h => by simp at h
  | q :: ps, x :: vs, y :: ws, 0, p, v, w, h1, h2, h3 => by
    cases h1
    cases h2
    cases h3
    rfl
  | q :: ps, x :: vs, y :: ws, k + 1, p, v, w, h1, h2, h3 => by
    simp only [List.getElem?_cons_succ] at h1 h2 h3
    simp only [bendPhis, List.getElem?_cons_succ]
    exact bendPhis_get b L ps vs ws k p v w h1 h2 h3

/-- What is said about the particles and the position. -/
def Flown (bend : Prop) [Decidable bend] (dir L : ℝ) (s s' : MSt) : Prop :=
  s'.pos = s.pos + dir * L ∧ s'.real.length = s.real.length ∧ Later s.ref s'.ref ∧
  (0 < s.ref.IonEs → 0 < s.ref.IonEk → s'.ref.phis = s.ref.phis +
    dir * Spec.phaseAdvance s.ref.SampleFreq s.ref.IonEs (s.ref.IonEs + s.ref.IonEk) (1000 * L)) ∧
  ∀ (k : Nat) (p : Particle) (v : Vec), s.real[k]? = some p → s.moment0[k]? = some v →
    ∃ p' v', s'.real[k]? = some p' ∧ s'.moment0[k]? = some v' ∧ Later p p' ∧
      (0 < p.IonEs → 0 < p.IonEk → p'.phis = p.phis +
        dir * Spec.phaseAdvance p.SampleFreq p.IonEs (p.IonEs + p.IonEk) (1000 * L) +
          if bend then v' 4 - v 4 else 0)

theorem movedBy_some {T m0 m1 m0' m1'} (h : Spec.movedBy T m0 m1 m0' m1') {k : Nat} {v : Vec} (hv : m0[k]? = some v) :
    ∃ v', m0'[k]? = some v' := by
  have hk : k < T.length := by
    rw [List.getElem?_eq_some_iff] at hv
    rw [h.1]
    exact hv.1
  obtain ⟨_, _, -, -, h', -⟩ := movedBy_get h k _ (List.getElem?_eq_getElem hk)
  exact ⟨_, h'⟩

/-- C65: behind every element but a source the position is larger by its length (smaller, behind an element passed
backward); the reference particle and all charge states have their charge, mass and energy, and phases that have advanced
by the time of flight, in a bend also by the change of the longitudinal centroid. -/
theorem C65_flight (env : Env) (t : MType) (d d' : MDat) (s s' : St MSt) (ht : t ≠ .source) (hw : WF s.payload)
    (h : advance env t (fresh env d) s = (d', s', none)) :
    Flown (t = .sbend) (if s.retreat then -1 else 1) d.length s.payload s'.payload := by
  have hm := (advance_moved env t (fresh env d) d' s s' ht rfl hw h).2.1
  have hsg : (if s.retreat = true then (-1 : ℝ) else 1) = sign s.retreat := rfl
  rw [hsg]
  have body : ∀ (b : Bool) (S : MSt), s.retreat = b → S.pos = s.payload.pos + sign b * d.length →
      S.ref = s.payload.ref.recalc.drifted b d.length →
      S.real = s.payload.recalc.real.map (fun p => p.drifted b d.length) → s'.payload = S.calcRms → t ≠ .sbend →
      Flown (t = .sbend) (sign s.retreat) d.length s.payload s'.payload := by
    intro b S hb hp hr hl hS hbend
    subst hb
    have e1 : s'.payload.pos = S.pos := by rw [hS]; rfl
    have e2 : s'.payload.ref = S.ref := by rw [hS]; rfl
    have e3 : s'.payload.real = S.real := by rw [hS]; rfl
    refine ⟨by rw [e1, hp], by rw [e3, hl]; simp [MSt.recalc], ?_, ?_, ?_⟩
    · rw [e2, hr]
      exact drifted_later _ _ _
    · intro h0 hk
      rw [e2, hr]
      show s.payload.ref.phis + sign s.retreat * (s.payload.ref.recalc.SampleIonK * d.length * MtoMM) = _
      rw [drifted_phase h0 hk]
    · intro k p v hp hv
      obtain ⟨v', hv'⟩ := movedBy_some hm hv
      refine ⟨p.recalc.drifted s.retreat d.length, v', ?_, hv', drifted_later _ _ _, ?_⟩
      · rw [e3, hl]
        simp [MSt.recalc, hp]
      · intro h0 hk
        rw [if_neg hbend, add_zero]
        show p.phis + sign s.retreat * (p.recalc.SampleIonK * d.length * MtoMM) = _
        rw [drifted_phase h0 hk]
  have base : t ≠ .sbend → advanceBase (recompute env t) (fresh env d) s = (d', s', none) →
      Flown (t = .sbend) (sign s.retreat) d.length s.payload s'.payload := by
    intro hb h
    have k := advanceBase_coherent (d := fresh env d) (s := s) (recompute_cached env t) (.inl rfl)
    rw [h] at k
    cases hr : recompute env t (fresh env d) s.payload.recalc.ref s.payload.recalc.real with
    | error e => rw [hr] at k; simp at k
    | ok T =>
      rw [hr] at k
      have k := k.1
      simp only [Prod.mk.injEq] at k
      obtain ⟨k1, k2⟩ := k
      have k3 : s'.payload = (passBase T d.length s).1 := by rw [k1]; rfl
      have k2 : none = (passBase T d.length s).2 := k2
      unfold passBase at k2 k3
      dsimp only at k2 k3
      cases hret : s.retreat with
      | false =>
        rw [hret] at k3
        simp only [Bool.false_eq_true, if_false] at k3
        rw [← hret]
        exact body false (forward T _) hret (by rfl) rfl rfl k3 hb
      | true =>
        rw [hret] at k3 k2
        simp only [if_true] at k3 k2
        split at k2
        · simp at k2
        · next S' hS' =>
          rw [hS'] at k3
          rw [← hret]
          have e : S' = (backward T _).1 := (congrArg Prod.fst hS').symm
          subst e
          exact body true _ hret rfl rfl rfl k3 hb
  cases t with
  | source => exact absurd rfl ht
  | sextupole =>
    change advanceSext (fresh env d) s = _ at h
    unfold advanceSext at h
    split at h
    · dsimp only at h
      split at h
      · simp at h
      · next hret =>
        split at h
        · simp at h
        · next rs hr =>
          simp only [Prod.mk.injEq, and_true] at h
          obtain ⟨-, rfl⟩ := h
          have hret : s.retreat = false := by simpa using hret
          refine body false _ hret (?_ : _ = _) rfl ?_ rfl (by decide)
          · show s.payload.pos + d.length = s.payload.pos + sign false * d.length
            simp [sign]
          · simp only [MSt.recalc, List.map_map]
            rfl
    · simp at h
  | sbend =>
    change advanceBend (recompute env .sbend) (fresh env d) s = _ at h
    have k := advanceBend_coherent (d := fresh env d) (s := s) (recompute_cached env .sbend) (.inl rfl)
    rw [h] at k
    cases hr : recompute env .sbend (fresh env d) s.payload.recalc.ref s.payload.recalc.real with
    | error e => rw [hr] at k; simp at k
    | ok T =>
      rw [hr] at k
      have k := k.1
      simp only [Prod.mk.injEq] at k
      obtain ⟨k1, k2⟩ := k
      have k3 : s'.payload = (passBend T d.length s).1 := by rw [k1]; rfl
      have k2 : none = (passBend T d.length s).2 := k2
      have fin : ∀ S : MSt, S.pos = s.payload.pos + sign s.retreat * d.length →
          S.ref = s.payload.ref.recalc.drifted s.retreat d.length → S.real = s.payload.recalc.real →
          s'.payload = { S with real := bendPhis s.retreat d.length S.real s.payload.moment0 S.moment0 }.calcRms →
          Flown (MType.sbend = .sbend) (sign s.retreat) d.length s.payload s'.payload := by
        intro S hp hre hl hS
        have e1 : s'.payload.pos = S.pos := by rw [hS]; rfl
        have e2 : s'.payload.ref = S.ref := by rw [hS]; rfl
        have e3 : s'.payload.real = bendPhis s.retreat d.length S.real s.payload.moment0 S.moment0 := by rw [hS]; rfl
        have e4 : s'.payload.moment0 = S.moment0 := by rw [hS]; rfl
        refine ⟨by rw [e1, hp], by rw [e3, bendPhis_length, hl]; simp [MSt.recalc], ?_, ?_, ?_⟩
        · rw [e2, hre]
          exact drifted_later _ _ _
        · intro h0 hk
          rw [e2, hre]
          show s.payload.ref.phis + sign s.retreat * (s.payload.ref.recalc.SampleIonK * d.length * MtoMM) = _
          rw [drifted_phase h0 hk]
        · intro k p v hp hv
          obtain ⟨v', hv'⟩ := movedBy_some hm hv
          have hp' : S.real[k]? = some p.recalc := by rw [hl]; simp [MSt.recalc, hp]
          have hv2 : S.moment0[k]? = some v' := by rw [← e4]; exact hv'
          refine ⟨{ p.recalc with phis := p.phis + (sign s.retreat * (p.recalc.SampleIonK * d.length * MtoMM) + (v' 4 - v 4)) },
            v', ?_, hv', ⟨rfl, rfl, rfl, rfl, rfl, rfl⟩, ?_⟩
          · rw [e3]
            exact bendPhis_get _ _ _ _ _ k p.recalc v v' hp' hv hv2
          intro h0 hk
          rw [if_pos rfl]
          show p.phis + (sign s.retreat * (p.recalc.SampleIonK * d.length * MtoMM) + (v' 4 - v 4)) = _
          rw [drifted_phase h0 hk]
          ring
      unfold passBend at k2 k3
      dsimp only at k2 k3
      cases hret : s.retreat with
      | false =>
        rw [hret] at k3
        simp only [Bool.false_eq_true, if_false] at k3
        rw [hret] at fin
        exact fin (forward T { s.payload.recalc with
          ref := s.payload.recalc.ref.drifted false d.length
          pos := s.payload.recalc.pos + sign false * d.length }) rfl rfl rfl k3
      | true =>
        rw [hret] at k3 k2
        simp only [if_true] at k3 k2
        split at k2
        · simp at k2
        · next S' hS' =>
          rw [hS'] at k3
          rw [hret] at fin
          have e : S' = (backward T _).1 := (congrArg Prod.fst hS').symm
          subst e
          exact fin (backward T { s.payload.recalc with
            ref := s.payload.recalc.ref.drifted true d.length
            pos := s.payload.recalc.pos + sign true * d.length }).1 rfl rfl rfl k3
  | marker => exact base (by decide) h
  | bpm => exact base (by decide) h
  | drift => exact base (by decide) h
  | orbtrim => exact base (by decide) h
  | quadrupole => exact base (by decide) h
  | solenoid => exact base (by decide) h
  | edipole => exact base (by decide) h
  | equad => exact base (by decide) h
  | tmatrix => exact base (by decide) h

/-- Two states that differ at most in the derived numbers of their particles. -/
def SamePrimary (s s' : MSt) : Prop :=
  s'.pos = s.pos ∧ s.ref.same s'.ref ∧ List.Forall₂ Particle.same s.real s'.real ∧ s'.moment0 = s.moment0 ∧
  s'.moment1 = s.moment1 ∧ s'.transmat = s.transmat ∧ s'.moment0_env = s.moment0_env ∧ s'.moment0_rms = s.moment0_rms ∧
  s'.moment1_env = s.moment1_env ∧ s'.last_caviphi0 = s.last_caviphi0

theorem samePrimary_recalc {s s' : MSt} (h : SamePrimary s s') : s.recalc = s'.recalc := by
  obtain ⟨h1, h2, h3, h4, h5, h6, h7, h8, h9, h10⟩ := h
  have hl : s.real.map Particle.recalc = s'.real.map Particle.recalc := by
    generalize s.real = l at h3
    generalize s'.real = l' at h3
    induction h3 with
    | nil => rfl
    | cons hab _ ih => rw [List.map_cons, List.map_cons, ih, recalc_same hab]
  unfold MSt.recalc
  rw [recalc_same h2, hl]
  cases s
  cases s'
  simp only at h1 h4 h5 h6 h7 h8 h9 h10
  subst h1 h4 h5 h6 h7 h8 h9 h10
  rfl

/-- C65: the derived numbers of the particles (total energy, velocity, wave number, ...) that a state comes with do not
matter, so a user may change an energy or a charge between two elements without recomputing them. -/
theorem C65_derived (env : Env) (t : MType) (d : MDat) (s s' : St MSt) (ht : t ≠ .source) (hn : s'.nextElem = s.nextElem)
    (hr : s'.retreat = s.retreat) (h : SamePrimary s.payload s'.payload) :
    (advance env t d s').1 = (advance env t d s).1 ∧ (advance env t d s').2.2 = (advance env t d s).2.2 ∧
    ((advance env t d s).2.2 = none → (advance env t d s').2.1 = (advance env t d s).2.1) := by
  have e := samePrimary_recalc h
  obtain ⟨n, r, P⟩ := s
  obtain ⟨n', r', P'⟩ := s'
  simp only at hn hr e
  subst hn hr
  have base : advanceBase (recompute env t) d ⟨n', r', P'⟩ = advanceBase (recompute env t) d ⟨n', r', P⟩ := by
    unfold advanceBase
    dsimp only
    rw [← e]
  have bend : advanceBend (recompute env t) d ⟨n', r', P'⟩ = advanceBend (recompute env t) d ⟨n', r', P⟩ := by
    unfold advanceBend
    dsimp only
    rw [← e]
  have fin : advance env t d ⟨n', r', P'⟩ = advance env t d ⟨n', r', P⟩ → (advance env t d ⟨n', r', P'⟩).1 =
      (advance env t d ⟨n', r', P⟩).1 ∧ (advance env t d ⟨n', r', P'⟩).2.2 = (advance env t d ⟨n', r', P⟩).2.2 ∧
      ((advance env t d ⟨n', r', P⟩).2.2 = none →
        (advance env t d ⟨n', r', P'⟩).2.1 = (advance env t d ⟨n', r', P⟩).2.1) := by
    intro h
    rw [h]
    exact ⟨rfl, rfl, fun _ => rfl⟩
  cases t with
  | source => exact absurd rfl ht
  | sbend => exact fin bend
  | sextupole =>
    show (advanceSext d ⟨n', r', P'⟩).1 = (advanceSext d ⟨n', r', P⟩).1 ∧
      (advanceSext d ⟨n', r', P'⟩).2.2 = (advanceSext d ⟨n', r', P⟩).2.2 ∧
      ((advanceSext d ⟨n', r', P⟩).2.2 = none → (advanceSext d ⟨n', r', P'⟩).2.1 = (advanceSext d ⟨n', r', P⟩).2.1)
    unfold advanceSext
    simp only [e]
    split
    · exact ⟨rfl, rfl, fun _ => rfl⟩
    · exact ⟨rfl, rfl, fun h => by simp at h⟩
  | _ => exact fin base

/-- A drift and a state in which the user has changed the kinetic energy, with and without recomputing. -/
example (env : Env) : let P := (exState false).payload
    let p : Particle := { exParticle with IonEk := 2 }
    SamePrimary { P with ref := p, real := [p] } { P with ref := p.recalc, real := [p.recalc] } ∧ p.recalc ≠ p ∧
    (advance env .drift (fresh env (exDat env (fun _ => none) 1)) (exState false)).2.2 = none ∧ WF P := by
  refine ⟨⟨rfl, ⟨rfl, rfl, rfl, rfl, rfl, rfl⟩, .cons ⟨rfl, rfl, rfl, rfl, rfl, rfl⟩ .nil, rfl, rfl, rfl, rfl, rfl, rfl, rfl⟩,
    ?_, ?_, ⟨rfl, rfl, rfl⟩⟩
  · intro h
    have := congrArg Particle.IonW h
    simp [Particle.recalc, exParticle] at this
  · have k := advanceBase_coherent (d := fresh env (exDat env (fun _ => none) 1)) (s := exState false)
      (recompute_cached env .drift) (.inl rfl)
    have := k.1
    show (advanceBase _ _ _).2.2 = none
    rw [this]
    rfl

end Flame.Moment
