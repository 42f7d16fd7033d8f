import Verif.Steady.Run
import Verif.Steady.Example

/-! # C107 on the way back: the beam before the elements changes continuously with settings and beam -/

namespace Flame.Steady

open Flame.Mach (Cls St Err CView Machine propagate sizeMod Elem Run run stepNext run_succ_err run_succ_ok propagate_eq)
open Flame.Linear (LVal LCfg getNum getNumD getVec)
open Flame.Moment Flame.Steady.Spec

variable {X : Type} [TopologicalSpace X]

theorem backLoop_cont : ∀ (Ms : List (X → Mat)) (vs : List (X → Vec)) (Ss Xs : List (X → Mat)),
    (∀ M ∈ Ms, Continuous M) → (∀ v ∈ vs, Continuous v) → (∀ S ∈ Ss, Continuous S) → (∀ T ∈ Xs, Continuous T) →
    (∀ x, (backLoop (Ms.map (fun M => M x)) (vs.map (fun v => v x)) (Ss.map (fun S => S x)) (Xs.map (fun T => T x))).2.2.2 = none) →
    ∃ (vs' : List (X → Vec)) (Ss' Xs' : List (X → Mat)), (∀ v ∈ vs', Continuous v) ∧ (∀ S ∈ Ss', Continuous S) ∧
      (∀ T ∈ Xs', Continuous T) ∧
      ∀ x, backLoop (Ms.map (fun M => M x)) (vs.map (fun v => v x)) (Ss.map (fun S => S x)) (Xs.map (fun T => T x)) =
        (vs'.map (fun v => v x), Ss'.map (fun S => S x), Xs'.map (fun T => T x), none)
  | [], vs, Ss, Xs, _, h2, h3, h4, _ => ⟨vs, Ss, Xs, h2, h3, h4, fun x => by simp [backLoop]⟩
  | _ :: _, [], Ss, Xs, _, h2, h3, h4, _ => ⟨[], Ss, Xs, h2, h3, h4, fun x => by simp [backLoop]⟩
  | _ :: _, v :: vs, [], Xs, _, h2, h3, h4, _ => ⟨v :: vs, [], Xs, h2, h3, h4, fun x => by simp [backLoop]⟩
  | _ :: _, v :: vs, S :: Ss, [], _, h2, h3, h4, _ => ⟨v :: vs, S :: Ss, [], h2, h3, h4, fun x => by simp [backLoop]⟩
  | M :: Ms, v :: vs, S :: Ss, T :: Xs, h1, h2, h3, h4, hok => by
    have hin : ∀ x, ∃ I, inverse (M x) = .ok I := by
      intro x
      have h := hok x
      simp only [List.map_cons, backLoop] at h
      cases hI : inverse (M x) with
      | ok I => exact ⟨I, rfl⟩
      | error e =>
        rw [hI] at h
        cases h
    obtain ⟨hc, hi⟩ := inverse_cont (h1 M List.mem_cons_self) hin
    obtain ⟨vs', Ss', Xs', g1, g2, g3, g4⟩ := backLoop_cont Ms vs Ss Xs (fun f h => h1 f (List.mem_cons_of_mem _ h))
      (fun f h => h2 f (List.mem_cons_of_mem _ h)) (fun f h => h3 f (List.mem_cons_of_mem _ h))
      (fun f h => h4 f (List.mem_cons_of_mem _ h)) (fun x => by
        have h := hok x
        simp only [List.map_cons, backLoop, hi x] at h
        exact h)
    refine ⟨(fun x => (M x)⁻¹.mulVec (v x)) :: vs', (fun x => congr (M x)⁻¹ (S x)) :: Ss', (fun x => (M x)⁻¹) :: Xs', ?_, ?_, ?_, fun x => ?_⟩
    · intro q hq
      rcases List.mem_cons.1 hq with rfl | hq
      · exact hc.matrix_mulVec (h2 v List.mem_cons_self)
      · exact g1 q hq
    · intro q hq
      rcases List.mem_cons.1 hq with rfl | hq
      · exact (hc.matrix_mul (h3 S List.mem_cons_self)).matrix_mul hc.matrix_transpose
      · exact g2 q hq
    · intro q hq
      rcases List.mem_cons.1 hq with rfl | hq
      · exact hc
      · exact g3 q hq
    · simp only [List.map_cons, backLoop, hi x, g4 x]

theorem back_cont {Ms : List (X → Mat)} (hM : ∀ M ∈ Ms, Continuous M) {S : X → MSt} (h0 : Each Continuous fun x => (S x).moment0)
    (h1 : Each Continuous fun x => (S x).moment1) (h2 : Each Continuous fun x => (S x).transmat)
    (hok : ∀ x, (backward (Ms.map (fun M => M x)) (S x)).2 = none) :
    ∃ m0 : X → List Vec, ∃ m1 tm : X → List Mat, Each Continuous m0 ∧ Each Continuous m1 ∧ Each Continuous tm ∧
      ∀ x, backward (Ms.map (fun M => M x)) (S x) = ({ S x with moment0 := m0 x, moment1 := m1 x, transmat := tm x }, none) := by
  obtain ⟨vs, v1, v2⟩ := h0
  obtain ⟨Ss, s1, s2⟩ := h1
  obtain ⟨Xs, x1, x2⟩ := h2
  dsimp only at v2 s2 x2
  obtain ⟨vs', Ss', Xs', g1, g2, g3, g4⟩ := backLoop_cont Ms vs Ss Xs hM v1 s1 x1 (fun x => by
    have := hok x
    unfold backward at this
    rw [v2 x, s2 x, x2 x] at this
    exact this)
  refine ⟨fun x => vs'.map (fun v => v x), fun x => Ss'.map (fun v => v x), fun x => Xs'.map (fun v => v x), ⟨vs', g1, fun _ => rfl⟩,
    ⟨Ss', g2, fun _ => rfl⟩, ⟨Xs', g3, fun _ => rfl⟩, fun x => ?_⟩
  unfold backward
  rw [v2 x, s2 x, x2 x, g4 x]

theorem back_base {env : Env} {t : MType} {d : X → MDat} (hd : Good t d) (hnb : t ≠ .sbend) (hns : t ≠ .sextupole) {s : X → St MSt} (hs : ∀ x, (s x).retreat = true)
    (hb : Beams fun x => (s x).payload) (hg : ∀ x, Going (s x).payload) (x0 : X)
    (hok : ∀ x, (advance env t (d x) (s x)).2.2 = none) :
    (Beams fun x => (advance env t (d x) (s x)).2.1.payload) ∧ ∀ x, Going (advance env t (d x) (s x)).2.1.payload := by
  have hadv : ∀ x, advance env t (d x) (s x) = advanceBase (recompute env t) (d x) (s x) := by
    intro x
    rcases hd.kind with this | this | this | this
    · cases t <;> first | rfl | cases this
    · exact absurd this hnb
    · subst this
      rfl
    · exact absurd this hns
  obtain ⟨fs, hf1, hf2⟩ := hb.real
  dsimp only at hf2
  have hmv : ∀ f ∈ fs, ∀ x, Moves (f x) := fun f hf x => (hg x).real _ (by rw [hf2]; exact List.mem_map.2 ⟨f, hf, rfl⟩)
  let d1 : X → MDat := fun x => { d x with refIn := some (s x).payload.recalc.ref, realIn := (s x).payload.recalc.real, transfer := resize (s x).payload.recalc.real.length (d x).transfer }
  have hrr : ∀ x, (s x).payload.recalc.real = (fs.map (fun f x => (f x).recalc)).map (fun f => f x) := by
    intro x
    show (s x).payload.real.map Particle.recalc = _
    rw [hf2, List.map_map, List.map_map]
    rfl
  have hnh : ∀ x, ¬ hit (d x) (s x).payload.recalc := by
    rintro x ⟨-, ⟨r, hr, -⟩, -⟩
    rw [hd.fresh x] at hr
    cases hr
  have key : ∀ x, ∃ T, recompute env t (d1 x) (s x).payload.recalc.ref ((fs.map (fun f x => (f x).recalc)).map (fun f => f x)) = .ok T := by
    intro x
    have h := hok x
    rw [hadv x, advanceBase] at h
    simp only [particles, hnh x, decide_false, Bool.false_eq_true, if_false] at h
    rw [← hrr x]
    cases hT : recompute env t (d1 x) (s x).payload.recalc.ref (s x).payload.recalc.real with
    | ok T => exact ⟨T, rfl⟩
    | error e =>
      rw [show recompute env t { d x with refIn := some (s x).payload.recalc.ref, realIn := (s x).payload.recalc.real, transfer := resize (s x).payload.recalc.real.length (d x).transfer } (s x).payload.recalc.ref (s x).payload.recalc.real = .error e from hT] at h
      cases h
  have hrec : ∀ f ∈ fs.map (fun f x => (f x).recalc), Particles f ∧ ∀ x, Live (f x) := by
    intro q hq
    obtain ⟨f, hf, rfl⟩ := List.mem_map.1 hq
    exact ⟨Particles.recalc (hf1 f hf) (hmv f hf), fun x => live_recalc (hmv f hf x)⟩
  have hp1 : Placing d1 := ⟨hd.placing.length, hd.placing.dx, hd.placing.dy, hd.placing.pitch, hd.placing.yaw, hd.placing.roll⟩
  obtain ⟨Ms, hM1, hM2⟩ := matrices_cont hd hns hp1 (fun _ => rfl) (fun _ => rfl) (Particles.recalc hb.ref (fun x => (hg x).ref))
    (fun x => live_recalc (hg x).ref) hrec x0 key
  let S0 : X → MSt := fun x => { (s x).payload.recalc with
    ref := (s x).payload.ref.recalc.recalc.drifted true (d x).length
    real := (s x).payload.real.map (fun p => p.recalc.recalc.drifted true (d x).length)
    pos := (s x).payload.pos + sign true * (d x).length }
  have hshape : ∀ x, advance env t (d x) (s x) = match backward (Ms.map (fun M => M x)) (S0 x) with
      | (S, some e) => ({ d1 x with transfer := Ms.map (fun M => M x), refOut := (S0 x).ref, realOut := (S0 x).real }, { s x with payload := S }, some e)
      | (S, none) => ({ d1 x with transfer := Ms.map (fun M => M x), refOut := (S0 x).ref, realOut := (S0 x).real }, { s x with payload := S.calcRms }, none) := by
    intro x
    rw [hadv x, advanceBase]
    simp only [particles, hnh x, decide_false, Bool.false_eq_true, if_false, hs x, if_true]
    have := hM2 x
    rw [← hrr x] at this
    rw [show recompute env t { d x with refIn := some (s x).payload.recalc.ref, realIn := (s x).payload.recalc.real, transfer := resize (s x).payload.recalc.real.length (d x).transfer } (s x).payload.recalc.ref (s x).payload.recalc.real = .ok (Ms.map (fun M => M x)) from this]
    dsimp only
    rw [show (s x).payload.recalc.real.map (fun p => p.recalc.drifted true (d x).length) =
      (s x).payload.real.map (fun p => p.recalc.recalc.drifted true (d x).length) by
        show ((s x).payload.real.map Particle.recalc).map _ = _
        rw [List.map_map]
        rfl]
    show (match backward (Ms.map (fun M => M x)) (S0 x) with
      | (S, some e) => _
      | (S, none) => _) = _
    generalize backward (Ms.map (fun M => M x)) (S0 x) = w
    obtain ⟨w1, w2⟩ := w
    cases w2 <;> rfl
  obtain ⟨m0, m1, tm, hm0, hm1, htm, hback⟩ := back_cont hM1 (S := S0) hb.moment0 hb.moment1 hb.transmat (fun x => by
    have h := hok x
    rw [hshape x] at h
    revert h
    generalize backward (Ms.map (fun M => M x)) (S0 x) = w
    obtain ⟨w1, w2⟩ := w
    cases w2
    · intro _; rfl
    · intro h; cases h)
  let S' : X → MSt := fun x => { S0 x with moment0 := m0 x, moment1 := m1 x, transmat := tm x }
  have hres : ∀ x, (advance env t (d x) (s x)).2.1.payload = (S' x).calcRms := by
    intro x
    rw [hshape x, hback x]
  have hQ : ∀ x, totQ (S' x).real ≠ 0 := by
    intro x
    have := (hg x).current
    show totQ ((s x).payload.real.map (fun p => p.recalc.recalc.drifted true (d x).length)) ≠ 0
    unfold totQ
    rw [List.map_map]
    exact this
  simp only [hres]
  refine ⟨calcRms_cont ?_ ?_ ?_ hm0 hm1 htm hQ, fun x => ⟨⟨?_, ?_, ?_, ?_⟩, ?_, hQ x⟩⟩
  · exact hb.pos.add (continuous_const.mul hd.placing.length)
  · have h1 := Particles.recalc hb.ref (fun x => (hg x).ref)
    exact Particles.drifted (Particles.recalc h1 (fun x => (live_recalc (hg x).ref).moves)) true hd.placing.length
  · refine ⟨fs.map (fun f x => (f x).recalc.recalc.drifted true (d x).length), ?_, fun x => ?_⟩
    · intro q hq
      obtain ⟨f, hf, rfl⟩ := List.mem_map.1 hq
      have h1 := Particles.recalc (hf1 f hf) (hmv f hf)
      exact Particles.drifted (Particles.recalc h1 (fun x => (live_recalc (hmv f hf x)).moves)) true hd.placing.length
    · show (s x).payload.real.map _ = _
      rw [hf2, List.map_map, List.map_map]
      rfl
  · exact (hg x).ref.mass
  · exact (hg x).ref.energy
  · exact (hg x).ref.charge
  · exact (hg x).ref.freq
  · intro p hp
    obtain ⟨q, hq, rfl⟩ := List.mem_map.1 hp
    have := (hg x).real q hq
    exact ⟨this.mass, this.energy, this.charge, this.freq⟩

theorem back_bend {env : Env} {d : X → MDat} (hd : Good .sbend d) {s : X → St MSt} (hs : ∀ x, (s x).retreat = true)
    (hb : Beams fun x => (s x).payload) (hg : ∀ x, Going (s x).payload) (x0 : X)
    (hok : ∀ x, (advance env .sbend (d x) (s x)).2.2 = none) :
    (Beams fun x => (advance env .sbend (d x) (s x)).2.1.payload) ∧ ∀ x, Going (advance env .sbend (d x) (s x)).2.1.payload := by
  have hadv : ∀ x, advance env .sbend (d x) (s x) = advanceBend (recompute env .sbend) (d x) (s x) := fun _ => rfl
  obtain ⟨fs, hf1, hf2⟩ := hb.real
  dsimp only at hf2
  have hmv : ∀ f ∈ fs, ∀ x, Moves (f x) := fun f hf x => (hg x).real _ (by rw [hf2]; exact List.mem_map.2 ⟨f, hf, rfl⟩)
  let d1 : X → MDat := fun x => { d x with refIn := some (s x).payload.recalc.ref, realIn := (s x).payload.recalc.real, transfer := resize (s x).payload.recalc.real.length (d x).transfer }
  have hrr : ∀ x, (s x).payload.recalc.real = (fs.map (fun f x => (f x).recalc)).map (fun f => f x) := by
    intro x
    show (s x).payload.real.map Particle.recalc = _
    rw [hf2, List.map_map, List.map_map]
    rfl
  have hnh : ∀ x, ¬ hit (d x) (s x).payload.recalc := by
    rintro x ⟨-, ⟨r, hr, -⟩, -⟩
    rw [hd.fresh x] at hr
    cases hr
  have key : ∀ x, ∃ T, recompute env .sbend (d1 x) (s x).payload.recalc.ref ((fs.map (fun f x => (f x).recalc)).map (fun f => f x)) = .ok T := by
    intro x
    have h := hok x
    rw [hadv x, advanceBend] at h
    simp only [particles, hnh x, decide_false, Bool.false_eq_true, if_false] at h
    rw [← hrr x]
    cases hT : recompute env .sbend (d1 x) (s x).payload.recalc.ref (s x).payload.recalc.real with
    | ok T => exact ⟨T, rfl⟩
    | error e =>
      rw [show recompute env .sbend { d x with refIn := some (s x).payload.recalc.ref, realIn := (s x).payload.recalc.real, transfer := resize (s x).payload.recalc.real.length (d x).transfer } (s x).payload.recalc.ref (s x).payload.recalc.real = .error e from hT] at h
      cases h
  have hrec : ∀ f ∈ fs.map (fun f x => (f x).recalc), Particles f ∧ ∀ x, Live (f x) := by
    intro q hq
    obtain ⟨f, hf, rfl⟩ := List.mem_map.1 hq
    exact ⟨Particles.recalc (hf1 f hf) (hmv f hf), fun x => live_recalc (hmv f hf x)⟩
  have hp1 : Placing d1 := ⟨hd.placing.length, hd.placing.dx, hd.placing.dy, hd.placing.pitch, hd.placing.yaw, hd.placing.roll⟩
  obtain ⟨Ms, hM1, hM2⟩ := matrices_cont hd (by decide) hp1 (fun _ => rfl) (fun _ => rfl) (Particles.recalc hb.ref (fun x => (hg x).ref))
    (fun x => live_recalc (hg x).ref) hrec x0 key
  let S0 : X → MSt := fun x => { (s x).payload.recalc with
    ref := (s x).payload.ref.recalc.recalc.drifted true (d x).length
    real := (fs.map (fun f x => (f x).recalc.recalc)).map (fun f => f x)
    pos := (s x).payload.pos + sign true * (d x).length }
  have hshape : ∀ x, ∃ d', advance env .sbend (d x) (s x) = match backward (Ms.map (fun M => M x)) (S0 x) with
      | (S, some e) => (d', { s x with payload := S }, some e)
      | (S, none) => (d', { s x with payload := { S with real := bendPhis true (d x).length S.real (S0 x).moment0 S.moment0 }.calcRms }, none) := by
    intro x
    refine ⟨{ d1 x with transfer := Ms.map (fun M => M x), refOut := (s x).payload.recalc.ref.recalc, realOut := (fs.map (fun f x => (f x).recalc.recalc)).map (fun f => f x) }, ?_⟩
    rw [hadv x, advanceBend]
    simp only [particles, hnh x, decide_false, Bool.false_eq_true, if_false, hs x, if_true]
    have := hM2 x
    rw [← hrr x] at this
    rw [show recompute env .sbend { d x with refIn := some (s x).payload.recalc.ref, realIn := (s x).payload.recalc.real, transfer := resize (s x).payload.recalc.real.length (d x).transfer } (s x).payload.recalc.ref (s x).payload.recalc.real = .ok (Ms.map (fun M => M x)) from this]
    dsimp only
    rw [show (s x).payload.recalc.real.map (fun p => id p.recalc) = (fs.map (fun f x => (f x).recalc.recalc)).map (fun f => f x) by
        rw [hrr x, List.map_map, List.map_map, List.map_map]
        rfl]
    show (match backward (Ms.map (fun M => M x)) (S0 x) with
      | (S, some e) => _
      | (S, none) => _) = _
    generalize backward (Ms.map (fun M => M x)) (S0 x) = w
    obtain ⟨w1, w2⟩ := w
    cases w2 <;> rfl
  obtain ⟨m0, m1, tm, hm0, hm1, htm, hback⟩ := back_cont hM1 (S := S0) hb.moment0 hb.moment1 hb.transmat (fun x => by
    have h := hok x
    obtain ⟨d', hd'⟩ := hshape x
    rw [hd'] at h
    revert h
    generalize backward (Ms.map (fun M => M x)) (S0 x) = w
    obtain ⟨w1, w2⟩ := w
    cases w2
    · intro _; rfl
    · intro h; cases h)
  let S' : X → MSt := fun x => { S0 x with
    moment0 := m0 x
    moment1 := m1 x
    transmat := tm x
    real := bendPhis true (d x).length ((fs.map (fun f x => (f x).recalc.recalc)).map (fun f => f x)) (s x).payload.moment0 (m0 x) }
  have hres : ∀ x, (advance env .sbend (d x) (s x)).2.1.payload = (S' x).calcRms := by
    intro x
    obtain ⟨d', hd'⟩ := hshape x
    rw [hd', hback x]
    rfl
  have hrl : Each Particles fun x => (S' x).real := by
    obtain ⟨vs, v1, v2⟩ := hb.moment0
    obtain ⟨ws, w1, w2⟩ := hm0
    dsimp only at v2 w2
    have h5 := bendPhis_cont (r := true) hd.placing.length (fs.map (fun f x => (f x).recalc.recalc)) vs ws (by
      intro q hq
      obtain ⟨f, hf, rfl⟩ := List.mem_map.1 hq
      exact Particles.recalc (Particles.recalc (hf1 f hf) (hmv f hf)) (fun x => (live_recalc (hmv f hf x)).moves)) v1 w1
    have e : (fun x => (S' x).real) = fun x => bendPhis true (d x).length ((fs.map (fun f x => (f x).recalc.recalc)).map (fun f => f x))
        (vs.map (fun v => v x)) (ws.map (fun w => w x)) := by
      funext x
      show bendPhis true (d x).length _ (s x).payload.moment0 (m0 x) = _
      rw [w2 x, v2 x]
    rw [e]
    exact h5
  have hQ : ∀ x, totQ (S' x).real ≠ 0 := by
    intro x
    have := (hg x).current
    unfold totQ
    show ((bendPhis true (d x).length _ _ _).map (·.IonQ)).sum ≠ 0
    rw [bendPhis_charge, List.map_map, List.map_map]
    rw [hf2, List.map_map] at this
    exact this
  simp only [hres]
  refine ⟨calcRms_cont ?_ ?_ hrl hm0 hm1 htm hQ, fun x => ⟨⟨?_, ?_, ?_, ?_⟩, ?_, hQ x⟩⟩
  · exact hb.pos.add (continuous_const.mul hd.placing.length)
  · have h1 := Particles.recalc hb.ref (fun x => (hg x).ref)
    exact Particles.drifted (Particles.recalc h1 (fun x => (live_recalc (hg x).ref).moves)) true hd.placing.length
  · exact (hg x).ref.mass
  · exact (hg x).ref.energy
  · exact (hg x).ref.charge
  · exact (hg x).ref.freq
  · refine bendPhis_moves _ _ _ _ ?_
    intro p hp
    rw [List.map_map] at hp
    obtain ⟨f, hf, rfl⟩ := List.mem_map.1 hp
    exact (live_recalc (live_recalc (hmv f hf x)).moves).moves

theorem back_step {env : Env} {t : MType} {d : X → MDat} (hd : Good t d) {s : X → St MSt} (hs : ∀ x, (s x).retreat = true)
    (hb : Beams fun x => (s x).payload) (hg : ∀ x, Going (s x).payload) (x0 : X)
    (hok : ∀ x, (advance env t (d x) (s x)).2.2 = none) :
    (Beams fun x => (advance env t (d x) (s x)).2.1.payload) ∧ ∀ x, Going (advance env t (d x) (s x)).2.1.payload := by
  by_cases h : t = .sbend
  · subst h
    exact back_bend hd hs hb hg x0 hok
  · by_cases h' : t = .sextupole
    · subst h'
      exact absurd (hok x0) (sextupole_backward (d x0) (s x0) (hs x0))
    · exact back_base hd h h' hs hb hg x0 hok

theorem back_run {env : Env} {junk : Mat} {base : Nat} (x0 : X) (n : Nat) : ∀ (els : X → List (Elem LCfg MDat MSt)) (s : X → St MSt)
    (i : Nat), n ≤ i + 1 → (∀ x, (els x).length < sizeMod) → (∀ x, i < (els x).length) → (∀ x, (s x).nextElem = i) →
    (∀ x, (s x).retreat = true) →
    (∀ j, j ≤ i → i < j + n → ∃ t, ∃ e : X → Elem LCfg MDat MSt, (∀ x, (els x)[j]? = some (e x)) ∧
      (∀ x, (e x).cls = cls env junk base t) ∧ Good t fun x => (e x).dat) →
    (Beams fun x => (s x).payload) → (∀ x, Going (s x).payload) → (∀ x, (run n (els x) (s x)).err = none) →
    ∀ k ≤ n, Beams fun x => (run k (els x) (s x)).st.payload := by
  induction n with
  | zero =>
    intro els s i _ _ _ _ _ _ hb _ _ k hk
    obtain rfl : k = 0 := by omega
    exact hb
  | succ n ih =>
    intro els s i hni hl hn hi hr hE hb hg hok k hk
    have hpay : ∀ s : St MSt, (stepNext s).payload = s.payload := by intro s; unfold stepNext; split <;> rfl
    have hret : ∀ s : St MSt, (stepNext s).retreat = s.retreat := by intro s; unfold stepNext; split <;> rfl
    obtain ⟨t, e, he, hc, hgood⟩ := hE i (le_refl _) (by omega)
    have he' : ∀ x, (els x)[(s x).nextElem]? = some (e x) := fun x => by rw [hi x]; exact he x
    have hts : t ≠ .source := by
      rintro rfl
      exact absurd hgood.kind (by decide)
    have h3 : ∀ x, ((e x).cls.advance (e x).dat (stepNext (s x))).2.2 = none := by
      intro x
      cases h : ((e x).cls.advance (e x).dat (stepNext (s x))).2.2 with
      | none => rfl
      | some err =>
        have := hok x
        rw [run_succ_err (he' x) h] at this
        cases this
    have h3' : ∀ x, (advance env t (e x).dat (stepNext (s x))).2.2 = none := by
      intro x
      have := h3 x
      rw [hc x] at this
      exact this
    obtain ⟨g1, g2⟩ := back_step hgood (fun x => by rw [hret]; exact hr x) (by simpa only [hpay] using hb)
      (fun x => by rw [hpay]; exact hg x) x0 h3'
    have hrun : ∀ m x, (run (m + 1) (els x) (s x)).st = (run m ((els x).set i { e x with dat := (advance env t (e x).dat (stepNext (s x))).1 })
        (advance env t (e x).dat (stepNext (s x))).2.1).st ∧ (run (m + 1) (els x) (s x)).err = (run m ((els x).set i { e x with dat := (advance env t (e x).dat (stepNext (s x))).1 })
        (advance env t (e x).dat (stepNext (s x))).2.1).err := by
      intro m x
      have hx : (e x).cls.advance = advance env t := by rw [hc x]; rfl
      rw [run_succ_ok (he' x) (h3 x), hi x, hx]
      exact ⟨rfl, rfl⟩
    have hkeep : ∀ x, (advance env t (e x).dat (stepNext (s x))).2.1.nextElem = (i + (sizeMod - 1)) % sizeMod ∧
        (advance env t (e x).dat (stepNext (s x))).2.1.retreat = true := by
      intro x
      obtain ⟨k1, k2⟩ := (measured_cls env junk base t hts).1 (e x).dat (stepNext (s x))
      refine ⟨k1.trans ?_, k2.trans ((hret _).trans (hr x))⟩
      unfold stepNext
      rw [if_pos (hr x), hi x]
    cases k with
    | zero => exact hb
    | succ k =>
      simp only [(hrun _ _).1]
      by_cases hn0 : n = 0
      · subst hn0
        obtain rfl : k = 0 := by omega
        exact g1
      have hi0 : 0 < i := by omega
      have hdown : (i + (sizeMod - 1)) % sizeMod = i - 1 := by
        have h1 := hl x0
        have h2 := hn x0
        rw [show i + (sizeMod - 1) = i - 1 + sizeMod by omega, Nat.add_mod_right]
        exact Nat.mod_eq_of_lt (by omega)
      refine ih _ _ (i - 1) (by omega) (fun x => by rw [List.length_set]; exact hl x) (fun x => by rw [List.length_set]; have := hn x; omega)
        (fun x => (hkeep x).1.trans hdown) (fun x => (hkeep x).2) ?_ g1 g2 (fun x => by rw [← (hrun _ _).2]; exact hok x) k (by omega)
      intro j hj hj2
      obtain ⟨t', e', h1, h2, h3⟩ := hE j (by omega) (by omega)
      exact ⟨t', e', fun x => by rw [List.getElem?_set_ne (by omega)]; exact h1 x, h2, h3⟩

/-- **C107 on the way back.**  As `C107_steady_partial`, for a propagation of `n` elements backward from number `start`.  If there is no
exception for any `x`, so that all matrices can be inverted and there is no sextupole, then everything the state reports before each of
these elements changes continuously with `x`. -/
theorem C107_backward_partial {env : Env} {junk : Mat} {base : Nat} {cavity stripper : Cls LCfg MDat MSt} [Nonempty X] (cv : CView LCfg)
    (c : X → LCfg) (m : X → Machine LCfg MDat MSt)
    (h : ∀ x, Machine.new cv (registry env junk base cavity stripper) (c x) = .ok (m x))
    (es : List (X → LCfg)) (hes : ∀ x, cv.elems (c x) = .ok (es.map (fun e => e x))) (hl : es.length < 2 ^ 31)
    (start n : Nat) (hstart : start < es.length) (hn : n ≤ start + 1)
    (hu : ∀ j e, j ≤ start → start < j + n → es[j]? = some e → Tuned e ∧ ∃ ty, (∀ x, cv.str (e x) "type" = .ok ty) ∧ Regular ty e)
    (s : X → St MSt) (hb : Beams fun x => (s x).payload) (hg : ∀ x, Going (s x).payload) :
    ∃ R : X → ℕ → Run LCfg MDat MSt, (∀ x, ∀ k ≤ n, 0 < k → propagate (m x).elems (s x) start (-k) = some (R x k)) ∧
      ((∀ x, (R x n).err = none) → ∀ k ≤ n, Beams fun x => (R x k).st.payload) := by
  have hF := fun x => machine_moment (h x) (hes x)
  have hlen : ∀ x, (m x).elems.length = es.length := fun x => by rw [← (hF x).length_eq, List.length_map]
  refine ⟨fun x k => run k (m x).elems { s x with nextElem := start, retreat := true }, fun x k _ hk0 => ?_, fun hok => ?_⟩
  · rw [propagate_eq (m x).elems (s x) start (-k) (by omega)]
    have : decide (-(k : Int) < 0) = true := by simpa using hk0
    rw [this, Int.natAbs_neg, Int.natAbs_natCast]
  refine back_run (env := env) (junk := junk) (base := base) (Classical.arbitrary X) n (fun x => (m x).elems)
    (fun x => { s x with nextElem := start, retreat := true }) start hn (fun x => by rw [hlen]; exact lt_trans hl (by norm_num [sizeMod])) (fun x => by rw [hlen]; exact hstart)
    (fun _ => rfl) (fun _ => rfl) ?_ hb hg hok
  intro j hj hj2
  have hjl : j < es.length := by omega
  obtain ⟨htun, ty, hty, hst⟩ := hu j es[j] hj hj2 (List.getElem?_eq_getElem hjl)
  have hex : ∀ x, ∃ e, (m x).elems[j]? = some e ∧ ∃ t : MType, e.cls = cls env junk base t ∧ t.name = ty ∧
      build env junk t (es[j] x) = .ok e.dat := by
    intro x
    have hj' : j < (m x).elems.length := by rw [hlen]; exact hjl
    refine ⟨_, List.getElem?_eq_getElem hj', ?_⟩
    obtain ⟨ec, hec, ty', hty', hcase⟩ := Flame.Cavity.forall₂_get (hF x) (List.getElem?_eq_getElem hj')
    rw [List.getElem?_map, List.getElem?_eq_getElem hjl] at hec
    cases hec
    rw [hty x] at hty'
    cases hty'
    rcases hcase with hc | ⟨-, rfl, -⟩ | ⟨-, rfl, -⟩
    · exact hc
    · exact absurd hst.kind (by unfold Straight; decide)
    · exact absurd hst.kind (by unfold Straight; decide)
  choose e he t ht htn hbuild using hex
  have htt : ∀ x, t x = t (Classical.arbitrary X) := by
    intro x
    have : (t x).name = (t (Classical.arbitrary X)).name := (htn x).trans (htn _).symm
    revert this
    generalize t x = a
    generalize t (Classical.arbitrary X) = b
    cases a <;> cases b <;> simp [MType.name]
  simp only [htt] at ht hbuild
  exact ⟨_, e, he, ht, good_build hbuild (by rw [htn]; exact hst) htun⟩

/-! ## a quadrupole ramped through zero, passed backward -/

/-- The matrices of the element can be computed and inverted for every moving beam. -/
def Sound (env : Env) (t : MType) (d : MDat) : Prop :=
  t ≠ .sbend ∧ t ≠ .sextupole ∧ ∀ d1 ref real, d1.conf = d.conf → Live ref → (∀ p ∈ real, Live p) →
    ∃ T, recompute env t d1 ref real = .ok T ∧ ∀ M ∈ T, M.det ≠ 0

theorem backLoop_fine : ∀ (Ts : List Mat) (vs : List Vec) (Ss Xs : List Mat), (∀ M ∈ Ts, M.det ≠ 0) → (backLoop Ts vs Ss Xs).2.2.2 = none
  | [], _, _, _, _ => by simp [backLoop]
  | _ :: _, [], _, _, _ => by simp [backLoop]
  | _ :: _, _ :: _, [], _, _ => by simp [backLoop]
  | _ :: _, _ :: _, _ :: _, [], _ => by simp [backLoop]
  | T :: Ts, v :: vs, S :: Ss, Y :: Xs, h => by
    have hT : inverse T = .ok T⁻¹ := by simp [inverse, h T (by simp)]
    simp only [backLoop, hT]
    exact backLoop_fine Ts vs Ss Xs (fun M hM => h M (by simp [hM]))

theorem sound_advance {env : Env} {t : MType} {d : MDat} {s : St MSt} (hst : straight t = true ∨ t = .sbend ∨ t = .edipole ∨ t = .sextupole)
    (hd : d.refIn = none) (hf : Sound env t d) (hr : s.retreat = true) (hg : Going s.payload) : (advance env t d s).2.2 = none := by
  obtain ⟨hsb, hsx, hf⟩ := hf
  have hnh : ¬ hit d s.payload.recalc := by
    rintro ⟨-, ⟨r, hr, -⟩, -⟩
    rw [hd] at hr
    cases hr
  obtain ⟨T, hT, hdet⟩ := hf { d with refIn := some s.payload.recalc.ref, realIn := s.payload.recalc.real, transfer := resize s.payload.recalc.real.length d.transfer } s.payload.recalc.ref s.payload.recalc.real rfl (live_recalc hg.ref) (by
    intro p hp
    obtain ⟨q, hq, rfl⟩ := List.mem_map.1 hp
    exact live_recalc (hg.real q hq))
  have hadv : advance env t d s = advanceBase (recompute env t) d s := by
    cases t <;> first | rfl | exact absurd rfl hsb | exact absurd rfl hsx | exact absurd hst (by decide)
  rw [hadv, advanceBase]
  simp only [particles, hnh, decide_false, Bool.false_eq_true, if_false, hr, if_true, hT]
  have hb : ∀ S : MSt, (backward T S).2 = none := fun S => backLoop_fine _ _ _ _ hdet
  split
  · rename_i hS
    have := congrArg Prod.snd hS
    rw [hb] at this
    cases this
  · rfl

theorem aligned_det {d : MDat} {ref p : Particle} (hr : Live ref) (hp : Live p) {T A : Mat} (hT : ∀ w, Flame.Moment.Good w T)
    (h : aligned d ref p T = .ok A) : A.det ≠ 0 := by
  have hx : p.SampleIonK * (p.beta ^ 2 * p.gamma * ref.IonEs / 1000000) ≠ 0 :=
    mul_ne_zero hp.k (div_ne_zero (mul_ne_zero (mul_ne_zero (pow_ne_zero _ hp.beta.ne') hp.gamma.ne') hr.mass.ne') (by norm_num))
  have hg := aligned_good (w := -1 / (p.SampleIonK * (p.beta ^ 2 * p.gamma * ref.IonEs / 1000000))) h (hT _) (div_mul_cancel₀ _ hx)
  have h2 := preserves_det (div_ne_zero (by norm_num) hx) hg.2
  rw [Flame.Cavity.keeps_det hg.1]
  intro h0
  rw [h0] at h2
  norm_num at h2

theorem forEach_mem {α β : Type} {f : α → Except Err β} : ∀ {l : List α} {r : List β}, forEach f l = .ok r → ∀ y ∈ r, ∃ a ∈ l, f a = .ok y
  | [], r, h, y, hy => by
    cases h
    simp at hy
  | a :: l, r, h, y, hy => by
    rw [forEach] at h
    split at h
    · cases h
    rename_i b hb
    split at h
    · cases h
    rename_i bs hbs
    cases h
    rcases List.mem_cons.1 hy with rfl | hy
    · exact ⟨a, by simp, hb⟩
    · obtain ⟨q, hq, e⟩ := forEach_mem hbs y hy
      exact ⟨q, by simp [hq], e⟩

theorem exRamp_sound (env : Env) {junk : Mat} {t : MType} (x : ℝ) {j : Nat} (hj : j < 2) {e : ℝ → LCfg} (he : exRamp[j]? = some e) {d : MDat}
    (htn : e x "type" = some (.str t.name)) (hb : build env junk t (e x) = .ok d) : Sound env t d := by
  have hn0 : asUnsigned 0 = .ok 0 := by norm_num [asUnsigned]
  have hconf : d.conf = e x := (build_length hb).2.1
  obtain rfl | rfl : j = 0 ∨ j = 1 := by omega
  · simp only [exRamp, List.getElem?_cons_zero, Option.some.injEq] at he
    subst he
    have : t = .drift := by
      have h : t.name = "drift" := by injection htn with h; injection h with h; exact h.symm
      revert h; cases t <;> decide
    subst this
    refine ⟨by decide, by decide, fun d1 ref real _ _ _ => ⟨_, rfl, ?_⟩⟩
    intro M hM
    obtain ⟨p, -, rfl⟩ := List.mem_map.1 hM
    rw [driftM_det]
    exact one_ne_zero
  · simp only [exRamp, List.getElem?_cons_succ, List.getElem?_cons_zero, Option.some.injEq] at he
    subst he
    have : t = .quadrupole := by
      have h : t.name = "quadrupole" := by injection htn with h; injection h with h; exact h.symm
      revert h; cases t <;> decide
    subst this
    refine ⟨by decide, by decide, fun d1 ref real hd h1 h2 => ?_⟩
    rw [hconf] at hd
    have hflag : getFlag env d1.conf "ncurve" 0 = .ok 0 := by
      rw [hd]
      simp [getFlag, getStr, getNum, hn0]
    have hL : getNum d1.conf "L" = .ok (1 / 5) := by rw [hd]; rfl
    have hB2 : getNum d1.conf "B2" = .ok x := by rw [hd]; rfl
    simp only [recompute, quadRec, hL, hflag, hB2, if_true]
    obtain ⟨T, hT⟩ := forEach_fine (l := real) fun p hp => aligned_fine (d := d1) h1 (h2 p hp) (quadM p (1 / 5 * MtoMM) (x / p.Brho / (MtoMM * MtoMM)))
    refine ⟨T, hT, fun M hM => ?_⟩
    obtain ⟨p, hp, hpM⟩ := forEach_mem hT M hM
    exact aligned_det h1 (h2 p hp) (fun w => quadM_good w _ _ _) hpM

theorem sound_run {env : Env} {junk : Mat} {base : Nat} (n : Nat) : ∀ (els : List (Elem LCfg MDat MSt)) (s : St MSt),
    els.length < sizeMod → s.nextElem < els.length → n ≤ s.nextElem + 1 → s.retreat = true →
    (∀ j e, j ≤ s.nextElem → s.nextElem < j + n → els[j]? = some e → ∃ t, e.cls = cls env junk base t ∧
      Sound env t e.dat ∧ Good t fun _ : Unit => e.dat) →
    Going s.payload → (run n els s).err = none := by
  induction n with
  | zero => intros; rfl
  | succ n ih =>
    intro els s hl hlt hn hr hE hg
    have hpay : (stepNext s).payload = s.payload := by unfold stepNext; split <;> rfl
    have hret : (stepNext s).retreat = s.retreat := by unfold stepNext; split <;> rfl
    have he := List.getElem?_eq_getElem hlt
    obtain ⟨t, hc, hf, hgood⟩ := hE _ _ (le_refl _) (by omega) he
    have hts : t ≠ .source := by
      rintro rfl
      exact absurd hgood.kind (by decide)
    have h3 : (advance env t els[s.nextElem].dat (stepNext s)).2.2 = none :=
      sound_advance hgood.kind (hgood.fresh ()) hf (hret.trans hr) (by rw [hpay]; exact hg)
    have hx : els[s.nextElem].cls.advance = advance env t := by rw [hc]; rfl
    obtain ⟨-, g⟩ := back_step (X := Unit) (d := fun _ => els[s.nextElem].dat) (s := fun _ => stepNext s) (env := env) (t := t)
      hgood (fun _ => hret.trans hr) (beams_const _)
      (fun _ => by rw [hpay]; exact hg) () (fun _ => h3)
    obtain ⟨k1, k2⟩ := (measured_cls env junk base t hts).1 els[s.nextElem].dat (stepNext s)
    rw [run_succ_ok he (by rw [hx]; exact h3), hx]
    by_cases hn0 : n = 0
    · subst hn0
      rfl
    have hdown : (stepNext s).nextElem = s.nextElem - 1 := by
      unfold stepNext
      rw [if_pos hr]
      show (s.nextElem + (sizeMod - 1)) % sizeMod = _
      rw [show s.nextElem + (sizeMod - 1) = s.nextElem - 1 + sizeMod by omega, Nat.add_mod_right]
      exact Nat.mod_eq_of_lt (by omega)
    have k1' : (advance env t els[s.nextElem].dat (stepNext s)).2.1.nextElem = s.nextElem - 1 := k1.trans hdown
    refine ih _ _ (by rwa [List.length_set]) (by rw [List.length_set, k1']; omega) (by rw [k1']; omega) (k2.trans (hret.trans hr)) ?_ (g ())
    intro j e hj hj2 hje
    rw [k1'] at hj hj2
    rw [List.getElem?_set_ne (by omega)] at hje
    exact hE j e (by omega) (by omega) hje

/-- The hypotheses of `C107_backward_partial` are met by a quadrupole with any gradient and the drift before it, and a beam of two charge
states; there is no exception, so what it says about the beam holds while the gradient is changed through zero. -/
example (env : Env) (junk : Mat) (cavity stripper : Cls LCfg MDat MSt) : ∃ m : ℝ → Machine LCfg MDat MSt, ∃ R : ℝ → ℕ → Run LCfg MDat MSt,
    (∀ x, Machine.new exRampView (registry env junk 0 cavity stripper) (exRampConf x) = .ok (m x)) ∧
    (∀ x, ∀ k : ℕ, k ≤ 2 → 0 < k → propagate (m x).elems Flame.Cavity.exOnAxis 1 (-k) = some (R x k)) ∧ (∀ x, (R x 2).err = none) ∧
    ∀ k ≤ 2, Beams fun x => (R x k).st.payload := by
  have hes : ∀ x, exRampView.elems (exRampConf x) = .ok (exRamp.map (fun e => e x)) := fun x => rfl
  have hm := exRamp_built env junk cavity stripper
  choose m hm using hm
  obtain ⟨R, hR, hB⟩ := C107_backward_partial (X := ℝ) exRampView exRampConf m hm exRamp hes (by norm_num [exRamp]) 1 2 (by simp [exRamp])
    (by norm_num)
    (fun j e _ _ he => ⟨exRamp_tuned e (List.mem_of_getElem? he), by
      obtain ⟨ty, h1, h2⟩ := exRamp_regular e (List.mem_of_getElem? he)
      exact ⟨ty, fun x => by simp [exRampView, h1], h2⟩⟩)
    (fun _ => Flame.Cavity.exOnAxis) (beams_const _) (fun _ => exOnAxis_going)
  have hF := fun x => machine_moment (hm x) (hes x)
  have hlen : ∀ x, (m x).elems.length = 5 := fun x => by rw [← (hF x).length_eq, List.length_map]; rfl
  have herr : ∀ x, (R x 2).err = none := by
    intro x
    have h1 := hR x 2 le_rfl (by norm_num)
    rw [propagate_eq (m x).elems _ 1 (-(2 : ℕ)) (by omega)] at h1
    rw [← Option.some.inj h1]
    refine sound_run (env := env) (junk := junk) (base := 0) 2 _ _ (by rw [hlen]; norm_num [sizeMod]) (by rw [hlen]; norm_num)
      (le_refl _) rfl ?_ exOnAxis_going
    intro j e hj _ he
    obtain ⟨ec, hec, ty, hty, hcase⟩ := Flame.Cavity.forall₂_get (hF x) he
    rw [List.getElem?_map] at hec
    obtain ⟨ef, hef, rfl⟩ := Option.map_eq_some_iff.1 hec
    have hmem := List.mem_of_getElem? hef
    obtain ⟨ty', hty', hregu⟩ := exRamp_regular ef hmem
    have : ty' = ty := by
      have h := hty
      simp only [exRampView, hty'] at h
      exact Except.ok.inj h
    subst this
    have hshape : Regular ty' fun _ : Unit => ef x :=
      ⟨hregu.kind, fun h _ => hregu.radius h x, fun _ _ _ => rfl, fun h _ => hregu.bent h x, fun _ _ _ => rfl, fun h _ => hregu.deflecting h x,
        fun h => ⟨fun _ => (hregu.lens h).1 x, fun _ _ => rfl, fun _ _ => rfl⟩⟩
    rcases hcase with ⟨t, ht, htn, hb⟩ | ⟨-, rfl, -⟩ | ⟨-, rfl, -⟩
    · refine ⟨t, ht, ?_, good_const hb (by rw [htn]; exact hshape)⟩
      exact exRamp_sound env x (j := j) (by have : j ≤ 1 := hj; omega) hef (htn ▸ hty' x) hb
    · exact absurd hregu.kind (by unfold Straight; decide)
    · exact absurd hregu.kind (by unfold Straight; decide)
  exact ⟨m, R, hm, hR, herr, hB herr⟩

end Flame.Steady
