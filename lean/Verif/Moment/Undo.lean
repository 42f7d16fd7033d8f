import Verif.Moment.Walk
import Mathlib.LinearAlgebra.Matrix.Block

/-! # Propagating back: C31 for the moment simulation -/

namespace Flame.Moment

open Flame.Mach
open Flame.Linear (LVal LCfg getNum getNumD getVec)
open Flame.Linear.Spec (passed)
open Spec

/-! ## the matrices do not depend on the phases -/

/-- The same particle but for the phase. -/
def Ph (p q : Particle) : Prop := ∃ x, q = { p with phis := x }

theorem forEach_congr {α β : Type} {f g : α → Except Err β} {l l' : List α} (h : List.Forall₂ (fun a b => f a = g b) l l') :
    forEach f l = forEach g l' := by
  induction h with
  | nil => rfl
  | cons hd _ ih => simp only [forEach, hd, ih]

theorem forall₂_ph {β : Type} {f g : Particle → β} {l l' : List Particle} (h : List.Forall₂ Ph l l')
    (hfg : ∀ p x, f { p with phis := x } = g p) : List.Forall₂ (fun a b => f a = g b) l' l := by
  refine List.Forall₂.flip (h.imp ?_)
  rintro p q ⟨x, rfl⟩
  exact hfg p x

theorem forEach_ph {β : Type} {f g : Particle → Except Err β} {l l' : List Particle} (h : List.Forall₂ Ph l l')
    (hfg : ∀ p x, f { p with phis := x } = g p) : forEach f l' = forEach g l := forEach_congr (forall₂_ph h hfg)

theorem map_ph {β : Type} {f : Particle → β} {l l' : List Particle} (h : List.Forall₂ Ph l l')
    (hfg : ∀ p x, f { p with phis := x } = f p) : l'.map f = l.map f := by
  induction h with
  | nil => rfl
  | cons hd _ ih =>
    obtain ⟨x, rfl⟩ := hd
    simp only [List.map_cons, ih, hfg]

theorem mis_ph (d : MDat) (r p : Particle) (x y : ℝ) :
    getMisalign d { r with phis := x } { p with phis := y } = getMisalign d r p := by
  unfold getMisalign
  rfl

theorem al_ph (d : MDat) (r p : Particle) (x y : ℝ) (T : Mat) :
    aligned d { r with phis := x } { p with phis := y } T = aligned d r p T := by
  unfold aligned
  rw [mis_ph]

theorem recompute_ph (env : Env) (t : MType) (d : MDat) {ref ref' : Particle} {real real' : List Particle}
    (hr : Ph ref ref') (hl : List.Forall₂ Ph real real') : recompute env t d ref' real' = recompute env t d ref real := by
  obtain ⟨x, rfl⟩ := hr
  cases t with
  | drift =>
    simp only [recompute]
    rw [map_ph hl fun p x => rfl]
  | orbtrim =>
    show orbtrimRec _ _ _ = orbtrimRec _ _ _
    unfold orbtrimRec
    dsimp only
    refine forEach_ph hl fun p y => ?_
    rw [al_ph]
  | sbend =>
    show sbendRec _ _ _ = sbendRec _ _ _
    unfold sbendRec
    split
    · refine forEach_ph hl fun p y => ?_
      unfold sbendOne
      dsimp only
      simp only [al_ph]
    · rfl
  | quadrupole =>
    show quadRec _ _ _ _ = quadRec _ _ _ _
    unfold quadRec
    split
    · rfl
    · dsimp only
      split
      · rfl
      · split
        · split
          · rfl
          · exact forEach_ph hl fun p y => al_ph d ref p x y _
        · split
          · rfl
          · exact forEach_ph hl fun p y => al_ph d ref p x y _
  | solenoid =>
    show solenoidRec _ _ _ _ = solenoidRec _ _ _ _
    unfold solenoidRec
    split
    · rfl
    · dsimp only
      split
      · rfl
      · split
        · split
          · rfl
          · exact forEach_ph hl fun p y => al_ph d ref p x y _
        · split
          · rfl
          · exact forEach_ph hl fun p y => al_ph d ref p x y _
  | edipole =>
    show edipoleRec _ _ _ _ = edipoleRec _ _ _ _
    unfold edipoleRec
    split
    · split
      · rfl
      · split
        · rfl
        · refine forEach_ph hl fun p y => ?_
          unfold edipoleOne
          dsimp only
          simp only [al_ph]
    · rfl
  | equad =>
    show equadRec _ _ _ _ = equadRec _ _ _ _
    unfold equadRec
    split
    · rfl
    · dsimp only
      split
      · rfl
      · split
        · split
          · exact forEach_ph hl fun p y => al_ph d ref p x y _
          · rfl
        · split
          · rfl
          · exact forEach_ph hl fun p y => al_ph d ref p x y _
  | tmatrix => exact forEach_ph hl fun p y => rfl
  | source =>
    simp only [recompute]
    rw [map_ph hl fun p x => rfl]
  | marker =>
    simp only [recompute]
    rw [map_ph hl fun p x => rfl]
  | bpm =>
    simp only [recompute]
    rw [map_ph hl fun p x => rfl]
  | sextupole =>
    simp only [recompute]
    rw [map_ph hl fun p x => rfl]

/-! ## one element -/

/-- The states agree in everything a pass looks at. -/
structure Agree (a b : MSt) : Prop where
  pos : b.pos = a.pos
  ref : b.ref.recalc = a.ref.recalc
  real : b.real.map Particle.recalc = a.real.map Particle.recalc
  m0 : b.moment0 = a.moment0
  m1 : b.moment1 = a.moment1
  last : b.last_caviphi0 = a.last_caviphi0

theorem Agree.refl (a : MSt) : Agree a a := ⟨rfl, rfl, rfl, rfl, rfl, rfl⟩

/-- `b` is `a` again, with everything up to date. -/
def Back (a b : MSt) : Prop := b = MSt.calcRms { a.recalc with transmat := b.transmat }

theorem Back.agree {a b : MSt} (h : Back a b) : Agree a b := by
  have hm : (a.real.map Particle.recalc).map Particle.recalc = a.real.map Particle.recalc := by
    rw [List.map_map]
    rfl
  unfold Back at h
  generalize b.transmat = X at h
  subst h
  exact ⟨rfl, rfl, hm, rfl, rfl, rfl⟩

theorem back_loop : ∀ {T : List Mat} {vs : List Vec} {Ss Xs : List Mat}, vs.length = T.length → Ss.length = T.length →
    Xs.length = T.length →
    ((backLoop T (List.zipWith (fun M v => M.mulVec v) T vs) (List.zipWith congr T Ss) Xs).2.2.2 = none →
      (backLoop T (List.zipWith (fun M v => M.mulVec v) T vs) (List.zipWith congr T Ss) Xs).1 = vs ∧
      (backLoop T (List.zipWith (fun M v => M.mulVec v) T vs) (List.zipWith congr T Ss) Xs).2.1 = Ss) ∧
    ((∀ M ∈ T, M.det ≠ 0) →
      (backLoop T (List.zipWith (fun M v => M.mulVec v) T vs) (List.zipWith congr T Ss) Xs).2.2.2 = none) ∧
    ((backLoop T (List.zipWith (fun M v => M.mulVec v) T vs) (List.zipWith congr T Ss) Xs).2.2.1).length = Xs.length
  | [], [], [], [], _, _, _ => by simp [backLoop]
  | M :: T, v :: vs, S :: Ss, X :: Xs, h1, h2, h3 => by
    obtain ⟨i1, i2, i3⟩ := back_loop (T := T) (vs := vs) (Ss := Ss) (Xs := Xs) (by simpa using h1) (by simpa using h2)
      (by simpa using h3)
    simp only [List.zipWith_cons_cons, backLoop]
    cases hI : inverse M with
    | error e =>
      refine ⟨fun h => by simp at h, fun h => ?_, by simp⟩
      exfalso
      have := h M (by simp)
      simp [inverse, this] at hI
    | ok N =>
      simp only
      obtain ⟨hm, -⟩ := inverse_mul hI
      refine ⟨fun h => ?_, fun h => i2 (fun M hM => h M (by simp [hM])), by simp [i3]⟩
      obtain ⟨e1, e2⟩ := i1 h
      rw [e1, e2, Matrix.mulVec_mulVec, hm, Matrix.one_mulVec, congr_mul, hm]
      simp [congr]
  | [], _ :: _, _, _, h, _, _ => by simp at h
  | [], [], _ :: _, _, _, h, _ => by simp at h
  | [], [], [], _ :: _, _, _, h => by simp at h
  | _ :: _, [], _, _, h, _, _ => by simp at h
  | _ :: _, _ :: _, [], _, _, h, _ => by simp at h
  | _ :: _, _ :: _, _ :: _, [], _, _, h => by simp at h

theorem drifted_recalc (p : Particle) (b : Bool) (L : ℝ) (h : p.recalc = p) : (p.drifted b L).recalc = p.drifted b L := by
  have : (p.drifted b L).recalc = { p.recalc with phis := (p.drifted b L).phis } := rfl
  rw [this, h]
  rfl

theorem drifted_ph (p : Particle) (b : Bool) (L : ℝ) : Ph p (p.drifted b L) := ⟨_, rfl⟩

theorem drifted_back (p : Particle) (L : ℝ) : (p.drifted false L).drifted true L = p := by
  simp [Particle.drifted, sign]

/-- What the particles are on the way back: those before the element, with the same matrices. -/
theorem particles_back {rec : MDat → Particle → List Particle → Except Err (List Mat)} {d d1 : MDat} {S S2 : MSt} {T : List Mat}
    (hrec : ∀ d a b c e f, rec (MDat.cached d a b c e f) = rec d)
    (hph : ∀ d ref ref' real real', Ph ref ref' → List.Forall₂ Ph real real' → rec d ref' real' = rec d ref real)
    (hS : Calc S) (hT : rec d S.ref S.real = .ok T) (L : ℝ)
    (hd : d1 = d.cached (some S.ref) (S.ref.drifted false L) S.real (S.real.map (·.drifted false L)) T)
    (h1 : S2.ref = S.ref.drifted false L) (h2 : S2.real = S.real.map (·.drifted false L)) (b : Bool)
    (hb : b = true → hit d1 S2) :
    ∃ d2, particles rec (·.drifted true L) d1 S2 b = (d2, .ok (S.ref, S.real)) ∧ d2.transfer = T := by
  have hS2 : Calc S2 := by
    refine ⟨by rw [h1]; exact drifted_recalc _ _ _ hS.1, fun p hp => ?_⟩
    rw [h2] at hp
    obtain ⟨q, hq, rfl⟩ := List.mem_map.1 hp
    exact drifted_recalc _ _ _ (hS.2 q hq)
  have hrd : rec d1 = rec d := by rw [hd, hrec]
  have f1 : d1.refIn = some S.ref := by rw [hd]; rfl
  have f2 : d1.realIn = S.real := by rw [hd]; rfl
  have f3 : d1.refOut = S2.ref := by rw [hd, h1]; rfl
  have f4 : d1.realOut = S2.real := by rw [hd, h2]; rfl
  have f5 : d1.transfer = T := by rw [hd]; rfl
  clear hd
  cases b with
  | true =>
    obtain ⟨-, ⟨r, hr, hs⟩, hl⟩ := hb rfl
    rw [f1] at hr
    cases hr
    rw [f2] at hl
    have e1 : S.ref = S2.ref := same_eq hS.1 hS2.1 hs
    have e2 : S.real = S2.real := forall₂_same_eq hS.2 hS2.2 hl
    refine ⟨d1, ?_, f5⟩
    simp only [particles, if_true, f3, f4, e1, e2, List.drop_length, List.append_nil]
  | false =>
    have hr : rec { d1 with refIn := some S2.ref, realIn := S2.real, transfer := resize S2.real.length d1.transfer }
        S2.ref S2.real = .ok T := by
      have : rec { d1 with refIn := some S2.ref, realIn := S2.real, transfer := resize S2.real.length d1.transfer } =
          rec d1 := hrec d1 (some S2.ref) d1.refOut S2.real d1.realOut _
      rw [this, hrd, h1, h2, ← hT]
      apply hph
      · exact drifted_ph _ _ _
      · rw [List.forall₂_map_right_iff]
        exact List.forall₂_same.2 fun p _ => drifted_ph p _ _
    have e1 : S2.ref.recalc.drifted true L = S.ref := by rw [hS2.1, h1, drifted_back]
    have e2 : S2.real.map (fun p => p.recalc.drifted true L) = S.real := by
      rw [List.map_congr_left (g := fun p => p.drifted true L) (fun p hp => by rw [hS2.2 p hp]), h2, List.map_map]
      conv_rhs => rw [← List.map_id S.real]
      exact List.map_congr_left fun p _ => drifted_back p L
    simp only [particles, Bool.false_eq_true, if_false, hr, e1, e2]
    exact ⟨_, rfl, rfl⟩

/-- The same for a bend, where the phases are moved later. -/
theorem particles_back_bend {rec : MDat → Particle → List Particle → Except Err (List Mat)} {d d1 : MDat} {S S2 : MSt}
    {T : List Mat} (hrec : ∀ d a b c e f, rec (MDat.cached d a b c e f) = rec d)
    (hph : ∀ d ref ref' real real', Ph ref ref' → List.Forall₂ Ph real real' → rec d ref' real' = rec d ref real)
    (hS : Calc S) (hS2 : Calc S2) (hT : rec d S.ref S.real = .ok T)
    (hd : d1 = d.cached (some S.ref) S.ref S.real S.real T)
    (h1 : Ph S.ref S2.ref) (h2 : List.Forall₂ Ph S.real S2.real) (b : Bool) (hb : b = true → hit d1 S2) :
    ∃ d2, particles rec id d1 S2 b = (d2, .ok (S2.ref, S2.real)) ∧ d2.transfer = T := by
  have hrd : rec d1 = rec d := by rw [hd, hrec]
  have f1 : d1.refIn = some S.ref := by rw [hd]; rfl
  have f2 : d1.realIn = S.real := by rw [hd]; rfl
  have f3 : d1.refOut = S.ref := by rw [hd]; rfl
  have f4 : d1.realOut = S.real := by rw [hd]; rfl
  have f5 : d1.transfer = T := by rw [hd]; rfl
  clear hd
  cases b with
  | true =>
    obtain ⟨-, ⟨r, hr, hs⟩, hl⟩ := hb rfl
    rw [f1] at hr
    cases hr
    rw [f2] at hl
    have e1 : S.ref = S2.ref := same_eq hS.1 hS2.1 hs
    have e2 : S.real = S2.real := forall₂_same_eq hS.2 hS2.2 hl
    refine ⟨d1, ?_, f5⟩
    simp only [particles, if_true, f3, f4, e1, e2, List.drop_length, List.append_nil]
  | false =>
    have hr : rec { d1 with refIn := some S2.ref, realIn := S2.real, transfer := resize S2.real.length d1.transfer }
        S2.ref S2.real = .ok T := by
      have : rec { d1 with refIn := some S2.ref, realIn := S2.real, transfer := resize S2.real.length d1.transfer } =
          rec d1 := hrec d1 (some S2.ref) d1.refOut S2.real d1.realOut _
      rw [this, hrd, ← hT]
      exact hph _ _ _ _ _ h1 h2
    have e2 : S2.real.map (fun p => p.recalc) = S2.real := by
      conv_rhs => rw [← List.map_id S2.real]
      exact List.map_congr_left fun p hp => hS2.2 p hp
    simp only [particles, Bool.false_eq_true, if_false, hr, hS2.1, id_eq, e2]
    exact ⟨_, rfl, rfl⟩

theorem bendPhis_ph (b : Bool) (L : ℝ) : ∀ (ps : List Particle) (vs ws : List Vec),
    List.Forall₂ Ph ps (bendPhis b L ps vs ws)
  | [], _, _ => .nil
  | _ :: _, [], _ => List.forall₂_same.2 fun p _ => ⟨p.phis, rfl⟩
  | _ :: _, _ :: _, [] => List.forall₂_same.2 fun p _ => ⟨p.phis, rfl⟩
  | _ :: ps, _ :: vs, _ :: ws => .cons ⟨_, rfl⟩ (bendPhis_ph b L ps vs ws)

theorem ph_recalc {p q : Particle} (h : Ph p q) (hp : p.recalc = p) : q.recalc = q := by
  obtain ⟨x, rfl⟩ := h
  have : Particle.recalc { p with phis := x } = { p.recalc with phis := x } := rfl
  rw [this, hp]

theorem forall₂_ph_recalc {l l' : List Particle} (h : List.Forall₂ Ph l l') (hl : ∀ p ∈ l, p.recalc = p) :
    ∀ q ∈ l', q.recalc = q := by
  induction h with
  | nil => intro q hq; simp at hq
  | @cons a b l m hab _ ih =>
    intro q hq
    rcases List.mem_cons.1 hq with rfl | hq
    · exact ph_recalc hab (hl a (by simp))
    · exact ih (fun p hp => hl p (by simp [hp])) q hq

theorem map_recalc_eq {l : List Particle} (h : ∀ p ∈ l, p.recalc = p) : l.map Particle.recalc = l := by
  conv_rhs => rw [← List.map_id l]
  exact List.map_congr_left h

theorem bendPhis_back (L : ℝ) : ∀ (ps : List Particle) (vs ws : List Vec), vs.length = ps.length → ws.length = ps.length →
    bendPhis true L (bendPhis false L ps vs ws) ws vs = ps
  | [], _, _, _, _ => by simp [bendPhis]
  | p :: ps, v :: vs, w :: ws, h1, h2 => by
    simp only [bendPhis, bendPhis_back L ps vs ws (by simpa using h1) (by simpa using h2)]
    congr 1
    cases p
    simp only [sign, Particle.mk.injEq, true_and, and_true]
    simp only [Bool.false_eq_true, if_false, if_true]
    ring
  | _ :: _, [], _, h, _ => by simp at h
  | _ :: _, _ :: _, [], _, h => by simp at h

theorem bendPhis_length (b : Bool) (L : ℝ) (ps vs ws) : (bendPhis b L ps vs ws).length = ps.length :=
  (bendPhis_ph b L ps vs ws).length_eq.symm

theorem calcRms_congr {a b : MSt} (h1 : a.pos = b.pos) (h2 : a.ref = b.ref) (h3 : a.real = b.real)
    (h4 : a.moment0 = b.moment0) (h5 : a.moment1 = b.moment1) (h6 : a.transmat = b.transmat)
    (h7 : a.last_caviphi0 = b.last_caviphi0) : a.calcRms = b.calcRms := by
  cases a; cases b
  simp only at *
  subst h1 h2 h3 h4 h5 h6 h7
  rfl

theorem wf_recalc {S : MSt} (h : WF S) : WF S.recalc := by simpa [WF, MSt.recalc] using h

/-- A state with the particles and the position replaced. -/
def placed (S : MSt) (ref : Particle) (real : List Particle) (pos : ℝ) : MSt :=
  { S with ref := ref, real := real, pos := pos }

/-- A state with the particles replaced. -/
def withReal (S : MSt) (real : List Particle) : MSt := { S with real := real }

/-- An element passed there and back. -/
theorem base_undo {rec : MDat → Particle → List Particle → Except Err (List Mat)} {d : MDat} {s : St MSt}
    (hrec : ∀ d a b c e f, rec (MDat.cached d a b c e f) = rec d)
    (hph : ∀ d ref ref' real real', Ph ref ref' → List.Forall₂ Ph real real' → rec d ref' real' = rec d ref real)
    (hlen : ∀ d r l T, rec d r l = .ok T → T.length = l.length)
    (hc : Coherent rec (·.drifted false d.length) d) (hr : s.retreat = false) (hw : WF s.payload)
    (hok : (advanceBase rec d s).2.2 = none) :
    WF (advanceBase rec d s).2.1.payload ∧ ∀ s2 : St MSt, s2.retreat = true →
      Agree (advanceBase rec d s).2.1.payload s2.payload → WF s2.payload →
      ((advanceBase rec (advanceBase rec d s).1 s2).2.2 = none →
        Back s.payload (advanceBase rec (advanceBase rec d s).1 s2).2.1.payload ∧
        WF (advanceBase rec (advanceBase rec d s).1 s2).2.1.payload) ∧
      ((∀ M ∈ (advanceBase rec d s).1.transfer, M.det ≠ 0) →
        (advanceBase rec (advanceBase rec d s).1 s2).2.2 = none) := by
  have key := advanceBase_coherent (s := s) hrec (by rw [hr]; exact hc)
  have hlen1 : (advanceBase rec d s).1.length = d.length := (advanceBase_place rec d s).2.1
  generalize hA : advanceBase rec d s = A at *
  cases hT : rec d s.payload.recalc.ref s.payload.recalc.real with
  | error e =>
    rw [hT] at key
    simp only at key
    rw [key] at hok
    simp at hok
  | ok T =>
    rw [hT] at key
    simp only [hr] at key
    obtain ⟨k1, k2, -⟩ := key
    have hTl := hlen _ _ _ _ hT
    have hC := calc_recalc s.payload
    have hw' := wf_recalc hw
    generalize hS : s.payload.recalc = S at *
    obtain ⟨w0, w1, w2⟩ := hw'
    have hp1 : A.2.1.payload = (forward T (placed S (S.ref.drifted false d.length)
        (S.real.map (·.drifted false d.length)) (S.pos + sign false * d.length))).calcRms := by
      rw [k1]
      simp only [passBase, hr, hS]
      rfl
    have hpw : WF A.2.1.payload := by
      rw [hp1]
      simp only [WF, MSt.calcRms, forward, placed, List.length_map, List.length_zipWith]
      omega
    refine ⟨hpw, fun s2 hr2 ha hw2 => ?_⟩
    have hw2' := wf_recalc hw2
    obtain ⟨a1, a2, a3, a4, a5, a6⟩ := ha
    rw [hp1] at a1 a2 a3 a4 a5 a6
    have b2 : s2.payload.recalc.ref = S.ref.drifted false d.length := a2.trans (drifted_recalc _ _ _ hC.1)
    have b3 : s2.payload.recalc.real = S.real.map (·.drifted false d.length) := by
      refine a3.trans (map_recalc_eq ?_)
      intro p hp
      obtain ⟨q, hq, rfl⟩ := List.mem_map.1 hp
      exact drifted_recalc _ _ _ (hC.2 q hq)
    have b1 : s2.payload.recalc.pos = S.pos + sign false * d.length := a1
    have b4 : s2.payload.recalc.moment0 = List.zipWith (fun M v => M.mulVec v) T S.moment0 := a4
    have b5 : s2.payload.recalc.moment1 = List.zipWith congr T S.moment1 := a5
    have b6 : s2.payload.recalc.last_caviphi0 = S.last_caviphi0 := a6
    have hdt : A.1.transfer = T := by rw [k2]; rfl
    generalize hd1 : A.1 = d1 at *
    obtain ⟨d2, hp2, ht2⟩ := particles_back hrec hph hC hT d.length k2 b2 b3
      (@decide (hit d1 s2.payload.recalc) (Classical.propDecidable _)) (by simp)
    have hX : s2.payload.recalc.transmat.length = T.length := by
      rw [hw2'.2.2, b3, List.length_map, hTl]
    obtain ⟨l1, l2, l3⟩ := back_loop (T := T) (vs := S.moment0) (Ss := S.moment1) (Xs := s2.payload.recalc.transmat)
      (by omega) (by omega) hX
    have hpos : S.pos + sign false * d.length + sign true * d.length = S.pos := by simp [sign]
    unfold advanceBase
    dsimp only
    rw [hr2, hlen1]
    simp only [hp2, ht2, if_true, backward, b4, b5, b1, hpos, hdt]
    split
    · rename_i S' e heq
      simp only [Prod.mk.injEq] at heq
      refine ⟨fun h => by simp at h, fun h => ?_⟩
      rw [l2 h] at heq
      simp at heq
    · rename_i S' heq
      simp only [Prod.mk.injEq] at heq
      obtain ⟨rfl, he⟩ := heq
      obtain ⟨m1, m2⟩ := l1 he
      refine ⟨fun _ => ⟨?_, ?_⟩, fun _ => rfl⟩
      · unfold Back
        rw [hS]
        exact calcRms_congr rfl rfl rfl m1 m2 rfl b6
      · simp only [WF, MSt.calcRms, m1, m2, l3, hX]
        omega

/-- A bend passed there and back. -/
theorem bend_undo {rec : MDat → Particle → List Particle → Except Err (List Mat)} {d : MDat} {s : St MSt}
    (hrec : ∀ d a b c e f, rec (MDat.cached d a b c e f) = rec d)
    (hph : ∀ d ref ref' real real', Ph ref ref' → List.Forall₂ Ph real real' → rec d ref' real' = rec d ref real)
    (hlen : ∀ d r l T, rec d r l = .ok T → T.length = l.length)
    (hc : Coherent rec id d) (hr : s.retreat = false) (hw : WF s.payload)
    (hok : (advanceBend rec d s).2.2 = none) :
    WF (advanceBend rec d s).2.1.payload ∧ ∀ s2 : St MSt, s2.retreat = true →
      Agree (advanceBend rec d s).2.1.payload s2.payload → WF s2.payload →
      ((advanceBend rec (advanceBend rec d s).1 s2).2.2 = none →
        Back s.payload (advanceBend rec (advanceBend rec d s).1 s2).2.1.payload ∧
        WF (advanceBend rec (advanceBend rec d s).1 s2).2.1.payload) ∧
      ((∀ M ∈ (advanceBend rec d s).1.transfer, M.det ≠ 0) →
        (advanceBend rec (advanceBend rec d s).1 s2).2.2 = none) := by
  have key := advanceBend_coherent (s := s) hrec hc
  have hlen1 : (advanceBend rec d s).1.length = d.length := (advanceBend_place rec d s).2.1
  generalize hA : advanceBend rec d s = A at *
  cases hT : rec d s.payload.recalc.ref s.payload.recalc.real with
  | error e =>
    rw [hT] at key
    simp only at key
    rw [key] at hok
    simp at hok
  | ok T =>
    rw [hT] at key
    simp only at key
    obtain ⟨k1, k2, -⟩ := key
    have hTl := hlen _ _ _ _ hT
    have hC := calc_recalc s.payload
    have hw' := wf_recalc hw
    generalize hS : s.payload.recalc = S at *
    obtain ⟨w0, w1, w2⟩ := hw'
    have hp1 : A.2.1.payload = (withReal (forward T (placed S (S.ref.drifted false d.length) S.real
        (S.pos + sign false * d.length))) (bendPhis false d.length S.real S.moment0
          (List.zipWith (fun M v => M.mulVec v) T S.moment0))).calcRms := by
      rw [k1]
      simp only [passBend, hr, hS]
      rfl
    have hpw : WF A.2.1.payload := by
      rw [hp1]
      simp only [WF, MSt.calcRms, forward, placed, withReal, List.length_zipWith, bendPhis_length]
      omega
    refine ⟨hpw, fun s2 hr2 ha hw2 => ?_⟩
    have hw2' := wf_recalc hw2
    obtain ⟨a1, a2, a3, a4, a5, a6⟩ := ha
    rw [hp1] at a1 a2 a3 a4 a5 a6
    have hbp := bendPhis_ph false d.length S.real S.moment0 (List.zipWith (fun M v => M.mulVec v) T S.moment0)
    have b2 : s2.payload.recalc.ref = S.ref.drifted false d.length := a2.trans (drifted_recalc _ _ _ hC.1)
    have b3 : s2.payload.recalc.real = bendPhis false d.length S.real S.moment0
          (List.zipWith (fun M v => M.mulVec v) T S.moment0) :=
      a3.trans (map_recalc_eq (forall₂_ph_recalc hbp hC.2))
    have b1 : s2.payload.recalc.pos = S.pos + sign false * d.length := a1
    have b4 : s2.payload.recalc.moment0 = List.zipWith (fun M v => M.mulVec v) T S.moment0 := a4
    have b5 : s2.payload.recalc.moment1 = List.zipWith congr T S.moment1 := a5
    have b6 : s2.payload.recalc.last_caviphi0 = S.last_caviphi0 := a6
    have hdt : A.1.transfer = T := by rw [k2]; rfl
    generalize hd1 : A.1 = d1 at *
    obtain ⟨d2, hp2, ht2⟩ := particles_back_bend hrec hph hC (calc_recalc s2.payload) hT k2
      (by rw [b2]; exact drifted_ph _ _ _) (by rw [b3]; exact hbp)
      (@decide (hit d1 s2.payload.recalc) (Classical.propDecidable _)) (by simp)
    have hX : s2.payload.recalc.transmat.length = T.length := by
      rw [hw2'.2.2, b3, bendPhis_length, hTl]
    obtain ⟨l1, l2, l3⟩ := back_loop (T := T) (vs := S.moment0) (Ss := S.moment1) (Xs := s2.payload.recalc.transmat)
      (by omega) (by omega) hX
    have hpos : S.pos + sign false * d.length + sign true * d.length = S.pos := by simp [sign]
    have hzl : (List.zipWith (fun M v => M.mulVec v) T S.moment0).length = S.real.length := by
      rw [List.length_zipWith]; omega
    unfold advanceBend
    dsimp only
    rw [hr2, hlen1]
    simp only [hp2, ht2, if_true, backward, b4, b5, b1, hpos, hdt]
    split
    · rename_i S' e heq
      simp only [Prod.mk.injEq] at heq
      refine ⟨fun h => by simp at h, fun h => ?_⟩
      rw [l2 h] at heq
      simp at heq
    · rename_i S' heq
      simp only [Prod.mk.injEq] at heq
      obtain ⟨rfl, he⟩ := heq
      obtain ⟨m1, m2⟩ := l1 he
      have hreal := bendPhis_back d.length S.real S.moment0 (List.zipWith (fun M v => M.mulVec v) T S.moment0) w0 hzl
      refine ⟨fun _ => ⟨?_, ?_⟩, fun _ => rfl⟩
      · unfold Back
        rw [hS]
        refine calcRms_congr rfl ?_ ?_ m1 m2 rfl b6
        · dsimp only
          rw [b2, drifted_back]
        · dsimp only
          rw [b3, m1, hreal]
      · simp only [WF, MSt.calcRms, m1, m2, l3, hX, b3, hreal]
        omega

theorem undo_one (env : Env) (t : MType) (h1 : t ≠ .source) (h2 : t ≠ .sextupole) (d : MDat) (s : St MSt)
    (hf : Fit env t d false) (hr : s.retreat = false) (hw : WF s.payload) (hok : (advance env t d s).2.2 = none) :
    WF (advance env t d s).2.1.payload ∧ ∀ s2 : St MSt, s2.retreat = true →
      Agree (advance env t d s).2.1.payload s2.payload → WF s2.payload →
      ((advance env t (advance env t d s).1 s2).2.2 = none →
        Back s.payload (advance env t (advance env t d s).1 s2).2.1.payload ∧
        WF (advance env t (advance env t d s).1 s2).2.1.payload) ∧
      ((∀ M ∈ (advance env t d s).1.transfer, M.det ≠ 0) →
        (advance env t (advance env t d s).1 s2).2.2 = none) := by
  cases t with
  | source => exact absurd rfl h1
  | sextupole => exact absurd rfl h2
  | sbend =>
    exact bend_undo (recompute_cached env _) (fun d _ _ _ _ a b => recompute_ph env _ d a b)
      (fun _ _ _ _ => recompute_length) hf hr hw hok
  | _ =>
    exact base_undo (recompute_cached env _) (fun d _ _ _ _ a b => recompute_ph env _ d a b)
      (fun _ _ _ _ => recompute_length) hf hr hw hok

/-! ## runs of elements -/

/-- An element that can be passed backward: of a class without a backward rule of its own, and with caches fit for the
way forward. -/
def Undoable (env : Env) (junk : Mat) (base : Nat) (e : MElem) : Prop :=
  ∃ t : MType, t ≠ .source ∧ t ≠ .sextupole ∧ e.cls = cls env junk base t ∧ Fit env t e.dat false

theorem stepNext_payload (s : St MSt) : (stepNext s).payload = s.payload := by
  unfold stepNext; split <;> rfl

/-- What an element does on its way back: `U` holds for the element before, `R` for the element behind the way forward. -/
structure Undoes (U R : MElem → Prop) (I J : MSt → Prop) (Ag Bk : MSt → MSt → Prop) : Prop where
  keeps : ∀ e, U e → ∀ d s, (e.cls.advance d s).2.1.nextElem = s.nextElem ∧ (e.cls.advance d s).2.1.retreat = s.retreat
  agree : ∀ a b, Bk a b → Ag a b
  undo : ∀ e s, U e → s.retreat = false → I s.payload → (e.cls.advance e.dat s).2.2 = none →
    I (e.cls.advance e.dat s).2.1.payload ∧ ∀ s2 : St MSt, s2.retreat = true →
      Ag (e.cls.advance e.dat s).2.1.payload s2.payload → J s2.payload →
      ((e.cls.advance (e.cls.advance e.dat s).1 s2).2.2 = none →
        Bk s.payload (e.cls.advance (e.cls.advance e.dat s).1 s2).2.1.payload ∧
        J (e.cls.advance (e.cls.advance e.dat s).1 s2).2.1.payload) ∧
      (R { e with dat := (e.cls.advance e.dat s).1 } → (e.cls.advance (e.cls.advance e.dat s).1 s2).2.2 = none)

theorem run_undo {U R : MElem → Prop} {I J : MSt → Prop} {Ag Bk : MSt → MSt → Prop} (H : Undoes U R I J Ag Bk) (n : Nat) :
    ∀ (els : List MElem) (s : St MSt),
    s.retreat = false → s.nextElem + n ≤ els.length → els.length < sizeMod → I s.payload →
    (∀ j, s.nextElem ≤ j → j < s.nextElem + n → ∀ e, els[j]? = some e → U e) →
    (run n els s).err = none →
    (run n els s).st.nextElem = s.nextElem + n ∧ (run n els s).st.retreat = false ∧ I (run n els s).st.payload ∧
    (∀ j, s.nextElem + n ≤ j → (run n els s).elems[j]? = els[j]?) ∧
    ∀ (els' : List MElem) (s' : St MSt), els'.length = els.length →
      (∀ j, s.nextElem ≤ j → j < s.nextElem + n → els'[j]? = (run n els s).elems[j]?) →
      s'.retreat = true → s'.nextElem + 1 = s.nextElem + n → Ag (run n els s).st.payload s'.payload →
      J s'.payload →
      ((run n els' s').err = none → 0 < n → Bk s.payload (run n els' s').st.payload) ∧
      ((∀ j, s.nextElem ≤ j → j < s.nextElem + n → ∀ e, (run n els s).elems[j]? = some e → R e) →
        (run n els' s').err = none) := by
  induction n with
  | zero =>
    intro els s hr _ _ hw _ _
    refine ⟨rfl, hr, hw, fun _ _ => rfl, fun els' s' _ _ _ _ _ _ => ⟨fun _ h => absurd h (by omega), fun _ => rfl⟩⟩
  | succ n ih =>
    intro els s hr hle hl hw hu he
    have hadd := run_add n 1 els s
    have hn : (run n els s).err = none := by
      cases hx : (run n els s).err with
      | none => rfl
      | some x =>
        rw [hx] at hadd
        simp only [Option.isSome_some, if_true] at hadd
        rw [hadd, hx] at he
        simp at he
    obtain ⟨i1, i2, i3, i4, i5⟩ := ih els s hr (by omega) hl hw (fun j h1 h2 => hu j h1 (by omega)) hn
    rw [hn] at hadd
    simp only [Option.isSome_none, Bool.false_eq_true, if_false] at hadd
    generalize hQ : run n els s = Q at *
    have hlt : s.nextElem + n < els.length := by omega
    have hQlen : Q.elems.length = els.length := by rw [← hQ]; exact run_length n els s
    have hel : els[s.nextElem + n]? = some els[s.nextElem + n] := List.getElem?_eq_getElem hlt
    have hel2 : Q.elems[Q.st.nextElem]? = some els[s.nextElem + n] := by rw [i1, i4 _ (Nat.le_refl _), hel]
    have hU := hu (s.nextElem + n) (by omega) (by omega) _ hel
    generalize els[s.nextElem + n] = e at hel hel2 hU
    have hsr : (stepNext Q.st).retreat = false := by rw [stepNext_retreat, i2]
    have hsn : (stepNext Q.st).nextElem = s.nextElem + n + 1 := by
      rw [stepNext_fwd i2 (by omega)]
      dsimp only
      omega
    have hrun1 : ∀ (es : List MElem) (st : St MSt) (e : MElem), es[st.nextElem]? = some e →
        (run 1 es st).err = (e.cls.advance e.dat (stepNext st)).2.2 ∧
        (run 1 es st).st = (e.cls.advance e.dat (stepNext st)).2.1 ∧
        (run 1 es st).elems = es.set st.nextElem { e with dat := (e.cls.advance e.dat (stepNext st)).1 } := by
      intro es st e h
      cases hx : (e.cls.advance e.dat (stepNext st)).2.2 with
      | none => rw [run_succ_ok h hx]; exact ⟨rfl, rfl, rfl⟩
      | some x => rw [run_succ_err h hx]; exact ⟨rfl, rfl, rfl⟩
    obtain ⟨o1, o2, o3⟩ := hrun1 Q.elems Q.st e hel2
    rw [hadd] at he ⊢
    dsimp only at he ⊢
    rw [o1] at he
    rw [o2, o3]
    have hsp : (stepNext Q.st).payload = Q.st.payload := stepNext_payload _
    obtain ⟨u1, u2⟩ := H.undo e (stepNext Q.st) hU hsr (by rw [hsp]; exact i3) he
    obtain ⟨p1, p2⟩ := H.keeps e hU e.dat (stepNext Q.st)
    refine ⟨by rw [p1, hsn]; omega, by rw [p2, hsr], u1, ?_, ?_⟩
    · intro j hj
      rw [List.getElem?_set_ne (by omega), i4 j (by omega)]
    · intro els' s' hlen' hsame hr' hnx hag hw'
      have hs'n : s'.nextElem = s.nextElem + n := by omega
      have hel' : els'[s'.nextElem]? = some { e with dat := (e.cls.advance e.dat (stepNext Q.st)).1 } := by
        rw [hs'n, hsame _ (by omega) (by omega), i1, List.getElem?_set_self (by omega)]
      have hsp' : (stepNext s').payload = s'.payload := stepNext_payload _
      obtain ⟨v1, v2⟩ := u2 (stepNext s') (by rw [stepNext_retreat, hr']) (by rw [hsp']; exact hag)
        (by rw [hsp']; exact hw')
      rw [hsp] at v1
      obtain ⟨p3, p4⟩ := H.keeps e hU (e.cls.advance e.dat (stepNext Q.st)).1 (stepNext s')
      have hdet : (∀ j, s.nextElem ≤ j → j < s.nextElem + (n + 1) → ∀ e_1,
          (Q.elems.set Q.st.nextElem { e with dat := (e.cls.advance e.dat (stepNext Q.st)).1 })[j]? = some e_1 → R e_1) →
          R { e with dat := (e.cls.advance e.dat (stepNext Q.st)).1 } ∧
          (∀ j, s.nextElem ≤ j → j < s.nextElem + n → ∀ e_1, Q.elems[j]? = some e_1 → R e_1) := by
        intro hd
        refine ⟨?_, fun j h1 h2 e1 h3 => ?_⟩
        · exact hd (s.nextElem + n) (by omega) (by omega) _ (by rw [i1, List.getElem?_set_self (by omega)])
        · exact hd j h1 (by omega) e1 (by rw [List.getElem?_set_ne (by omega), h3])
      cases hx : (e.cls.advance (e.cls.advance e.dat (stepNext Q.st)).1 (stepNext s')).2.2 with
      | some x =>
        have := run_succ_err (n := n) hel' hx
        rw [this]
        refine ⟨fun h => by simp at h, fun hd => ?_⟩
        rw [v2 (hdet hd).1] at hx
        simp at hx
      | none =>
        obtain ⟨hb, hbw⟩ := v1 hx
        have hrun := run_succ_ok (n := n) hel' hx
        rw [hrun]
        dsimp only
        rcases Nat.eq_zero_or_pos n with rfl | hpos
        · refine ⟨fun _ _ => ?_, fun _ => rfl⟩
          have hQs : Q.st = s := by rw [← hQ]; rfl
          rw [hQs] at hb ⊢
          exact hb
        · have hdown : (stepNext s').nextElem = s'.nextElem - 1 := by
            rw [stepNext_down hr' (by omega), if_neg (by omega)]
          obtain ⟨j1, j2⟩ := i5
            (els'.set s'.nextElem { e with dat := (e.cls.advance (e.cls.advance e.dat (stepNext Q.st)).1 (stepNext s')).1 })
            (e.cls.advance (e.cls.advance e.dat (stepNext Q.st)).1 (stepNext s')).2.1
            (by rw [List.length_set, hlen'])
            (fun j h1 h2 => by
              rw [List.getElem?_set_ne (by omega), hsame j h1 (by omega), List.getElem?_set_ne (by omega)])
            (by rw [p4, stepNext_retreat, hr']) (by rw [p3, hdown]; omega) (H.agree _ _ hb) hbw
          exact ⟨fun h _ => j1 h hpos, fun hd => j2 (hdet hd).2⟩

theorem undoes_moment (env : Env) (junk : Mat) (base : Nat) : Undoes (Undoable env junk base)
    (fun e => ∀ M ∈ e.dat.transfer, M.det ≠ 0) WF WF Agree Back where
  keeps := by
    rintro e ⟨t, h1, -, hc, -⟩ d s
    rw [hc]
    exact (measured_cls env junk base t h1).1 d s
  agree := fun _ _ h => h.agree
  undo := by
    rintro e s ⟨t, h1, h2, hc, hf⟩ hr hw hok
    dsimp only
    rw [hc] at hok ⊢
    exact undo_one env t h1 h2 e.dat s hf hr hw hok

/-- There and back through `n` elements from number `start` on. -/
theorem round_trip {U R : MElem → Prop} {I J : MSt → Prop} {Ag Bk : MSt → MSt → Prop} (H : Undoes U R I J Ag Bk)
    (hIJ : ∀ a, I a → J a) (hAg : ∀ a, Ag a a) (els : List MElem) (s : St MSt) (start n : Nat)
    (hn : 0 < n) (hle : start + n ≤ els.length) (hl : els.length < 2 ^ 31) (hw : I s.payload)
    (hu : ∀ e ∈ passed els start n, U e) :
    ∃ r, propagate els s start n = some r ∧ (r.err = none →
      ∃ q, propagate r.elems r.st (start + n - 1 : Nat) (-n) = some q ∧
        (q.err = none → Bk s.payload q.st.payload) ∧
        ((∀ e ∈ passed r.elems start n, R e) → q.err = none)) := by
  have hls : els.length < sizeMod := Nat.lt_trans hl (by decide)
  have hmem : ∀ {α : Type} (l : List α) (j : Nat) (e : α), start ≤ j → j < start + n → l[j]? = some e →
      e ∈ passed l start n := by
    intro α l j e h1 h2 h3
    unfold passed
    rw [if_pos (by omega)]
    have : ((l.drop start).take (n : Int).toNat)[j - start]? = some e := by
      rw [List.getElem?_take_of_lt (by simp; omega), List.getElem?_drop, show start + (j - start) = j by omega, h3]
    exact List.mem_of_getElem? this
  refine ⟨_, propagate_eq els s start n (by omega), fun he => ?_⟩
  rw [show decide ((n : Int) < 0) = false by simp, Int.natAbs_natCast] at he ⊢
  obtain ⟨i1, i2, i3, i4, i5⟩ := run_undo H n els { s with nextElem := start, retreat := false } rfl hle hls hw
    (fun j h1 h2 e h3 => hu e (hmem els j e h1 h2 h3)) he
  refine ⟨_, propagate_eq _ _ _ _ (by omega), ?_⟩
  rw [show decide (-(n : Int) < 0) = true by simp [hn], Int.natAbs_neg, Int.natAbs_natCast]
  generalize hR : run n els { s with nextElem := start, retreat := false } = Q at *
  have hRl : Q.elems.length = els.length := by rw [← hR]; exact run_length _ _ _
  obtain ⟨j1, j2⟩ := i5 Q.elems { Q.st with nextElem := start + n - 1, retreat := true } hRl (fun _ _ _ => rfl) rfl
    (by dsimp only; omega) (hAg _) (hIJ _ i3)
  exact ⟨fun hq => j1 hq hn, fun hd => j2 fun j h1 h2 e h3 => hd e (hmem _ j e h1 h2 h3)⟩

/-! ## C31 -/

/-- What is kept of a particle; everything else is computed from it. -/
def stored (p : Particle) : ℝ × ℝ × ℝ × ℝ × ℝ × ℝ := (p.IonZ, p.IonQ, p.IonEs, p.IonEk, p.SampleFreq, p.phis)

/-- The old state again: position, centroids, covariances, reference particle and charge states; if its dependent values
were up to date, everything but the recorded matrices. -/
def Restored (a b : MSt) : Prop :=
  b.pos = a.pos ∧ b.moment0 = a.moment0 ∧ b.moment1 = a.moment1 ∧ b.last_caviphi0 = a.last_caviphi0 ∧
  stored b.ref = stored a.ref ∧ b.real.map stored = a.real.map stored ∧
  (Calc a → a.calcRms = a → b = { a with transmat := b.transmat })

theorem back_restored {a b : MSt} (hb : Back a b) : Restored a b := by
  have hp1 := congrArg MSt.pos hb
  have hp2 := congrArg MSt.moment0 hb
  have hp3 := congrArg MSt.moment1 hb
  have hp4 := congrArg MSt.last_caviphi0 hb
  have hp5 := congrArg MSt.ref hb
  have hp6 := congrArg MSt.real hb
  refine ⟨hp1, hp2, hp3, hp4, by rw [hp5]; rfl, ?_, ?_⟩
  · rw [hp6]
    show (a.real.map Particle.recalc).map stored = _
    rw [List.map_map]
    rfl
  · intro hC hrms
    have e1 : a.recalc = a := by
      unfold MSt.recalc
      rw [hC.1, map_recalc_eq hC.2]
    unfold Back at hb
    dsimp only at hb
    rw [e1] at hb
    generalize b = X at hb ⊢
    have e2 : ({ a with transmat := X.transmat } : MSt).calcRms = { a.calcRms with transmat := X.transmat } := rfl
    rw [e2, hrms] at hb
    exact hb

/-- A state propagated forward through `n` elements from number `start` on and then backward through the same ones is
the old one again.  The way back does not throw if no matrix is singular.

Partial with respect to C31: not for sources and sextupoles (`C31_moment_false`), strippers and RF cavities (Cavity/Undo), nor if
there has been a backward propagation before (see `C33_both_sides_false`). -/
theorem C31_moment_partial (env : Env) (junk : Mat) (base : Nat) (els : List MElem) (s : St MSt) (start n : Nat)
    (hn : 0 < n) (hle : start + n ≤ els.length) (hl : els.length < 2 ^ 31) (hw : WF s.payload)
    (hu : ∀ e ∈ passed els start n, Undoable env junk base e) :
    ∃ r, propagate els s start n = some r ∧ (r.err = none →
      ∃ q, propagate r.elems r.st (start + n - 1 : Nat) (-n) = some q ∧
        (q.err = none → Restored s.payload q.st.payload) ∧
        ((∀ e ∈ passed r.elems start n, ∀ M ∈ e.dat.transfer, M.det ≠ 0) → q.err = none)) := by
  obtain ⟨r, h1, h2⟩ := round_trip (undoes_moment env junk base) (fun _ h => h) Agree.refl els s start n hn hle hl hw hu
  refine ⟨r, h1, fun he => ?_⟩
  obtain ⟨q, h3, h4, h5⟩ := h2 he
  exact ⟨q, h3, fun hq => back_restored (h4 hq), h5⟩

/-- The same for a newly built machine and entries of its lattice of the other types. -/
theorem C31_moment_machine_partial {env : Env} {junk : Mat} {base : Nat} {cavity stripper : MCls} (cv : CView LCfg) (c : LCfg)
    (m : Machine LCfg MDat MSt) (h : Machine.new cv (registry env junk base cavity stripper) c = .ok m)
    (es : List LCfg) (hes : cv.elems c = .ok es) (s : St MSt) (start n : Nat)
    (hn : 0 < n) (hle : start + n ≤ es.length) (hl : es.length < 2 ^ 31) (hw : WF s.payload)
    (hty : ∀ ec ∈ passed es start n, ∀ ty, cv.str ec "type" = .ok ty →
      ty ≠ "source" ∧ ty ≠ "sextupole" ∧ ty ≠ "rfcavity" ∧ ty ≠ "stripper") :
    ∃ r, propagate m.elems s start n = some r ∧ (r.err = none →
      ∃ q, propagate r.elems r.st (start + n - 1 : Nat) (-n) = some q ∧
        (q.err = none → Restored s.payload q.st.payload) ∧
        ((∀ e ∈ passed r.elems start n, ∀ M ∈ e.dat.transfer, M.det ≠ 0) → q.err = none)) := by
  have hF := machine_moment h hes
  have hlen := hF.length_eq
  refine C31_moment_partial env junk base m.elems s start n hn (by omega) (by omega) hw ?_
  have part := Linear.passed_forall₂ hF start n
  generalize passed es start n = a at part hty
  generalize passed m.elems start n = b at part
  clear hF
  induction part with
  | nil => intro e he; simp at he
  | @cons ec e _ _ hd _ ih =>
    intro e' he'
    rcases List.mem_cons.1 he' with rfl | he'
    · obtain ⟨ty, h1, h2⟩ := hd
      obtain ⟨n1, n2, n3, n4⟩ := hty ec (by simp) ty h1
      rcases h2 with ⟨t, k1, k2, k3⟩ | ⟨-, k2, -⟩ | ⟨-, k2, -⟩
      · refine ⟨t, ?_, ?_, k1, ?_⟩
        · rintro rfl
          exact n1 k2.symm
        · rintro rfl
          exact n2 k2.symm
        · have hin := (build_length k3).2.2.1
          cases t <;> first | trivial | exact .inl hin
      · exact absurd k2 n3
      · exact absurd k2 n4
    · exact ih (fun x hx => hty x (by simp [hx])) e' he'

theorem driftM_det (p : Particle) (L : ℝ) : (driftM p L).det = 1 := by
  have ht : (driftM p L).BlockTriangular id := by
    intro i j hij
    simp only [id] at hij
    unfold driftM setAt
    fin_cases i <;> fin_cases j <;> first | (exfalso; revert hij; decide) | simp
  rw [Matrix.det_of_isUpperTriangular ht]
  apply Finset.prod_eq_one
  intro i _
  unfold driftM setAt
  fin_cases i <;> simp

theorem drift_forward (env : Env) (d : MDat) (s : St MSt) (hd : d.refIn = none) (hr : s.retreat = false) :
    (advance env .drift d s).2.2 = none ∧
      (advance env .drift d s).1.transfer = s.payload.recalc.real.map (fun p => driftM p (d.length * MtoMM)) := by
  have := advanceBase_coherent (rec := recompute env .drift) (d := d) (s := s) (recompute_cached env .drift) (.inl hd)
  simp only [recompute] at this
  obtain ⟨h1, h2, -⟩ := this
  refine ⟨?_, ?_⟩
  · show (advanceBase _ d s).2.2 = none
    rw [h1]
    simp [passBase, hr]
  · show (advanceBase _ d s).1.transfer = _
    rw [h2]
    rfl

/-- One drift. -/
noncomputable def exDrift (env : Env) (junk : Mat) (base : Nat) (p : Particle) : MElem :=
  { cls := cls env junk base .drift, name := "d", index := 0, conf := fun k => if k = "L" then some (.num 2) else none,
    obs := none, dat := ⟨fun k => if k = "L" then some (.num 2) else none, 2, 0, 0, 0, 0, 0, false, 0, none, none, p, [], [], [], none⟩ }

/-- All hypotheses are met by a drift, however many charge states there are, and neither way throws. -/
example (env : Env) (junk : Mat) (base : Nat) (p : Particle) (s : St MSt) (hw : WF s.payload) :
    ∃ r q, propagate [exDrift env junk base p] s 0 1 = some r ∧ r.err = none ∧
      propagate r.elems r.st 0 (-1) = some q ∧ q.err = none ∧ Restored s.payload q.st.payload := by
  have hu : ∀ e ∈ passed [exDrift env junk base p] 0 (1 : Nat), Undoable env junk base e := by
    simp only [passed]
    simp only [Int.natCast_nonneg, if_true, List.drop_zero]
    intro e he
    have : e = exDrift env junk base p := by simpa using he
    subst this
    exact ⟨.drift, by decide, by decide, rfl, .inl rfl⟩
  obtain ⟨r, h1, h2⟩ := C31_moment_partial env junk base [exDrift env junk base p] s 0 1 (by decide) (by simp) (by simp)
    hw hu
  have hr : r = run 1 [exDrift env junk base p] { s with nextElem := 0, retreat := false } := by
    have := propagate_eq [exDrift env junk base p] s 0 1 (by decide)
    rw [show ((1 : Nat) : Int) = 1 from rfl, this] at h1
    exact (Option.some.inj h1).symm
  have hget : [exDrift env junk base p][({ s with nextElem := 0, retreat := false } : St MSt).nextElem]? =
    some (exDrift env junk base p) := rfl
  obtain ⟨f1, f2⟩ := drift_forward env (exDrift env junk base p).dat (stepNext { s with nextElem := 0, retreat := false }) rfl
    (stepNext_retreat _)
  have hrun := run_succ_ok (n := 0) hget f1
  rw [← hr] at hrun
  have he : r.err = none := by rw [hrun]; rfl
  obtain ⟨q, q1, q2, q3⟩ := h2 he
  have hq : q.err = none := by
    apply q3
    rw [hrun]
    intro e hm M hM
    have : e = { exDrift env junk base p with
        dat := (advance env .drift (exDrift env junk base p).dat (stepNext { s with nextElem := 0, retreat := false })).1 } := by
      simp only [passed, run] at hm
      simpa [exDrift, cls] using hm
    subst this
    dsimp only at hM
    rw [f2] at hM
    obtain ⟨x, -, rfl⟩ := List.mem_map.1 hM
    rw [driftM_det]
    exact one_ne_zero
  exact ⟨r, q, h1, he, q1, hq, q2 hq⟩

/-- A sextupole is never passed backward. -/
theorem sextupole_backward (d : MDat) (s : St MSt) (h : s.retreat = true) : (advanceSext d s).2.2 ≠ none := by
  unfold advanceSext
  split
  · dsimp only
    rw [if_pos h]
    simp
  · simp

/-- C31 fails for two classes.  Any sextupole that is passed backward throws.  What a source replaces on the way forward
does not come back: there is one that changes the centroid of a charge state for good. -/
theorem C31_moment_false (env : Env) (junk : Mat) (base : Nat) :
    (∀ (els : List MElem) (s : St MSt) (i n : Nat) (e : MElem), els[i]? = some e → e.cls = cls env junk base .sextupole →
      0 < n → n < 2 ^ 31 → ∃ q, propagate els s i (-n) = some q ∧ q.err ≠ none) ∧
    ∃ (els : List MElem) (s : St MSt) (r q : Run LCfg MDat MSt), (∀ e ∈ els, e.cls = cls env junk base .source) ∧
      WF s.payload ∧ propagate els s 0 1 = some r ∧ propagate r.elems r.st 0 (-1) = some q ∧ q.err = none ∧
      s.payload.moment0 ≠ q.st.payload.moment0 := by
  constructor
  · intro els s i n e hi hc h0 hn
    refine ⟨_, propagate_eq els s i (-n) (by omega), ?_⟩
    rw [show decide (-(n : Int) < 0) = true by simp [h0], Int.natAbs_neg, Int.natAbs_natCast]
    obtain ⟨n, rfl⟩ : ∃ m, n = m + 1 := ⟨n - 1, by omega⟩
    have hx := sextupole_backward e.dat (stepNext { s with nextElem := i, retreat := true })
      (by rw [stepNext_retreat])
    cases h3 : (e.cls.advance e.dat (stepNext { s with nextElem := i, retreat := true })).2.2 with
    | none =>
      rw [hc] at h3
      exact absurd h3 hx
    | some x =>
      have hi' : els[({ s with nextElem := i, retreat := true } : St MSt).nextElem]? = some e := hi
      rw [run_succ_err hi' h3]
      simp
  · let p : Particle := ⟨1, 1, 1, 1, 1, 1, 1, 1, 1, 1, 1, 1⟩
    let a : MSt := ⟨0, p, [p], [fun _ => 0], [0], [1], 0, 0, 0, 0⟩
    let b : MSt := ⟨0, p, [p], [fun _ => 1], [0], [1], 0, 0, 0, 0⟩
    let d : MDat := ⟨fun _ => none, 0, 0, 0, 0, 0, 0, false, 0, some b, none, p, [], [], [], none⟩
    let e : MElem := ⟨cls env junk base .source, "s", 0, fun _ => none, none, d⟩
    refine ⟨[e], ⟨0, false, a⟩, _, _, by simp [e], ⟨rfl, rfl, rfl⟩, propagate_eq _ _ _ _ (by decide),
      propagate_eq _ _ _ _ (by decide), rfl, ?_⟩
    intro h
    have h2 : ([fun _ => 0] : List Vec) = [fun _ => 1] := h
    simp only [List.cons.injEq, and_true] at h2
    exact zero_ne_one (congrFun h2 0)

end Flame.Moment
