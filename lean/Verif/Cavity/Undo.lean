import Verif.Cavity.Carry
import Verif.Moment.Undo

/-!
# Propagating back through RF cavities: C31
-/

namespace Flame.Cavity

open Flame.Mach
open Flame.Linear (LVal LCfg getNum getNumD getVec)
open Flame.Linear.Spec (passed)
open Flame.Moment
open Flame.Moment.Spec (phaseSpace Homogeneous AffineMatrix)

/-! ## elements other than cavities do not look at the phase of the last cavity -/

/-- The states agree in everything a pass looks at. -/
structure Alike (a b : MSt) : Prop where
  pos : b.pos = a.pos
  ref : b.ref.recalc = a.ref.recalc
  real : b.real.map Particle.recalc = a.real.map Particle.recalc
  m0 : b.moment0 = a.moment0
  m1 : b.moment1 = a.moment1

/-- `b` is `a` again, with everything up to date, except for the phase of the last cavity. -/
def Again (a b : MSt) : Prop := b = MSt.calcRms { a.recalc with transmat := b.transmat, last_caviphi0 := b.last_caviphi0 }

theorem Again.alike {a b : MSt} (h : Again a b) : Alike a b := by
  have hm : (a.real.map Particle.recalc).map Particle.recalc = a.real.map Particle.recalc := by
    rw [List.map_map]
    rfl
  unfold Again at h
  generalize b.transmat = X at h
  generalize b.last_caviphi0 = x at h
  subst h
  exact ⟨rfl, rfl, hm, rfl, rfl⟩

/-- A state with another phase of the last cavity. -/
def lastly (x : ℝ) (s : St MSt) : St MSt := { s with payload := { s.payload with last_caviphi0 := x } }

theorem backward_last (T : List Mat) (S : MSt) (x : ℝ) : backward T { S with last_caviphi0 := x } =
    ({ (backward T S).1 with last_caviphi0 := x }, (backward T S).2) := rfl

theorem base_last (rec : MDat → Particle → List Particle → Except Err (List Mat)) (d : MDat) (s : St MSt) (x : ℝ) :
    advanceBase rec d (lastly x s) =
      ((advanceBase rec d s).1, lastly x (advanceBase rec d s).2.1, (advanceBase rec d s).2.2) := by
  obtain ⟨k, b, P⟩ := s
  unfold advanceBase lastly
  dsimp only
  have e2 : MSt.recalc { P with last_caviphi0 := x } = { P.recalc with last_caviphi0 := x } := rfl
  rw [e2]
  generalize hq : particles rec (fun p => p.drifted b d.length) d { P.recalc with last_caviphi0 := x } _ = q
  have hq' : particles rec (fun p => p.drifted b d.length) d P.recalc (@decide (hit d P.recalc) (Classical.propDecidable _)) = q := hq
  rw [hq']
  clear hq hq' e2
  obtain ⟨d', e | ⟨ref, real⟩⟩ := q
  · rfl
  · dsimp only
    cases b with
    | false => rfl
    | true =>
      simp only [if_true]
      have := backward_last d'.transfer
        { P.recalc with ref := ref, real := real, pos := P.recalc.pos + sign true * d.length } x
      dsimp only at this
      rw [this]
      generalize backward d'.transfer
        { P.recalc with ref := ref, real := real, pos := P.recalc.pos + sign true * d.length } = q
      obtain ⟨S, _ | e⟩ := q <;> rfl

theorem bend_last (rec : MDat → Particle → List Particle → Except Err (List Mat)) (d : MDat) (s : St MSt) (x : ℝ) :
    advanceBend rec d (lastly x s) =
      ((advanceBend rec d s).1, lastly x (advanceBend rec d s).2.1, (advanceBend rec d s).2.2) := by
  obtain ⟨k, b, P⟩ := s
  unfold advanceBend lastly
  dsimp only
  have e2 : MSt.recalc { P with last_caviphi0 := x } = { P.recalc with last_caviphi0 := x } := rfl
  rw [e2]
  generalize hq : particles rec id d { P.recalc with last_caviphi0 := x } _ = q
  have hq' : particles rec id d P.recalc (@decide (hit d P.recalc) (Classical.propDecidable _)) = q := hq
  rw [hq']
  clear hq hq' e2
  obtain ⟨d', e | ⟨ref, real⟩⟩ := q
  · rfl
  · dsimp only
    cases b with
    | false => rfl
    | true =>
      simp only [if_true]
      have := backward_last d'.transfer
        { P.recalc with ref := ref.drifted true d.length, real := real, pos := P.recalc.pos + sign true * d.length } x
      dsimp only at this
      rw [this]
      generalize backward d'.transfer
        { P.recalc with ref := ref.drifted true d.length, real := real, pos := P.recalc.pos + sign true * d.length } = q
      obtain ⟨S, _ | e⟩ := q <;> rfl

theorem undo_alike (env : Env) (t : MType) (h1 : t ≠ .source) (h2 : t ≠ .sextupole) (d : MDat) (s : St MSt)
    (hf : Fit env t d false) (hr : s.retreat = false) (hw : WF s.payload) (hok : (advance env t d s).2.2 = none) :
    WF (advance env t d s).2.1.payload ∧ ∀ s2 : St MSt, s2.retreat = true →
      Alike (advance env t d s).2.1.payload s2.payload → WF s2.payload →
      ((advance env t (advance env t d s).1 s2).2.2 = none →
        Again s.payload (advance env t (advance env t d s).1 s2).2.1.payload ∧
        WF (advance env t (advance env t d s).1 s2).2.1.payload) ∧
      ((∀ M ∈ (advance env t d s).1.transfer, M.det ≠ 0) →
        (advance env t (advance env t d s).1 s2).2.2 = none) := by
  obtain ⟨u1, u2⟩ := undo_one env t h1 h2 d s hf hr hw hok
  refine ⟨u1, fun s2 hr2 ha hw2 => ?_⟩
  have key : ∀ d s x, advance env t d (lastly x s) =
      ((advance env t d s).1, lastly x (advance env t d s).2.1, (advance env t d s).2.2) := by
    intro d s x
    cases t with
    | source => exact absurd rfl h1
    | sextupole => exact absurd rfl h2
    | sbend => exact bend_last _ d s x
    | _ => exact base_last _ d s x
  obtain ⟨v1, v2⟩ := u2 (lastly (advance env t d s).2.1.payload.last_caviphi0 s2) hr2 ⟨ha.pos, ha.ref, ha.real, ha.m0, ha.m1, rfl⟩ hw2
  rw [key] at v1 v2
  refine ⟨fun h => ?_, v2⟩
  obtain ⟨w1, w2⟩ := v1 h
  refine ⟨?_, w2⟩
  generalize (advance env t (advance env t d s).1 s2).2.1 = S at w1 ⊢
  exact congrArg (fun q : MSt => { q with last_caviphi0 := S.payload.last_caviphi0 }) w1

/-! ## cavities -/

/-- `q` is the same ion as `p`, and its derived numbers are up to date. -/
def Ion (p q : Particle) : Prop :=
  q.IonZ = p.IonZ ∧ q.IonQ = p.IonQ ∧ q.IonEs = p.IonEs ∧ q.SampleFreq = p.SampleFreq ∧ q.recalc = q

theorem takenBack_back {p q : Particle} (h : Ion p q) (hp : p.recalc = p) : (takenBack p q q).recalc = p := by
  obtain ⟨h1, h2, h3, h4, -⟩ := h
  have e : takenBack p q q =
      { q with IonZ := p.IonZ, IonQ := p.IonQ, IonEs := p.IonEs, SampleFreq := p.SampleFreq, phis := p.phis, IonEk := p.IonEk } := by
    unfold takenBack
    rw [← h1, ← h2, ← h3, ← h4]
    simp
  rw [e]
  conv_rhs => rw [← hp]
  rfl

theorem recompute_ion {c : LCfg} {cav : Cav} {ref ref' : Particle} {real : List Particle} {phi : ℝ}
    {l : List (Particle × Mat)} (h : recomputeCav c cav ref real = .ok (ref', phi, l)) :
    Ion ref ref'.recalc ∧ List.Forall₂ Ion real ((l.map (fun q => q.1)).map Particle.recalc) := by
  unfold recomputeCav at h
  split at h
  · cases h
  rename_i r f hl
  split at h
  · cases h
  rename_i l' hl'
  cases h
  constructor
  · unfold propagateLong at hl
    dsimp only at hl
    split at hl
    · cases hl
    split at hl
    · cases hl
    split at hl
    · cases hl
    cases hl
    exact ⟨rfl, rfl, rfl, rfl, rfl⟩
  · have h2 := forEach_ok.1 hl'
    clear hl' hl
    induction h2 with
    | nil => exact .nil
    | @cons a b l r hd _ ih =>
      refine .cons ?_ ih
      split at hd
      · cases hd
      rename_i p' M he
      cases hd
      unfold initRFCav at he
      split at he
      · cases he
      dsimp only at he
      split at he
      · cases he
      split at he
      · cases he
      split at he
      · cases he
      cases he
      exact ⟨rfl, rfl, rfl, rfl, rfl⟩

/-- The caches of a cavity are empty, or they have been filled in a pass. -/
def Filled (d : MDat) : Prop := ∃ r, d.refIn = some r ∧ r.recalc = r ∧ (∀ p ∈ d.realIn, p.recalc = p) ∧ Ion r d.refOut ∧
  List.Forall₂ Ion d.realIn d.realOut ∧ d.transfer.length = d.realIn.length ∧
  ∀ cav, d.cav = some cav → cav.misalign.length = d.realIn.length ∧
    ∀ m ∈ cav.misalign, m = (rotMat d.dx d.dy 0 0 d.roll, (rotMat d.dx d.dy 0 0 d.roll)⁻¹)

theorem misalign_roll {d : MDat} {ref : Particle} {real : List Particle} {mis : List (Mat × Mat)} (h1 : d.pitch = 0)
    (h2 : d.yaw = 0) (h : forEach (fun p => getMisalign d ref p) real = .ok mis) :
    ∀ m ∈ mis, m = (rotMat d.dx d.dy 0 0 d.roll, (rotMat d.dx d.dy 0 0 d.roll)⁻¹) := by
  intro m hm
  obtain ⟨p, -, he⟩ := forEach_all h m hm
  obtain ⟨z1, z2⟩ := getMisalign_ok he
  rw [getMisalign_roll d ref p h1 h2 z1 z2] at he
  exact (Except.ok.inj he).symm

theorem rotMat_keeps (a b c x y : ℝ) : Keeps7 (rotMat a b c x y) :=
  (rotMat_good a b c x y).1

/-- The matrices of `cavForward`. -/
theorem cavForward_transmat {env : Env} {cav : Cav} {d : MDat} {S : MSt} {A B : Mat}
    (hm : ∀ m ∈ cav.misalign, m = (A, B)) : (cavForward env cav d S).2.transmat =
      (cavForward env cav d S).1.transfer.map (fun T => B * (T * A)) := by
  show (cavLoop cav S.ref d.transfer cav.misalign S.real (ends env d) S.moment0 S.moment1).map (fun q => q.2.2.2) =
    ((cavLoop cav S.ref d.transfer cav.misalign S.real (ends env d) S.moment0 S.moment1).map (fun q => q.1)).map _
  rw [List.map_map]
  refine List.map_congr_left fun r hr => ?_
  obtain ⟨k, hk⟩ := List.mem_iff_getElem?.1 hr
  obtain ⟨T, m, p, e, v, C, -, hm', -, -, -, -, rfl⟩ := cavLoop_get hk
  obtain rfl := hm m (List.mem_of_getElem? hm')
  rfl

/-- What a forward pass without growth of the emittance leaves behind. -/
theorem cavity_forward {env : Env} {files : Files} {d d' : MDat} {s s' : St MSt} (hr : s.retreat = false)
    (hp : d.pitch = 0) (hy : d.yaw = 0) (hF : d.refIn = none ∨ Filled d) (hw : WF s.payload)
    (hv : ∀ v ∈ s.payload.moment0, v 6 = 1) (h : advanceCavity env files d s = (d', s', none))
    (hg : ∀ cav, d'.cav = some cav → cav.emitGrowth = 0) :
    Filled d' ∧ d'.refIn = some s.payload.recalc.ref ∧ d'.realIn = s.payload.recalc.real ∧
    d'.length = d.length ∧ d'.pitch = 0 ∧ d'.yaw = 0 ∧ d'.cav ≠ none ∧
    s'.payload.pos = s.payload.pos + d.length ∧ s'.payload.ref = d'.refOut ∧ s'.payload.real = d'.realOut ∧
    s'.payload.transmat = d'.transfer.map
      (fun T => (rotMat d'.dx d'.dy 0 0 d'.roll)⁻¹ * (T * rotMat d'.dx d'.dy 0 0 d'.roll)) ∧
    s'.payload.moment0 = List.zipWith (fun M v => M.mulVec v) s'.payload.transmat s.payload.moment0 ∧
    s'.payload.moment1 = List.zipWith Moment.congr s'.payload.transmat s.payload.moment1 := by
  have hlen : s.payload.recalc.real.length = s.payload.real.length := by simp [MSt.recalc]
  obtain ⟨w0, w1, w2⟩ := hw
  -- the part that is the same whether the cache is used
  have key : ∀ (cav : Cav) (e : MDat) (S : MSt), cav.emitGrowth = 0 → e.transfer.length = s.payload.real.length →
      cav.misalign.length = s.payload.real.length →
      (∀ m ∈ cav.misalign, m = (rotMat e.dx e.dy 0 0 e.roll, (rotMat e.dx e.dy 0 0 e.roll)⁻¹)) →
      e.refIn = some s.payload.recalc.ref → e.realIn = s.payload.recalc.real → Ion s.payload.recalc.ref e.refOut →
      List.Forall₂ Ion s.payload.recalc.real e.realOut →
      S.moment0 = s.payload.moment0 → S.moment1 = s.payload.moment1 → S.real = e.realOut → 
      Filled (cavForward env cav e S).1 ∧
      (cavForward env cav e S).2.transmat = (cavForward env cav e S).1.transfer.map
        (fun T => (rotMat e.dx e.dy 0 0 e.roll)⁻¹ * (T * rotMat e.dx e.dy 0 0 e.roll)) ∧
      (cavForward env cav e S).2.moment0 = List.zipWith (fun M v => M.mulVec v) (cavForward env cav e S).2.transmat
        s.payload.moment0 ∧
      (cavForward env cav e S).2.moment1 = List.zipWith Moment.congr (cavForward env cav e S).2.transmat s.payload.moment1 := by
    intro cav e S he ht hm hm' hi hri ho hro hS0 hS1 hSr
    have hT := cavForward_transmat (env := env) (d := e) (S := S) hm'
    obtain ⟨k1, k2, k3, k4⟩ := @cavForward_moves env cav e S s.payload.real.length ht hm
      (by rw [hSr, ← hro.length_eq, hlen]) (by rw [hri, hlen]) (by rw [hS0, w0]) (by rw [hS1, w1])
      (fun m hx => by rw [hm' m hx]; exact rotMat_keeps _ _ _ _ _) (by rw [hS0]; exact hv)
    have k5 := k4 he
    rw [hS0] at k2
    refine ⟨⟨s.payload.recalc.ref, hi, (calc_recalc s.payload).1, ?_, ho, ?_, ?_, ?_⟩, hT, k2, ?_⟩
    · show ∀ p ∈ e.realIn, p.recalc = p
      rw [hri]
      exact (calc_recalc s.payload).2
    · show List.Forall₂ Ion e.realIn e.realOut
      rw [hri]
      exact hro
    · show _ = e.realIn.length
      rw [hT, List.length_map] at k1
      rw [k1, hri, hlen]
    · intro cav' hc'
      obtain rfl : cav = cav' := Option.some.inj hc'
      refine ⟨?_, hm'⟩
      show _ = e.realIn.length
      rw [hm, hri, hlen]
    · rw [← hS1]
      exact k5.2.2.2
  obtain ⟨cav0, hc0, ⟨hh, -, rfl, rfl⟩ | ⟨-, cav1, ref, phi, l, mis, -, hrec, hmis, -, rfl, rfl⟩⟩ := forward_cases hr h
  · rcases hF with hF | hF
    · exact absurd hh (miss _ hF)
    obtain ⟨r, f1, f2, f3, f4, f5, f6, f7⟩ := hF
    obtain ⟨f8, f9⟩ := f7 cav0 hc0
    obtain ⟨-, ⟨r', hr', hs'⟩, hl'⟩ := hh
    rw [f1] at hr'
    obtain rfl := Option.some.inj hr'
    have e1 : r = s.payload.recalc.ref := same_eq f2 (calc_recalc _).1 hs'
    have e2 : d.realIn = s.payload.recalc.real := forall₂_same_eq f3 (calc_recalc _).2 hl'
    rw [e1] at f1 f4
    rw [e2] at f5 f6 f8
    have hreal : d.realOut ++ s.payload.recalc.real.drop d.realOut.length = d.realOut := by
      rw [← f5.length_eq, List.drop_length, List.append_nil]
    rw [hreal] at hg ⊢
    obtain ⟨k1, k2, k3, k4⟩ := key cav0 d { s.payload.recalc with ref := d.refOut, real := d.realOut }
      (hg cav0 rfl) (by rw [f6, hlen]) (by rw [f8, hlen]) f9 f1 e2 f4 f5 rfl rfl rfl
    exact ⟨k1, f1, e2, rfl, hp, hy, by rintro ⟨⟩, rfl, rfl, rfl, k2, k3, k4⟩
  · obtain ⟨i1, i2⟩ := recompute_ion hrec
    have hl := recomputeCav_length hrec
    have hlm := forEach_length hmis
    rw [List.length_map, hl, hlen] at hlm
    obtain ⟨k1, k2, k3, k4⟩ := key { cav1 with phiRef := some phi, misalign := mis }
      (filledDat d s.payload.recalc { cav1 with phiRef := some phi, misalign := mis } ref l)
      (filledSt s.payload.recalc ref l) (hg _ rfl) (by simp [filledDat, hl, hlen]) hlm (misalign_roll hp hy hmis) rfl rfl i1 i2
      rfl rfl rfl
    exact ⟨k1, rfl, rfl, rfl, hp, hy, by rintro ⟨⟩, rfl, rfl, rfl, k2, k3, k4⟩

theorem zipWith_mis {A B : Mat} : ∀ {T : List Mat} {mis : List (Mat × Mat)}, mis.length = T.length →
    (∀ m ∈ mis, m = (A, B)) → List.zipWith (fun T (m : Mat × Mat) => m.2 * (T * m.1)) T mis = T.map (fun T => B * (T * A))
  | [], [], _, _ => rfl
  | T :: Ts, m :: mis, h, hm => by
    rw [List.zipWith_cons_cons, List.map_cons, zipWith_mis (T := Ts) (mis := mis) (by simpa using h)
      (fun m h => hm m (by simp [h])), hm m (by simp)]
  | [], _ :: _, h, _ => by simp at h
  | _ :: _, [], h, _ => by simp at h

theorem taken_map : ∀ {l r : List Particle}, List.Forall₂ Ion l r → (∀ p ∈ l, p.recalc = p) →
    (List.zipWith (fun (q : Particle × Particle) p => takenBack q.1 q.2 p) (l.zip r) r).map Particle.recalc = l
  | _, _, .nil, _ => rfl
  | p :: l, q :: r, .cons h t, hl => by
    rw [List.zip_cons_cons, List.zipWith_cons_cons, List.map_cons, taken_map t (fun p h => hl p (by simp [h])),
      takenBack_back h (hl p (by simp))]

theorem taken_mem : ∀ {l r : List Particle} {x : Particle},
    x ∈ List.zipWith (fun (q : Particle × Particle) p => takenBack q.1 q.2 p) (l.zip r) r → ∃ p, ∃ q ∈ r, x = takenBack p q q
  | [], _, x, h => by simp at h
  | _ :: _, [], x, h => by simp at h
  | p :: l, q :: r, x, h => by
    rw [List.zip_cons_cons, List.zipWith_cons_cons] at h
    rcases List.mem_cons.1 h with rfl | h
    · exact ⟨p, q, by simp, rfl⟩
    · obtain ⟨p', q', h1, h2⟩ := taken_mem h
      exact ⟨p', q', by simp [h1], h2⟩

theorem ion_recalc : ∀ {l r : List Particle}, List.Forall₂ Ion l r → r.map Particle.recalc = r
  | _, _, .nil => rfl
  | _, _, .cons h t => by rw [List.map_cons, ion_recalc t, h.2.2.2.2]

theorem forEach_const {α β : Type} {f : α → Except Err β} {c : β} : ∀ {l : List α}, (∀ x ∈ l, f x = .ok c) →
    ∃ r, forEach f l = .ok r
  | [], _ => ⟨[], rfl⟩
  | a :: l, h => by
    obtain ⟨r, hr⟩ := forEach_const (l := l) fun x hx => h x (by simp [hx])
    exact ⟨c :: r, by simp [forEach, h a (by simp), hr]⟩

/-- Behind the cavity the charge states move. -/
def MovingBehind (d : MDat) : Prop := d.refOut.IonEs ≠ 0 ∧ ∀ q ∈ d.realOut, q.SampleIonK ≠ 0 ∧ q.beta ≠ 0 ∧ q.gamma ≠ 0

/-- Back through a cavity. -/
theorem cavity_undo {env : Env} {files : Files} {d d' : MDat} {s s' : St MSt} (hr : s.retreat = false)
    (hp : d.pitch = 0) (hy : d.yaw = 0) (hF : d.refIn = none ∨ Filled d) (hw : WF s.payload)
    (hv : ∀ v ∈ s.payload.moment0, v 6 = 1) (h : advanceCavity env files d s = (d', s', none))
    (hg : ∀ cav, d'.cav = some cav → cav.emitGrowth = 0) :
    WF s'.payload ∧ ∀ s2 : St MSt, s2.retreat = true → Alike s'.payload s2.payload → WF s2.payload →
      ((advanceCavity env files d' s2).2.2 = none → Again s.payload (advanceCavity env files d' s2).2.1.payload ∧
        WF (advanceCavity env files d' s2).2.1.payload) ∧
      ((∀ M ∈ d'.transfer, M.det ≠ 0) ∧ MovingBehind d' → (advanceCavity env files d' s2).2.2 = none) := by
  obtain ⟨⟨r, f1, f2, f3, f4, f5, f6, f7⟩, a1, a2, a3, a4, a5, a6, b1, b2, b3, b4, b5, b6⟩ :=
    cavity_forward hr hp hy hF hw hv h hg
  rw [a1] at f1
  obtain rfl := Option.some.inj f1
  obtain ⟨w0, w1, w2⟩ := hw
  have hlen : s.payload.recalc.real.length = s.payload.real.length := by simp [MSt.recalc]
  have hn : d'.realIn.length = s.payload.real.length := by rw [a2, hlen]
  have hno : d'.realOut.length = s.payload.real.length := by rw [← f5.length_eq, hn]
  have ht : s'.payload.transmat.length = s.payload.real.length := by rw [b4, List.length_map, f6, hn]
  have hw' : WF s'.payload := by
    refine ⟨?_, ?_, ?_⟩
    · rw [b5, List.length_zipWith, ht, w0, b3, hno, Nat.min_self]
    · rw [b6, List.length_zipWith, ht, w1, b3, hno, Nat.min_self]
    · rw [ht, b3, hno]
  refine ⟨hw', fun s2 hr2 ha hw2 => ?_⟩
  have e1 : s2.payload.recalc.ref = d'.refOut := by
    show s2.payload.ref.recalc = _
    rw [ha.ref, b2, f4.2.2.2.2]
  have e2 : s2.payload.recalc.real = d'.realOut := by
    show s2.payload.real.map Particle.recalc = _
    rw [ha.real, b3, ion_recalc f5]
  -- where the particles are in front of the cavity
  have e3 : (takenBack (d'.refIn.getD d'.refOut) d'.refOut s2.payload.recalc.ref).recalc = s.payload.recalc.ref := by
    rw [e1, a1]
    exact takenBack_back f4 f2
  have e4 : (List.zipWith (fun (q : Particle × Particle) p => takenBack q.1 q.2 p) (d'.realIn.zip d'.realOut)
      s2.payload.recalc.real).map Particle.recalc = s.payload.recalc.real := by
    rw [e2, taken_map f5 f3, a2]
  have hzip : (List.zipWith (fun (q : Particle × Particle) p => takenBack q.1 q.2 p) (d'.realIn.zip d'.realOut)
      s2.payload.recalc.real).length = s.payload.real.length := by
    have := congrArg List.length e4
    rwa [List.length_map, hlen] at this
  -- the matrices of the way back
  have back : ∀ mis, forEach (fun p => getMisalign d' (takenBack (d'.refIn.getD d'.refOut) d'.refOut s2.payload.recalc.ref) p)
      (List.zipWith (fun (q : Particle × Particle) p => takenBack q.1 q.2 p) (d'.realIn.zip d'.realOut)
        s2.payload.recalc.real) = .ok mis →
      List.zipWith (fun T (m : Mat × Mat) => m.2 * (T * m.1)) d'.transfer mis = s'.payload.transmat := by
    intro mis hmis
    have hl := forEach_length hmis
    rw [hzip] at hl
    rw [b4]
    exact zipWith_mis (by rw [hl, f6, hn]) (misalign_roll a4 a5 hmis)
  obtain ⟨x0, x1, x2⟩ := hw2
  have hreal2 : s2.payload.real.length = s.payload.real.length := by
    have := congrArg List.length e2
    rw [hno] at this
    rw [← this]
    simp [MSt.recalc]
  obtain ⟨l1, l2, l3⟩ := back_loop (T := s'.payload.transmat) (vs := s.payload.moment0) (Ss := s.payload.moment1)
    (Xs := s2.payload.transmat) (by rw [ht, w0]) (by rw [ht, w1]) (by rw [ht, x2, hreal2])
  rw [← b5, ← b6] at l1 l2 l3
  constructor
  · intro hok
    have hx : advanceCavity env files d' s2 =
        ((advanceCavity env files d' s2).1, (advanceCavity env files d' s2).2.1, none) := by rw [← hok]
    generalize (advanceCavity env files d' s2).1 = d3 at hx
    generalize (advanceCavity env files d' s2).2.1 = s3 at hx ⊢
    obtain ⟨cav, mis, S, -, -, -, hmis, hS, -, rfl⟩ := backward_cases hr2 hx
    rw [back mis hmis] at hS
    have hS' := congrArg Prod.fst hS
    have hE := congrArg Prod.snd hS
    clear hS
    unfold backward at hS' hE
    dsimp only [MSt.recalc] at hS' hE
    rw [ha.m0, ha.m1] at hS' hE
    obtain ⟨m0, m1⟩ := l1 hE
    rw [m0, m1] at hS'
    subst hS'
    dsimp only [MSt.recalc] at e3 e4
    refine ⟨?_, ?_, ?_, ?_⟩
    · unfold Again
      refine calcRms_congr ?_ ?_ ?_ rfl rfl rfl rfl
      · show s2.payload.pos - d'.length = s.payload.pos
        rw [ha.pos, b1, a3]
        ring
      · exact e3
      · exact e4
    · show s.payload.moment0.length = List.length (List.map _ _)
      rw [e4, w0, hlen.symm]
      rfl
    · show s.payload.moment1.length = List.length (List.map _ _)
      rw [e4, w1, hlen.symm]
      rfl
    · exact l3.trans ((x2.trans hreal2).trans (hlen.symm.trans (congrArg List.length e4).symm))
  · rintro ⟨p1, p2, p3⟩
    unfold advanceCavity
    cases hc : d'.cav with
    | none => exact absurd hc a6
    | some cav =>
      dsimp only
      have hcb : checkBackward d' s2.payload.recalc := by
        refine ⟨by rw [a1]; simp, ?_, ?_⟩
        · rw [e1]
          exact ⟨rfl, rfl, rfl, rfl, rfl⟩
        · rw [e2]
          exact List.forall₂_same.2 fun _ _ => ⟨rfl, rfl, rfl, rfl, rfl⟩
      rw [if_pos hr2, if_neg (not_not.2 hcb), if_neg (not_not.2 f5.length_eq)]
      obtain ⟨mis, hmis⟩ : ∃ mis, forEach (fun p => getMisalign d' (takenBack (d'.refIn.getD d'.refOut) d'.refOut s2.payload.recalc.ref) p)
          (List.zipWith (fun (q : Particle × Particle) p => takenBack q.1 q.2 p) (d'.realIn.zip d'.realOut)
            s2.payload.recalc.real) = .ok mis := by
        refine forEach_const (c := (rotMat d'.dx d'.dy 0 0 d'.roll, (rotMat d'.dx d'.dy 0 0 d'.roll)⁻¹)) fun x hx => ?_
        rw [e2] at hx
        obtain ⟨p, q, hq, rfl⟩ := taken_mem hx
        obtain ⟨q1, q2, q3⟩ := p3 q hq
        obtain ⟨z1, z2⟩ := unit_ne (takenBack (d'.refIn.getD d'.refOut) d'.refOut s2.payload.recalc.ref) (takenBack p q q)
          q1 q2 q3 (by rw [e1]; exact p2)
        exact getMisalign_roll d' _ _ a4 a5 z1 z2
      rw [hmis]
      dsimp only
      rw [back mis hmis]
      unfold backward
      dsimp only [MSt.recalc]
      rw [ha.m0, ha.m1]
      have hdet : ∀ M ∈ s'.payload.transmat, M.det ≠ 0 := by
        rw [b4]
        intro M hM
        obtain ⟨T, hT, rfl⟩ := List.mem_map.1 hM
        have hR := rotMat_det d'.dx d'.dy 0 0 d'.roll
        rw [Matrix.det_mul, Matrix.det_mul]
        refine mul_ne_zero ?_ (mul_ne_zero (p1 T hT) hR)
        intro hz
        have := congrArg Matrix.det (Matrix.nonsing_inv_mul _ (isUnit_iff_ne_zero.2 hR))
        rw [Matrix.det_mul, hz, zero_mul, Matrix.det_one] at this
        exact zero_ne_one this
      rw [l2 hdet]

/-! ## no growth of the emittance -/

/-- The growth of the emittance is switched off, also if the cavity is loaded again. -/
def NoGrowth (env : Env) (d : MDat) : Prop :=
  (∀ cav, d.cav = some cav → cav.emitGrowth = 0) ∧ getFlag env d.conf "EmitGrowth" 0 = .ok 0

theorem loadShipped_emit (files : Files) (dir lab : String) (cav : Cav) :
    (loadShipped files dir lab cav).1.emitGrowth = cav.emitGrowth := by
  unfold loadShipped
  dsimp only
  repeat' split
  all_goals rfl

theorem loadGeneric_emit (files : Files) (cav : Cav) : (loadGeneric files cav).1.emitGrowth = cav.emitGrowth := by
  unfold loadGeneric
  dsimp only
  repeat' split
  all_goals rfl

theorem loadCavity_emit {env : Env} {files : Files} {c : LCfg} {cav : Cav} (hc : getFlag env c "EmitGrowth" 0 = .ok 0)
    (h : cav.emitGrowth = 0) : (loadCavity env files c cav).1.emitGrowth = 0 := by
  unfold loadCavity
  rw [hc]
  dsimp only
  repeat' split
  all_goals first
    | exact h
    | rfl
    | exact loadShipped_emit _ _ _ _
    | exact loadGeneric_emit _ _

theorem reload_emit {env : Env} {files : Files} {c : LCfg} {cav : Cav} (hc : getFlag env c "EmitGrowth" 0 = .ok 0)
    (h : cav.emitGrowth = 0) : (reload env files c cav).1.emitGrowth = 0 := by
  unfold reload
  repeat' split
  all_goals first
    | exact h
    | exact loadCavity_emit hc h

theorem noGrowth_forward {env : Env} {files : Files} {d d' : MDat} {s s' : St MSt} (hr : s.retreat = false)
    (hg : NoGrowth env d) (h : advanceCavity env files d s = (d', s', none)) :
    ∀ cav, d'.cav = some cav → cav.emitGrowth = 0 := by
  obtain ⟨cav0, hc0, ⟨-, -, rfl, -⟩ | ⟨-, cav1, ref, phi, l, mis, hre, -, -, -, rfl, -⟩⟩ := forward_cases hr h
  · intro cav hc
    obtain rfl : cav0 = cav := Option.some.inj hc
    exact hg.1 _ hc0
  · intro cav hc
    obtain rfl : _ = cav := Option.some.inj hc
    have := reload_emit (files := files) (cav := { cav0 with misalign := resizeMis s.payload.recalc.real.length cav0.misalign })
      hg.2 (show cav0.emitGrowth = 0 from hg.1 cav0 hc0)
    rw [hre] at this
    exact this

/-! ## C31 -/

/-- A cavity that is neither pitched nor yawed and in which the emittance does not grow; it has not been passed, or only
forward. -/
def CavUndoable (env : Env) (files : Files) (junk : Mat) (base : Nat) (e : MElem) : Prop :=
  e.cls = cavityCls env files junk base ∧ e.dat.pitch = 0 ∧ e.dat.yaw = 0 ∧ (e.dat.refIn = none ∨ Filled e.dat) ∧ NoGrowth env e.dat

theorem first_carried : Carried Keeps7 (fun v => v 6 = 1) (fun _ => True) where
  nice := keeps_nice
  cell := keeps_carried.cell
  vec := keeps_carried.vec
  lon := keeps_carried.lon
  mat := fun _ _ => trivial
  grow := fun _ _ _ => trivial

theorem affineAny_first {env : Env} {files : Files} {junk : Mat} {base : Nat} {e : MElem} {s : St MSt}
    (he : AffineAny env files junk base e) (hs : ∀ v ∈ s.payload.moment0, v 6 = 1) :
    ∀ v ∈ (e.cls.advance e.dat s).2.1.payload.moment0, v 6 = 1 := by
  refine (first_carried.step (fun _ _ _ _ _ _ _ h => recomputeCav_keeps h) env files junk base e s ?_
    ⟨hs, fun _ _ => trivial⟩).2.1
  rcases he with ⟨t, hc, ht, hi, hT⟩ | ⟨hc, hT, hm⟩
  · exact .inl ⟨t, hc, keeps_gives env t e.dat.conf ht, fun i h => ⟨(hi i h).1, fun _ _ => trivial⟩, hT⟩
  · exact .inr ⟨hc, hT, fun cav hcc m hx => ⟨fun j => (hm cav hcc m hx j).1, fun j => (hm cav hcc m hx j).2⟩⟩

theorem undoes_cavity (env : Env) (files : Files) (junk : Mat) (base : Nat) : Undoes
    (fun e => AffineAny env files junk base e ∧ (Undoable env junk base e ∨ CavUndoable env files junk base e))
    (fun e => (∀ M ∈ e.dat.transfer, M.det ≠ 0) ∧ (e.cls.typeName = "rfcavity" → MovingBehind e.dat))
    (fun S => WF S ∧ ∀ v ∈ S.moment0, v 6 = 1) WF Alike Again where
  keeps := by
    rintro e ⟨-, ⟨t, h1, -, hc, -⟩ | ⟨hc, -⟩⟩ d s
    · rw [hc]
      exact (measured_cls env junk base t h1).1 d s
    · rw [hc]
      obtain ⟨h1, h2, -⟩ := cavity_place env files d s
      exact ⟨h1, h2⟩
  agree := fun _ _ h => h.alike
  undo := by
    rintro e s ⟨ha, hu⟩ hr ⟨hw, hh⟩ hok
    have hS := affineAny_first ha hh
    rcases hu with ⟨t, h1, h2, hc, hf⟩ | ⟨hc, hp, hy, hF, hg⟩
    · dsimp only
      rw [hc] at hok hS ⊢
      obtain ⟨u1, u2⟩ := undo_alike env t h1 h2 e.dat s hf hr hw hok
      refine ⟨⟨u1, hS⟩, fun s2 k1 k2 k3 => ?_⟩
      obtain ⟨v1, v2⟩ := u2 s2 k1 k2 k3
      exact ⟨v1, fun h => v2 h.1⟩
    · have hadv : e.cls.advance = advanceCavity env files := by rw [hc]; rfl
      dsimp only
      rw [hadv] at hok hS ⊢
      have hx : advanceCavity env files e.dat s =
          ((advanceCavity env files e.dat s).1, (advanceCavity env files e.dat s).2.1, none) := by rw [← hok]
      obtain ⟨u1, u2⟩ := cavity_undo hr hp hy hF hw hh hx (noGrowth_forward hr hg hx)
      refine ⟨⟨u1, hS⟩, fun s2 k1 k2 k3 => ?_⟩
      obtain ⟨v1, v2⟩ := u2 s2 k1 k2 k3
      exact ⟨v1, fun h => v2 ⟨h.1, h.2 (by rw [hc]; rfl)⟩⟩

/-- A state propagated forward through `n` elements from number `start` on and then backward through the same ones is
the old one again, except for the recorded matrices and the recorded phase of the last cavity.  The way back does not throw
if no matrix is singular and the charge states move behind every cavity.

Partial with respect to C31: not for sources, sextupoles and strippers, nor for cavities that are pitched or yawed or in which
the emittance grows, nor if there has been a backward propagation before. -/
theorem C31_cavity_partial (env : Env) (files : Files) (junk : Mat) (base : Nat) (els : List MElem) (s : St MSt) (start n : Nat)
    (hn : 0 < n) (hle : start + n ≤ els.length) (hl : els.length < 2 ^ 31) (hw : WF s.payload)
    (hh : ∀ v ∈ s.payload.moment0, v 6 = 1)
    (hu : ∀ e ∈ passed els start n, AffineAny env files junk base e ∧
      (Undoable env junk base e ∨ CavUndoable env files junk base e)) :
    ∃ r, propagate els s start n = some r ∧ (r.err = none →
      ∃ q, propagate r.elems r.st (start + n - 1 : Nat) (-n) = some q ∧
        (q.err = none → Restored s.payload { q.st.payload with last_caviphi0 := s.payload.last_caviphi0 }) ∧
        ((∀ e ∈ passed r.elems start n, (∀ M ∈ e.dat.transfer, M.det ≠ 0) ∧
          (e.cls.typeName = "rfcavity" → MovingBehind e.dat)) → q.err = none)) := by
  obtain ⟨r, h1, h2⟩ := round_trip (undoes_cavity env files junk base) (fun _ h => h.1) (fun _ => ⟨rfl, rfl, rfl, rfl, rfl⟩)
    els s start n hn hle hl ⟨hw, hh⟩ hu
  refine ⟨r, h1, fun he => ?_⟩
  obtain ⟨q, h3, h4, h5⟩ := h2 he
  refine ⟨q, h3, fun hq => back_restored ?_, h5⟩
  have hb := congrArg (fun a : MSt => { a with last_caviphi0 := s.payload.last_caviphi0 }) (h4 hq)
  exact hb

/-- The same for a newly built machine: entries of its lattice of all types except sources, sextupoles and strippers; cavities
are not pitched or yawed and do not ask for the growth of the emittance. -/
theorem C31_cavity_machine_partial {env : Env} {files : Files} {junk : Mat} {base : Nat} {stripper : MCls}
    (cv : CView LCfg) (c : LCfg) (m : Machine LCfg MDat MSt)
    (hm : Machine.new cv (registry env junk base (cavityCls env files junk base) stripper) c = .ok m)
    (es : List LCfg) (hes : cv.elems c = .ok es) (s : St MSt) (start n : Nat)
    (hn : 0 < n) (hle : start + n ≤ es.length) (hl : es.length < 2 ^ 31) (hw : WF s.payload)
    (hh : ∀ v ∈ s.payload.moment0, v 6 = 1)
    (hty : ∀ ec ∈ passed es start n, ∀ ty, cv.str ec "type" = .ok ty →
      ty ≠ "source" ∧ ty ≠ "sextupole" ∧ ty ≠ "stripper" ∧ (ty = "tmatrix" → AffineMatrix ec) ∧
      (ty = "rfcavity" → getNumD ec "pitch" 0 = 0 ∧ getNumD ec "yaw" 0 = 0 ∧ getFlag env ec "EmitGrowth" 0 = .ok 0)) :
    ∃ r, propagate m.elems s start n = some r ∧ (r.err = none →
      ∃ q, propagate r.elems r.st (start + n - 1 : Nat) (-n) = some q ∧
        (q.err = none → Restored s.payload { q.st.payload with last_caviphi0 := s.payload.last_caviphi0 }) ∧
        ((∀ e ∈ passed r.elems start n, (∀ M ∈ e.dat.transfer, M.det ≠ 0) ∧
          (e.cls.typeName = "rfcavity" → MovingBehind e.dat)) → q.err = none)) := by
  have hF := machine_moment hm hes
  have hlen := hF.length_eq
  refine C31_cavity_partial env files junk base m.elems s start n hn (by omega) (by omega) hw hh ?_
  have part := Linear.passed_forall₂ hF start n
  generalize passed es start n = a at part hty
  generalize passed m.elems start n = b at part
  clear hF
  induction part with
  | nil => intro e he; simp at he
  | @cons ec e _ _ hd _ ih =>
    intro e' he'
    rcases List.mem_cons.1 he' with rfl | he'
    · obtain ⟨ty, h1, h2⟩ := hd
      obtain ⟨n1, n2, n3, n4, n5⟩ := hty ec (by simp) ty h1
      rcases h2 with ⟨t, k1, k2, k3⟩ | ⟨hc, rfl, hb⟩ | ⟨-, k2, -⟩
      · obtain ⟨b1, b2, b3⟩ := build_conf k3
        constructor
        · refine .inl ⟨t, k1, ?_, ?_, ?_⟩
          · intro ht
            rw [b1]
            exact n4 (by rw [← k2, ht]; rfl)
          · intro i hi
            obtain ⟨rfl, -⟩ := b3 i hi
            exact absurd k2.symm n1
          · rw [b2]
            simp
        · refine .inl ⟨t, ?_, ?_, k1, ?_⟩
          · rintro rfl
            exact n1 k2.symm
          · rintro rfl
            exact n2 k2.symm
          · have hin := (build_length k3).2.2.1
            cases t <;> first | trivial | exact .inl hin
      · obtain ⟨d0, cav, h0, hld, he⟩ := loadCavity_ok (show buildCavity env files junk ec = .ok e'.dat from hb)
        obtain ⟨p1, p2, p3⟩ := n5 rfl
        have hmis := loadCavity_misalign env files ec noCav
        have hem := loadCavity_emit (files := files) (cav := noCav) p3 rfl
        rw [hld] at hmis hem
        have hmis' : cav.misalign = [] := hmis
        have hem' : cav.emitGrowth = 0 := hem
        obtain ⟨b1, b2, -⟩ := build_conf h0
        simp only [build] at h0
        cases h0
        constructor
        · refine .inr ⟨hc, ?_, ?_⟩
          · rw [he]
            simp
          · intro cav' hcc
            rw [he] at hcc
            cases hcc
            rw [hmis']
            simp
        · refine .inr ⟨hc, ?_, ?_, .inl ?_, ?_, ?_⟩
          · rw [he]
            exact p1
          · rw [he]
            exact p2
          · rw [he]
          · intro cav' hcc
            rw [he] at hcc
            cases hcc
            exact hem'
          · rw [he]
            exact p3
      · exact absurd k2 n3
    · exact ih (fun x hx => hty x (by simp [hx])) e' he'

/-! ## when the way back does not throw -/

theorem setAt_det {T : Mat} (h : Keeps7 T) {i : Fin 7} (hi : i ≠ 6) (x : ℝ) : (setAt T i 6 x).det = T.det := by
  rw [keeps_det (h.setAt hi _ _), keeps_det h]
  congr 1
  ext a b
  show setAt T i 6 x a.castSucc b.castSucc = T a.castSucc b.castSucc
  unfold setAt
  rw [if_neg]
  rintro ⟨-, hb⟩
  exact absurd hb (Fin.castSucc_lt_last b).ne

/-- In a cavity with a frequency no matrix is singular. -/
theorem C31_cavity_regular {env : Env} {files : Files} {d d' : MDat} {s s' : St MSt} (hr : s.retreat = false)
    (h0 : d.refIn = none) (h : advanceCavity env files d s = (d', s', none)) (hs : ∀ p ∈ s.payload.real, p.SampleFreq ≠ 0)
    (hf : ∀ cav, d'.cav = some cav → cav.fRF ≠ 0) : ∀ M ∈ d'.transfer, M.det ≠ 0 := by
  obtain ⟨cav0, -, ⟨hh, -⟩ | ⟨-, cav1, ref, phi, l, mis, -, hrec, -, -, rfl, rfl⟩⟩ := forward_cases hr h
  · exact absurd hh (miss _ h0)
  have hf1 : cav1.fRF ≠ 0 := hf { cav1 with phiRef := some phi, misalign := mis } rfl
  have hreg := C62_regular hf1 (by
    intro p hp
    obtain ⟨q, hq, rfl⟩ := List.mem_map.1 (show p ∈ s.payload.real.map Particle.recalc from hp)
    exact hs q hq) hrec
  intro M hM
  obtain ⟨r, hr', rfl⟩ := List.mem_map.1 hM
  obtain ⟨k, hk⟩ := List.mem_iff_getElem?.1 hr'
  obtain ⟨T, m, p, e, v, C, hT, -, -, -, -, -, rfl⟩ := cavLoop_get hk
  obtain ⟨q, hq, rfl⟩ := List.mem_map.1 (show T ∈ l.map (fun q => q.2) from List.mem_of_getElem? hT)
  obtain ⟨-, hk7, hdet⟩ := hreg q hq
  have k1 : Keeps7 q.2 := hk7
  have k2 := k1.setAt (i := 4) (by decide) 6 0
  have k3 := k2.setAt (i := 5) (by decide) 6 0
  simp only [cavOne]
  rw [setAt_det (k3.setAt (by decide) _ _) (by decide), setAt_det k3 (by decide), setAt_det k2 (by decide),
    setAt_det k1 (by decide)]
  exact hdet

theorem ion_left : ∀ {l r : List Particle}, List.Forall₂ Ion l r → ∀ q ∈ r, ∃ p ∈ l, Ion p q
  | _, _, .nil, q, hq => by simp at hq
  | a :: l, b :: r, .cons h t, q, hq => by
    rcases List.mem_cons.1 hq with rfl | hq
    · exact ⟨a, by simp, h⟩
    · obtain ⟨p, h1, h2⟩ := ion_left t q hq
      exact ⟨p, by simp [h1], h2⟩

/-- Behind a cavity that changes the energy by less than the kinetic energy the charge states move. -/
theorem C31_cavity_moving {env : Env} {files : Files} {d : MDat} {s : St MSt} {cav0 cav : Cav} {scl phi : ℝ}
    (hr : s.retreat = false) (h0 : d.refIn = none) (hc : d.cav = some cav0) (he : cav.emitGrowth = 0)
    (hre : reload env files d.conf { cav0 with misalign := resizeMis s.payload.recalc.real.length cav0.misalign } = (cav, none))
    (hscl : getNum d.conf "scl_fac" = .ok scl) (hn : 2 ≤ cav.cavData.rows.length)
    (hm : Moving s.payload.ref.recalc ∧ |s.payload.ref.IonZ| * (mapOf cav.cavData).voltage scl < s.payload.ref.IonEk)
    (hphi : drivenPhase d.conf cav s.payload.ref.recalc (cav.fRF / s.payload.ref.SampleFreq) scl = .ok phi)
    (hp : ∀ p ∈ s.payload.real, Moving p.recalc ∧ p.SampleFreq ≠ 0 ∧
      |p.IonZ| * (mapOf cav.cavData).voltage scl < p.IonEk ∧ ∃ M, matrixOf cav scl phi p.recalc = .ok M) :
    ∃ d' s', advanceCavity env files d s = (d', s', none) ∧ MovingBehind d' ∧ ∃ cav', d'.cav = some cav' ∧ cav'.fRF = cav.fRF := by
  obtain ⟨d', s', h⟩ := C66_succeeds hr h0 hc he hre hscl hn hm hphi hp
  obtain ⟨ref, l, mis, k1, k2, -, k4, -, k6⟩ := forward_reaches hr h0 hc hre hscl hn hm hphi hp
  refine ⟨d', s', h, ?_⟩
  obtain ⟨cav1, hc1, ⟨hh, -⟩ | ⟨-, cav2, ref', phi', l', mis', hre', hrec, -, -, rfl, rfl⟩⟩ := forward_cases hr h
  · exact absurd hh (miss _ h0)
  rw [hc] at hc1
  obtain rfl := Option.some.inj hc1
  have e2 : cav = cav2 := congrArg Prod.fst (hre.symm.trans hre')
  subst e2
  rw [k1] at hrec
  cases hrec
  obtain ⟨-, i2⟩ := recompute_ion k1
  refine ⟨⟨?_, ?_⟩, _, rfl, rfl⟩
  · show ref.recalc.IonEs ≠ 0
    have : ref.IonEs = s.payload.ref.IonEs := k4
    exact (this.trans_ne hm.1.mass.ne')
  · intro q hq
    have hq' : q ∈ (l.map (fun q => q.1)).map Particle.recalc := hq
    obtain ⟨p, hpm, hi⟩ := ion_left i2 q hq'
    obtain ⟨p0, hp0, rfl⟩ := List.mem_map.1 (show p ∈ s.payload.real.map Particle.recalc from hpm)
    obtain ⟨x, hx, rfl⟩ := List.mem_map.1 hq'
    obtain ⟨y, hy, rfl⟩ := List.mem_map.1 hx
    have hmv := k6 y hy
    have hfr : y.1.recalc.SampleFreq ≠ 0 := by
      rw [hi.2.2.2.1]
      exact (hp p0 hp0).2.1
    obtain ⟨z1, z2, z3, -⟩ := moving y.1 hmv.mass hmv.energy hfr
    exact ⟨z1, z2, z3⟩

/-- An RF cavity as an element. -/
noncomputable def exCavElem (env : Env) (files : Files) (junk : Mat) (base : Nat) : MElem :=
  { cls := cavityCls env files junk base, name := "c", index := 0, conf := exSet, obs := none, dat := exCavity env }

/-- All hypotheses are met by this cavity, and neither way throws. -/
example (env : Env) (files : Files) (junk : Mat) (base : Nat) :
    ∃ r q, propagate [exCavElem env files junk base] (exState false) 0 1 = some r ∧ r.err = none ∧
      propagate r.elems r.st 0 (-1) = some q ∧ q.err = none ∧
      Restored (exState false).payload { q.st.payload with last_caviphi0 := 0 } := by
  have hm := exParticle_moving
  have hv6 : ∀ v ∈ (exState false).payload.moment0, v 6 = 1 := by
    intro v hv
    rw [List.mem_singleton.1 (show v ∈ [fun _ => (1 : ℝ)] from hv)]
  have hu : ∀ e ∈ passed [exCavElem env files junk base] 0 (1 : Nat), AffineAny env files junk base e ∧
      (Undoable env junk base e ∨ CavUndoable env files junk base e) := by
    simp only [passed]
    simp only [Int.natCast_nonneg, if_true, List.drop_zero]
    intro e he
    have : e = exCavElem env files junk base := by simpa using he
    subst this
    refine ⟨.inr ⟨rfl, by simp [exCavElem, exCavity, exDat], ?_⟩, .inr ⟨rfl, rfl, rfl, .inl rfl, ?_, ?_⟩⟩
    · intro cav hc
      obtain rfl : exWeak = cav := Option.some.inj hc
      simp [exWeak, exGap]
    · intro cav hc
      obtain rfl : exWeak = cav := Option.some.inj hc
      rfl
    · show getFlag env exSet "EmitGrowth" 0 = .ok 0
      simp [getFlag, exSet, getStr, getNum, asUnsigned]
  obtain ⟨r, h1, h2⟩ := C31_cavity_partial env files junk base [exCavElem env files junk base] (exState false) 0 1 (by decide)
    (by simp) (by simp) ⟨rfl, rfl, rfl⟩ hv6 hu
  have hr : r = run 1 [exCavElem env files junk base] (exState false) := by
    have := propagate_eq [exCavElem env files junk base] (exState false) 0 1 (by decide)
    rw [show ((1 : Nat) : Int) = 1 from rfl, this] at h1
    exact (Option.some.inj h1).symm
  have hget : [exCavElem env files junk base][(exState false).nextElem]? = some (exCavElem env files junk base) := rfl
  obtain ⟨x, hx⟩ := exWeak_drive (exCavity env).conf (by simp [getNumD, exCavity, exDat, exSet])
  obtain ⟨M, hM⟩ := exWeak_matrix x
  have hZ : |exParticle.IonZ| * (mapOf exWeak.cavData).voltage 1 < exParticle.IonEk := by
    rw [exWeak_voltage]
    norm_num [exParticle]
  have hst : (stepNext (exState false)).payload = (exState false).payload := stepNext_payload _
  obtain ⟨d', s', f1, f2, cav', f3, f4⟩ := C31_cavity_moving (env := env) (files := files) (d := exCavity env)
    (s := stepNext (exState false)) (scl := 1) (phi := x) (cav0 := exWeak) (cav := { exWeak with misalign := [(1, 1)] })
    (stepNext_retreat _) rfl rfl rfl (by
      rw [hst]
      exact reload_same (by simp [getStr, exCavity, exDat, exSet, exWeak, exGap])
        (fun _ => ⟨"gap.lat", by simp [getStr, exCavity, exDat, exSet], by simp [getStrD, exCavity, exDat, exSet, exWeak]⟩) _)
    (by simp [getNum, exCavity, exDat, exSet]) (by simp [exWeak, exGap, exTable]) (by rw [hst]; exact ⟨hm, hZ⟩)
    (by rw [hst]; exact hx) (by
      intro p hp
      rw [hst] at hp
      rw [List.mem_singleton.1 (show p ∈ [exParticle] from hp)]
      exact ⟨hm, by norm_num [exParticle], hZ, M, hM⟩)
  have f5 := C31_cavity_regular (stepNext_retreat _) rfl f1 (by
    intro p hp
    rw [hst] at hp
    rw [List.mem_singleton.1 (show p ∈ [exParticle] from hp)]
    norm_num [exParticle]) (by
    intro cav hc
    rw [f3] at hc
    obtain rfl := Option.some.inj hc
    rw [f4]
    norm_num [exWeak, exGap])
  have hadv : (exCavElem env files junk base).cls.advance (exCavElem env files junk base).dat (stepNext (exState false)) =
      (d', s', none) := f1
  have hrun := run_succ_ok (n := 0) hget (by rw [hadv])
  rw [← hr] at hrun
  have he : r.err = none := by rw [hrun]; rfl
  obtain ⟨q, q1, q2, q3⟩ := h2 he
  have hq : q.err = none := by
    apply q3
    rw [hrun, hadv]
    intro e hm
    have : e = { exCavElem env files junk base with dat := d' } := by
      simp only [passed, run] at hm
      simpa [exState] using hm
    subst this
    exact ⟨f5, fun _ => f2⟩
  exact ⟨r, q, h1, he, q1, hq, q2 hq⟩

/-- C31 fails for strippers: any stripper that is passed backward throws. -/
theorem C31_stripper_false (env : Env) (junk : Mat) (base : Nat) (els : List MElem) (s : St MSt) (i n : Nat) (e : MElem)
    (hi : els[i]? = some e) (hc : e.cls = stripperCls env junk base) (h0 : 0 < n) (hn : n < 2 ^ 31) :
    ∃ q, propagate els s i (-n) = some q ∧ q.err = some .runtime := by
  refine ⟨_, propagate_eq els s i (-n) (by omega), ?_⟩
  rw [show decide (-(n : Int) < 0) = true by simp [h0], Int.natAbs_neg, Int.natAbs_natCast]
  obtain ⟨n, rfl⟩ : ∃ m, n = m + 1 := ⟨n - 1, by omega⟩
  have hx : (e.cls.advance e.dat (stepNext { s with nextElem := i, retreat := true })).2.2 = some .runtime := by
    rw [hc]
    show (advanceStripper e.dat (stepNext { s with nextElem := i, retreat := true })).2.2 = some .runtime
    unfold advanceStripper
    rw [if_pos (stepNext_retreat _)]
  have hi' : els[({ s with nextElem := i, retreat := true } : St MSt).nextElem]? = some e := hi
  rw [run_succ_err hi' hx]

/-- There are strippers. -/
example (env : Env) (junk : Mat) (base : Nat) (c : LCfg) (hc : c = fun _ => none) :
    ∃ d, (stripperCls env junk base).build c = .ok d := by
  subst hc
  exact ⟨_, rfl⟩

end Flame.Cavity
