import Verif.Cavity.Beam
import Verif.Cavity.SpecTime

/-!
# The choice of the time origin: C67

A beam that arrives later passes the lattice in the same way, as long as no cavity tells the difference.
-/

namespace Flame.Cavity

open Flame.Mach (Cls St Err CView Machine propagate sizeMod Elem Run Event run visits stepNext viewEvents run_succ_none run_succ_err run_succ_ok propagate_eq)
open Flame.Linear (LVal LCfg getNum getNumD getVec)
open Flame.Moment Flame.Moment.Spec

/-! ## delayed beams -/

/-- A particle `δ` later. -/
def later (δ : ℝ) (p : Particle) : Particle := { p with phis := p.phis + δ }

/-- A beam `δ` later, with `y` as last driven phase. -/
def delay (δ y : ℝ) (S : MSt) : MSt :=
  { S with ref := later δ S.ref, real := S.real.map (later δ), last_caviphi0 := y }

theorem later_iff {δ : ℝ} {p q : Particle} : Spec.LaterParticle δ p q ↔ q = later δ p := by
  constructor
  · rintro ⟨h1, h2, h3, h4, h5, h6, h7, h8, h9, h10, h11, h12⟩
    cases p; cases q
    simp only at h1 h2 h3 h4 h5 h6 h7 h8 h9 h10 h11 h12
    subst h1 h2 h3 h4 h5 h6 h7 h8 h9 h10 h11 h12
    rfl
  · rintro rfl
    exact ⟨rfl, rfl, rfl, rfl, rfl, rfl, rfl, rfl, rfl, rfl, rfl, rfl⟩

theorem later_list {δ : ℝ} : ∀ {l m : List Particle}, List.Forall₂ (Spec.LaterParticle δ) l m ↔ m = l.map (later δ) := by
  intro l
  induction l with
  | nil => intro m; simp
  | cons p l ih =>
    intro m
    cases m with
    | nil => simp
    | cons q m => simp only [List.forall₂_cons, later_iff, ih, List.map_cons, List.cons.injEq]

theorem delay_iff {δ : ℝ} {S S' : MSt} : Spec.Later δ S S' ↔ S' = delay δ S'.last_caviphi0 S := by
  constructor
  · rintro ⟨h1, h2, h3, h4, h5, h6, h7, h8, h9⟩
    rw [later_iff] at h2
    rw [later_list] at h3
    cases S; cases S'
    simp only at h1 h2 h3 h4 h5 h6 h7 h8 h9
    subst h1 h2 h3 h4 h5 h6 h7 h8 h9
    rfl
  · intro h
    have e := fun {α : Type} (f : MSt → α) => congrArg f h
    exact ⟨e (·.pos), later_iff.2 (e (·.ref)), later_list.2 (e (·.real)), e (·.moment0), e (·.moment1), e (·.transmat),
      e (·.moment0_env), e (·.moment0_rms), e (·.moment1_env)⟩

theorem later_recalc (δ : ℝ) (p : Particle) : (later δ p).recalc = later δ p.recalc := rfl

theorem later_drifted (δ L : ℝ) (b : Bool) (p : Particle) : (later δ p).drifted b L = later δ (p.drifted b L) := by
  unfold later Particle.drifted
  congr 1
  ring

theorem delay_recalc (δ y : ℝ) (S : MSt) : (delay δ y S).recalc = delay δ y S.recalc := by
  simp only [delay, MSt.recalc, later_recalc, List.map_map]
  rfl

theorem totQ_later (δ : ℝ) (l : List Particle) : totQ (l.map (later δ)) = totQ l := by
  simp only [totQ, List.map_map]
  rfl

theorem env0_later (δ : ℝ) (l : List Particle) (m : List Vec) : env0 (l.map (later δ)) m = env0 l m := by
  funext j
  simp only [env0, totQ_later, List.zipWith_map_left]
  rfl

theorem env1_later (δ : ℝ) (l : List Particle) (m : List Vec) (n : List Mat) : env1 (l.map (later δ)) m n = env1 l m n := by
  funext i j
  simp only [env1, totQ_later, env0_later, List.zipWith_map_left]
  rfl

theorem delay_calcRms (δ y : ℝ) (S : MSt) : (delay δ y S).calcRms = delay δ y S.calcRms := by
  simp only [MSt.calcRms, delay, env0_later, env1_later]

theorem forEach_map {α β γ : Type} (f : β → Except Err γ) (g : α → β) (l : List α) :
    forEach f (l.map g) = forEach (fun a => f (g a)) l := by
  induction l with
  | nil => rfl
  | cons a l ih => simp only [List.map_cons, forEach, ih]

/-! ## elements without cavities -/

/-- None of the matrices depends on the phases. -/
theorem recompute_later (env : Env) (t : MType) (d : MDat) (δ : ℝ) (r : Particle) (l : List Particle) :
    recompute env t d (later δ r) (l.map (later δ)) = recompute env t d r l := by
  cases t <;> simp only [recompute, orbtrimRec, sbendRec, quadRec, solenoidRec, edipoleRec, equadRec, forEach_map, List.map_map]
  all_goals rfl

theorem particles_later {rec : MDat → Particle → List Particle → Except Err (List Mat)} {δ y : ℝ} {mv : Particle → Particle}
    {d : MDat} {S : MSt} (hrec : ∀ d r l, rec d (later δ r) (l.map (later δ)) = rec d r l)
    (hc : ∀ d a b c e f, rec (MDat.cached d a b c e f) = rec d)
    (hmv : ∀ p, mv (later δ p) = later δ (mv p)) :
    ((particles rec mv d (delay δ y S) false).2 =
      match (particles rec mv d S false).2 with
      | .error e => .error e
      | .ok (r, l) => .ok (later δ r, l.map (later δ))) ∧
    ∀ r l, (particles rec mv d S false).2 = .ok (r, l) →
      (particles rec mv d (delay δ y S) false).1.transfer = (particles rec mv d S false).1.transfer := by
  have h1 : rec { d with refIn := some S.ref, realIn := S.real, transfer := resize S.real.length d.transfer } = rec d :=
    hc d _ d.refOut _ d.realOut _
  have h2 : rec { d with refIn := some (delay δ y S).ref, realIn := (delay δ y S).real, transfer := resize (delay δ y S).real.length d.transfer } = rec d :=
    hc d _ d.refOut _ d.realOut _
  have h3 : rec d (delay δ y S).ref (delay δ y S).real = rec d S.ref S.real := hrec d S.ref S.real
  unfold particles
  simp only [Bool.false_eq_true, if_false, h1, h2, h3]
  cases rec d S.ref S.real with
  | error e => exact ⟨rfl, fun _ _ h => by cases h⟩
  | ok T =>
    refine ⟨?_, fun _ _ _ => rfl⟩
    simp only [delay, later_recalc, hmv, List.map_map]
    congr 2
    apply List.map_congr_left
    intro p _
    simp only [Function.comp_apply, later_recalc, hmv]

theorem miss_decide {d : MDat} (S : MSt) (h : d.refIn = none) : @decide (hit d S) (Classical.propDecidable _) = false := by
  simpa using miss S h

theorem forward_delay (δ y : ℝ) (T : List Mat) (S : MSt) : forward T (delay δ y S) = delay δ y (forward T S) := rfl

theorem advanceBase_delay {rec : MDat → Particle → List Particle → Except Err (List Mat)} {δ y : ℝ} {d : MDat} {s s' : St MSt}
    (hrec : ∀ d r l, rec d (later δ r) (l.map (later δ)) = rec d r l)
    (hc : ∀ d a b c e f, rec (MDat.cached d a b c e f) = rec d) (h0 : d.refIn = none) (hr : s.retreat = false)
    (hr' : s'.retreat = false) (hs : s'.payload = delay δ y s.payload) :
    (advanceBase rec d s').2.2 = (advanceBase rec d s).2.2 ∧
      (advanceBase rec d s').2.1.payload = delay δ y (advanceBase rec d s).2.1.payload := by
  have hp := particles_later (δ := δ) (y := y) (d := d) (S := s.payload.recalc) hrec hc (mv := (·.drifted false d.length))
    (fun p => later_drifted δ d.length false p)
  unfold advanceBase
  simp only [miss_decide _ h0, hs, delay_recalc, hr, hr', Bool.false_eq_true, if_false]
  generalize particles rec (fun x => x.drifted false d.length) d (delay δ y s.payload.recalc) false = A at hp
  generalize particles rec (fun x => x.drifted false d.length) d s.payload.recalc false = B at hp
  obtain ⟨dA, A⟩ := A
  obtain ⟨dB, B⟩ := B
  obtain ⟨hp1, hp2⟩ := hp
  dsimp only at hp1 hp2
  cases B with
  | error e => subst hp1; exact ⟨rfl, rfl⟩
  | ok q =>
    obtain ⟨r, l⟩ := q
    subst hp1
    dsimp only
    rw [hp2 r l rfl]
    refine ⟨rfl, ?_⟩
    rw [← delay_calcRms]
    rfl

theorem bendPhis_later (δ L : ℝ) : ∀ (l : List Particle) (v w : List Vec),
    bendPhis false L (l.map (later δ)) v w = (bendPhis false L l v w).map (later δ)
  | [], _, _ => by cases ‹List Vec› <;> rfl
  | p :: l, [], w => rfl
  | p :: l, _ :: _, [] => rfl
  | p :: l, a :: v, b :: w => by
    simp only [List.map_cons, bendPhis, bendPhis_later δ L l v w]
    congr 1
    simp only [later]
    congr 1
    ring

theorem advanceBend_delay {rec : MDat → Particle → List Particle → Except Err (List Mat)} {δ y : ℝ} {d : MDat} {s s' : St MSt}
    (hrec : ∀ d r l, rec d (later δ r) (l.map (later δ)) = rec d r l)
    (hc : ∀ d a b c e f, rec (MDat.cached d a b c e f) = rec d) (h0 : d.refIn = none) (hr : s.retreat = false)
    (hr' : s'.retreat = false) (hs : s'.payload = delay δ y s.payload) :
    (advanceBend rec d s').2.2 = (advanceBend rec d s).2.2 ∧
      (advanceBend rec d s').2.1.payload = delay δ y (advanceBend rec d s).2.1.payload := by
  have hp := particles_later (δ := δ) (y := y) (d := d) (S := s.payload.recalc) hrec hc (mv := id) (fun p => rfl)
  unfold advanceBend
  simp only [miss_decide _ h0, hs, delay_recalc, hr, hr', Bool.false_eq_true, if_false]
  generalize particles rec id d (delay δ y s.payload.recalc) false = A at hp
  generalize particles rec id d s.payload.recalc false = B at hp
  obtain ⟨dA, A⟩ := A
  obtain ⟨dB, B⟩ := B
  obtain ⟨hp1, hp2⟩ := hp
  dsimp only at hp1 hp2
  cases B with
  | error e => subst hp1; exact ⟨rfl, rfl⟩
  | ok q =>
    obtain ⟨r, l⟩ := q
    subst hp1
    dsimp only
    rw [hp2 r l rfl]
    refine ⟨rfl, ?_⟩
    rw [← delay_calcRms]
    congr 1
    simp only [delay, forward, later_drifted, bendPhis_later]

theorem sextLoop_later (δ : ℝ) (p : Particle) (dL K : ℝ) (a b : Bool) : ∀ (n : Nat) (x : Vec × Mat × Mat × Mat),
    sextLoop (later δ p) dL K a b n x = sextLoop p dL K a b n x
  | 0, _ => rfl
  | n + 1, (v, S, X, T) => by
    simp only [sextLoop]
    exact sextLoop_later δ p dL K a b n _

theorem advanceSext_delay {δ y : ℝ} {d : MDat} {s s' : St MSt} (hr : s.retreat = false)
    (hr' : s'.retreat = false) (hs : s'.payload = delay δ y s.payload) :
    (advanceSext d s').2.2 = (advanceSext d s).2.2 ∧
      (advanceSext d s').2.1.payload = delay δ y (advanceSext d s).2.1.payload := by
  unfold advanceSext
  simp only [hs, delay_recalc, hr, hr', Bool.false_eq_true, if_false]
  split
  · rename_i B3 L0 _ _
    generalize s.payload.recalc = S
    have key : ∀ (d1 d2 : MDat), (∀ r p, getMisalign d1 r p = getMisalign d r p) → (∀ r p, getMisalign d2 r p = getMisalign d r p) →
        ∀ (B L st : ℝ) (a b : Bool),
        forEach (fun (q : Particle × Vec × Mat) => sextOne d1 B L st a b (delay δ y S).ref q.1 q.2.1 q.2.2)
          ((delay δ y S).real.zip ((delay δ y S).moment0.zip (delay δ y S).moment1)) =
        forEach (fun (q : Particle × Vec × Mat) => sextOne d2 B L st a b S.ref q.1 q.2.1 q.2.2)
          (S.real.zip (S.moment0.zip S.moment1)) := by
      intro d1 d2 h1 h2 B L st a b
      have : (delay δ y S).real.zip ((delay δ y S).moment0.zip (delay δ y S).moment1) =
          (S.real.zip (S.moment0.zip S.moment1)).map (fun q => (later δ q.1, q.2)) := by
        simp only [delay, List.zip_map_left]
        rfl
      rw [this, forEach_map]
      congr 1
      funext q
      simp only [sextOne, h1, h2, sextLoop_later]
      rfl
    rw [key { d with refIn := some (delay δ y S).ref, realIn := (delay δ y S).real, transfer := resize (delay δ y S).real.length d.transfer }
      { d with refIn := some S.ref, realIn := S.real, transfer := resize S.real.length d.transfer }
      (fun r p => rfl) (fun r p => rfl)]
    split
    · exact ⟨rfl, rfl⟩
    · refine ⟨rfl, ?_⟩
      dsimp only
      rw [← delay_calcRms]
      simp only [delay, later_recalc, later_drifted, List.map_map]
      congr 1
      congr 1
      apply List.map_congr_left
      intro p _
      simp only [Function.comp_apply, later_recalc, later_drifted]
  · exact ⟨rfl, hs⟩

theorem advance_delay {env : Env} {t : MType} {δ y : ℝ} {d : MDat} {s s' : St MSt} (ht : t ≠ .source) (h0 : d.refIn = none)
    (hr : s.retreat = false) (hr' : s'.retreat = false) (hs : s'.payload = delay δ y s.payload) :
    (advance env t d s').2.2 = (advance env t d s).2.2 ∧
      (advance env t d s').2.1.payload = delay δ y (advance env t d s).2.1.payload := by
  have h1 := fun t d r l => recompute_later env t d δ r l
  have h2 := fun t d a b c e f => recompute_cached env t d a b c e f
  cases t with
  | source => exact absurd rfl ht
  | sbend => exact advanceBend_delay (h1 _) (h2 _) h0 hr hr' hs
  | sextupole => exact advanceSext_delay hr hr' hs
  | _ => exact advanceBase_delay (h1 _) (h2 _) h0 hr hr' hs

/-! ## whole periods of a cavity -/

theorem cos_turns (x : ℝ) (k : ℤ) : Real.cos (x + k * (2 * Real.pi)) = Real.cos x := Real.cos_add_int_mul_two_pi x k

theorem sin_turns (x : ℝ) (k : ℤ) : Real.sin (x + k * (2 * Real.pi)) = Real.sin x := Real.sin_add_int_mul_two_pi x k

theorem boostStep_turns (Z Es scl lam dz E0 E1 : ℝ) (b : Boost) (k : ℤ) :
    boostStep Z Es scl lam dz E0 E1 { b with fy := b.fy + k * (2 * Real.pi) } =
      (boostStep Z Es scl lam dz E0 E1 b).map (fun q => { q with fy := q.fy + k * (2 * Real.pi) }) := by
  unfold boostStep
  cases b.k with
  | none => rfl
  | some κ =>
    dsimp only
    have h1 : b.fy + k * (2 * Real.pi) + κ * dz = b.fy + κ * dz + k * (2 * Real.pi) := by ring
    have h2 : (b.fy + k * (2 * Real.pi) + (b.fy + κ * dz + k * (2 * Real.pi))) / 2 =
        (b.fy + (b.fy + κ * dz)) / 2 + k * (2 * Real.pi) := by ring
    rw [h1, h2, cos_turns]
    repeat' split
    all_goals rfl

theorem boostLoop_turns (Z Es scl lam dz : ℝ) (k : ℤ) : ∀ (l : List ℝ) (b : Boost),
    boostLoop Z Es scl lam dz l { b with fy := b.fy + k * (2 * Real.pi) } =
      (boostLoop Z Es scl lam dz l b).map (fun q => { q with fy := q.fy + k * (2 * Real.pi) })
  | [], _ => rfl
  | [_], _ => rfl
  | E0 :: E1 :: l, b => by
    simp only [boostLoop, boostStep_turns]
    cases boostStep Z Es scl lam dz E0 E1 b with
    | none => rfl
    | some b' => exact boostLoop_turns Z Es scl lam dz k (E1 :: l) b'

theorem boost_turns (t : Table) (f : ℝ) (p q : Particle) (fy0 scl : ℝ) (k : ℤ) (h1 : q.beta = p.beta) (h2 : q.IonZ = p.IonZ)
    (h3 : q.IonEs = p.IonEs) (h4 : q.IonW = p.IonW) :
    getCavBoost t f q (fy0 + k * (2 * Real.pi)) scl =
      (getCavBoost t f p fy0 scl).map (fun x => (x.1, x.2 + k * (2 * Real.pi))) := by
  unfold getCavBoost
  simp only [h1, h2, h3, h4]
  split
  · rfl
  · rw [boostLoop_turns p.IonZ p.IonEs scl _ _ k _ ⟨p.IonW, fy0, if p.beta = 0 then none else some (2 * Real.pi * f / (p.beta * C0 * MtoMM))⟩]
    split <;> rename_i h <;> simp only [Option.map_eq_none_iff, Option.map_eq_some_iff] at h
    · rw [h]; rfl
    · obtain ⟨a, h, rfl⟩ := h
      rw [h]; rfl

theorem foldE_map {α β : Type} {f : α → β → Except Err β} {φ : β → β} (h : ∀ a b, f a (φ b) = (f a b).map φ) :
    ∀ (l : List α) (b : β), foldE f l (φ b) = (foldE f l b).map φ
  | [], _ => rfl
  | a :: l, b => by
    simp only [foldE, h]
    cases f a b with
    | error e => rfl
    | ok b' => exact foldE_map h l b'

theorem eKick_turns (Z V b g T S fy : ℝ) (k : ℤ) : eKick Z V b g T S (fy + k * (2 * Real.pi)) = eKick Z V b g T S fy := by
  unfold eKick
  rw [cos_turns, sin_turns]

theorem hKick_turns (Z V b g T S fy : ℝ) (k : ℤ) : hKick Z V b g T S (fy + k * (2 * Real.pi)) = hKick Z V b g T S fy := by
  unfold hKick
  rw [show fy + k * (2 * Real.pi) + Real.pi / 2 = fy + Real.pi / 2 + k * (2 * Real.pi) by ring, cos_turns, sin_turns]

theorem transStep_turns (mp : Nat) (Z scl Rm lam : ℝ) (a b c : Kin) (k : ℤ) (q : RawParams × ℝ × Line) (t : Trans) :
    transStep mp Z scl Rm lam a b c q { t with fy := t.fy + k * (2 * Real.pi) } =
      (transStep mp Z scl Rm lam a b c q t).map (fun t => { t with fy := t.fy + k * (2 * Real.pi) }) := by
  unfold transStep
  simp only [eKick_turns, hKick_turns]
  repeat' split
  all_goals first | rfl | skip
  simp only [Except.map]
  congr 2
  ring

theorem genStep_turns (mp : Nat) (Z Es scl Rm lam : ℝ) (k : ℤ) (P : RawParams) (t : Gen) :
    genStep mp Z Es scl Rm lam P { t with fy := t.fy + k * (2 * Real.pi) } =
      (genStep mp Z Es scl Rm lam P t).map (fun t => { t with fy := t.fy + k * (2 * Real.pi) }) := by
  unfold genStep
  simp only [eKick_turns, hKick_turns, cos_turns, sin_turns]
  repeat' split
  all_goals first | rfl | skip
  simp only [Except.map]
  congr 2
  ring

theorem gap_turns (dis W0 Z Es fy0 κ lam : ℝ) (g : Gap) (k : ℤ) :
    evalGapModel dis W0 Z Es (fy0 + k * (2 * Real.pi)) κ lam g =
      (evalGapModel dis W0 Z Es fy0 κ lam g).map (fun x => (x.1, x.2.1, x.2.2 + k * (2 * Real.pi))) := by
  unfold evalGapModel
  have h : fy0 + k * (2 * Real.pi) + κ * g.Ecen = fy0 + κ * g.Ecen + k * (2 * Real.pi) := by ring
  simp only [h, cos_turns, sin_turns]
  split
  · rfl
  · simp only [Except.map]
    congr 3
    ring

theorem lonM_turns (Z Es dis lam : ℝ) (a b c : Kin) (g1 g2 : Gap) (fy1 fy2 : ℝ) (k : ℤ) :
    lonM Z Es dis lam a b c g1 g2 (fy1 + k * (2 * Real.pi)) (fy2 + k * (2 * Real.pi)) =
      lonM Z Es dis lam a b c g1 g2 fy1 fy2 := by
  unfold lonM
  have h : ∀ u v : ℝ, u + k * (2 * Real.pi) + v = u + v + k * (2 * Real.pi) := fun u v => by ring
  simp only [h, cos_turns, sin_turns]

theorem cavMat_turns (cav : Cav) (label : Nat) (Rm Z Es scl fy0 Ek : ℝ) (k : ℤ) :
    getCavMat cav label Rm Z Es scl (fy0 + k * (2 * Real.pi)) Ek = getCavMat cav label Rm Z Es scl fy0 Ek := by
  unfold getCavMat
  dsimp only
  split
  · rfl
  rename_i a _
  cases transFacts cav.forcettfcalc cav.cavData label a.beta a.k 1 scl with
  | error e => rfl
  | ok g1 =>
    dsimp only
    rw [gap_turns]
    cases evalGapModel (extent cav.cavData / 2) (Ek + Es) Z Es fy0 a.k (C0 / cav.fRF * MtoMM) g1 with
    | error e => rfl
    | ok x =>
      obtain ⟨W1, b, fy1⟩ := x
      simp only [Except.map]
      cases transFacts cav.forcettfcalc cav.cavData label b.beta b.k 2 scl with
      | error e => rfl
      | ok g2 =>
        dsimp only
        rw [gap_turns]
        cases evalGapModel (extent cav.cavData / 2) W1 Z Es fy1 b.k (C0 / cav.fRF * MtoMM) g2 with
        | error e => rfl
        | ok y =>
          obtain ⟨W2, c, fy2⟩ := y
          simp only [Except.map]
          cases getCavMatParams cav ((a.k + b.k) / 2) ((b.k + c.k) / 2) a b c with
          | error e => rfl
          | ok lines =>
            dsimp only
            have h := foldE_map (transStep_turns cav.mpoleLevel Z scl Rm (C0 / cav.fRF * MtoMM) a b c k) lines
              { seg := 0, beta := a.beta, gamma := a.gamma, fy := fy0, kfac := a.k, M := 1 }
            dsimp only at h
            rw [h, lonM_turns]
            cases foldE (transStep cav.mpoleLevel Z scl Rm (C0 / cav.fRF * MtoMM) a b c) lines
              { seg := 0, beta := a.beta, gamma := a.gamma, fy := fy0, kfac := a.k, M := 1 } <;> rfl

theorem cavMatGeneric_turns (cav : Cav) (Z Es scl fy0 Ek : ℝ) (k : ℤ) :
    getCavMatGeneric cav Z Es scl (fy0 + k * (2 * Real.pi)) Ek = getCavMatGeneric cav Z Es scl fy0 Ek := by
  unfold getCavMatGeneric
  dsimp only
  split
  · rfl
  rename_i a _
  split
  · rfl
  have h := foldE_map (genStep_turns cav.mpoleLevel Z Es scl cav.cRm (C0 / cav.fRF * MtoMM) k) cav.lattice
    { W := Ek + Es, gamma := a.gamma, beta := a.beta, fy := fy0, kfac := a.k, M := 1, lon := 1 }
  dsimp only at h
  rw [h]
  cases foldE (genStep cav.mpoleLevel Z Es scl cav.cRm (C0 / cav.fRF * MtoMM)) cav.lattice
    { W := Ek + Es, gamma := a.gamma, beta := a.beta, fy := fy0, kfac := a.k, M := 1, lon := 1 } <;> rfl

/-! ## delayed particles in a cavity -/

theorem forEach_ok_map {α β γ δ : Type} {f : β → Except Err δ} {g : α → β} {f' : α → Except Err γ} {φ : γ → δ} :
    ∀ (l : List α), (∀ a ∈ l, f (g a) = (f' a).map φ) → forEach f (l.map g) = (forEach f' l).map (List.map φ)
  | [], _ => rfl
  | a :: l, h => by
    have ih := forEach_ok_map l (fun b hb => h b (by simp [hb]))
    simp only [List.map_cons, forEach, h a (by simp), ih]
    cases f' a with
    | error e => rfl
    | ok b => cases forEach f' l <;> rfl

/-- A cavity with settings `c` at the relative frequency `m` changes its driven phase by `ψ` for a beam `δ` later, and the
beam sees a shift by whole turns. -/
def Follows (c : LCfg) (cav : Cav) (δ m ψ : ℝ) (k : ℤ) : Prop :=
  m * δ + ψ = k * (2 * Real.pi) ∧
    ∀ ref scl, drivenPhase c cav (later δ ref) m scl = (drivenPhase c cav ref m scl).map (· + ψ)

theorem getCavPhase_later (i : Nat) (ref : Particle) (F m δ : ℝ) (P : List ℝ) :
    getCavPhase i (later δ ref) F m P = (getCavPhase i ref F m P).map (· + -(m * δ)) := by
  have h : ∀ u : ℝ, F - u - (ref.phis + δ) * m = F - u - ref.phis * m + -(m * δ) := fun u => by ring
  unfold getCavPhase
  simp only [later, h]
  repeat' split
  all_goals rfl

theorem getCavPhaseComplex_later (ref : Particle) (F s m δ : ℝ) (P : List ℝ) :
    getCavPhaseComplex (later δ ref) F s m P = (getCavPhaseComplex ref F s m P).map (· + -(m * δ)) := by
  have h : ∀ u : ℝ, F - u - (ref.phis + δ) * m = F - u - ref.phis * m + -(m * δ) := fun u => by ring
  unfold getCavPhaseComplex
  simp only [later, h]
  repeat' split
  all_goals rfl

theorem follows {c : LCfg} {cav : Cav} {δ f0 : ℝ} (hf : c "f" = some (.num cav.fRF)) (h : Spec.Blind δ f0 c) :
    ∃ ψ k, Follows c cav δ (cav.fRF / f0) ψ k := by
  by_cases hs : 1 ≤ getNumD c "syncflag" 1
  · refine ⟨-(cav.fRF / f0 * δ), 0, by simp, fun ref scl => ?_⟩
    unfold drivenPhase
    simp only [if_pos hs, getCavPhase_later, getCavPhaseComplex_later]
    repeat' split
    all_goals rfl
  · rcases h with h | ⟨f, k, h1, h2⟩
    · exfalso
      apply hs
      unfold getNumD
      split
      · rename_i x hx
        exact h x hx
      · exact le_refl _
    · rw [hf] at h1
      cases h1
      refine ⟨0, k, by rw [← h2]; ring, fun ref scl => ?_⟩
      unfold drivenPhase
      simp only [if_neg hs]
      split <;> simp [Except.map]

theorem boosted_later (δ ψ : ℝ) (p : Particle) (W fy0 fy m : ℝ) :
    boosted (later δ p) W (fy0 + ψ) (fy + ψ) m = later δ (boosted p W fy0 fy m) := by
  simp only [boosted, later, Particle.recalc]
  congr 1
  ring

theorem propagateLong_later {c : LCfg} {cav : Cav} {δ ψ : ℝ} {k : ℤ} {ref : Particle}
    (h : Follows c cav δ (cav.fRF / ref.SampleFreq) ψ k) :
    propagateLong c cav (later δ ref) = (propagateLong c cav ref).map (fun x => (later δ x.1, x.2 + ψ)) := by
  unfold propagateLong
  dsimp only
  rw [show (later δ ref).SampleFreq = ref.SampleFreq from rfl]
  split
  · rfl
  rename_i scl _
  rw [h.2]
  cases drivenPhase c cav ref (cav.fRF / ref.SampleFreq) scl with
  | error e => rfl
  | ok F =>
    simp only [Except.map]
    have e : cav.fRF / ref.SampleFreq * (later δ ref).phis + (F + ψ) = cav.fRF / ref.SampleFreq * ref.phis + F + k * (2 * Real.pi) := by
      rw [← h.1]
      simp only [later]
      ring
    rw [e, boost_turns cav.cavData cav.fRF ref (later δ ref) _ scl k rfl rfl rfl rfl]
    cases getCavBoost cav.cavData cav.fRF ref (cav.fRF / ref.SampleFreq * ref.phis + F) scl with
    | error e => rfl
    | ok x =>
      obtain ⟨W, fy⟩ := x
      simp only [Except.map, boosted_later]

theorem initRFCav_later {c : LCfg} {cav : Cav} {δ ψ phi : ℝ} {k : ℤ} {p : Particle}
    (h : Follows c cav δ (cav.fRF / p.SampleFreq) ψ k) :
    initRFCav c cav (phi + ψ) (later δ p) = (initRFCav c cav phi p).map (fun x => (later δ x.1, x.2)) := by
  unfold initRFCav
  split
  · rfl
  rename_i label Rm _
  dsimp only
  split
  · rfl
  rename_i scl _
  rw [show (later δ p).SampleFreq = p.SampleFreq from rfl, show (later δ p).IonZ = p.IonZ from rfl,
    show (later δ p).IonEs = p.IonEs from rfl, show (later δ p).IonEk = p.IonEk from rfl]
  have e : cav.fRF / p.SampleFreq * (later δ p).phis + (phi + ψ) = cav.fRF / p.SampleFreq * p.phis + phi + k * (2 * Real.pi) := by
    rw [← h.1]
    simp only [later]
    ring
  rw [e, boost_turns cav.cavData cav.fRF { p with IonW := p.IonEk + p.IonEs } _ _ scl k, cavMat_turns, cavMatGeneric_turns]
  rotate_left
  · rfl
  · rfl
  · rfl
  · rfl
  cases getCavBoost cav.cavData cav.fRF { p with IonW := p.IonEk + p.IonEs } (cav.fRF / p.SampleFreq * p.phis + phi) scl with
  | error e => rfl
  | ok x =>
    obtain ⟨W, fy⟩ := x
    simp only [Except.map, boosted_later]
    generalize (if 0 < cav.cavi then _ else _ : Except Err Mat) = M
    cases M <;> rfl

theorem recomputeCav_later {c : LCfg} {cav : Cav} {δ ψ : ℝ} {k : ℤ} {ref : Particle} {real : List Particle}
    (h : Follows c cav δ (cav.fRF / ref.SampleFreq) ψ k) (hu : ∀ p ∈ real, p.SampleFreq = ref.SampleFreq) :
    recomputeCav c cav (later δ ref) (real.map (later δ)) =
      (recomputeCav c cav ref real).map
        (fun x => (later δ x.1, x.2.1 + ψ, x.2.2.map (fun q => (later δ q.1, q.2)))) := by
  unfold recomputeCav
  rw [propagateLong_later h]
  cases propagateLong c cav ref with
  | error e => rfl
  | ok x =>
    obtain ⟨r, phi⟩ := x
    simp only [Except.map]
    rw [forEach_ok_map (φ := fun q : Particle × Mat => (later δ q.1, q.2)) (f' := fun p =>
        match initRFCav c cav phi p with
        | .error e => .error e
        | .ok (p', M) => .ok ({ p' with SampleIonK := p.SampleIonK }, M)) real ?_]
    · generalize forEach _ real = R
      cases R <;> rfl
    · intro p hp
      rw [initRFCav_later (k := k) (by rw [hu p hp]; exact h)]
      cases initRFCav c cav phi p with
      | error e => rfl
      | ok x => rfl

/-! ## a delayed beam in a cavity -/

theorem emitFactors_later {cav cav' : Cav} {δ : ℝ} {ref pin pout : Particle} {b g x2 cx y2 cy : ℝ} {M : Mat}
    (h2 : cav'.fRF = cav.fRF) (h3 : cav'.ionFys = cav.ionFys) :
    emitFactors cav' (later δ ref) (later δ pin) (later δ pout) b g x2 cx y2 cy M =
      emitFactors cav ref pin pout b g x2 cx y2 cy M := by
  simp only [emitFactors, kickPer, angleGrowth, energyGrowth, h2, h3]
  rfl

theorem cavLoop_later {cav cav' : Cav} {δ : ℝ} {ref : Particle} (h1 : cav'.emitGrowth = cav.emitGrowth)
    (h2 : cav'.fRF = cav.fRF) (h3 : cav'.ionFys = cav.ionFys) : ∀ (Ts : List Mat) (ms : List (Mat × Mat)) (ps : List Particle)
    (es : List (Particle × Particle)) (vs : List Vec) (Ss : List Mat),
    cavLoop cav' (later δ ref) Ts ms (ps.map (later δ)) (es.map (fun e => (later δ e.1, later δ e.2))) vs Ss =
      cavLoop cav ref Ts ms ps es vs Ss
  | T :: Ts, m :: ms, p :: ps, e :: es, v :: vs, S :: Ss => by
    simp only [List.map_cons, cavLoop, cavLoop_later h1 h2 h3 Ts ms ps es vs Ss]
    congr 1
    simp only [cavOne, h1, emitGrowth, emitFactors_later h2 h3]
    have : (later δ p).phis - (later δ ref).phis = p.phis - ref.phis := by simp only [later]; ring
    rw [this]
    rfl
  | [], _, _, _, _, _ => by cases ‹List (Particle × Particle)› <;> rfl
  | _ :: _, [], _, _, _, _ => rfl
  | _ :: _, _ :: _, [], _, _, _ => rfl
  | _ :: _, _ :: _, _ :: _, [], _, _ => rfl
  | _ :: _, _ :: _, _ :: _, _ :: _, [], _ => rfl
  | _ :: _, _ :: _, _ :: _, _ :: _, _ :: _, [] => rfl

theorem cavGrown_later {cav cav' : Cav} {δ : ℝ} {ref : Particle} (h1 : cav'.emitGrowth = cav.emitGrowth)
    (h2 : cav'.fRF = cav.fRF) (h3 : cav'.ionFys = cav.ionFys) : ∀ (Ts : List Mat) (ms : List (Mat × Mat)) (ps : List Particle)
    (es : List (Particle × Particle)) (vs : List Vec) (Ss : List Mat),
    cavGrown cav' (later δ ref) Ts ms (ps.map (later δ)) (es.map (fun e => (later δ e.1, later δ e.2))) vs Ss =
      cavGrown cav ref Ts ms ps es vs Ss
  | T :: Ts, m :: ms, p :: ps, e :: es, v :: vs, S :: Ss => by
    simp only [List.map_cons, cavGrown, cavGrown_later h1 h2 h3 Ts ms ps es vs Ss]
    congr 1
    simp only [grownOne, cavOne, h1, emitFactors_later h2 h3]
    have : (later δ p).phis - (later δ ref).phis = p.phis - ref.phis := by simp only [later]; ring
    rw [this]
    rfl
  | [], _, _, _, _, _ => by cases ‹List (Particle × Particle)› <;> rfl
  | _ :: _, [], _, _, _, _ => rfl
  | _ :: _, _ :: _, [], _, _, _ => rfl
  | _ :: _, _ :: _, _ :: _, [], _, _ => rfl
  | _ :: _, _ :: _, _ :: _, _ :: _, [], _ => rfl
  | _ :: _, _ :: _, _ :: _, _ :: _, _ :: _, [] => rfl

theorem ends_later {env : Env} {d d' : MDat} {δ : ℝ} (h1 : d'.realIn = d.realIn.map (later δ))
    (h2 : d'.realOut = d.realOut.map (later δ)) (hl : d.realOut.length = d.realIn.length) :
    ends env d' = (ends env d).map (fun e => (later δ e.1, later δ e.2)) := by
  unfold ends
  rw [h1, h2, List.length_map, List.length_map, hl, Nat.sub_self, List.replicate_zero, List.append_nil, List.append_nil,
    List.zip_map]
  rfl

theorem cavForward_delay {env : Env} {cav cav' : Cav} {d d' : MDat} {S S' : MSt} {δ y : ℝ} (hS : S' = delay δ y S)
    (h1 : cav'.emitGrowth = cav.emitGrowth) (h2 : cav'.fRF = cav.fRF) (h3 : cav'.ionFys = cav.ionFys)
    (h4 : cav'.misalign = cav.misalign) (h5 : d'.transfer = d.transfer) (h6 : d'.length = d.length)
    (h7 : d'.realIn = d.realIn.map (later δ)) (h8 : d'.realOut = d.realOut.map (later δ))
    (hl : d.realOut.length = d.realIn.length) :
    (cavForward env cav' d' S').2 = delay δ (caviphi env cav') (cavForward env cav d S).2 ∧
      cavFault env cav' d' S' = cavFault env cav d S := by
  subst hS
  refine ⟨?_, ?_⟩
  rotate_left
  · have e := cavGrown_later (δ := δ) (ref := S.ref) h1 h2 h3 d.transfer cav.misalign S.real (ends env d) S.moment0 S.moment1
    unfold cavFault
    rw [h4, h5, ends_later h7 h8 hl]
    by_cases hc : cavGrown cav S.ref d.transfer cav.misalign S.real (ends env d) S.moment0 S.moment1
    · rw [if_pos hc]
      exact if_pos (e ▸ hc)
    · rw [if_neg hc]
      exact if_neg (e ▸ hc)
  have e := cavLoop_later (δ := δ) (ref := S.ref) h1 h2 h3 d.transfer cav.misalign S.real (ends env d) S.moment0 S.moment1
  unfold cavForward
  dsimp only
  rw [h4, h5, h6, ends_later h7 h8 hl]
  have e' : cavLoop cav' (delay δ y S).ref d.transfer cav.misalign (delay δ y S).real
      ((ends env d).map (fun e => (later δ e.1, later δ e.2))) (delay δ y S).moment0 (delay δ y S).moment1 = _ := e
  rw [e', ← delay_calcRms]
  rfl

theorem advanceCavity_delay {env : Env} {files : Files} {d : MDat} {cav : Cav} {δ y : ℝ} {s s' : St MSt} (hc : d.cav = some cav)
    (h0 : d.refIn = none) (hf : d.conf "f" = some (.num cav.fRF)) (ht : getStr d.conf "cavtype" = .ok cav.cavType)
    (hg : cav.cavType = "Generic" → ∃ f, getStr d.conf "datafile" = .ok f ∧
      cav.dataFile = getStrD d.conf "Eng_Data_Dir" "." ++ "/" ++ f)
    (hb : Spec.Blind δ s.payload.ref.SampleFreq d.conf) (hu : ∀ p ∈ s.payload.real, p.SampleFreq = s.payload.ref.SampleFreq)
    (hr : s.retreat = false) (hr' : s'.retreat = false) (hs : s'.payload = delay δ y s.payload) :
    (advanceCavity env files d s').2.2 = (advanceCavity env files d s).2.2 ∧
      ∃ y', (advanceCavity env files d s').2.1.payload = delay δ y' (advanceCavity env files d s).2.1.payload := by
  unfold advanceCavity
  simp only [hc, hs, delay_recalc, hr, hr', Bool.false_eq_true, if_false, if_neg (miss _ h0)]
  have hu' : ∀ p ∈ s.payload.recalc.real, p.SampleFreq = s.payload.recalc.ref.SampleFreq := by
    intro p hp
    obtain ⟨q, hq, rfl⟩ := List.mem_map.1 hp
    exact hu q hq
  have hb' : Spec.Blind δ s.payload.recalc.ref.SampleFreq d.conf := hb
  generalize s.payload.recalc = S at hu' hb'
  rw [reload_same ht hg, reload_same ht hg]
  dsimp only
  rw [show (delay δ y S).ref = later δ S.ref from rfl, show (delay δ y S).real = S.real.map (later δ) from rfl, List.length_map]
  obtain ⟨ψ, k, hF⟩ := follows hf hb'
  rw [recomputeCav_later (cav := { cav with misalign := resizeMis S.real.length cav.misalign }) (ψ := ψ) (k := k) hF hu']
  cases hR : recomputeCav d.conf { cav with misalign := resizeMis S.real.length cav.misalign } S.ref S.real with
  | error e => exact ⟨rfl, y, rfl⟩
  | ok x =>
    obtain ⟨ref, phi, l⟩ := x
    have hll := recomputeCav_length hR
    simp only [Except.map, List.map_map]
    have hm : ∀ (d1 : MDat), (∀ r p, getMisalign d1 r p = getMisalign d r p) →
        forEach (fun p => getMisalign d1 (later δ ref) p) (List.map ((fun q => q.1) ∘ fun q : Particle × Mat => (later δ q.1, q.2)) l) =
        forEach (fun p => getMisalign d ref p) (List.map (fun q => q.1) l) := by
      intro d1 h1
      rw [← List.map_map, forEach_map, forEach_map, forEach_map]
      simp only [h1]
      rfl
    have hm2 : ∀ (d1 : MDat), (∀ r p, getMisalign d1 r p = getMisalign d r p) →
        forEach (fun p => getMisalign d1 ref p) (List.map (fun q => q.1) l) =
        forEach (fun p => getMisalign d ref p) (List.map (fun q => q.1) l) := by
      intro d1 h1
      simp only [h1]
    rw [hm { d with refIn := some (later δ S.ref), realIn := S.real.map (later δ), transfer := resize S.real.length d.transfer, cav := some { cav with misalign := resizeMis S.real.length cav.misalign } } (fun _ _ => rfl)]
    rw [hm2 { d with refIn := some S.ref, realIn := S.real, transfer := resize S.real.length d.transfer, cav := some { cav with misalign := resizeMis S.real.length cav.misalign } } (fun _ _ => rfl)]
    generalize forEach (fun p => getMisalign d ref p) (List.map (fun q : Particle × Mat => q.1) l) = mis
    cases mis with
    | error e => exact ⟨rfl, y, rfl⟩
    | ok mis =>
      suffices hh : _ ∧ _ from ⟨hh.2, caviphi env { cav with phiRef := some (phi + ψ), misalign := mis }, hh.1⟩
      dsimp only
      refine cavForward_delay (y := y) ?_ rfl rfl rfl rfl ?_ rfl rfl ?_ ?_
      · simp only [delay, MSt.recalc, List.map_map]
        rfl
      · dsimp only
        apply List.map_congr_left
        intro q _
        rfl
      · simp only [MSt.recalc, List.map_map]
        rfl
      · simp only [MSt.recalc, List.length_map]
        exact hll

/-! ## a delayed beam in a stripper -/

theorem recombined_same (δ : ℝ) (l : List Particle) (q : Particle → ℝ) (h : ∀ p, q (later δ p) = q p) :
    recombined (l.map (later δ)) q = recombined l q := by
  unfold recombined
  rw [totQ_later, List.map_map]
  congr 3
  funext p
  simp only [Function.comp_apply, h]
  rfl

theorem recombined_later (δ : ℝ) (l : List Particle) (hQ : totQ l ≠ 0) :
    recombined (l.map (later δ)) (·.phis) = recombined l (·.phis) + δ := by
  unfold recombined
  rw [totQ_later, List.map_map, div_add' _ _ _ hQ]
  congr 1
  clear hQ
  induction l with
  | nil => simp [totQ]
  | cons p l ih =>
    simp only [List.map_cons, List.sum_cons, ih, totQ, Function.comp_apply, later]
    ring

theorem stripped_delay (f : Foil) (chg w : List ℝ) (δ y : ℝ) (S : MSt) (hQ : totQ S.real ≠ 0) :
    stripped f chg w (delay δ y S) = delay δ y (stripped f chg w S) := by
  have hcov : recombinedCov (delay δ y S) = recombinedCov S := by
    funext i j
    simp only [recombinedCov, delay, totQ_later, List.zipWith_map_left]
    rfl
  have h1 : recombined (delay δ y S).real (·.phis) = recombined S.real (·.phis) + δ := recombined_later δ S.real hQ
  have h2 : recombined (delay δ y S).real (·.IonEk) = recombined S.real (·.IonEk) := recombined_same δ S.real _ (fun _ => rfl)
  unfold stripped
  dsimp only
  rw [← delay_calcRms, hcov, h1, h2]
  congr 1
  simp only [delay, List.map_zipWith]
  rfl

theorem stripperGetMat_delay (c : LCfg) (δ y : ℝ) (S : MSt) (hQ : totQ S.real ≠ 0) :
    stripperGetMat c (delay δ y S) = (stripperGetMat c S).map (delay δ y) := by
  unfold stripperGetMat
  cases getVec c "IonChargeStates" with
  | error e => rfl
  | ok chg =>
    cases getVec c "NCharge" with
    | error e => rfl
    | ok n =>
      dsimp only
      rw [show (delay δ y S).real = S.real.map (later δ) from rfl]
      cases hreal : S.real with
      | nil => rw [hreal] at hQ; simp [totQ] at hQ
      | cons p l =>
        simp only [List.map_cons, show (later δ p).beta = p.beta from rfl]
        repeat' split
        all_goals first | rfl | skip
        · simp only [Except.map, stripped_delay _ _ _ _ _ _ hQ]
        · simp only [Except.map, stripped_delay _ _ _ _ _ _ hQ]

theorem advanceStripper_delay {δ y : ℝ} {d : MDat} {s s' : St MSt} (hQ : totQ s.payload.real ≠ 0)
    (hr : s.retreat = false) (hr' : s'.retreat = false) (hs : s'.payload = delay δ y s.payload) :
    (advanceStripper d s').2.2 = (advanceStripper d s).2.2 ∧
      (advanceStripper d s').2.1.payload = delay δ y (advanceStripper d s).2.1.payload := by
  have hQ' : totQ s.payload.recalc.calcRms.real ≠ 0 := by
    have : totQ s.payload.recalc.calcRms.real = totQ s.payload.real := by
      simp only [MSt.calcRms, MSt.recalc, totQ, List.map_map]
      rfl
    rwa [this]
  unfold advanceStripper
  simp only [hs, delay_recalc, delay_calcRms, hr, hr', Bool.false_eq_true, if_false, stripperGetMat_delay _ _ _ _ hQ']
  cases stripperGetMat d.conf s.payload.recalc.calcRms with
  | error e => exact ⟨rfl, rfl⟩
  | ok S => exact ⟨rfl, rfl⟩

/-! ## charges and frequencies -/

/-- What no element but the stripper changes. -/
def tags (S : MSt) : ℝ × List (ℝ × ℝ) := (S.ref.SampleFreq, S.real.map (fun p => (p.IonQ, p.SampleFreq)))

theorem tags_recalc (S : MSt) : tags S.recalc = tags S := by
  simp only [tags, MSt.recalc, List.map_map]
  rfl

theorem tags_calcRms (S : MSt) : tags S.calcRms = tags S := rfl

theorem particles_tags {rec : MDat → Particle → List Particle → Except Err (List Mat)} {mv : Particle → Particle} {d : MDat}
    {S : MSt} {r : Particle} {l : List Particle} (hmv : ∀ p, (mv p).IonQ = p.IonQ ∧ (mv p).SampleFreq = p.SampleFreq)
    (h : (particles rec mv d S false).2 = .ok (r, l)) :
    (r.SampleFreq, l.map (fun p => (p.IonQ, p.SampleFreq))) = tags S := by
  unfold particles at h
  simp only [Bool.false_eq_true, if_false] at h
  split at h
  · cases h
  · dsimp only at h
    cases h
    simp only [tags, (hmv _).2, List.map_map]
    congr 1
    apply List.map_congr_left
    intro p _
    simp only [Function.comp_apply, hmv]
    rfl

theorem advanceBase_tags {rec : MDat → Particle → List Particle → Except Err (List Mat)} {d : MDat} {s : St MSt}
    (h0 : d.refIn = none) (hr : s.retreat = false) : tags (advanceBase rec d s).2.1.payload = tags s.payload := by
  unfold advanceBase
  simp only [miss_decide _ h0, hr, Bool.false_eq_true, if_false]
  cases hp : particles rec (fun x => x.drifted false d.length) d s.payload.recalc false with
  | mk d1 q =>
    cases q with
    | error e => exact tags_recalc _
    | ok q =>
      obtain ⟨r, l⟩ := q
      have := particles_tags (mv := fun x => x.drifted false d.length) (fun p => ⟨rfl, rfl⟩) (congrArg Prod.snd hp)
      rw [tags_recalc] at this
      exact this

theorem bendPhis_tags (L : ℝ) : ∀ (l : List Particle) (v w : List Vec),
    (bendPhis false L l v w).map (fun p => (p.IonQ, p.SampleFreq)) = l.map (fun p => (p.IonQ, p.SampleFreq))
  | [], v, w => by cases v <;> rfl
  | p :: l, [], w => rfl
  | p :: l, _ :: _, [] => rfl
  | p :: l, a :: v, b :: w => by simp only [bendPhis, List.map_cons, bendPhis_tags L l v w]

theorem advanceBend_tags {rec : MDat → Particle → List Particle → Except Err (List Mat)} {d : MDat} {s : St MSt}
    (h0 : d.refIn = none) (hr : s.retreat = false) : tags (advanceBend rec d s).2.1.payload = tags s.payload := by
  unfold advanceBend
  simp only [miss_decide _ h0, hr, Bool.false_eq_true, if_false]
  cases hp : particles rec id d s.payload.recalc false with
  | mk d1 q =>
    cases q with
    | error e => exact tags_recalc _
    | ok q =>
      obtain ⟨r, l⟩ := q
      have := particles_tags (fun p => ⟨rfl, rfl⟩) (congrArg Prod.snd hp)
      rw [tags_recalc] at this
      rw [← this]
      simp only [tags, MSt.calcRms, forward, bendPhis_tags]
      rfl

theorem advanceSext_tags {d : MDat} {s : St MSt} (hr : s.retreat = false) : tags (advanceSext d s).2.1.payload = tags s.payload := by
  unfold advanceSext
  simp only [hr, Bool.false_eq_true, if_false]
  split
  · split
    · exact tags_recalc _
    · rw [← tags_recalc s.payload]
      simp only [tags, MSt.calcRms, List.map_map]
      rfl
  · rfl

theorem advance_tags {env : Env} {t : MType} {d : MDat} {s : St MSt} (ht : t ≠ .source) (h0 : d.refIn = none)
    (hr : s.retreat = false) : tags (advance env t d s).2.1.payload = tags s.payload := by
  cases t with
  | source => exact absurd rfl ht
  | sbend => exact advanceBend_tags h0 hr
  | sextupole => exact advanceSext_tags hr
  | _ => exact advanceBase_tags h0 hr

theorem recomputeCav_tags {c : LCfg} {cav : Cav} {ref ref' : Particle} {real : List Particle} {phi : ℝ}
    {l : List (Particle × Mat)} (h : recomputeCav c cav ref real = .ok (ref', phi, l)) :
    ref'.SampleFreq = ref.SampleFreq ∧ l.map (fun q => (q.1.IonQ, q.1.SampleFreq)) = real.map (fun p => (p.IonQ, p.SampleFreq)) := by
  unfold recomputeCav at h
  split at h
  · cases h
  rename_i r phi' hl
  split at h
  · cases h
  rename_i l' hf
  cases h
  constructor
  · unfold propagateLong at hl
    dsimp only at hl
    split at hl
    · cases hl
    split at hl
    · cases hl
    split at hl
    · cases hl
    cases hl
    rfl
  · have h2 := forEach_ok.1 hf
    clear hf hl
    induction h2 with
    | nil => rfl
    | @cons a b l m hd _ ih =>
      rw [List.map_cons, List.map_cons, ih]
      congr 1
      split at hd
      · cases hd
      rename_i p' M hi
      cases hd
      unfold initRFCav at hi
      dsimp only at hi
      repeat' split at hi
      all_goals first | (cases hi; rfl) | cases hi

theorem advanceCavity_tags {env : Env} {files : Files} {d : MDat} {s : St MSt} (h0 : d.refIn = none) (hr : s.retreat = false) :
    tags (advanceCavity env files d s).2.1.payload = tags s.payload := by
  unfold advanceCavity
  cases d.cav with
  | none => rfl
  | some cav =>
    simp only [hr, Bool.false_eq_true, if_false, if_neg (miss _ h0)]
    split
    · exact tags_recalc _
    · rename_i cav1 _
      cases hR : recomputeCav d.conf cav1 s.payload.recalc.ref s.payload.recalc.real with
      | error e => exact tags_recalc _
      | ok x =>
        obtain ⟨ref, phi, l⟩ := x
        obtain ⟨h1, h2⟩ := recomputeCav_tags hR
        dsimp only
        split
        · exact tags_recalc _
        · rw [← tags_recalc s.payload]
          simp only [cavForward]
          rw [tags_calcRms]
          simp only [tags]
          rw [← h1, ← h2]
          simp only [MSt.recalc, List.map_map]
          rfl

/-- A stripper keeps the sampling frequency, and with given charges gives the beam their sum. -/
theorem advanceStripper_tags {d : MDat} {s : St MSt} (hu : ∀ p ∈ s.payload.real, p.SampleFreq = s.payload.ref.SampleFreq) :
    ((advanceStripper d s).2.1.payload.ref.SampleFreq = s.payload.ref.SampleFreq ∧
      ∀ p ∈ (advanceStripper d s).2.1.payload.real, p.SampleFreq = s.payload.ref.SampleFreq) ∧
    (Spec.Charges d.conf → totQ s.payload.real ≠ 0 → totQ (advanceStripper d s).2.1.payload.real ≠ 0) := by
  have hu' : ∀ p ∈ s.payload.recalc.calcRms.real, p.SampleFreq = s.payload.ref.SampleFreq := by
    intro p hp
    obtain ⟨q, hq, rfl⟩ := List.mem_map.1 (show p ∈ s.payload.real.map Particle.recalc from hp)
    exact hu q hq
  have hQ : totQ s.payload.recalc.calcRms.real = totQ s.payload.real := by
    simp only [MSt.calcRms, MSt.recalc, totQ, List.map_map]
    rfl
  unfold advanceStripper
  dsimp only
  split
  · exact ⟨⟨rfl, hu'⟩, fun _ h => by rw [hQ]; exact h⟩
  · split
    · exact ⟨⟨rfl, hu'⟩, fun _ h => by rw [hQ]; exact h⟩
    · rename_i S hS
      obtain ⟨chg, n, w, h1, h2, rfl, hw, hmodel⟩ := stripperGetMat_ok hS
      refine ⟨⟨rfl, ?_⟩, ?_⟩
      · intro p hp
        obtain ⟨z, q, -, -, rfl⟩ := mem_zipWith (show p ∈ List.zipWith _ chg w from hp)
        rfl
      · rintro ⟨c1, v, c2, c3⟩ _
        dsimp only
        rw [totQ_stripped _ _ hw]
        rcases hmodel with ⟨-, rfl⟩ | ⟨hb, -⟩
        · rw [h2] at c2
          cases c2
          exact c3
        · simp [textOr, c1] at hb

/-! ## two runs -/

section general
variable {C X S : Type}

/-- Two forward runs over the same elements, which meet every element for the first time, stay related. -/
theorem run_rel {E : Nat → Elem C X S → Prop} {R : Nat → S → S → Prop}
    (hk : ∀ j e, E j e → Keeps e.cls)
    (hstep : ∀ j e (s s' : St S), E j e → s.retreat = false → s'.retreat = false → R j s.payload s'.payload →
      (e.cls.advance e.dat s').2.2 = (e.cls.advance e.dat s).2.2 ∧
        R (j + 1) (e.cls.advance e.dat s).2.1.payload (e.cls.advance e.dat s').2.1.payload)
    (n : Nat) : ∀ (els els' : List (Elem C X S)) (s s' : St S), els.length < sizeMod → els'.length = els.length →
      (∀ j, s.nextElem ≤ j → els'[j]? = els[j]?) → (∀ j e, s.nextElem ≤ j → els[j]? = some e → E j e) →
      s'.nextElem = s.nextElem → s.retreat = false → s'.retreat = false → R s.nextElem s.payload s'.payload →
      (run n els' s').err = (run n els s).err ∧ (∃ j, R j (run n els s).st.payload (run n els' s').st.payload) ∧
        List.Forall₂ (Spec.Seen (fun a b => ∃ j, R j a b)) (run n els s).trace (run n els' s').trace := by
  induction n with
  | zero => intro els els' s s' _ _ _ _ hn _ _ hR; exact ⟨rfl, ⟨_, hR⟩, .nil⟩
  | succ n ih =>
    intro els els' s s' hl hl' he hE hn hr hr' hR
    have hpay : ∀ s : St S, (stepNext s).payload = s.payload := by intro s; unfold stepNext; split <;> rfl
    have hret : ∀ s : St S, (stepNext s).retreat = s.retreat := by intro s; unfold stepNext; split <;> rfl
    cases h : els[s.nextElem]? with
    | none =>
      rw [run_succ_none h, run_succ_none (by rw [hn, he _ (le_refl _)]; exact h)]
      exact ⟨rfl, ⟨_, hR⟩, .nil⟩
    | some e =>
      have h' : els'[s'.nextElem]? = some e := by rw [hn, he _ (le_refl _)]; exact h
      have hEe := hE _ e (le_refl _) h
      have hlt : s.nextElem < els.length := by
        by_contra hc
        rw [List.getElem?_eq_none (by omega)] at h
        cases h
      obtain ⟨g1, g2⟩ := hstep _ e (stepNext s) (stepNext s') hEe (by rw [hret]; exact hr) (by rw [hret]; exact hr')
        (by rw [hpay, hpay]; exact hR)
      obtain ⟨k1, k2⟩ := hk _ e hEe e.dat (stepNext s)
      obtain ⟨k1', k2'⟩ := hk _ e hEe e.dat (stepNext s')
      have hup : ∀ s : St S, s.retreat = false → s.nextElem < els.length → (stepNext s).nextElem = s.nextElem + 1 := by
        intro s hs hlt
        unfold stepNext
        rw [if_neg (by rw [hs]; simp)]
        exact Nat.mod_eq_of_lt (by omega)
      rw [hup s hr hlt] at k1
      rw [hup s' hr' (by omega), hn] at k1'
      rw [hret, hr] at k2
      rw [hret, hr'] at k2'
      cases h3 : (e.cls.advance e.dat (stepNext s)).2.2 with
      | some x =>
        rw [run_succ_err h h3, run_succ_err h' (by rw [g1]; exact h3), hn]
        exact ⟨rfl, ⟨_, g2⟩, .cons (.visit _) .nil⟩
      | none =>
        rw [run_succ_ok h h3, run_succ_ok h' (by rw [g1]; exact h3)]
        dsimp only
        obtain ⟨i1, i2, i3⟩ := ih (els.set s.nextElem { e with dat := (e.cls.advance e.dat (stepNext s)).1 })
          (els'.set s'.nextElem { e with dat := (e.cls.advance e.dat (stepNext s')).1 })
          (e.cls.advance e.dat (stepNext s)).2.1 (e.cls.advance e.dat (stepNext s')).2.1 (by rwa [List.length_set])
          (by rw [List.length_set, List.length_set]; exact hl')
          (by
            intro j hj
            rw [k1] at hj
            rw [List.getElem?_set_ne (by omega), List.getElem?_set_ne (by omega)]
            exact he j (by omega))
          (by
            intro j e' hj hj'
            rw [k1] at hj
            rw [List.getElem?_set_ne (by omega)] at hj'
            exact hE j e' (by omega) hj')
          (by rw [k1, k1']) k2 k2' (by rw [k1]; exact g2)
        refine ⟨i1, i2, ?_⟩
        rw [List.cons_append, List.cons_append]
        refine .cons (by rw [hn]; exact .visit _) ?_
        refine List.rel_append ?_ i3
        unfold viewEvents
        cases e.obs with
        | none => exact .nil
        | some o => exact .cons (.view _ _ ⟨_, g2⟩ (by rw [k1, k1']) (by rw [k2, k2'])) .nil

end general

theorem Seen.mono {S : Type} {P Q : S → S → Prop} (h : ∀ a b, P a b → Q a b) {x y : Event S} (hs : Spec.Seen P x y) :
    Spec.Seen Q x y := by
  cases hs with
  | visit n => exact .visit n
  | view o i h1 h2 h3 => exact .view o i (h _ _ h1) h2 h3

theorem forall₂_get {α β : Type} {P : α → β → Prop} {l : List α} {k : List β} (h : List.Forall₂ P l k) {j : Nat} {b : β}
    (hj : k[j]? = some b) : ∃ a, l[j]? = some a ∧ P a b := by
  have hlen := h.length_eq
  have hlt : j < k.length := by
    by_contra hc
    rw [List.getElem?_eq_none (by omega)] at hj
    cases hj
  have := (List.forall₂_iff_get.1 h).2 j (by omega) hlt
  rw [List.getElem?_eq_getElem hlt] at hj
  cases hj
  exact ⟨l[j], List.getElem?_eq_getElem _, this⟩

/-- C67: the time at which a beam arrives does not matter.  A machine is built from a lattice and a beam is sent forward from
element `start` on, and the same beam `δ` later (a phase at the sampling frequency `f0`).  In the range there is no source, the
cavities follow the beam or `δ` is a whole number of their periods, the beam is charged if there is a stripper, and all strippers
but the last have given charge states.  Then both propagations end with the same exception, or none, and everywhere observers see
the same beam, `δ` later: the same energies, moments, matrices and differences of phases. -/
theorem C67_time_origin {env : Env} {files : Files} {junk : Mat} {base : Nat} (cv : CView LCfg) (c : LCfg)
    (m : Machine LCfg MDat MSt)
    (h : Machine.new cv (registry env junk base (cavityCls env files junk base) (stripperCls env junk base)) c = .ok m)
    (es : List LCfg) (hes : cv.elems c = .ok es) (hl : es.length < sizeMod) (start : Nat) (max : Int) (hm : 0 ≤ max)
    (δ f0 : ℝ) (s s' : St MSt) (hd : Spec.Later δ s.payload s'.payload)
    (hf : s.payload.ref.SampleFreq = f0 ∧ ∀ p ∈ s.payload.real, p.SampleFreq = f0)
    (hns : ∀ j ec, start ≤ j → es[j]? = some ec → cv.str ec "type" ≠ .ok "source")
    (hcav : ∀ j ec, start ≤ j → es[j]? = some ec → cv.str ec "type" = .ok "rfcavity" → Spec.Blind δ f0 ec)
    (hstr : ∀ j ec, start ≤ j → es[j]? = some ec → cv.str ec "type" = .ok "stripper" → (s.payload.real.map (·.IonQ)).sum ≠ 0 ∧
      ∀ i ec', start ≤ i → i < j → es[i]? = some ec' → cv.str ec' "type" = .ok "stripper" → Spec.Charges ec') :
    ∃ r r', propagate m.elems s start max = some r ∧ propagate m.elems s' start max = some r' ∧ r'.err = r.err ∧
      Spec.Later δ r.st.payload r'.st.payload ∧ List.Forall₂ (Spec.Seen (Spec.Later δ)) r.trace r'.trace := by
  have hF := machine_moment h hes
  have hlen := hF.length_eq
  have hall := fun j e (hj : m.elems[j]? = some e) => forall₂_get hF hj
  let R : Nat → MSt → MSt → Prop := fun j S S' => (∃ y, S' = delay δ y S) ∧
    (S.ref.SampleFreq = f0 ∧ ∀ p ∈ S.real, p.SampleFreq = f0) ∧
    ((∃ i ec, j ≤ i ∧ es[i]? = some ec ∧ cv.str ec "type" = .ok "stripper") → totQ S.real ≠ 0)
  let E : Nat → Elem LCfg MDat MSt → Prop := fun j e => start ≤ j ∧ m.elems[j]? = some e
  have htag : ∀ {S S' : MSt}, tags S' = tags S → (S.ref.SampleFreq = f0 ∧ ∀ p ∈ S.real, p.SampleFreq = f0) →
      (S'.ref.SampleFreq = f0 ∧ ∀ p ∈ S'.real, p.SampleFreq = f0) ∧ totQ S'.real = totQ S.real := by
    intro S S' ht hS
    have t1 : S'.ref.SampleFreq = S.ref.SampleFreq := congrArg Prod.fst ht
    have t2 : S'.real.map (fun p => (p.IonQ, p.SampleFreq)) = S.real.map (fun p => (p.IonQ, p.SampleFreq)) := congrArg Prod.snd ht
    refine ⟨⟨t1.trans hS.1, fun p hp => ?_⟩, ?_⟩
    · have : (p.IonQ, p.SampleFreq) ∈ S.real.map (fun p => (p.IonQ, p.SampleFreq)) := by
        rw [← t2]
        exact List.mem_map_of_mem hp
      obtain ⟨q, hq, e⟩ := List.mem_map.1 this
      exact (congrArg Prod.snd e).symm.trans (hS.2 q hq)
    · have := congrArg (List.map Prod.fst) t2
      simp only [List.map_map] at this
      exact congrArg List.sum this
  have hk : ∀ j e, E j e → Keeps e.cls := by
    rintro j e ⟨h1, h2⟩
    obtain ⟨ec, hec, ty, hty, ⟨t, ht, htn, hb⟩ | ⟨ht, -, hb⟩ | ⟨ht, -, hb⟩⟩ := hall j e h2
    · rw [ht]
      refine (measured_cls env junk base t ?_).1
      rintro rfl
      exact hns j ec h1 hec (by rw [hty, ← htn]; rfl)
    · rw [ht]
      exact (measured_cavity env files junk base _ _ hb).2.1
    · rw [ht]
      exact (measured_stripper env junk base _ _ hb).2.1
  have hstep : ∀ j e (s s' : St MSt), E j e → s.retreat = false → s'.retreat = false → R j s.payload s'.payload →
      (e.cls.advance e.dat s').2.2 = (e.cls.advance e.dat s).2.2 ∧
        R (j + 1) (e.cls.advance e.dat s).2.1.payload (e.cls.advance e.dat s').2.1.payload := by
    rintro j e s s' ⟨h1, h2⟩ hr hr' ⟨⟨y, hy⟩, hu, hQ⟩
    obtain ⟨ec, hec, ty, hty, ⟨t, ht, htn, hb⟩ | ⟨ht, rfl, hb⟩ | ⟨ht, rfl, hb⟩⟩ := hall j e h2
    · have hts : t ≠ .source := by
        rintro rfl
        exact hns j ec h1 hec (by rw [hty, ← htn]; rfl)
      rw [ht]
      obtain ⟨a1, a2⟩ := advance_delay (env := env) (t := t) (δ := δ) hts (build_length hb).2.2.1 hr hr' hy
      obtain ⟨b1, b2⟩ := htag (advance_tags (env := env) (t := t) hts (build_length hb).2.2.1 hr) hu
      refine ⟨a1, ⟨y, a2⟩, b1, ?_⟩
      rintro ⟨i, ec', hi, h3⟩
      exact b2 ▸ hQ ⟨i, ec', by omega, h3⟩
    · rw [ht]
      obtain ⟨d0, cav, hd0, hload, hdat⟩ := loadCavity_ok (show buildCavity env files junk ec = .ok e.dat from hb)
      obtain ⟨l1, -, l3, l4⟩ := loadCavity_map hload
      have hconf : e.dat.conf = ec := by rw [hdat]; exact (build_length hd0).2.1
      have hnone : e.dat.refIn = none := by rw [hdat]; exact (build_length hd0).2.2.1
      have hcv : e.dat.cav = some cav := by rw [hdat]
      obtain ⟨a1, a2⟩ := advanceCavity_delay (env := env) (files := files) (δ := δ) hcv hnone (by rw [hconf]; exact l1)
        (by rw [hconf]; exact l3) (by rw [hconf]; exact l4) (by rw [hconf, hu.1]; exact hcav j ec h1 hec hty)
        (fun p hp => by rw [hu.1]; exact hu.2 p hp) hr hr' hy
      obtain ⟨b1, b2⟩ := htag (advanceCavity_tags (env := env) (files := files) hnone hr) hu
      refine ⟨a1, a2, b1, ?_⟩
      rintro ⟨i, ec', hi, h3⟩
      exact b2 ▸ hQ ⟨i, ec', by omega, h3⟩
    · rw [ht]
      have hconf : e.dat.conf = ec := (build_length (junk := junk) (t := .marker) hb).2.1
      have hq := hQ ⟨j, ec, le_refl _, hec, hty⟩
      obtain ⟨a1, a2⟩ := advanceStripper_delay (d := e.dat) (δ := δ) hq hr hr' hy
      obtain ⟨b1, b2⟩ := advanceStripper_tags (d := e.dat) (s := s) (fun p hp => by rw [hu.1]; exact hu.2 p hp)
      rw [hu.1] at b1
      refine ⟨a1, ⟨y, a2⟩, b1, ?_⟩
      rintro ⟨i, ec', hi, h3, h4⟩
      exact b2 (by rw [hconf]; exact (hstr i ec' (by omega) h3 h4).2 j ec h1 (by omega) hec hty) hq
  have hm' : max ≠ -2 ^ 31 := by omega
  refine ⟨_, _, propagate_eq m.elems s start max hm', propagate_eq m.elems s' start max hm', ?_⟩
  have hret : decide (max < 0) = false := by simp; omega
  have hR0 : R start s.payload s'.payload := by
    refine ⟨⟨_, delay_iff.1 hd⟩, hf, ?_⟩
    rintro ⟨i, ec, h1, h2, h3⟩
    exact (hstr i ec h1 h2 h3).1
  have hfin : ∀ a b, (∃ j, R j a b) → Spec.Later δ a b := by
    rintro a b ⟨j, ⟨y, rfl⟩, -⟩
    exact delay_iff.2 rfl
  obtain ⟨r1, r2, r3⟩ := run_rel (E := E) (R := R) hk hstep max.natAbs m.elems m.elems
    { s with nextElem := start, retreat := decide (max < 0) } { s' with nextElem := start, retreat := decide (max < 0) }
    (by rw [← hlen]; exact hl) rfl (fun _ _ => rfl) (fun j e h1 h2 => ⟨h1, h2⟩) rfl hret hret hR0
  exact ⟨r1, hfin _ _ r2, r3.imp (fun _ _ h => Seen.mono hfin h)⟩

/-- A beam `3` rad later, sent through a machine of a drift and a cavity, meets the hypotheses. -/
example (env : Env) (junk : Mat) : ∃ m es, Machine.new exCavView
      (registry env junk 0 (cavityCls env exFiles junk 0) (stripperCls env junk 0))
      (fun k => if k = "sim_type" then some (.str "MomentMatrix") else none) = .ok m ∧
    exCavView.elems (fun k => if k = "sim_type" then some (.str "MomentMatrix") else none) = .ok es ∧ es.length = 2 ∧
    Spec.Later 3 (exState false).payload (delay 3 0 (exState false).payload) ∧
    ((exState false).payload.ref.SampleFreq = 1 ∧ ∀ p ∈ (exState false).payload.real, p.SampleFreq = 1) ∧
    (∀ (j : Nat) ec, 0 ≤ j → es[j]? = some ec → exCavView.str ec "type" ≠ .ok "source") ∧
    (∀ (j : Nat) ec, 0 ≤ j → es[j]? = some ec → exCavView.str ec "type" = .ok "rfcavity" → Spec.Blind 3 1 ec) ∧
    (∀ (j : Nat) ec, 0 ≤ j → es[j]? = some ec → exCavView.str ec "type" ≠ .ok "stripper") := by
  obtain ⟨hk, hreg⟩ := registered_shipped env junk 0 (cavityCls env exFiles junk 0) (stripperCls env junk 0)
  have hb : ∃ d, buildCavity env exFiles junk exFull = .ok d := by
    unfold buildCavity
    rw [exFull_loads]
    exact ⟨_, rfl⟩
  obtain ⟨d, hd⟩ := hb
  obtain ⟨m, hm⟩ := (Flame.Mach.C18_success_iff exCavView
    (registry env junk 0 (cavityCls env exFiles junk 0) (stripperCls env junk 0))
    (fun k => if k = "sim_type" then some (.str "MomentMatrix") else none)).2 ⟨"MomentMatrix", _, rfl, hk, rfl, by
      simp only [List.mem_cons, List.not_mem_nil, or_false, forall_eq_or_imp, forall_eq]
      exact ⟨⟨"drift", _, "d", _, rfl, hreg _ _ rfl, rfl, rfl, rfl⟩, ⟨"rfcavity", _, "c", d, rfl, hreg _ _ rfl, rfl, rfl, hd⟩⟩⟩
  refine ⟨m, _, hm, rfl, rfl, delay_iff.2 rfl, ⟨rfl, ?_⟩, ?_, ?_, ?_⟩
  · intro p hp
    rw [List.mem_singleton.1 (show p ∈ [exParticle] from hp)]
    rfl
  · intro j ec _ hj
    match j, hj with
    | 0, hj => cases hj; simp [exCavView]
    | 1, hj => cases hj; simp [exCavView, exFull]
  · intro j ec _ hj _
    match j, hj with
    | 0, hj => cases hj; exact .inl (fun x hx => by simp at hx)
    | 1, hj => cases hj; exact .inl (fun x hx => by simp [exFull, exSet] at hx)
  · intro j ec _ hj
    match j, hj with
    | 0, hj => cases hj; simp [exCavView]
    | 1, hj => cases hj; simp [exCavView, exFull]

/-- A cavity of which the phase does not follow the beam does see a delay: half a period later the particle that would gain
0.1 eV loses as much.  So the condition on the cavities cannot be dropped from `C67_time_origin`. -/
theorem C67_fixed_phase_false : ∃ (c : LCfg) (cav : Cav) (ref r r' : Particle) (δ φ φ' : ℝ),
    propagateLong c cav ref = .ok (r, φ) ∧ propagateLong c cav (later δ ref) = .ok (r', φ') ∧
    r.IonEk = ref.IonEk + 1 / 10 ∧ r'.IonEk = ref.IonEk - 1 / 10 := by
  set k : ℝ := 2 * Real.pi * 2 / (exParticle.recalc.beta * C0 * MtoMM) with hk
  have hb : exParticle.recalc.beta ≠ 0 := exParticle_moving.beta_pos.ne'
  let cav : Cav := { noCav with cavData := ⟨2, [[0, 100], [1, 100]]⟩, fRF := 2 }
  let c : LCfg := fun s => if s = "scl_fac" then some (.num 1) else if s = "syncflag" then some (.num 0)
    else if s = "phi" then some (.num (-(k / 2) * 180 / Real.pi)) else none
  have hphi : -(k / 2) * 180 / Real.pi * Real.pi / 180 = -(k / 2) := by
    field_simp
  have hdr : ∀ ref m, drivenPhase c cav ref m 1 = .ok (-(k / 2)) := by
    intro ref m
    unfold drivenPhase
    rw [if_neg (by simp [getNumD, c])]
    have : getNum c "phi" = .ok (-(k / 2) * 180 / Real.pi) := by simp [getNum, c]
    rw [this]
    exact congrArg _ hphi
  have hscl : getNum c "scl_fac" = .ok 1 := by simp [getNum, c]
  have hboost : ∀ (p : Particle) (fy x : ℝ), p.beta = exParticle.recalc.beta → p.IonZ = 1 → p.IonEs = 1 → p.IonW = 2 →
      Real.cos (fy + k / 2) = x → |x| ≤ 1 → getCavBoost cav.cavData cav.fRF p fy 1 = .ok (2 + x / 10, fy + k) := by
    intro p fy x h1 h2 h3 h4 hx hle
    have hx2 := abs_le.1 hle
    unfold getCavBoost
    have hn : ¬ cav.cavData.rows.length ≤ 1 := by simp [cav]
    have hext : extent cav.cavData / ((cav.cavData.rows.length : ℝ) - 1) = 1 := by
      norm_num [cav, extent, positions]
    have hfl : fields cav.cavData = [100, 100] := by simp [cav, fields]
    have hc : (fy + (fy + k * 1)) / 2 = fy + k / 2 := by ring
    simp only [if_neg hn, hext, hfl, h1, h2, h3, h4, if_neg hb, boostLoop, boostStep]
    rw [show (2 : ℝ) * Real.pi * cav.fRF / (exParticle.recalc.beta * C0 * MtoMM) = k from rfl, hc, hx,
      show (2 : ℝ) + 1 * 1 * (100 + 100) / 2 * x * 1 / MtoMM = 2 + x / 10 by norm_num [MtoMM]; ring,
      if_neg (by linarith [hx2.1]), if_neg (by
        rintro ⟨-, h⟩
        nlinarith [hx2.1])]
    simp
  have hpass : ∀ (p : Particle) (x : ℝ), p.beta = exParticle.recalc.beta → p.IonZ = 1 → p.IonEs = 1 → p.IonW = 2 →
      p.SampleFreq = 1 → Real.cos (2 * p.phis) = x → |x| ≤ 1 → ∃ r, propagateLong c cav p = .ok (r, -(k / 2)) ∧
        r.IonEk = 1 + x / 10 := by
    intro p x h1 h2 h3 h4 h5 hx hle
    unfold propagateLong
    simp only [hscl, hdr]
    rw [hboost p _ x h1 h2 h3 h4 (by rw [h5, ← hx]; congr 1; simp only [cav]; ring) hle]
    refine ⟨_, rfl, ?_⟩
    simp only [boosted, Particle.recalc, h3]
    ring
  have hW2 : exParticle.recalc.IonW = 2 := by norm_num [exParticle, Particle.recalc]
  obtain ⟨r, h, hr⟩ := hpass exParticle.recalc 1 rfl rfl rfl hW2 rfl (by simp [Particle.recalc, exParticle]) (by simp)
  obtain ⟨r', h', hr'⟩ := hpass (later (Real.pi / 2) exParticle.recalc) (-1) rfl rfl rfl hW2 rfl (by
    have : (2 : ℝ) * (later (Real.pi / 2) exParticle.recalc).phis = Real.pi := by
      simp [later, Particle.recalc, exParticle]
      ring
    rw [this, Real.cos_pi]) (by simp)
  refine ⟨c, cav, exParticle.recalc, r, r', Real.pi / 2, _, _, h, h', ?_, ?_⟩
  · rw [hr]; rfl
  · rw [hr', show exParticle.recalc.IonEk = 1 from rfl]; ring

end Flame.Cavity
