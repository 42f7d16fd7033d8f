import Verif.Scale.Props

/-! # Fields and charges in proportion: cavities -/

namespace Flame.Scale

open Flame.Mach (Elem Cls St Err Run)
open Flame.Linear (LVal LCfg getNum getNumD getVec)
open Flame.Moment
open Flame.Cavity
open Flame.Scale.Spec

variable {q : ℝ} {c' : LCfg} {r' : Particle}

theorem cancel (hq : q ≠ 0) (Z x : ℝ) : q * Z * (q⁻¹ * x) = Z * x := by
  rw [mul_mul_mul_comm, mul_inv_cancel₀ hq, one_mul]

theorem boostStep_up (hq : q ≠ 0) (Z Es scl lam dz E0 E1 : ℝ) (b : Boost) :
    boostStep (q * Z) Es (q⁻¹ * scl) lam dz E0 E1 b = boostStep Z Es scl lam dz E0 E1 b := by
  unfold boostStep
  simp only [cancel hq]

theorem boostLoop_up (hq : q ≠ 0) (Z Es scl lam dz : ℝ) : ∀ (l : List ℝ) (b : Boost),
    boostLoop (q * Z) Es (q⁻¹ * scl) lam dz l b = boostLoop Z Es scl lam dz l b
  | [], _ => by simp only [boostLoop]
  | [_], _ => by simp only [boostLoop]
  | E0 :: E1 :: l, b => by
    simp only [boostLoop, boostStep_up hq]
    cases boostStep Z Es scl lam dz E0 E1 b with
    | none => rfl
    | some b' => exact boostLoop_up hq Z Es scl lam dz (E1 :: l) b'

theorem getCavBoost_up (hq : q ≠ 0) (t : Table) (f : ℝ) (p : Particle) (fy scl : ℝ) :
    getCavBoost t f (up q p) fy (q⁻¹ * scl) = getCavBoost t f p fy scl := by
  unfold getCavBoost
  simp only [up, boostLoop_up hq]
  rfl

theorem drivenPhase_up (hq : q ≠ 0) {c : LCfg} (h : Rescaled q c c') (cav : Cav) (ref : Particle) (multip scl : ℝ) :
    drivenPhase c' cav (up q ref) multip (q⁻¹ * scl) = drivenPhase c cav ref multip scl := by
  unfold drivenPhase
  simp only [numD_same h "syncflag" 1 (by decide), num_same h "phi" (by decide)]
  have e : q⁻¹ * scl * (up q ref).IonZ = scl * ref.IonZ := by
    rw [mul_comm]
    show q * ref.IonZ * (q⁻¹ * scl) = _
    rw [cancel hq, mul_comm]
  simp only [e]
  rfl

theorem boosted_up (p : Particle) (W fy0 fy m : ℝ) : boosted (up q p) W fy0 fy m = up q (boosted p W fy0 fy m) := rfl

theorem propagateLong_up (hq : q ≠ 0) {c : LCfg} (h : Rescaled q c c') (cav : Cav) (ref : Particle) :
    propagateLong c' cav (up q ref) = (propagateLong c cav ref).map (fun x => (up q x.1, x.2)) := by
  unfold propagateLong
  rw [num_field h "scl_fac" (.inl (by simp))]
  cases getNum c "scl_fac" with
  | error e => rfl
  | ok scl =>
    simp only [Except.map, drivenPhase_up hq h, getCavBoost_up hq]
    rw [show (up q ref).SampleFreq = ref.SampleFreq from rfl, show (up q ref).phis = ref.phis from rfl]
    cases drivenPhase c cav ref (cav.fRF / ref.SampleFreq) scl with
    | error e => rfl
    | ok phi =>
      dsimp only
      cases getCavBoost cav.cavData cav.fRF ref (cav.fRF / ref.SampleFreq * ref.phis + phi) scl with
      | error e => rfl
      | ok x => rfl

theorem gapFit_up (beta scl : ℝ) (l g : Nat) :
    gapFit beta (q⁻¹ * scl) l g = (gapFit beta scl l g).map (fun x => { x with V0 := q⁻¹ * x.V0 }) := by
  unfold gapFit
  split <;> simp only [Except.map, mul_left_comm]

theorem transFacts_up (f : Bool) (t : Table) (l : Nat) (beta k : ℝ) (g : Nat) (scl : ℝ) :
    transFacts f t l beta k g (q⁻¹ * scl) = (transFacts f t l beta k g scl).map (fun x => { x with V0 := q⁻¹ * x.V0 }) := by
  have hb : (match tableFactors t 2 g k true with
      | .error e => (.error e : Except Err Gap)
      | .ok x => .ok { x with V0 := x.V0 * (q⁻¹ * scl) }) =
      (match tableFactors t 2 g k true with
      | .error e => (.error e : Except Err Gap)
      | .ok x => .ok { x with V0 := x.V0 * scl }).map (fun x : Gap => { x with V0 := q⁻¹ * x.V0 }) := by
    cases tableFactors t 2 g k true with
    | error e => rfl
    | ok x => simp only [Except.map, mul_left_comm]
  unfold transFacts
  dsimp only
  split
  · exact hb
  · split
    · rfl
    · split
      · exact hb
      · exact gapFit_up _ _ _ _

theorem evalGap_up (hq : q ≠ 0) (dis W0 Z Es fy0 k lam : ℝ) (g : Gap) :
    evalGapModel dis W0 (q * Z) Es fy0 k lam { g with V0 := q⁻¹ * g.V0 } = evalGapModel dis W0 Z Es fy0 k lam g := by
  unfold evalGapModel
  simp only [cancel hq]

theorem eKick_up (hq : q ≠ 0) (Z E scl b g T S fy : ℝ) : eKick (q * Z) (E * (q⁻¹ * scl)) b g T S fy = eKick Z (E * scl) b g T S fy := by
  unfold eKick
  rw [mul_left_comm E, cancel hq]

theorem hKick_up (hq : q ≠ 0) (Z E scl b g T S fy : ℝ) : hKick (q * Z) (E * (q⁻¹ * scl)) b g T S fy = hKick Z (E * scl) b g T S fy := by
  unfold hKick
  rw [mul_assoc (-MU0 * C0), mul_left_comm E, cancel hq, ← mul_assoc (-MU0 * C0)]

theorem transStep_up (hq : q ≠ 0) (mpole : Nat) (Z scl Rm lam : ℝ) (a b c : Kin) :
    transStep mpole (q * Z) (q⁻¹ * scl) Rm lam a b c = transStep mpole Z scl Rm lam a b c := by
  funext x t
  unfold transStep
  simp only [eKick_up hq, hKick_up hq]

theorem lonM_up (hq : q ≠ 0) (Z Es dis lam : ℝ) (a b c : Kin) (g1 g2 : Gap) (fy1 fy2 x y : ℝ) :
    lonM (q * Z) Es dis lam a b c { g1 with V0 := q⁻¹ * g1.V0, Ecen := x } { g2 with V0 := q⁻¹ * g2.V0, Ecen := y } fy1 fy2 =
      lonM Z Es dis lam a b c { g1 with Ecen := x } { g2 with Ecen := y } fy1 fy2 := by
  unfold lonM
  simp only [neg_mul, cancel hq]

theorem getCavMat_up (hq : q ≠ 0) (cav : Cav) (label : Nat) (Rm Z Es scl fy0 Ek : ℝ) :
    getCavMat cav label Rm (q * Z) Es (q⁻¹ * scl) fy0 Ek = getCavMat cav label Rm Z Es scl fy0 Ek := by
  unfold getCavMat
  dsimp only
  cases kin Es (Ek + Es) (C0 / cav.fRF * MtoMM) with
  | error e => rfl
  | ok a =>
    dsimp only
    rw [transFacts_up]
    cases transFacts cav.forcettfcalc cav.cavData label a.beta a.k 1 scl with
    | error e => rfl
    | ok g1 =>
      simp only [Except.map]
      rw [evalGap_up hq]
      cases evalGapModel (extent cav.cavData / 2) (Ek + Es) Z Es fy0 a.k (C0 / cav.fRF * MtoMM) g1 with
      | error e => rfl
      | ok w =>
        obtain ⟨W1, b, fy1⟩ := w
        dsimp only
        rw [transFacts_up]
        cases transFacts cav.forcettfcalc cav.cavData label b.beta b.k 2 scl with
        | error e => rfl
        | ok g2 =>
          simp only [Except.map]
          rw [evalGap_up hq]
          cases evalGapModel (extent cav.cavData / 2) W1 Z Es fy1 b.k (C0 / cav.fRF * MtoMM) g2 with
          | error e => rfl
          | ok w =>
            obtain ⟨W2, c, fy2⟩ := w
            dsimp only
            rw [transStep_up hq, lonM_up hq]

theorem genStep_up (hq : q ≠ 0) (mpole : Nat) (Z Es scl Rm lam : ℝ) :
    genStep mpole (q * Z) Es (q⁻¹ * scl) Rm lam = genStep mpole Z Es scl Rm lam := by
  have h2 : ∀ E, q * Z * (E * (q⁻¹ * scl)) = Z * (E * scl) := fun E => by rw [mul_left_comm E, cancel hq]
  funext P t
  unfold genStep
  simp only [eKick_up hq, hKick_up hq, neg_mul, h2]

theorem getCavMatGeneric_up (hq : q ≠ 0) (cav : Cav) (Z Es scl fy0 Ek : ℝ) :
    getCavMatGeneric cav (q * Z) Es (q⁻¹ * scl) fy0 Ek = getCavMatGeneric cav Z Es scl fy0 Ek := by
  unfold getCavMatGeneric
  simp only [genStep_up hq]

theorem initRFCav_up (hq : q ≠ 0) {c : LCfg} (h : Rescaled q c c') (cav : Cav) (phi : ℝ) (p : Particle) :
    initRFCav c' cav phi (up q p) = (initRFCav c cav phi p).map (fun x => (up q x.1, x.2)) := by
  unfold initRFCav
  cases labelOf cav.cavi with
  | error e => rfl
  | ok x =>
    obtain ⟨label, Rm⟩ := x
    dsimp only
    rw [num_field h "scl_fac" (.inl (by simp))]
    cases getNum c "scl_fac" with
    | error e => rfl
    | ok scl =>
      simp only [Except.map]
      rw [show ({ up q p with IonW := (up q p).IonEk + (up q p).IonEs } : Particle) = up q { p with IonW := p.IonEk + p.IonEs } from rfl,
        getCavBoost_up hq]
      simp only [up, getCavMat_up hq, getCavMatGeneric_up hq]
      cases getCavBoost cav.cavData cav.fRF { p with IonW := p.IonEk + p.IonEs } (cav.fRF / p.SampleFreq * p.phis + phi) scl with
      | error e => rfl
      | ok x =>
        dsimp only
        generalize (if 0 < cav.cavi then getCavMat cav label Rm p.IonZ p.IonEs scl (cav.fRF / p.SampleFreq * p.phis + phi) p.IonEk
          else getCavMatGeneric cav p.IonZ p.IonEs scl (cav.fRF / p.SampleFreq * p.phis + phi) p.IonEk) = y
        cases y with
        | error e => rfl
        | ok M => rfl

theorem forEach_post {α β γ : Type} {f : α → Except Err β} {g : α → Except Err γ} {k : β → γ} (h : ∀ a, g a = (f a).map k)
    (l : List α) : forEach g l = (forEach f l).map (List.map k) := by
  induction l with
  | nil => rfl
  | cons a l ih =>
    simp only [forEach, h a, ih]
    cases f a with
    | error e => rfl
    | ok b =>
      cases forEach f l with
      | error e => rfl
      | ok m => rfl

theorem recomputeCav_up (hq : q ≠ 0) {c : LCfg} (h : Rescaled q c c') (cav : Cav) (ref : Particle) (real : List Particle) :
    recomputeCav c' cav (up q ref) (real.map (up q)) =
      (recomputeCav c cav ref real).map (fun x => (up q x.1, x.2.1, x.2.2.map (fun y => (up q y.1, y.2)))) := by
  unfold recomputeCav
  rw [propagateLong_up hq h]
  cases propagateLong c cav ref with
  | error e => rfl
  | ok x =>
    obtain ⟨ref1, phi⟩ := x
    simp only [Except.map]
    rw [forEach_map, forEach_post (k := fun y : Particle × Mat => (up q y.1, y.2)) (f := fun p =>
        match initRFCav c cav phi p with
        | .error e => .error e
        | .ok (p', M) => .ok ({ p' with SampleIonK := p.SampleIonK }, M))]
    · cases forEach (fun p =>
        match initRFCav c cav phi p with
        | .error e => (.error e : Except Err (Particle × Mat))
        | .ok (p', M) => .ok ({ p' with SampleIonK := p.SampleIonK }, M)) real with
      | error e => rfl
      | ok l => rfl
    · intro p
      rw [initRFCav_up hq h]
      cases initRFCav c cav phi p with
      | error e => rfl
      | ok x => rfl

/-! ## files -/

theorem optNum_same {c : LCfg} (h : Rescaled q c c') (k : String) (hk : plain k = true) : optNum c' k = optNum c k := by
  simp only [optNum, num_same h k hk]

theorem loadCavity_up (env : Env) (files : Files) {c : LCfg} (h : Rescaled q c c') (cav : Cav) :
    loadCavity env files c' cav = loadCavity env files c cav := by
  have hd : @decide (getNumD c' "forcettfcalc" 0 ≠ 0) (Classical.propDecidable _) =
      @decide (getNumD c "forcettfcalc" 0 ≠ 0) (Classical.propDecidable _) := by
    rw [numD_same h "forcettfcalc" 0 (by decide)]
  unfold loadCavity
  simp only [hd, num_same h "f" (by decide), num_same h "phi" (by decide), numD_same h "Rm" 0 (by decide),
    flag_same h env "MpoleLevel" 2 (by decide), flag_same h env "EmitGrowth" 0 (by decide),
    str_all h, strD_all h]

theorem reload_up (env : Env) (files : Files) {c : LCfg} (h : Rescaled q c c') (cav : Cav) :
    reload env files c' cav = reload env files c cav := by
  unfold reload
  simp only [str_all h, strD_all h, loadCavity_up env files h]

/-! ## the growth of the emittance -/

theorem emitFactors_up (hq : q ≠ 0) (cav : Cav) (ref pin pout pin' pout' : Particle)
    (h1 : pin'.beta = pin.beta ∧ pin'.gamma = pin.gamma ∧ pin'.IonW = pin.IonW)
    (h2 : pout'.beta = pout.beta ∧ pout'.gamma = pout.gamma ∧ pout'.IonW = pout.IonW) (b g x2 cx y2 cy : ℝ) (M : Mat) :
    emitFactors cav (up q ref) pin' pout' b g x2 cx y2 cy M = emitFactors cav ref pin pout b g x2 cx y2 cy M := by
  obtain ⟨i1, i2, i3⟩ := h1
  obtain ⟨o1, o2, o3⟩ := h2
  have hk : ∃ s : ℝ, s * s = 1 ∧ kickPer cav (up q ref) pin' pout' b g = s * kickPer cav ref pin pout b g := by
    refine ⟨|q| / q, ?_, ?_⟩
    · rw [div_mul_div_comm, abs_mul_abs_self, div_self (mul_ne_zero hq hq)]
    · unfold kickPer
      simp only [i1, i2, i3, o1, o2, o3]
      split
      · simp
      · simp only [up, abs_mul]
        rw [div_mul_eq_div_div (_ / _) q, div_right_comm _ q]
        ring
  obtain ⟨s, hs, hk⟩ := hk
  have ha : ∀ kp v x2 cx, angleGrowth cav (s * kp) v x2 cx = angleGrowth cav kp v x2 cx := by
    intro kp v x2 cx
    unfold angleGrowth
    simp only [mul_mul_mul_comm s kp, hs, one_mul]
  have he : ∀ kp ab ag v, energyGrowth cav (s * kp) ab ag v = energyGrowth cav kp ab ag v := by
    intro kp ab ag v
    unfold energyGrowth
    have : ∀ D : ℝ, -2 * (s * kp) * (ag * ag) * D * (-2 * (s * kp) * (ag * ag) * D) = -2 * kp * (ag * ag) * D * (-2 * kp * (ag * ag) * D) := by
      intro D
      calc _ = (s * s) * (-2 * kp * (ag * ag) * D * (-2 * kp * (ag * ag) * D)) := by ring
        _ = _ := by rw [hs, one_mul]
    simp only [this]
  unfold emitFactors
  simp only [hk, ha, he, i1, i2, o1, o2]
  have hz : (up q ref).IonZ = 0 ↔ ref.IonZ = 0 := by
    show q * ref.IonZ = 0 ↔ _
    simp [hq]
  simp only [hz]
  rfl

theorem emitGrowth_up (hq : q ≠ 0) (cav : Cav) (ref pin pout pin' pout' : Particle)
    (h1 : pin'.beta = pin.beta ∧ pin'.gamma = pin.gamma ∧ pin'.IonW = pin.IonW)
    (h2 : pout'.beta = pout.beta ∧ pout'.gamma = pout.gamma ∧ pout'.IonW = pout.IonW) (b g x2 cx y2 cy : ℝ) (M : Mat) :
    emitGrowth cav (up q ref) pin' pout' b g x2 cx y2 cy M = emitGrowth cav ref pin pout b g x2 cx y2 cy M := by
  unfold emitGrowth
  rw [emitFactors_up hq cav ref pin pout pin' pout' h1 h2]

/-- What the growth needs to know of a particle in front of and behind the cavity. -/
def SameEnd (a b : Particle × Particle) : Prop :=
  (b.1.beta = a.1.beta ∧ b.1.gamma = a.1.gamma ∧ b.1.IonW = a.1.IonW) ∧
    (b.2.beta = a.2.beta ∧ b.2.gamma = a.2.gamma ∧ b.2.IonW = a.2.IonW)

theorem cavOne_up (hq : q ≠ 0) (cav : Cav) (ref : Particle) (T : Mat) (mis : Mat × Mat) (p : Particle) {e e' : Particle × Particle}
    (he : SameEnd e e') (v : Vec) (S : Mat) :
    cavOne cav (up q ref) T mis (up q p) e'.1 e'.2 v S = cavOne cav ref T mis p e.1 e.2 v S := by
  unfold cavOne
  simp only [emitGrowth_up hq cav ref e.1 e.2 e'.1 e'.2 he.1 he.2]
  rfl

theorem grownOne_up (hq : q ≠ 0) (cav : Cav) (ref : Particle) (T : Mat) (mis : Mat × Mat) (p : Particle) {e e' : Particle × Particle}
    (he : SameEnd e e') (v : Vec) (S : Mat) :
    grownOne cav (up q ref) T mis (up q p) e'.1 e'.2 v S ↔ grownOne cav ref T mis p e.1 e.2 v S := by
  unfold grownOne
  simp only [emitFactors_up hq cav ref e.1 e.2 e'.1 e'.2 he.1 he.2, cavOne_up hq cav ref T mis p he]
  rfl

theorem cavLoop_up (hq : q ≠ 0) (cav : Cav) (ref : Particle) : ∀ (Ts : List Mat) (ms : List (Mat × Mat)) (ps : List Particle)
    (es es' : List (Particle × Particle)) (vs : List Vec) (Ss : List Mat), List.Forall₂ SameEnd es es' →
    cavLoop cav (up q ref) Ts ms (ps.map (up q)) es' vs Ss = cavLoop cav ref Ts ms ps es vs Ss
  | T :: Ts, m :: ms, p :: ps, e :: es, e' :: es', v :: vs, S :: Ss, .cons h hs => by
    simp only [List.map_cons, cavLoop, cavOne_up hq cav ref T m p h, cavLoop_up hq cav ref Ts ms ps es es' vs Ss hs]
  | [], _, _, _, _, _, _, _ => by simp only [cavLoop]
  | _ :: _, [], _, _, _, _, _, _ => by simp only [cavLoop]
  | _ :: _, _ :: _, [], _, _, _, _, _ => by simp only [List.map_nil, cavLoop]
  | _ :: _, _ :: _, _ :: _, [], _, _, _, .nil => by simp only [cavLoop, List.map_cons]
  | _ :: _, _ :: _, _ :: _, _ :: _, _ :: _, [], _, _ => by simp only [cavLoop, List.map_cons]
  | _ :: _, _ :: _, _ :: _, _ :: _, _ :: _, _ :: _, [], _ => by simp only [cavLoop, List.map_cons]

theorem cavGrown_up (hq : q ≠ 0) (cav : Cav) (ref : Particle) : ∀ (Ts : List Mat) (ms : List (Mat × Mat)) (ps : List Particle)
    (es es' : List (Particle × Particle)) (vs : List Vec) (Ss : List Mat), List.Forall₂ SameEnd es es' →
    (cavGrown cav (up q ref) Ts ms (ps.map (up q)) es' vs Ss ↔ cavGrown cav ref Ts ms ps es vs Ss)
  | T :: Ts, m :: ms, p :: ps, e :: es, e' :: es', v :: vs, S :: Ss, .cons h hs => by
    simp only [List.map_cons, cavGrown, grownOne_up hq cav ref T m p h, cavGrown_up hq cav ref Ts ms ps es es' vs Ss hs]
  | [], _, _, _, _, _, _, _ => by simp only [cavGrown]
  | _ :: _, [], _, _, _, _, _, _ => by simp only [cavGrown]
  | _ :: _, _ :: _, [], _, _, _, _, _ => by simp only [List.map_nil, cavGrown]
  | _ :: _, _ :: _, _ :: _, [], _, _, _, .nil => by simp only [cavGrown, List.map_cons]
  | _ :: _, _ :: _, _ :: _, _ :: _, _ :: _, [], _, _ => by simp only [cavGrown, List.map_cons]
  | _ :: _, _ :: _, _ :: _, _ :: _, _ :: _, _ :: _, [], _ => by simp only [cavGrown, List.map_cons]

theorem ends_up (env : Env) (d : MDat) : List.Forall₂ SameEnd (ends env d) (ends env (upD q c' r' d)) := by
  unfold ends
  simp only [upD, List.length_map]
  generalize d.realIn.length - d.realOut.length = n
  generalize d.realIn = l
  have : ∀ (l k k' : List Particle), List.Forall₂ (fun a b : Particle => b.beta = a.beta ∧ b.gamma = a.gamma ∧ b.IonW = a.IonW) k k' →
      List.Forall₂ SameEnd (l.zip k) ((l.map (up q)).zip k') := by
    intro l
    induction l with
    | nil => intro k k' _; exact .nil
    | cons a l ih =>
      intro k k' hk
      cases hk with
      | nil => exact .nil
      | cons h hs => exact .cons ⟨⟨rfl, rfl, rfl⟩, h⟩ (ih _ _ hs)
  apply this
  refine List.rel_append ?_ ?_
  · rw [List.forall₂_map_right_iff]
    exact List.forall₂_same.2 (fun a _ => ⟨rfl, rfl, rfl⟩)
  · exact List.forall₂_same.2 (fun a _ => ⟨rfl, rfl, rfl⟩)

theorem cavForward_up (hq : q ≠ 0) (env : Env) (cav : Cav) (d : MDat) (S : MSt) :
    cavForward env cav (upD q c' r' d) (upS q S) = (upD q c' r' (cavForward env cav d S).1, upS q (cavForward env cav d S).2) := by
  unfold cavForward
  rw [show (upS q S).ref = up q S.ref from rfl, show (upS q S).real = S.real.map (up q) from rfl,
    show (upD q c' r' d).transfer = d.transfer from rfl, show (upS q S).moment0 = S.moment0 from rfl, show (upS q S).moment1 = S.moment1 from rfl]
  rw [cavLoop_up hq cav S.ref _ _ _ _ _ _ _ (ends_up env d), ← calcRms_up]
  rfl

open Classical in
theorem cavFault_up (hq : q ≠ 0) (env : Env) (cav : Cav) (d : MDat) (S : MSt) :
    cavFault env cav (upD q c' r' d) (upS q S) = cavFault env cav d S := by
  unfold cavFault
  have := cavGrown_up hq cav S.ref d.transfer cav.misalign S.real (ends env d) (ends env (upD q c' r' d)) S.moment0 S.moment1 (ends_up env d)
  change (if cavGrown cav (up q S.ref) d.transfer cav.misalign (S.real.map (up q)) (ends env (upD q c' r' d)) S.moment0 S.moment1 then none else some Err.logic) = _
  by_cases h : cavGrown cav S.ref d.transfer cav.misalign S.real (ends env d) S.moment0 S.moment1
  · rw [if_pos h, if_pos (this.2 h)]
  · rw [if_neg h, if_neg (fun e => h (this.1 e))]

theorem alike_up (hq : q ≠ 0) (a b : Particle) : alike (up q a) (up q b) ↔ alike a b := by
  simp only [alike, up, mul_right_inj' hq]

theorem checkBackward_up (hq : q ≠ 0) (d : MDat) (hr : d.refIn ≠ none → r' = up q d.refOut) (S : MSt) :
    checkBackward (upD q c' r' d) (upS q S) ↔ checkBackward d S := by
  unfold checkBackward
  by_cases h : d.refIn = none
  · simp [upD, h]
  · have e := hr h
    subst e
    refine and_congr ?_ (and_congr (alike_up hq _ _) (forall₂_up (alike_up hq) _ _))
    simp [upD]

theorem takenBack_up (a b p : Particle) : takenBack (up q a) (up q b) (up q p) = up q (takenBack a b p) := rfl

theorem zip_taken (l k m : List Particle) :
    List.zipWith (fun (x : Particle × Particle) p => takenBack x.1 x.2 p) ((l.map (up q)).zip (k.map (up q))) (m.map (up q)) =
      (List.zipWith (fun (x : Particle × Particle) p => takenBack x.1 x.2 p) (l.zip k) m).map (up q) := by
  rw [List.zip_map, List.zipWith_map, List.map_zipWith]
  rfl

/-- What `advanceCavity` does after a change of the beam: the fourth branch of that definition, under a name. -/
noncomputable def missed (env : Env) (files : Files) (D : MDat) (cav : Cav) (S : MSt) (s : St MSt) : MDat × St MSt × Option Err :=
  match reload env files D.conf cav with
  | (cav, some e) => ({ D with cav := some cav }, { s with payload := S }, some e)
  | (cav, none) =>
    match recomputeCav D.conf cav S.ref S.real with
    | .error e => ({ D with cav := some cav }, { s with payload := S }, some e)
    | .ok (ref, phiRef, l) =>
      match forEach (fun p => getMisalign D ref p) (l.map (fun q => q.1)) with
      | .error e => ({ D with cav := some cav }, { s with payload := S }, some e)
      | .ok mis =>
        let cav := { cav with phiRef := some phiRef, misalign := mis }
        let S := MSt.recalc { S with ref := ref, real := l.map (fun q => q.1) }
        let D := { D with transfer := l.map (fun q => q.2), refOut := S.ref, realOut := S.real, cav := some cav }
        let r := cavForward env cav D S
        (r.1, { s with payload := r.2 }, cavFault env cav D S)

theorem misalign_up (D : MDat) (r1 : Particle) (ref : Particle) (l : List Particle) :
    forEach (fun p => getMisalign (upD q c' r1 D) (up q ref) p) (l.map (up q)) = forEach (fun p => getMisalign D ref p) l := by
  rw [forEach_map]; rfl

/-- The common end of both forward branches of `advanceCavity`, under a name. -/
noncomputable def finish (env : Env) (cav : Cav) (D : MDat) (S : MSt) (s : St MSt) : MDat × St MSt × Option Err :=
  ((cavForward env cav D S).1, { s with payload := (cavForward env cav D S).2 }, cavFault env cav D S)

theorem finish_up (hq : q ≠ 0) (env : Env) (cav : Cav) {d : MDat} (h : Rescaled q d.conf c') (S : MSt) (s : St MSt)
    (hr : d.refIn ≠ none → r' = up q d.refOut) :
    Alike q (finish env cav d S s) (finish env cav (upD q c' r' d) (upS q S) (upT q s)) := by
  unfold finish
  rw [cavForward_up hq, cavFault_up hq]
  exact ⟨rfl, rfl, fun _ => ⟨c', r', h, hr, rfl⟩⟩

theorem missed_up (hq : q ≠ 0) (env : Env) (files : Files) {d : MDat} (h' : Rescaled q d.conf c') (cav : Cav) (S : MSt) (s : St MSt) :
    Alike q (missed env files d cav S s) (missed env files (upD q c' r' d) cav (upS q S) (upT q s)) := by
  generalize d = D at h' ⊢
  unfold missed
  rw [show (upD q c' r' D).conf = c' from rfl, reload_up env files h']
  generalize reload env files D.conf cav = z
  obtain ⟨cav1, o⟩ := z
  cases o with
  | some e => exact ⟨rfl, rfl, fun h => by cases h⟩
  | none =>
    dsimp only
    rw [show (upS q S).ref = up q S.ref from rfl, show (upS q S).real = S.real.map (up q) from rfl, recomputeCav_up hq h']
    cases recomputeCav D.conf cav1 S.ref S.real with
    | error e => exact ⟨rfl, rfl, fun h => by cases h⟩
    | ok x =>
      obtain ⟨ref, phi, l⟩ := x
      simp only [Except.map]
      rw [show (l.map (fun y : Particle × Mat => (up q y.1, y.2))).map (fun x => x.1) = (l.map (fun x => x.1)).map (up q) from by
          simp only [List.map_map]; rfl,
        show (l.map (fun y : Particle × Mat => (up q y.1, y.2))).map (fun x => x.2) = l.map (fun x => x.2) from by
          simp only [List.map_map]; rfl, misalign_up]
      cases forEach (fun p => getMisalign D ref p) (l.map (fun x => x.1)) with
      | error e => exact ⟨rfl, rfl, fun h => by cases h⟩
      | ok mis =>
        dsimp only
        rw [show ({ upS q S with ref := up q ref, real := (l.map (fun x => x.1)).map (up q) } : MSt).recalc
          = upS q ({ S with ref := ref, real := l.map (fun x => x.1) } : MSt).recalc from by rw [← recalc_upS]; rfl]
        generalize ({ S with ref := ref, real := l.map (fun x => x.1) } : MSt).recalc = S1
        change Alike q (finish env { cav1 with phiRef := some phi, misalign := mis } { D with transfer := l.map (fun x => x.2), refOut := S1.ref, realOut := S1.real, cav := some { cav1 with phiRef := some phi, misalign := mis } } S1 s)
          (finish env { cav1 with phiRef := some phi, misalign := mis } (upD q c' (up q S1.ref) { D with transfer := l.map (fun x => x.2), refOut := S1.ref, realOut := S1.real, cav := some { cav1 with phiRef := some phi, misalign := mis } }) (upS q S1) (upT q s))
        exact finish_up hq env _ (d := { D with transfer := l.map (fun x => x.2), refOut := S1.ref, realOut := S1.real, cav := some { cav1 with phiRef := some phi, misalign := mis } }) h' S1 s (fun _ => rfl)

theorem cavity_up (hq : q ≠ 0) (env : Env) (files : Files) {d d' : MDat} (h : DRel q d d') (s : St MSt) :
    Alike q (advanceCavity env files d s) (advanceCavity env files d' (upT q s)) := by
  obtain ⟨c', r', h, hr, rfl⟩ := h
  unfold advanceCavity
  rw [show (upD q c' r' d).cav = d.cav from rfl]
  cases d.cav with
  | none => exact ⟨rfl, rfl, fun h => by cases h⟩
  | some cav =>
    dsimp only
    rw [show (upT q s).payload.recalc = upS q s.payload.recalc from recalc_upS _, show (upT q s).retreat = s.retreat from rfl]
    generalize s.payload.recalc = S
    by_cases hret : s.retreat = true
    · rw [if_pos hret, if_pos hret]
      by_cases hcb : checkBackward d S
      swap
      · rw [if_pos hcb, if_pos (fun h => hcb ((checkBackward_up hq d hr S).1 h))]
        exact ⟨rfl, rfl, fun h => by cases h⟩
      rw [if_neg (not_not.2 hcb), if_neg (not_not.2 ((checkBackward_up hq d hr S).2 hcb))]
      have hne : d.refIn ≠ none := hcb.1
      have e := hr hne
      subst e
      have hlen : ((upD q c' (up q d.refOut) d).realIn.length ≠ (upD q c' (up q d.refOut) d).realOut.length) ↔ d.realIn.length ≠ d.realOut.length := by
        simp only [upD, List.length_map]
      by_cases hl : d.realIn.length ≠ d.realOut.length
      · rw [if_pos hl, if_pos (hlen.2 hl)]
        exact ⟨rfl, rfl, fun h => by cases h⟩
      rw [if_neg hl, if_neg (fun h => hl (hlen.1 h))]
      have hreal : List.zipWith (fun (x : Particle × Particle) p => takenBack x.1 x.2 p)
          ((upD q c' (up q d.refOut) d).realIn.zip (upD q c' (up q d.refOut) d).realOut) (upS q S).real =
          (List.zipWith (fun (x : Particle × Particle) p => takenBack x.1 x.2 p) (d.realIn.zip d.realOut) S.real).map (up q) :=
        zip_taken _ _ _
      have href : takenBack ((upD q c' (up q d.refOut) d).refIn.getD (upD q c' (up q d.refOut) d).refOut)
          (upD q c' (up q d.refOut) d).refOut (upS q S).ref = up q (takenBack (d.refIn.getD d.refOut) d.refOut S.ref) := by
        show takenBack ((d.refIn.map (up q)).getD (up q d.refOut)) (up q d.refOut) (up q S.ref) = _
        cases d.refIn <;> rfl
      rw [hreal, href, misalign_up]
      generalize takenBack (d.refIn.getD d.refOut) d.refOut S.ref = ref
      generalize List.zipWith (fun (x : Particle × Particle) p => takenBack x.1 x.2 p) (d.realIn.zip d.realOut) S.real = real
      cases forEach (fun p => getMisalign d ref p) real with
      | error e => exact ⟨rfl, rfl, fun h => by cases h⟩
      | ok mis =>
        dsimp only
        rw [show (upD q c' (up q d.refOut) d).transfer = d.transfer from rfl,
          show ({ upS q S with ref := up q ref, real := real.map (up q), pos := (upS q S).pos - (upD q c' (up q d.refOut) d).length } : MSt).recalc
            = upS q ({ S with ref := ref, real := real, pos := S.pos - d.length } : MSt).recalc from by rw [← recalc_upS]; rfl,
          backward_up]
        generalize backward _ _ = z
        obtain ⟨S1, o⟩ := z
        cases o with
        | some e => exact ⟨rfl, rfl, fun h => by cases h⟩
        | none =>
          refine ⟨rfl, ?_, fun _ => ⟨c', up q d.refOut, h, fun _ => rfl, rfl⟩⟩
          simp only [upT, ← calcRms_up]
          rfl
    · rw [if_neg hret, if_neg hret]
      by_cases hh : hit d S
      · rw [if_pos hh, if_pos ((hit_up hq d S).2 hh)]
        have hne : d.refIn ≠ none := by
          obtain ⟨-, ⟨r, h1, -⟩, -⟩ := hh
          rw [h1]
          simp
        have e := hr hne
        subst e
        rw [show ({ upS q S with ref := (upD q c' (up q d.refOut) d).refOut,
                                 real := (upD q c' (up q d.refOut) d).realOut ++ (upS q S).real.drop (upD q c' (up q d.refOut) d).realOut.length } : MSt)
            = upS q { S with ref := d.refOut, real := d.realOut ++ S.real.drop d.realOut.length } from by
              simp only [upD, upS, List.map_append, List.map_drop, List.length_map]]
        rw [cavForward_up hq, cavFault_up hq]
        exact ⟨rfl, rfl, fun _ => ⟨c', up q d.refOut, h, fun _ => rfl, rfl⟩⟩
      · rw [if_neg hh, if_neg (fun h => hh ((hit_up hq d S).1 h))]
        have e : ({ upD q c' r' d with refIn := some (upS q S).ref, realIn := (upS q S).real, transfer := resize (upS q S).real.length (upD q c' r' d).transfer,
                                       cav := some { cav with misalign := resizeMis (upS q S).real.length cav.misalign } } : MDat) =
            upD q c' r' { d with refIn := some S.ref, realIn := S.real, transfer := resize S.real.length d.transfer,
                                 cav := some { cav with misalign := resizeMis S.real.length cav.misalign } } := by
          simp only [upD, upS, List.length_map]
          rfl
        change Alike q (missed env files { d with refIn := some S.ref, realIn := S.real, transfer := resize S.real.length d.transfer, cav := some { cav with misalign := resizeMis S.real.length cav.misalign } }
            { cav with misalign := resizeMis S.real.length cav.misalign } S s)
          (missed env files ({ upD q c' r' d with refIn := some (upS q S).ref, realIn := (upS q S).real, transfer := resize (upS q S).real.length (upD q c' r' d).transfer, cav := some { cav with misalign := resizeMis (upS q S).real.length cav.misalign } } : MDat)
            { cav with misalign := resizeMis (upS q S).real.length cav.misalign } (upS q S) (upT q s))
        rw [e, show (upS q S).real.length = S.real.length from List.length_map ..]
        exact missed_up hq env files (d := { d with refIn := some S.ref, realIn := S.real, transfer := resize S.real.length d.transfer, cav := some { cav with misalign := resizeMis S.real.length cav.misalign } }) h _ S s

end Flame.Scale
