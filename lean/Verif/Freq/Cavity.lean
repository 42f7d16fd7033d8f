import Verif.Freq.Beam
import Verif.Cavity.Optics
import Verif.Cavity.Undo

/-! # Another frequency as the unit of phase: cavities -/

namespace Flame.Freq

open Flame.Mach (Elem Cls St Err Run)
open Flame.Linear (LVal LCfg getNum getNumD getVec)
open Flame.Moment
open Flame.Cavity
open Flame.Turn (withMis loadCavity_with reload_with recomputeCav_with)
open Flame.Scale (finish missed forEach_post)
open Flame.Flip.Spec (IsMoments Several text keys Read)
open Flame.Freq.Spec

variable {u : ℝ} {c c' : LCfg} {r' : Particle}

/-! ## settings -/

theorem noFlag (env : Env) (h : OtherElement u "rfcavity" c c') : getFlag env c "EmitGrowth" 0 = .ok 0 := by
  have h0 : asUnsigned 0 = .ok 0 := by norm_num [asUnsigned]
  rcases h.growth rfl with e | e
  · simp [getFlag, getStr, getNum, e, h0]
  · simp [getFlag, getStr, getNum, e, h0]

theorem loadCavity_f (h : OtherElement u "rfcavity" c c') (env : Env) (files : Files) (cav : Cav) :
    loadCavity env files c' cav = loadCavity env files c cav := by
  have hd : @decide (getNumD c' "forcettfcalc" 0 ≠ 0) (Classical.propDecidable _) =
      @decide (getNumD c "forcettfcalc" 0 ≠ 0) (Classical.propDecidable _) := by
    rw [numD_f h "forcettfcalc" 0 (by decide)]
  unfold loadCavity
  simp only [hd, num_f h "f" (by decide), num_f h "phi" (by decide), numD_f h "Rm" 0 (by decide), flag_f h env "MpoleLevel" 2 (by decide),
    flag_f h env "EmitGrowth" 0 (by decide), str_f h "cavtype" (by decide), str_f h "datafile" (by decide),
    strD_f h "Eng_Data_Dir" "." (by decide)]

theorem reload_f (h : OtherElement u "rfcavity" c c') (env : Env) (files : Files) (cav : Cav) : reload env files c' cav = reload env files c cav := by
  unfold reload
  simp only [str_f h "cavtype" (by decide), str_f h "datafile" (by decide), strD_f h "Eng_Data_Dir" "." (by decide), loadCavity_f h env files]

/-! ## phases and matrices -/

theorem multip_f (f F : ℝ) : f / (u * F) = f / F / u := by rw [div_div, mul_comm]

theorem phase_f (hu : 0 < u) (m phi : ℝ) : m / u * (u * phi) = m * phi := by
  rw [← mul_assoc, div_mul_cancel₀ _ hu.ne']

theorem getCavPhase_f (hu : 0 < u) (cavi : Nat) (ref : Particle) (fy m : ℝ) (P : List ℝ) :
    getCavPhase cavi (inUnitP u ref) fy (m / u) P = getCavPhase cavi ref fy m P := by
  have e : (inUnitP u ref).phis * (m / u) = ref.phis * m := by
    rw [mul_comm, show (inUnitP u ref).phis = u * ref.phis from rfl, phase_f hu, mul_comm]
  unfold getCavPhase
  simp only [e]
  rfl

theorem getCavPhaseComplex_f (hu : 0 < u) (ref : Particle) (fy s m : ℝ) (P : List ℝ) :
    getCavPhaseComplex (inUnitP u ref) fy s (m / u) P = getCavPhaseComplex ref fy s m P := by
  have e : (inUnitP u ref).phis * (m / u) = ref.phis * m := by
    rw [mul_comm, show (inUnitP u ref).phis = u * ref.phis from rfl, phase_f hu, mul_comm]
  unfold getCavPhaseComplex
  simp only [e]
  rfl

theorem drivenPhase_f (hu : 0 < u) (h : OtherElement u "rfcavity" c c') (cav : Cav) (ref : Particle) (m scl : ℝ) :
    drivenPhase c' cav (inUnitP u ref) (m / u) scl = drivenPhase c cav ref m scl := by
  unfold drivenPhase
  simp only [numD_f h "syncflag" 1 (by decide), num_f h "phi" (by decide), getCavPhase_f hu, getCavPhaseComplex_f hu]
  rfl

theorem boosted_f (p : Particle) (W fy0 fy m : ℝ) : boosted (inUnitP u p) W fy0 fy (m / u) = inUnitP u (boosted p W fy0 fy m) := by
  unfold boosted
  dsimp only
  rw [show ({ inUnitP u p with IonW := W, IonEk := W - (inUnitP u p).IonEs } : Particle) = inUnitP u { p with IonW := W, IonEk := W - p.IonEs } from rfl,
    recalc_p]
  generalize ({ p with IonW := W, IonEk := W - p.IonEs } : Particle).recalc = q
  simp only [inUnitP]
  congr 1
  rw [div_div_eq_mul_div, mul_add, ← mul_div_assoc, mul_comm u (fy - fy0)]

theorem getCavBoost_f (t : Table) (f : ℝ) (p : Particle) (fy scl : ℝ) : getCavBoost t f (inUnitP u p) fy scl = getCavBoost t f p fy scl := rfl

theorem propagateLong_f (hu : 0 < u) (h : OtherElement u "rfcavity" c c') (cav : Cav) (ref : Particle) :
    propagateLong c' cav (inUnitP u ref) = (propagateLong c cav ref).map (fun x => (inUnitP u x.1, x.2)) := by
  unfold propagateLong
  rw [num_f h "scl_fac" (by decide)]
  cases getNum c "scl_fac" with
  | error e => rfl
  | ok scl =>
    dsimp only
    rw [show (inUnitP u ref).SampleFreq = u * ref.SampleFreq from rfl, multip_f, show (inUnitP u ref).phis = u * ref.phis from rfl, phase_f hu,
      drivenPhase_f hu h]
    cases drivenPhase c cav ref (cav.fRF / ref.SampleFreq) scl with
    | error e => rfl
    | ok phi =>
      dsimp only
      rw [getCavBoost_f]
      cases getCavBoost cav.cavData cav.fRF ref (cav.fRF / ref.SampleFreq * ref.phis + phi) scl with
      | error e => rfl
      | ok x => simp only [Except.map, boosted_f]

theorem jump_one (M : Mat) : jump 1 M = M := by
  rw [jump_eq]
  funext i j
  simp

open Classical in
theorem jump_always (m : ℝ) (M : Mat) : (if m ≠ 1 then jump m M else M) = jump m M := by
  by_cases h : m = 1
  · rw [if_neg (not_not.2 h), h, jump_one]
  · rw [if_pos h]

theorem jump_f (hu : 0 < u) (m : ℝ) (M : Mat) : jump (m / u) M = inUnitT u (jump m M) := by
  have h4 : ∀ i : Fin 7, unit u i = if i = 4 then u else 1 := by
    intro i
    fin_cases i <;> simp [unit]
  rw [jump_eq, jump_eq]
  funext i j
  simp only [inUnitT, h4]
  by_cases hi : i = 4 <;> by_cases hj : j = 4 <;> simp only [hi, hj, if_true, if_false]
  · by_cases hm : m = 0
    · simp [hm]
    · have := hu.ne'
      field_simp
  · rw [div_div_eq_mul_div]
    ring
  · ring
  · ring

theorem initRFCav_f (hu : 0 < u) (h : OtherElement u "rfcavity" c c') (cav : Cav) (phi : ℝ) (p : Particle) :
    initRFCav c' cav phi (inUnitP u p) = (initRFCav c cav phi p).map (fun x => (inUnitP u x.1, inUnitT u x.2)) := by
  unfold initRFCav
  cases labelOf cav.cavi with
  | error e => rfl
  | ok x =>
    obtain ⟨label, Rm⟩ := x
    dsimp only
    rw [num_f h "scl_fac" (by decide)]
    cases getNum c "scl_fac" with
    | error e => rfl
    | ok scl =>
      have hb : ∀ x, getCavBoost cav.cavData cav.fRF { inUnitP u p with IonW := (inUnitP u p).IonEk + (inUnitP u p).IonEs, SampleFreq := u * p.SampleFreq, phis := u * p.phis } x scl =
          getCavBoost cav.cavData cav.fRF { p with IonW := p.IonEk + p.IonEs } x scl := fun _ => rfl
      dsimp only at hb
      simp only [jump_always]
      rw [show (inUnitP u p).SampleFreq = u * p.SampleFreq from rfl, multip_f, show (inUnitP u p).phis = u * p.phis from rfl, phase_f hu,
        hb]
      cases getCavBoost cav.cavData cav.fRF { p with IonW := p.IonEk + p.IonEs } (cav.fRF / p.SampleFreq * p.phis + phi) scl with
      | error e => rfl
      | ok x =>
        dsimp only
        rw [show (inUnitP u p).IonZ = p.IonZ from rfl, show (inUnitP u p).IonEs = p.IonEs from rfl, show (inUnitP u p).IonEk = p.IonEk from rfl]
        generalize (if 0 < cav.cavi then getCavMat cav label Rm p.IonZ p.IonEs scl (cav.fRF / p.SampleFreq * p.phis + phi) p.IonEk
          else getCavMatGeneric cav p.IonZ p.IonEs scl (cav.fRF / p.SampleFreq * p.phis + phi) p.IonEk) = y
        cases y with
        | error e => rfl
        | ok M => simp only [Except.map, boosted_f, jump_f hu]

theorem recomputeCav_f (hu : 0 < u) (h : OtherElement u "rfcavity" c c') (cav : Cav) (ref : Particle) (real : List Particle) :
    recomputeCav c' cav (inUnitP u ref) (real.map (inUnitP u)) =
      (recomputeCav c cav ref real).map (fun x => (inUnitP u x.1, x.2.1, x.2.2.map (fun y => (inUnitP u y.1, inUnitT u y.2)))) := by
  unfold recomputeCav
  rw [propagateLong_f hu h]
  cases propagateLong c cav ref with
  | error e => rfl
  | ok x =>
    obtain ⟨ref1, phi⟩ := x
    simp only [Except.map]
    rw [forEach_map, forEach_post (k := fun y : Particle × Mat => (inUnitP u y.1, inUnitT u y.2)) (f := fun p =>
        match initRFCav c cav phi p with
        | .error e => .error e
        | .ok (p', M) => .ok ({ p' with SampleIonK := p.SampleIonK }, M))]
    · cases forEach (fun p =>
        match initRFCav c cav phi p with
        | .error e => (.error e : Except Err (Particle × Mat))
        | .ok (p', M) => .ok ({ p' with SampleIonK := p.SampleIonK }, M)) real with
      | error e => rfl
      | ok l => rfl
    · intro p
      rw [initRFCav_f hu h]
      cases initRFCav c cav phi p with
      | error e => rfl
      | ok x => rfl

/-! ## forward -/

/-- What the loop gives in the other unit. -/
noncomputable def inUnitR (u : ℝ) (r : Mat × Vec × Mat × Mat) : Mat × Vec × Mat × Mat :=
  (inUnitT u r.1, inUnitV u r.2.1, inUnitS u r.2.2.1, inUnitT u r.2.2.2)

theorem in_5 (v : Vec) : inUnitV u v 5 = v 5 := by rw [inUnitV, e5, one_mul]

theorem cavOne_f (hu : 0 < u) (cav : Cav) (hg : cav.emitGrowth = 0) (ref : Particle) (T : Mat) (m : Mat × Mat) (p i o i' o' : Particle) (v : Vec) (S : Mat) :
    cavOne (inUnitC u cav) (inUnitP u ref) (inUnitT u T) (inUnitM u m) (inUnitP u p) i' o' (inUnitV u v) (inUnitS u S) =
      inUnitR u (cavOne cav ref T m p i o v S) := by
  have hT0 : setAt (setAt (inUnitT u T) 4 6 0) 5 6 0 = inUnitT u (setAt (setAt T 4 6 0) 5 6 0) := by
    simp only [t_set, mul_zero, zero_div]
  have hT1 : ∀ (A : Mat) (x y z : ℝ), setAt (setAt (inUnitT u A) 4 6 (-(u * x) + u * z)) 5 6 y = inUnitT u (setAt (setAt A 4 6 (-x + z)) 5 6 y) := by
    intro A x y z
    simp only [t_set, e4, e5, e6, one_mul, div_one, mul_add, mul_neg]
  have hv3 : ∀ (w : Vec) (x y : ℝ), (fun i => if i = 4 then u * x else if i = 5 then y else inUnitV u w i : Vec) =
      inUnitV u (fun i => if i = 4 then x else if i = 5 then y else w i) := by
    intro w x y
    funext i
    by_cases h4 : i = 4
    · subst h4; simp [inUnitV, e4]
    · by_cases h5 : i = 5
      · subst h5; simp [inUnitV, e5]
      · simp only [inUnitV, if_neg h4, if_neg h5]
  have hs : (inUnitP u p).phis - (inUnitP u ref).phis = u * (p.phis - ref.phis) := by
    simp only [inUnitP]
    ring
  have hk : (inUnitP u p).IonEk - (inUnitP u ref).IonEk = p.IonEk - ref.IonEk := rfl
  have g1 : ¬ cav.emitGrowth ≠ 0 := not_not.2 hg
  have g2 : ¬ (inUnitC u cav).emitGrowth ≠ 0 := g1
  unfold cavOne inUnitR
  simp only [if_neg g1, if_neg g2, hs, hk, inUnitM, t_mulVec hu, hT0, in_4, in_5, hT1, hv3, t_congr hu, t_mul hu]

theorem grownOne_f {cav : Cav} (hg : cav.emitGrowth = 0) (ref : Particle) (T : Mat) (m : Mat × Mat) (p i o : Particle) (v : Vec) (S : Mat) :
    grownOne cav ref T m p i o v S := fun h => absurd hg h

theorem cavLoop_f (hu : 0 < u) (cav : Cav) (hg : cav.emitGrowth = 0) (ref : Particle) : ∀ (Ts : List Mat) (ms : List (Mat × Mat)) (ps : List Particle)
    (es es' : List (Particle × Particle)) (vs : List Vec) (Ss : List Mat), es'.length = es.length →
    cavLoop (inUnitC u cav) (inUnitP u ref) (Ts.map (inUnitT u)) (ms.map (inUnitM u)) (ps.map (inUnitP u)) es' (vs.map (inUnitV u)) (Ss.map (inUnitS u)) =
      (cavLoop cav ref Ts ms ps es vs Ss).map (inUnitR u)
  | T :: Ts, m :: ms, p :: ps, e :: es, e' :: es', v :: vs, S :: Ss, h => by
    simp only [List.map_cons, cavLoop]
    rw [cavOne_f hu cav hg ref T m p e.1 e.2 e'.1 e'.2 v S, cavLoop_f hu cav hg ref Ts ms ps es es' vs Ss (by simpa using h)]
  | [], _, _, _, _, _, _, _ => by simp only [cavLoop, List.map_nil]
  | _ :: _, [], _, _, _, _, _, _ => by simp only [cavLoop, List.map_nil, List.map_cons]
  | _ :: _, _ :: _, [], _, _, _, _, _ => by simp only [List.map_nil, List.map_cons, cavLoop]
  | _ :: _, _ :: _, _ :: _, [], [], _, _, _ => by simp only [cavLoop, List.map_nil, List.map_cons]
  | _ :: _, _ :: _, _ :: _, [], _ :: _, _, _, h => by simp at h
  | _ :: _, _ :: _, _ :: _, _ :: _, [], _, _, h => by simp at h
  | _ :: _, _ :: _, _ :: _, _ :: _, _ :: _, [], _, _ => by simp only [cavLoop, List.map_nil, List.map_cons]
  | _ :: _, _ :: _, _ :: _, _ :: _, _ :: _, _ :: _, [], _ => by simp only [cavLoop, List.map_nil, List.map_cons]

theorem cavGrown_f {cav : Cav} (hg : cav.emitGrowth = 0) (ref : Particle) : ∀ (Ts : List Mat) (ms : List (Mat × Mat)) (ps : List Particle)
    (es : List (Particle × Particle)) (vs : List Vec) (Ss : List Mat), cavGrown cav ref Ts ms ps es vs Ss
  | T :: Ts, m :: ms, p :: ps, e :: es, v :: vs, S :: Ss => by
    simp only [cavGrown]
    exact ⟨grownOne_f hg _ _ _ _ _ _ _ _, cavGrown_f hg ref Ts ms ps es vs Ss⟩
  | [], _, _, _, _, _ => by simp only [cavGrown]
  | _ :: _, [], _, _, _, _ => by simp only [cavGrown]
  | _ :: _, _ :: _, [], _, _, _ => by simp only [cavGrown]
  | _ :: _, _ :: _, _ :: _, [], _, _ => by simp only [cavGrown]
  | _ :: _, _ :: _, _ :: _, _ :: _, [], _ => by simp only [cavGrown]
  | _ :: _, _ :: _, _ :: _, _ :: _, _ :: _, [] => by simp only [cavGrown]

theorem cavFault_f {env : Env} {cav : Cav} (hg : cav.emitGrowth = 0) (d : MDat) (S : MSt) : cavFault env cav d S = none := by
  unfold cavFault
  rw [if_pos (cavGrown_f hg _ _ _ _ _ _ _)]

theorem finish_f (hu : 0 < u) (env : Env) (cav : Cav) (hg : cav.emitGrowth = 0) {d : MDat} (h1 : OtherElement u "rfcavity" d.conf c')
    (hr : d.refIn ≠ none → r' = inUnitP u d.refOut) (w : Option Cav) (S : MSt) (s : St MSt) :
    Alike u (DRel u "rfcavity") (finish env cav d S s) (finish env (inUnitC u cav) { inUnitD u c' r' d with cav := w } (inUnit u S) (inUnitSt u s)) := by
  have hends : (ends env { inUnitD u c' r' d with cav := w }).length = (ends env d).length := by
    simp only [ends, inUnitD, List.length_zip, List.length_append, List.length_map, List.length_replicate]
  unfold finish
  rw [cavFault_f hg, cavFault_f (cav := inUnitC u cav) hg]
  unfold cavForward
  dsimp only at hends ⊢
  generalize ends env { inUnitD u c' r' d with cav := w } = E' at hends ⊢
  rw [show (inUnitC u cav).misalign = cav.misalign.map (inUnitM u) from rfl, show (inUnit u S).moment0 = S.moment0.map (inUnitV u) from rfl,
    show (inUnit u S).moment1 = S.moment1.map (inUnitS u) from rfl,
    show (inUnit u S).ref = inUnitP u S.ref from rfl, show (inUnit u S).real = S.real.map (inUnitP u) from rfl,
    show (inUnitD u c' r' d).transfer = d.transfer.map (inUnitT u) from rfl, cavLoop_f hu cav hg _ _ _ _ _ _ _ _ hends]
  generalize cavLoop cav S.ref d.transfer cav.misalign S.real (ends env d) S.moment0 S.moment1 = rs
  refine ⟨rfl, congrArg (St.mk _ _) ?_, fun _ => ⟨c', r', h1, hr, ?_, ?_⟩⟩
  · rw [← calcRms_s hu]
    simp only [inUnit, List.map_map]
    rfl
  · intro k hk
    cases hk
    exact hg
  · simp only [inUnitD, List.map_map]
    rfl

theorem misalign_f (hu : 0 < u) {D D' : MDat} (h : Placed D D') (ref : Particle) (l : List Particle) :
    forEach (fun p => getMisalign D' (inUnitP u ref) p) (l.map (inUnitP u)) = (forEach (fun p => getMisalign D ref p) l).map (List.map (inUnitM u)) := by
  rw [forEach_map]
  exact forEach_post (fun p => getMisalign_p hu h ref p) l

theorem missed_f (hu : 0 < u) (env : Env) (files : Files) (cav : Cav) (hg : cav.emitGrowth = 0) {d : MDat} (h1 : OtherElement u "rfcavity" d.conf c')
    (w : Option Cav) (m : List (Mat × Mat)) (S : MSt) (s : St MSt) :
    Alike u (DRel u "rfcavity") (missed env files d cav S s)
      (missed env files { inUnitD u c' r' d with cav := w } (withMis m cav) (inUnit u S) (inUnitSt u s)) := by
  have hP : Placed d ({ inUnitD u c' r' d with cav := w } : MDat) := ⟨rfl, rfl, rfl, rfl, rfl, rfl⟩
  have hg1 := reload_emit (files := files) (noFlag env h1) hg
  unfold missed
  rw [show ({ inUnitD u c' r' d with cav := w } : MDat).conf = c' from rfl, reload_f h1 env files, reload_with]
  generalize reload env files d.conf cav = z at hg1
  obtain ⟨cav1, o⟩ := z
  cases o with
  | some e => exact ⟨rfl, rfl, fun h => by cases h⟩
  | none =>
    dsimp only at hg1 ⊢
    rw [show (inUnit u S).ref = inUnitP u S.ref from rfl, show (inUnit u S).real = S.real.map (inUnitP u) from rfl, recomputeCav_with, recomputeCav_f hu h1]
    cases recomputeCav d.conf cav1 S.ref S.real with
    | error e => exact ⟨rfl, rfl, fun h => by cases h⟩
    | ok y =>
      obtain ⟨ref, phi, l⟩ := y
      simp only [Except.map]
      rw [show (l.map (fun y : Particle × Mat => (inUnitP u y.1, inUnitT u y.2))).map (fun x => x.1) = (l.map (fun x => x.1)).map (inUnitP u) from by
          simp only [List.map_map]; rfl,
        show (l.map (fun y : Particle × Mat => (inUnitP u y.1, inUnitT u y.2))).map (fun x => x.2) = (l.map (fun x => x.2)).map (inUnitT u) from by
          simp only [List.map_map]; rfl, misalign_f hu hP]
      cases forEach (fun p => getMisalign d ref p) (l.map (fun x => x.1)) with
      | error e => exact ⟨rfl, rfl, fun h => by cases h⟩
      | ok mis =>
        simp only [Except.map]
        generalize hS : ({ S with ref := ref, real := l.map (fun x => x.1) } : MSt).recalc = S1
        have hS' : ({ inUnit u S with ref := inUnitP u ref, real := (l.map (fun x => x.1)).map (inUnitP u) } : MSt).recalc = inUnit u S1 := by
          rw [← hS, ← recalc_s]
          rfl
        have := finish_f (c' := c') (r' := inUnitP u S1.ref) hu env { cav1 with phiRef := some phi, misalign := mis } hg1
          (d := { d with transfer := l.map (fun x => x.2), refOut := S1.ref, realOut := S1.real, cav := some { cav1 with phiRef := some phi, misalign := mis } }) h1
          (fun _ => rfl) (some (inUnitC u { cav1 with phiRef := some phi, misalign := mis })) S1 s
        change Alike u (DRel u "rfcavity") _ (finish env (inUnitC u { cav1 with phiRef := some phi, misalign := mis })
          { inUnitD u c' r' d with transfer := (l.map (fun x => x.2)).map (inUnitT u), refOut := (({ inUnit u S with ref := inUnitP u ref, real := (l.map (fun x => x.1)).map (inUnitP u) } : MSt).recalc).ref, realOut := (({ inUnit u S with ref := inUnitP u ref, real := (l.map (fun x => x.1)).map (inUnitP u) } : MSt).recalc).real, cav := some (inUnitC u { cav1 with phiRef := some phi, misalign := mis }) }
          (({ inUnit u S with ref := inUnitP u ref, real := (l.map (fun x => x.1)).map (inUnitP u) } : MSt).recalc) (inUnitSt u s))
        rw [hS']
        exact this

/-! ## cavities -/

theorem alike_f (hu : 0 < u) (a b : Particle) : alike (inUnitP u a) (inUnitP u b) ↔ alike a b := by
  simp only [alike, inUnitP, mul_right_inj' hu.ne']

theorem checkBackward_f (hu : 0 < u) (d : MDat) (hr : d.refIn ≠ none → r' = inUnitP u d.refOut) (S : MSt) :
    checkBackward (inUnitD u c' r' d) (inUnit u S) ↔ checkBackward d S := by
  unfold checkBackward
  by_cases h : d.refIn = none
  · simp [inUnitD, h]
  · have e := hr h
    subst e
    refine and_congr ?_ (and_congr (alike_f hu _ _) (forall₂_p (alike_f hu) _ _))
    simp [inUnitD]

theorem takenBack_f (a b p : Particle) : takenBack (inUnitP u a) (inUnitP u b) (inUnitP u p) = inUnitP u (takenBack a b p) := by
  simp only [takenBack, inUnitP]
  congr 1
  ring

theorem zip_taken (l k m : List Particle) :
    List.zipWith (fun (x : Particle × Particle) p => takenBack x.1 x.2 p) ((l.map (inUnitP u)).zip (k.map (inUnitP u))) (m.map (inUnitP u)) =
      (List.zipWith (fun (x : Particle × Particle) p => takenBack x.1 x.2 p) (l.zip k) m).map (inUnitP u) := by
  rw [List.zip_map, List.zipWith_map, List.map_zipWith]
  simp only [Prod.map, takenBack_f]

theorem cavity_f (hu : 0 < u) (env : Env) (files : Files) {d d' : MDat} (h : DRel u "rfcavity" d d') (s : St MSt) :
    Alike u (DRel u "rfcavity") (advanceCavity env files d s) (advanceCavity env files d' (inUnitSt u s)) := by
  obtain ⟨c', r', h1, hr, hg, rfl⟩ := h
  have hP : Placed d (inUnitD u c' r' d) := ⟨rfl, rfl, rfl, rfl, rfl, rfl⟩
  unfold advanceCavity
  rw [show (inUnitD u c' r' d).cav = d.cav.map (inUnitC u) from rfl]
  cases hc : d.cav with
  | none => exact ⟨rfl, rfl, fun h => by cases h⟩
  | some cav =>
    have hg := hg cav hc
    dsimp only [Option.map]
    rw [show (inUnitSt u s).payload.recalc = inUnit u s.payload.recalc from recalc_s _, show (inUnitSt u s).retreat = s.retreat from rfl]
    generalize s.payload.recalc = S
    by_cases hret : s.retreat = true
    · rw [if_pos hret, if_pos hret]
      by_cases hcb : checkBackward d S
      swap
      · rw [if_pos hcb, if_pos (fun h => hcb ((checkBackward_f hu d hr S).1 h))]
        exact ⟨rfl, rfl, fun h => by cases h⟩
      rw [if_neg (not_not.2 hcb), if_neg (not_not.2 ((checkBackward_f hu d hr S).2 hcb))]
      have hne : d.refIn ≠ none := hcb.1
      have e := hr hne
      subst e
      have hlen : ((inUnitD u c' (inUnitP u d.refOut) d).realIn.length ≠ (inUnitD u c' (inUnitP u d.refOut) d).realOut.length) ↔ d.realIn.length ≠ d.realOut.length := by
        simp only [inUnitD, List.length_map]
      by_cases hl : d.realIn.length ≠ d.realOut.length
      · rw [if_pos hl, if_pos (hlen.2 hl)]
        exact ⟨rfl, rfl, fun h => by cases h⟩
      rw [if_neg hl, if_neg (fun h => hl (hlen.1 h))]
      have hreal : List.zipWith (fun (x : Particle × Particle) p => takenBack x.1 x.2 p)
          ((inUnitD u c' (inUnitP u d.refOut) d).realIn.zip (inUnitD u c' (inUnitP u d.refOut) d).realOut) (inUnit u S).real =
          (List.zipWith (fun (x : Particle × Particle) p => takenBack x.1 x.2 p) (d.realIn.zip d.realOut) S.real).map (inUnitP u) :=
        zip_taken _ _ _
      have href : takenBack ((inUnitD u c' (inUnitP u d.refOut) d).refIn.getD (inUnitD u c' (inUnitP u d.refOut) d).refOut)
          (inUnitD u c' (inUnitP u d.refOut) d).refOut (inUnit u S).ref = inUnitP u (takenBack (d.refIn.getD d.refOut) d.refOut S.ref) := by
        show takenBack ((d.refIn.map (inUnitP u)).getD (inUnitP u d.refOut)) (inUnitP u d.refOut) (inUnitP u S.ref) = _
        cases d.refIn <;> exact takenBack_f _ _ _
      rw [hreal, href, misalign_f hu hP]
      generalize takenBack (d.refIn.getD d.refOut) d.refOut S.ref = ref
      generalize List.zipWith (fun (x : Particle × Particle) p => takenBack x.1 x.2 p) (d.realIn.zip d.realOut) S.real = real
      cases forEach (fun p => getMisalign d ref p) real with
      | error e => exact ⟨rfl, rfl, fun h => by cases h⟩
      | ok mis =>
        simp only [Except.map]
        have hT : List.zipWith (fun (T : Mat) (m : Mat × Mat) => m.2 * (T * m.1)) (inUnitD u c' (inUnitP u d.refOut) d).transfer (mis.map (inUnitM u)) =
            (List.zipWith (fun (T : Mat) (m : Mat × Mat) => m.2 * (T * m.1)) d.transfer mis).map (inUnitT u) := by
          rw [show (inUnitD u c' (inUnitP u d.refOut) d).transfer = d.transfer.map (inUnitT u) from rfl, List.zipWith_map, List.map_zipWith]
          simp only [inUnitM, t_mul hu]
        rw [hT, show ({ inUnit u S with ref := inUnitP u ref, real := real.map (inUnitP u), pos := (inUnit u S).pos - (inUnitD u c' (inUnitP u d.refOut) d).length } : MSt).recalc
            = inUnit u ({ S with ref := ref, real := real, pos := S.pos - d.length } : MSt).recalc from by rw [← recalc_s]; rfl, backward_s hu]
        generalize backward _ _ = z
        obtain ⟨S1, o⟩ := z
        cases o with
        | some e => exact ⟨rfl, rfl, fun h => by cases h⟩
        | none =>
          refine ⟨rfl, congrArg (St.mk _ _) (calcRms_s hu ({ S1 with last_caviphi0 := caviphi env { cav with misalign := mis } } : MSt)),
            fun _ => ⟨c', inUnitP u d.refOut, h1, fun _ => rfl, ?_, rfl⟩⟩
          intro k hk
          cases hk
          exact hg
    · rw [if_neg hret, if_neg hret]
      by_cases hd : hit d S
      · rw [if_pos hd, if_pos ((hit_f hu d S).2 hd)]
        have hne : d.refIn ≠ none := by
          obtain ⟨-, ⟨r, h2, -⟩, -⟩ := hd
          rw [h2]
          simp
        have e := hr hne
        subst e
        rw [show ({ inUnit u S with ref := (inUnitD u c' (inUnitP u d.refOut) d).refOut, real := (inUnitD u c' (inUnitP u d.refOut) d).realOut ++ (inUnit u S).real.drop (inUnitD u c' (inUnitP u d.refOut) d).realOut.length } : MSt)
            = inUnit u { S with ref := d.refOut, real := d.realOut ++ S.real.drop d.realOut.length } from by
              simp only [inUnitD, inUnit, List.map_append, List.map_drop, List.length_map]]
        exact finish_f (c' := c') hu env cav hg (d := d) h1 (fun _ => rfl) (d.cav.map (inUnitC u)) { S with ref := d.refOut, real := d.realOut ++ S.real.drop d.realOut.length } s
      · rw [if_neg hd, if_neg (fun h => hd ((hit_f hu d S).1 h))]
        have := missed_f (c' := c') (r' := r') hu env files { cav with misalign := resizeMis S.real.length cav.misalign } hg
          (d := { d with refIn := some S.ref, realIn := S.real, transfer := resize S.real.length d.transfer, cav := some { cav with misalign := resizeMis S.real.length cav.misalign } })
          h1 (some { inUnitC u cav with misalign := resizeMis S.real.length (inUnitC u cav).misalign })
          (resizeMis S.real.length (inUnitC u cav).misalign) S s
        have e : ({ inUnitD u c' r' { d with refIn := some S.ref, realIn := S.real, transfer := resize S.real.length d.transfer, cav := some { cav with misalign := resizeMis S.real.length cav.misalign } } with cav := some { inUnitC u cav with misalign := resizeMis S.real.length (inUnitC u cav).misalign } } : MDat) =
            { inUnitD u c' r' d with refIn := some (inUnit u S).ref, realIn := (inUnit u S).real, transfer := resize (inUnit u S).real.length (inUnitD u c' r' d).transfer, cav := some { inUnitC u cav with misalign := resizeMis (inUnit u S).real.length (inUnitC u cav).misalign } } := by
          simp only [inUnitD, inUnit, List.length_map, ← resize_t hu]
          rfl
        rw [e] at this
        rw [show resizeMis S.real.length (inUnitC u cav).misalign = resizeMis (inUnit u S).real.length (inUnitC u cav).misalign from by
          rw [show (inUnit u S).real.length = S.real.length from List.length_map ..]] at this
        exact this

end Flame.Freq
