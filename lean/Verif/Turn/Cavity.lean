import Verif.Turn.Props
import Verif.Cavity.Undo
import Verif.Cavity.Cache

/-! # A beam line turned about its axis: cavities -/

namespace Flame.Turn

open Flame.Mach (Elem Cls St Err Run)
open Flame.Linear (LVal LCfg getNum getNumD getVec)
open Flame.Moment
open Flame.Cavity
open Flame.Scale (finish missed)
open Flame.Turn.Spec

variable {a : ℝ} {c c' : LCfg}

/-! ## settings -/

theorem propagateLong_o (h : Other c c') (cav : Cav) (ref : Particle) : propagateLong c' cav ref = propagateLong c cav ref := by
  have hd : ∀ m scl, drivenPhase c' cav ref m scl = drivenPhase c cav ref m scl := by
    intro m scl
    unfold drivenPhase
    simp only [numD_o h "syncflag" 1 (by decide), num_o h "phi" (by decide)]
  unfold propagateLong
  simp only [num_o h "scl_fac" (by decide), hd]

theorem initRFCav_o (h : Other c c') (cav : Cav) (phi : ℝ) (p : Particle) : initRFCav c' cav phi p = initRFCav c cav phi p := by
  unfold initRFCav
  simp only [num_o h "scl_fac" (by decide)]

theorem recomputeCav_o (h : Other c c') (cav : Cav) (ref : Particle) (real : List Particle) :
    recomputeCav c' cav ref real = recomputeCav c cav ref real := by
  unfold recomputeCav
  simp only [propagateLong_o h, initRFCav_o h]

theorem loadCavity_o (env : Env) (files : Files) (h : Other c c') (cav : Cav) : loadCavity env files c' cav = loadCavity env files c cav := by
  have hd : @decide (getNumD c' "forcettfcalc" 0 ≠ 0) (Classical.propDecidable _) =
      @decide (getNumD c "forcettfcalc" 0 ≠ 0) (Classical.propDecidable _) := by
    rw [numD_o h "forcettfcalc" 0 (by decide)]
  unfold loadCavity
  simp only [hd, num_o h "f" (by decide), num_o h "phi" (by decide), numD_o h "Rm" 0 (by decide), flag_o h env "MpoleLevel" 2 (by decide),
    flag_o h env "EmitGrowth" 0 (by decide), str_o h "cavtype" (by decide), str_o h "datafile" (by decide),
    strD_o h "Eng_Data_Dir" "." (by decide)]

theorem reload_o (env : Env) (files : Files) (h : Other c c') (cav : Cav) : reload env files c' cav = reload env files c cav := by
  unfold reload
  simp only [str_o h "cavtype" (by decide), str_o h "datafile" (by decide), strD_o h "Eng_Data_Dir" "." (by decide), loadCavity_o env files h]

/-! ## the matrices of the alignment -/

/-- The same cavity with other matrices of the alignment. -/
def withMis (m : List (Mat × Mat)) (cav : Cav) : Cav := { cav with misalign := m }

theorem loadShipped_with (files : Files) (dir lab : String) (m : List (Mat × Mat)) (cav : Cav) :
    loadShipped files dir lab (withMis m cav) = (withMis m (loadShipped files dir lab cav).1, (loadShipped files dir lab cav).2) := by
  unfold loadShipped
  dsimp only
  cases files.table (dir ++ "/axisData_" ++ lab ++ ".txt") with
  | error e => rfl
  | ok t =>
    dsimp only
    split
    · rfl
    · cases files.table (dir ++ "/Multipole" ++ lab ++ "/CaviMlp_" ++ lab ++ ".txt") with
      | error e => rfl
      | ok t =>
        dsimp only
        split
        · rfl
        · cases files.lines (dir ++ "/Multipole" ++ lab ++ "/thinlenlon_" ++ lab ++ ".txt") <;> rfl

theorem loadGeneric_with (files : Files) (m : List (Mat × Mat)) (cav : Cav) :
    loadGeneric files (withMis m cav) = (withMis m (loadGeneric files cav).1, (loadGeneric files cav).2) := by
  unfold loadGeneric
  rw [show (withMis m cav).dataFile = cav.dataFile from rfl, show (withMis m cav).lattice = cav.lattice from rfl,
    show (withMis m cav).synAccTab = cav.synAccTab from rfl]
  cases files.generic cav.dataFile with
  | error e => rfl
  | ok x =>
    obtain ⟨top, els⟩ := x
    dsimp only
    cases foldE genericElem els (cav.lattice, cav.synAccTab) with
    | error e => rfl
    | ok y =>
      obtain ⟨l, t⟩ := y
      dsimp only
      cases getVec top "Ez" with
      | error e => rfl
      | ok Ez =>
        dsimp only
        cases Flame.Util.readvec Ez 2 0 with
        | none => rfl
        | some z => rfl

theorem loadCavity_with (env : Env) (files : Files) (m : List (Mat × Mat)) (cav : Cav) :
    loadCavity env files c (withMis m cav) = (withMis m (loadCavity env files c cav).1, (loadCavity env files c cav).2) := by
  unfold loadCavity
  cases getNum c "f" with
  | error e => rfl
  | ok f =>
    dsimp only
    cases getNum c "phi" with
    | error e => rfl
    | ok phi =>
      dsimp only
      cases getFlag env c "MpoleLevel" 2 with
      | error e => rfl
      | ok n =>
        dsimp only
        cases getFlag env c "EmitGrowth" 0 with
        | error e => rfl
        | ok g =>
          dsimp only
          split
          · rfl
          · cases getStr c "cavtype" with
            | error e => rfl
            | ok ty =>
              dsimp only
              cases Cavity.shipped ty with
              | some x =>
                obtain ⟨i, lab⟩ := x
                dsimp only
                exact loadShipped_with files _ lab m ({ cav with fRF := f, ionFys := phi * Real.pi / 180, phiRef := none, cRm := getNumD c "Rm" 0, forcettfcalc := @decide (getNumD c "forcettfcalc" 0 ≠ 0) (Classical.propDecidable _), mpoleLevel := n, emitGrowth := g, cavType := ty, cavi := i } : Cav)
              | none =>
                dsimp only
                split
                · cases getStr c "datafile" with
                  | error e => rfl
                  | ok fn =>
                    dsimp only
                    exact loadGeneric_with files m ({ cav with fRF := f, ionFys := phi * Real.pi / 180, phiRef := none, cRm := getNumD c "Rm" 0, forcettfcalc := @decide (getNumD c "forcettfcalc" 0 ≠ 0) (Classical.propDecidable _), mpoleLevel := n, emitGrowth := g, cavType := ty, dataFile := getStrD c "Eng_Data_Dir" "." ++ "/" ++ fn, cavi := 0 } : Cav)
                · rfl

theorem reload_with (env : Env) (files : Files) (m : List (Mat × Mat)) (cav : Cav) :
    reload env files c (withMis m cav) = (withMis m (reload env files c cav).1, (reload env files c cav).2) := by
  unfold reload
  rw [show (withMis m cav).cavType = cav.cavType from rfl, show (withMis m cav).dataFile = cav.dataFile from rfl]
  cases getStr c "cavtype" with
  | error e => rfl
  | ok ty =>
    dsimp only
    split
    · exact loadCavity_with env files m { cav with lattice := [], synAccTab := [] }
    · split
      · cases getStr c "datafile" with
        | error e => rfl
        | ok f =>
          dsimp only
          split
          · exact loadCavity_with env files m { cav with lattice := [], synAccTab := [] }
          · rfl
      · rfl

theorem recomputeCav_with (m : List (Mat × Mat)) (cav : Cav) (ref : Particle) (real : List Particle) :
    recomputeCav c (withMis m cav) ref real = recomputeCav c cav ref real :=
  recomputeCav_cov (cd := cav) (o := { cav with misalign := m }) (fun _ => ⟨rfl, rfl, rfl⟩) c ref real

/-- The matrices of the alignment of the turned cavity. -/
noncomputable def turnM (a : ℝ) (m : Mat × Mat) : Mat × Mat := (m.1 * turner (-a), turner a * m.2)

/-- The turned cavity. -/
noncomputable def turnV (a : ℝ) (cav : Cav) : Cav := withMis (cav.misalign.map (turnM a)) cav

/-- The data of the turned cavity: the matrix in its own coordinates is the same. -/
noncomputable def turnC (a : ℝ) (c' : LCfg) (d : MDat) : MDat :=
  { d with conf := c', dx := Real.cos a * d.dx - Real.sin a * d.dy, dy := Real.sin a * d.dx + Real.cos a * d.dy, roll := d.roll + a,
           cav := d.cav.map (turnV a) }

/-- The data of a cavity in both runs. -/
def VRel (a : ℝ) (env : Env) (d d' : MDat) : Prop :=
  ∃ c', Other d.conf c' ∧ d.pitch = 0 ∧ d.yaw = 0 ∧ NoGrowth env d ∧ d' = turnC a c' d

/-! ## forward -/

/-- What the loop gives for the turned beam. -/
noncomputable def turnR (a : ℝ) (r : Mat × Vec × Mat × Mat) : Mat × Vec × Mat × Mat :=
  (r.1, (turner a).mulVec r.2.1, Moment.congr (turner a) r.2.2.1, conj a r.2.2.2)

theorem cavOne_turn {cav : Cav} (he : cav.emitGrowth = 0) (ref : Particle) (T : Mat) (m : Mat × Mat) (p i o : Particle) (v : Vec) (S : Mat) :
    cavOne (turnV a cav) ref T (turnM a m) p i o ((turner a).mulVec v) (Moment.congr (turner a) S) = turnR a (cavOne cav ref T m p i o v S) := by
  have he' : (turnV a cav).emitGrowth = 0 := he
  unfold cavOne turnR
  dsimp only
  rw [if_neg (not_not.2 he), if_neg (not_not.2 he')]
  simp only [turnM, cancel_vec, cancel_mat]
  simp only [congr_mul, conj, Matrix.mulVec_mulVec, mul_assoc]

theorem cavLoop_turn {cav : Cav} (he : cav.emitGrowth = 0) (ref : Particle) : ∀ (Ts : List Mat) (ms : List (Mat × Mat)) (ps : List Particle)
    (es : List (Particle × Particle)) (vs : List Vec) (Ss : List Mat),
    cavLoop (turnV a cav) ref Ts (ms.map (turnM a)) ps es (vs.map (fun v => (turner a).mulVec v)) (Ss.map (Moment.congr (turner a))) =
      (cavLoop cav ref Ts ms ps es vs Ss).map (turnR a)
  | T :: Ts, m :: ms, p :: ps, e :: es, v :: vs, S :: Ss => by
    simp only [List.map_cons, cavLoop, cavOne_turn he, cavLoop_turn he ref Ts ms ps es vs Ss]
  | [], _, _, _, _, _ => by simp only [cavLoop, List.map_nil, List.map_cons]
  | _ :: _, [], _, _, _, _ => by simp only [cavLoop, List.map_nil, List.map_cons]
  | _ :: _, _ :: _, [], _, _, _ => by simp only [List.map_nil, List.map_cons, cavLoop]
  | _ :: _, _ :: _, _ :: _, [], _, _ => by simp only [cavLoop, List.map_nil, List.map_cons]
  | _ :: _, _ :: _, _ :: _, _ :: _, [], _ => by simp only [cavLoop, List.map_nil, List.map_cons]
  | _ :: _, _ :: _, _ :: _, _ :: _, _ :: _, [] => by simp only [cavLoop, List.map_nil, List.map_cons]

theorem finish_turn (env : Env) {cav : Cav} (he : cav.emitGrowth = 0) {d : MDat} (h1 : Other d.conf c') (h3 : d.pitch = 0) (h4 : d.yaw = 0)
    (hf : getFlag env d.conf "EmitGrowth" 0 = .ok 0) (w : Option Cav) (x : Vec) (S : MSt) (s : St MSt) :
    Alike a (VRel a env) (finish env cav d S s)
      (finish env (turnV a cav) { turnC a c' d with cav := w } (turnS a x S) (turnT a x s)) := by
  unfold finish
  rw [cavFault_off he, cavFault_off (show (turnV a cav).emitGrowth = 0 from he)]
  unfold cavForward
  dsimp only
  rw [show (turnV a cav).misalign = cav.misalign.map (turnM a) from rfl,
    show (turnS a x S).moment0 = S.moment0.map (fun v => (turner a).mulVec v) from rfl,
    show (turnS a x S).moment1 = S.moment1.map (Moment.congr (turner a)) from rfl,
    show (turnS a x S).ref = S.ref from rfl, show (turnS a x S).real = S.real from rfl,
    show ends env { turnC a c' d with cav := w } = ends env d from rfl, show (turnC a c' d).transfer = d.transfer from rfl, cavLoop_turn he]
  generalize cavLoop cav S.ref d.transfer cav.misalign S.real (ends env d) S.moment0 S.moment1 = rs
  obtain ⟨y, hy⟩ := calcRms_turn (a := a) x ({ S with pos := S.pos + d.length, moment0 := rs.map (fun q => q.2.1), moment1 := rs.map (fun q => q.2.2.1), transmat := rs.map (fun q => q.2.2.2), last_caviphi0 := caviphi env cav } : MSt)
  refine ⟨rfl, ⟨y, congrArg (St.mk _ _) ?_⟩, fun _ => ⟨c', h1, h3, h4, ⟨fun v hv => ?_, hf⟩, ?_⟩⟩
  · rw [← hy]
    simp only [turnS, List.map_map]
    rfl
  · cases hv; exact he
  · simp only [turnC, List.map_map]
    rfl

theorem misalign_turn {D D' : MDat} (h : Placed a D D') (ref : Particle) (l : List Particle) :
    forEach (fun p => getMisalign D' ref p) l = (forEach (fun p => getMisalign D ref p) l).map (List.map (turnM a)) :=
  Flame.Scale.forEach_post (fun p => getMisalign_turn h ref p) l

theorem missed_turn (env : Env) (files : Files) {cav : Cav} (he : cav.emitGrowth = 0) {d : MDat} (h1 : Other d.conf c') (h3 : d.pitch = 0)
    (h4 : d.yaw = 0) (hf : getFlag env d.conf "EmitGrowth" 0 = .ok 0) (w : Option Cav) (m : List (Mat × Mat)) (x : Vec) (S : MSt) (s : St MSt) :
    Alike a (VRel a env) (missed env files d cav S s)
      (missed env files { turnC a c' d with cav := w } (withMis m cav) (turnS a x S) (turnT a x s)) := by
  have hP : Placed a d ({ turnC a c' d with cav := w } : MDat) := ⟨rfl, rfl, rfl, rfl, ⟨h3, h3⟩, ⟨h4, h4⟩⟩
  have hem := reload_emit (files := files) hf he
  unfold missed
  rw [show ({ turnC a c' d with cav := w } : MDat).conf = c' from rfl, reload_o env files h1, reload_with]
  generalize reload env files d.conf cav = z at hem ⊢
  obtain ⟨cav1, o⟩ := z
  cases o with
  | some e => exact ⟨rfl, ⟨x, rfl⟩, fun h => by cases h⟩
  | none =>
    dsimp only
    rw [show (turnS a x S).ref = S.ref from rfl, show (turnS a x S).real = S.real from rfl, recomputeCav_with, recomputeCav_o h1]
    cases recomputeCav d.conf cav1 S.ref S.real with
    | error e => exact ⟨rfl, ⟨x, rfl⟩, fun h => by cases h⟩
    | ok y =>
      obtain ⟨ref, phi, l⟩ := y
      dsimp only
      rw [misalign_turn hP]
      cases forEach (fun p => getMisalign d ref p) (l.map (fun x => x.1)) with
      | error e => exact ⟨rfl, ⟨x, rfl⟩, fun h => by cases h⟩
      | ok mis =>
        simp only [Except.map]
        generalize hS : ({ S with ref := ref, real := l.map (fun x => x.1) } : MSt).recalc = S1
        have hS' : ({ turnS a x S with ref := ref, real := l.map (fun x => x.1) } : MSt).recalc = turnS a x S1 := by
          rw [← hS]
          rfl
        have := finish_turn (a := a) (c' := c') env (cav := { cav1 with phiRef := some phi, misalign := mis }) hem
          (d := { d with transfer := l.map (fun x => x.2), refOut := S1.ref, realOut := S1.real, cav := some { cav1 with phiRef := some phi, misalign := mis } }) h1 h3 h4 hf
          (some (turnV a { cav1 with phiRef := some phi, misalign := mis })) x S1 s
        change Alike a (VRel a env) _ (finish env (turnV a { cav1 with phiRef := some phi, misalign := mis })
          { turnC a c' d with transfer := l.map (fun x => x.2), refOut := (({ turnS a x S with ref := ref, real := l.map (fun x => x.1) } : MSt).recalc).ref, realOut := (({ turnS a x S with ref := ref, real := l.map (fun x => x.1) } : MSt).recalc).real, cav := some (turnV a { cav1 with phiRef := some phi, misalign := mis }) }
          (({ turnS a x S with ref := ref, real := l.map (fun x => x.1) } : MSt).recalc) (turnT a x s))
        rw [hS']
        exact this

/-! ## cavities -/

theorem cavity_turn (env : Env) (files : Files) {d d' : MDat} (h : VRel a env d d') (x : Vec) (s : St MSt) :
    Alike a (VRel a env) (advanceCavity env files d s) (advanceCavity env files d' (turnT a x s)) := by
  obtain ⟨c', h1, h3, h4, ⟨hg, hf⟩, rfl⟩ := h
  have hP : Placed a d (turnC a c' d) := ⟨rfl, rfl, rfl, rfl, ⟨h3, h3⟩, ⟨h4, h4⟩⟩
  unfold advanceCavity
  rw [show (turnC a c' d).cav = d.cav.map (turnV a) from rfl]
  cases hc : d.cav with
  | none => exact ⟨rfl, ⟨x, rfl⟩, fun h => by cases h⟩
  | some cav =>
    have he := hg cav hc
    dsimp only [Option.map]
    rw [show (turnT a x s).payload.recalc = turnS a x s.payload.recalc from rfl, show (turnT a x s).retreat = s.retreat from rfl]
    generalize s.payload.recalc = S
    by_cases hret : s.retreat = true
    · rw [if_pos hret, if_pos hret]
      have hb : checkBackward (turnC a c' d) (turnS a x S) ↔ checkBackward d S := Iff.rfl
      by_cases hcb : checkBackward d S
      swap
      · rw [if_pos hcb, if_pos (fun h => hcb (hb.1 h))]
        exact ⟨rfl, ⟨x, rfl⟩, fun h => by cases h⟩
      rw [if_neg (not_not.2 hcb), if_neg (not_not.2 (hb.2 hcb))]
      rw [show (turnC a c' d).realIn = d.realIn from rfl, show (turnC a c' d).realOut = d.realOut from rfl,
        show (turnC a c' d).refIn = d.refIn from rfl, show (turnC a c' d).refOut = d.refOut from rfl,
        show (turnS a x S).ref = S.ref from rfl, show (turnS a x S).real = S.real from rfl, show (turnC a c' d).transfer = d.transfer from rfl]
      by_cases hl : d.realIn.length ≠ d.realOut.length
      · rw [if_pos hl, if_pos hl]
        exact ⟨rfl, ⟨x, rfl⟩, fun h => by cases h⟩
      rw [if_neg hl, if_neg hl]
      generalize takenBack (d.refIn.getD d.refOut) d.refOut S.ref = ref
      generalize List.zipWith (fun (x : Particle × Particle) p => takenBack x.1 x.2 p) (d.realIn.zip d.realOut) S.real = real
      rw [misalign_turn hP]
      cases forEach (fun p => getMisalign d ref p) real with
      | error e => exact ⟨rfl, ⟨x, rfl⟩, fun h => by cases h⟩
      | ok mis =>
        simp only [Except.map]
        have hT : List.zipWith (fun (T : Mat) (m : Mat × Mat) => m.2 * (T * m.1)) d.transfer (mis.map (turnM a)) =
            (List.zipWith (fun (T : Mat) (m : Mat × Mat) => m.2 * (T * m.1)) d.transfer mis).map (conj a) := by
          rw [List.zipWith_map_right, List.map_zipWith]
          simp only [turnM, conj, mul_assoc]
        rw [hT, show ({ turnS a x S with ref := ref, real := real, pos := (turnS a x S).pos - (turnC a c' d).length } : MSt).recalc
            = turnS a x ({ S with ref := ref, real := real, pos := S.pos - d.length } : MSt).recalc from rfl, backward_turn]
        generalize backward _ _ = z
        obtain ⟨S1, o⟩ := z
        cases o with
        | some e => exact ⟨rfl, ⟨x, rfl⟩, fun h => by cases h⟩
        | none =>
          obtain ⟨y, hy⟩ := calcRms_turn (a := a) x ({ S1 with last_caviphi0 := caviphi env { cav with misalign := mis } } : MSt)
          exact ⟨rfl, ⟨y, congrArg (St.mk _ _) hy⟩, fun _ => ⟨c', h1, h3, h4, ⟨fun v hv => by cases hv; exact he, hf⟩, rfl⟩⟩
    · rw [if_neg hret, if_neg hret]
      have hh : hit (turnC a c' d) (turnS a x S) ↔ hit d S := Iff.rfl
      by_cases hd : hit d S
      · rw [if_pos hd, if_pos (hh.2 hd)]
        have := finish_turn (a := a) (c' := c') env he (d := d) h1 h3 h4 hf (d.cav.map (turnV a)) x
          { S with ref := d.refOut, real := d.realOut ++ S.real.drop d.realOut.length } s
        exact this
      · rw [if_neg hd, if_neg (fun h => hd (hh.1 h))]
        exact missed_turn (a := a) (c' := c') env files (cav := { cav with misalign := resizeMis S.real.length cav.misalign }) he
          (d := { d with refIn := some S.ref, realIn := S.real, transfer := resize S.real.length d.transfer, cav := some { cav with misalign := resizeMis S.real.length cav.misalign } })
          h1 h3 h4 hf (some { turnV a cav with misalign := resizeMis S.real.length (turnV a cav).misalign })
          (resizeMis S.real.length (turnV a cav).misalign) x S s

end Flame.Turn
