import Verif.Flip.Beam

/-! # A beam line seen in a mirror: cavities -/

namespace Flame.Flip

open Flame.Mach (Elem Cls St Err Run)
open Flame.Linear (LVal LCfg getNum getNumD getVec)
open Flame.Moment
open Flame.Cavity
open Flame.Turn (withMis loadCavity_with reload_with recomputeCav_with)
open Flame.Scale (finish missed)
open Flame.Flip.Spec

variable {c c' : LCfg}

/-! ## settings -/

section settings
variable (h : MirroredElement "rfcavity" c c')
include h

theorem num_c (k : String) (hk : k ∈ keys ∧ k ∉ ["dx", "roll", "yaw"]) : getNum c' k = getNum c k := by
  obtain ⟨hk1, hk⟩ := hk
  simp only [List.mem_cons, not_or] at hk
  refine num_m h k hk1 ?_
  simp only [Reversed]
  simp
  tauto

theorem numD_c (k : String) (x : ℝ) (hk : k ∈ keys ∧ k ∉ ["dx", "roll", "yaw"]) : getNumD c' k x = getNumD c k x := by
  obtain ⟨hk1, hk⟩ := hk
  simp only [List.mem_cons, not_or] at hk
  refine numD_m h k x hk1 ?_
  simp only [Reversed]
  simp
  tauto

theorem flag_c (env : Env) (k : String) (n : Nat) (hk : k ∈ keys ∧ k ∉ ["dx", "roll", "yaw"]) : getFlag env c' k n = getFlag env c k n := by
  obtain ⟨hk1, hk⟩ := hk
  simp only [List.mem_cons, not_or] at hk
  refine flag_m h env k n hk1 ?_
  simp only [Reversed]
  simp
  tauto

theorem propagateLong_c (cav : Cav) (ref : Particle) : propagateLong c' cav ref = propagateLong c cav ref := by
  have hd : ∀ m scl, drivenPhase c' cav ref m scl = drivenPhase c cav ref m scl := by
    intro m scl
    unfold drivenPhase
    simp only [numD_c h "syncflag" 1 (by decide), num_c h "phi" (by decide)]
  unfold propagateLong
  simp only [num_c h "scl_fac" (by decide), hd]

theorem initRFCav_c (cav : Cav) (phi : ℝ) (p : Particle) : initRFCav c' cav phi p = initRFCav c cav phi p := by
  unfold initRFCav
  simp only [num_c h "scl_fac" (by decide)]

theorem recomputeCav_c (cav : Cav) (ref : Particle) (real : List Particle) : recomputeCav c' cav ref real = recomputeCav c cav ref real := by
  unfold recomputeCav
  simp only [propagateLong_c h, initRFCav_c h]

theorem loadCavity_c (env : Env) (files : Files) (cav : Cav) : loadCavity env files c' cav = loadCavity env files c cav := by
  have hd : @decide (getNumD c' "forcettfcalc" 0 ≠ 0) (Classical.propDecidable _) =
      @decide (getNumD c "forcettfcalc" 0 ≠ 0) (Classical.propDecidable _) := by
    rw [numD_c h "forcettfcalc" 0 (by decide)]
  unfold loadCavity
  simp only [hd, num_c h "f" (by decide), num_c h "phi" (by decide), numD_c h "Rm" 0 (by decide), flag_c h env "MpoleLevel" 2 (by decide),
    flag_c h env "EmitGrowth" 0 (by decide), str_m h "cavtype" (by decide), str_m h "datafile" (by decide),
    strD_m h "Eng_Data_Dir" "." (by decide)]

theorem reload_c (env : Env) (files : Files) (cav : Cav) : reload env files c' cav = reload env files c cav := by
  unfold reload
  simp only [str_m h "cavtype" (by decide), str_m h "datafile" (by decide), strD_m h "Eng_Data_Dir" "." (by decide), loadCavity_c h env files]

end settings

/-! ## the matrices are the same in the mirror -/

theorem driftT_even (l : ℝ) : imageM (driftT l) = driftT l := by
  simp only [driftT, im_set, im_one, s0, s1, s2, s3, neg_mul, mul_neg, one_mul, mul_one, neg_neg]

theorem focusT_even (a b : ℝ) : imageM (focusT a b) = focusT a b := by
  simp only [focusT, im_set, im_one, s0, s1, s2, s3, neg_mul, mul_neg, one_mul, mul_one, neg_neg]

theorem kickT_even (a : ℝ) : imageM (kickT a) = kickT a := by
  simp only [kickT, im_set, im_one, s3, s6, one_mul, mul_one]

theorem accelT_even (a : ℝ) : imageM (accelT a) = accelT a := by
  simp only [accelT, im_set, im_one, s1, s3, neg_mul, mul_neg, one_mul, mul_one, neg_neg]

theorem combine_im (T L : Mat) : imageM (combine T L) = combine (imageM T) L := by
  simp only [combine, im_set, s4, s5, one_mul, mul_one]

theorem jump_im (m : ℝ) (M : Mat) : imageM (jump m M) = jump m (imageM M) := by
  unfold jump
  refine (im_fold (fun M i => ?_) _ _).symm
  dsimp only
  rw [div_eq_mul_inv, im_times, im_times, div_eq_mul_inv]

theorem even_mul {A B : Mat} (hA : imageM A = A) (hB : imageM B = B) : imageM (A * B) = A * B := by rw [im_mul, hA, hB]

theorem transStep_even {mpole : Nat} {Z scl Rm lam : ℝ} {a b c : Kin} {q : RawParams × ℝ × Line} {t t' : Trans}
    (h : transStep mpole Z scl Rm lam a b c q t = .ok t') (hT : imageM t.M = t.M) : imageM t'.M = t'.M := by
  unfold transStep at h
  dsimp only at h
  split at h
  · cases h; exact even_mul (driftT_even _) hT
  · cases h; exact even_mul (focusT_even _ _) hT
  · cases h; exact even_mul (focusT_even _ _) hT
  · cases h; split
    · exact even_mul (kickT_even _) hT
    · exact hT
  · cases h; split
    · exact even_mul (focusT_even _ _) hT
    · exact hT
  · cases h; split
    · exact even_mul (focusT_even _ _) hT
    · exact hT
  · cases h; split
    · exact even_mul (kickT_even _) hT
    · exact hT
  · cases h; split
    · exact even_mul (focusT_even _ _) hT
    · exact hT
  · split at h
    · cases h
    · cases h; exact even_mul (accelT_even _) hT
  · cases h

theorem genStep_even {mpole : Nat} {Z Es scl Rm lam : ℝ} (P : RawParams) (t t' : Gen)
    (h : genStep mpole Z Es scl Rm lam P t = .ok t') (hT : imageM t.M = t.M) : imageM t'.M = t'.M := by
  unfold genStep at h
  dsimp only at h
  split at h
  · cases h; exact even_mul (driftT_even _) hT
  · cases h; exact even_mul (focusT_even _ _) hT
  · cases h; split
    · exact even_mul (kickT_even _) hT
    · exact hT
  · cases h; split
    · exact even_mul (focusT_even _ _) hT
    · exact hT
  · cases h; split
    · exact even_mul (focusT_even _ _) hT
    · exact hT
  · cases h; split
    · exact even_mul (kickT_even _) hT
    · exact hT
  · cases h; split
    · exact even_mul (focusT_even _ _) hT
    · exact hT
  · split at h
    · cases h
    · cases h; exact even_mul (accelT_even _) hT
  · cases h

theorem getCavMat_even {cav : Cav} {label : Nat} {Rm Z Es scl fy0 Ek : ℝ} {M : Mat} (h : getCavMat cav label Rm Z Es scl fy0 Ek = .ok M) :
    imageM M = M := by
  unfold getCavMat at h
  dsimp only at h
  split at h
  · cases h
  split at h
  · cases h
  split at h
  · cases h
  split at h
  · cases h
  split at h
  · cases h
  split at h
  · cases h
  split at h
  · cases h
  rename_i t ht
  cases h
  have := foldE_inv (P := fun t : Trans => imageM t.M = t.M) (fun q b b' hb => transStep_even hb) _ _ _ ht im_one
  rw [combine_im, this]

theorem getCavMatGeneric_even {cav : Cav} {Z Es scl fy0 Ek : ℝ} {M : Mat} (h : getCavMatGeneric cav Z Es scl fy0 Ek = .ok M) : imageM M = M := by
  unfold getCavMatGeneric at h
  dsimp only at h
  split at h
  · cases h
  split at h
  · cases h
  split at h
  · cases h
  rename_i t ht
  cases h
  have := foldE_inv (P := fun t : Gen => imageM t.M = t.M) (fun q b b' hb => genStep_even q b b' hb) _ _ _ ht im_one
  rw [combine_im, this]

theorem recomputeCav_even {cav : Cav} {ref ref' : Particle} {real : List Particle} {phi : ℝ} {l : List (Particle × Mat)}
    (h : recomputeCav c cav ref real = .ok (ref', phi, l)) : (l.map (fun x => x.2)).map imageM = l.map (fun x => x.2) := by
  rw [List.map_map]
  refine List.map_congr_left (fun q hq => ?_)
  unfold recomputeCav at h
  split at h
  · cases h
  split at h
  · cases h
  rename_i l' hl
  cases h
  obtain ⟨p, hpm, hp⟩ := forEach_all hl q hq
  split at hp
  · cases hp
  rename_i p' M he
  cases hp
  show imageM M = M
  unfold initRFCav at he
  split at he
  · cases he
  dsimp only at he
  split at he
  · cases he
  split at he
  · cases he
  split at he
  · cases he
  rename_i N hN
  cases he
  have hk : imageM N = N := by
    split at hN
    · exact getCavMat_even hN
    · exact getCavMatGeneric_even hN
  split
  · rw [jump_im, hk]
  · exact hk

/-! ## forward -/

theorem emitFactors_im (cav : Cav) (ref pin pout : Particle) (b g x2 cx y2 cy : ℝ) (M : Mat) :
    emitFactors cav ref pin pout b g x2 (-cx) y2 cy (imageM M) = emitFactors cav ref pin pout b g x2 cx y2 cy M := by
  have ha : ∀ kp v x, angleGrowth cav kp v x (-cx) = angleGrowth cav kp v x cx := by
    intro kp v x
    unfold angleGrowth
    rw [neg_mul_neg]
  unfold emitFactors
  simp only [im_self, ha]

theorem emitGrowth_im (cav : Cav) (ref pin pout : Particle) (b g x2 cx y2 cy : ℝ) (M : Mat) :
    emitGrowth cav ref pin pout b g x2 (-cx) y2 cy (imageM M) = imageM (emitGrowth cav ref pin pout b g x2 cx y2 cy M) := by
  unfold emitGrowth
  rw [emitFactors_im]
  cases emitFactors cav ref pin pout b g x2 cx y2 cy M with
  | none => rfl
  | some f =>
    obtain ⟨f1, f2, f3⟩ := f
    exact im_fold (fun M k => by simp only [im_times]) _ _

/-- What the loop gives in the mirror. -/
def imageR (r : Mat × Vec × Mat × Mat) : Mat × Vec × Mat × Mat := (imageM r.1, imageV r.2.1, imageM r.2.2.1, imageM r.2.2.2)

theorem image_0 (v : Vec) : imageV v 0 = -v 0 := by rw [imageV, s0, neg_one_mul]
theorem image_2 (v : Vec) : imageV v 2 = v 2 := by rw [imageV, s2, one_mul]
theorem image_5 (v : Vec) : imageV v 5 = v 5 := by rw [imageV, s5, one_mul]

theorem cavOne_im (cav : Cav) (ref : Particle) (T : Mat) (m : Mat × Mat) (p i o : Particle) (v : Vec) (S : Mat) :
    cavOne (imageC cav) ref (imageM T) (imageP m) p i o (imageV v) (imageM S) = imageR (cavOne cav ref T m p i o v S) := by
  have hT0 : setAt (setAt (imageM T) 4 6 0) 5 6 0 = imageM (setAt (setAt T 4 6 0) 5 6 0) := by
    simp only [im_set, mul_zero, zero_mul]
  have hT1 : ∀ (A : Mat) (x y : ℝ), setAt (setAt (imageM A) 4 6 x) 5 6 y = imageM (setAt (setAt A 4 6 x) 5 6 y) := by
    intro A x y
    simp only [im_set, s4, s5, s6, one_mul, mul_one]
  have hv3 : ∀ (w : Vec) (x y : ℝ), (fun i => if i = 4 then x else if i = 5 then y else imageV w i : Vec) =
      imageV (fun i => if i = 4 then x else if i = 5 then y else w i) := by
    intro w x y
    funext i
    by_cases h4 : i = 4
    · subst h4; simp [imageV, s4]
    · by_cases h5 : i = 5
      · subst h5; simp [imageV, s5]
      · simp only [imageV, if_neg h4, if_neg h5]
  unfold cavOne imageR
  simp only [imageP, im_mulVec, hT0, hT1, hv3, image_4, image_5, im_congr, show (imageC cav).emitGrowth = cav.emitGrowth from rfl,
    im_self, image_0, image_2, show ∀ a b c d e f g h i j, emitGrowth (imageC cav) a b c d e f g h i j = emitGrowth cav a b c d e f g h i j from fun _ _ _ _ _ _ _ _ _ _ => rfl,
    emitGrowth_im, im_mul]
  by_cases he : cav.emitGrowth ≠ 0
  · simp only [if_pos he, im_congr]
  · simp only [if_neg he, im_congr]

theorem grownOne_im (cav : Cav) (ref : Particle) (T : Mat) (m : Mat × Mat) (p i o : Particle) (v : Vec) (S : Mat) :
    grownOne (imageC cav) ref (imageM T) (imageP m) p i o (imageV v) (imageM S) ↔ grownOne cav ref T m p i o v S := by
  unfold grownOne
  rw [cavOne_im]
  simp only [imageR, imageP, im_mulVec, im_congr, im_self, image_0, image_2,
    show ∀ a b c d e f g h i j, emitFactors (imageC cav) a b c d e f g h i j = emitFactors cav a b c d e f g h i j from fun _ _ _ _ _ _ _ _ _ _ => rfl,
    emitFactors_im]
  rfl

theorem cavLoop_im (cav : Cav) (ref : Particle) : ∀ (Ts : List Mat) (ms : List (Mat × Mat)) (ps : List Particle)
    (es : List (Particle × Particle)) (vs : List Vec) (Ss : List Mat),
    cavLoop (imageC cav) ref (Ts.map imageM) (ms.map imageP) ps es (vs.map imageV) (Ss.map imageM) =
      (cavLoop cav ref Ts ms ps es vs Ss).map imageR
  | T :: Ts, m :: ms, p :: ps, e :: es, v :: vs, S :: Ss => by
    simp only [List.map_cons, cavLoop, cavOne_im, cavLoop_im cav ref Ts ms ps es vs Ss]
  | [], _, _, _, _, _ => by simp only [cavLoop, List.map_nil]
  | _ :: _, [], _, _, _, _ => by simp only [cavLoop, List.map_nil, List.map_cons]
  | _ :: _, _ :: _, [], _, _, _ => by simp only [List.map_nil, List.map_cons, cavLoop]
  | _ :: _, _ :: _, _ :: _, [], _, _ => by simp only [cavLoop, List.map_nil, List.map_cons]
  | _ :: _, _ :: _, _ :: _, _ :: _, [], _ => by simp only [cavLoop, List.map_nil, List.map_cons]
  | _ :: _, _ :: _, _ :: _, _ :: _, _ :: _, [] => by simp only [cavLoop, List.map_nil, List.map_cons]

theorem cavGrown_im (cav : Cav) (ref : Particle) : ∀ (Ts : List Mat) (ms : List (Mat × Mat)) (ps : List Particle)
    (es : List (Particle × Particle)) (vs : List Vec) (Ss : List Mat),
    cavGrown (imageC cav) ref (Ts.map imageM) (ms.map imageP) ps es (vs.map imageV) (Ss.map imageM) ↔ cavGrown cav ref Ts ms ps es vs Ss
  | T :: Ts, m :: ms, p :: ps, e :: es, v :: vs, S :: Ss => by
    simp only [List.map_cons, cavGrown, grownOne_im, cavGrown_im cav ref Ts ms ps es vs Ss]
  | [], _, _, _, _, _ => by simp only [cavGrown, List.map_nil]
  | _ :: _, [], _, _, _, _ => by simp only [cavGrown, List.map_nil, List.map_cons]
  | _ :: _, _ :: _, [], _, _, _ => by simp only [List.map_cons, cavGrown]
  | _ :: _, _ :: _, _ :: _, [], _, _ => by simp only [cavGrown, List.map_cons]
  | _ :: _, _ :: _, _ :: _, _ :: _, [], _ => by simp only [cavGrown, List.map_nil, List.map_cons]
  | _ :: _, _ :: _, _ :: _, _ :: _, _ :: _, [] => by simp only [cavGrown, List.map_nil, List.map_cons]

theorem finish_im (env : Env) (cav : Cav) {d : MDat} (h1 : MirroredElement "rfcavity" d.conf c') (w : Option Cav) (S : MSt) (s : St MSt) :
    Alike (DRel "rfcavity") (finish env cav d S s) (finish env (imageC cav) { imageD c' d with cav := w } (imageS S) (imageT s)) := by
  have hf : cavFault env (imageC cav) { imageD c' d with cav := w } (imageS S) = cavFault env cav d S := by
    unfold cavFault
    have := cavGrown_im cav S.ref d.transfer cav.misalign S.real (ends env d) S.moment0 S.moment1
    by_cases hg : cavGrown cav S.ref d.transfer cav.misalign S.real (ends env d) S.moment0 S.moment1
    · rw [if_pos hg]
      exact if_pos (this.2 hg)
    · rw [if_neg hg]
      exact if_neg (fun h => hg (this.1 h))
  unfold finish
  rw [hf]
  unfold cavForward
  dsimp only
  rw [show (imageC cav).misalign = cav.misalign.map imageP from rfl, show (imageS S).moment0 = S.moment0.map imageV from rfl,
    show (imageS S).moment1 = S.moment1.map imageM from rfl,
    show (imageS S).ref = S.ref from rfl, show (imageS S).real = S.real from rfl,
    show ends env { imageD c' d with cav := w } = ends env d from rfl, show (imageD c' d).transfer = d.transfer.map imageM from rfl, cavLoop_im]
  generalize cavLoop cav S.ref d.transfer cav.misalign S.real (ends env d) S.moment0 S.moment1 = rs
  refine ⟨rfl, congrArg (St.mk _ _) ?_, fun _ => ⟨c', h1, ?_⟩⟩
  · rw [← calcRms_im]
    simp only [imageS, List.map_map]
    rfl
  · simp only [imageD, List.map_map]
    rfl

theorem misalign_im {D D' : MDat} (h : Placed D D') (ref : Particle) (l : List Particle) :
    forEach (fun p => getMisalign D' ref p) l = (forEach (fun p => getMisalign D ref p) l).map (List.map imageP) :=
  Flame.Scale.forEach_post (fun p => getMisalign_im h ref p) l

theorem missed_im (env : Env) (files : Files) (cav : Cav) {d : MDat} (h1 : MirroredElement "rfcavity" d.conf c') (w : Option Cav)
    (m : List (Mat × Mat)) (S : MSt) (s : St MSt) :
    Alike (DRel "rfcavity") (missed env files d cav S s)
      (missed env files { imageD c' d with cav := w } (withMis m cav) (imageS S) (imageT s)) := by
  have hP : Placed d ({ imageD c' d with cav := w } : MDat) := ⟨rfl, rfl, rfl, rfl, rfl, rfl⟩
  unfold missed
  rw [show ({ imageD c' d with cav := w } : MDat).conf = c' from rfl, reload_c h1 env files, reload_with]
  generalize reload env files d.conf cav = z
  obtain ⟨cav1, o⟩ := z
  cases o with
  | some e => exact ⟨rfl, rfl, fun h => by cases h⟩
  | none =>
    dsimp only
    rw [show (imageS S).ref = S.ref from rfl, show (imageS S).real = S.real from rfl, recomputeCav_with, recomputeCav_c h1]
    cases hr : recomputeCav d.conf cav1 S.ref S.real with
    | error e => exact ⟨rfl, rfl, fun h => by cases h⟩
    | ok y =>
      obtain ⟨ref, phi, l⟩ := y
      have hev := recomputeCav_even hr
      dsimp only
      rw [misalign_im hP]
      cases forEach (fun p => getMisalign d ref p) (l.map (fun x => x.1)) with
      | error e => exact ⟨rfl, rfl, fun h => by cases h⟩
      | ok mis =>
        simp only [Except.map]
        generalize hS : ({ S with ref := ref, real := l.map (fun x => x.1) } : MSt).recalc = S1
        have hS' : ({ imageS S with ref := ref, real := l.map (fun x => x.1) } : MSt).recalc = imageS S1 := by
          rw [← hS]
          rfl
        have := finish_im (c' := c') env { cav1 with phiRef := some phi, misalign := mis }
          (d := { d with transfer := l.map (fun x => x.2), refOut := S1.ref, realOut := S1.real, cav := some { cav1 with phiRef := some phi, misalign := mis } }) h1
          (some (imageC { cav1 with phiRef := some phi, misalign := mis })) S1 s
        change Alike (DRel "rfcavity") _ (finish env (imageC { cav1 with phiRef := some phi, misalign := mis })
          { imageD c' d with transfer := l.map (fun x => x.2), refOut := (({ imageS S with ref := ref, real := l.map (fun x => x.1) } : MSt).recalc).ref, realOut := (({ imageS S with ref := ref, real := l.map (fun x => x.1) } : MSt).recalc).real, cav := some (imageC { cav1 with phiRef := some phi, misalign := mis }) }
          (({ imageS S with ref := ref, real := l.map (fun x => x.1) } : MSt).recalc) (imageT s))
        rw [hS']
        simp only [imageD, hev] at this
        exact this

/-! ## cavities -/

theorem cavity_im (env : Env) (files : Files) {d d' : MDat} (h : DRel "rfcavity" d d') (s : St MSt) :
    Alike (DRel "rfcavity") (advanceCavity env files d s) (advanceCavity env files d' (imageT s)) := by
  obtain ⟨c', h1, rfl⟩ := h
  have hP : Placed d (imageD c' d) := ⟨rfl, rfl, rfl, rfl, rfl, rfl⟩
  unfold advanceCavity
  rw [show (imageD c' d).cav = d.cav.map imageC from rfl]
  cases hc : d.cav with
  | none => exact ⟨rfl, rfl, fun h => by cases h⟩
  | some cav =>
    dsimp only [Option.map]
    rw [show (imageT s).payload.recalc = imageS s.payload.recalc from rfl, show (imageT s).retreat = s.retreat from rfl]
    generalize s.payload.recalc = S
    by_cases hret : s.retreat = true
    · rw [if_pos hret, if_pos hret]
      have hb : checkBackward (imageD c' d) (imageS S) ↔ checkBackward d S := Iff.rfl
      by_cases hcb : checkBackward d S
      swap
      · rw [if_pos hcb, if_pos (fun h => hcb (hb.1 h))]
        exact ⟨rfl, rfl, fun h => by cases h⟩
      rw [if_neg (not_not.2 hcb), if_neg (not_not.2 (hb.2 hcb))]
      rw [show (imageD c' d).realIn = d.realIn from rfl, show (imageD c' d).realOut = d.realOut from rfl,
        show (imageD c' d).refIn = d.refIn from rfl, show (imageD c' d).refOut = d.refOut from rfl,
        show (imageS S).ref = S.ref from rfl, show (imageS S).real = S.real from rfl, show (imageD c' d).transfer = d.transfer.map imageM from rfl]
      by_cases hl : d.realIn.length ≠ d.realOut.length
      · rw [if_pos hl, if_pos hl]
        exact ⟨rfl, rfl, fun h => by cases h⟩
      rw [if_neg hl, if_neg hl]
      generalize takenBack (d.refIn.getD d.refOut) d.refOut S.ref = ref
      generalize List.zipWith (fun (x : Particle × Particle) p => takenBack x.1 x.2 p) (d.realIn.zip d.realOut) S.real = real
      rw [misalign_im hP]
      cases forEach (fun p => getMisalign d ref p) real with
      | error e => exact ⟨rfl, rfl, fun h => by cases h⟩
      | ok mis =>
        simp only [Except.map]
        have hT : List.zipWith (fun (T : Mat) (m : Mat × Mat) => m.2 * (T * m.1)) (d.transfer.map imageM) (mis.map imageP) =
            (List.zipWith (fun (T : Mat) (m : Mat × Mat) => m.2 * (T * m.1)) d.transfer mis).map imageM := by
          rw [List.zipWith_map, List.map_zipWith]
          simp only [imageP, im_mul]
        rw [hT, show ({ imageS S with ref := ref, real := real, pos := (imageS S).pos - (imageD c' d).length } : MSt).recalc
            = imageS ({ S with ref := ref, real := real, pos := S.pos - d.length } : MSt).recalc from rfl, backward_im]
        generalize backward _ _ = z
        obtain ⟨S1, o⟩ := z
        cases o with
        | some e => exact ⟨rfl, rfl, fun h => by cases h⟩
        | none =>
          exact ⟨rfl, congrArg (St.mk _ _) (calcRms_im ({ S1 with last_caviphi0 := caviphi env { cav with misalign := mis } } : MSt)),
            fun _ => ⟨c', h1, rfl⟩⟩
    · rw [if_neg hret, if_neg hret]
      have hh : hit (imageD c' d) (imageS S) ↔ hit d S := Iff.rfl
      by_cases hd : hit d S
      · rw [if_pos hd, if_pos (hh.2 hd)]
        exact finish_im (c' := c') env cav (d := d) h1 (d.cav.map imageC) { S with ref := d.refOut, real := d.realOut ++ S.real.drop d.realOut.length } s
      · rw [if_neg hd, if_neg (fun h => hd (hh.1 h))]
        have := missed_im (c' := c') env files { cav with misalign := resizeMis S.real.length cav.misalign }
          (d := { d with refIn := some S.ref, realIn := S.real, transfer := resize S.real.length d.transfer, cav := some { cav with misalign := resizeMis S.real.length cav.misalign } })
          h1 (some { imageC cav with misalign := resizeMis S.real.length (imageC cav).misalign })
          (resizeMis S.real.length (imageC cav).misalign) S s
        simp only [imageD, ← resize_im] at this
        exact this

end Flame.Flip
