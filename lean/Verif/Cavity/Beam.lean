import Verif.Cavity.Pass
import Verif.Cavity.Gain
import Verif.Moment.Flight
import Verif.Util.PropsTable

/-!
# What a pass through an RF cavity does to the beam: C66
-/

namespace Flame.Cavity

open Flame.Mach (Cls St Err)
open Flame.Linear (LVal LCfg getNum getNumD getVec)
open Flame.Moment Flame.Moment.Spec

/-! ## particles -/

/-- `q` is `p` behind a cavity: it is the same ion, has followed the equations of motion, and its derived numbers are up to
date. -/
def Crossed (m : Spec.FieldMap) (f scl drive : ℝ) (p q : Particle) : Prop :=
  q.IonZ = p.IonZ ∧ q.IonQ = p.IonQ ∧ q.IonEs = p.IonEs ∧ q.SampleFreq = p.SampleFreq ∧ q.recalc = q ∧
  Spec.Crosses m f scl drive p.SampleFreq p.IonZ p.IonEs p.IonEk p.phis q.IonEk q.phis

theorem boost_crossed {t : Table} {f scl fy0 w fy drive : ℝ} {p : Particle} (hp : Moving p) (hf : f ≠ 0)
    (h : getCavBoost t f p fy0 scl = .ok (w, fy)) (h0 : fy0 = f / p.SampleFreq * p.phis + drive) :
    Crossed (mapOf t) f scl drive p (boosted p w fy0 fy (f / p.SampleFreq)) := by
  have hn : 2 ≤ t.rows.length := by
    by_contra hn
    rw [getCavBoost] at h
    simp only [if_pos (by omega : t.rows.length ≤ 1)] at h
    cases h
  obtain ⟨W, φ, K, hT, h1, h2, h3, h4, h5⟩ := (C45_motion hp.mass hp.beta_pos.ne' hn).1 h
  refine ⟨rfl, rfl, rfl, rfl, rfl, W, φ, K, ?_, ?_, ?_, ?_, ?_, ?_⟩
  · have : (C0 : ℝ) = 299792458 := by norm_num [C0]
    rw [this] at hT
    exact hT
  · rw [h1, hp.ionW]
  · rw [h2, h0]
  · rw [h3, h1, hp.ionW]
    have hs := hp.speed
    rw [Spec.speed] at hs
    rw [← hs]
    have hb := hp.beta_pos.ne'
    norm_num [C0]
    field_simp
  · show w - p.IonEs = _
    rw [h5]
    change _ = max 0 (W (t.rows.length - 1) - p.IonEs)
    rcases le_total p.IonEs (W (t.rows.length - 1)) with h | h
    · rw [max_eq_right h, max_eq_right (sub_nonneg.2 h)]
    · rw [max_eq_left h, sub_self, max_eq_left (sub_nonpos.2 h)]
  · show p.phis + (fy - fy0) / _ = _
    rw [h4, h2]
    rfl

theorem recalc_boosted (p : Particle) (w fy0 fy m k : ℝ) :
    Particle.recalc { boosted p w fy0 fy m with SampleIonK := k } = boosted p w fy0 fy m := rfl

theorem recompute_crossed {c : LCfg} {cav : Cav} {ref ref' : Particle} {real : List Particle} {phi : ℝ}
    {l : List (Particle × Mat)} (hr : Moving ref) (hp : ∀ p ∈ real, Moving p) (hf : cav.fRF ≠ 0)
    (h : recomputeCav c cav ref real = .ok (ref', phi, l)) : ∃ scl, c "scl_fac" = some (.num scl) ∧
    Crossed (mapOf cav.cavData) cav.fRF scl phi ref ref'.recalc ∧
    List.Forall₂ (Crossed (mapOf cav.cavData) cav.fRF scl phi) real ((l.map (·.1)).map Particle.recalc) := by
  unfold recomputeCav at h
  split at h
  · cases h
  rename_i r f hl
  split at h
  · cases h
  rename_i l' hl'
  cases h
  unfold propagateLong at hl
  dsimp only at hl
  split at hl
  · cases hl
  rename_i scl hscl
  split at hl
  · cases hl
  rename_i fy hfy
  split at hl
  · cases hl
  rename_i w fy1 hb
  cases hl
  refine ⟨scl, getNum_some hscl, ?_, ?_⟩
  · exact boost_crossed hr hf hb rfl
  have h2 := forEach_ok.1 hl'
  clear hl' hb hfy
  induction h2 with
  | nil => exact .nil
  | @cons p q real l' hd _ ih =>
    refine .cons ?_ (ih fun p h => hp p (List.mem_cons_of_mem _ h))
    split at hd
    · cases hd
    · rename_i p' M he
      have h1 := hp p (List.mem_cons_self ..)
      cases hd
      unfold initRFCav at he
      split at he
      · cases he
      dsimp only at he
      rw [hscl] at he
      dsimp only at he
      split at he
      · cases he
      rename_i w2 fy2 hb2
      split at he
      · cases he
      cases he
      have hW : p.IonEk + p.IonEs = p.IonW := by rw [h1.ionW, add_comm]
      rw [hW] at hb2
      show Crossed _ _ _ _ _ (Particle.recalc _)
      rw [recalc_boosted]
      exact boost_crossed h1 hf hb2 rfl

/-! ## one charge state -/

theorem mulVec_six {M : Mat} (hM : Keeps7 M) (v : Vec) : M.mulVec v 6 = v 6 := by
  have e : M.mulVec v 6 = ∑ j, M 6 j * v j := rfl
  rw [e, Finset.sum_eq_single 6]
  · rw [hM 6, if_pos rfl, one_mul]
  · intro j _ hj
    rw [hM j, if_neg hj, zero_mul]
  · simp

/-- The matrix that is reported is the one that has moved the centroid and, without growth of the emittance, the
covariance. -/
theorem cavOne_moves (cav : Cav) (ref : Particle) (T : Mat) (mis : Mat × Mat) (p pin pout : Particle) (v : Vec) (S : Mat)
    (h1 : Keeps7 mis.1) (hv : v 6 = 1) :
    (cavOne cav ref T mis p pin pout v S).2.1 = (cavOne cav ref T mis p pin pout v S).2.2.2.mulVec v ∧
    (cav.emitGrowth = 0 → (cavOne cav ref T mis p pin pout v S).2.2.1 =
      congr (cavOne cav ref T mis p pin pout v S).2.2.2 S) := by
  constructor
  · have h6 : mis.1.mulVec v 6 = 1 := (mulVec_six h1 v).trans hv
    simp only [cavOne, ← Matrix.mulVec_mulVec]
    congr 1
    generalize mis.1.mulVec v = w at h6
    ext i
    simp only [Matrix.mulVec, dotProduct, Fin.sum_univ_seven]
    fin_cases i <;> simp [setAt, h6] <;> ring
  · intro he
    simp only [cavOne, if_neg (not_not.2 he), Moment.congr, Matrix.transpose_mul, Matrix.mul_assoc]

theorem rotMat_roll_lon (dx dy c : ℝ) (v : Vec) :
    ((rotMat dx dy 0 0 c)⁻¹).mulVec v 4 = v 4 ∧ ((rotMat dx dy 0 0 c)⁻¹).mulVec v 5 = v 5 := by
  have h : (rotMat dx dy 0 0 c).mulVec (((rotMat dx dy 0 0 c)⁻¹).mulVec v) = v := by
    rw [Matrix.mulVec_mulVec, (rotMat_inv _ _ _ _ _).2, Matrix.one_mulVec]
  generalize ((rotMat dx dy 0 0 c)⁻¹).mulVec v = w at h
  have k : ∀ i, (rotMat dx dy 0 0 c).mulVec w i = v i := fun i => congrFun h i
  have k4 := k 4
  have k5 := k 5
  simp only [Matrix.mulVec, dotProduct, Fin.sum_univ_seven] at k4 k5
  constructor
  · rw [← k4, rollM_eq]
    simp [rollM]
  · rw [← k5, rollM_eq]
    simp [rollM]

theorem cavLoop_get {cav : Cav} {ref : Particle} : ∀ {Ts : List Mat} {ms : List (Mat × Mat)} {ps : List Particle}
    {es : List (Particle × Particle)} {vs : List Vec} {Ss : List Mat} {k : Nat} {r : Mat × Vec × Mat × Mat},
    (cavLoop cav ref Ts ms ps es vs Ss)[k]? = some r → ∃ T m p e v S, Ts[k]? = some T ∧ ms[k]? = some m ∧ ps[k]? = some p ∧
      es[k]? = some e ∧ vs[k]? = some v ∧ Ss[k]? = some S ∧ r = cavOne cav ref T m p e.1 e.2 v S
  | T :: Ts, m :: ms, p :: ps, e :: es, v :: vs, S :: Ss, 0, r, h => by
    simp only [cavLoop, List.getElem?_cons_zero, Option.some.injEq] at h
    exact ⟨T, m, p, e, v, S, rfl, rfl, rfl, rfl, rfl, rfl, h.symm⟩
  | T :: Ts, m :: ms, p :: ps, e :: es, v :: vs, S :: Ss, k + 1, r, h => by
    simp only [cavLoop, List.getElem?_cons_succ] at h
    exact cavLoop_get (Ts := Ts) (ms := ms) (ps := ps) (es := es) (vs := vs) (Ss := Ss) (k := k) h
  | [], _, _, _, _, _, _, _, h => by simp [cavLoop] at h
  | _ :: _, [], _, _, _, _, _, _, h => by simp [cavLoop] at h
  | _ :: _, _ :: _, [], _, _, _, _, _, h => by simp [cavLoop] at h
  | _ :: _, _ :: _, _ :: _, [], _, _, _, _, h => by simp [cavLoop] at h
  | _ :: _, _ :: _, _ :: _, _ :: _, [], _, _, _, h => by simp [cavLoop] at h
  | _ :: _, _ :: _, _ :: _, _ :: _, _ :: _, [], _, _, h => by simp [cavLoop] at h

/-- The maps of the moments in `cavForward`, if all lists have the same length. -/
theorem cavForward_moves {env : Env} {cav : Cav} {d : MDat} {S : MSt} {n : Nat} (h1 : d.transfer.length = n)
    (h2 : cav.misalign.length = n) (h3 : S.real.length = n) (h4 : d.realIn.length = n) (h5 : S.moment0.length = n)
    (h6 : S.moment1.length = n) (hk : ∀ m ∈ cav.misalign, Keeps7 m.1) (hv : ∀ v ∈ S.moment0, v 6 = 1) :
    (cavForward env cav d S).2.transmat.length = n ∧
    (cavForward env cav d S).2.moment0 = List.zipWith (fun M v => M.mulVec v) (cavForward env cav d S).2.transmat S.moment0 ∧
    (cavForward env cav d S).2.moment1.length = n ∧
    (cav.emitGrowth = 0 →
      movedBy (cavForward env cav d S).2.transmat S.moment0 S.moment1 (cavForward env cav d S).2.moment0
        (cavForward env cav d S).2.moment1) := by
  have hl : (cavLoop cav S.ref d.transfer cav.misalign S.real (ends env d) S.moment0 S.moment1).length = n := by
    refine le_antisymm ?_ (cavLoop_length _ _ n _ _ _ _ _ _ h1.ge h2.ge h3.ge (by rw [ends_length, h4]) h5.ge h6.ge)
    by_contra hc
    obtain ⟨T, m, p, e, v, C, hT, -⟩ := cavLoop_get (List.getElem?_eq_getElem (Nat.lt_of_not_le hc))
    rw [List.getElem?_eq_none h1.le] at hT
    cases hT
  have hg := fun k r => @cavLoop_get cav S.ref d.transfer cav.misalign S.real (ends env d) S.moment0 S.moment1 k r
  have e0 : (cavForward env cav d S).2.moment0 =
      (cavLoop cav S.ref d.transfer cav.misalign S.real (ends env d) S.moment0 S.moment1).map (fun q => q.2.1) := rfl
  have e1 : (cavForward env cav d S).2.moment1 =
      (cavLoop cav S.ref d.transfer cav.misalign S.real (ends env d) S.moment0 S.moment1).map (fun q => q.2.2.1) := rfl
  have e2 : (cavForward env cav d S).2.transmat =
      (cavLoop cav S.ref d.transfer cav.misalign S.real (ends env d) S.moment0 S.moment1).map (fun q => q.2.2.2) := rfl
  rw [e0, e1, e2]
  generalize cavLoop cav S.ref d.transfer cav.misalign S.real (ends env d) S.moment0 S.moment1 = rs at hl hg
  have a0 : rs.map (fun q => q.2.1) = List.zipWith (fun M v => M.mulVec v) (rs.map (fun q => q.2.2.2)) S.moment0 := by
    apply List.ext_getElem? 
    intro k
    rw [List.getElem?_zipWith, List.getElem?_map, List.getElem?_map]
    cases hr : rs[k]? with
    | none => rfl
    | some r =>
      obtain ⟨T, m, p, e, v, C, -, hm, -, -, hv', -, rfl⟩ := hg k r hr
      simp only [Option.map_some, hv']
      rw [(cavOne_moves cav S.ref T m p e.1 e.2 v C (hk m (List.mem_of_getElem? hm)) (hv v (List.mem_of_getElem? hv'))).1]
  refine ⟨by simp [hl], a0, by simp [hl], fun he => ⟨by simp [hl, h5], a0, by simp [hl, h6], ?_⟩⟩
  apply List.ext_getElem?
  intro k
  rw [List.getElem?_zipWith, List.getElem?_map, List.getElem?_map]
  cases hr : rs[k]? with
  | none => rfl
  | some r =>
    obtain ⟨T, m, p, e, v, C, -, hm, -, -, hv', hC, rfl⟩ := hg k r hr
    simp only [Option.map_some, hC]
    rw [(cavOne_moves cav S.ref T m p e.1 e.2 v C (hk m (List.mem_of_getElem? hm)) (hv v (List.mem_of_getElem? hv'))).2 he]
    rfl

/-- Where the charge states are with respect to the reference particle. -/
theorem cavForward_lon {env : Env} {cav : Cav} {d : MDat} {S : MSt} {a b c : ℝ}
    (hm : ∀ m ∈ cav.misalign, m.2 = (rotMat a b 0 0 c)⁻¹) (k : Nat) (v : Vec)
    (hk : (cavForward env cav d S).2.moment0[k]? = some v) : ∃ p, S.real[k]? = some p ∧
      v 4 = p.phis - S.ref.phis ∧ v 5 = (p.IonEk - S.ref.IonEk) / MeVtoeV := by
  have e0 : (cavForward env cav d S).2.moment0 =
      (cavLoop cav S.ref d.transfer cav.misalign S.real (ends env d) S.moment0 S.moment1).map (fun q => q.2.1) := rfl
  rw [e0, List.getElem?_map, Option.map_eq_some_iff] at hk
  obtain ⟨r, hr, rfl⟩ := hk
  obtain ⟨T, m, p, e, w, C, -, hm', hp, -, -, -, rfl⟩ := cavLoop_get hr
  refine ⟨p, hp, ?_⟩
  simp only [cavOne, hm m (List.mem_of_getElem? hm')]
  constructor
  · rw [(rotMat_roll_lon _ _ _ _).1]
    simp
  · rw [(rotMat_roll_lon _ _ _ _).2]
    simp

/-! ## C66: a pass -/

theorem forEach_all {α β : Type} {f : α → Except Err β} {l : List α} {r : List β} (h : forEach f l = .ok r) :
    ∀ b ∈ r, ∃ a ∈ l, f a = .ok b := by
  have h2 := forEach_ok.1 h
  clear h
  induction h2 with
  | nil => simp
  | @cons a b l r hd _ ih =>
    intro x hx
    rcases List.mem_cons.1 hx with rfl | hx
    · exact ⟨a, by simp, hd⟩
    · obtain ⟨a', ha, he⟩ := ih x hx
      exact ⟨a', List.mem_cons_of_mem _ ha, he⟩

theorem miss {d : MDat} (S : MSt) (h : d.refIn = none) : ¬ hit d S := by
  rintro ⟨-, ⟨r, hr, -⟩, -⟩
  rw [h] at hr
  cases hr

/-- A beam of moving ions crosses a cavity that has not been used since it was built or configured.  The reference particle
and all charge states follow the equations of motion in the field of the cavity, which oscillates with one phase for all of
them; the matrices reported are those that have moved the centroids and, unless the growth of the emittance is asked for, the
covariances; without pitch and yaw the longitudinal centroid of each charge state is where its particle is with respect to
the reference particle. -/
theorem C66_pass {env : Env} {files : Files} {d d' : MDat} {s s' : St MSt} (hr : s.retreat = false) (h0 : d.refIn = none)
    (hw : WF s.payload) (h1 : ∀ v ∈ s.payload.moment0, v 6 = 1) (hm : Moving s.payload.ref.recalc)
    (hp : ∀ p ∈ s.payload.real, Moving p.recalc) (h : advanceCavity env files d s = (d', s', none)) :
    ∃ cav phi scl, d'.cav = some cav ∧ cav.phiRef = some phi ∧ d.conf "scl_fac" = some (.num scl) ∧
      s'.payload.pos = s.payload.pos + d.length ∧
      (cav.fRF ≠ 0 → Crossed (mapOf cav.cavData) cav.fRF scl phi s.payload.ref.recalc s'.payload.ref ∧
        List.Forall₂ (Crossed (mapOf cav.cavData) cav.fRF scl phi) (s.payload.real.map Particle.recalc) s'.payload.real) ∧
      s'.payload.transmat.length = s.payload.real.length ∧
      s'.payload.moment0 = List.zipWith (fun M v => M.mulVec v) s'.payload.transmat s.payload.moment0 ∧
      (cav.emitGrowth = 0 → movedBy s'.payload.transmat s.payload.moment0 s.payload.moment1 s'.payload.moment0
        s'.payload.moment1) ∧
      (d.pitch = 0 → d.yaw = 0 → ∀ (k : Nat) (v : Vec), s'.payload.moment0[k]? = some v → ∃ p, s'.payload.real[k]? = some p ∧
        v 4 = p.phis - s'.payload.ref.phis ∧ v 5 = (p.IonEk - s'.payload.ref.IonEk) / 1000000) ∧
      s'.payload.calcRms = s'.payload := by
  obtain ⟨cav0, -, ⟨hh, -⟩ | ⟨-, cav, ref, phi, l, mis, -, hrec, hmis, -, rfl, rfl⟩⟩ := forward_cases hr h
  · exact absurd hh (miss _ h0)
  have hp' : ∀ p ∈ s.payload.recalc.real, Moving p := by
    intro p hx
    obtain ⟨q, hq, rfl⟩ := List.mem_map.1 (show p ∈ s.payload.real.map Particle.recalc from hx)
    exact hp q hq
  have hl := recomputeCav_length hrec
  have hlm := (forEach_ok.1 hmis).length_eq
  rw [List.length_map] at hlm
  have hlen : s.payload.recalc.real.length = s.payload.real.length := by simp [MSt.recalc]
  rw [hlen] at hl
  obtain ⟨w0, w1, -⟩ := hw
  have hscl : ∃ scl, d.conf "scl_fac" = some (.num scl) := by
    unfold recomputeCav at hrec
    split at hrec
    · cases hrec
    rename_i r f hl
    unfold propagateLong at hl
    dsimp only at hl
    split at hl
    · cases hl
    rename_i scl hscl
    exact ⟨scl, getNum_some hscl⟩
  obtain ⟨scl, hscl⟩ := hscl
  have hmv := @cavForward_moves env { cav with phiRef := some phi, misalign := mis }
    (filledDat d s.payload.recalc { cav with phiRef := some phi, misalign := mis } ref l) (filledSt s.payload.recalc ref l)
    s.payload.real.length (by simp [filledDat, hl]) (by rw [← hlm, hl]) (by simp [filledSt, MSt.recalc, hl]) hlen w0 w1
    (fun m hm' => by
      obtain ⟨p, -, he⟩ := forEach_all hmis m hm'
      exact (keeps_nice.misalign he).1) h1
  have e0 : (filledSt s.payload.recalc ref l).moment0 = s.payload.moment0 := rfl
  have e1 : (filledSt s.payload.recalc ref l).moment1 = s.payload.moment1 := rfl
  rw [e0, e1] at hmv
  have hlon : d.pitch = 0 → d.yaw = 0 → ∀ (k : Nat) (v : Vec),
      (cavForward env { cav with phiRef := some phi, misalign := mis }
        (filledDat d s.payload.recalc { cav with phiRef := some phi, misalign := mis } ref l)
        (filledSt s.payload.recalc ref l)).2.moment0[k]? = some v →
      ∃ p, (filledSt s.payload.recalc ref l).real[k]? = some p ∧
        v 4 = p.phis - (filledSt s.payload.recalc ref l).ref.phis ∧
        v 5 = (p.IonEk - (filledSt s.payload.recalc ref l).ref.IonEk) / 1000000 := by
    intro h4 h5 k v hv
    obtain ⟨p, hp1, hp2, hp3⟩ := cavForward_lon (a := d.dx) (b := d.dy) (c := d.roll) (fun m hm' => by
      obtain ⟨p, -, he⟩ := forEach_all hmis m hm'
      obtain ⟨z1, z2⟩ := getMisalign_ok he
      rw [getMisalign_roll d ref p h4 h5 z1 z2] at he
      cases he
      rfl) k v hv
    refine ⟨p, hp1, hp2, ?_⟩
    rw [hp3]
    norm_num [MeVtoeV]
  have er : (cavForward env { cav with phiRef := some phi, misalign := mis }
        (filledDat d s.payload.recalc { cav with phiRef := some phi, misalign := mis } ref l)
        (filledSt s.payload.recalc ref l)).2.real = (l.map (·.1)).map Particle.recalc := rfl
  have ef : (cavForward env { cav with phiRef := some phi, misalign := mis }
        (filledDat d s.payload.recalc { cav with phiRef := some phi, misalign := mis } ref l)
        (filledSt s.payload.recalc ref l)).2.ref = ref.recalc := rfl
  have ep : (cavForward env { cav with phiRef := some phi, misalign := mis }
        (filledDat d s.payload.recalc { cav with phiRef := some phi, misalign := mis } ref l)
        (filledSt s.payload.recalc ref l)).2.pos = s.payload.pos + d.length := rfl
  have ec : (cavForward env { cav with phiRef := some phi, misalign := mis }
        (filledDat d s.payload.recalc { cav with phiRef := some phi, misalign := mis } ref l)
        (filledSt s.payload.recalc ref l)).2.calcRms = (cavForward env { cav with phiRef := some phi, misalign := mis }
        (filledDat d s.payload.recalc { cav with phiRef := some phi, misalign := mis } ref l)
        (filledSt s.payload.recalc ref l)).2 := rfl
  refine ⟨{ cav with phiRef := some phi, misalign := mis }, phi, scl, rfl, rfl, hscl, ?_⟩
  rw [show (filledSt s.payload.recalc ref l).real = (l.map (·.1)).map Particle.recalc from rfl,
    show (filledSt s.payload.recalc ref l).ref = ref.recalc from rfl] at hlon
  dsimp only
  rw [er, ef]
  refine ⟨ep, fun hf => ?_, hmv.1, hmv.2.1, hmv.2.2.2, hlon, ec⟩
  obtain ⟨scl', e, hc1, hc2⟩ := recompute_crossed hm hp' hf hrec
  rw [hscl] at e
  cases e
  exact ⟨hc1, hc2⟩

/-! ## C66 for a cavity as configured -/

/-- `m` is the field map that the settings ask for. -/
def FieldOf (files : Files) (c : LCfg) (m : Spec.FieldMap) : Prop :=
  ∃ ty dir, c "cavtype" = some (.str ty) ∧ (c "Eng_Data_Dir" = some (.str dir) ∨ dir = "." ∧ ∀ x, c "Eng_Data_Dir" ≠ some (.str x)) ∧
    ((∃ name t, Spec.axisFile ty = some name ∧ files.table (dir ++ "/" ++ name) = .ok t ∧ m = Spec.ofRows t.rows) ∨
     (ty = "Generic" ∧ ∃ f top els Ez, c "datafile" = some (.str f) ∧ files.generic (dir ++ "/" ++ f) = .ok (top, els) ∧
       top "Ez" = some (.vec Ez) ∧ m = Spec.ofPairs Ez))

theorem mapOf_rows {t : Table} (h : t.rows ≠ []) : mapOf t = Spec.ofRows t.rows := by
  unfold mapOf Spec.ofRows
  congr 1
  · funext i
    rw [List.getD_eq_getElem?_getD, List.getElem?_map, List.getD_eq_getElem?_getD (l := t.rows)]
    cases t.rows[i]? <;> rfl
  · congr 2
    · rw [List.getLastD_eq_getLast?, List.getLast?_map, List.getLast?_eq_getElem?,
        List.getD_eq_getElem?_getD (l := t.rows)]
      cases t.rows[t.rows.length - 1]? <;> rfl
    · cases hr : t.rows with
      | nil => exact absurd hr h
      | cons a l => rfl

theorem getStr_some {c : LCfg} {k x : String} (h : getStr c k = .ok x) : c k = some (.str x) := by
  unfold getStr at h
  split at h
  · rename_i hc
    cases h
    exact hc
  · cases h

theorem getStrD_dir (c : LCfg) : c "Eng_Data_Dir" = some (.str (getStrD c "Eng_Data_Dir" ".")) ∨
    getStrD c "Eng_Data_Dir" "." = "." ∧ ∀ x, c "Eng_Data_Dir" ≠ some (.str x) := by
  unfold getStrD
  split
  · rename_i x hx
    exact .inl hx
  · rename_i hx
    exact .inr ⟨rfl, hx⟩

theorem shipped_axis {ty lab : String} {i : Nat} (h : shipped ty = some (i, lab)) :
    Spec.axisFile ty = some ("axisData_" ++ lab ++ ".txt") := by
  unfold shipped at h
  split at h <;> cases h <;> decide

theorem loadShipped_map {files : Files} {dir lab : String} {cav0 cav : Cav} (h : loadShipped files dir lab cav0 = (cav, none)) :
    files.table (dir ++ "/axisData_" ++ lab ++ ".txt") = .ok cav.cavData ∧ cav.cavData.rows ≠ [] ∧ cav.fRF = cav0.fRF ∧
      cav.cavType = cav0.cavType ∧ cav.dataFile = cav0.dataFile := by
  unfold loadShipped at h
  dsimp only at h
  split at h
  · cases h
  rename_i t ht
  split at h
  · cases h
  rename_i hr
  split at h
  · cases h
  split at h
  · cases h
  split at h
  · cases h
  cases h
  exact ⟨ht, fun hc => hr (.inl hc), rfl, rfl, rfl⟩

theorem pairs_map {Ez : List ℝ} {n k : Nat} {m : Nat → Nat → ℝ} (h : Flame.Util.readvec Ez 2 0 = some (n, k, m)) (hn : 1 ≤ n) :
    Spec.ofRows ((List.range n).map (fun i => [m i 0, m i 1])) = Spec.ofPairs Ez := by
  obtain ⟨a, b⟩ := Flame.Util.C42_readvec Ez 2 0
  by_cases hd : 2 ∣ Ez.length
  · obtain ⟨rows, m', h1, h2, h3⟩ := a (by norm_num) hd
    rw [h] at h1
    cases h1
    have hrow : ∀ i < n, ((List.range n).map (fun i => [m i 0, m i 1])).getD i [] = [m i 0, m i 1] := by
      intro i hi
      rw [List.getD_eq_getElem?_getD, List.getElem?_map, List.getElem?_range hi]
      rfl
    have hg : ∀ i < n, Ez.getD (2 * i) 0 = m i 0 ∧ Ez.getD (2 * i + 1) 0 = m i 1 := by
      intro i hi
      rw [List.getD_eq_getElem?_getD, List.getD_eq_getElem?_getD, Nat.mul_comm 2 i, ← Nat.add_zero (i * 2), h3 i 0 hi (by norm_num),
        Nat.add_zero, h3 i 1 hi (by norm_num)]
      exact ⟨rfl, rfl⟩
    unfold Spec.ofRows Spec.ofPairs
    have hl : ((List.range n).map (fun i => [m i 0, m i 1])).length = n := by simp
    congr 1
    · funext i
      by_cases hi : i < n
      · rw [hrow i hi, (hg i hi).2]
        rfl
      · rw [List.getD_eq_getElem?_getD (l := List.map _ _), List.getD_eq_getElem?_getD (l := Ez), List.getElem?_eq_none (by omega : Ez.length ≤ _)]
        have : ((List.range n).map (fun i => [m i 0, m i 1]))[i]? = none := List.getElem?_eq_none (by rw [hl]; omega)
        rw [this]
        rfl
    · rw [hl]
      omega
    · rw [hl, hrow _ (by omega), hrow _ (by omega), show Ez.length - 2 = 2 * (n - 1) by omega, (hg _ (by omega)).1,
        show Ez.getD 0 0 = Ez.getD (2 * 0) 0 from rfl, (hg _ (by omega)).1]
      have : (Ez.length : ℝ) = n * 2 := by exact_mod_cast h2.symm
      rw [this]
      congr 2
      ring
  · rw [b (.inr hd)] at h
    cases h

theorem loadGeneric_map {files : Files} {cav0 cav : Cav} (h : loadGeneric files cav0 = (cav, none)) :
    (∃ top els Ez, files.generic cav0.dataFile = .ok (top, els) ∧ top "Ez" = some (.vec Ez) ∧
      (2 ≤ cav.cavData.rows.length → mapOf cav.cavData = Spec.ofPairs Ez)) ∧
      cav.fRF = cav0.fRF ∧ cav.cavType = cav0.cavType ∧ cav.dataFile = cav0.dataFile := by
  unfold loadGeneric at h
  dsimp only at h
  split at h
  · cases h
  rename_i top els hg
  split at h
  · cases h
  split at h
  · cases h
  rename_i Ez hE
  split at h
  · cases h
  rename_i n k m hrv
  cases h
  refine ⟨⟨top, els, Ez, hg, ?_, fun hn => ?_⟩, rfl, rfl, rfl⟩
  · unfold getVec at hE
    split at hE
    · rename_i h1
      cases hE
      exact h1
    · cases hE
  · have hne : (List.range n).map (fun i => [m i 0, m i 1]) ≠ [] := by
      intro hc
      have := congrArg List.length hc
      simp only [List.length_map, List.length_range, List.length_nil] at this hn
      omega
    rw [mapOf_rows hne]
    exact pairs_map hrv (by simpa using Nat.le_of_succ_le hn)

theorem loadCavity_map {env : Env} {files : Files} {c : LCfg} {cav0 cav : Cav} (h : loadCavity env files c cav0 = (cav, none)) :
    c "f" = some (.num cav.fRF) ∧ (2 ≤ cav.cavData.rows.length → FieldOf files c (mapOf cav.cavData)) ∧
      getStr c "cavtype" = .ok cav.cavType ∧
      (cav.cavType = "Generic" → ∃ f, getStr c "datafile" = .ok f ∧ cav.dataFile = getStrD c "Eng_Data_Dir" "." ++ "/" ++ f) := by
  unfold loadCavity at h
  dsimp only at h
  split at h
  · cases h
  rename_i f hf
  split at h
  · cases h
  split at h
  · cases h
  split at h
  · cases h
  split at h
  · cases h
  split at h
  · cases h
  rename_i ty hty
  split at h
  · rename_i i lab hs
    obtain ⟨h1, h2, h3, h4, h5⟩ := loadShipped_map h
    dsimp only at h3 h4 h5
    refine ⟨?_, fun _ => ⟨ty, _, getStr_some hty, getStrD_dir c, .inl ⟨_, cav.cavData, shipped_axis hs, ?_, mapOf_rows h2⟩⟩, ?_, ?_⟩
    · rw [h3]
      exact getNum_some hf
    · rw [← h1]
      simp only [String.append_assoc]
      rfl
    · rw [h4]
      exact hty
    · intro hc
      rw [h4] at hc
      rw [hc] at hs
      cases hs
  · split at h
    · rename_i hG
      split at h
      · cases h
      rename_i fn hfn
      obtain ⟨⟨top, els, Ez, g1, g2, g3⟩, h3, h4, h5⟩ := loadGeneric_map h
      dsimp only at h3 h4 h5 g1
      refine ⟨?_, fun hn => ⟨ty, _, getStr_some hty, getStrD_dir c, .inr ⟨hG, fn, top, els, Ez, getStr_some hfn, g1, g2, g3 hn⟩⟩,
        ?_, fun _ => ⟨fn, hfn, h5⟩⟩
      · rw [h3]
        exact getNum_some hf
      · rw [h4]
        exact hty
    · cases h

theorem reload_same {env : Env} {files : Files} {c : LCfg} {cav : Cav} (h1 : getStr c "cavtype" = .ok cav.cavType)
    (h2 : cav.cavType = "Generic" → ∃ f, getStr c "datafile" = .ok f ∧ cav.dataFile = getStrD c "Eng_Data_Dir" "." ++ "/" ++ f)
    (mis : List (Mat × Mat)) :
    reload env files c { cav with misalign := mis } = ({ cav with misalign := mis }, none) := by
  unfold reload
  rw [h1]
  dsimp only
  rw [if_neg (by simp)]
  split
  · rename_i hG
    obtain ⟨f, h3, h4⟩ := h2 hG
    rw [h3]
    dsimp only
    rw [if_neg (by simp [h4])]
  · rfl

/-- A successful pass needs a field map with two points. -/
theorem recomputeCav_points {c : LCfg} {cav : Cav} {ref : Particle} {real : List Particle} {r : Particle × ℝ × List (Particle × Mat)}
    (h : recomputeCav c cav ref real = .ok r) : 2 ≤ cav.cavData.rows.length := by
  unfold recomputeCav at h
  split at h
  · cases h
  rename_i r f hl
  unfold propagateLong at hl
  dsimp only at hl
  split at hl
  · cases hl
  split at hl
  · cases hl
  split at hl
  · cases hl
  rename_i hb
  by_contra hn
  rw [getCavBoost] at hb
  simp only [if_pos (by omega : cav.cavData.rows.length ≤ 1)] at hb
  cases hb

theorem forward_fresh {env : Env} {files : Files} {d d' : MDat} {s s' : St MSt} (hr : s.retreat = false) (h0 : d.refIn = none)
    (h : advanceCavity env files d s = (d', s', none)) : ∃ cav0 cav ref phi l, d.cav = some cav0 ∧
      reload env files d.conf { cav0 with misalign := resizeMis s.payload.recalc.real.length cav0.misalign } = (cav, none) ∧
      recomputeCav d.conf cav s.payload.recalc.ref s.payload.recalc.real = .ok (ref, phi, l) ∧
      s'.payload.ref = ref.recalc ∧ s'.payload.real = (l.map (·.1)).map Particle.recalc ∧
      s'.payload.last_caviphi0 = fmod (phi * 180 / Real.pi) 360 := by
  obtain ⟨cav0, hc0, ⟨hh, -⟩ | ⟨-, cav, ref, phi, l, mis, hre, hrec, hmis, -, rfl, rfl⟩⟩ := forward_cases hr h
  · exact absurd hh (miss _ h0)
  · exact ⟨cav0, cav, ref, phi, l, hc0, hre, hrec, rfl, rfl, rfl⟩

theorem recompute_scale {c : LCfg} {cav : Cav} {ref : Particle} {real : List Particle} {r : Particle × ℝ × List (Particle × Mat)}
    (h : recomputeCav c cav ref real = .ok r) : ∃ scl, c "scl_fac" = some (.num scl) := by
  unfold recomputeCav at h
  split at h
  · cases h
  rename_i r f hl
  unfold propagateLong at hl
  dsimp only at hl
  split at hl
  · cases hl
  rename_i scl hscl
  exact ⟨scl, getNum_some hscl⟩

/-- The first beam in a cavity as it was built from its settings: `C66_pass` with the field map, the frequency and the scale
that were asked for. -/
theorem C66_built {env : Env} {files : Files} {junk : Mat} {c : LCfg} {d d' : MDat} {s s' : St MSt}
    (hb : buildCavity env files junk c = .ok d) (hr : s.retreat = false) (hm : Moving s.payload.ref.recalc)
    (hp : ∀ p ∈ s.payload.real, Moving p.recalc) (h : advanceCavity env files d s = (d', s', none)) :
    ∃ m f scl phi, FieldOf files c m ∧ c "f" = some (.num f) ∧ c "scl_fac" = some (.num scl) ∧
      (f ≠ 0 → Crossed m f scl phi s.payload.ref.recalc s'.payload.ref ∧
        List.Forall₂ (Crossed m f scl phi) (s.payload.real.map Particle.recalc) s'.payload.real) := by
  obtain ⟨d0, cav, h0, hl, rfl⟩ := loadCavity_ok hb
  obtain ⟨-, b1, b3, -⟩ := build_length h0
  obtain ⟨l1, l2, l3, l4⟩ := loadCavity_map hl
  obtain ⟨cav0, cav1, ref, phi, l, hc0, hre, hrec, e1, e2, -⟩ := forward_fresh hr (by exact b3) h
  rw [e1, e2]
  clear h e1 e2 hb
  cases hc0
  dsimp only at hre hrec
  rw [b1, reload_same l3 l4] at hre
  have k1 : cav1.cavData = cav.cavData := (congrArg (fun q => q.1.cavData) hre).symm
  have k2 : cav1.fRF = cav.fRF := (congrArg (fun q => q.1.fRF) hre).symm
  rw [b1] at hrec
  have hp' : ∀ p ∈ s.payload.recalc.real, Moving p := by
    intro p hx
    obtain ⟨q, hq, rfl⟩ := List.mem_map.1 (show p ∈ s.payload.real.map Particle.recalc from hx)
    exact hp q hq
  obtain ⟨scl, hscl⟩ := recompute_scale hrec
  have hn := recomputeCav_points hrec
  rw [k1] at hn
  refine ⟨mapOf cav.cavData, cav.fRF, scl, phi, l2 hn, l1, hscl, fun hf => ?_⟩
  obtain ⟨scl', e, hc1, hc2⟩ := recompute_crossed hm hp' (by rw [k2]; exact hf) hrec
  rw [hscl] at e
  cases e
  rw [k1, k2] at hc1 hc2
  exact ⟨hc1, hc2⟩

/-! ## when a pass succeeds -/

/-- The matrix of a charge state. -/
noncomputable def matrixOf (cav : Cav) (scl phi : ℝ) (p : Particle) : Except Err Mat :=
  match labelOf cav.cavi with
  | .error e => .error e
  | .ok (label, Rm) =>
    if 0 < cav.cavi then getCavMat cav label Rm p.IonZ p.IonEs scl (cav.fRF / p.SampleFreq * p.phis + phi) p.IonEk
    else getCavMatGeneric cav p.IonZ p.IonEs scl (cav.fRF / p.SampleFreq * p.phis + phi) p.IonEk

theorem initRFCav_succeeds {c : LCfg} {cav : Cav} {scl phi : ℝ} {p : Particle} (hscl : getNum c "scl_fac" = .ok scl) (hp : Moving p)
    (hn : 2 ≤ cav.cavData.rows.length) (hb : |p.IonZ| * (mapOf cav.cavData).voltage scl < p.IonEk) {M : Mat}
    (hM : matrixOf cav scl phi p = .ok M) :
    ∃ W fy0 fy M', initRFCav c cav phi p = .ok (boosted p W fy0 fy (cav.fRF / p.SampleFreq), M') ∧ p.IonEs < W ∧
      |W - (p.IonEs + p.IonEk)| ≤ |p.IonZ| * (mapOf cav.cavData).voltage scl := by
  have hW : p.IonEk + p.IonEs = p.IonW := by rw [hp.ionW, add_comm]
  unfold initRFCav
  unfold matrixOf at hM
  split at hM
  · cases hM
  rename_i label Rm hl
  rw [hl]
  dsimp only
  rw [hscl]
  dsimp only
  rw [hW]
  obtain ⟨W, fy, h1, h2, h3⟩ := C45_gain (f := cav.fRF) (cav.fRF / p.SampleFreq * p.phis + phi) scl hp hn hb
  have h1' : getCavBoost cav.cavData cav.fRF { p with IonW := p.IonW } (cav.fRF / p.SampleFreq * p.phis + phi) scl =
      .ok (W, fy) := h1
  rw [h1']
  dsimp only
  rw [hM]
  exact ⟨W, _, fy, _, rfl, h3, h2⟩

theorem cavGrown_off {cav : Cav} {ref : Particle} (he : cav.emitGrowth = 0) : ∀ (Ts : List Mat) (ms : List (Mat × Mat))
    (ps : List Particle) (es : List (Particle × Particle)) (vs : List Vec) (Ss : List Mat), cavGrown cav ref Ts ms ps es vs Ss
  | T :: Ts, m :: ms, p :: ps, e :: es, v :: vs, S :: Ss => ⟨fun h => absurd he h, cavGrown_off he Ts ms ps es vs Ss⟩
  | [], _, _, _, _, _ => by simp [cavGrown]
  | _ :: _, [], _, _, _, _ => by simp [cavGrown]
  | _ :: _, _ :: _, [], _, _, _ => by simp [cavGrown]
  | _ :: _, _ :: _, _ :: _, [], _, _ => by simp [cavGrown]
  | _ :: _, _ :: _, _ :: _, _ :: _, [], _ => by simp [cavGrown]
  | _ :: _, _ :: _, _ :: _, _ :: _, _ :: _, [] => by simp [cavGrown]

theorem cavFault_off {env : Env} {cav : Cav} {d : MDat} {S : MSt} (he : cav.emitGrowth = 0) : cavFault env cav d S = none := by
  unfold cavFault
  rw [if_pos (cavGrown_off he _ _ _ _ _ _)]

/-- All matrices are computed if the files are there, the phase is defined, the matrices are, and no particle can come to
rest. -/
theorem forward_reaches {env : Env} {files : Files} {d : MDat} {s : St MSt} {cav0 cav : Cav} {scl phi : ℝ}
    (hr : s.retreat = false) (h0 : d.refIn = none) (hc : d.cav = some cav0)
    (hre : reload env files d.conf { cav0 with misalign := resizeMis s.payload.recalc.real.length cav0.misalign } = (cav, none))
    (hscl : getNum d.conf "scl_fac" = .ok scl) (hn : 2 ≤ cav.cavData.rows.length)
    (hm : Moving s.payload.ref.recalc ∧ |s.payload.ref.IonZ| * (mapOf cav.cavData).voltage scl < s.payload.ref.IonEk)
    (hphi : drivenPhase d.conf cav s.payload.ref.recalc (cav.fRF / s.payload.ref.SampleFreq) scl = .ok phi)
    (hp : ∀ p ∈ s.payload.real, Moving p.recalc ∧ p.SampleFreq ≠ 0 ∧
      |p.IonZ| * (mapOf cav.cavData).voltage scl < p.IonEk ∧ ∃ M, matrixOf cav scl phi p.recalc = .ok M) :
    ∃ ref l mis, recomputeCav d.conf cav s.payload.recalc.ref s.payload.recalc.real = .ok (ref, phi, l) ∧
      forEach (fun p => getMisalign d ref p) (l.map (fun q => q.1)) = .ok mis ∧
      (advanceCavity env files d s).2.2 = cavFault env { cav with phiRef := some phi, misalign := mis }
        (filledDat d s.payload.recalc { cav with phiRef := some phi, misalign := mis } ref l)
        (filledSt s.payload.recalc ref l) ∧
      ref.IonEs = s.payload.ref.IonEs ∧ ref.IonZ = s.payload.ref.IonZ ∧ ∀ q ∈ l, Moving q.1.recalc := by
  have h1 : ∃ r, propagateLong d.conf cav s.payload.recalc.ref = .ok (r, phi) ∧ r.IonEs = s.payload.ref.IonEs ∧
      r.IonZ = s.payload.ref.IonZ := by
    unfold propagateLong
    dsimp only
    rw [hscl]
    dsimp only
    have e : drivenPhase d.conf cav s.payload.recalc.ref (cav.fRF / s.payload.recalc.ref.SampleFreq) scl = .ok phi := hphi
    rw [e]
    dsimp only
    obtain ⟨W, fy, h1, -⟩ := C45_gain (t := cav.cavData) (f := cav.fRF)
      (cav.fRF / s.payload.recalc.ref.SampleFreq * s.payload.recalc.ref.phis + phi) scl hm.1 hn hm.2
    have h1' : getCavBoost cav.cavData cav.fRF s.payload.recalc.ref
      (cav.fRF / s.payload.recalc.ref.SampleFreq * s.payload.recalc.ref.phis + phi) scl = .ok (W, fy) := h1
    rw [h1']
    exact ⟨_, rfl, rfl, rfl⟩
  obtain ⟨r, h1, hrE, hrZ⟩ := h1
  have h2 : ∀ p ∈ s.payload.real, ∃ q, (match initRFCav d.conf cav phi p.recalc with
        | .error e => .error e
        | .ok (p', M) => .ok ({ p' with SampleIonK := p.recalc.SampleIonK }, M) : Except Err (Particle × Mat)) = .ok q ∧
      Moving q.1.recalc ∧ ∃ m, getMisalign d r q.1 = .ok m := by
    intro p hx
    obtain ⟨a, b, c, M, hM⟩ := hp p hx
    obtain ⟨W, fy0, fy, M', e, hW, -⟩ := initRFCav_succeeds hscl a hn c hM
    rw [e]
    refine ⟨_, rfl, ⟨rfl, a.mass, ?_⟩, ?_⟩
    · have : p.IonEs < W := hW
      show 0 < W - p.IonEs
      linarith
    have hq := moving { p with IonEk := W - p.IonEs } a.mass (by
      have : p.IonEs < W := hW
      show 0 < W - p.IonEs
      linarith) b
    obtain ⟨u1, u2⟩ := unit_ne r
      { boosted p.recalc W fy0 fy (cav.fRF / p.recalc.SampleFreq) with SampleIonK := p.recalc.SampleIonK }
      (moving p a.mass a.energy b).1 hq.2.1 hq.2.2.1 (by rw [hrE]; exact hm.1.mass.ne')
    exact ⟨_, getMisalign_eq d r _ u1 u2⟩
  have h3 : ∀ l : List Particle, (∀ p ∈ l, p ∈ s.payload.real) → ∃ m, forEach (fun p =>
      (match initRFCav d.conf cav phi p with
        | .error e => .error e
        | .ok (p', M) => .ok ({ p' with SampleIonK := p.SampleIonK }, M) : Except Err (Particle × Mat)))
        (l.map Particle.recalc) = .ok m ∧ (∀ q ∈ m, Moving q.1.recalc) ∧
        ∃ k, forEach (fun p => getMisalign d r p) (m.map (fun q => q.1)) = .ok k := by
    intro l
    induction l with
    | nil => exact fun _ => ⟨[], rfl, by simp, [], rfl⟩
    | cons p l ih =>
      intro hl
      obtain ⟨m, e1, e5, k, e2⟩ := ih fun p hp => hl p (List.mem_cons_of_mem _ hp)
      obtain ⟨q, e3, e6, k', e4⟩ := h2 p (hl p (List.mem_cons_self ..))
      refine ⟨q :: m, ?_, List.forall_mem_cons.2 ⟨e6, e5⟩, k' :: k, ?_⟩
      · rw [List.map_cons, forEach, e3, e1]
      · rw [List.map_cons, forEach, e4, e2]
  obtain ⟨l, h3, h7, mis, h4⟩ := h3 s.payload.real fun _ h => h
  have h5 : recomputeCav d.conf cav s.payload.recalc.ref s.payload.recalc.real = .ok (r, phi, l) := by
    unfold recomputeCav
    rw [h1]
    dsimp only
    exact congrArg (fun x : Except Err (List (Particle × Mat)) => (match x with
      | .error e => .error e
      | .ok l => .ok (r, phi, l) : Except Err (Particle × ℝ × List (Particle × Mat)))) h3
  refine ⟨r, l, mis, h5, h4, ?_, hrE, hrZ, h7⟩
  unfold advanceCavity
  rw [hc]
  dsimp only
  rw [if_neg (by rw [hr]; simp), if_neg (miss _ h0), hre]
  dsimp only
  rw [h5]
  dsimp only
  have h6 : forEach (fun p => getMisalign { d with
      refIn := some s.payload.recalc.ref
      realIn := s.payload.recalc.real
      transfer := resize s.payload.recalc.real.length d.transfer
      cav := some { cav0 with misalign := resizeMis s.payload.recalc.real.length cav0.misalign } } r p)
      (l.map (fun q => q.1)) = .ok mis := h4
  rw [h6]
  rfl

/-- The pass succeeds if the files are there, the phase is defined, the matrices are, and no particle can come to rest. -/
theorem C66_succeeds {env : Env} {files : Files} {d : MDat} {s : St MSt} {cav0 cav : Cav} {scl phi : ℝ}
    (hr : s.retreat = false) (h0 : d.refIn = none) (hc : d.cav = some cav0) (he : cav.emitGrowth = 0)
    (hre : reload env files d.conf { cav0 with misalign := resizeMis s.payload.recalc.real.length cav0.misalign } = (cav, none))
    (hscl : getNum d.conf "scl_fac" = .ok scl) (hn : 2 ≤ cav.cavData.rows.length)
    (hm : Moving s.payload.ref.recalc ∧ |s.payload.ref.IonZ| * (mapOf cav.cavData).voltage scl < s.payload.ref.IonEk)
    (hphi : drivenPhase d.conf cav s.payload.ref.recalc (cav.fRF / s.payload.ref.SampleFreq) scl = .ok phi)
    (hp : ∀ p ∈ s.payload.real, Moving p.recalc ∧ p.SampleFreq ≠ 0 ∧
      |p.IonZ| * (mapOf cav.cavData).voltage scl < p.IonEk ∧ ∃ M, matrixOf cav scl phi p.recalc = .ok M) :
    ∃ d' s', advanceCavity env files d s = (d', s', none) := by
  obtain ⟨ref, l, mis, -, -, h, -⟩ := forward_reaches hr h0 hc hre hscl hn hm hphi hp
  rw [cavFault_off (cav := { cav with phiRef := some phi, misalign := mis }) he] at h
  exact ⟨_, _, Prod.ext rfl (Prod.ext rfl h)⟩

/-! ## an example -/

/-- The cavity of `Off`, with a gap that changes the energy by up to 0.1 eV, as loaded from a file. -/
noncomputable def exWeak : Cav :=
  { exGap with
    lattice := [⟨"drift", 100, 0, [], []⟩,
      ⟨"AccGap", 0, 1 / 10000000, [0, 0, 0, 0, 0, 0, 0, 0, 0, 1], [0, 0, 0, 0, 0, 0, 0, 0, 0, 0]⟩, ⟨"drift", 140, 0, [], []⟩]
    dataFile := "./gap.lat" }

/-- Its settings. -/
noncomputable def exSet : LCfg := fun s =>
  if s = "scl_fac" then some (.num 1) else if s = "cavtype" then some (.str "Generic")
  else if s = "datafile" then some (.str "gap.lat") else none

theorem exWeak_voltage : (mapOf exWeak.cavData).voltage 1 = 3 / 5 := by
  simp only [Spec.FieldMap.voltage, mapOf, exWeak, exGap, exTable]
  rw [show ([[-120, 0], [0, 5], [120, 0]] : List (List ℝ)).length - 1 = 2 from rfl, Finset.sum_range_succ, Finset.sum_range_one]
  norm_num

theorem exWeak_matrix (phi : ℝ) : ∃ M, matrixOf exWeak 1 phi exParticle.recalc = .ok M := by
  have hm := exParticle_moving
  unfold matrixOf
  rw [show labelOf exWeak.cavi = .ok (0, 0) from rfl]
  dsimp only
  rw [if_neg (by simp [exWeak, exGap])]
  unfold getCavMatGeneric
  dsimp only
  rw [kin_moving hm]
  dsimp only
  rw [if_neg (by norm_num [exWeak, exGap])]
  have hl : exWeak.lattice = [⟨"drift", 100, 0, [], []⟩,
      ⟨"AccGap", 0, 1 / 10000000, [0, 0, 0, 0, 0, 0, 0, 0, 0, 1], [0, 0, 0, 0, 0, 0, 0, 0, 0, 0]⟩,
      ⟨"drift", 140, 0, [], []⟩] := rfl
  rw [hl]
  have hT : ∀ k, calFitPow k [0, 0, 0, 0, 0, 0, 0, 0, 0, 1] = 1 := by
    intro k
    rw [C44_fit]
    norm_num [Spec.polyDown]
  have hS : ∀ k, calFitPow k [0, 0, 0, 0, 0, 0, 0, 0, 0, 0] = 0 := by
    intro k
    rw [C44_fit]
    norm_num [Spec.polyDown]
  have hk : ∀ x lam : ℝ, ∃ q, kin exParticle.recalc.IonEs (exParticle.recalc.IonEk + exParticle.recalc.IonEs +
      exParticle.recalc.IonZ * (1 / 10000000 * 1) * MeVtoeV * 1 * Real.cos x -
      exParticle.recalc.IonZ * (1 / 10000000 * 1) * MeVtoeV * 0 * Real.sin x) lam = .ok q := by
    intro x lam
    unfold kin
    dsimp only
    rw [if_neg]
    · exact ⟨_, rfl⟩
    · have h1 := Real.neg_one_le_cos x
      have e1 : exParticle.recalc.IonEs = 1 := rfl
      have e2 : exParticle.recalc.IonEk = 1 := rfl
      have e3 : exParticle.recalc.IonZ = 1 := rfl
      rw [e1, e2, e3]
      norm_num [MeVtoeV]
      nlinarith
  simp only [foldE, genStep, hT, hS]
  obtain ⟨q, hq⟩ := hk (exWeak.fRF / exParticle.recalc.SampleFreq * exParticle.recalc.phis + phi +
    2 * Real.pi / (exParticle.recalc.beta * (C0 / exWeak.fRF * MtoMM)) * 100) (C0 / exWeak.fRF * MtoMM)
  rw [hq]
  exact ⟨_, rfl⟩

/-- A cavity with this field, 240 mm long, that has not been used. -/
noncomputable def exCavity (env : Env) : MDat := { exDat env exSet (24 / 100) with cav := some exWeak }

theorem exWeak_drive (c : LCfg) (hs : getNumD c "syncflag" 1 = 1) :
    ∃ x, drivenPhase c { exWeak with misalign := [(1, 1)] } exParticle.recalc (exWeak.fRF / exParticle.SampleFreq) 1 = .ok x := by
  unfold drivenPhase
  rw [hs]
  simp only [le_refl, if_true]
  unfold getCavPhase
  rw [if_neg]
  · exact ⟨_, rfl⟩
  · norm_num [exParticle, Particle.recalc, MeVtoeV]

/-- A beam crosses it; the energy may change by more than half. -/
theorem exWeak_passes (env : Env) (files : Files) (d : MDat) (h0 : d.refIn = none) (hc : d.cav = some exWeak)
    (h1 : getNum d.conf "scl_fac" = .ok 1) (hs : getNumD d.conf "syncflag" 1 = 1) (h3 : getStr d.conf "cavtype" = .ok "Generic")
    (h4 : getStr d.conf "datafile" = .ok "gap.lat") (h5 : getStrD d.conf "Eng_Data_Dir" "." = ".") :
    ∃ d' s', advanceCavity env files d (exState false) = (d', s', none) := by
  have hm := exParticle_moving
  have hv := exWeak_voltage
  obtain ⟨x, hx⟩ := exWeak_drive d.conf hs
  obtain ⟨M, hM⟩ := exWeak_matrix x
  have hZ : |exParticle.IonZ| * (mapOf exWeak.cavData).voltage 1 < exParticle.IonEk := by
    rw [hv]
    norm_num [exParticle]
  refine C66_succeeds (scl := 1) (phi := x) (cav0 := exWeak) (cav := { exWeak with misalign := [(1, 1)] }) rfl h0 hc rfl ?_
    h1 (by simp [exWeak, exGap, exTable]) ⟨hm, hZ⟩ hx ?_
  · exact reload_same h3 (fun _ => ⟨"gap.lat", h4, by rw [h5]; rfl⟩) _
  · intro p hp
    rw [List.mem_singleton.1 (show p ∈ [exParticle] from hp)]
    exact ⟨hm, by norm_num [exParticle], hZ, M, hM⟩

theorem exCavity_passes (env : Env) (files : Files) :
    ∃ d' s', advanceCavity env files (exCavity env) (exState false) = (d', s', none) :=
  exWeak_passes env files _ rfl rfl (by simp [getNum, exCavity, exDat, exSet]) (by simp [getNumD, exCavity, exDat, exSet])
    (by simp [getStr, exCavity, exDat, exSet]) (by simp [getStr, exCavity, exDat, exSet])
    (by simp [getStrD, exCavity, exDat, exSet])

/-- It meets the hypotheses of `C66_pass`. -/
example (env : Env) (files : Files) : ∃ d' s', advanceCavity env files (exCavity env) (exState false) = (d', s', none) ∧
    (exState false).retreat = false ∧ (exCavity env).refIn = none ∧ WF (exState false).payload ∧
    (∀ v ∈ (exState false).payload.moment0, v 6 = 1) ∧ Moving (exState false).payload.ref.recalc ∧
    (∀ p ∈ (exState false).payload.real, Moving p.recalc) ∧ (exCavity env).pitch = 0 ∧ (exCavity env).yaw = 0 ∧
    exWeak.fRF ≠ 0 ∧ exWeak.emitGrowth = 0 := by
  obtain ⟨d', s', h⟩ := exCavity_passes env files
  refine ⟨d', s', h, rfl, rfl, ⟨rfl, rfl, rfl⟩, ?_, exParticle_moving, ?_, rfl, rfl, by norm_num [exWeak, exGap], rfl⟩
  · intro v hv
    rw [List.mem_singleton.1 (show v ∈ [fun _ => (1 : ℝ)] from hv)]
  · intro p hp
    rw [List.mem_singleton.1 (show p ∈ [exParticle] from hp)]
    exact exParticle_moving

/-! ## the same cavity built from settings and a file -/

/-- Settings of a cavity. -/
noncomputable def exFull : LCfg := fun s =>
  if s = "f" then some (.num 2) else if s = "phi" then some (.num 0) else if s = "L" then some (.num (24 / 100))
  else if s = "Rm" then some (.num 17) else if s = "type" then some (.str "rfcavity")
  else if s = "name" then some (.str "c") else exSet s

/-- An element of a data file. -/
noncomputable def exElem (ty : String) (L V0 : ℝ) (attr : List ℝ) : LCfg := fun s =>
  if s = "type" then some (.str ty) else if s = "L" then some (.num L) else if s = "V0" then some (.num V0)
  else if s = "attr" then some (.vec attr) else none

/-- The data file. -/
noncomputable def exFiles : Files where
  table := fun _ => .error .runtime
  lines := fun _ => .error .runtime
  generic := fun _ => .ok (fun s => if s = "Ez" then some (.vec [-120, 0, 0, 5, 120, 0]) else none,
    [exElem "drift" 100 0 [], exElem "AccGap" 0 (1 / 10000000)
      [0, 0, 0, 0, 0, 0, 0, 0, 0, 1, 0, 0, 0, 0, 0, 0, 0, 0, 0, 0, 1, 2, 3], exElem "drift" 140 0 []])

theorem gap_loads (env : Env) {c : LCfg} {f : String} (e1 : getNum c "f" = .ok 2) (e2 : getNum c "phi" = .ok 0)
    (e3 : getFlag env c "MpoleLevel" 2 = .ok 2) (e4 : getFlag env c "EmitGrowth" 0 = .ok 0)
    (e5 : getStr c "cavtype" = .ok "Generic") (e6 : getStr c "datafile" = .ok f) (e7 : getStrD c "Eng_Data_Dir" "." = ".")
    (e8 : getNumD c "Rm" 0 = 17) (e9 : getNumD c "forcettfcalc" 0 = 0) :
    loadCavity env exFiles c noCav = ({ exWeak with dataFile := "." ++ "/" ++ f }, none) := by
  unfold loadCavity
  rw [e1]
  dsimp only
  rw [e2]
  dsimp only
  rw [e3]
  dsimp only
  rw [e4]
  dsimp only
  rw [if_neg (by norm_num), e5]
  dsimp only
  rw [show shipped "Generic" = none from rfl]
  dsimp only
  rw [if_pos rfl, e6, e7, e8, e9]
  dsimp only
  unfold loadGeneric
  have hE : ∀ top : LCfg, top = (fun s => if s = "Ez" then some (.vec [-120, 0, 0, 5, 120, 0]) else none) →
      getVec top "Ez" = .ok [-120, 0, 0, 5, 120, 0] ∧ optNum top "Rm" = none ∧ optNum top "RefNorm" = none ∧
      getVec top "SyncFit" = .error .keyError := by
    rintro top rfl
    refine ⟨by simp [getVec], by simp [optNum, getNum], by simp [optNum, getNum], by simp [getVec]⟩
  obtain ⟨g1, g2, g3, g4⟩ := hE _ rfl
  have hF : foldE genericElem [exElem "drift" 100 0 [], exElem "AccGap" 0 (1 / 10000000)
      [0, 0, 0, 0, 0, 0, 0, 0, 0, 1, 0, 0, 0, 0, 0, 0, 0, 0, 0, 0, 1, 2, 3], exElem "drift" 140 0 []]
      (noCav.lattice, noCav.synAccTab) = .ok (exWeak.lattice, [1, 2, 3]) := by
    simp [foldE, genericElem, exElem, getStr, getNum, getVec, noCav, exWeak]
  simp only [exFiles, hF, g1, g2, g3, g4]
  obtain ⟨n, m, r1, r2, r3⟩ := (Flame.Util.C42_readvec ([-120, 0, 0, 5, 120, 0] : List ℝ) 2 0).1 (by norm_num) (by norm_num)
  have hn : n = 3 := by simp at r2; omega
  subst hn
  rw [r1]
  have q := fun r c hr hc => r3 r c hr hc
  have q00 := q 0 0 (by norm_num) (by norm_num)
  have q01 := q 0 1 (by norm_num) (by norm_num)
  have q10 := q 1 0 (by norm_num) (by norm_num)
  have q11 := q 1 1 (by norm_num) (by norm_num)
  have q20 := q 2 0 (by norm_num) (by norm_num)
  have q21 := q 2 1 (by norm_num) (by norm_num)
  simp at q00 q01 q10 q11 q20 q21
  simp [exWeak, exGap, exTable, noCav, List.range_succ, ← q00, ← q01, ← q10, ← q11, ← q20, ← q21]

theorem exFull_loads (env : Env) : loadCavity env exFiles exFull noCav = (exWeak, none) := by
  refine gap_loads env (f := "gap.lat") (by simp [getNum, exFull]) (by simp [getNum, exFull]) ?_ ?_ (by simp [getStr, exFull, exSet])
    (by simp [getStr, exFull, exSet]) (by simp [getStrD, exFull, exSet]) (by simp [getNumD, exFull])
    (by simp [getNumD, exFull, exSet])
  · simp [getFlag, getStr, getNum, exFull, exSet, asUnsigned]
    norm_num
  · simp [getFlag, getStr, getNum, exFull, exSet, asUnsigned]

/-- The settings are accepted, and the cavity that is built meets the hypotheses of `C66_built`. -/
theorem exFull_runs (env : Env) (junk : Mat) : ∃ d d' s', buildCavity env exFiles junk exFull = .ok d ∧
    advanceCavity env exFiles d (exState false) = (d', s', none) ∧ (exState false).retreat = false ∧
    Moving (exState false).payload.ref.recalc ∧ (∀ p ∈ (exState false).payload.real, Moving p.recalc) := by
  have hb : ∃ d, buildCavity env exFiles junk exFull = .ok d ∧ d.refIn = none ∧ d.cav = some exWeak ∧ d.conf = exFull := by
    unfold buildCavity
    have : ∃ d0, build env junk .drift exFull = .ok d0 := ⟨_, rfl⟩
    obtain ⟨d0, h0⟩ := this
    rw [h0, exFull_loads]
    exact ⟨_, rfl, (build_length h0).2.2.1, rfl, (build_length h0).2.1⟩
  obtain ⟨d, hb, h0, hc, hf⟩ := hb
  obtain ⟨d', s', h⟩ := exWeak_passes env exFiles d h0 hc (by simp [hf, getNum, exFull, exSet])
    (by simp [hf, getNumD, exFull, exSet]) (by simp [hf, getStr, exFull, exSet]) (by simp [hf, getStr, exFull, exSet])
    (by simp [hf, getStrD, exFull, exSet])
  refine ⟨d, d', s', hb, h, rfl, exParticle_moving, ?_⟩
  intro p hp
  rw [List.mem_singleton.1 (show p ∈ [exParticle] from hp)]
  exact exParticle_moving

/-! ## a machine with a cavity -/

/-- A drift of 1 m and the cavity. -/
noncomputable def exCavView : Flame.Mach.CView LCfg where
  str c k := match c k with
    | some (.str x) => .ok x
    | _ => .error .keyError
  elems _ := .ok [fun k => if k = "type" then some (.str "drift") else if k = "name" then some (.str "d")
      else if k = "L" then some (.num 1) else none,
    exFull]

/-- The hypotheses of `C30_moment_full` and `C40_moment_full` are met. -/
example (env : Env) (junk : Mat) :
    (∃ m, Flame.Mach.Machine.new exCavView
      (registry env junk 0 (cavityCls env exFiles junk 0) (stripperCls env junk 0))
      (fun k => if k = "sim_type" then some (.str "MomentMatrix") else none) = .ok m) ∧
    ∀ c es, exCavView.elems c = .ok es → es.length = 2 ∧ ∀ ec ∈ es, exCavView.str ec "type" ≠ .ok "source" ∧
      exCavView.str ec "type" ≠ .ok "stripper" := by
  obtain ⟨hk, hreg⟩ := registered_shipped env junk 0 (cavityCls env exFiles junk 0) (stripperCls env junk 0)
  constructor
  · refine (Flame.Mach.C18_success_iff _ _ _).2 ⟨"MomentMatrix", _, rfl, hk, rfl, ?_⟩
    simp only [List.mem_cons, List.not_mem_nil, or_false, forall_eq_or_imp, forall_eq]
    have hb : ∃ d, buildCavity env exFiles junk exFull = .ok d := by
      unfold buildCavity
      rw [exFull_loads]
      exact ⟨_, rfl⟩
    obtain ⟨d, hd⟩ := hb
    exact ⟨⟨"drift", _, "d", _, rfl, hreg _ _ rfl, rfl, rfl, rfl⟩, ⟨"rfcavity", _, "c", d, rfl, hreg _ _ rfl, rfl, rfl, hd⟩⟩
  · intro c es h
    cases h
    refine ⟨rfl, ?_⟩
    simp [exCavView, exFull]

end Flame.Cavity
