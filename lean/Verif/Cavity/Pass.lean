import Verif.Cavity.Off
import Verif.Moment.Strip
import Verif.Arrays.Run

/-!
# A pass through an RF cavity

The forward and backward branches of `advance`, and what follows for the position (C30) and for the introspection (C40).
-/

namespace Flame.Cavity

open Flame.Mach (Cls St Err CView Machine propagate sizeMod)
open Flame.Linear (LVal LCfg getNum getNumD getVec)
open Flame.Linear.Spec (passed)
open Flame.Moment Flame.Moment.Spec

/-! ## the branches of `advance` -/

/-- The element after the matrices have been computed. -/
noncomputable def filledDat (d : MDat) (S : MSt) (cav : Cav) (ref : Particle) (l : List (Particle × Mat)) : MDat :=
  { d with
    refIn := some S.ref
    realIn := S.real
    transfer := l.map (fun q => q.2)
    refOut := ref.recalc
    realOut := (l.map (fun q => q.1)).map Particle.recalc
    cav := some cav }

/-- The state with the particles behind the cavity. -/
noncomputable def filledSt (S : MSt) (ref : Particle) (l : List (Particle × Mat)) : MSt :=
  MSt.recalc { S with ref := ref, real := l.map (fun q => q.1) }

theorem getMisalign_congr {d e : MDat} (h1 : e.length = d.length) (h2 : e.dx = d.dx) (h3 : e.dy = d.dy) (h4 : e.pitch = d.pitch)
    (h5 : e.yaw = d.yaw) (h6 : e.roll = d.roll) : getMisalign e = getMisalign d := by
  unfold getMisalign
  rw [h1, h2, h3, h4, h5, h6]

/-- A successful forward pass reuses the cache or computes everything. -/
theorem forward_cases {env : Env} {files : Files} {d d' : MDat} {s s' : St MSt} (hr : s.retreat = false)
    (h : advanceCavity env files d s = (d', s', none)) : ∃ cav, d.cav = some cav ∧
    ((hit d s.payload.recalc ∧
      cavFault env cav d { s.payload.recalc with
        ref := d.refOut, real := d.realOut ++ s.payload.recalc.real.drop d.realOut.length } = none ∧
      d' = (cavForward env cav d { s.payload.recalc with
        ref := d.refOut, real := d.realOut ++ s.payload.recalc.real.drop d.realOut.length }).1 ∧
      s' = { s with payload := (cavForward env cav d { s.payload.recalc with
        ref := d.refOut, real := d.realOut ++ s.payload.recalc.real.drop d.realOut.length }).2 }) ∨
    (¬ hit d s.payload.recalc ∧ ∃ cav1 ref phi l mis,
      reload env files d.conf { cav with misalign := resizeMis s.payload.recalc.real.length cav.misalign } = (cav1, none) ∧
      recomputeCav d.conf cav1 s.payload.recalc.ref s.payload.recalc.real = .ok (ref, phi, l) ∧
      forEach (fun p => getMisalign d ref p) (l.map (fun q => q.1)) = .ok mis ∧
      cavFault env { cav1 with phiRef := some phi, misalign := mis }
        (filledDat d s.payload.recalc { cav1 with phiRef := some phi, misalign := mis } ref l)
        (filledSt s.payload.recalc ref l) = none ∧
      d' = (cavForward env { cav1 with phiRef := some phi, misalign := mis }
        (filledDat d s.payload.recalc { cav1 with phiRef := some phi, misalign := mis } ref l)
        (filledSt s.payload.recalc ref l)).1 ∧
      s' = { s with payload := (cavForward env { cav1 with phiRef := some phi, misalign := mis }
        (filledDat d s.payload.recalc { cav1 with phiRef := some phi, misalign := mis } ref l)
        (filledSt s.payload.recalc ref l)).2 })) := by
  unfold advanceCavity at h
  split at h
  · cases h
  rename_i cav hc
  refine ⟨cav, hc, ?_⟩
  dsimp only at h
  rw [if_neg (by rw [hr]; simp)] at h
  split at h
  · rename_i hh
    exact .inl ⟨hh, congrArg (fun q => q.2.2) h, (congrArg (fun q => q.1) h).symm, (congrArg (fun q => q.2.1) h).symm⟩
  · rename_i hh
    refine .inr ⟨hh, ?_⟩
    split at h
    · cases h
    · rename_i cav1 hl
      split at h
      · cases h
      · rename_i ref phi l hrec
        split at h
        · cases h
        · rename_i mis hm
          exact ⟨cav1, ref, phi, l, mis, hl, hrec, hm, congrArg (fun q => q.2.2) h, (congrArg (fun q => q.1) h).symm,
            (congrArg (fun q => q.2.1) h).symm⟩

/-- A successful backward pass. -/
theorem backward_cases {env : Env} {files : Files} {d d' : MDat} {s s' : St MSt} (hr : s.retreat = true)
    (h : advanceCavity env files d s = (d', s', none)) : ∃ cav mis S, d.cav = some cav ∧
    checkBackward d s.payload.recalc ∧ d.realIn.length = d.realOut.length ∧
    forEach (fun p => getMisalign d (takenBack (d.refIn.getD d.refOut) d.refOut s.payload.recalc.ref) p)
      (List.zipWith (fun (q : Particle × Particle) p => takenBack q.1 q.2 p) (d.realIn.zip d.realOut) s.payload.recalc.real) =
        .ok mis ∧
    backward (List.zipWith (fun T (m : Mat × Mat) => m.2 * (T * m.1)) d.transfer mis)
      (MSt.recalc { s.payload.recalc with
        ref := takenBack (d.refIn.getD d.refOut) d.refOut s.payload.recalc.ref
        real := List.zipWith (fun (q : Particle × Particle) p => takenBack q.1 q.2 p) (d.realIn.zip d.realOut)
          s.payload.recalc.real
        pos := s.payload.recalc.pos - d.length }) = (S, none) ∧
    d' = { d with cav := some { cav with misalign := mis } } ∧
    s' = { s with payload := MSt.calcRms { S with last_caviphi0 := caviphi env { cav with misalign := mis } } } := by
  unfold advanceCavity at h
  split at h
  · cases h
  rename_i cav hc
  dsimp only at h
  rw [if_pos hr] at h
  split at h
  · cases h
  rename_i hb
  split at h
  · cases h
  rename_i hl
  split at h
  · cases h
  rename_i mis hm
  split at h
  · cases h
  rename_i S hS
  cases h
  exact ⟨cav, mis, S, hc, not_not.mp hb, not_not.mp hl, hm, hS, rfl, rfl⟩

/-! ## position -/

theorem cavity_place (env : Env) (files : Files) (d : MDat) (s : St MSt) :
    (advanceCavity env files d s).2.1.nextElem = s.nextElem ∧ (advanceCavity env files d s).2.1.retreat = s.retreat ∧
    (advanceCavity env files d s).1.length = d.length := by
  unfold advanceCavity
  split
  · exact ⟨rfl, rfl, rfl⟩
  dsimp only
  split
  · split
    · exact ⟨rfl, rfl, rfl⟩
    split
    · exact ⟨rfl, rfl, rfl⟩
    split
    · exact ⟨rfl, rfl, rfl⟩
    split <;> exact ⟨rfl, rfl, rfl⟩
  split
  · exact ⟨rfl, rfl, rfl⟩
  split
  · exact ⟨rfl, rfl, rfl⟩
  split
  · exact ⟨rfl, rfl, rfl⟩
  split <;> exact ⟨rfl, rfl, rfl⟩

theorem cavity_pos {env : Env} {files : Files} {d d' : MDat} {s s' : St MSt}
    (h : advanceCavity env files d s = (d', s', none)) :
    s'.payload.pos = s.payload.pos + sign s.retreat * d.length := by
  cases hr : s.retreat with
  | false =>
    obtain ⟨cav, -, ⟨-, -, -, rfl⟩ | ⟨-, cav1, ref, phi, l, mis, -, -, -, -, -, rfl⟩⟩ := forward_cases hr h
    · show s.payload.pos + d.length = _
      simp [sign]
    · show s.payload.pos + d.length = _
      simp [sign]
  | true =>
    obtain ⟨cav, mis, S, -, -, -, -, hS, -, rfl⟩ := backward_cases hr h
    have : S.pos = s.payload.pos - d.length := by
      have := congrArg (fun q => q.1.pos) hS
      exact this.symm
    show S.pos = _
    rw [this]
    simp [sign, sub_eq_add_neg]

theorem loadCavity_ok {env : Env} {files : Files} {junk : Mat} {c : LCfg} {d : MDat} (h : buildCavity env files junk c = .ok d) :
    ∃ d0 cav, build env junk .drift c = .ok d0 ∧ loadCavity env files c noCav = (cav, none) ∧ d = { d0 with cav := some cav } := by
  unfold buildCavity at h
  split at h
  · cases h
  · rename_i d0 h0
    split at h
    · cases h
    · rename_i cav hc
      cases h
      exact ⟨d0, cav, h0, hc, rfl⟩

/-- The RF cavity meets the hypotheses of `C30_moment_machine`. -/
theorem measured_cavity (env : Env) (files : Files) (junk : Mat) (base : Nat) :
    ∀ c d, (cavityCls env files junk base).build c = .ok d →
      d.length = lengthOf "rfcavity" c ∧ MeasuredAt (cavityCls env files junk base) d.length := by
  intro c d h
  constructor
  · obtain ⟨d0, cav, h0, -, rfl⟩ := loadCavity_ok (show buildCavity env files junk c = .ok d from h)
    show d0.length = _
    rw [(build_length h0).1]
    simp [lengthOf, MType.name]
  · refine ⟨fun d s => ⟨(cavity_place env files d s).1, (cavity_place env files d s).2.1⟩, fun d' s hd => ⟨?_, fun he => ?_⟩⟩
    · exact (cavity_place env files d' s).2.2.trans hd
    · rw [← hd]
      have he' : (advanceCavity env files d' s).2.2 = none := he
      exact cavity_pos (Prod.ext rfl (Prod.ext rfl he') : advanceCavity env files d' s =
        ((advanceCavity env files d' s).1, (advanceCavity env files d' s).2.1, none))

/-- **C30**: in the moment simulation as registered, cavities and strippers included, a successful propagation adds the
configured lengths of the elements it passes, or subtracts them. -/
theorem C30_moment_full {env : Env} {files : Files} {junk : Mat} {base : Nat} (cv : CView LCfg) (c : LCfg)
    (m : Machine LCfg MDat MSt)
    (h : Machine.new cv (registry env junk base (cavityCls env files junk base) (stripperCls env junk base)) c = .ok m)
    (es : List LCfg) (hes : cv.elems c = .ok es) (hns : ∀ ec ∈ es, cv.str ec "type" ≠ .ok "source")
    (hl : es.length < sizeMod) (s : St MSt) (start : Nat) (max : Int) (hm : max ≠ -2 ^ 31) :
    ∃ r, propagate m.elems s start max = some r ∧ (r.err = none →
      ∃ tys, List.Forall₂ (fun ec ty => cv.str ec "type" = .ok ty) (passed es start max) tys ∧
      r.st.payload.pos = s.payload.pos +
        (if 0 ≤ max then 1 else -1) * (List.zipWith lengthOf tys (passed es start max)).sum) :=
  C30_moment_machine (measured_cavity env files junk base) (measured_stripper env junk base) cv c m h es hes hns hl s start
    max hm

/-! ## charge states -/

theorem loadShipped_misalign (files : Files) (dir lab : String) (cav : Cav) :
    (loadShipped files dir lab cav).1.misalign = cav.misalign := by
  unfold loadShipped
  dsimp only
  repeat' split
  all_goals rfl

theorem loadGeneric_misalign (files : Files) (cav : Cav) : (loadGeneric files cav).1.misalign = cav.misalign := by
  unfold loadGeneric
  dsimp only
  repeat' split
  all_goals rfl

theorem loadCavity_misalign (env : Env) (files : Files) (c : LCfg) (cav : Cav) :
    (loadCavity env files c cav).1.misalign = cav.misalign := by
  unfold loadCavity
  dsimp only
  repeat' split
  all_goals first
    | rfl
    | exact loadShipped_misalign _ _ _ _
    | exact loadGeneric_misalign _ _

theorem reload_misalign (env : Env) (files : Files) (c : LCfg) (cav : Cav) :
    (reload env files c cav).1.misalign = cav.misalign := by
  unfold reload
  repeat' split
  all_goals first
    | rfl
    | exact loadCavity_misalign _ _ _ _

theorem resizeMis_length (n : Nat) (l : List (Mat × Mat)) : (resizeMis n l).length = n := by
  simp only [resizeMis, List.length_append, List.length_take, List.length_replicate]
  omega

theorem cavLoop_length (cav : Cav) (ref : Particle) : ∀ (n : Nat) (Ts : List Mat) (ms : List (Mat × Mat)) (ps : List Particle)
    (es : List (Particle × Particle)) (vs : List Vec) (Ss : List Mat), n ≤ Ts.length → n ≤ ms.length → n ≤ ps.length →
    n ≤ es.length → n ≤ vs.length → n ≤ Ss.length → n ≤ (cavLoop cav ref Ts ms ps es vs Ss).length
  | 0, _, _, _, _, _, _, _, _, _, _, _, _ => Nat.zero_le _
  | n + 1, T :: Ts, m :: ms, p :: ps, e :: es, v :: vs, S :: Ss, h1, h2, h3, h4, h5, h6 => by
    simp only [cavLoop, List.length_cons] at *
    have := cavLoop_length cav ref n Ts ms ps es vs Ss (by omega) (by omega) (by omega) (by omega) (by omega) (by omega)
    omega

/-- What is known of a cavity at all times: if it noted particles, it has matrices and misalignments. -/
def CavSized (d : MDat) : Prop :=
  ∃ cav, d.cav = some cav ∧ (d.realIn ≠ [] → d.transfer ≠ [] ∧ cav.misalign ≠ [])

theorem recomputeCav_length {c : LCfg} {cav : Cav} {ref ref' : Particle} {real : List Particle} {phi : ℝ}
    {l : List (Particle × Mat)} (h : recomputeCav c cav ref real = .ok (ref', phi, l)) : l.length = real.length := by
  unfold recomputeCav at h
  split at h
  · cases h
  split at h
  · cases h
  · rename_i hl
    cases h
    exact forEach_length hl

theorem ends_length (env : Env) (d : MDat) : (ends env d).length = d.realIn.length := by
  simp only [ends, List.length_zip, List.length_append, List.length_replicate]
  omega

theorem cavForward_filled {env : Env} {cav : Cav} {d : MDat} {S : MSt} (hF : Arrays.Spec.Filled S) (h1 : d.transfer ≠ [])
    (h2 : cav.misalign ≠ []) (h3 : d.realIn ≠ []) : Arrays.Spec.Filled (cavForward env cav d S).2 := by
  have h0 : 1 ≤ (cavLoop cav S.ref d.transfer cav.misalign S.real (ends env d) S.moment0 S.moment1).length := by
    refine cavLoop_length cav S.ref 1 _ _ _ _ _ _ (List.length_pos_iff.2 h1) (List.length_pos_iff.2 h2)
      (List.length_pos_iff.2 hF.1) ?_ (List.length_pos_iff.2 hF.2.1) (List.length_pos_iff.2 hF.2.2.1)
    rw [ends_length]
    exact List.length_pos_iff.2 h3
  have hne := List.length_pos_iff.1 h0
  exact ⟨hF.1, by simpa [cavForward, MSt.calcRms] using hne, by simpa [cavForward, MSt.calcRms] using hne,
    by simpa [cavForward, MSt.calcRms] using hne⟩

theorem ne_of_length {α β : Type} {l : List α} {m : List β} (h : l.length = m.length) (hm : m ≠ []) : l ≠ [] := by
  rw [← List.length_pos_iff] at hm ⊢
  omega

theorem cavForward_dat (env : Env) (cav : Cav) (d : MDat) (S : MSt) :
    (cavForward env cav d S).1.cav = some cav ∧ (cavForward env cav d S).1.realIn = d.realIn ∧
    (cavForward env cav d S).1.transfer.length = (cavForward env cav d S).2.moment0.length := by
  refine ⟨rfl, rfl, ?_⟩
  simp [cavForward, MSt.calcRms]

/-- A cavity keeps a charge state. -/
theorem cavity_fills (env : Env) (files : Files) (d : MDat) (s : St MSt) (hd : CavSized d) (hf : Arrays.Spec.Filled s.payload) :
    CavSized (advanceCavity env files d s).1 ∧ Arrays.Spec.Filled (advanceCavity env files d s).2.1.payload := by
  have hS := Arrays.filled_recalc hf
  obtain ⟨cav, hc, hk⟩ := hd
  have fwd : ∀ (cav : Cav) (d : MDat) (S : MSt), Arrays.Spec.Filled S → d.transfer ≠ [] → cav.misalign ≠ [] → d.realIn ≠ [] →
      CavSized (cavForward env cav d S).1 ∧ Arrays.Spec.Filled (cavForward env cav d S).2 := by
    intro cav d S h1 h2 h3 h4
    have hF := cavForward_filled (env := env) h1 h2 h3 h4
    exact ⟨⟨cav, rfl, fun _ => ⟨ne_of_length (cavForward_dat env cav d S).2.2 hF.2.1, h3⟩⟩, hF⟩
  unfold advanceCavity
  rw [hc]
  dsimp only
  split
  · split
    · exact ⟨⟨cav, hc, hk⟩, hS⟩
    rename_i hb
    split
    · exact ⟨⟨cav, hc, hk⟩, hS⟩
    rename_i hl
    have hb := not_not.mp hb
    have hl := not_not.mp hl
    have hout : d.realOut ≠ [] := ne_of_length hb.2.2.length_eq hS.1
    have hin : d.realIn ≠ [] := ne_of_length hl hout
    have hz : List.zipWith (fun (q : Particle × Particle) p => takenBack q.1 q.2 p) (d.realIn.zip d.realOut)
        s.payload.recalc.real ≠ [] := by
      refine Arrays.ne_nil_zipWith ?_ hS.1
      rw [List.zip]
      exact Arrays.ne_nil_zipWith hin hout
    split
    · exact ⟨⟨cav, hc, hk⟩, ⟨hz, hS.2⟩⟩
    · rename_i mis hm
      have hmis : mis ≠ [] := ne_of_length (forEach_length hm) hz
      have hB := Arrays.filled_backward (T := List.zipWith (fun T (m : Mat × Mat) => m.2 * (T * m.1)) d.transfer mis)
        (Arrays.filled_recalc (Arrays.filled_placed hS hz (takenBack (d.refIn.getD d.refOut) d.refOut s.payload.recalc.ref)
          (s.payload.recalc.pos - d.length)))
      split
      · rename_i heq
        rw [heq] at hB
        exact ⟨⟨_, rfl, fun h => ⟨(hk h).1, hmis⟩⟩, hB⟩
      · rename_i heq
        rw [heq] at hB
        exact ⟨⟨_, rfl, fun h => ⟨(hk h).1, hmis⟩⟩, hB⟩
  split
  · rename_i hh
    have hin : d.realIn ≠ [] := ne_of_length hh.2.2.length_eq hS.1
    refine fwd cav d _ ⟨?_, hS.2⟩ (hk hin).1 (hk hin).2 hin
    have : d.realOut ++ s.payload.recalc.real.drop d.realOut.length ≠ [] := by
      have := List.length_pos_iff.2 hS.1
      rw [← List.length_pos_iff, List.length_append, List.length_drop]
      omega
    exact this
  · have hr : resize s.payload.recalc.real.length d.transfer ≠ [] := ne_of_length (resize_length _ _) hS.1
    have hm : (reload env files d.conf { cav with misalign := resizeMis s.payload.recalc.real.length cav.misalign }).1.misalign ≠ [] := by
      rw [reload_misalign]
      exact ne_of_length (resizeMis_length _ _) hS.1
    split
    · rename_i heq
      rw [heq] at hm
      exact ⟨⟨_, rfl, fun _ => ⟨hr, hm⟩⟩, hS⟩
    · rename_i heq
      rw [heq] at hm
      split
      · exact ⟨⟨_, rfl, fun _ => ⟨hr, hm⟩⟩, hS⟩
      · rename_i hrec
        split
        · exact ⟨⟨_, rfl, fun _ => ⟨hr, hm⟩⟩, hS⟩
        · rename_i l _ mis hmis
          have hl : l ≠ [] := ne_of_length (recomputeCav_length hrec) hS.1
          have hl1 : l.map (fun q => q.1) ≠ [] := by simpa using hl
          refine fwd _ _ _ (Arrays.filled_recalc ⟨hl1, hS.2⟩) (by simpa using hl) (ne_of_length (forEach_length hmis) hl1) hS.1

/-- The RF cavity meets the hypothesis of `C40_simulation` and `C40_machine`. -/
theorem cavityFills (env : Env) (files : Files) (junk : Mat) (base : Nat) :
    Arrays.CavityFills (cavityCls env files junk base) CavSized := by
  refine ⟨fun c d h => ?_, fun d s => cavity_fills env files d s⟩
  obtain ⟨d0, cav, h0, -, rfl⟩ := loadCavity_ok (show buildCavity env files junk c = .ok d from h)
  simp only [build] at h0
  cases h0
  exact ⟨cav, rfl, fun hne => absurd rfl hne⟩

/-- **C40** for the moment simulation as registered: at every stage of a simulation the table of `C40_moment` applies. -/
theorem C40_moment_full {env : Env} {files : Files} {junk : Mat} {base : Nat} (cv : CView LCfg) (c : LCfg)
    (m : Machine LCfg MDat MSt)
    (h : Machine.new cv (registry env junk base (cavityCls env files junk base) (stripperCls env junk base)) c = .ok m)
    (es : List LCfg) (hes : cv.elems c = .ok es)
    (hstr : ∀ ec ∈ es, cv.str ec "type" = .ok "stripper" → ec "IonChargeStates" ≠ some (.vec []))
    (c' : LCfg) (S : MSt) (hS : newState junk c' = .ok S) (n : Nat) (b : Bool) (start : Nat) (max : Int)
    {r : Mach.Run LCfg MDat MSt} (hr : propagate m.elems ⟨n, b, S⟩ start max = some r) : Arrays.Spec.Filled r.st.payload := by
  obtain ⟨h1, h2⟩ := Arrays.C40_machine (cavityFills env files junk base) cv c m h es hes hstr
  exact (Arrays.C40_simulation (cavityFills env files junk base) m.elems ⟨n, b, S⟩ start max h1 (h2 c' S hS) hr).1

end Flame.Cavity
