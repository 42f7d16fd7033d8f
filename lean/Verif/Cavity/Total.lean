import Verif.Cavity.Ideal
import Verif.Cavity.SpecTotal
import Verif.Cavity.Undo

/-! # C86: the recorded matrices of a range of a lattice compose

The runs of increasing length are related step by step; in each step the matrix that the simulation reports is the one that moved
centroid and covariance, in cavities through the terms in the last column that are set from the energy and the phase. -/

namespace Flame.Cavity

open Flame.Mach (Cls St Err CView Machine propagate sizeMod Elem Run Event run visits stepNext viewEvents run_succ_none run_succ_err run_succ_ok propagate_eq)
open Flame.Linear (LVal LCfg getNum getNumD getVec)
open Flame.Moment Flame.Moment.Spec

/-! ## runs of increasing length -/

section

variable {C X S : Type}

theorem run_steps {E : Nat → Elem C X S → Prop} {P : S → Prop} {Rel : S → S → Prop}
    (hk : ∀ j e, E j e → Keeps e.cls)
    (hstep : ∀ j e (s : St S), E j e → s.retreat = false → P s.payload → (e.cls.advance e.dat s).2.2 = none →
        P (e.cls.advance e.dat s).2.1.payload ∧ Rel s.payload (e.cls.advance e.dat s).2.1.payload)
    (n : Nat) : ∀ (els : List (Elem C X S)) (s : St S), els.length < sizeMod → s.nextElem + n ≤ els.length →
      (∀ j e, s.nextElem ≤ j → j < s.nextElem + n → els[j]? = some e → E j e) → s.retreat = false → P s.payload →
      (run n els s).err = none →
      ∀ k ≤ n, P (run k els s).st.payload ∧ (k < n → Rel (run k els s).st.payload (run (k + 1) els s).st.payload) := by
  induction n with
  | zero =>
    intro els s _ _ _ _ hP _ k hk
    obtain rfl : k = 0 := by omega
    exact ⟨hP, fun h => absurd h (by omega)⟩
  | succ n ih =>
    intro els s hl hn hE hr hP hok
    have hpay : ∀ s : St S, (stepNext s).payload = s.payload := by intro s; unfold stepNext; split <;> rfl
    have hret : ∀ s : St S, (stepNext s).retreat = s.retreat := by intro s; unfold stepNext; split <;> rfl
    cases h : els[s.nextElem]? with
    | none =>
      rw [List.getElem?_eq_none_iff] at h
      omega
    | some e =>
      have hEe := hE _ e (le_refl _) (by omega) h
      cases h3 : (e.cls.advance e.dat (stepNext s)).2.2 with
      | some x => rw [run_succ_err h h3] at hok; cases hok
      | none =>
        have g := hstep _ e (stepNext s) hEe (by rw [hret]; exact hr) (by rw [hpay]; exact hP) h3
        rw [hpay] at g
        obtain ⟨k1, k2⟩ := hk _ e hEe e.dat (stepNext s)
        have hup : (stepNext s).nextElem = s.nextElem + 1 := by
          unfold stepNext
          rw [if_neg (by rw [hr]; simp)]
          exact Nat.mod_eq_of_lt (by omega)
        rw [hup] at k1
        rw [hret, hr] at k2
        rw [run_succ_ok h h3] at hok
        have hi := ih (els.set s.nextElem { e with dat := (e.cls.advance e.dat (stepNext s)).1 })
          (e.cls.advance e.dat (stepNext s)).2.1 (by rwa [List.length_set]) (by rw [List.length_set, k1]; omega)
          (by
            intro j e' hj hj2 hj'
            rw [k1] at hj hj2
            rw [List.getElem?_set_ne (by omega)] at hj'
            exact hE j e' (by omega) (by omega) hj')
          k2 g.1 hok
        intro k hkn
        cases k with
        | zero =>
          refine ⟨hP, fun _ => ?_⟩
          rw [run_succ_ok h h3]
          exact g.2
        | succ k =>
          rw [run_succ_ok h h3]
          refine ⟨(hi k (by omega)).1, fun hlt => ?_⟩
          rw [run_succ_ok h h3]
          exact (hi k (by omega)).2 (by omega)

end

/-! ## one element -/

/-- What is known of a beam before each element. -/
def Whole (S : MSt) : Prop := Spec.Complete S ∧ ∀ v ∈ S.moment0, v 6 = 1

/-- The reported matrices moved the centroids, and under condition `G` the covariances. -/
def Reported (G : Prop) (S S' : MSt) : Prop :=
  S'.transmat.length = S.moment0.length ∧ S'.moment0 = List.zipWith (fun M v => M.mulVec v) S'.transmat S.moment0 ∧
  (G → S'.transmat.length = S.moment1.length ∧
    S'.moment1 = List.zipWith (fun M C => M * C * M.transpose) S'.transmat S.moment1)

theorem complete_wf {S : MSt} (h : Spec.Complete S) : WF S := ⟨h.moment0, h.moment1, h.transmat⟩

theorem advance_reported {env : Env} {t : MType} {d : MDat} {s : St MSt} (ht : t ≠ .source) (h0 : d.refIn = none) (hs : Sized d)
    (hr : s.retreat = false) (hc : Spec.Complete s.payload) (hok : (advance env t d s).2.2 = none) (G : Prop) :
    Spec.Complete (advance env t d s).2.1.payload ∧ Reported G s.payload (advance env t d s).2.1.payload := by
  obtain ⟨-, -, h1, -⟩ := advance_part ht h0 hr hr hc hc (Part.refl _) hok
  obtain ⟨-, ⟨m1, m2, m3, m4⟩, -, -⟩ := advance_moved env t d _ s _ ht hs (complete_wf hc)
    (Prod.ext rfl (Prod.ext rfl hok) : advance env t d s = ((advance env t d s).1, (advance env t d s).2.1, none))
  exact ⟨h1, m1, m2, fun _ => ⟨m3, m4⟩⟩

theorem cavity_reported {env : Env} {files : Files} {d : MDat} {cav : Cav} {s : St MSt} (hcav : d.cav = some cav)
    (h0 : d.refIn = none) (ht : getStr d.conf "cavtype" = .ok cav.cavType)
    (hg : cav.cavType = "Generic" → ∃ f, getStr d.conf "datafile" = .ok f ∧
      cav.dataFile = getStrD d.conf "Eng_Data_Dir" "." ++ "/" ++ f)
    (hr : s.retreat = false) (hw : Whole s.payload) (hok : (advanceCavity env files d s).2.2 = none) :
    Spec.Complete (advanceCavity env files d s).2.1.payload ∧
      Reported (cav.emitGrowth = 0) s.payload (advanceCavity env files d s).2.1.payload := by
  obtain ⟨-, -, h1, -⟩ := advanceCavity_part hcav h0 ht hg hr hr hw.1 hw.1 (Part.refl _) hok
  refine ⟨h1, ?_⟩
  clear h1
  obtain ⟨cav0, hc0, ⟨hh, -⟩ | ⟨-, cav1, ref, phi, l, mis, hre, hrec, hmis, -, -, e2⟩⟩ := forward_cases hr
    (Prod.ext rfl (Prod.ext rfl hok) : advanceCavity env files d s =
      ((advanceCavity env files d s).1, (advanceCavity env files d s).2.1, none))
  · exact absurd hh (miss _ h0)
  rw [hcav] at hc0
  cases hc0
  rw [reload_same ht hg] at hre
  cases hre
  rw [e2]
  have hlen : s.payload.recalc.real.length = s.payload.real.length := by simp [MSt.recalc]
  have hl := recomputeCav_length hrec
  have hlm := forEach_length hmis
  rw [List.length_map, hl, hlen] at hlm
  obtain ⟨k1, k2, k3, k4⟩ := @cavForward_moves env { { cav with misalign := resizeMis s.payload.recalc.real.length cav.misalign } with phiRef := some phi, misalign := mis } (filledDat d s.payload.recalc { { cav with misalign := resizeMis s.payload.recalc.real.length cav.misalign } with phiRef := some phi, misalign := mis } ref l) (filledSt s.payload.recalc ref l)
    s.payload.real.length (by simp [filledDat, hl, hlen]) hlm (by simp [filledSt, MSt.recalc, hl]) hlen hw.1.moment0 hw.1.moment1
    (fun m hx => by
      obtain ⟨p, -, hp⟩ := forEach_all hmis m hx
      exact (keeps_nice.misalign hp).1) hw.2
  refine ⟨k1.trans hw.1.moment0.symm, k2, fun hG => ?_⟩
  obtain ⟨-, -, m3, m4⟩ := k4 hG
  exact ⟨m3, m4⟩

/-! ## C86 -/

theorem reported_at {G : Prop} {S S' : MSt} {i : Nat} {v : Vec} (h : Reported G S S') (hv : S.moment0[i]? = some v) :
    ∃ T, S'.transmat[i]? = some T ∧ S'.moment0[i]? = some (T.mulVec v) ∧
      (G → ∀ M, S.moment1[i]? = some M → S'.moment1[i]? = some (T * M * T.transpose)) := by
  obtain ⟨h1, h2, h3⟩ := h
  have hi : i < S'.transmat.length := by rw [h1]; exact lt_of_get hv
  refine ⟨S'.transmat[i], List.getElem?_eq_getElem hi, ?_, fun g M hM => ?_⟩
  · rw [h2, List.getElem?_zipWith, List.getElem?_eq_getElem hi, hv]
  · rw [(h3 g).2, List.getElem?_zipWith, List.getElem?_eq_getElem hi, hM]

theorem total_reported {G : Prop} {f : ℕ → MSt} {n i : ℕ} {v : Vec} {M : Mat} (h : ∀ k < n, Reported G (f k) (f (k + 1)))
    (hv : (f 0).moment0[i]? = some v) (hM : (f 0).moment1[i]? = some M) :
    ∃ T : ℕ → Mat, (∀ k < n, (f (k + 1)).transmat[i]? = some (T k)) ∧
      ∀ k ≤ n, (f k).moment0[i]? = some ((Spec.total T k).mulVec v) ∧
        (G → (f k).moment1[i]? = some (Spec.total T k * M * (Spec.total T k).transpose)) := by
  have key : ∀ k ≤ n, (∀ j < k, (f (j + 1)).transmat[i]? = some (((f (j + 1)).transmat[i]?).getD 0)) ∧
      (f k).moment0[i]? = some ((Spec.total (fun j => ((f (j + 1)).transmat[i]?).getD 0) k).mulVec v) ∧
      (G → (f k).moment1[i]? = some (Spec.total (fun j => ((f (j + 1)).transmat[i]?).getD 0) k * M *
        (Spec.total (fun j => ((f (j + 1)).transmat[i]?).getD 0) k).transpose)) := by
    intro k
    induction k with
    | zero =>
      intro _
      refine ⟨fun j hj => absurd hj (by omega), ?_, fun _ => ?_⟩
      · rw [hv, Spec.total, Matrix.one_mulVec]
      · rw [hM, Spec.total, Matrix.one_mul, Matrix.transpose_one, Matrix.mul_one]
    | succ k ih =>
      intro hk
      obtain ⟨i1, i2, i3⟩ := ih (by omega)
      obtain ⟨T, t1, t2, t3⟩ := reported_at (h k (by omega)) i2
      have e : Spec.total (fun j => ((f (j + 1)).transmat[i]?).getD 0) (k + 1) =
          T * Spec.total (fun j => ((f (j + 1)).transmat[i]?).getD 0) k := by
        rw [Spec.total, t1]
        rfl
      refine ⟨fun j hj => ?_, ?_, fun g => ?_⟩
      · rcases Nat.lt_succ_iff_lt_or_eq.1 hj with hj | rfl
        · exact i1 j hj
        · rw [t1]
          rfl
      · rw [e, t2, Matrix.mulVec_mulVec]
      · rw [e, t3 g _ (i3 g), Matrix.transpose_mul]
        simp only [Matrix.mul_assoc]
  exact ⟨_, fun k hk => (key (k + 1) hk).1 k (Nat.lt_succ_self k), fun k hk => (key k hk).2⟩

/-- C86: a machine is built from a lattice, and a beam whose centroids have the seventh coordinate 1 is sent forward through `n`
elements from `start` on, none of them a source or a stripper.  Let `R k` be the same simulation ended after `k` elements.  If there
is no exception, then for each charge state the product of the matrices reported after each element takes the centroid at the
start to the centroid after every element, and, if the growth of the emittance is off in all cavities of the range, the covariance
as well. -/
theorem C86_compose {env : Env} {files : Files} {junk : Mat} {base : Nat} (cv : CView LCfg) (c : LCfg)
    (m : Machine LCfg MDat MSt)
    (h : Machine.new cv (registry env junk base (cavityCls env files junk base) (stripperCls env junk base)) c = .ok m)
    (es : List LCfg) (hes : cv.elems c = .ok es) (hl : es.length < sizeMod) (start n : Nat) (hn : start + n ≤ es.length)
    (hu : ∀ j ec ty, start ≤ j → j < start + n → es[j]? = some ec → cv.str ec "type" = .ok ty → Spec.Moves ty ec)
    (s : St MSt) (hc : Spec.Complete s.payload) (h7 : ∀ v ∈ s.payload.moment0, v 6 = 1) :
    ∃ R : ℕ → Run LCfg MDat MSt, (∀ k ≤ n, propagate m.elems s start k = some (R k)) ∧ ((R n).err = none →
      ∀ (i : ℕ) (v : Vec) (M : Mat), s.payload.moment0[i]? = some v → s.payload.moment1[i]? = some M →
      ∃ T : ℕ → Mat, (∀ k < n, (R (k + 1)).st.payload.transmat[i]? = some (T k)) ∧
        ∀ k ≤ n, (R k).st.payload.moment0[i]? = some ((Spec.total T k).mulVec v) ∧
          ((∀ j ec, start ≤ j → j < start + n → es[j]? = some ec → cv.str ec "type" = .ok "rfcavity" →
              Settings.Switch env ec "EmitGrowth" 0 0) →
            (R k).st.payload.moment1[i]? = some (Spec.total T k * M * (Spec.total T k).transpose))) := by
  have hF := machine_moment h hes
  have hlen := hF.length_eq
  have hall := fun j e (hj : m.elems[j]? = some e) => forall₂_get hF hj
  let E : Nat → Elem LCfg MDat MSt → Prop := fun j e => start ≤ j ∧ j < start + n ∧ m.elems[j]? = some e
  let G : Prop := ∀ j ec, start ≤ j → j < start + n → es[j]? = some ec → cv.str ec "type" = .ok "rfcavity" →
              Settings.Switch env ec "EmitGrowth" 0 0
  have hk : ∀ j e, E j e → Keeps e.cls := by
    rintro j e ⟨h1, h1', h2⟩
    obtain ⟨ec, hec, ty, hty, ⟨t, ht, htn, hb⟩ | ⟨ht, -, hb⟩ | ⟨ht, -, hb⟩⟩ := hall j e h2
    · rw [ht]
      refine (measured_cls env junk base t ?_).1
      rintro rfl
      exact (hu j ec ty h1 h1' hec hty).kinds.1 (by rw [← htn]; rfl)
    · rw [ht]
      exact (measured_cavity env files junk base _ _ hb).2.1
    · rw [ht]
      exact (measured_stripper env junk base _ _ hb).2.1
  have hstep : ∀ j e (s : St MSt), E j e → s.retreat = false → Whole s.payload → (e.cls.advance e.dat s).2.2 = none →
      Whole (e.cls.advance e.dat s).2.1.payload ∧ Reported G s.payload (e.cls.advance e.dat s).2.1.payload := by
    rintro j e s ⟨h1, h1', h2⟩ hr hP hok
    obtain ⟨ec, hec, ty, hty, ⟨t, ht, rfl, hb⟩ | ⟨ht, rfl, hb⟩ | ⟨ht, rfl, hb⟩⟩ := hall j e h2
    · have huk := hu j ec _ h1 h1' hec hty
      have hts : t ≠ .source := by
        rintro rfl
        exact huk.kinds.1 rfl
      obtain ⟨b1, b2, b3⟩ := build_conf hb
      have haff : AffineAny env files junk base e := .inl ⟨t, ht, fun h => by rw [b1]; exact huk.matrix (by rw [h]; rfl),
        fun i hi => absurd (b3 i hi).1 hts, by rw [b2]; simp⟩
      have hlast := affineAny_first haff (s := s) hP.2
      rw [ht] at hok hlast ⊢
      obtain ⟨r1, r2⟩ := advance_reported (env := env) (t := t) (d := e.dat) (s := s) hts (build_length hb).2.2.1
        (build_length hb).2.2.2 hr hP.1 hok G
      exact ⟨⟨r1, hlast⟩, r2⟩
    · have huk := hu j ec _ h1 h1' hec hty
      obtain ⟨d0, cav, hd0, hload, hdat⟩ := loadCavity_ok (show buildCavity env files junk ec = .ok e.dat from hb)
      obtain ⟨l1, -, l3, l4⟩ := loadCavity_map hload
      have hconf : e.dat.conf = ec := by rw [hdat]; exact (build_length hd0).2.1
      have hnone : e.dat.refIn = none := by rw [hdat]; exact (build_length hd0).2.2.1
      have hcv : e.dat.cav = some cav := by rw [hdat]
      have haff : AffineAny env files junk base e := by
        refine .inr ⟨ht, ?_, ?_⟩
        · rw [hdat]
          show ∀ T ∈ d0.transfer, _
          rw [(build_conf hd0).2.1]
          simp
        · intro cav' hcc
          rw [hcv] at hcc
          cases hcc
          have := loadCavity_misalign env files ec noCav
          rw [hload] at this
          have e0 : cav.misalign = [] := this
          rw [e0]
          simp
      have hlast := affineAny_first haff (s := s) hP.2
      obtain ⟨cav', hc1, hc2⟩ := C81_asked (show buildCavity env files junk ec = .ok e.dat from hb)
      rw [hcv] at hc1
      cases hc1
      have hGg : G → cav.emitGrowth = 0 := by
        intro hG
        have a := (flag_switch (env := env) (c := ec) (k := "EmitGrowth") (dflt := 0)).2
          ⟨hc2.growth.1, by have := hc2.growth.2; omega⟩
        have b := (flag_switch (env := env) (c := ec) (k := "EmitGrowth") (dflt := 0) (n := 0)).2
          ⟨hG j ec h1 h1' hec hty, by norm_num⟩
        rw [a] at b
        exact Except.ok.inj b
      rw [ht] at hok hlast ⊢
      obtain ⟨r1, r2, r3, r4⟩ := cavity_reported (env := env) (files := files) hcv hnone (by rw [hconf]; exact l3)
        (by rw [hconf]; exact l4) hr hP hok
      exact ⟨⟨r1, hlast⟩, r2, r3, fun g => r4 (hGg g)⟩
    · exact absurd rfl (hu j ec _ h1 h1' hec hty).kinds.2
  refine ⟨fun k => run k m.elems { s with nextElem := start, retreat := false }, fun k _ => ?_, fun hok i v M hv hM => ?_⟩
  · rw [propagate_eq m.elems s start k (by omega)]
    have : decide ((k : Int) < 0) = false := by simp
    rw [this, Int.natAbs_natCast]
  have hs := run_steps (E := E) (P := Whole) (Rel := Reported G) hk hstep n m.elems { s with nextElem := start, retreat := false }
    (by rw [← hlen]; exact hl) (by rw [← hlen]; exact hn) (fun j e h1 h2 h3 => ⟨h1, h2, h3⟩) rfl ⟨hc, h7⟩ hok
  exact total_reported (G := G) (f := fun k => (run k m.elems { s with nextElem := start, retreat := false }).st.payload)
    (fun k hk => (hs k (by omega)).2 hk) hv hM

/-- The hypotheses of `C86_compose` are met by a drift and a cavity without growth of the emittance, for a beam of two charge
states. -/
example (env : Env) (junk : Mat) : ∃ m es, Machine.new exMonoView
      (registry env junk 0 (cavityCls env exFiles junk 0) (stripperCls env junk 0))
      (fun k => if k = "sim_type" then some (.str "MomentMatrix") else none) = .ok m ∧
    exMonoView.elems (fun k => if k = "sim_type" then some (.str "MomentMatrix") else none) = .ok es ∧ 0 + 2 ≤ es.length ∧
    (∀ (j : Nat) ec ty, 0 ≤ j → j < 0 + 2 → es[j]? = some ec → exMonoView.str ec "type" = .ok ty → Spec.Moves ty ec) ∧
    Spec.Complete exOnAxis.payload ∧ (∀ v ∈ exOnAxis.payload.moment0, v 6 = 1) ∧
    ∀ (j : Nat) ec, 0 ≤ j → j < 0 + 2 → es[j]? = some ec → exMonoView.str ec "type" = .ok "rfcavity" →
      Settings.Switch env ec "EmitGrowth" 0 0 := by
  obtain ⟨m, es, h1, h2, h3, h4⟩ := exMono_machine env junk
  refine ⟨m, es, h1, h2, by omega, ?_, ⟨rfl, rfl, rfl⟩, ?_, ?_⟩
  all_goals cases h2
  · intro j ec ty _ _ hj hty
    match j, hj with
    | 0, hj =>
      cases hj
      cases hty
      constructor <;> simp
    | 1, hj =>
      cases hj
      cases hty
      constructor <;> simp
  · simp [exOnAxis, Spec.onAxis]
  · intro j ec _ _ hj hty
    match j, hj with
    | 0, hj =>
      cases hj
      exact absurd (Except.ok.inj hty) (by decide)
    | 1, hj =>
      cases hj
      refine .inr ⟨rfl, ?_⟩
      simp [Settings.Says, exMono, exFull, exSet]

end Flame.Cavity
