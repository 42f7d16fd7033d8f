import Verif.Arrays.Props
import Verif.Moment.Orbit
import Verif.Moment.Strip
import Verif.Moment.State

/-! # Introspection during a simulation: C40 -/

namespace Flame.Arrays

open Spec
open Flame.Mach
open Flame.Moment
open Flame.Util (Mem)
open Flame.Linear (LCfg LVal)

theorem ne_nil_zipWith {α β γ : Type} {f : α → β → γ} {l : List α} {r : List β} (h1 : l ≠ []) (h2 : r ≠ []) :
    List.zipWith f l r ≠ [] := by
  cases l with
  | nil => contradiction
  | cons _ _ => cases r with
    | nil => contradiction
    | cons _ _ => simp

theorem filled_recalc {s : MSt} (h : Filled s) : Filled s.recalc := by
  obtain ⟨h1, h2, h3, h4⟩ := h
  exact ⟨by simpa [MSt.recalc] using h1, h2, h3, h4⟩

theorem filled_placed {s : MSt} (h : Filled s) {real : List Particle} (hr : real ≠ []) (ref : Particle) (x : ℝ) :
    Filled { s with ref := ref, real := real, pos := x } := ⟨hr, h.2⟩

theorem filled_forward {T : List Mat} {s : MSt} (hT : T ≠ []) (h : Filled s) : Filled (forward T s) := by
  obtain ⟨h1, h2, h3, h4⟩ := h
  exact ⟨h1, ne_nil_zipWith hT h2, ne_nil_zipWith hT h3, hT⟩

theorem backLoop_ne : ∀ (T : List Mat) (vs : List Vec) (Ss Xs : List Mat), vs ≠ [] → Ss ≠ [] → Xs ≠ [] →
    (backLoop T vs Ss Xs).1 ≠ [] ∧ (backLoop T vs Ss Xs).2.1 ≠ [] ∧ (backLoop T vs Ss Xs).2.2.1 ≠ []
  | T, vs, Ss, Xs, h1, h2, h3 => by
    unfold backLoop
    split
    · split
      · exact ⟨by simp, by simp, by simp⟩
      · exact ⟨by simp, by simp, by simp⟩
    · exact ⟨h1, h2, h3⟩

theorem filled_backward {T : List Mat} {s : MSt} (h : Filled s) : Filled (backward T s).1 := by
  obtain ⟨h1, h2, h3, h4⟩ := h
  exact ⟨h1, backLoop_ne _ _ _ _ h2 h3 h4⟩

theorem bendPhis_ne {b : Bool} {L : ℝ} {ps : List Particle} {vs ws : List Vec} (h : ps ≠ []) : bendPhis b L ps vs ws ≠ [] := by
  unfold bendPhis
  split
  · simp
  · exact h

theorem particles_filled {rec : MDat → Particle → List Particle → Except Err (List Mat)}
    (hrec : ∀ d r l T, rec d r l = .ok T → T.length = l.length) {mv d} {S : MSt} (hs : Sized d) (h : S.real ≠ [])
    (b : Bool) (hb : b = true → hit d S) :
    Sized (particles rec mv d S b).1 ∧ (particles rec mv d S b).1.transfer ≠ [] ∧
    ∀ ref real, (particles rec mv d S b).2 = .ok (ref, real) → real ≠ [] := by
  obtain ⟨h1, h2⟩ := particles_sized (mv := mv) hrec hs b hb
  refine ⟨h1, ?_, ?_⟩
  · rw [← List.length_pos_iff, h2]
    exact List.length_pos_iff.2 h
  · intro ref real hr
    unfold particles at hr
    split at hr
    · rename_i hb'
      cases hr
      have hl := List.length_pos_iff.2 h
      rw [← List.length_pos_iff, List.length_append, List.length_drop]
      omega
    · dsimp only at hr
      split at hr
      · cases hr
      · cases hr
        simpa using h

theorem advanceBase_filled {rec : MDat → Particle → List Particle → Except Err (List Mat)}
    (hrec : ∀ d r l T, rec d r l = .ok T → T.length = l.length) {d : MDat} {s : St MSt} (hs : Sized d)
    (h : Filled s.payload) :
    Sized (advanceBase rec d s).1 ∧ Filled (advanceBase rec d s).2.1.payload := by
  have hS := filled_recalc h
  unfold advanceBase
  dsimp only
  obtain ⟨p1, p2, p3⟩ := particles_filled hrec (mv := (·.drifted s.retreat d.length)) hs hS.1
    (@decide (hit d s.payload.recalc) (Classical.propDecidable _)) (fun hb => @of_decide_eq_true _ (Classical.propDecidable _) hb)
  generalize hp : particles rec (·.drifted s.retreat d.length) d s.payload.recalc
    (@decide (hit d s.payload.recalc) (Classical.propDecidable _)) = P at p1 p2 p3 ⊢
  match P with
  | (d', .error e) => exact ⟨p1, hS⟩
  | (d', .ok (ref, real)) =>
    have hr := p3 ref real rfl
    have hF := filled_placed hS hr ref (s.payload.recalc.pos + sign s.retreat * d.length)
    dsimp only at p1 p2 ⊢
    split
    · have hB := filled_backward (T := d'.transfer) hF
      split
      · rename_i heq
        rw [heq] at hB
        exact ⟨p1, hB⟩
      · rename_i heq
        rw [heq] at hB
        exact ⟨p1, hB⟩
    · exact ⟨p1, filled_forward p2 hF⟩

theorem advanceBend_filled {rec : MDat → Particle → List Particle → Except Err (List Mat)}
    (hrec : ∀ d r l T, rec d r l = .ok T → T.length = l.length) {d : MDat} {s : St MSt} (hs : Sized d)
    (h : Filled s.payload) :
    Sized (advanceBend rec d s).1 ∧ Filled (advanceBend rec d s).2.1.payload := by
  have hS := filled_recalc h
  unfold advanceBend
  dsimp only
  obtain ⟨p1, p2, p3⟩ := particles_filled hrec (mv := id) hs hS.1
    (@decide (hit d s.payload.recalc) (Classical.propDecidable _)) (fun hb => @of_decide_eq_true _ (Classical.propDecidable _) hb)
  generalize hp : particles rec id d s.payload.recalc
    (@decide (hit d s.payload.recalc) (Classical.propDecidable _)) = P at p1 p2 p3 ⊢
  match P with
  | (d', .error e) => exact ⟨p1, hS⟩
  | (d', .ok (ref, real)) =>
    have hr := p3 ref real rfl
    have hF := filled_placed hS hr (ref.drifted s.retreat d.length) (s.payload.recalc.pos + sign s.retreat * d.length)
    dsimp only at p1 p2 ⊢
    split
    · have hB := filled_backward (T := d'.transfer) hF
      split
      · rename_i heq
        rw [heq] at hB
        exact ⟨p1, hB⟩
      · rename_i heq
        rw [heq] at hB
        exact ⟨p1, ⟨bendPhis_ne hB.1, hB.2⟩⟩
    · have hB := filled_forward p2 hF
      exact ⟨p1, ⟨bendPhis_ne hB.1, hB.2⟩⟩

theorem advanceSext_filled {d : MDat} {s : St MSt} (hs : Sized d) (h : Filled s.payload) :
    Sized (advanceSext d s).1 ∧ Filled (advanceSext d s).2.1.payload := by
  have hS := filled_recalc h
  unfold advanceSext
  split
  · dsimp only
    split
    · exact ⟨resize_length _ _, hS⟩
    · split
      · exact ⟨resize_length _ _, hS⟩
      · rename_i rs hrs
        have hl : rs ≠ [] := by
          have := (forEach_ok.1 hrs).length_eq
          have h0 := List.length_pos_iff.2 hS.1
          have h1 := List.length_pos_iff.2 hS.2.1
          have h2 := List.length_pos_iff.2 hS.2.2.1
          simp only [List.length_zip] at this
          rw [← List.length_pos_iff]
          omega
        refine ⟨resize_length _ _, ?_, ?_, ?_, ?_⟩
        · simpa [MSt.calcRms] using hS.1
        · simpa [MSt.calcRms] using hl
        · simpa [MSt.calcRms] using hl
        · simpa [MSt.calcRms] using hl
  · exact ⟨hs, h⟩

theorem advance_filled {env : Env} {t : MType} {d : MDat} {s : St MSt} (hs : Sized d)
    (hi : ∀ i, d.istate = some i → Filled i) (h : Filled s.payload) :
    Sized (advance env t d s).1 ∧ Filled (advance env t d s).2.1.payload := by
  have hrec : ∀ t d r l T, recompute env t d r l = .ok T → T.length = l.length := fun t d r l T h => recompute_length h
  cases t with
  | source =>
    simp only [advance, advanceSource]
    split
    · exact ⟨hs, h⟩
    · rename_i i hi'
      split
      · exact ⟨hs, h⟩
      · exact ⟨hs, hi i hi'⟩
  | sbend => exact advanceBend_filled (hrec _) hs h
  | sextupole => exact advanceSext_filled hs h
  | _ => exact advanceBase_filled (hrec _) hs h

theorem stripper_filled {d : MDat} {s : St MSt} (hc : d.conf "IonChargeStates" ≠ some (.vec [])) (h : Filled s.payload) :
    (advanceStripper d s).1 = d ∧ Filled (advanceStripper d s).2.1.payload := by
  have hS : Filled s.payload.recalc.calcRms := filled_recalc h
  unfold advanceStripper
  dsimp only
  split
  · exact ⟨rfl, hS⟩
  · split
    · exact ⟨rfl, hS⟩
    · rename_i S' hS'
      refine ⟨rfl, ?_⟩
      obtain ⟨chg, n, w, h1, h2, rfl, hw, -⟩ := stripperGetMat_ok hS'
      have hne : chg ≠ [] := fun he => hc (by rw [h1, he])
      have hwne : w ≠ [] := by
        rw [← List.length_pos_iff, hw]
        exact List.length_pos_iff.2 hne
      exact ⟨ne_nil_zipWith hne hwne, by simpa [stripped, MSt.calcRms] using hne,
        by simpa [stripped, MSt.calcRms] using hne, by simpa [stripped, MSt.calcRms] using hne⟩

/-- Elements that leave a charge state.  `K` is what is known of the data of cavities. -/
def Fillable (env : Env) (junk : Mat) (base : Nat) (cavity : MCls) (K : MDat → Prop) (e : MElem) : Prop :=
  (∃ t, e.cls = cls env junk base t ∧ Sized e.dat ∧ ∀ i, e.dat.istate = some i → Filled i) ∨
  (e.cls = cavity ∧ K e.dat) ∨
  (e.cls = stripperCls env junk base ∧ e.dat.conf "IonChargeStates" ≠ some (.vec []))

/-- What is used of the class of the cavity: there is a property of its data, true after construction and kept, under which it
keeps a charge state. -/
def CavityFills (cavity : MCls) (K : MDat → Prop) : Prop :=
  (∀ c d, cavity.build c = .ok d → K d) ∧
  ∀ d s, K d → Filled s.payload → K (cavity.advance d s).1 ∧ Filled (cavity.advance d s).2.1.payload

theorem advance_istate (env : Env) (t : MType) (d : MDat) (s : St MSt) : (advance env t d s).1.istate = d.istate := by
  have hp : ∀ {rec : MDat → Particle → List Particle → Except Err (List Mat)} {mv d S b},
      (particles rec mv d S b).1.istate = d.istate := by
    intro rec mv d S b
    unfold particles
    split
    · rfl
    · dsimp only
      split <;> rfl
  have hbase : ∀ rec : MDat → Particle → List Particle → Except Err (List Mat), (advanceBase rec d s).1.istate = d.istate := by
    intro rec
    have key := hp (rec := rec) (mv := (·.drifted s.retreat d.length)) (d := d) (S := s.payload.recalc)
      (b := @decide (hit d s.payload.recalc) (Classical.propDecidable _))
    unfold advanceBase
    dsimp only
    split
    · rename_i heq
      rw [heq] at key
      exact key
    · rename_i heq
      rw [heq] at key
      split
      · split <;> exact key
      · exact key
  have hbend : ∀ rec : MDat → Particle → List Particle → Except Err (List Mat), (advanceBend rec d s).1.istate = d.istate := by
    intro rec
    have key := hp (rec := rec) (mv := id) (d := d) (S := s.payload.recalc)
      (b := @decide (hit d s.payload.recalc) (Classical.propDecidable _))
    unfold advanceBend
    dsimp only
    split
    · rename_i heq
      rw [heq] at key
      exact key
    · rename_i heq
      rw [heq] at key
      split
      · split <;> exact key
      · exact key
  cases t with
  | source =>
    simp only [advance, advanceSource]
    split
    · rfl
    · split <;> rfl
  | sbend => exact hbend _
  | sextupole =>
    simp only [advance, advanceSext]
    split
    · split
      · rfl
      · split <;> rfl
    · rfl
  | _ => exact hbase _

theorem fillable_step {env : Env} {junk : Mat} {base : Nat} {cavity : MCls} {K : MDat → Prop} (hK : CavityFills cavity K)
    (e : MElem) (s : St MSt) (he : Fillable env junk base cavity K e) (h : Filled s.payload) :
    Fillable env junk base cavity K { e with dat := (e.cls.advance e.dat s).1 } ∧
    Filled (e.cls.advance e.dat s).2.1.payload := by
  rcases he with ⟨t, hc, hs, hi⟩ | ⟨hc, hk⟩ | ⟨hc, hcs⟩
  · have hA : e.cls.advance = advance env t := by rw [hc]; rfl
    rw [hA]
    obtain ⟨h1, h2⟩ := advance_filled (env := env) (t := t) hs hi h
    exact ⟨.inl ⟨t, hc, h1, fun i hi' => hi i (by rw [← advance_istate env t e.dat s]; exact hi')⟩, h2⟩
  · have hA : e.cls.advance = cavity.advance := by rw [hc]
    rw [hA]
    obtain ⟨h1, h2⟩ := hK.2 e.dat s hk h
    exact ⟨.inr (.inl ⟨hc, h1⟩), h2⟩
  · have hA : e.cls.advance = advanceStripper := by rw [hc]; rfl
    rw [hA]
    obtain ⟨h1, h2⟩ := stripper_filled hcs h
    exact ⟨.inr (.inr ⟨hc, by rw [h1]; exact hcs⟩), h2⟩

theorem newState_filled {junk : Mat} {c : LCfg} {s : MSt} (h : newState junk c = .ok s) : Filled s := by
  have wf : ∀ ref l, l ≠ [] → Filled (stateOf ref l) := fun ref l hl => by
    simpa [Spec.Filled, stateOf, MSt.calcRms] using hl
  have len : ∀ c ref l (n : Nat) r, newCharges c ref n l = .ok r → r.length = l.length := by
    intro c ref l
    induction l with
    | nil => intro n r h; cases h; rfl
    | cons q l ih =>
      intro n r h
      simp only [newCharges] at h
      split at h
      · cases h
      · split at h
        · cases h
        · rename_i heq
          cases h
          simp [ih _ _ heq]
  unfold newState at h
  split at h
  · cases h
  · split at h
    · split at h
      · cases h
      · cases h
        exact wf _ _ (by simp)
    · split at h
      · cases h
      · rename_i hm
        cases h
        obtain ⟨h1, h2, nchg, -, h4, l, h5, rfl⟩ := newMany_ok.1 hm
        refine wf _ _ ?_
        have := len _ _ _ _ _ h5
        rw [← List.length_pos_iff, this]
        unfold chosen
        have h6 := List.length_pos_iff.2 h1
        split
        · rw [List.length_zip, h4, Nat.min_self]
          exact h6
        · rename_i i hcs
          rw [hcs, Option.getD_some] at h2
          rw [List.length_take, List.length_drop, List.length_zip, h4, Nat.min_self]
          omega

/-- **C40**: in a simulation the state never loses its last charge state, so that the table of `C40_moment` applies at every
stage, whether elements throw or not.  Strippers must be configured with a charge state. -/
theorem C40_simulation {env : Env} {junk : Mat} {base : Nat} {cavity : MCls} {K : MDat → Prop} (hK : CavityFills cavity K)
    (els : List MElem) (s : St MSt) (start : Nat) (max : Int) (hE : ∀ e ∈ els, Fillable env junk base cavity K e)
    (h : Filled s.payload) {r : Run LCfg MDat MSt} (hr : propagate els s start max = some r) :
    Filled r.st.payload ∧ ∀ e ∈ r.elems, Fillable env junk base cavity K e :=
  propagate_inv (fun e s he hp => fillable_step hK e s he hp) hE h start max hr

/-- The hypotheses are those of every machine and every initial state. -/
theorem C40_machine {env : Env} {junk : Mat} {base : Nat} {cavity : MCls} {K : MDat → Prop} (hK : CavityFills cavity K)
    (cv : CView LCfg) (c : LCfg) (m : Machine LCfg MDat MSt)
    (h : Machine.new cv (registry env junk base cavity (stripperCls env junk base)) c = .ok m)
    (es : List LCfg) (hes : cv.elems c = .ok es)
    (hstr : ∀ ec ∈ es, cv.str ec "type" = .ok "stripper" → ec "IonChargeStates" ≠ some (.vec [])) :
    (∀ e ∈ m.elems, Fillable env junk base cavity K e) ∧ ∀ c' s, newState junk c' = .ok s → Filled s := by
  refine ⟨?_, fun c' s hs => newState_filled hs⟩
  have hF := machine_moment h hes
  generalize m.elems = l at hF
  clear h hes
  induction hF with
  | nil => intro e he; simp at he
  | @cons ec e _ _ hd _ ih =>
    intro e' he'
    rcases List.mem_cons.1 he' with rfl | he'
    · obtain ⟨ty, h1, h2⟩ := hd
      rcases h2 with ⟨t, hc, hn, hb⟩ | ⟨hc, -, hb⟩ | ⟨hc, rfl, hb⟩
      · exact .inl ⟨t, hc, (build_length hb).2.2.2, fun i hi => newState_filled ((build_conf hb).2.2 i hi).2⟩
      · exact .inr (.inl ⟨hc, hK.1 ec _ hb⟩)
      · refine .inr (.inr ⟨hc, ?_⟩)
        rw [(build_length (env := env) (junk := junk) (t := .marker) hb).2.1]
        exact hstr ec (by simp) h1
    · exact ih (fun ec hec => hstr ec (by simp [hec])) e' he'

/-- A stripper configured without charge states is accepted; behind it the table of the state is undefined. -/
theorem C40_empty_false (env : Env) : ∃ (d : MDat) (s s' : St MSt), Filled s.payload ∧
    advanceStripper d s = (d, s', none) ∧ ∀ L, momentArray L s'.payload 1 = .ub := by
  refine ⟨exDat env (fun k => if k = "IonChargeStates" then some (.vec []) else if k = "NCharge" then some (.vec [])
      else if k = "charge_model" then some (.str "off") else none) 0, exState false, ?_⟩
  obtain ⟨s', h⟩ := (C39_accepts (exDat env (fun k => if k = "IonChargeStates" then some (.vec [])
      else if k = "NCharge" then some (.vec []) else if k = "charge_model" then some (.str "off") else none) 0)
    (exState false)).2 ⟨rfl, [], [], by simp [exDat], by simp [exDat],
        .inl ⟨by simp [Moment.Spec.textOr, exDat], rfl⟩, by simp [Moment.Spec.listOr, exDat],
        by simp [Moment.Spec.listOr, exDat]⟩
  refine ⟨s', by simp [Spec.Filled, exState], h, fun L => ?_⟩
  obtain ⟨-, -, -, -, hg⟩ := advanceStripper_ok h
  obtain ⟨chg, n, w, h1, h2, e, -, -⟩ := stripperGetMat_ok hg
  have : chg = [] := by
    simp [exDat] at h1
    exact h1
  subst this
  rw [e]
  rfl

/-! ## examples -/

/-- Room for up to ten charge states. -/
def exLayout : Layout where
  nextElem := 8
  pos := 16
  env1 := 1000
  m1 := 100000
  tm := 200000
  env0 := 2000
  rms := 3000
  m0 := 300000
  ref := 4000
  real := 5000
  cavi := 24
  szM := 424
  szV := 72

theorem exLayout_apart (s : MSt) (h : s.real.length ≤ 10 ∧ s.moment0.length ≤ 10 ∧ s.moment1.length ≤ 10 ∧
    s.transmat.length ≤ 10) : Apart exLayout s := by
  refine ⟨?_, by decide, by decide⟩
  simp only [exLayout, List.pairwise_cons, List.mem_cons, List.not_mem_nil, or_false, forall_eq_or_imp, forall_eq]
  refine ⟨?_, ?_, ?_, ?_, ?_, ?_, ?_, ?_, ?_, ?_, ?_⟩ <;> simp <;> omega

/-- The doubles of a particle in order. -/
noncomputable def doubles (p : Particle) : List ℝ :=
  [p.IonZ, p.IonQ, p.IonEs, p.IonW, p.gamma, p.beta, p.bg, p.SampleFreq, p.SampleLambda, p.SampleIonK, p.phis, p.IonEk]

noncomputable def matCell (M : Mat) (o : Int) : Cell := .num (M (Fin.ofNat 7 (o / 8 / 7).toNat) (Fin.ofNat 7 (o / 8 % 7).toNat))

noncomputable def vecCell (v : Vec) (o : Int) : Cell := .num (v (Fin.ofNat 7 (o / 8).toNat))

noncomputable def particleCell (p : Particle) (o : Int) : Cell := .num ((doubles p).getD (o / 8).toNat 0)

/-- A memory with a state of up to ten charge states. -/
noncomputable def exMem (next : Nat) (s : MSt) : Mem Cell := fun a =>
  if a = 8 then .nat next
  else if a = 16 then .num s.pos
  else if a = 24 then .num s.last_caviphi0
  else if a < 2000 then matCell s.moment1_env (a - 1000)
  else if a < 3000 then vecCell s.moment0_env (a - 2000)
  else if a < 4000 then vecCell s.moment0_rms (a - 3000)
  else if a < 5000 then particleCell s.ref (a - 4000)
  else if a < 100000 then particleCell (s.real.getD ((a - 5000) / 96).toNat s.ref) ((a - 5000) % 96)
  else if a < 200000 then matCell (s.moment1.getD ((a - 100000) / 424).toNat 0) ((a - 100000) % 424)
  else if a < 300000 then matCell (s.transmat.getD ((a - 200000) / 424).toNat 0) ((a - 200000) % 424)
  else vecCell (s.moment0.getD ((a - 300000) / 72).toNat 0) ((a - 300000) % 72)

theorem matCell_at (M : Mat) (i j : Fin 7) : matCell M (8 * (7 * i.val + j.val)) = .num (M i j) := by
  have h1 : ((8 * (7 * (i.val : Int) + j.val)) / 8 / 7).toNat = i.val := by omega
  have h2 : ((8 * (7 * (i.val : Int) + j.val)) / 8 % 7).toNat = j.val := by omega
  unfold matCell
  rw [h1, h2, Fin.ofNat_val_eq_self, Fin.ofNat_val_eq_self]

theorem vecCell_at (v : Vec) (i : Fin 7) : vecCell v (8 * i.val) = .num (v i) := by
  have h1 : ((8 * (i.val : Int)) / 8).toNat = i.val := by omega
  unfold vecCell
  rw [h1, Fin.ofNat_val_eq_self]

theorem particleCell_at (mem : Mem Cell) (a : Int) (p : Particle)
    (h : ∀ k : Nat, k < 12 → mem (a + 8 * k) = particleCell p (8 * k)) : ParticleAt mem a p := by
  refine ⟨by simpa [particleCell, doubles] using h 0 (by decide), ?_⟩
  refine ⟨h 1 (by decide), h 2 (by decide), h 3 (by decide), h 4 (by decide), h 5 (by decide), h 6 (by decide),
    h 7 (by decide), h 8 (by decide), h 9 (by decide), h 10 (by decide), h 11 (by decide)⟩

theorem exMem_holds (next : Nat) (s : MSt) (h : s.real.length ≤ 10 ∧ s.moment0.length ≤ 10 ∧ s.moment1.length ≤ 10 ∧
    s.transmat.length ≤ 10) : Holds (exMem next s) exLayout next s := by
  have lt : ∀ {α : Type} {l : List α} {k : Nat} {x : α}, l[k]? = some x → l.length ≤ 10 → k < 10 := fun hk hl => by
    have := (List.getElem?_eq_some_iff.1 hk).1
    omega
  refine ⟨rfl, rfl, ?_, ?_, ?_, ?_, ?_, ?_, ?_, ?_, rfl⟩
  · intro i j
    rw [← matCell_at]
    unfold exMem exLayout
    rw [if_neg (by dsimp only; omega), if_neg (by dsimp only; omega), if_neg (by dsimp only; omega),
      if_pos (by dsimp only; omega)]
    congr 1
    dsimp only
    omega
  · intro k x hk i j
    have := lt hk h.2.2.1
    unfold exMem exLayout
    dsimp only
    rw [if_neg (by omega), if_neg (by omega), if_neg (by omega), if_neg (by omega), if_neg (by omega), if_neg (by omega),
      if_neg (by omega), if_neg (by omega), if_pos (by omega)]
    have e1 : ((100000 + (k : Int) * 424 + 8 * (7 * i.val + j.val) - 100000) / 424).toNat = k := by omega
    have e2 : (100000 + (k : Int) * 424 + 8 * (7 * i.val + j.val) - 100000) % 424 = 8 * (7 * i.val + j.val) := by omega
    rw [e1, e2, matCell_at, List.getD_eq_getElem?_getD, hk, Option.getD_some]
  · intro k x hk i j
    have := lt hk h.2.2.2
    unfold exMem exLayout
    dsimp only
    rw [if_neg (by omega), if_neg (by omega), if_neg (by omega), if_neg (by omega), if_neg (by omega), if_neg (by omega),
      if_neg (by omega), if_neg (by omega), if_neg (by omega), if_pos (by omega)]
    have e1 : ((200000 + (k : Int) * 424 + 8 * (7 * i.val + j.val) - 200000) / 424).toNat = k := by omega
    have e2 : (200000 + (k : Int) * 424 + 8 * (7 * i.val + j.val) - 200000) % 424 = 8 * (7 * i.val + j.val) := by omega
    rw [e1, e2, matCell_at, List.getD_eq_getElem?_getD, hk, Option.getD_some]
  · intro i
    unfold exMem exLayout
    dsimp only
    rw [if_neg (by omega), if_neg (by omega), if_neg (by omega), if_neg (by omega), if_pos (by omega), ← vecCell_at]
    congr 1
    omega
  · intro i
    unfold exMem exLayout
    dsimp only
    rw [if_neg (by omega), if_neg (by omega), if_neg (by omega), if_neg (by omega), if_neg (by omega), if_pos (by omega),
      ← vecCell_at]
    congr 1
    omega
  · intro k x hk i
    have := lt hk h.2.1
    unfold exMem exLayout
    dsimp only
    rw [if_neg (by omega), if_neg (by omega), if_neg (by omega), if_neg (by omega), if_neg (by omega), if_neg (by omega),
      if_neg (by omega), if_neg (by omega), if_neg (by omega), if_neg (by omega)]
    have e1 : ((300000 + (k : Int) * 72 + 8 * i.val - 300000) / 72).toNat = k := by omega
    have e2 : (300000 + (k : Int) * 72 + 8 * i.val - 300000) % 72 = 8 * i.val := by omega
    rw [e1, e2, vecCell_at, List.getD_eq_getElem?_getD, hk, Option.getD_some]
  · refine particleCell_at _ _ _ fun k hk => ?_
    unfold exMem exLayout
    dsimp only
    rw [if_neg (by omega), if_neg (by omega), if_neg (by omega), if_neg (by omega), if_neg (by omega), if_neg (by omega),
      if_pos (by omega)]
    congr 1
    omega
  · intro n x hn
    have := lt hn h.1
    refine particleCell_at _ _ _ fun k hk => ?_
    unfold exMem exLayout
    dsimp only
    rw [if_neg (by omega), if_neg (by omega), if_neg (by omega), if_neg (by omega), if_neg (by omega), if_neg (by omega),
      if_neg (by omega), if_pos (by omega)]
    have e1 : ((5000 + (n : Int) * 96 + 8 * k - 5000) / 96).toNat = n := by omega
    have e2 : (5000 + (n : Int) * 96 + 8 * k - 5000) % 96 = 8 * k := by omega
    rw [e1, e2, List.getD_eq_getElem?_getD, hn, Option.getD_some]

/-- The hypotheses of `C40_read`, `C40_write`, `C40_moment` hold of a state with two charge states in that memory. -/
example : Spec.Filled exMixed.payload ∧ Apart exLayout exMixed.payload ∧ exMixed.payload.real.length = 2 ∧
    Holds (exMem 3 exMixed.payload) exLayout 3 exMixed.payload ∧
    ∃ attrs, wrapFrom (momentArray exLayout exMixed.payload) 40 0 (fun _ => none) = some attrs := by
  have h2 : ∀ {α : Type} (a b : α), [a, b].length ≤ 10 := fun a b => (by decide : 2 ≤ 10)
  have hl : exMixed.payload.real.length ≤ 10 ∧ exMixed.payload.moment0.length ≤ 10 ∧
      exMixed.payload.moment1.length ≤ 10 ∧ exMixed.payload.transmat.length ≤ 10 := ⟨h2 _ _, h2 _ _, h2 _ _, h2 _ _⟩
  have hf : Spec.Filled exMixed.payload := by simp [Spec.Filled, exMixed, exTri]
  exact ⟨hf, exLayout_apart _ hl, rfl, exMem_holds 3 _ hl, wrap_ends hf _ _ _ (by omega) (by omega)⟩

end Flame.Arrays
