import Verif.Moment.Model
import Verif.Moment.Spec
import Mathlib.Data.List.Forall2
import Mathlib.Tactic.NormNum
import Mathlib.Algebra.Order.Floor.Ring
import Mathlib.Tactic.Linarith
import Mathlib.Tactic.Positivity
import Mathlib.Tactic.Set

/-! # The caches of the moment elements: C33 -/

namespace Flame.Moment

open Flame.Mach (St Err)
open Flame.Linear (getNum getNumD getVec)

/-! ## particles -/

theorem recalc_idem (p : Particle) : p.recalc.recalc = p.recalc := rfl

theorem recalc_same {p q : Particle} (h : p.same q) : p.recalc = q.recalc := by
  obtain ⟨h1, h2, h3, h4, h5, h6⟩ := h
  cases p; cases q
  simp only at h1 h2 h3 h4 h5 h6
  subst h1 h2 h3 h4 h5 h6
  rfl

theorem same_eq {p q : Particle} (hp : p.recalc = p) (hq : q.recalc = q) (h : p.same q) : p = q := by
  rw [← hp, ← hq, recalc_same h]

theorem same_refl (p : Particle) : p.same p := ⟨rfl, rfl, rfl, rfl, rfl, rfl⟩

/-- The dependent values of a state are up to date. -/
def Calc (S : MSt) : Prop := S.ref.recalc = S.ref ∧ ∀ p ∈ S.real, p.recalc = p

theorem calc_recalc (S : MSt) : Calc S.recalc := by
  refine ⟨rfl, fun p hp => ?_⟩
  obtain ⟨q, -, rfl⟩ := List.mem_map.1 hp
  rfl

theorem forall₂_same_eq : ∀ {l m : List Particle}, (∀ p ∈ l, p.recalc = p) → (∀ p ∈ m, p.recalc = p) →
    List.Forall₂ Particle.same l m → l = m := by
  intro l m hl hm h
  induction h with
  | nil => rfl
  | @cons a b l m hab _ ih =>
    rw [same_eq (hl a (by simp)) (hm b (by simp)) hab,
      ih (fun p hp => hl p (by simp [hp])) (fun p hp => hm p (by simp [hp]))]

theorem forall₂_same_refl (l : List Particle) : List.Forall₂ Particle.same l l := by
  induction l with
  | nil => exact .nil
  | cons a l ih => exact .cons (same_refl a) ih

/-! ## elements -/

/-- An element with the given caches. -/
def MDat.cached (d : MDat) (a : Option Particle) (b : Particle) (c e : List Particle) (f : List Mat) : MDat :=
  { d with refIn := a, refOut := b, realIn := c, realOut := e, transfer := f }

/-- A freshly built element of the same configuration. -/
def fresh (env : Env) (d : MDat) : MDat := d.cached none env.junk [] [] []

theorem mis_cached (d : MDat) (a b c e f) (r p) : getMisalign (d.cached a b c e f) r p = getMisalign d r p := by
    simp only [getMisalign, MDat.cached]

theorem aligned_cached (d : MDat) (a b c e f) (r p T) : aligned (d.cached a b c e f) r p T = aligned d r p T := by
    simp only [aligned, mis_cached]

theorem conf_cached (d : MDat) (a b c e f) : (d.cached a b c e f).conf = d.conf := rfl

theorem fitMode_cached (d : MDat) (a b c e f) : (d.cached a b c e f).fitMode = d.fitMode := rfl

theorem length_cached (d : MDat) (a b c e f) : (d.cached a b c e f).length = d.length := rfl

theorem al_cached (d : MDat) (a b c e f) : aligned (d.cached a b c e f) = aligned d := by
  funext r p T; exact aligned_cached ..

theorem orbtrim_cached (d : MDat) (a b c e f) (r l) : orbtrimRec (d.cached a b c e f) r l = orbtrimRec d r l := by
  unfold orbtrimRec
  rw [al_cached]
  rfl

theorem sbendOne_cached (d : MDat) (a b c e f) L p q s K r l :
    sbendOne (d.cached a b c e f) L p q s K r l = sbendOne d L p q s K r l := by
  simp only [sbendOne, aligned_cached, conf_cached, fitMode_cached]

theorem sbend_cached (d : MDat) (a b c e f) (r l) : sbendRec (d.cached a b c e f) r l = sbendRec d r l := by
  simp only [sbendRec, sbendOne_cached, conf_cached]

theorem quad_cached env (d : MDat) (a b c e f) (r l) : quadRec env (d.cached a b c e f) r l = quadRec env d r l := by
  unfold quadRec
  rw [al_cached, conf_cached]

theorem solenoid_cached env (d : MDat) (a b c e f) (r l) : solenoidRec env (d.cached a b c e f) r l = solenoidRec env d r l := by
  unfold solenoidRec
  rw [al_cached, conf_cached]

theorem equad_cached env (d : MDat) (a b c e f) (r l) : equadRec env (d.cached a b c e f) r l = equadRec env d r l := by
  unfold equadRec
  rw [al_cached, conf_cached]

theorem edipoleOne_cached (d : MDat) (a b c e f) x y L p q s K r l m :
    edipoleOne (d.cached a b c e f) x y L p q s K r l m = edipoleOne d x y L p q s K r l m := by
  simp only [edipoleOne, aligned_cached]

theorem edipole_cached env (d : MDat) (a b c e f) (r l) : edipoleRec env (d.cached a b c e f) r l = edipoleRec env d r l := by
  simp only [edipoleRec, edipoleOne_cached, conf_cached]

theorem recompute_cached (env : Env) (t : MType) (d : MDat) (a b c e f) :
    recompute env t (d.cached a b c e f) = recompute env t d := by
  funext r l
  cases t <;> simp only [recompute, orbtrim_cached, sbend_cached, quad_cached, solenoid_cached, equad_cached,
    edipole_cached, conf_cached, length_cached]

/-- The caches hold what was computed for some earlier state, the particles of which were moved by `mv`. -/
structure Filled (rec : MDat → Particle → List Particle → Except Err (List Mat)) (mv : Particle → Particle) (d : MDat)
    (r : Particle) : Prop where
  refIn : d.refIn = some r
  upToDate : r.recalc = r ∧ ∀ p ∈ d.realIn, p.recalc = p
  comp : rec d r d.realIn = .ok d.transfer
  refOut : d.refOut = mv r
  realOut : d.realOut = d.realIn.map mv

def Coherent (rec : MDat → Particle → List Particle → Except Err (List Mat)) (mv : Particle → Particle) (d : MDat) : Prop :=
  d.refIn = none ∨ ∃ r, Filled rec mv d r

/-- With coherent caches the particles are as if everything had been recomputed. -/
theorem particles_coherent {rec : MDat → Particle → List Particle → Except Err (List Mat)} {mv : Particle → Particle}
    {d : MDat} {S : MSt} (hrec : ∀ d a b c e f, rec (MDat.cached d a b c e f) = rec d) (hc : Coherent rec mv d)
    (hS : Calc S) (b : Bool) (hb : b = true ↔ hit d S) :
    match rec d S.ref S.real with
    | .error e => (particles rec mv d S b).2 = .error e
    | .ok T => (particles rec mv d S b).2 = .ok (mv S.ref, S.real.map mv) ∧
        (particles rec mv d S b).1 = d.cached (some S.ref) (mv S.ref) S.real (S.real.map mv) T := by
  cases b with
  | true =>
    obtain ⟨-, ⟨r, hr, hs⟩, hl⟩ := hb.1 rfl
    rcases hc with hc | ⟨r', F⟩
    · rw [hc] at hr; simp at hr
    · have : r' = r := by rw [F.refIn] at hr; simpa using hr
      subst this
      have e1 : r' = S.ref := same_eq F.upToDate.1 hS.1 hs
      have e2 : d.realIn = S.real := forall₂_same_eq F.upToDate.2 hS.2 hl
      subst e1
      rw [← e2, F.comp]
      simp only [particles, if_true, F.refOut, F.realOut]
      refine ⟨?_, ?_⟩
      · rw [List.length_map, ← e2, List.drop_length, List.append_nil]
      · obtain ⟨h1, -, -, h4, h5⟩ := F
        cases d
        simp only [MDat.cached] at *
        subst h1 h4 h5
        rfl
  | false =>
    have hr : rec { d with refIn := some S.ref, realIn := S.real, transfer := resize S.real.length d.transfer } = rec d :=
      hrec d _ d.refOut _ d.realOut _
    simp only [particles, Bool.false_eq_true, if_false]
    simp only [hr]
    have hm : S.real.map (fun p => mv p.recalc) = S.real.map mv :=
      List.map_congr_left fun p hp => by rw [hS.2 p hp]
    cases h : rec d S.ref S.real with
    | error e => rfl
    | ok T =>
      simp only [hS.1, hm]
      exact ⟨trivial, rfl⟩

/-- What is stored is coherent. -/
theorem filled_cached {rec : MDat → Particle → List Particle → Except Err (List Mat)} {mv : Particle → Particle}
    {d : MDat} {S : MSt} {T : List Mat} (hrec : ∀ d a b c e f, rec (MDat.cached d a b c e f) = rec d)
    (hS : Calc S) (h : rec d S.ref S.real = .ok T) :
    Filled rec mv (d.cached (some S.ref) (mv S.ref) S.real (S.real.map mv) T) S.ref :=
  ⟨rfl, hS, by rw [hrec]; exact h, rfl, rfl⟩

/-! ## one pass -/

/-- Passing an element with the transfer matrices `T`. -/
noncomputable def passBase (T : List Mat) (length : ℝ) (s : St MSt) : MSt × Option Err :=
  let S := s.payload.recalc
  let mv := fun p : Particle => p.drifted s.retreat length
  let S := { S with ref := mv S.ref, real := S.real.map mv, pos := S.pos + sign s.retreat * length }
  if s.retreat then
    match backward T S with
    | (S, some e) => (S, some e)
    | (S, none) => (S.calcRms, none)
  else ((forward T S).calcRms, none)

/-- Passing a bend with the transfer matrices `T`. -/
noncomputable def passBend (T : List Mat) (length : ℝ) (s : St MSt) : MSt × Option Err :=
  let S := s.payload.recalc
  let S := { S with ref := S.ref.drifted s.retreat length, pos := S.pos + sign s.retreat * length }
  if s.retreat then
    match backward T S with
    | (S', some e) => (S', some e)
    | (S', none) => ({ S' with real := bendPhis s.retreat length S'.real S.moment0 S'.moment0 }.calcRms, none)
  else
    let S' := forward T S
    ({ S' with real := bendPhis s.retreat length S'.real S.moment0 S'.moment0 }.calcRms, none)

theorem advanceBase_coherent {rec : MDat → Particle → List Particle → Except Err (List Mat)} {d : MDat} {s : St MSt}
    (hrec : ∀ d a b c e f, rec (MDat.cached d a b c e f) = rec d)
    (hc : Coherent rec (·.drifted s.retreat d.length) d) :
    match rec d s.payload.recalc.ref s.payload.recalc.real with
    | .error e => (advanceBase rec d s).2 = ({ s with payload := s.payload.recalc }, some e)
    | .ok T => (advanceBase rec d s).2 = ({ s with payload := (passBase T d.length s).1 }, (passBase T d.length s).2) ∧
        (advanceBase rec d s).1 = d.cached (some s.payload.recalc.ref) (s.payload.recalc.ref.drifted s.retreat d.length)
          s.payload.recalc.real (s.payload.recalc.real.map (·.drifted s.retreat d.length)) T ∧
        Coherent rec (·.drifted s.retreat d.length) (advanceBase rec d s).1 := by
  have key := particles_coherent hrec hc (calc_recalc s.payload) (b := @decide (hit d s.payload.recalc) (Classical.propDecidable _)) (by simp)
  cases h : rec d s.payload.recalc.ref s.payload.recalc.real with
  | error e =>
    rw [h] at key
    simp only at key ⊢
    unfold advanceBase
    simp only
    split
    · rename_i d' e' heq
      rw [heq] at key
      simp only [Except.error.injEq] at key
      rw [key]
    · rename_i heq
      rw [heq] at key
      simp at key
  | ok T =>
    rw [h] at key
    simp only at key ⊢
    unfold advanceBase
    simp only
    split
    · rename_i d' e' heq
      rw [heq] at key
      simp at key
    · rename_i d' ref real heq
      rw [heq] at key
      simp only [Except.ok.injEq, Prod.mk.injEq] at key
      obtain ⟨⟨rfl, rfl⟩, rfl⟩ := key
      have hf : Coherent rec (·.drifted s.retreat d.length)
          (d.cached (some s.payload.recalc.ref) (s.payload.recalc.ref.drifted s.retreat d.length)
          s.payload.recalc.real (s.payload.recalc.real.map (·.drifted s.retreat d.length)) T) :=
        .inr ⟨_, filled_cached hrec (calc_recalc s.payload) h⟩
      unfold passBase
      simp only
      cases hr : s.retreat with
      | false =>
        rw [hr] at hf
        simp only [Bool.false_eq_true, if_false]
        exact ⟨by trivial, by trivial, hf⟩
      | true =>
        rw [hr] at hf
        simp only [if_true]
        have e1 : (d.cached (some s.payload.recalc.ref) (s.payload.recalc.ref.drifted true d.length)
          s.payload.recalc.real (s.payload.recalc.real.map (·.drifted true d.length)) T).transfer = T := rfl
        simp only [e1]
        split
        · rename_i hb
          simp only [hb]
          exact ⟨by trivial, by trivial, hf⟩
        · rename_i hb
          simp only [hb]
          exact ⟨by trivial, by trivial, hf⟩

theorem advanceBend_coherent {rec : MDat → Particle → List Particle → Except Err (List Mat)} {d : MDat} {s : St MSt}
    (hrec : ∀ d a b c e f, rec (MDat.cached d a b c e f) = rec d) (hc : Coherent rec id d) :
    match rec d s.payload.recalc.ref s.payload.recalc.real with
    | .error e => (advanceBend rec d s).2 = ({ s with payload := s.payload.recalc }, some e)
    | .ok T => (advanceBend rec d s).2 = ({ s with payload := (passBend T d.length s).1 }, (passBend T d.length s).2) ∧
        (advanceBend rec d s).1 = d.cached (some s.payload.recalc.ref) s.payload.recalc.ref s.payload.recalc.real
          s.payload.recalc.real T ∧ Coherent rec id (advanceBend rec d s).1 := by
  have key := particles_coherent hrec hc (calc_recalc s.payload) (b := @decide (hit d s.payload.recalc) (Classical.propDecidable _)) (by simp)
  cases h : rec d s.payload.recalc.ref s.payload.recalc.real with
  | error e =>
    rw [h] at key
    simp only at key ⊢
    unfold advanceBend
    simp only
    split
    · rename_i d' e' heq
      rw [heq] at key
      simp only [Except.error.injEq] at key
      rw [key]
    · rename_i heq
      rw [heq] at key
      simp at key
  | ok T =>
    rw [h] at key
    simp only [List.map_id] at key ⊢
    unfold advanceBend
    simp only
    split
    · rename_i d' e' heq
      rw [heq] at key
      simp at key
    · rename_i d' ref real heq
      rw [heq] at key
      simp only [Except.ok.injEq, Prod.mk.injEq] at key
      obtain ⟨⟨rfl, rfl⟩, rfl⟩ := key
      have hf : Coherent rec id (d.cached (some s.payload.recalc.ref) (id s.payload.recalc.ref)
          s.payload.recalc.real s.payload.recalc.real T) :=
        .inr ⟨s.payload.recalc.ref, rfl, calc_recalc s.payload, by rw [hrec]; exact h, rfl, by simp [MDat.cached]⟩
      unfold passBend
      simp only
      have e1 : (d.cached (some s.payload.recalc.ref) (id s.payload.recalc.ref)
        s.payload.recalc.real s.payload.recalc.real T).transfer = T := rfl
      simp only [e1]
      cases hr : s.retreat with
      | false =>
        simp only [Bool.false_eq_true, if_false]
        exact ⟨by trivial, by trivial, hf⟩
      | true =>
        simp only [if_true]
        simp only [id_eq] at hf ⊢
        split
        · rename_i hb
          simp only [hb]
          exact ⟨by trivial, by trivial, hf⟩
        · rename_i hb
          simp only [hb]
          exact ⟨by trivial, by trivial, hf⟩

/-! ## histories -/

open Spec

/-- The caches are fit for a pass in direction `b`. -/
def Fit (env : Env) (t : MType) (d : MDat) (b : Bool) : Prop :=
  match t with
  | .source => True
  | .sextupole => True
  | .sbend => Coherent (recompute env .sbend) id d
  | t => Coherent (recompute env t) (·.drifted b d.length) d

theorem fit_none (env : Env) (t : MType) (d : MDat) (b : Bool) (h : d.refIn = none) : Fit env t d b := by
  cases t <;> first | trivial | exact .inl h

theorem fit_fresh (env : Env) (t : MType) (d : MDat) (b : Bool) : Fit env t (fresh env d) b := fit_none _ _ _ _ rfl

theorem drifted_zero (p : Particle) (b c : Bool) : p.drifted b 0 = p.drifted c 0 := by
  simp [Particle.drifted]

theorem fresh_cached (env : Env) (d : MDat) (a b c e f) : fresh env (d.cached a b c e f) = fresh env d := rfl

theorem sext_cached (d : MDat) (a b c e f) (s : St MSt) :
    (advanceSext (d.cached a b c e f) s).2 = (advanceSext d s).2 ∧
    ∃ a b c e f, (advanceSext d s).1 = d.cached a b c e f := by
  have h : ∀ a b c e f B L st th ds r p v S, sextOne (d.cached a b c e f) B L st th ds r p v S =
      sextOne d B L st th ds r p v S := by
    intros
    simp only [sextOne, mis_cached]
  constructor
  · unfold advanceSext
    rw [conf_cached]
    split
    · simp only
      split
      · rfl
      · have h1 := h (some s.payload.recalc.ref) b s.payload.recalc.real e
          (resize s.payload.recalc.real.length (d.cached a b c e f).transfer)
        have h2 := h (some s.payload.recalc.ref) d.refOut s.payload.recalc.real d.realOut
          (resize s.payload.recalc.real.length d.transfer)
        simp only [MDat.cached] at h1 h2 ⊢
        simp only [h1, h2]
        split <;> rfl
    · rfl
  · unfold advanceSext
    split
    · simp only
      split
      · exact ⟨some s.payload.recalc.ref, d.refOut, s.payload.recalc.real, d.realOut, _, rfl⟩
      · split
        · exact ⟨some s.payload.recalc.ref, d.refOut, s.payload.recalc.real, d.realOut, _, rfl⟩
        · exact ⟨some s.payload.recalc.ref, _, s.payload.recalc.real, _, _, rfl⟩
    · exact ⟨d.refIn, d.refOut, d.realIn, d.realOut, d.transfer, rfl⟩

/-- One pass: with fit caches the outcome is that of a fresh element, and if there was no exception the caches are fit
for another pass from the same side, or from any side for a bend or an element without length. -/
theorem pass_fit (env : Env) (t : MType) (d : MDat) (s : St MSt) (h : Fit env t d s.retreat) :
    (advance env t d s).2 = (advance env t (fresh env d) s).2 ∧
    ((advance env t d s).2.2 = none → (∃ a b c e f, (advance env t d s).1 = d.cached a b c e f) ∧
      ∀ b, b = s.retreat ∨ t = .sbend ∨ d.length = 0 → Fit env t (advance env t d s).1 b) := by
  have base : ∀ t, Coherent (recompute env t) (·.drifted s.retreat d.length) d →
      (advanceBase (recompute env t) d s).2 = (advanceBase (recompute env t) (fresh env d) s).2 ∧
      ((advanceBase (recompute env t) d s).2.2 = none →
        (∃ a b c e f, (advanceBase (recompute env t) d s).1 = d.cached a b c e f) ∧
        ∀ b, b = s.retreat ∨ d.length = 0 →
          Coherent (recompute env t) (·.drifted b (advanceBase (recompute env t) d s).1.length)
            (advanceBase (recompute env t) d s).1) := by
    intro t hc
    have k1 := advanceBase_coherent (s := s) (recompute_cached env t) hc
    have k2 := advanceBase_coherent (d := fresh env d) (s := s) (recompute_cached env t) (.inl rfl)
    have e : recompute env t (fresh env d) = recompute env t d := recompute_cached ..
    rw [e] at k2
    have el : (fresh env d).length = d.length := rfl
    rw [el] at k2
    cases hr : recompute env t d s.payload.recalc.ref s.payload.recalc.real with
    | error er =>
      rw [hr] at k1 k2
      refine ⟨k1.trans k2.symm, fun hn => ?_⟩
      rw [k1] at hn
      simp at hn
    | ok T =>
      rw [hr] at k1 k2
      obtain ⟨k1, hd, hco⟩ := k1
      have hlen : (advanceBase (recompute env t) d s).1.length = d.length := by rw [hd]; rfl
      refine ⟨k1.trans k2.1.symm, fun _ => ⟨⟨_, _, _, _, _, hd⟩, fun b' hb => ?_⟩⟩
      rw [hlen]
      rcases hb with rfl | hl
      · exact hco
      · have : (fun p : Particle => p.drifted b' d.length) = (·.drifted s.retreat d.length) := by
          funext p
          rw [hl]
          exact drifted_zero _ _ _
        rw [this]
        exact hco
  cases t with
  | source =>
    refine ⟨?_, fun _ => ⟨⟨d.refIn, d.refOut, d.realIn, d.realOut, d.transfer, ?_⟩, fun _ _ => trivial⟩⟩
    · simp only [advance, advanceSource, fresh, MDat.cached]
      split
      · rfl
      · split <;> rfl
    · simp only [advance, advanceSource]
      split
      · rfl
      · split <;> rfl
  | sextupole =>
    have k := sext_cached d none env.junk [] [] [] s
    exact ⟨k.1.symm, fun _ => ⟨k.2, fun _ _ => trivial⟩⟩
  | sbend =>
    have k1 := advanceBend_coherent (s := s) (recompute_cached env .sbend) h
    have k2 := advanceBend_coherent (d := fresh env d) (s := s) (recompute_cached env .sbend) (.inl rfl)
    have e : recompute env .sbend (fresh env d) = recompute env .sbend d := recompute_cached ..
    rw [e] at k2
    have el : (fresh env d).length = d.length := rfl
    rw [el] at k2
    cases hr : recompute env .sbend d s.payload.recalc.ref s.payload.recalc.real with
    | error er =>
      rw [hr] at k1 k2
      refine ⟨k1.trans k2.symm, fun hn => ?_⟩
      have : (advance env .sbend d s).2 = _ := k1
      rw [this] at hn
      simp at hn
    | ok T =>
      rw [hr] at k1 k2
      obtain ⟨k1, hd, hco⟩ := k1
      exact ⟨k1.trans k2.1.symm, fun _ => ⟨⟨_, _, _, _, _, hd⟩, fun b' _ => hco⟩⟩
  | marker => exact ⟨(base _ h).1, fun hn => ⟨((base _ h).2 hn).1, fun b hb => ((base _ h).2 hn).2 b (by simpa using hb)⟩⟩
  | bpm => exact ⟨(base _ h).1, fun hn => ⟨((base _ h).2 hn).1, fun b hb => ((base _ h).2 hn).2 b (by simpa using hb)⟩⟩
  | drift => exact ⟨(base _ h).1, fun hn => ⟨((base _ h).2 hn).1, fun b hb => ((base _ h).2 hn).2 b (by simpa using hb)⟩⟩
  | orbtrim => exact ⟨(base _ h).1, fun hn => ⟨((base _ h).2 hn).1, fun b hb => ((base _ h).2 hn).2 b (by simpa using hb)⟩⟩
  | quadrupole => exact ⟨(base _ h).1, fun hn => ⟨((base _ h).2 hn).1, fun b hb => ((base _ h).2 hn).2 b (by simpa using hb)⟩⟩
  | solenoid => exact ⟨(base _ h).1, fun hn => ⟨((base _ h).2 hn).1, fun b hb => ((base _ h).2 hn).2 b (by simpa using hb)⟩⟩
  | edipole => exact ⟨(base _ h).1, fun hn => ⟨((base _ h).2 hn).1, fun b hb => ((base _ h).2 hn).2 b (by simpa using hb)⟩⟩
  | equad => exact ⟨(base _ h).1, fun hn => ⟨((base _ h).2 hn).1, fun b hb => ((base _ h).2 hn).2 b (by simpa using hb)⟩⟩
  | tmatrix => exact ⟨(base _ h).1, fun hn => ⟨((base _ h).2 hn).1, fun b hb => ((base _ h).2 hn).2 b (by simpa using hb)⟩⟩

theorem rebuilt_nil {D S E : Type} (adv : D → S → D × S × Option E) (build : D → D) (assign : D → D → D) :
    ∀ (h : List (Use D S)) (d e : D), rebuilt adv build d h = [] → outputs adv assign e h = []
  | [], _, _, _ => rfl
  | .pass _ :: _, _, _, hn => by simp [rebuilt] at hn
  | .reconf _ :: h, _, _, hn => rebuilt_nil adv build assign h _ _ hn

/-- C33, as far as it is true: whatever beams pass an element and however it is reconfigured, what comes out is the same as
if the element were built anew before every pass, provided that between two configurations the beams come from one side
(not required of bends and of elements without length) and that there was no exception before.
Missing: passes from both sides (`C33_both_sides_false`) and passes after an exception (`C33_after_error_false`), for which
the claim is wrong. -/
theorem C33_cache_partial (env : Env) (t : MType) (d : MDat) (h : List (Use MDat (St MSt)))
    (hd : d.refIn = none) (hh : ∀ d', Use.reconf d' ∈ h → d'.refIn = none)
    (hw : oneWay (fun d => t = .sbend ∨ t = .source ∨ t = .sextupole ∨ d.length = 0) (·.retreat) d none h)
    (he : ∀ o ∈ (rebuilt (advance env t) (fresh env) d h).dropLast, o.2 = none) :
    outputs (advance env t) assign d h = rebuilt (advance env t) (fresh env) d h := by
  suffices ∀ (h : List (Use MDat (St MSt))) (d c : MDat) (o : Option Bool), (∀ d', Use.reconf d' ∈ h → d'.refIn = none) →
      oneWay (fun d => t = .sbend ∨ t = .source ∨ t = .sextupole ∨ d.length = 0) (·.retreat) d o h →
      (∀ o ∈ (rebuilt (advance env t) (fresh env) d h).dropLast, o.2 = none) →
      fresh env c = fresh env d →
      (∀ b, (t = .sbend ∨ t = .source ∨ t = .sextupole ∨ d.length = 0) ∨ o = none ∨ o = some b → Fit env t c b) →
      outputs (advance env t) assign c h = rebuilt (advance env t) (fresh env) d h from
    this h d d none hh hw he rfl (fun b _ => fit_none _ _ _ _ hd)
  clear he hw hh hd h d
  intro h
  induction h with
  | nil => intros; rfl
  | cons u h ih =>
    intro d c o hh hw he hf hfit
    cases u with
    | reconf d' =>
      simp only [outputs, rebuilt, oneWay] at hw he ⊢
      exact ih d' (assign c d') none (fun x hx => hh x (by simp [hx])) hw he rfl
        (fun b _ => fit_none _ _ _ _ (hh d' (by simp)))
    | pass s =>
      simp only [outputs, rebuilt, oneWay] at hw he ⊢
      obtain ⟨hw1, hw2⟩ := hw
      have hp := pass_fit env t c s (hfit _ hw1)
      rw [hp.1, hf]
      congr 1
      by_cases hn : rebuilt (advance env t) (fresh env) d h = []
      · rw [hn, rebuilt_nil _ (fresh env) assign h d _ hn]
      · have hen : (advance env t (fresh env d) s).2.2 = none :=
          he _ (by rw [List.dropLast_cons_of_ne_nil hn]; simp)
        have hl : c.length = d.length := by
          show (fresh env c).length = (fresh env d).length
          rw [hf]
        obtain ⟨⟨a, b, c', e, f, hca⟩, hfit'⟩ := hp.2 (by rw [hp.1, hf]; exact hen)
        refine ih d _ (some s.retreat) (fun x hx => hh x (by simp [hx])) hw2
          (fun x hx => he x (by rw [List.dropLast_cons_of_ne_nil hn]; simp [hx])) ?_ ?_
        · rw [hca, fresh_cached, hf]
        · intro b hb
          rcases hb with (h1 | h1 | h1 | h1) | h1 | h1
          · exact hfit' b (.inr (.inl h1))
          · subst h1; trivial
          · subst h1; trivial
          · exact hfit' b (.inr (.inr (hl.trans h1)))
          · simp at h1
          · exact hfit' b (.inl (by simpa using h1.symm))

/-! ## examples and counterexamples -/

/-- An element with a length and no other property. -/
noncomputable def exDat (env : Env) (c : Linear.LCfg) (L : ℝ) : MDat :=
  { conf := c, length := L, dx := 0, dy := 0, pitch := 0, yaw := 0, roll := 0, skipcache := false, fitMode := 1,
    istate := none, refIn := none, refOut := env.junk, realIn := [], realOut := [], transfer := [] }

/-- Rest energy 1, kinetic energy 1, charge 1. -/
noncomputable def exParticle : Particle :=
  { IonZ := 1, IonQ := 1, IonEs := 1, IonW := 2, gamma := 2, beta := 0, bg := 0, SampleFreq := 1, SampleLambda := 0,
    SampleIonK := 0, phis := 0, IonEk := 1 }

/-- A beam of one charge state. -/
noncomputable def exState (b : Bool) : St MSt :=
  { nextElem := 0, retreat := b, payload :=
    { pos := 0, ref := exParticle, real := [exParticle], moment0 := [fun _ => 1], moment1 := [1], transmat := [1],
      moment0_env := 0, moment0_rms := 0, moment1_env := 0, last_caviphi0 := 0 } }

theorem exParticle_k : 0 < exParticle.recalc.SampleIonK := by
  have hg : (if exParticle.IonEs ≠ 0 then (exParticle.IonEs + exParticle.IonEk) / exParticle.IonEs else 1) = 2 := by
    simp only [exParticle]; norm_num
  have : 0 < Real.sqrt (1 - 1 / ((2 : ℝ) * 2)) := Real.sqrt_pos.2 (by norm_num)
  have hp := Real.pi_pos
  simp only [Particle.recalc, hg]
  simp only [C0, MtoMM, exParticle]
  positivity

/-- A drift passed three times from one side, with a reconfiguration, is a history as in `C33_cache_partial`. -/
example (env : Env) : oneWay (fun d : MDat => MType.drift = .sbend ∨ MType.drift = .source ∨ MType.drift = .sextupole ∨
    d.length = 0) (·.retreat) (exDat env (fun _ => none) 1) none
    [.pass (exState false), .pass (exState false), .reconf (exDat env (fun _ => none) 2), .pass (exState true)] := by
  simp [oneWay, exState]

example (env : Env) : ∀ o ∈ (rebuilt (advance env .drift) (fresh env) (exDat env (fun _ => none) 1)
    [.pass (exState false), .pass (exState false), .reconf (exDat env (fun _ => none) 2), .pass (exState true)]).dropLast,
    o.2 = none := by
  have h : (advance env .drift (fresh env (exDat env (fun _ => none) 1)) (exState false)).2.2 = none := by
    have k := advanceBase_coherent (d := fresh env (exDat env (fun _ => none) 1)) (s := exState false)
      (recompute_cached env .drift) (.inl rfl)
    have := k.1
    show (advanceBase _ _ _).2.2 = none
    rw [this]
    rfl
  simp [rebuilt, h]

theorem advanceBase_ref (rec : MDat → Particle → List Particle → Except Err (List Mat)) (d : MDat) (s : St MSt) :
    (advanceBase rec d s).2.1.payload.ref =
      match particles rec (·.drifted s.retreat d.length) d s.payload.recalc
        (@decide (hit d s.payload.recalc) (Classical.propDecidable _)) with
      | (_, .error _) => s.payload.recalc.ref
      | (_, .ok (ref, _)) => ref := by
  unfold advanceBase
  simp only
  split
  · rename_i heq
    simp only [heq]
  · rename_i heq
    simp only [heq]
    split
    · split
      · rename_i hb
        exact congrArg (fun q => q.1.ref) hb.symm
      · rename_i hb
        exact congrArg (fun q => q.1.ref) hb.symm
    · rfl

/-- C33 is wrong for beams from both sides: the direction is not part of what is compared.  The same state sent through a
drift forward and then backward gets the phase of the forward pass both times. -/
theorem C33_both_sides_false (env : Env) : ¬ ∀ (t : MType) (d : MDat) (h : List (Use MDat (St MSt))), d.refIn = none →
    (∀ d', Use.reconf d' ∉ h) → outputs (advance env t) assign d h = rebuilt (advance env t) (fresh env) d h := by
  intro H
  have H := H .drift (exDat env (fun _ => none) 1) [.pass (exState false), .pass (exState true)] rfl (by simp)
  simp only [outputs, rebuilt, List.cons.injEq, and_true] at H
  have H := congrArg (fun o : St MSt × Option Err => o.1.payload.ref.phis) H.2
  have k1 := advanceBase_coherent (d := exDat env (fun _ => none) 1) (s := exState false) (recompute_cached env .drift)
    (.inl rfl)
  obtain ⟨-, k1, -⟩ := k1
  have e1 : (advance env .drift (exDat env (fun _ => none) 1) (exState false)).1 = _ := k1
  rw [e1] at H
  change (advanceBase _ _ _).2.1.payload.ref.phis = (advanceBase _ _ _).2.1.payload.ref.phis at H
  rw [advanceBase_ref, advanceBase_ref] at H
  have hh : hit ((exDat env (fun _ => none) 1).cached (some (exState false).payload.recalc.ref)
      ((exState false).payload.recalc.ref.drifted (exState false).retreat (exDat env (fun _ => none) 1).length)
      (exState false).payload.recalc.real ((exState false).payload.recalc.real.map (·.drifted (exState false).retreat
        (exDat env (fun _ => none) 1).length))
      ((exState false).payload.recalc.real.map (fun p => driftM p ((exDat env (fun _ => none) 1).length * MtoMM))))
      (exState true).payload.recalc := ⟨rfl, ⟨_, rfl, same_refl _⟩, forall₂_same_refl _⟩
  have hn : ¬ hit (fresh env (exDat env (fun _ => none) 1)) (exState true).payload.recalc := by
    rintro ⟨-, ⟨r, hr, -⟩, -⟩
    simp [fresh, MDat.cached] at hr
  simp only [hh, hn, decide_true, decide_false, particles, if_true, if_false, recompute, Bool.false_eq_true] at H
  have hk := exParticle_k
  change (0 : ℝ) + sign false * (exParticle.recalc.SampleIonK * 1 * MtoMM) =
    0 + sign true * (exParticle.recalc.SampleIonK * 1 * MtoMM) at H
  simp only [sign, MtoMM] at H
  norm_num at H
  linarith

theorem asUnsigned_nat (n : Nat) (h : n < 2 ^ 32) : asUnsigned (n : ℝ) = .ok n := by
  have hf : ⌊(n : ℝ)⌋.toNat = n := by rw [Int.floor_natCast, Int.toNat_natCast]
  unfold asUnsigned
  rw [hf, if_pos]
  exact ⟨Nat.cast_nonneg n, by exact_mod_cast h, rfl⟩

/-- A quadrupole with a length but no field. -/
def exNoField : Linear.LCfg := fun k => if k = "L" then some (.num 1) else none

theorem exNoField_flag (env : Env) : getFlag env exNoField "ncurve" 0 = .ok 0 := by
  have h1 : getStr exNoField "ncurve" = .error .keyError := by simp [getStr, exNoField]
  have h2 : getNum exNoField "ncurve" = .error .keyError := by simp [getNum, exNoField]
  unfold getFlag
  rw [h1, h2]
  exact asUnsigned_nat 0 (by norm_num)

theorem quad_no_field (env : Env) (d : MDat) (h1 : getNum d.conf "L" = .ok 1)
    (h2 : getFlag env d.conf "ncurve" 0 = .ok 0) (h3 : getNum d.conf "B2" = .error .keyError) (r : Particle)
    (l : List Particle) : recompute env .quadrupole d r l = .error .keyError := by
  show quadRec env d r l = _
  unfold quadRec
  rw [h1]
  dsimp only
  rw [h2]
  dsimp only
  rw [if_pos rfl, h3]

theorem exNoField_rec (env : Env) (d : MDat) (hd : d.conf = exNoField) (r : Particle) (l : List Particle) :
    recompute env .quadrupole d r l = .error .keyError := by
  refine quad_no_field env d ?_ ?_ ?_ r l
  · rw [hd]
    simp [getNum, exNoField]
  · rw [hd, exNoField_flag]
  · rw [hd]
    simp [getNum, exNoField]

/-- The element with the input noted. -/
noncomputable def noted (d : MDat) (s : St MSt) : MDat :=
  { d with refIn := some s.payload.recalc.ref, realIn := s.payload.recalc.real,
           transfer := resize s.payload.recalc.real.length d.transfer }

/-- C33 is wrong after an exception: the input of the failed pass is already noted as computed.  The second time a beam is
sent through a quadrupole without `B2`, nothing is reported and the reference particle is replaced by an uninitialised
one. -/
theorem C33_after_error_false (env : Env) : ∃ (d : MDat) (s : St MSt), d.refIn = none ∧
    (outputs (advance env .quadrupole) assign d [.pass s, .pass s]).map (·.2) = [some .keyError, none] ∧
    (rebuilt (advance env .quadrupole) (fresh env) d [.pass s, .pass s]).map (·.2) = [some .keyError, some .keyError] ∧
    ((outputs (advance env .quadrupole) assign d [.pass s, .pass s]).map (·.1.payload.ref)).getLast? = some env.junk := by
  have hrec := exNoField_rec env
  have hfirst : ∀ (d : MDat) (s : St MSt), d.conf = exNoField → d.refIn = none →
      advance env .quadrupole d s = (noted d s, { s with payload := s.payload.recalc },
        some .keyError) := by
    intro d s hc hn
    have hn' : ¬ hit d s.payload.recalc := by
      rintro ⟨-, ⟨r, hr, -⟩, -⟩
      rw [hn] at hr
      simp at hr
    show advanceBase _ d s = _
    unfold advanceBase
    simp only [hn', decide_false, particles, Bool.false_eq_true, if_false]
    rw [hrec _ (by exact hc)]
    rfl
  set d := exDat env exNoField 1 with hd
  set s := exState false with hs
  have h1 := hfirst d s rfl rfl
  have h2 := hfirst (fresh env d) s rfl rfl
  have hh : hit (noted d s) s.payload.recalc :=
    ⟨rfl, ⟨_, rfl, same_refl _⟩, forall₂_same_refl _⟩
  have h3 : (advance env .quadrupole (noted d s) s).2.2 = none ∧
      (advance env .quadrupole (noted d s) s).2.1.payload.ref = env.junk := by
    show (advanceBase _ _ s).2.2 = none ∧ (advanceBase _ _ s).2.1.payload.ref = env.junk
    rw [advanceBase_ref]
    unfold advanceBase
    simp only [hh, decide_true, particles, if_true]
    exact ⟨rfl, rfl⟩
  refine ⟨d, s, rfl, ?_, ?_, ?_⟩
  · simp only [outputs, List.map_cons, List.map_nil, h1, h3.1]
  · simp only [rebuilt, List.map_cons, List.map_nil, h2]
  · simp only [outputs, List.map_cons, List.map_nil, h1, h3.2]
    rfl

end Flame.Moment
