import Verif.Freq.Props

/-! # Another frequency as the unit of phase: data of the elements, sources and strippers -/

namespace Flame.Freq

open Flame.Mach (Elem Cls St Err Run Out)
open Flame.Linear (LVal LCfg getNum getNumD getVec)
open Flame.Moment
open Flame.Flip (no_number several_iff text_eq)
open Flame.Flip.Spec (IsMoments Several text keys Read)
open Flame.Freq.Spec
open Flame.Scale (forEach_map forEach_post)

variable {u : ℝ} {c c' : LCfg} {r' : Particle}

/-! ## data of the elements -/

/-- A cavity with its misalignment in the other unit. -/
noncomputable def inUnitC (u : ℝ) (cav : Cav) : Cav := { cav with misalign := cav.misalign.map (inUnitM u) }

/-- The data of an element in the other unit, but for the settings and the stored reference particle. -/
noncomputable def inUnitD (u : ℝ) (c' : LCfg) (r' : Particle) (d : MDat) : MDat :=
  { d with conf := c', transfer := d.transfer.map (inUnitT u), istate := d.istate.map (inUnit u), refIn := d.refIn.map (inUnitP u), refOut := r',
           realIn := d.realIn.map (inUnitP u), realOut := d.realOut.map (inUnitP u), cav := d.cav.map (inUnitC u) }

/-- The data of an element in both runs. -/
def DRel (u : ℝ) (ty : String) (d d' : MDat) : Prop :=
  ∃ c' r', OtherElement u ty d.conf c' ∧ (d.refIn ≠ none → r' = inUnitP u d.refOut) ∧ (∀ cav, d.cav = some cav → cav.emitGrowth = 0) ∧
    d' = inUnitD u c' r' d

theorem DRel.same {ty : String} {d d' : MDat} (h : DRel u ty d d') : Same u ty d d' := by
  obtain ⟨c', r', h1, -, -, rfl⟩ := h
  exact ⟨⟨rfl, rfl, rfl, rfl, rfl, rfl⟩, h1, rfl⟩

theorem DRel.length {ty : String} {d d' : MDat} (h : DRel u ty d d') : d'.length = d.length := h.same.placed.length

/-- What has to be shown of an element. -/
def Alike (u : ℝ) (P : MDat → MDat → Prop) (x x' : MDat × St MSt × Option Err) : Prop :=
  x'.2.2 = x.2.2 ∧ x'.2.1 = { x.2.1 with payload := inUnit u x.2.1.payload } ∧ (x.2.2 = none → P x.1 x'.1)

noncomputable def inUnitSt (u : ℝ) (s : St MSt) : St MSt := { s with payload := inUnit u s.payload }

theorem resize_t (hu : 0 < u) (n : Nat) (l : List Mat) : resize n (l.map (inUnitT u)) = (resize n l).map (inUnitT u) := by
  simp only [resize, List.map_append, List.map_take, List.length_map, List.map_replicate, t_one hu]

theorem same_p (hu : 0 < u) (a b : Particle) : (inUnitP u a).same (inUnitP u b) ↔ a.same b := by
  simp only [Particle.same, inUnitP, mul_right_inj' hu.ne']

theorem forall₂_p {P : Particle → Particle → Prop} (hP : ∀ a b, P (inUnitP u a) (inUnitP u b) ↔ P a b) (l k : List Particle) :
    List.Forall₂ P (l.map (inUnitP u)) (k.map (inUnitP u)) ↔ List.Forall₂ P l k := by
  rw [List.forall₂_map_left_iff, List.forall₂_map_right_iff]
  constructor
  · exact List.Forall₂.imp (fun a b => (hP a b).1)
  · exact List.Forall₂.imp (fun a b => (hP a b).2)

theorem hit_f (hu : 0 < u) (d : MDat) (S : MSt) : hit (inUnitD u c' r' d) (inUnit u S) ↔ hit d S := by
  unfold hit
  refine and_congr Iff.rfl (and_congr ?_ ?_)
  · show (∃ r, d.refIn.map (inUnitP u) = some r ∧ r.same (inUnitP u S.ref)) ↔ _
    cases d.refIn with
    | none => simp
    | some r => simp [same_p hu]
  · exact forall₂_p (same_p hu) _ _

theorem DRel.hit {ty : String} {d d' : MDat} (h : DRel u ty d d') (hu : 0 < u) (S : MSt) :
    @decide (hit d' (inUnit u S)) (Classical.propDecidable _) = @decide (hit d S) (Classical.propDecidable _) := by
  obtain ⟨c', r', h1, -, -, rfl⟩ := h
  have := hit_f (c' := c') (r' := r') hu d S
  by_cases h : Moment.hit d S
  · rw [@decide_eq_true _ (_) h, @decide_eq_true _ (_) (this.2 h)]
  · rw [@decide_eq_false _ (_) h, @decide_eq_false _ (_) (fun e => h (this.1 e))]

theorem particles_f (hu : 0 < u) (env : Env) (t : MType) {move : Particle → Particle} (hm : ∀ p, move (inUnitP u p) = inUnitP u (move p))
    {d d' : MDat} (h : DRel u t.name d d') (S : MSt) (b : Bool) (hb : b = true → hit d S) :
    match particles (recompute env t) move d S b, particles (recompute env t) move d' (inUnit u S) b with
    | (_, .error e), y => y.2 = .error e
    | (d1, .ok z), y => y.2 = .ok (inUnitP u z.1, z.2.map (inUnitP u)) ∧ y.1.transfer = d1.transfer.map (inUnitT u) ∧ DRel u t.name d1 y.1 := by
  obtain ⟨c', r', h1, hr, hg, rfl⟩ := h
  unfold particles
  by_cases hbt : b = true
  · subst hbt
    obtain ⟨-, ⟨r, h2, -⟩, -⟩ := hb rfl
    have hr' := hr (by rw [h2]; simp)
    refine ⟨?_, rfl, ⟨c', r', h1, hr, hg, rfl⟩⟩
    subst hr'
    simp only [if_true, inUnitD, inUnit, List.map_append, List.map_drop, List.length_map]
  · rw [if_neg hbt, if_neg hbt]
    have e : ({ inUnitD u c' r' d with refIn := some (inUnit u S).ref, realIn := (inUnit u S).real, transfer := resize (inUnit u S).real.length (inUnitD u c' r' d).transfer } : MDat) =
        inUnitD u c' r' { d with refIn := some S.ref, realIn := S.real, transfer := resize S.real.length d.transfer } := by
      simp only [inUnitD, inUnit, List.length_map, resize_t hu]
      rfl
    dsimp only
    rw [e]
    have hrec := recompute_f hu env t (d := { d with refIn := some S.ref, realIn := S.real, transfer := resize S.real.length d.transfer })
      (d' := inUnitD u c' r' { d with refIn := some S.ref, realIn := S.real, transfer := resize S.real.length d.transfer })
      ⟨⟨rfl, rfl, rfl, rfl, rfl, rfl⟩, h1, rfl⟩ S.ref S.real
    rw [show (inUnit u S).ref = inUnitP u S.ref from rfl, show (inUnit u S).real = S.real.map (inUnitP u) from rfl, hrec]
    cases recompute env t { d with refIn := some S.ref, realIn := S.real, transfer := resize S.real.length d.transfer } S.ref S.real with
    | error e => rfl
    | ok T =>
      refine ⟨?_, rfl, ⟨c', move (inUnitP u S.ref.recalc), h1, fun _ => hm _, hg, ?_⟩⟩
      · simp only [Except.map, List.map_map, Function.comp_def, recalc_p, hm]
      · simp only [inUnitD, List.map_map, Function.comp_def, recalc_p, hm]
        rfl

theorem base_f (hu : 0 < u) (env : Env) (t : MType) {d d' : MDat} (h : DRel u t.name d d') (s : St MSt) :
    Alike u (DRel u t.name) (advanceBase (recompute env t) d s) (advanceBase (recompute env t) d' (inUnitSt u s)) := by
  unfold advanceBase
  dsimp only
  rw [show (inUnitSt u s).payload.recalc = inUnit u s.payload.recalc from recalc_s _, h.hit hu, h.length, show (inUnitSt u s).retreat = s.retreat from rfl]
  have hp := particles_f hu env t (move := (·.drifted s.retreat d.length)) (fun p => drifted_p p _ _) h s.payload.recalc
    (@decide (Moment.hit d s.payload.recalc) (Classical.propDecidable _)) (fun e => @of_decide_eq_true _ (_) e)
  generalize particles (recompute env t) (·.drifted s.retreat d.length) d s.payload.recalc _ = z at hp ⊢
  generalize particles (recompute env t) (·.drifted s.retreat d.length) d' (inUnit u s.payload.recalc) _ = z' at hp ⊢
  obtain ⟨d1, z⟩ := z
  obtain ⟨d1', z'⟩ := z'
  cases z with
  | error e =>
    dsimp only at hp
    subst hp
    exact ⟨rfl, rfl, fun h => by cases h⟩
  | ok z =>
    obtain ⟨h1, h2, h3⟩ := hp
    dsimp only at h1 h2 h3
    subst h1
    dsimp only
    rw [h2, show ({ inUnit u s.payload.recalc with ref := inUnitP u z.1, real := z.2.map (inUnitP u), pos := (inUnit u s.payload.recalc).pos + sign s.retreat * d.length } : MSt)
        = inUnit u { s.payload.recalc with ref := z.1, real := z.2, pos := s.payload.recalc.pos + sign s.retreat * d.length } from rfl]
    generalize ({ s.payload.recalc with ref := z.1, real := z.2, pos := s.payload.recalc.pos + sign s.retreat * d.length } : MSt) = S0
    split
    · rw [backward_s hu]
      generalize backward d1.transfer S0 = w
      obtain ⟨S1, o⟩ := w
      cases o with
      | some e => exact ⟨rfl, rfl, fun h => by cases h⟩
      | none => exact ⟨rfl, congrArg (St.mk _ _) (calcRms_s hu S1), fun _ => h3⟩
    · rw [forward_s hu]
      exact ⟨rfl, congrArg (St.mk _ _) (calcRms_s hu _), fun _ => h3⟩

theorem in_4 (v : Vec) : inUnitV u v 4 = u * v 4 := by rw [inUnitV, e4]

theorem bendPhis_f (b : Bool) (L : ℝ) : ∀ (l : List Particle) (v w : List Vec),
    bendPhis b L (l.map (inUnitP u)) (v.map (inUnitV u)) (w.map (inUnitV u)) = (bendPhis b L l v w).map (inUnitP u)
  | [], _, _ => by simp only [List.map_nil, bendPhis]
  | _ :: _, [], _ => by simp only [List.map_nil, List.map_cons, bendPhis]
  | _ :: _, _ :: _, [] => by simp only [List.map_nil, List.map_cons, bendPhis]
  | p :: l, x :: v, y :: w => by
    simp only [List.map_cons, bendPhis, bendPhis_f b L l v w, in_4]
    congr 1
    simp only [inUnitP]
    congr 1
    ring

theorem bend_f (hu : 0 < u) (env : Env) {d d' : MDat} (h : DRel u "sbend" d d') (s : St MSt) :
    Alike u (DRel u "sbend") (advanceBend (recompute env .sbend) d s) (advanceBend (recompute env .sbend) d' (inUnitSt u s)) := by
  unfold advanceBend
  dsimp only
  rw [show (inUnitSt u s).payload.recalc = inUnit u s.payload.recalc from recalc_s _, h.hit hu, h.length, show (inUnitSt u s).retreat = s.retreat from rfl]
  have hp := particles_f hu env .sbend (move := id) (fun p => rfl) h s.payload.recalc
    (@decide (Moment.hit d s.payload.recalc) (Classical.propDecidable _)) (fun e => @of_decide_eq_true _ (_) e)
  generalize particles (recompute env .sbend) id d s.payload.recalc _ = z at hp ⊢
  generalize particles (recompute env .sbend) id d' (inUnit u s.payload.recalc) _ = z' at hp ⊢
  obtain ⟨d1, z⟩ := z
  obtain ⟨d1', z'⟩ := z'
  cases z with
  | error e =>
    dsimp only at hp
    subst hp
    exact ⟨rfl, rfl, fun h => by cases h⟩
  | ok z =>
    obtain ⟨h1, h2, h3⟩ := hp
    dsimp only at h1 h2 h3
    subst h1
    dsimp only
    rw [h2, drifted_p, show ({ inUnit u s.payload.recalc with ref := inUnitP u (z.1.drifted s.retreat d.length), real := z.2.map (inUnitP u), pos := (inUnit u s.payload.recalc).pos + sign s.retreat * d.length } : MSt)
        = inUnit u { s.payload.recalc with ref := z.1.drifted s.retreat d.length, real := z.2, pos := s.payload.recalc.pos + sign s.retreat * d.length } from rfl]
    generalize ({ s.payload.recalc with ref := z.1.drifted s.retreat d.length, real := z.2, pos := s.payload.recalc.pos + sign s.retreat * d.length } : MSt) = S0
    have key : ∀ (S1 : MSt), ({ inUnit u S1 with real := bendPhis s.retreat d.length (inUnit u S1).real (s.payload.recalc.moment0.map (inUnitV u)) (inUnit u S1).moment0 } : MSt).calcRms =
        inUnit u ({ S1 with real := bendPhis s.retreat d.length S1.real s.payload.recalc.moment0 S1.moment0 } : MSt).calcRms := by
      intro S1
      rw [← calcRms_s hu]
      simp only [inUnit, bendPhis_f]
    split
    · rw [backward_s hu]
      generalize backward d1.transfer S0 = w
      obtain ⟨S1, o⟩ := w
      cases o with
      | some e => exact ⟨rfl, rfl, fun h => by cases h⟩
      | none => exact ⟨rfl, congrArg (St.mk _ _) (key S1), fun _ => h3⟩
    · rw [forward_s hu]
      exact ⟨rfl, congrArg (St.mk _ _) (key _), fun _ => h3⟩

theorem sextLoop_f (hu : 0 < u) (p : Particle) (dL K : ℝ) (thin dst : Bool) : ∀ (n : Nat) (v : Vec) (S X T : Mat),
    sextLoop (inUnitP u p) dL K thin dst n (inUnitV u v, inUnitS u S, inUnitT u X, inUnitT u T) =
      (inUnitV u (sextLoop p dL K thin dst n (v, S, X, T)).1, inUnitS u (sextLoop p dL K thin dst n (v, S, X, T)).2.1,
        inUnitT u (sextLoop p dL K thin dst n (v, S, X, T)).2.2.1, inUnitT u (sextLoop p dL K thin dst n (v, S, X, T)).2.2.2)
  | 0, v, S, X, T => rfl
  | n + 1, v, S, X, T => by
    have e : setAt (sextM dL K (inUnitV u v 0) (inUnitV u v 2) (inUnitS u S 0 0) (inUnitS u S 2 2) (inUnitS u S 0 2) thin dst (inUnitT u T)) 4 5 (slip (inUnitP u p) dL) =
        inUnitT u (setAt (sextM dL K (v 0) (v 2) (S 0 0) (S 2 2) (S 0 2) thin dst T) 4 5 (slip p dL)) := by
      rw [t_set, sextM_t hu, slip_p]
      simp only [inUnitV, inUnitS, e0, e2, e4, e5, one_mul, mul_one, div_one]
    simp only [sextLoop, e, t_mulVec hu, t_congr hu, ← t_mul hu, sextLoop_f hu p dL K thin dst n]

theorem sextOne_f (hu : 0 < u) {d d' : MDat} (h : Placed d d') (B3 L stp : ℝ) (thin dst : Bool) (ref p : Particle) (v : Vec) (S : Mat) :
    sextOne d' B3 L stp thin dst (inUnitP u ref) (inUnitP u p) (inUnitV u v) (inUnitS u S) =
      (sextOne d B3 L stp thin dst ref p v S).map (fun r => (inUnitV u r.1, inUnitS u r.2.1, inUnitT u r.2.2)) := by
  unfold sextOne
  rw [getMisalign_p hu h]
  cases getMisalign d ref p with
  | error e => rfl
  | ok m =>
    obtain ⟨M, IM⟩ := m
    simp only [Except.map, inUnitM, t_mulVec hu, t_congr hu, show (inUnitP u p).Brho = p.Brho from rfl]
    have := sextLoop_f hu p (L / stp) (B3 / p.Brho / (MtoMM * MtoMM * MtoMM)) thin dst (toSteps stp) (M.mulVec v) (Moment.congr M S) 1 1
    rw [t_one hu] at this
    rw [this]
    simp only [t_mulVec hu, t_congr hu, t_mul hu]

theorem sextGo_f (hu : 0 < u) {D : MDat} (h1 : OtherElement u "sextupole" D.conf c') (hg : ∀ cav, D.cav = some cav → cav.emitGrowth = 0)
    (B3 L stp : ℝ) (thin dst : Bool) (S : MSt) (s : St MSt) :
    Alike u (DRel u "sextupole") (Turn.sextGo B3 L stp thin dst D S s) (Turn.sextGo B3 L stp thin dst (inUnitD u c' r' D) (inUnit u S) (inUnitSt u s)) := by
  have hP : Placed D (inUnitD u c' r' D) := ⟨rfl, rfl, rfl, rfl, rfl, rfl⟩
  have hz : (inUnit u S).real.zip ((inUnit u S).moment0.zip (inUnit u S).moment1) =
      (S.real.zip (S.moment0.zip S.moment1)).map (fun q => (inUnitP u q.1, inUnitV u q.2.1, inUnitS u q.2.2)) := by
    simp only [inUnit]
    rw [List.zip_map, List.zip_map]
    rfl
  unfold Turn.sextGo
  rw [hz, forEach_map]
  simp only [sextOne_f hu hP, show (inUnit u S).ref = inUnitP u S.ref from rfl]
  rw [forEach_post (f := fun (q : Particle × Vec × Mat) => sextOne D B3 L stp thin dst S.ref q.1 q.2.1 q.2.2) (fun _ => rfl)]
  generalize forEach _ (S.real.zip (S.moment0.zip S.moment1)) = z
  cases z with
  | error e => exact ⟨rfl, rfl, fun h => by cases h⟩
  | ok rs =>
    simp only [Except.map]
    refine ⟨rfl, congrArg (St.mk _ _) ?_, fun _ => ⟨c', _, h1, fun _ => rfl, hg, ?_⟩⟩
    · rw [← calcRms_s hu]
      simp only [inUnit, List.map_map, Function.comp_def, recalc_p, drifted_p]
      rfl
    · simp only [inUnitD, inUnit, List.map_map, Function.comp_def, recalc_p, drifted_p]

theorem sext_f (hu : 0 < u) {d d' : MDat} (h : DRel u "sextupole" d d') (s : St MSt) :
    Alike u (DRel u "sextupole") (advanceSext d s) (advanceSext d' (inUnitSt u s)) := by
  obtain ⟨c', r', h1, hr, hg, rfl⟩ := h
  unfold advanceSext
  simp only [show (inUnitD u c' r' d).conf = c' from rfl, num_f h1 "B3" (by decide), num_f h1 "L" (by decide), numD_f h1 "step" 1 (by decide),
    numD_f h1 "thinlens" 0 (by decide), numD_f h1 "dstkick" 1 (by decide),
    show (inUnitSt u s).payload.recalc = inUnit u s.payload.recalc from recalc_s _, show (inUnitSt u s).retreat = s.retreat from rfl]
  cases getNum d.conf "B3" with
  | error e => exact ⟨rfl, rfl, fun h => by cases h⟩
  | ok B3 =>
    cases getNum d.conf "L" with
    | error e => exact ⟨rfl, rfl, fun h => by cases h⟩
    | ok L =>
      dsimp only
      split
      · exact ⟨rfl, rfl, fun h => by cases h⟩
      · generalize s.payload.recalc = S
        have e : ({ inUnitD u c' r' d with refIn := some (inUnit u S).ref, realIn := (inUnit u S).real, transfer := resize (inUnit u S).real.length (inUnitD u c' r' d).transfer } : MDat) =
            inUnitD u c' r' { d with refIn := some S.ref, realIn := S.real, transfer := resize S.real.length d.transfer } := by
          simp only [inUnitD, inUnit, List.length_map, resize_t hu]
          rfl
        have := sextGo_f (c' := c') (r' := r') hu (D := { d with refIn := some S.ref, realIn := S.real, transfer := resize S.real.length d.transfer }) h1 hg B3 (L * MtoMM)
          (toSteps (getNumD d.conf "step" 1) : ℝ) (@decide (getNumD d.conf "thinlens" 0 = 1) (Classical.propDecidable _))
          (@decide (getNumD d.conf "dstkick" 1 = 1) (Classical.propDecidable _)) S s
        rw [← e] at this
        exact this

theorem source_f {d d' : MDat} (h : DRel u "source" d d') (s : St MSt) : Alike u (DRel u "source") (advanceSource d s) (advanceSource d' (inUnitSt u s)) := by
  obtain ⟨c', r', h, hr, hg, rfl⟩ := h
  unfold advanceSource
  rw [show (inUnitD u c' r' d).istate = d.istate.map (inUnit u) from rfl, show (inUnitSt u s).retreat = s.retreat from rfl]
  cases d.istate with
  | none => exact ⟨rfl, rfl, fun _ => ⟨c', r', h, hr, hg, rfl⟩⟩
  | some i =>
    dsimp only [Option.map]
    split
    · exact ⟨rfl, rfl, fun _ => ⟨c', r', h, hr, hg, rfl⟩⟩
    · exact ⟨rfl, rfl, fun _ => ⟨c', r', h, hr, hg, rfl⟩⟩

/-- All element types but cavities and strippers. -/
theorem advance_f (hu : 0 < u) (env : Env) (t : MType) {d d' : MDat} (h : DRel u t.name d d') (s : St MSt) :
    Alike u (DRel u t.name) (advance env t d s) (advance env t d' (inUnitSt u s)) := by
  cases t with
  | source => exact source_f h s
  | sbend => exact bend_f hu env h s
  | sextupole => exact sext_f hu h s
  | _ => exact base_f hu env _ h s

/-! ## strippers -/

theorem recombinedCov_f (S : MSt) : recombinedCov (inUnit u S) = inUnitS u (recombinedCov S) := by
  funext i j
  simp only [recombinedCov, inUnit, inUnitS, totQ_p]
  rw [← mul_div_assoc, div_mul_eq_mul_div]
  congr 1
  rw [List.zip_map, List.zipWith_map, ← List.map_uncurry_zip_eq_zipWith, ← List.map_uncurry_zip_eq_zipWith, ← List.sum_map_mul_left,
    ← List.sum_map_mul_right]
  refine congrArg List.sum (List.map_congr_left (fun x _ => ?_))
  simp only [Function.uncurry, Prod.map, inUnitV, inUnitS, inUnitP]
  ring

theorem s_set (M : Mat) (i j : Fin 7) (x : ℝ) : inUnitS u (setAt M i j x) = setAt (inUnitS u M) i j (unit u i * x * unit u j) := by
  ext a b
  simp only [inUnitS, setAt]
  split
  · rename_i h
    rw [h.1, h.2]
  · rfl

theorem s_times (M : Mat) (i j : Fin 7) (g : ℝ) : inUnitS u (setAt M i j (M i j * g)) = setAt (inUnitS u M) i j (inUnitS u M i j * g) := by
  rw [s_set]
  congr 1
  simp only [inUnitS]
  ring

theorem s_fold {α : Type} {f : Mat → α → Mat} (h : ∀ M k, inUnitS u (f M k) = f (inUnitS u M) k) : ∀ (l : List α) (M : Mat),
    l.foldl f (inUnitS u M) = inUnitS u (l.foldl f M)
  | [], _ => rfl
  | k :: l, M => by rw [List.foldl_cons, List.foldl_cons, ← h, s_fold h l]

theorem growStep_s (i k : Fin 7) (g : ℝ) (M : Mat) : inUnitS u (growStep i k g M) = growStep i k g (inUnitS u M) := by
  unfold growStep
  dsimp only
  rw [s_times, s_times]

theorem s_self (M : Mat) {i j : Fin 7} (hi : unit u i = 1) (hj : unit u j = 1) : inUnitS u M i j = M i j := by
  simp only [inUnitS, hi, hj, one_mul, mul_one]

theorem growEnergy_s (f : Foil) (M : Mat) : growEnergy f (inUnitS u M) = inUnitS u (growEnergy f M) := by
  unfold growEnergy
  dsimp only
  rw [s_self M e5 e5]
  exact s_fold (fun M (k : Fin 6) => growStep_s 5 k.castSucc _ M) _ _

theorem growAngles_s (f : Foil) (M : Mat) : growAngles f (inUnitS u M) = inUnitS u (growAngles f M) := by
  unfold growAngles
  dsimp only
  rw [s_self M e1 e1, s_self M e3 e3]
  exact s_fold (fun M k => by rw [growStep_s, growStep_s]) _ _

theorem recombined_ek (l : List Particle) : recombined (l.map (inUnitP u)) (·.IonEk) = recombined l (·.IonEk) := by
  simp only [recombined, totQ_p, List.map_map]
  rfl

theorem recombined_phis (l : List Particle) : recombined (l.map (inUnitP u)) (·.phis) = u * recombined l (·.phis) := by
  simp only [recombined, totQ_p, List.map_map]
  rw [← mul_div_assoc, ← List.sum_map_mul_left]
  congr 2
  refine List.map_congr_left (fun p _ => ?_)
  simp only [Function.comp, inUnitP]
  ring

theorem strippedParticle_p (ref : Particle) (ek phis z q : ℝ) :
    strippedParticle (inUnitP u ref) ek (u * phis) z q = inUnitP u (strippedParticle ref ek phis z q) := by
  have := recalc_p (u := u) { IonZ := z, IonQ := q, IonEs := ref.IonEs, IonW := 0, gamma := 0, beta := 0, bg := 0, SampleFreq := ref.SampleFreq, SampleLambda := 0, SampleIonK := 0, phis := 0, IonEk := ek }
  unfold strippedParticle
  simp only [inUnitP, mul_zero, zero_div] at this ⊢
  rw [this]

theorem stripRef_p (f : Foil) (ref : Particle) : stripRef f (inUnitP u ref) = inUnitP u (stripRef f ref) := by
  unfold stripRef
  rw [← recalc_p]
  rfl

theorem stripped_f (hu : 0 < u) (f : Foil) (chg w : List ℝ) (S : MSt) : stripped f chg w (inUnit u S) = inUnit u (stripped f chg w S) := by
  unfold stripped
  dsimp only
  rw [recombinedCov_f, growEnergy_s, growAngles_s, ← calcRms_s hu, show (inUnit u S).real = S.real.map (inUnitP u) from rfl,
    show (inUnit u S).ref = inUnitP u S.ref from rfl, recombined_ek, recombined_phis, stripRef_p]
  rw [show strippedParticle (inUnitP u (stripRef f S.ref)) (foilEk f (recombined S.real (·.IonEk))) (u * recombined S.real (·.phis)) =
      fun z q => inUnitP u (strippedParticle (stripRef f S.ref) (foilEk f (recombined S.real (·.IonEk))) (recombined S.real (·.phis)) z q) from
    funext fun z => funext fun q => strippedParticle_p _ _ _ _ _]
  simp only [inUnit, List.map_map, Function.comp_def, t_one hu, List.map_zipWith]

theorem foilOf_f (h : OtherElement u "stripper" c c') : foilOf c' = foilOf c := by
  have hm : ∀ k, ¬ IsMoments "stripper" c k := by
    rintro k (⟨e, -⟩ | ⟨e, -⟩) <;> revert e <;> decide
  have hv : ∀ k, Plain k → ∀ l, getVecD c' k l = getVecD c k l := by
    intro k hk l
    simp only [getVecD, vec_f h k hk (hm k)]
  simp only [foilOf, numD_f h "Stripper_IonZ" _ (by decide), numD_f h "Stripper_IonMass" _ (by decide),
    numD_f h "Stripper_IonProton" _ (by decide), numD_f h "Stripper_E1Para" _ (by decide),
    numD_f h "Stripper_lambda" _ (by decide), numD_f h "Stripper_upara" _ (by decide),
    hv "Stripper_Para" (by decide), hv "Stripper_E0Para" (by decide)]

theorem stripperGetMat_f (hu : 0 < u) (h : OtherElement u "stripper" c c') (S : MSt) :
    stripperGetMat c' (inUnit u S) = (stripperGetMat c S).map (inUnit u) := by
  have hm : ∀ k, ¬ IsMoments "stripper" c k := by
    rintro k (⟨e, -⟩ | ⟨e, -⟩) <;> revert e <;> decide
  unfold stripperGetMat
  simp only [vec_f h "IonChargeStates" (by decide) (hm _), vec_f h "NCharge" (by decide) (hm _), strD_f h "charge_model" "baron" (by decide),
    foilOf_f h, stripped_f hu, show (inUnit u S).real = S.real.map (inUnitP u) from rfl]
  cases getVec c "IonChargeStates" with
  | error e => rfl
  | ok chg =>
    cases getVec c "NCharge" with
    | error e => rfl
    | ok w =>
      dsimp only
      split
      · rfl
      split
      · rfl
      split
      · rfl
      split
      · rfl
      cases S.real with
      | nil => rfl
      | cons p l =>
        simp only [List.map_cons, show (inUnitP u p).beta = p.beta from rfl]
        split <;> rfl

theorem stripper_f (hu : 0 < u) {d d' : MDat} (h : DRel u "stripper" d d') (s : St MSt) :
    Alike u (DRel u "stripper") (advanceStripper d s) (advanceStripper d' (inUnitSt u s)) := by
  obtain ⟨c', r', h1, hr, hg, rfl⟩ := h
  unfold advanceStripper
  dsimp only
  rw [show (inUnitSt u s).payload.recalc = inUnit u s.payload.recalc from recalc_s _, show (inUnitSt u s).retreat = s.retreat from rfl,
    show (inUnitD u c' r' d).conf = c' from rfl, calcRms_s hu, stripperGetMat_f hu h1]
  split
  · exact ⟨rfl, rfl, fun h => by cases h⟩
  · cases stripperGetMat d.conf s.payload.recalc.calcRms with
    | error e => exact ⟨rfl, rfl, fun h => by cases h⟩
    | ok S => exact ⟨rfl, rfl, fun _ => ⟨c', r', h1, hr, hg, rfl⟩⟩

/-! ## sources -/

theorem loadV_f {ty : String} (h : OtherElement u ty c c') {k : String} (hk : IsMoments ty c k) :
    (loadStorage 7 c' k).map vecOf = ((loadStorage 7 c k).map vecOf).map (inUnitV u) := by
  rcases h.moments k hk with ⟨xs, xs', e1, e2, e3, e4, -⟩ | ⟨e1, e2⟩
  · simp only [loadStorage, getVec, e1, e2, e3]
    split
    · rename_i hl
      refine congrArg Except.ok ?_
      funext i
      exact e4 hl i
    · rfl
  · have hv : getVec c' k = getVec c k := by simp only [getVec, e2]
    simp only [loadStorage, hv]
    cases hg : getVec c k with
    | error e => rfl
    | ok xs => exact absurd hg (no_vec e1 xs)

theorem loadM_f {ty : String} (hty : ty ≠ "tmatrix") (h : OtherElement u ty c c') {k : String} (hk : IsMoments ty c k) :
    (loadStorage 49 c' k).map matOf = ((loadStorage 49 c k).map matOf).map (inUnitS u) := by
  rcases h.moments k hk with ⟨xs, xs', e1, e2, e3, -, -, e4⟩ | ⟨e1, e2⟩
  · simp only [loadStorage, getVec, e1, e2, e3]
    split
    · rename_i hl
      refine congrArg Except.ok ?_
      ext i j
      exact e4 hl hty i j
    · rfl
  · have hv : getVec c' k = getVec c k := by simp only [getVec, e2]
    simp only [loadStorage, hv]
    cases hg : getVec c k with
    | error e => rfl
    | ok xs => exact absurd hg (no_vec e1 xs)

theorem charges_f (h : OtherElement u "source" c c') : getVec c' "IonChargeStates" = getVec c "IonChargeStates" := by
  by_cases hm : IsMoments "source" c "IonChargeStates"
  · have hs : ¬ Several c := by
      rcases hm with ⟨e, -⟩ | ⟨-, name, -, ⟨hs, n, hn⟩ | ⟨hs, -⟩⟩
      · exact absurd e (by decide)
      · exact absurd hn (no_number _ _ n 's' (by decide) (by decide))
      · exact hs
    rcases h.moments _ hm with ⟨xs, xs', e1, -⟩ | ⟨-, e2⟩
    · exact absurd ⟨xs, e1⟩ hs
    · simp only [getVec, e2]
  · exact vec_f h _ (by decide) hm

theorem weights_f (h : OtherElement u "source" c c') (hs : Several c) : getVec c' "NCharge" = getVec c "NCharge" := by
  refine vec_f h _ (by decide) ?_
  rintro (⟨e, -⟩ | ⟨-, name, -, ⟨-, n, hn⟩ | ⟨hs', -⟩⟩)
  · revert e; decide
  · exact absurd hn (no_number _ _ n 'e' (by decide) (by decide))
  · exact hs' hs

theorem newRef_f (h : OtherElement u "source" c c') (Z Q : ℝ) : newRef c' Z Q = inUnitP u (newRef c Z Q) := by
  have hf : getNumD c' "SampleFreq" 80500000 = u * getNumD c "SampleFreq" 80500000 := by
    have h1 := h.frequency rfl
    simp only [getNumD, h1, frequency]
    split <;> simp_all
  simp only [newRef, numD_f h "IonEs" _ (by decide), hf, numD_f h "IonEk" _ (by decide)]
  rw [← recalc_p]
  simp only [inUnitP, mul_zero, zero_div]

theorem newCharge_f (h : OtherElement u "source" c c') (hs : Several c) (ref : Particle) (n : Nat) (Z Q : ℝ) :
    newCharge c' (inUnitP u ref) n Z Q = (newCharge c ref n Z Q).map (fun q => (inUnitP u q.1, inUnitV u q.2.1, inUnitS u q.2.2)) := by
  have hv := loadV_f h (k := getStrD c "vector_variable" "moment0" ++ toString n)
    (.inr ⟨rfl, _, .inl (text_eq c _ _), .inl ⟨hs, n, rfl⟩⟩)
  have hm := loadM_f (by decide) h (k := getStrD c "matrix_variable" "initial" ++ toString n)
    (.inr ⟨rfl, _, .inr (text_eq c _ _), .inl ⟨hs, n, rfl⟩⟩)
  unfold newCharge
  simp only [strD_f h "vector_variable" "moment0" (by decide), strD_f h "matrix_variable" "initial" (by decide)]
  generalize loadStorage 7 c' (getStrD c "vector_variable" "moment0" ++ toString n) = x' at hv ⊢
  generalize loadStorage 7 c (getStrD c "vector_variable" "moment0" ++ toString n) = x at hv ⊢
  generalize loadStorage 49 c' (getStrD c "matrix_variable" "initial" ++ toString n) = y' at hm ⊢
  generalize loadStorage 49 c (getStrD c "matrix_variable" "initial" ++ toString n) = y at hm ⊢
  cases x with
  | error e =>
    cases x' with
    | error e' => exact congrArg Except.error (Except.error.inj hv)
    | ok v' => cases hv
  | ok v =>
    cases x' with
    | error e' => cases hv
    | ok v' =>
      have hv : vecOf v' = inUnitV u (vecOf v) := Except.ok.inj hv
      cases y with
      | error e =>
        cases y' with
        | error e' => exact congrArg Except.error (Except.error.inj hm)
        | ok v' => cases hm
      | ok M =>
        cases y' with
        | error e' => cases hm
        | ok M' =>
          have hm : matOf M' = inUnitS u (matOf M) := Except.ok.inj hm
          simp only [Except.map, hv, hm, ← recalc_p]
          simp only [inUnitP, inUnitV, e4, e5, one_mul]

theorem newCharges_f (h : OtherElement u "source" c c') (hs : Several c) (ref : Particle) : ∀ (n : Nat) (l : List (ℝ × ℝ)),
    newCharges c' (inUnitP u ref) n l = (newCharges c ref n l).map (List.map (fun q => (inUnitP u q.1, inUnitV u q.2.1, inUnitS u q.2.2)))
  | _, [] => rfl
  | n, (Z, Q) :: l => by
    simp only [newCharges, newCharge_f h hs, newCharges_f h hs ref (n + 1) l]
    cases newCharge c ref n Z Q with
    | error e => rfl
    | ok x =>
      cases newCharges c ref (n + 1) l with
      | error e => rfl
      | ok r => rfl

theorem stateOf_f (hu : 0 < u) (ref : Particle) (l : List (Particle × Vec × Mat)) :
    stateOf (inUnitP u ref) (l.map (fun q => (inUnitP u q.1, inUnitV u q.2.1, inUnitS u q.2.2))) = inUnit u (stateOf ref l) := by
  unfold stateOf
  rw [← calcRms_s hu]
  simp only [inUnit, MSt.calcRms, List.map_map, Function.comp_def, t_one hu]

theorem newSingle_f (hu : 0 < u) (h : OtherElement u "source" c c') (hs : ¬ Several c) (junk : Mat) : newSingle junk c' = inUnit u (newSingle junk c) := by
  have hv := loadV_f h (k := getStrD c "vector_variable" "moment0") (.inr ⟨rfl, _, .inl (text_eq c _ _), .inr ⟨hs, rfl⟩⟩)
  have hm := loadM_f (by decide) h (k := getStrD c "matrix_variable" "initial") (.inr ⟨rfl, _, .inr (text_eq c _ _), .inr ⟨hs, rfl⟩⟩)
  obtain ⟨xs, hx, hl⟩ := h.given rfl hs
  rw [← text_eq] at hx
  have hg : loadStorage 49 c (getStrD c "matrix_variable" "initial") = .ok xs := by
    simp only [loadStorage, getVec, hx, hl, if_true]
  unfold newSingle
  dsimp only
  rw [strD_f h "vector_variable" "moment0" (by decide), strD_f h "matrix_variable" "initial" (by decide), numD_f h "IonZ" _ (by decide),
    numD_f h "IonQ" _ (by decide), newRef_f h]
  rw [hg] at hm ⊢
  generalize newRef c _ _ = ref
  generalize loadStorage 49 c' (getStrD c "matrix_variable" "initial") = y' at hm ⊢
  generalize loadStorage 7 c' (getStrD c "vector_variable" "moment0") = x' at hv ⊢
  generalize loadStorage 7 c (getStrD c "vector_variable" "moment0") = x at hv ⊢
  have hz : inUnitV u 0 = 0 := by funext i; simp [inUnitV]
  cases y' with
  | error e => cases hm
  | ok M' =>
    have hm : matOf M' = inUnitS u (matOf xs) := Except.ok.inj hm
    dsimp only
    rw [hm, ← stateOf_f hu]
    simp only [List.map_cons, List.map_nil]
    refine congrArg (fun v => stateOf (inUnitP u ref) [(inUnitP u ref, v, inUnitS u (matOf xs))]) ?_
    cases x with
    | error e =>
      cases x' with
      | error e' => exact hz.symm
      | ok v' => cases hv
    | ok v =>
      cases x' with
      | error e' => cases hv
      | ok v' => exact Except.ok.inj hv

/-- The constructor of the state gives the beam in the other unit. -/
theorem newState_f (hu : 0 < u) (h : OtherElement u "source" c c') (junk : Mat) :
    newState junk c' = match newState junk c with | .ub => .ub | .err e => .err e | .ok S => .ok (inUnit u S) := by
  have ho : optNum c' "cstate" = optNum c "cstate" := by simp only [optNum, num_f h "cstate" (by decide)]
  unfold newState
  rw [ho, charges_f h]
  cases toSize ((optNum c "cstate").getD 0) with
  | none => rfl
  | some i =>
    dsimp only
    cases hg : getVec c "IonChargeStates" with
    | error e =>
      dsimp only
      split
      · rfl
      · simp only [newSingle_f hu h (by rw [several_iff, hg]; rintro ⟨xs, hx⟩; cases hx)]
    | ok ics =>
      have hs : Several c := (several_iff c).2 ⟨ics, hg⟩
      dsimp only
      have hm : newMany c' ((optNum c "cstate").map (fun _ => i)) ics = (newMany c ((optNum c "cstate").map (fun _ => i)) ics).map (inUnit u) := by
        generalize (optNum c "cstate").map (fun _ => i) = cs
        unfold newMany
        rw [weights_f h hs]
        split
        · rfl
        split
        · rfl
        cases getVec c "NCharge" with
        | error e => rfl
        | ok nchg =>
          dsimp only
          split
          · rfl
          rw [numD_f h "IonQ" _ (by decide), numD_f h "IonZ" _ (by decide), newRef_f h, newCharges_f h hs]
          generalize newRef c (getNumD c "IonZ" (ics.headD 0)) (getNumD c "IonQ" (nchg.headD 0)) = ref
          cases newCharges c ref (cs.getD 0) (chosen cs (ics.zip nchg)) with
          | error e => rfl
          | ok l => exact congrArg Except.ok (stateOf_f hu ref l)
      rw [hm]
      cases newMany c ((optNum c "cstate").map (fun _ => i)) ics <;> rfl

/-- The constructors of the elements, with `ty` the type in the lattice. -/
theorem build_f (hu : 0 < u) {ty : String} (h : OtherElement u ty c c') (env : Env) (junk : Mat) (t : MType) (ht : t = .source → ty = "source") {d d' : MDat}
    (hd : build env junk t c = .ok d) (hd' : build env junk t c' = .ok d') :
    d.conf = c ∧ d.cav = none ∧ d.refIn = none ∧ ∃ r', d' = inUnitD u c' r' d := by
  have hsk : @decide (getNumD c' "skipcache" 0 ≠ 0) (Classical.propDecidable _) = @decide (getNumD c "skipcache" 0 ≠ 0) (Classical.propDecidable _) := by
    rw [numD_f h "skipcache" 0 (by decide)]
  have hfl := flag_f h env "HdipoleFitMode" 1 (by decide)
  unfold build at hd hd'
  simp only [hsk, numD_f h "L" _ (by decide), numD_f h "dx" _ (by decide), numD_f h "dy" _ (by decide), numD_f h "pitch" _ (by decide),
    numD_f h "yaw" _ (by decide), numD_f h "roll" _ (by decide), hfl] at hd'
  cases t <;> dsimp only at hd hd'
  case source =>
    have := ht rfl
    subst this
    rw [newState_f hu h] at hd'
    cases hs : newState junk c with
    | ub => rw [hs] at hd; cases hd
    | err e => rw [hs] at hd; cases hd
    | ok S =>
      rw [hs] at hd hd'
      cases hd; cases hd'
      exact ⟨rfl, rfl, rfl, _, rfl⟩
  case sbend =>
    cases hs : getFlag env c "HdipoleFitMode" 1 with
    | error e => rw [hs] at hd; cases hd
    | ok n =>
      rw [hs] at hd hd'
      dsimp only at hd hd'
      split at hd
      · rename_i hn
        rw [if_pos hn] at hd'
        cases hd; cases hd'
        exact ⟨rfl, rfl, rfl, _, rfl⟩
      · cases hd
  all_goals
    cases hd; cases hd'
    exact ⟨rfl, rfl, rfl, _, rfl⟩

end Flame.Freq
