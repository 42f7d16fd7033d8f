import Mathlib.Data.List.GetD
import Verif.Flip.Run
import Verif.Cavity.Response
import Verif.Agree.Props

/-! # Lattices that meet the hypotheses of C98 -/

namespace Flame.Flip

open Flame.Mach (Cls St Err CView Machine propagate)
open Flame.Linear (LVal LCfg getNumD)
open Flame.Moment Flame.Cavity
open Flame.Agree (exSettings exBeam)
open Flame.Flip.Spec

/-- The numbers of a vector or a matrix seen in the mirror. -/
noncomputable def imageL (xs : List ℝ) : List ℝ :=
  if xs.length = 7 then List.ofFn (fun i : Fin 7 => side i * xs.getD i 0)
  else if xs.length = 49 then
    List.ofFn (fun n : Fin 49 => side ⟨n / 7, by omega⟩ * xs.getD n 0 * side ⟨n % 7, by omega⟩)
  else xs

theorem imageL_ok (xs : List ℝ) : MirroredNumbers xs (imageL xs) := by
  unfold imageL
  by_cases h7 : xs.length = 7
  · rw [if_pos h7]
    refine ⟨by rw [List.length_ofFn, h7], fun _ i => ?_, fun h => by omega⟩
    rw [List.getD_eq_getElem _ _ (by rw [List.length_ofFn]; exact i.2), List.getElem_ofFn]
  · rw [if_neg h7]
    by_cases h49 : xs.length = 49
    · rw [if_pos h49]
      refine ⟨by rw [List.length_ofFn, h49], fun h => by omega, fun _ i j => ?_⟩
      rw [List.getD_eq_getElem _ _ (by rw [List.length_ofFn]; omega), List.getElem_ofFn]
      have e1 : (⟨(7 * (i : ℕ) + (j : ℕ)) / 7, by omega⟩ : Fin 7) = i := by ext; dsimp only; omega
      have e2 : (⟨(7 * (i : ℕ) + (j : ℕ)) % 7, by omega⟩ : Fin 7) = j := by ext; dsimp only; omega
      dsimp only
      rw [e1, e2]
    · rw [if_neg h49]
      exact ⟨rfl, fun h => absurd h h7, fun h => absurd h h49⟩

open Classical in
/-- The settings of an element seen in the mirror. -/
noncomputable def mirrored (ty : String) (c : LCfg) : LCfg := fun k =>
  if IsMoments ty c k then (match c k with | some (.vec xs) => some (.vec (imageL xs)) | v => v)
  else if Reversed ty c k then (c k).map reverse else c k

/-- Every element has a mirrored one: the only condition is that the centroid and the covariance of a source are not called
like its position. -/
theorem mirrored_ok {ty : String} {c : LCfg} (h1 : ∀ k, IsMoments ty c k → ¬ Reversed ty c k)
    (h2 : ty = "source" → ¬ Several c → ∃ xs, c (text c "matrix_variable" "initial") = some (.vec xs) ∧ xs.length = 49) :
    MirroredElement ty c (mirrored ty c) where
  reversed k hk := by
    unfold mirrored
    rw [if_neg (fun h => h1 k h hk), if_pos hk]
  moments k hk := by
    unfold mirrored
    rw [if_pos hk]
    cases hc : c k with
    | none => exact .inr ⟨fun xs h => (by cases h), rfl⟩
    | some v =>
      cases v with
      | vec xs => exact .inl ⟨xs, _, rfl, rfl, imageL_ok xs⟩
      | _ => exact .inr ⟨fun xs h => (by cases h), rfl⟩
  rest k _ hr hm := by
    unfold mirrored
    rw [if_neg hm, if_neg hr]
  given := h2

/-- Texts stay as they are. -/
theorem mirrored_text {ty : String} {c : LCfg} {k t : String} (h : c k = some (.str t)) : mirrored ty c k = some (.str t) := by
  unfold mirrored
  rw [h]
  split
  · rfl
  · split <;> rfl

theorem moments_not {ty : String} {c : LCfg} (h1 : ty ≠ "tmatrix") (h2 : ty ≠ "source") (k : String) : ¬ IsMoments ty c k := by
  rintro (⟨e, -⟩ | ⟨e, -⟩)
  · exact h1 e
  · exact h2 e

/-- A source with one charge state. -/
noncomputable def exSource : LCfg :=
  exSettings [("type", .str "source"), ("name", .str "S"), ("moment0", .vec [1, 2, 3, 4, 5, 6, 1]),
    ("initial", .vec ((List.range 49).map (fun n => (n : ℝ))))]

/-- A source, a shifted, tilted and rolled quadrupole, a sextupole, a cavity, a solenoid, a corrector and a stripper. -/
noncomputable def exElems : List LCfg :=
  [exSource,
   exSettings [("type", .str "quadrupole"), ("name", .str "q"), ("L", .num 1), ("B2", .num 5), ("dx", .num 1), ("dy", .num 2), ("roll", .num 1), ("yaw", .num 1)],
   exSettings [("type", .str "sextupole"), ("name", .str "x"), ("L", .num 1), ("B3", .num 5), ("step", .num 2)],
   exFull,
   exSettings [("type", .str "solenoid"), ("name", .str "s"), ("L", .num 1), ("B", .num 3), ("dx", .num 2)],
   exSettings [("type", .str "orbtrim"), ("name", .str "o"), ("theta_x", .num 3)],
   exSettings [("type", .str "stripper"), ("name", .str "f"), ("IonChargeStates", .vec [1]), ("NCharge", .vec [1])]]

/-- Their types. -/
def exTypes : List String := ["source", "quadrupole", "sextupole", "rfcavity", "solenoid", "orbtrim", "stripper"]

/-- How the example reads a configuration. -/
noncomputable def exView : CView LCfg where
  str c k := match c k with
    | some (.str x) => .ok x
    | _ => .error .keyError
  elems c := match c "way" with
    | some (.str "first") => .ok exElems
    | _ => .ok (List.zipWith mirrored exTypes exElems)

/-- The hypotheses of `C98_mirror` are met by this lattice, used forward and then backward through the quadrupole. -/
example (env : Env) (junk : Mat) :
    (∃ m, Machine.new exView (registry env junk 0 (cavityCls env exFiles junk 0) (stripperCls env junk 0))
      (exSettings [("sim_type", .str "MomentMatrix"), ("way", .str "first")]) = .ok m) ∧
    (∃ m', Machine.new exView (registry env junk 0 (cavityCls env exFiles junk 0) (stripperCls env junk 0))
      (exSettings [("sim_type", .str "MomentMatrix")]) = .ok m') ∧
    List.Forall₂ (fun e e' => ∃ ty, exView.str e "type" = .ok ty ∧ exView.str e' "type" = .ok ty ∧ MirroredElement ty e e')
      exElems (List.zipWith mirrored exTypes exElems) ∧
    MirroredCall ⟨fun i => some i, exBeam, 0, 7⟩ ⟨fun i => some i, imageT exBeam, 0, 7⟩ ∧
    MirroredCall ⟨fun _ => none, exBeam, 1, -1⟩ ⟨fun _ => none, imageT exBeam, 1, -1⟩ := by
  obtain ⟨hk, hreg⟩ := registered_shipped env junk 0 (cavityCls env exFiles junk 0) (stripperCls env junk 0)
  have plain : ∀ {ty : String} {c : LCfg}, ty ≠ "tmatrix" → ty ≠ "source" → MirroredElement ty c (mirrored ty c) :=
    fun h1 h2 => mirrored_ok (fun k hk => absurd hk (moments_not h1 h2 k)) (fun e => absurd e h2)
  have hfull : MirroredElement "rfcavity" exFull (mirrored "rfcavity" exFull) := plain (by decide) (by decide)
  have hsrc : MirroredElement "source" exSource (mirrored "source" exSource) := by
    have hS : ¬ Several exSource := by
      rintro ⟨xs, h⟩
      have : exSource "IonChargeStates" = none := rfl
      rw [this] at h
      cases h
    refine mirrored_ok ?_ (fun _ _ => ⟨_, rfl, by simp⟩)
    rintro k (⟨e, -⟩ | ⟨-, name, hn, ⟨hs, -⟩ | ⟨-, rfl⟩⟩)
    · exact absurd e (by decide)
    · exact absurd hs hS
    · rcases hn with rfl | rfl
      · show ¬ Reversed "source" exSource "moment0"
        simp [Reversed]
      · show ¬ Reversed "source" exSource "initial"
        simp [Reversed]
  have new : newState junk exSource = .ok (newSingle junk exSource) := by
    have : toSize 0 = some 0 := by
      unfold toSize
      rw [if_pos (by norm_num)]
      simp
    unfold newState
    rw [show optNum exSource "cstate" = none from rfl, Option.getD_none, this]
    rfl
  obtain ⟨ds, hds⟩ : ∃ d, build env junk .source exSource = .ok d := by
    unfold build
    simp only [new]
    exact ⟨_, rfl⟩
  obtain ⟨ds', hds'⟩ : ∃ d, build env junk .source (mirrored "source" exSource) = .ok d := by
    unfold build
    simp only [newState_im hsrc, new]
    exact ⟨_, rfl⟩
  obtain ⟨dc, hdc⟩ : ∃ d, buildCavity env exFiles junk exFull = .ok d := by
    unfold buildCavity
    rw [exFull_loads]
    exact ⟨_, rfl⟩
  obtain ⟨dc', hdc'⟩ : ∃ d, buildCavity env exFiles junk (mirrored "rfcavity" exFull) = .ok d := by
    unfold buildCavity
    rw [loadCavity_c hfull env exFiles, exFull_loads]
    exact ⟨_, rfl⟩
  have st : ∀ ty c k t, c k = some (.str t) → exView.str (mirrored ty c) k = .ok t := by
    intro ty c k t h
    show (match mirrored ty c k with | some (.str x) => (.ok x : Except Err String) | _ => .error .keyError) = _
    rw [mirrored_text h]
  refine ⟨?_, ?_, ?_, ⟨rfl, rfl, rfl, (mirrored_iff _ _).2 rfl⟩, ⟨rfl, rfl, rfl, (mirrored_iff _ _).2 rfl⟩⟩
  · refine (Flame.Mach.C18_success_iff exView (registry env junk 0 (cavityCls env exFiles junk 0) (stripperCls env junk 0)) _).2
      ⟨"MomentMatrix", exElems, rfl, hk, rfl, ?_⟩
    simp only [exElems, List.mem_cons, List.not_mem_nil, or_false, forall_eq_or_imp, forall_eq]
    exact ⟨⟨"source", _, "S", ds, rfl, hreg _ _ rfl, rfl, rfl, hds⟩, ⟨"quadrupole", _, "q", _, rfl, hreg _ _ rfl, rfl, rfl, rfl⟩,
      ⟨"sextupole", _, "x", _, rfl, hreg _ _ rfl, rfl, rfl, rfl⟩, ⟨"rfcavity", _, "c", dc, rfl, hreg _ _ rfl, rfl, rfl, hdc⟩,
      ⟨"solenoid", _, "s", _, rfl, hreg _ _ rfl, rfl, rfl, rfl⟩, ⟨"orbtrim", _, "o", _, rfl, hreg _ _ rfl, rfl, rfl, rfl⟩,
      ⟨"stripper", _, "f", _, rfl, hreg _ _ rfl, rfl, rfl, rfl⟩⟩
  · refine (Flame.Mach.C18_success_iff exView (registry env junk 0 (cavityCls env exFiles junk 0) (stripperCls env junk 0)) _).2
      ⟨"MomentMatrix", List.zipWith mirrored exTypes exElems, rfl, hk, rfl, ?_⟩
    simp only [exElems, exTypes, List.zipWith_cons_cons, List.zipWith_nil_left, List.mem_cons, List.not_mem_nil, or_false, forall_eq_or_imp, forall_eq]
    exact ⟨⟨"source", _, "S", ds', st _ _ _ _ rfl, hreg _ _ rfl, rfl, st _ _ _ _ rfl, hds'⟩,
      ⟨"quadrupole", _, "q", _, st _ _ _ _ rfl, hreg _ _ rfl, rfl, st _ _ _ _ rfl, rfl⟩,
      ⟨"sextupole", _, "x", _, st _ _ _ _ rfl, hreg _ _ rfl, rfl, st _ _ _ _ rfl, rfl⟩,
      ⟨"rfcavity", _, "c", dc', st _ _ _ _ rfl, hreg _ _ rfl, rfl, st _ _ _ _ rfl, hdc'⟩,
      ⟨"solenoid", _, "s", _, st _ _ _ _ rfl, hreg _ _ rfl, rfl, st _ _ _ _ rfl, rfl⟩,
      ⟨"orbtrim", _, "o", _, st _ _ _ _ rfl, hreg _ _ rfl, rfl, st _ _ _ _ rfl, rfl⟩,
      ⟨"stripper", _, "f", _, st _ _ _ _ rfl, hreg _ _ rfl, rfl, st _ _ _ _ rfl, rfl⟩⟩
  · refine .cons ⟨"source", rfl, st _ _ _ _ rfl, hsrc⟩ ?_
    refine .cons ⟨"quadrupole", rfl, st _ _ _ _ rfl, plain (by decide) (by decide)⟩ ?_
    refine .cons ⟨"sextupole", rfl, st _ _ _ _ rfl, plain (by decide) (by decide)⟩ ?_
    refine .cons ⟨"rfcavity", rfl, st _ _ _ _ rfl, hfull⟩ ?_
    refine .cons ⟨"solenoid", rfl, st _ _ _ _ rfl, plain (by decide) (by decide)⟩ ?_
    refine .cons ⟨"orbtrim", rfl, st _ _ _ _ rfl, plain (by decide) (by decide)⟩ ?_
    exact .cons ⟨"stripper", rfl, st _ _ _ _ rfl, plain (by decide) (by decide)⟩ .nil

end Flame.Flip
