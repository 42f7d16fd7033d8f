import Verif.Scale.Run
import Verif.Cavity.Response
import Verif.Agree.Props

/-! # Lattices that meet the hypotheses of C96 -/

namespace Flame.Scale

open Flame.Mach (Cls St Err CView Machine propagate)
open Flame.Linear (LVal LCfg getNumD)
open Flame.Moment Flame.Cavity
open Flame.Agree (exSettings exBeam)
open Flame.Scale.Spec

/-- No name is a charge and a field. -/
theorem field_plain {k : String} (h : IsField k) : ¬ IsCharge k ∧ k ≠ "IonChargeStates" := by
  rcases h with h | ⟨n, rfl⟩
  · simp only [List.mem_cons, List.not_mem_nil, or_false] at h
    rcases h with rfl | rfl | rfl | rfl | rfl | rfl | rfl <;> exact ⟨by simp [IsCharge], by decide⟩
  · have hne : ∀ t : String, t.toList.take 7 ≠ "scl_fac".toList → "scl_fac" ++ toString n ≠ t := by
      intro t ht e
      exact ht (by rw [← e, take_scl])
    refine ⟨?_, hne _ (by decide)⟩
    simp only [IsCharge, List.mem_cons, List.not_mem_nil, or_false, not_or]
    exact ⟨hne _ (by decide), hne _ (by decide)⟩

open Classical in
/-- The settings with all charges times `q` and all fields divided by `q`. -/
noncomputable def rescaled (q : ℝ) (c : LCfg) : LCfg := fun k =>
  if IsCharge k then (c k).map (amplify q) else if k = "IonChargeStates" then (c k).map (amplifyAll q)
  else if IsField k then (c k).map (amplify q⁻¹) else c k

/-- Every lattice has one with all charges times `q` and all fields divided by `q`. -/
theorem rescaled_ok (q : ℝ) (c : LCfg) : Rescaled q c (rescaled q c) := by
  refine ⟨fun k hk => if_pos hk, ?_, fun k hk => ?_, fun k h1 h2 h3 => ?_⟩
  · unfold rescaled
    rw [if_neg (by simp [IsCharge]), if_pos rfl]
  · unfold rescaled
    rw [if_neg (field_plain hk).1, if_neg (field_plain hk).2, if_pos hk]
  · unfold rescaled
    rw [if_neg h1, if_neg h2, if_neg h3]

/-- A source, a quadrupole, a cavity and a stripper. -/
noncomputable def exLattice : List LCfg :=
  [exSettings [("type", .str "source"), ("name", .str "s"), ("IonEs", .num 1), ("IonEk", .num 1), ("IonChargeStates", .vec [3, 4]),
     ("NCharge", .vec [1, 1]), ("moment00", .vec [1, 0, 0, 0, 0, 0, 1]), ("moment01", .vec [0, 1, 0, 0, 0, 0, 1]),
     ("initial0", .vec (List.replicate 49 0)), ("initial1", .vec (List.replicate 49 0))],
   exSettings [("type", .str "quadrupole"), ("name", .str "q"), ("L", .num 1), ("B2", .num 5)],
   exFull,
   exSettings [("type", .str "stripper"), ("name", .str "f"), ("charge_model", .str "off"), ("Stripper_IonZ", .num 6),
     ("IonChargeStates", .vec [7]), ("NCharge", .vec [2])]]

/-- How the example reads a configuration. -/
noncomputable def exScale (q : ℝ) : CView LCfg where
  str c k := match c k with
    | some (.str x) => .ok x
    | _ => .error .keyError
  elems c := match c "way" with
    | some (.str "first") => .ok exLattice
    | _ => .ok (exLattice.map (rescaled q))

theorem rescaled_same (q : ℝ) (c : LCfg) {k : String} (hk : plain k = true) : rescaled q c k = c k := rest_of (rescaled_ok q c) hk

theorem rescaled_str (q : ℝ) (c : LCfg) {k : String} (hk : plain k = true) : (exScale q).str (rescaled q c) k = (exScale q).str c k := by
  show (match rescaled q c k with | some (.str x) => (.ok x : Except Err String) | _ => .error .keyError) = _
  rw [rescaled_same q c hk]
  rfl

/-- The source of the example can be built. -/
theorem exSource_builds (env : Env) (junk : Mat) (c : LCfg) (hc : c = exLattice[0]!) : ∃ d, build env junk .source c = .ok d := by
  have : ∃ S, newState junk c = .ok S := by
    unfold newState
    have h1 : toSize ((optNum c "cstate").getD 0) = some 0 := by
      have : optNum c "cstate" = none := by subst hc; rfl
      rw [this]
      norm_num [toSize]
    have h2 : optNum c "cstate" = none := by subst hc; rfl
    have h3 : Flame.Linear.getVec c "IonChargeStates" = .ok [3, 4] := by subst hc; rfl
    have h4 : Flame.Linear.getVec c "NCharge" = .ok [1, 1] := by subst hc; rfl
    rw [h1, h3, h2]
    dsimp only [Option.map_none]
    unfold newMany
    simp only [h4, List.length_cons, List.length_nil, Option.getD_none]
    norm_num
    have s1 : ∀ n k xs, Flame.Linear.getVec c k = .ok xs → xs.length = n → loadStorage n c k = .ok xs := by
      intro n k xs h e
      simp only [loadStorage, h, e, if_true]
    have v1 : getStrD c "vector_variable" "moment0" = "moment0" := by subst hc; rfl
    have v2 : getStrD c "matrix_variable" "initial" = "initial" := by subst hc; rfl
    have k0 : toString (0 : ℕ) = "0" := rfl
    have k1 : toString (1 : ℕ) = "1" := rfl
    simp only [chosen, newCharges, newCharge, v1, v2, zero_add, k0, k1]
    rw [show "moment0" ++ "0" = "moment00" from rfl, show "moment0" ++ "1" = "moment01" from rfl, show "initial" ++ "0" = "initial0" from rfl,
      show "initial" ++ "1" = "initial1" from rfl]
    rw [s1 7 "moment00" [1, 0, 0, 0, 0, 0, 1] (by subst hc; rfl) rfl, s1 7 "moment01" [0, 1, 0, 0, 0, 0, 1] (by subst hc; rfl) rfl,
      s1 49 "initial0" (List.replicate 49 0) (by subst hc; rfl) rfl, s1 49 "initial1" (List.replicate 49 0) (by subst hc; rfl) rfl]
    exact ⟨_, rfl⟩
  obtain ⟨S, hS⟩ := this
  unfold build
  simp only [hS]
  exact ⟨_, rfl⟩

/-- The hypotheses of `C96_scaling` are met by this lattice, used forward twice and then backward through the quadrupole. -/
example (env : Env) (junk : Mat) (q : ℝ) :
    (∃ m, Machine.new (exScale q) (registry env junk 0 (cavityCls env exFiles junk 0) (stripperCls env junk 0))
      (exSettings [("sim_type", .str "MomentMatrix"), ("way", .str "first")]) = .ok m) ∧
    (∃ m', Machine.new (exScale q) (registry env junk 0 (cavityCls env exFiles junk 0) (stripperCls env junk 0))
      (exSettings [("sim_type", .str "MomentMatrix")]) = .ok m') ∧
    List.Forall₂ (fun e e' => (exScale q).str e' "type" = (exScale q).str e "type" ∧ Rescaled q e e') exLattice (exLattice.map (rescaled q)) ∧
    (∀ e ∈ exLattice, (exScale q).str e "type" = .ok "stripper" → Settled e) ∧
    RechargedCall q ⟨fun i => some i, exBeam, 0, 5⟩ ⟨fun i => some i, upT q exBeam, 0, 5⟩ ∧
    RechargedCall q ⟨fun _ => none, exBeam, 1, -1⟩ ⟨fun _ => none, upT q exBeam, 1, -1⟩ := by
  obtain ⟨hk, hreg⟩ := registered_shipped env junk 0 (cavityCls env exFiles junk 0) (stripperCls env junk 0)
  obtain ⟨ds, hds⟩ := exSource_builds env junk _ rfl
  have hds' : ∃ d, build env junk .source (rescaled q exLattice[0]!) = .ok d := by
    unfold build at hds ⊢
    simp only [newState_up (rescaled_ok q _)]
    cases hS : newState junk exLattice[0]! with
    | ub => rw [hS] at hds; cases hds
    | err e => rw [hS] at hds; cases hds
    | ok S => exact ⟨_, rfl⟩
  obtain ⟨ds', hds'⟩ := hds'
  obtain ⟨dc, hdc⟩ : ∃ d, buildCavity env exFiles junk exFull = .ok d := by
    unfold buildCavity
    rw [exFull_loads]
    exact ⟨_, rfl⟩
  obtain ⟨dc', hdc'⟩ : ∃ d, buildCavity env exFiles junk (rescaled q exFull) = .ok d := by
    unfold buildCavity
    rw [loadCavity_up env exFiles (rescaled_ok q _), exFull_loads]
    exact ⟨_, rfl⟩
  have ty : ∀ c t, (exScale q).str c "type" = .ok t → (exScale q).str (rescaled q c) "type" = .ok t := fun c t h => by
    rw [rescaled_str q c (by decide)]; exact h
  have nm : ∀ c t, (exScale q).str c "name" = .ok t → (exScale q).str (rescaled q c) "name" = .ok t := fun c t h => by
    rw [rescaled_str q c (by decide)]; exact h
  refine ⟨?_, ?_, ?_, ?_, ⟨rfl, rfl, rfl, (recharged_iff _ _).2 rfl⟩, ⟨rfl, rfl, rfl, (recharged_iff _ _).2 rfl⟩⟩
  · refine (Flame.Mach.C18_success_iff (exScale q) (registry env junk 0 (cavityCls env exFiles junk 0) (stripperCls env junk 0)) _).2
      ⟨"MomentMatrix", exLattice, rfl, hk, rfl, ?_⟩
    simp only [exLattice, List.mem_cons, List.not_mem_nil, or_false, forall_eq_or_imp, forall_eq]
    exact ⟨⟨"source", _, "s", ds, rfl, hreg _ _ rfl, rfl, rfl, hds⟩, ⟨"quadrupole", _, "q", _, rfl, hreg _ _ rfl, rfl, rfl, rfl⟩,
      ⟨"rfcavity", _, "c", dc, rfl, hreg _ _ rfl, rfl, rfl, hdc⟩, ⟨"stripper", _, "f", _, rfl, hreg _ _ rfl, rfl, rfl, rfl⟩⟩
  · refine (Flame.Mach.C18_success_iff (exScale q) (registry env junk 0 (cavityCls env exFiles junk 0) (stripperCls env junk 0)) _).2
      ⟨"MomentMatrix", exLattice.map (rescaled q), rfl, hk, rfl, ?_⟩
    simp only [exLattice, List.map_cons, List.map_nil, List.mem_cons, List.not_mem_nil, or_false, forall_eq_or_imp, forall_eq]
    exact ⟨⟨"source", _, "s", ds', ty _ _ rfl, hreg _ _ rfl, rfl, nm _ _ rfl, hds'⟩,
      ⟨"quadrupole", _, "q", _, ty _ _ rfl, hreg _ _ rfl, rfl, nm _ _ rfl, rfl⟩,
      ⟨"rfcavity", _, "c", dc', ty _ _ rfl, hreg _ _ rfl, rfl, nm _ _ rfl, hdc'⟩,
      ⟨"stripper", _, "f", _, ty _ _ rfl, hreg _ _ rfl, rfl, nm _ _ rfl, rfl⟩⟩
  · rw [List.forall₂_map_right_iff]
    exact List.forall₂_same.2 (fun e _ => ⟨rescaled_str q e (by decide), rescaled_ok q e⟩)
  · intro e he ht
    simp only [exLattice, List.mem_cons, List.not_mem_nil, or_false] at he
    rcases he with rfl | rfl | rfl | rfl
    · exact absurd ht (by simp [exScale, exSettings])
    · exact absurd ht (by simp [exScale, exSettings])
    · exact absurd ht (by simp [exScale, exFull])
    · exact ⟨rfl, 6, rfl⟩

end Flame.Scale
