import Verif.Turn.Run
import Verif.Cavity.Response
import Verif.Agree.Props

/-! # Lattices that meet the hypotheses of C97 -/

namespace Flame.Turn

open Flame.Mach (Cls St Err CView Machine propagate)
open Flame.Linear (LVal LCfg getNumD)
open Flame.Moment Flame.Cavity
open Flame.Agree (exSettings exBeam)
open Flame.Turn.Spec

/-- The settings turned by the angle `a`; a matrix stays as it is. -/
noncomputable def turned (a : ℝ) (c : LCfg) : LCfg := fun k =>
  if k = "dx" then some (.num (Real.cos a * number c "dx" - Real.sin a * number c "dy"))
  else if k = "dy" then some (.num (Real.sin a * number c "dx" + Real.cos a * number c "dy"))
  else if k = "roll" then some (.num (number c "roll" + a)) else c k

theorem turned_other (a : ℝ) (c : LCfg) {k : String} (h : k ≠ "dx" ∧ k ≠ "dy" ∧ k ≠ "roll") : turned a c k = c k := by
  unfold turned
  rw [if_neg h.1, if_neg h.2.1, if_neg h.2.2]

/-- Every element without tilt has a turned one, except sources, strippers, given matrices and cavities with emittance growth. -/
theorem turned_ok (a : ℝ) {ty : String} {c : LCfg} (h1 : number c "pitch" = 0) (h2 : number c "yaw" = 0)
    (h3 : ty ≠ "source" ∧ ty ≠ "stripper") (h4 : ty ≠ "tmatrix") (h5 : c "EmitGrowth" = none) : TurnedElement a ty c (turned a c) where
  dx := rfl
  dy := rfl
  roll := rfl
  rest k hk := turned_other a c ⟨fun e => hk (by rw [e]; simp [Moved]), fun e => hk (by rw [e]; simp [Moved]), fun e => hk (by rw [e]; simp [Moved])⟩
  pitch := h1
  yaw := h2
  kind := h3
  matrix e := absurd e h4
  growth _ := .inl h5

/-- A shifted and rolled quadrupole, a sextupole, a cavity and a solenoid. -/
noncomputable def exLattice : List LCfg :=
  [exSettings [("type", .str "quadrupole"), ("name", .str "q"), ("L", .num 1), ("B2", .num 5), ("dx", .num 1), ("dy", .num 2), ("roll", .num 1)],
   exSettings [("type", .str "sextupole"), ("name", .str "x"), ("L", .num 1), ("B3", .num 5), ("step", .num 2)],
   exFull,
   exSettings [("type", .str "solenoid"), ("name", .str "s"), ("L", .num 1), ("B", .num 3), ("dy", .num 2)]]

/-- How the example reads a configuration. -/
noncomputable def exTurn (a : ℝ) : CView LCfg where
  str c k := match c k with
    | some (.str x) => .ok x
    | _ => .error .keyError
  elems c := match c "way" with
    | some (.str "first") => .ok exLattice
    | _ => .ok (exLattice.map (turned a))

/-- The hypotheses of `C97_turn` are met by this lattice, used forward and then backward through the quadrupole. -/
example (env : Env) (junk : Mat) (a : ℝ) :
    (∃ m, Machine.new (exTurn a) (registry env junk 0 (cavityCls env exFiles junk 0) (stripperCls env junk 0))
      (exSettings [("sim_type", .str "MomentMatrix"), ("way", .str "first")]) = .ok m) ∧
    (∃ m', Machine.new (exTurn a) (registry env junk 0 (cavityCls env exFiles junk 0) (stripperCls env junk 0))
      (exSettings [("sim_type", .str "MomentMatrix")]) = .ok m') ∧
    List.Forall₂ (fun e e' => ∃ ty, (exTurn a).str e "type" = .ok ty ∧ (exTurn a).str e' "type" = .ok ty ∧ TurnedElement a ty e e')
      exLattice (exLattice.map (turned a)) ∧
    TurnedCall a ⟨fun i => some i, exBeam, 0, 5⟩ ⟨fun i => some i, turnT a 0 exBeam, 0, 5⟩ ∧
    TurnedCall a ⟨fun _ => none, exBeam, 0, -1⟩ ⟨fun _ => none, turnT a 0 exBeam, 0, -1⟩ := by
  obtain ⟨hk, hreg⟩ := registered_shipped env junk 0 (cavityCls env exFiles junk 0) (stripperCls env junk 0)
  have hfull : TurnedElement a "rfcavity" exFull (turned a exFull) :=
    turned_ok a rfl rfl (by decide) (by decide) rfl
  obtain ⟨dc, hdc⟩ : ∃ d, buildCavity env exFiles junk exFull = .ok d := by
    unfold buildCavity
    rw [exFull_loads]
    exact ⟨_, rfl⟩
  obtain ⟨dc', hdc'⟩ : ∃ d, buildCavity env exFiles junk (turned a exFull) = .ok d := by
    unfold buildCavity
    rw [loadCavity_o env exFiles hfull.rest, exFull_loads]
    exact ⟨_, rfl⟩
  have st : ∀ c k t, k ≠ "dx" ∧ k ≠ "dy" ∧ k ≠ "roll" → (exTurn a).str c k = .ok t → (exTurn a).str (turned a c) k = .ok t := by
    intro c k t hk h
    show (match turned a c k with | some (.str x) => (.ok x : Except Err String) | _ => .error .keyError) = _
    rw [turned_other a c hk]
    exact h
  refine ⟨?_, ?_, ?_, ⟨rfl, rfl, rfl, (turned_iff _ _).2 ⟨0, rfl⟩⟩, ⟨rfl, rfl, rfl, (turned_iff _ _).2 ⟨0, rfl⟩⟩⟩
  · refine (Flame.Mach.C18_success_iff (exTurn a) (registry env junk 0 (cavityCls env exFiles junk 0) (stripperCls env junk 0)) _).2
      ⟨"MomentMatrix", exLattice, rfl, hk, rfl, ?_⟩
    simp only [exLattice, List.mem_cons, List.not_mem_nil, or_false, forall_eq_or_imp, forall_eq]
    exact ⟨⟨"quadrupole", _, "q", _, rfl, hreg _ _ rfl, rfl, rfl, rfl⟩, ⟨"sextupole", _, "x", _, rfl, hreg _ _ rfl, rfl, rfl, rfl⟩,
      ⟨"rfcavity", _, "c", dc, rfl, hreg _ _ rfl, rfl, rfl, hdc⟩, ⟨"solenoid", _, "s", _, rfl, hreg _ _ rfl, rfl, rfl, rfl⟩⟩
  · refine (Flame.Mach.C18_success_iff (exTurn a) (registry env junk 0 (cavityCls env exFiles junk 0) (stripperCls env junk 0)) _).2
      ⟨"MomentMatrix", exLattice.map (turned a), rfl, hk, rfl, ?_⟩
    simp only [exLattice, List.map_cons, List.map_nil, List.mem_cons, List.not_mem_nil, or_false, forall_eq_or_imp, forall_eq]
    exact ⟨⟨"quadrupole", _, "q", _, st _ _ _ (by decide) rfl, hreg _ _ rfl, rfl, st _ _ _ (by decide) rfl, rfl⟩,
      ⟨"sextupole", _, "x", _, st _ _ _ (by decide) rfl, hreg _ _ rfl, rfl, st _ _ _ (by decide) rfl, rfl⟩,
      ⟨"rfcavity", _, "c", dc', st _ _ _ (by decide) rfl, hreg _ _ rfl, rfl, st _ _ _ (by decide) rfl, hdc'⟩,
      ⟨"solenoid", _, "s", _, st _ _ _ (by decide) rfl, hreg _ _ rfl, rfl, st _ _ _ (by decide) rfl, rfl⟩⟩
  · refine .cons ⟨"quadrupole", rfl, st _ _ _ (by decide) rfl, turned_ok a rfl rfl (by decide) (by decide) rfl⟩ ?_
    refine .cons ⟨"sextupole", rfl, st _ _ _ (by decide) rfl, turned_ok a rfl rfl (by decide) (by decide) rfl⟩ ?_
    refine .cons ⟨"rfcavity", rfl, st _ _ _ (by decide) rfl, hfull⟩ ?_
    exact .cons ⟨"solenoid", rfl, st _ _ _ (by decide) rfl, turned_ok a rfl rfl (by decide) (by decide) rfl⟩ .nil

end Flame.Turn
