import Verif.Mirror.Linear

/-! # Lattices that meet the hypotheses of C95 -/

namespace Flame.Mirror

open Flame.Mach (Cls St Err CView Machine propagate sizeMod)
open Flame.Linear (LVal LCfg)
open Flame.Moment (MSt MDat Env MCls)
open Flame.Agree (exSettings exBeam flag_none)
open Flame.Mirror.Spec

/-- A bend with unequal edges. -/
noncomputable def exBendA : LCfg :=
  exSettings [("type", .str "sbend"), ("name", .str "b"), ("L", .num 2), ("phi", .num 30), ("phi1", .num 5), ("phi2", .num 10), ("dx", .num 1)]

/-- The same from the other end. -/
noncomputable def exBendB : LCfg :=
  exSettings [("type", .str "sbend"), ("name", .str "b"), ("L", .num 2), ("phi", .num 30), ("phi1", .num 10), ("phi2", .num 5), ("dx", .num 1)]

/-- A drift, a bend and a rolled solenoid. -/
noncomputable def exThere : List LCfg :=
  [exSettings [("type", .str "drift"), ("name", .str "d"), ("L", .num 1)], exBendA,
   exSettings [("type", .str "solenoid"), ("name", .str "s"), ("L", .num 3), ("B", .num 4), ("roll", .num 1), ("K", .num 7)]]

/-- The same from the other end, with other names. -/
noncomputable def exBack : List LCfg :=
  [exSettings [("type", .str "solenoid"), ("name", .str "t"), ("L", .num 3), ("B", .num (-4)), ("roll", .num 1), ("K", .num 7)],
   exBendB, exSettings [("type", .str "drift"), ("name", .str "e"), ("L", .num 1)]]

/-- How the example reads a configuration. -/
noncomputable def exMirror : CView LCfg where
  str c k := match c k with
    | some (.str x) => .ok x
    | _ => .error .keyError
  elems c := match c "way" with
    | some (.str "there") => .ok exThere
    | _ => .ok exBack

theorem exBend_flag (env : Env) (junk : Moment.Mat) (c : LCfg) (hc : c "HdipoleFitMode" = none) :
    ∃ d, Moment.build env junk .sbend c = .ok d := by
  simp only [Moment.build, flag_none env hc 1 (by norm_num)]
  norm_num

theorem alike_of {ks : List String} {l l' : List (String × LVal)} (h : ∀ k, k ≠ "name" → k ∉ ks →
    (l'.find? (·.1 = k)).map (·.2) = (l.find? (·.1 = k)).map (·.2)) : AlikeBut ks (exSettings l) (exSettings l') := h

/-- The hypotheses of `C95_back` are met by these lattices and this beam. -/
example (env : Env) (junk : Moment.Mat) (cavity stripper : MCls) :
    (∃ m, Machine.new exMirror (Moment.registry env junk 0 cavity stripper)
      (exSettings [("sim_type", .str "MomentMatrix"), ("way", .str "there")]) = .ok m) ∧
    (∃ m', Machine.new exMirror (Moment.registry env junk 0 cavity stripper)
      (exSettings [("sim_type", .str "MomentMatrix")]) = .ok m') ∧
    (∀ (j : Nat) ec ec' ty, j < 3 → exThere[0 + j]? = some ec → exBack[0 + (3 - 1 - j)]? = some ec' → exMirror.str ec "type" = .ok ty →
      exMirror.str ec' "type" = .ok ty ∧ Reflected ec ec' ty) ∧
    Going exBeam.payload := by
  refine ⟨?_, ?_, ?_, ?_⟩
  · obtain ⟨hk, hreg⟩ := Moment.registered_shipped env junk 0 cavity stripper
    refine (Flame.Mach.C18_success_iff exMirror (Moment.registry env junk 0 cavity stripper) _).2
      ⟨"MomentMatrix", exThere, rfl, hk, rfl, ?_⟩
    simp only [exThere, List.mem_cons, List.not_mem_nil, or_false, forall_eq_or_imp, forall_eq]
    obtain ⟨d, hd⟩ := exBend_flag env junk exBendA (by simp [exBendA, exSettings])
    exact ⟨⟨"drift", _, "d", _, rfl, hreg _ _ rfl, rfl, rfl, rfl⟩, ⟨"sbend", _, "b", d, rfl, hreg _ _ rfl, rfl, rfl, hd⟩,
      ⟨"solenoid", _, "s", _, rfl, hreg _ _ rfl, rfl, rfl, rfl⟩⟩
  · obtain ⟨hk, hreg⟩ := Moment.registered_shipped env junk 0 cavity stripper
    refine (Flame.Mach.C18_success_iff exMirror (Moment.registry env junk 0 cavity stripper) _).2
      ⟨"MomentMatrix", exBack, rfl, hk, rfl, ?_⟩
    simp only [exBack, List.mem_cons, List.not_mem_nil, or_false, forall_eq_or_imp, forall_eq]
    obtain ⟨d, hd⟩ := exBend_flag env junk exBendB (by simp [exBendB, exSettings])
    exact ⟨⟨"solenoid", _, "t", _, rfl, hreg _ _ rfl, rfl, rfl, rfl⟩, ⟨"sbend", _, "b", d, rfl, hreg _ _ rfl, rfl, rfl, hd⟩,
      ⟨"drift", _, "e", _, rfl, hreg _ _ rfl, rfl, rfl, rfl⟩⟩
  · intro j ec ec' ty hj h1 h2 h3
    match j, hj, h1, h2 with
    | 0, _, h1, h2 =>
      cases h1; cases h2; cases h3
      refine ⟨rfl, .drift (alike_of ?_)⟩
      intro k h1 _
      simp [List.find?_cons, Ne.symm h1]
    | 1, _, h1, h2 =>
      cases h1; cases h2; cases h3
      refine ⟨rfl, .sbend 2 30 5 10 (alike_of ?_) ?_ rfl rfl rfl rfl rfl rfl (by norm_num) ?_ (.inl rfl)⟩
      · intro k h1 h2
        simp only [List.mem_cons, List.not_mem_nil, or_false, not_or] at h2
        simp [List.find?_cons, Ne.symm h1, Ne.symm h2.1, Ne.symm h2.2]
      · intro k hk
        simp only [List.mem_cons, List.not_mem_nil, or_false] at hk
        rcases hk with rfl | rfl <;> exact .inl rfl
      · have : Moment.Spec.numOr exBendA "K" 0 = 0 := rfl
        show 0 < Moment.Spec.numOr exBendA "K" 0 + _
        rw [this]
        have := Real.pi_pos
        positivity
    | 2, _, h1, h2 =>
      cases h1; cases h2; cases h3
      refine ⟨rfl, .solenoid 3 4 (alike_of ?_) ?_ rfl rfl rfl rfl⟩
      · intro k h1 h2
        simp only [List.mem_cons, List.not_mem_nil, or_false] at h2
        simp [List.find?_cons, Ne.symm h1, Ne.symm h2]
      · intro k hk
        simp only [List.mem_cons, List.not_mem_nil, or_false] at hk
        rcases hk with rfl | rfl <;> exact .inl rfl
  · refine ⟨⟨rfl, rfl, rfl⟩, ?_, ?_⟩
    · simp [exBeam, Moment.exParticle]
    · intro p hp
      have : p = Moment.exParticle := by simpa [exBeam] using hp
      subst this
      simp [Moment.exParticle]

/-- A quadrupole and a solenoid for the linear simulations. -/
noncomputable def exThere6 : List LCfg :=
  [exSettings [("type", .str "quadrupole"), ("name", .str "q"), ("L", .num 1), ("K", .num 2)],
   exSettings [("type", .str "solenoid"), ("name", .str "s"), ("L", .num 3), ("K", .num 4)]]

/-- The same from the other end. -/
noncomputable def exBack6 : List LCfg :=
  [exSettings [("type", .str "solenoid"), ("name", .str "s"), ("L", .num 3), ("K", .num (-4))],
   exSettings [("type", .str "quadrupole"), ("name", .str "q"), ("L", .num 1), ("K", .num 2)]]

/-- How this example reads a configuration. -/
noncomputable def exMirror6 : CView LCfg where
  str := exMirror.str
  elems c := match c "way" with
    | some (.str "there") => .ok exThere6
    | _ => .ok exBack6

/-- The hypotheses of `C95_linear` and `C95_vector` are met by these lattices. -/
example :
    (∃ m, Machine.new exMirror6 (Linear.registry Linear.vector 0 "Vector")
      (exSettings [("sim_type", .str "Vector"), ("way", .str "there")]) = .ok m) ∧
    (∃ m', Machine.new exMirror6 (Linear.registry Linear.vector 0 "Vector") (exSettings [("sim_type", .str "Vector")]) = .ok m') ∧
    (∀ (j : Nat) ec ec' ty, j < 2 → exThere6[0 + j]? = some ec → exBack6[0 + (2 - 1 - j)]? = some ec' → exMirror6.str ec "type" = .ok ty →
      exMirror6.str ec' "type" = .ok ty ∧ Reflected6 ec ec' ty) := by
  refine ⟨⟨_, rfl⟩, ⟨_, rfl⟩, ?_⟩
  intro j ec ec' ty hj h1 h2 h3
  match j, hj, h1, h2 with
  | 0, _, h1, h2 =>
    cases h1; cases h2; cases h3
    exact ⟨rfl, .quadrupole (fun k _ _ => rfl)⟩
  | 1, _, h1, h2 =>
    cases h1; cases h2; cases h3
    refine ⟨rfl, .solenoid 4 (alike_of ?_) rfl rfl⟩
    intro k h1 h2
    simp only [List.mem_cons, List.not_mem_nil, or_false] at h2
    simp [List.find?_cons, Ne.symm h2]

end Flame.Mirror
