import Mathlib.Data.List.GetD
import Verif.Freq.Run
import Verif.Cavity.Response
import Verif.Agree.Props

/-! # Lattices that meet the hypotheses of C102 -/

namespace Flame.Freq

open Flame.Mach (Cls St Err CView Machine propagate)
open Flame.Linear (LVal LCfg getNumD)
open Flame.Moment Flame.Cavity
open Flame.Agree (exSettings exBeam)
open Flame.Flip.Spec (IsMoments Several text)
open Flame.Freq.Spec

/-- The numbers of a vector or a matrix in the other unit. -/
noncomputable def otherL (u : ℝ) (ty : String) (xs : List ℝ) : List ℝ :=
  if xs.length = 7 then List.ofFn (fun i : Fin 7 => unit u i * xs.getD i 0)
  else if xs.length = 49 then
    List.ofFn (fun n : Fin 49 => if ty = "tmatrix" then unit u ⟨n / 7, by omega⟩ * xs.getD n 0 / unit u ⟨n % 7, by omega⟩
      else unit u ⟨n / 7, by omega⟩ * xs.getD n 0 * unit u ⟨n % 7, by omega⟩)
  else xs

theorem otherL_ok (u : ℝ) (ty : String) (xs : List ℝ) : OtherNumbers u ty xs (otherL u ty xs) := by
  unfold otherL
  by_cases h7 : xs.length = 7
  · rw [if_pos h7]
    refine ⟨by rw [List.length_ofFn, h7], fun _ i => ?_, fun h => by omega, fun h => by omega⟩
    rw [List.getD_eq_getElem _ _ (by rw [List.length_ofFn]; exact i.2), List.getElem_ofFn]
  · rw [if_neg h7]
    by_cases h49 : xs.length = 49
    · rw [if_pos h49]
      have e1 : ∀ i j : Fin 7, (⟨(7 * (i : ℕ) + (j : ℕ)) / 7, by omega⟩ : Fin 7) = i := by intro i j; ext; dsimp only; omega
      have e2 : ∀ i j : Fin 7, (⟨(7 * (i : ℕ) + (j : ℕ)) % 7, by omega⟩ : Fin 7) = j := by intro i j; ext; dsimp only; omega
      refine ⟨by rw [List.length_ofFn, h49], fun h => by omega, fun _ ht i j => ?_, fun _ ht i j => ?_⟩
      · rw [List.getD_eq_getElem _ _ (by rw [List.length_ofFn]; omega), List.getElem_ofFn, if_pos ht]
        dsimp only
        rw [e1, e2]
      · rw [List.getD_eq_getElem _ _ (by rw [List.length_ofFn]; omega), List.getElem_ofFn, if_neg ht]
        dsimp only
        rw [e1, e2]
    · rw [if_neg h49]
      exact ⟨rfl, fun h => absurd h h7, fun h => absurd h h49, fun h => absurd h h49⟩

open Classical in
/-- The settings of an element in the other unit. -/
noncomputable def other (u : ℝ) (ty : String) (c : LCfg) : LCfg := fun k =>
  if IsMoments ty c k then (match c k with | some (.vec xs) => some (.vec (otherL u ty xs)) | v => v)
  else if ty = "source" ∧ k = "SampleFreq" then some (.num (u * frequency c)) else c k

/-- Every element can be written in the other unit: the conditions are that the centroid and the covariance of a source are not called
like the frequency, and that no growth of the emittance is asked for. -/
theorem other_ok {u : ℝ} {ty : String} {c : LCfg} (h1 : ty = "source" → ¬ IsMoments ty c "SampleFreq")
    (h2 : ty = "source" → ¬ Several c → ∃ xs, c (text c "matrix_variable" "initial") = some (.vec xs) ∧ xs.length = 49)
    (h3 : ty = "rfcavity" → c "EmitGrowth" = none ∨ c "EmitGrowth" = some (.num 0)) :
    OtherElement u ty c (other u ty c) where
  frequency ht := by
    unfold other
    rw [if_neg (h1 ht), if_pos ⟨ht, rfl⟩]
  moments k hk := by
    unfold other
    rw [if_pos hk]
    cases hc : c k with
    | none => exact .inr ⟨fun xs h => (by cases h), rfl⟩
    | some v =>
      cases v with
      | vec xs => exact .inl ⟨xs, _, rfl, rfl, otherL_ok u ty xs⟩
      | _ => exact .inr ⟨fun xs h => (by cases h), rfl⟩
  rest k _ hr hm := by
    unfold other
    rw [if_neg hm, if_neg (fun h => hr h.2)]
  given := h2
  growth := h3

/-- Texts stay as they are. -/
theorem other_text {u : ℝ} {ty : String} {c : LCfg} {k t : String} (hk : k ≠ "SampleFreq") (h : c k = some (.str t)) : other u ty c k = some (.str t) := by
  unfold other
  rw [h]
  split
  · rfl
  · rw [if_neg (fun h => hk h.2)]

/-- A source with one charge state. -/
noncomputable def exSource : LCfg :=
  exSettings [("type", .str "source"), ("name", .str "S"), ("SampleFreq", .num 1000), ("moment0", .vec [1, 2, 3, 4, 5, 6, 1]),
    ("initial", .vec ((List.range 49).map (fun n => (n : ℝ))))]

/-- A source, a shifted, tilted and rolled quadrupole, a sextupole, a cavity, a solenoid, a corrector and a stripper. -/
noncomputable def exElems : List LCfg :=
  [exSource,
   exSettings [("type", .str "quadrupole"), ("name", .str "q"), ("L", .num 1), ("B2", .num 5), ("dx", .num 1), ("dy", .num 2), ("roll", .num 1), ("yaw", .num 1)],
   exSettings [("type", .str "sextupole"), ("name", .str "x"), ("L", .num 1), ("B3", .num 5), ("step", .num 2)],
   exFull,
   exSettings [("type", .str "solenoid"), ("name", .str "s"), ("L", .num 1), ("B", .num 3), ("dx", .num 2)],
   exSettings [("type", .str "orbtrim"), ("name", .str "o"), ("theta_x", .num 3)],
   exSettings [("type", .str "stripper"), ("name", .str "f"), ("IonChargeStates", .vec [1]), ("NCharge", .vec [1])]]

/-- Their types. -/
def exTypes : List String := ["source", "quadrupole", "sextupole", "rfcavity", "solenoid", "orbtrim", "stripper"]

/-- How the example reads a configuration. -/
noncomputable def exView : CView LCfg where
  str c k := match c k with
    | some (.str x) => .ok x
    | _ => .error .keyError
  elems c := match c "way" with
    | some (.str "first") => .ok exElems
    | _ => .ok (List.zipWith (other 3) exTypes exElems)

/-- The hypotheses of `C102_unit` are met by this lattice, used forward and then backward through the quadrupole. -/
example (env : Env) (junk : Mat) :
    (∃ m, Machine.new exView (registry env junk 0 (cavityCls env exFiles junk 0) (stripperCls env junk 0))
      (exSettings [("sim_type", .str "MomentMatrix"), ("way", .str "first")]) = .ok m) ∧
    (∃ m', Machine.new exView (registry env junk 0 (cavityCls env exFiles junk 0) (stripperCls env junk 0))
      (exSettings [("sim_type", .str "MomentMatrix")]) = .ok m') ∧
    List.Forall₂ (fun e e' => ∃ ty, exView.str e "type" = .ok ty ∧ exView.str e' "type" = .ok ty ∧ OtherElement 3 ty e e')
      exElems (List.zipWith (other 3) exTypes exElems) ∧
    OtherCall 3 ⟨fun i => some i, exBeam, 0, 7⟩ ⟨fun i => some i, inUnitSt 3 exBeam, 0, 7⟩ ∧
    OtherCall 3 ⟨fun _ => none, exBeam, 1, -1⟩ ⟨fun _ => none, inUnitSt 3 exBeam, 1, -1⟩ := by
  obtain ⟨hk, hreg⟩ := registered_shipped env junk 0 (cavityCls env exFiles junk 0) (stripperCls env junk 0)
  have h3 : (0 : ℝ) < 3 := by norm_num
  have plain : ∀ {ty : String} {c : LCfg}, ty ≠ "source" → (ty = "rfcavity" → c "EmitGrowth" = none ∨ c "EmitGrowth" = some (.num 0)) →
      OtherElement 3 ty c (other 3 ty c) :=
    fun h2 h3 => other_ok (fun e => absurd e h2) (fun e => absurd e h2) h3
  have hfull : OtherElement 3 "rfcavity" exFull (other 3 "rfcavity" exFull) := plain (by decide) (fun _ => .inl rfl)
  have hsrc : OtherElement 3 "source" exSource (other 3 "source" exSource) := by
    have hS : ¬ Several exSource := by
      rintro ⟨xs, h⟩
      have : exSource "IonChargeStates" = none := rfl
      rw [this] at h
      cases h
    refine other_ok (fun _ => ?_) (fun _ _ => ⟨_, rfl, by simp⟩) (fun h => absurd h (by decide))
    rintro (⟨e, -⟩ | ⟨-, name, hn, ⟨hs, -⟩ | ⟨-, hk⟩⟩)
    · exact absurd e (by decide)
    · exact absurd hs hS
    · rcases hn with rfl | rfl
      · exact absurd (show "SampleFreq" = "moment0" from hk) (by decide)
      · exact absurd (show "SampleFreq" = "initial" from hk) (by decide)
  have new : newState junk exSource = .ok (newSingle junk exSource) := by
    have : toSize 0 = some 0 := by
      unfold toSize
      rw [if_pos (by norm_num)]
      simp
    unfold newState
    rw [show optNum exSource "cstate" = none from rfl, Option.getD_none, this]
    rfl
  obtain ⟨ds, hds⟩ : ∃ d, build env junk .source exSource = .ok d := by
    unfold build
    simp only [new]
    exact ⟨_, rfl⟩
  obtain ⟨ds', hds'⟩ : ∃ d, build env junk .source (other 3 "source" exSource) = .ok d := by
    unfold build
    simp only [newState_f h3 hsrc, new]
    exact ⟨_, rfl⟩
  obtain ⟨dc, hdc⟩ : ∃ d, buildCavity env exFiles junk exFull = .ok d := by
    unfold buildCavity
    rw [exFull_loads]
    exact ⟨_, rfl⟩
  obtain ⟨dc', hdc'⟩ : ∃ d, buildCavity env exFiles junk (other 3 "rfcavity" exFull) = .ok d := by
    unfold buildCavity
    rw [loadCavity_f hfull env exFiles, exFull_loads]
    exact ⟨_, rfl⟩
  have st : ∀ ty c k t, k ≠ "SampleFreq" → c k = some (.str t) → exView.str (other 3 ty c) k = .ok t := by
    intro ty c k t hk h
    show (match other 3 ty c k with | some (.str x) => (.ok x : Except Err String) | _ => .error .keyError) = _
    rw [other_text hk h]
  refine ⟨?_, ?_, ?_, ⟨rfl, rfl, rfl, (other_iff _ _).2 rfl⟩, ⟨rfl, rfl, rfl, (other_iff _ _).2 rfl⟩⟩
  · refine (Flame.Mach.C18_success_iff exView (registry env junk 0 (cavityCls env exFiles junk 0) (stripperCls env junk 0)) _).2
      ⟨"MomentMatrix", exElems, rfl, hk, rfl, ?_⟩
    simp only [exElems, List.mem_cons, List.not_mem_nil, or_false, forall_eq_or_imp, forall_eq]
    exact ⟨⟨"source", _, "S", ds, rfl, hreg _ _ rfl, rfl, rfl, hds⟩, ⟨"quadrupole", _, "q", _, rfl, hreg _ _ rfl, rfl, rfl, rfl⟩,
      ⟨"sextupole", _, "x", _, rfl, hreg _ _ rfl, rfl, rfl, rfl⟩, ⟨"rfcavity", _, "c", dc, rfl, hreg _ _ rfl, rfl, rfl, hdc⟩,
      ⟨"solenoid", _, "s", _, rfl, hreg _ _ rfl, rfl, rfl, rfl⟩, ⟨"orbtrim", _, "o", _, rfl, hreg _ _ rfl, rfl, rfl, rfl⟩,
      ⟨"stripper", _, "f", _, rfl, hreg _ _ rfl, rfl, rfl, rfl⟩⟩
  · refine (Flame.Mach.C18_success_iff exView (registry env junk 0 (cavityCls env exFiles junk 0) (stripperCls env junk 0)) _).2
      ⟨"MomentMatrix", List.zipWith (other 3) exTypes exElems, rfl, hk, rfl, ?_⟩
    simp only [exElems, exTypes, List.zipWith_cons_cons, List.zipWith_nil_left, List.mem_cons, List.not_mem_nil, or_false, forall_eq_or_imp, forall_eq]
    exact ⟨⟨"source", _, "S", ds', st _ _ _ _ (by decide) rfl, hreg _ _ rfl, rfl, st _ _ _ _ (by decide) rfl, hds'⟩,
      ⟨"quadrupole", _, "q", _, st _ _ _ _ (by decide) rfl, hreg _ _ rfl, rfl, st _ _ _ _ (by decide) rfl, rfl⟩,
      ⟨"sextupole", _, "x", _, st _ _ _ _ (by decide) rfl, hreg _ _ rfl, rfl, st _ _ _ _ (by decide) rfl, rfl⟩,
      ⟨"rfcavity", _, "c", dc', st _ _ _ _ (by decide) rfl, hreg _ _ rfl, rfl, st _ _ _ _ (by decide) rfl, hdc'⟩,
      ⟨"solenoid", _, "s", _, st _ _ _ _ (by decide) rfl, hreg _ _ rfl, rfl, st _ _ _ _ (by decide) rfl, rfl⟩,
      ⟨"orbtrim", _, "o", _, st _ _ _ _ (by decide) rfl, hreg _ _ rfl, rfl, st _ _ _ _ (by decide) rfl, rfl⟩,
      ⟨"stripper", _, "f", _, st _ _ _ _ (by decide) rfl, hreg _ _ rfl, rfl, st _ _ _ _ (by decide) rfl, rfl⟩⟩
  · refine .cons ⟨"source", rfl, st _ _ _ _ (by decide) rfl, hsrc⟩ ?_
    refine .cons ⟨"quadrupole", rfl, st _ _ _ _ (by decide) rfl, plain (by decide) (fun h => absurd h (by decide))⟩ ?_
    refine .cons ⟨"sextupole", rfl, st _ _ _ _ (by decide) rfl, plain (by decide) (fun h => absurd h (by decide))⟩ ?_
    refine .cons ⟨"rfcavity", rfl, st _ _ _ _ (by decide) rfl, hfull⟩ ?_
    refine .cons ⟨"solenoid", rfl, st _ _ _ _ (by decide) rfl, plain (by decide) (fun h => absurd h (by decide))⟩ ?_
    refine .cons ⟨"orbtrim", rfl, st _ _ _ _ (by decide) rfl, plain (by decide) (fun h => absurd h (by decide))⟩ ?_
    exact .cons ⟨"stripper", rfl, st _ _ _ _ (by decide) rfl, plain (by decide) (fun h => absurd h (by decide))⟩ .nil

end Flame.Freq
