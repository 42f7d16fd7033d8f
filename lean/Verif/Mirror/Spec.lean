import Verif.Agree.Spec
import Mathlib.LinearAlgebra.Matrix.Notation

/-! # Lattices seen from the other end: the terms of C95

Nothing here mentions functions of the model, only settings, particles and coordinates. -/

namespace Flame.Mirror.Spec

open Flame.Linear (LCfg)
open Flame.Moment (MSt Particle)

/-- What becomes of the coordinates of a particle that is turned round: it is at the same place, flies the other way, and what was
late is early. -/
def sign : Fin 7 → ℝ := ![1, -1, 1, -1, -1, 1, 1]

def turn (v : Fin 7 → ℝ) : Fin 7 → ℝ := fun i => sign i * v i

/-- The same for covariances. -/
def turnAll (M : Matrix (Fin 7) (Fin 7) ℝ) : Matrix (Fin 7) (Fin 7) ℝ := fun i j => sign i * M i j * sign j

/-- Same settings, except for the name and those in `ks`. -/
def AlikeBut (ks : List String) (c c' : LCfg) : Prop := ∀ k, k ≠ "name" → k ∉ ks → c' k = c k

/-- Shifts and rolls, but no inclinations. -/
def Level (c : LCfg) : Prop := ∀ k ∈ ["pitch", "yaw"], c k = none ∨ c k = some (.num 0)

/-- The matrix with the rows `xs'` undoes that with the rows `xs` for particles that are turned round. -/
def Undoes (xs xs' : List ℝ) : Prop :=
  xs.length = 49 ∧ xs'.length = 49 ∧ ∀ i j : Fin 7,
    ∑ k : Fin 7, xs'.getD (7 * (i : ℕ) + (k : ℕ)) 0 * (sign k * xs.getD (7 * (k : ℕ) + (j : ℕ)) 0) = if i = j then sign i else 0

/-- An element of the moment simulation with the settings `c'` is the one with the settings `c`, seen from the other end.  The edges
of a bend change their places, the field of a solenoid its direction. -/
inductive Reflected (c c' : LCfg) : String → Prop
  | drift : AlikeBut [] c c' → Reflected c c' "drift"
  | marker : AlikeBut [] c c' → Reflected c c' "marker"
  | bpm : AlikeBut [] c c' → Reflected c c' "bpm"
  | orbtrim : AlikeBut [] c c' → Level c → c "xyrotate" = none ∨ c "xyrotate" = some (.num 0) → Reflected c c' "orbtrim"
  | quadrupole (L B : ℝ) : AlikeBut [] c c' → Level c → c "L" = some (.num L) → c "B2" = some (.num B) → c "ncurve" = none →
      Reflected c c' "quadrupole"
  | equad (L V R : ℝ) : AlikeBut [] c c' → Level c → c "L" = some (.num L) → c "V" = some (.num V) →
      c "radius" = some (.num R) → c "ncurve" = none → Reflected c c' "equad"
  | solenoid (L B : ℝ) : AlikeBut ["B"] c c' → Level c → c "L" = some (.num L) → c "B" = some (.num B) →
      c' "B" = some (.num (-B)) → c "ncurve" = none → Reflected c c' "solenoid"
  | sbend (L phi a b : ℝ) : AlikeBut ["phi1", "phi2"] c c' → Level c → c "L" = some (.num L) → c "phi" = some (.num phi) →
      c "phi1" = some (.num a) → c "phi2" = some (.num b) → c' "phi1" = some (.num b) → c' "phi2" = some (.num a) →
      L ≠ 0 → 0 < Flame.Moment.Spec.numOr c "K" 0 + (phi * Real.pi / 180 / L) ^ 2 →
      (c "HdipoleFitMode" = none ∨ ∃ bg, c "bg" = some (.num bg)) → Reflected c c' "sbend"
  | edipole (ver L phi spher : ℝ) : AlikeBut [] c c' → Level c → c "ver" = some (.num ver) → c "L" = some (.num L) →
      c "phi" = some (.num phi) → c "spher" = some (.num spher) → L ≠ 0 → phi ≠ 0 → spher ≤ 1 → c "HdipoleFitMode" = none →
      (c "asym_fac" = none ∨ c "asym_fac" = some (.num 0)) → Reflected c c' "edipole"
  | tmatrix (xs xs' : List ℝ) : AlikeBut ["matrix"] c c' → c "matrix" = some (.vec xs) → c' "matrix" = some (.vec xs') →
      Undoes xs xs' → Reflected c c' "tmatrix"

/-- A charged beam that moves. -/
structure Going (S : MSt) : Prop where
  complete : Flame.Cavity.Spec.Complete S
  ref : 0 < S.ref.IonEs ∧ 0 < S.ref.IonEk ∧ S.ref.IonZ ≠ 0
  real : ∀ p ∈ S.real, 0 < p.IonEs ∧ 0 < p.IonEk ∧ p.SampleFreq ≠ 0 ∧ p.IonZ ≠ 0

/-- Particles of the same kind, weight and energy; their phases may differ. -/
def SameKind (p q : Particle) : Prop :=
  q.IonZ = p.IonZ ∧ q.IonQ = p.IonQ ∧ q.IonEs = p.IonEs ∧ q.IonEk = p.IonEk ∧ q.SampleFreq = p.SampleFreq

/-- The beam `S'` is the beam `S` turned round. -/
structure Turned (S S' : MSt) : Prop where
  ref : SameKind S.ref S'.ref
  real : List.Forall₂ SameKind S.real S'.real
  moment0 : S'.moment0 = S.moment0.map turn
  moment1 : S'.moment1 = S.moment1.map turnAll

/-- The same for the six coordinates of the linear simulations. -/
def sign6 : Fin 6 → ℝ := ![1, -1, 1, -1, -1, 1]

/-- `B` undoes `A` for particles that are turned round in between. -/
def Undoes6 (A B : Matrix (Fin 6) (Fin 6) ℝ) : Prop :=
  ∀ i j, ∑ k, B i k * (sign6 k * A k j) = if i = j then sign6 i else 0

/-- An element of a linear simulation with the settings `c'` is the one with the settings `c`, seen from the other end. -/
inductive Reflected6 (c c' : LCfg) : String → Prop
  | drift : AlikeBut [] c c' → Reflected6 c c' "drift"
  | marker : AlikeBut [] c c' → Reflected6 c c' "marker"
  | quadrupole : AlikeBut [] c c' → Reflected6 c c' "quadrupole"
  | sbend (L phi : ℝ) : AlikeBut [] c c' → c "L" = some (.num L) → L ≠ 0 → c "phi" = some (.num phi) → Reflected6 c c' "sbend"
  | solenoid (K : ℝ) : AlikeBut ["K"] c c' → c "K" = some (.num K) → c' "K" = some (.num (-K)) → Reflected6 c c' "solenoid"

end Flame.Mirror.Spec
