import Verif.Cavity.SpecAlone
import Verif.Moment.SpecMotion

/-! # When two lattices describe the same magnets: the terms of C93

The linear simulations give the strength of a magnet as the focusing that it has, the moment simulation as the field.
Nothing here mentions functions of the model, only settings, particles and matrices. -/

namespace Flame.Agree.Spec

open Flame.Linear (LCfg)
open Flame.Moment (MSt)

/-- No displacement and no rotation is asked for. -/
def Upright (c : LCfg) : Prop :=
  ∀ k ∈ ["dx", "dy", "pitch", "yaw", "roll"], c k = none ∨ c k = some (.num 0)

/-- An element of type `ty` with the settings `l` in a linear simulation and one of type `ty'` with the settings `m` in the moment
simulation are the same magnet for particles of magnetic rigidity `B` (T m). -/
inductive Match (B : ℝ) (l m : LCfg) : String → String → Prop
  | drift (L : ℝ) : l "L" = some (.num L) → m "L" = some (.num L) → Match B l m "drift" "drift"
  | marker : l "L" = none → Match B l m "marker" "marker"
  | bpm : l "L" = none → Match B l m "marker" "bpm"
  | quadrupole (L K : ℝ) : l "L" = some (.num L) → m "L" = some (.num L) →
      l "K" = some (.num K) → m "B2" = some (.num (K * B)) → m "ncurve" = none → Upright m →
      Match B l m "quadrupole" "quadrupole"
  | solenoid (L K : ℝ) : l "L" = some (.num L) → m "L" = some (.num L) →
      l "K" = some (.num K) → m "B" = some (.num (2 * K * B)) → m "ncurve" = none → Upright m →
      Match B l m "solenoid" "solenoid"
  | sbend (L phi K : ℝ) : L ≠ 0 → phi ≠ 0 → K + (phi / L) ^ 2 ≠ 0 → l "L" = some (.num L) → m "L" = some (.num L) →
      l "phi" = some (.num phi) → m "phi" = some (.num (phi * 180 / Real.pi)) →
      m "phi1" = some (.num 0) → m "phi2" = some (.num 0) →
      l "K" = some (.num K) → m "K" = some (.num K) → m "HdipoleFitMode" = none → Upright m →
      Match B l m "sbend" "sbend"

/-- A beam that moves. -/
structure Flying (S : MSt) : Prop where
  complete : Flame.Cavity.Spec.Complete S
  ref : 0 < S.ref.IonEs
  real : ∀ p ∈ S.real, 0 < p.IonEs ∧ 0 < p.IonEk ∧ p.SampleFreq ≠ 0

/-- The first four of seven and of six coordinates: position and angle in the two transverse planes. -/
def at7 (a : Fin 4) : Fin 7 := ⟨a, by omega⟩
def at6 (a : Fin 4) : Fin 6 := ⟨a, by omega⟩

/-- Charge state `i` has rigidity `B`, the centroid `v` and the covariance `M`; if there are `bends`, it has the charge of the
reference and the energy of the reference without spread. -/
structure Suits (B : ℝ) (bends : Prop) (S : MSt) (i : ℕ) (v : Fin 7 → ℝ) (M : Matrix (Fin 7) (Fin 7) ℝ) : Prop where
  moment0 : S.moment0[i]? = some v
  moment1 : S.moment1[i]? = some M
  rigid : ∃ p, S.real[i]? = some p ∧ p.IonZ ≠ 0 ∧ Flame.Moment.Spec.rigidity p.IonZ p.IonEs p.IonEk = B ∧
    (bends → p.IonZ = S.ref.IonZ)
  energy : bends → v 5 = 0 ∧ ∀ a, M 5 a = 0 ∧ M a 5 = 0

/-- The centroid `v'` and the covariance `M'` are those of `v` and `M` moved by the transverse part of `A`. -/
structure MovedBy (A : Matrix (Fin 6) (Fin 6) ℝ) (v v' : Fin 7 → ℝ) (M M' : Matrix (Fin 7) (Fin 7) ℝ) : Prop where
  centroid : ∀ a, v' (at7 a) = ∑ b, A (at6 a) (at6 b) * v (at7 b)
  covariance : ∀ a b, M' (at7 a) (at7 b) = ∑ c, ∑ d, A (at6 a) (at6 c) * M (at7 c) (at7 d) * A (at6 b) (at6 d)

end Flame.Agree.Spec
