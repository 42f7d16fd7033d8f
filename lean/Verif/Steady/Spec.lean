import Verif.Moment.Model
import Mathlib.Topology.Instances.Matrix
import Mathlib.Topology.Instances.Real.Lemmas
import Mathlib.Analysis.SpecialFunctions.Trigonometric.Basic

/-! # Small changes: the terms of C107

`X` is the space of the values given to settings and beam, for instance the real line for one setting. -/

namespace Flame.Steady.Spec

open Flame.Moment (Particle MSt Vec Mat)
open Flame.Linear (LVal LCfg)

variable {X : Type} [TopologicalSpace X]

/-- Every number of the particle changes continuously. -/
structure Particles (p : X → Particle) : Prop where
  IonZ : Continuous fun x => (p x).IonZ
  IonQ : Continuous fun x => (p x).IonQ
  IonEs : Continuous fun x => (p x).IonEs
  IonW : Continuous fun x => (p x).IonW
  gamma : Continuous fun x => (p x).gamma
  beta : Continuous fun x => (p x).beta
  bg : Continuous fun x => (p x).bg
  SampleFreq : Continuous fun x => (p x).SampleFreq
  SampleLambda : Continuous fun x => (p x).SampleLambda
  SampleIonK : Continuous fun x => (p x).SampleIonK
  phis : Continuous fun x => (p x).phis
  IonEk : Continuous fun x => (p x).IonEk

/-- A list of fixed length whose members change as `P` says. -/
def Each {α : Type} (P : (X → α) → Prop) (l : X → List α) : Prop :=
  ∃ fs : List (X → α), (∀ f ∈ fs, P f) ∧ ∀ x, l x = fs.map (fun f => f x)

/-- Everything a state reports changes continuously. -/
structure Beams (S : X → MSt) : Prop where
  pos : Continuous fun x => (S x).pos
  ref : Particles fun x => (S x).ref
  real : Each Particles fun x => (S x).real
  moment0 : Each Continuous fun x => (S x).moment0
  moment1 : Each Continuous fun x => (S x).moment1
  transmat : Each Continuous fun x => (S x).transmat
  moment0_env : Continuous fun x => (S x).moment0_env
  moment0_rms : Continuous fun x => (S x).moment0_rms
  moment1_env : Continuous fun x => (S x).moment1_env

/-- A charged particle that moves. -/
structure Moves (p : Particle) : Prop where
  mass : 0 < p.IonEs
  energy : 0 < p.IonEk
  charge : p.IonZ ≠ 0
  freq : p.SampleFreq ≠ 0

/-- A beam of moving particles that carries a charge. -/
structure Going (s : MSt) : Prop where
  ref : Moves s.ref
  real : ∀ p ∈ s.real, Moves p
  current : (s.real.map (·.IonQ)).sum ≠ 0

/-- Settings of an element: each is the same for all `x`, or a number that changes continuously.  Switches do not change. -/
def Tuned (e : X → LCfg) : Prop :=
  ∀ k, (∀ x y, e x k = e y k) ∨
    (k ≠ "ncurve" ∧ k ≠ "realpara" ∧ k ≠ "skipcache" ∧ k ≠ "type" ∧ ∃ f : X → ℝ, Continuous f ∧ ∀ x, e x k = some (.num (f x)))

/-- The kinds of elements: those without curvature and acceleration, and with a matrix that does not depend on the beam's size. -/
def Straight (ty : String) : Prop :=
  ty ∈ ["marker", "bpm", "drift", "orbtrim", "quadrupole", "solenoid", "equad", "tmatrix"]

/-- The strength of the gradient of a bend. -/
noncomputable def gradient (c : LCfg) : ℝ :=
  match c "K" with
  | some (.num K) => K
  | _ => 0

/-- A sector magnet that bends, whose faces are not parallel to the beam, and which focuses or defocuses horizontally.  If its reference
momentum is given, it is not zero. -/
structure Bent (c : LCfg) : Prop where
  shape : ∃ L phi a b : ℝ, c "L" = some (.num L) ∧ c "phi" = some (.num phi) ∧ c "phi1" = some (.num a) ∧ c "phi2" = some (.num b) ∧
    L ≠ 0 ∧ phi ≠ 0 ∧ Real.cos (a * Real.pi / 180) ≠ 0 ∧ Real.cos (b * Real.pi / 180) ≠ 0 ∧
    gradient c + (phi * Real.pi / 180 / L) ^ 2 ≠ 0
  bg : ∀ v, c "bg" = some (.num v) → v ≠ 0

/-- An electrostatic dipole that bends, with electrodes that are not curved the wrong way.  If its reference velocity is given, it is between
zero and the velocity of light. -/
structure Deflecting (c : LCfg) : Prop where
  shape : ∃ L phi spher : ℝ, c "L" = some (.num L) ∧ c "phi" = some (.num phi) ∧ c "spher" = some (.num spher) ∧ L ≠ 0 ∧ phi ≠ 0 ∧ spher ≤ 2
  beta : ∀ v, c "beta" = some (.num v) → 0 < v ∧ v < 1

/-- The elements: those of `Straight`, sector magnets, electrostatic dipoles, and sextupoles of thin lenses.  No electrostatic quadrupole
has the radius zero, and the switches of bends and sextupoles do not change. -/
structure Regular (ty : String) (e : X → LCfg) : Prop where
  kind : Straight ty ∨ ty = "sbend" ∨ ty = "edipole" ∨ ty = "sextupole"
  radius : ty = "equad" → ∀ x, e x "radius" ≠ some (.num 0)
  mode : ty = "sbend" ∨ ty = "edipole" → ∀ x y, e x "HdipoleFitMode" = e y "HdipoleFitMode"
  bent : ty = "sbend" → ∀ x, Bent (e x)
  ver : ty = "edipole" → ∀ x y, e x "ver" = e y "ver"
  deflecting : ty = "edipole" → ∀ x, Deflecting (e x)
  lens : ty = "sextupole" → (∀ x, e x "thinlens" = some (.num 1)) ∧ (∀ x y, e x "step" = e y "step") ∧ ∀ x y, e x "dstkick" = e y "dstkick"

end Flame.Steady.Spec
