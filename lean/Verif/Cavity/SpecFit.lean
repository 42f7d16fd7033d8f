import Verif.Cavity.Fits
import Mathlib.Algebra.BigOperators.Group.Finset.Basic

/-!
# What the transit time factors of multipoles and gaps are factors of

Written from the files of field strengths (/repo/python/flame/test/data/Multipole41/CaviMlp_41.txt:1 names the columns) and
from the meaning of the factors; nothing here is taken from the code.
-/

namespace Flame.Cavity.SpecFit

open Flame.Cavity (Pole)

/-- A line of a file of multipole strengths: a position on the axis in mm and the strengths of the multipoles there, in the
order of the heading `%Posi EDipole EFocus1 EFocus2 EQuad Hdipole HMono HQuad`. -/
structure Row where
  z : ℝ
  eDipole : ℝ
  eFocus1 : ℝ
  eFocus2 : ℝ
  eQuad : ℝ
  hDipole : ℝ
  hMono : ℝ
  hQuad : ℝ

/-- The numbers of a line. -/
def Row.line (r : Row) : List ℝ := [r.z, r.eDipole, r.eFocus1, r.eFocus2, r.eQuad, r.hDipole, r.hMono, r.hQuad]

/-- The file as a table. -/
def table (rows : List Row) : Flame.Moment.Table := ⟨8, rows.map Row.line⟩

/-- The strength of a multipole on a line. -/
def strength : Pole → Row → ℝ
  | .EDipole => Row.eDipole
  | .EFocus1 => Row.eFocus1
  | .EFocus2 => Row.eFocus2
  | .EQuad => Row.eQuad
  | .HDipole => Row.hDipole
  | .HMono => Row.hMono
  | .HQuad => Row.hQuad

/-- The heading. -/
def heading : List (Option Pole) :=
  [none, some .EDipole, some .EFocus1, some .EFocus2, some .EQuad, some .HDipole, some .HMono, some .HQuad]

/-- The strength of a multipole on line `k`. -/
noncomputable def field (rows : List Row) (p : Pole) (k : Nat) : ℝ := (rows[k]?.map (strength p)).getD 0

/-- The lines are `h` apart. -/
def Spaced (rows : List Row) (h : ℝ) : Prop :=
  ∀ (k : Nat) (r r' : Row), rows[k]? = some r → rows[k + 1]? = some r' → r'.z = r.z + h

/-- The integral of the magnitude of the field. -/
noncomputable def amount (rows : List Row) (p : Pole) (h : ℝ) : ℝ :=
  ∑ k ∈ Finset.range (rows.length - 1), (|field rows p k| + |field rows p (k + 1)|) / 2 * h

/-- The centre of the magnitude of the field, from the first line. -/
noncomputable def centre (rows : List Row) (p : Pole) (h : ℝ) : ℝ :=
  (∑ k ∈ Finset.range (rows.length - 1), ((k + 1 / 2) * h) * ((|field rows p k| + |field rows p (k + 1)|) / 2 * h)) / amount rows p h

/-- The integral of the field times a function of the distance from the centre. -/
noncomputable def along (rows : List Row) (p : Pole) (h : ℝ) (f : ℝ → ℝ) : ℝ :=
  ∑ k ∈ Finset.range (rows.length - 1), (field rows p k + field rows p (k + 1)) / 2 * h * f ((k + 1 / 2) * h - centre rows p h)

/-- The wave numbers, per mm, for which there are fits, by cavity: quarter wave resonators 41 and 85, half wave resonators 29
and 53. -/
def waves (cavi : Nat) (K : ℝ) : Prop :=
  (cavi = 1 ∧ 0.025 ≤ K ∧ K ≤ 0.055) ∨ (cavi = 2 ∧ 0.006 ≤ K ∧ K ≤ 0.035) ∨
  (cavi = 3 ∧ 0.01687155 ≤ K ∧ K ≤ 0.0449908) ∨ (cavi = 4 ∧ 0.0112477 ≤ K ∧ K ≤ 0.0224954)

/-- The velocities for which there are fits of the gaps, by the label of the cavity. -/
def speeds (label : Nat) (beta : ℝ) : Prop :=
  (label = 41 ∧ 0.025 ≤ beta ∧ beta ≤ 0.08) ∨ (label = 85 ∧ 0.05 ≤ beta ∧ beta ≤ 0.25) ∨
  (label = 29 ∧ 0.15 ≤ beta ∧ beta ≤ 0.4) ∨ (label = 53 ∧ 0.3 ≤ beta ∧ beta ≤ 0.6)

/-- The direction of the field of a multipole in the cavities of the fits, as in the files of strengths. -/
def direction : Pole → ℝ
  | .EDipole => -1
  | .EFocus1 => -1
  | .HQuad => -1
  | _ => 1

end Flame.Cavity.SpecFit
