import Verif.Cavity.Spec
import Mathlib.Algebra.Order.BigOperators.Group.Finset

/-!
# What a pass through a cavity is meant to do to the particles

Energies are in eV, lengths in mm, frequencies in Hz, phases in rad.  Nothing here refers to the model.
-/

namespace Flame.Cavity.Spec

/-- The field on the axis: `n + 1` points, `dz` apart. -/
structure FieldMap where
  E : ℕ → ℝ
  n : ℕ
  dz : ℝ

/-- A particle of charge `Z`, rest energy `Es`, kinetic energy `Ek` and phase `φ` at the frequency `f0` of the beam leaves
with `Ek'` and `φ'` a cavity with the given field map, scaled by `scl`, that oscillates with frequency `f` and has the phase
`drive` at phase 0 of the beam.  It follows the equations of motion, phases being counted at the frequency of the cavity; one
that comes to rest in the last interval has no kinetic energy. -/
def Crosses (m : FieldMap) (f scl drive f0 Z Es Ek φ Ek' φ' : ℝ) : Prop :=
  ∃ W ψ K : ℕ → ℝ, Track Z Es scl (299792458 / f * 1000) m.dz m.E m.n W ψ K ∧
    W 0 = Es + Ek ∧ ψ 0 = f / f0 * φ + drive ∧ K 0 = 2 * Real.pi / (Real.sqrt (1 - (Es / W 0) ^ 2) * (299792458 / f * 1000)) ∧
    Ek' = max 0 (W m.n - Es) ∧ φ' = φ + (ψ m.n - ψ 0) / (f / f0)

/-- A field map as a table with one row for each point, whose first two columns are position and field. -/
noncomputable def ofRows (rows : List (List ℝ)) : FieldMap where
  E := fun i => (rows.getD i []).getD 1 0
  n := rows.length - 1
  dz := ((rows.getD (rows.length - 1) []).getD 0 0 - (rows.getD 0 []).getD 0 0) / (rows.length - 1)

/-- A field map as a list in which positions and fields take turns. -/
noncomputable def ofPairs (l : List ℝ) : FieldMap where
  E := fun i => l.getD (2 * i + 1) 0
  n := l.length / 2 - 1
  dz := (l.getD (l.length - 2) 0 - l.getD 0 0) / (l.length / 2 - 1)

/-- The file with the field map of the types of cavities that have one. -/
def axisFile (ty : String) : Option String :=
  if ty = "0.041QWR" then some "axisData_41.txt"
  else if ty = "0.085QWR" then some "axisData_85.txt"
  else if ty = "0.29HWR" then some "axisData_29.txt"
  else if ty = "0.53HWR" then some "axisData_53.txt"
  else none

/-- The voltage of a field map: no particle of charge 1 can gain or lose more. -/
noncomputable def FieldMap.voltage (m : FieldMap) (scl : ℝ) : ℝ :=
  ∑ i ∈ Finset.range m.n, |scl * ((m.E i + m.E (i + 1)) / 2) * (m.dz / 1000)|

end Flame.Cavity.Spec
