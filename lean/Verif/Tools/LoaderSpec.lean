import Verif.Tools.Writer

/-! # What a matrix read from a file is -/

namespace Flame.H5.Spec

open Flame.Arrays (Cell)

/-- `x` is what an entry of a data set says; missing entries are zero. -/
inductive Says : Option Cell → ℝ → Prop
  | num (x : ℝ) : Says (some (.num x)) x
  | nat (n : Nat) : Says (some (.nat n)) n
  | fill : Says none 0

/-- A matrix with `rows` and `cols`, entries `at`: a single number is a matrix of one entry, a list a column, a table itself. -/
def Pictures (ds : DSet) (rows cols : Nat) (entry : Nat → Nat → Option ℝ) : Prop :=
  (∀ i j, (i < rows ∧ j < cols) ∨ entry i j = none) ∧
  ((ds.dim = [] ∧ rows = 1 ∧ cols = 1 ∧ ∃ x, entry 0 0 = some x ∧ Says (ds.data []) x) ∨
   (ds.dim = [rows] ∧ cols = 1 ∧ ∀ i, i < rows → ∃ x, entry i 0 = some x ∧ Says (ds.data [i]) x) ∨
   (ds.dim = [rows, cols] ∧ ∀ i j, i < rows → j < cols → ∃ x, entry i j = some x ∧ Says (ds.data [i, j]) x))

end Flame.H5.Spec
