import Verif.Tools.Writer
import Verif.Util.NdSpec

/-! # What a recording of states contains -/

namespace Flame.H5.Spec

open Flame.Arrays (AType Got Cell AInfo)
open Flame.Util (Mem InShape)

/-- A parameter of a state: its values by index. -/
abbrev Values := List Nat → Option Cell

/-- The data set `name` holds one row for each of the values `fs`, in this order: every entry at its own index, nothing
else, and all of it readable. -/
def Rows (group : String → Option DSet) (name : String) (fs : List Values) : Prop :=
  ∃ ds, group name = some ds ∧ ds.dim.head? = some fs.length ∧
    (∀ (k : Nat) f, fs[k]? = some f → ∀ d, ds.data (k :: d) = f d) ∧
    (∀ (k : Nat), fs.length ≤ k → ∀ d, ds.data (k :: d) = none) ∧
    (∀ d c, ds.data d = some c → InShape ds.dim d)

/-- The state `get` has the parameters `sig`: names, types and numbers of dimensions. -/
def Follows (sig : List (String × AType × Nat)) (get : Nat → Got) : Prop :=
  ∀ i, (∀ x, sig[i]? = some x → ∃ a, get i = .yes a ∧ x = (a.name, a.type, a.arr.dim.length) ∧ ∀ l ∈ a.arr.dim, 0 < l) ∧
    (sig[i]? = none → get i = .no)

end Flame.H5.Spec
