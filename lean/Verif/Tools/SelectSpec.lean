import Verif.Tools.Select
import Verif.Machine.Spec

/-! # What a user of the command line tool relies on -/

namespace Flame.Tools.Spec

open Flame.Mach

variable {C X S : Type}

/-- Element number `i` of a beamline is selected. -/
def Chosen (p : Picks) (els : List (Elem C X S)) (i : Nat) : Prop :=
  ∃ e, els[i]? = some e ∧
    (p.all = true ∨ e.cls.typeName ∈ p.types ∨ e.name ∈ p.names ∨ (p.last = true ∧ i + 1 = els.length))

open Classical in
/-- The states to be shown: each completed passage through a selected element, in order. -/
noncomputable def wanted (p : Picks) (els : List (Elem C X S)) (ps : List (Nat × St S)) : List (Nat × St S) :=
  ps.filter (fun q => decide (Chosen p els q.1))

end Flame.Tools.Spec
