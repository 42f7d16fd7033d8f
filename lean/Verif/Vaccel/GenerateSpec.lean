import Verif.Vaccel.Generate
import Verif.Vaccel.PropsLink
import Verif.Machine.Spec

/-!
# What a user of the generated database relies on

Definitions used in the statements of C83.  They count elements of the lattice and never mention the names given out so far.
-/

namespace Flame.Vaccel

/-- How many elements of this name come before place `i`. -/
def before (els : List El) (i : Nat) (name : Text) : Nat := ((els.take i).map El.name).count name

/-- How a user writes the `k`-th element of a name in a link. -/
def numbered (name : Text) (k : Nat) : Text := name ++ writeInst (if k = 0 then none else some k)

/-- The names of the records of the `k`-th element of a name begin with this. -/
def address (name : Text) (k : Nat) : Text := "$(PREF)".toList ++ name ++ ":".toList ++ (if k = 0 then [] else decimal k)

/-- The records an element of type `ty` should have. -/
def recordsFor (ty : Text) : List RecT := recordsOf "common.template".toList ++ recordsOf (ty ++ ".template".toList)

/-- The elements of a machine as the generator sees them. -/
def asSeen {C X S : Type} (m : Flame.Mach.Machine C X S) : List El :=
  m.elems.map (fun e => ⟨e.name.toList, e.cls.typeName.toList⟩)

/-- A link of device support `d` that names the simulation, the element name and which of the elements of that name. -/
def Names (d : Dev) (link sim elem : Text) (k : Nat) : Prop :=
  match d with
  | .index => ∃ g, ElemLink link g ∧ g.sim = sim ∧ g.elem = elem ∧ instOf g.inst = some k
  | .state => ∃ g, MeasLink link g ∧ g.sim = sim ∧ g.elem = elem ∧ instOf g.inst = some k
  | .setting => ∃ g, SetLink link g ∧ g.sim = sim ∧ g.elem = elem ∧ instOf g.inst = some k
  | .constant => False

end Flame.Vaccel
