import Verif.Python.Calls
import Verif.Linear.Model

/-!
# From the configuration of a lattice to the elements

The parser (Verif/Glps) makes a configuration with nested configurations, the machine (Verif/Machine) is generic in the type of
configurations, and the elements of the simulations (Verif/Linear, Verif/Moment, Verif/Cavity) see configurations as lookups of numbers,
vectors and strings.  Here the three are put together.
-/

namespace Flame.Whole

open Flame.Glps (Name CV Cf)
open Flame.Linear (LCfg LVal)
open Flame.Mach (CView World Machine Elem Cls St Err)

variable {N C C' X S : Type}

/-- A value as an element sees it, with the real number that a double stands for (/repo/src/flame/config.h:70-75). -/
def seen (val : N → ℝ) : CV N → LVal
  | .num x => .num (val x)
  | .vec xs => .vec (xs.map val)
  | .str s => .str (String.ofList s)
  | .cfgs _ => .other

/-- A configuration as an element sees it: `Config::tryGetAny` (/repo/src/config.cpp:57-67).  No element asks for `elements`; this
entry is hidden here. -/
def asL (val : N → ℝ) (c : Cf N) : LCfg := fun k =>
  if k = "elements" then none else (c.look k.toList).map (seen val)

/-- A class of elements whose constructor reads its configuration through `f`
(/repo/src/flame/base.h:412-413). -/
def over (f : C' → C) (k : Cls C X S) : Cls C' X S :=
  { id := k.id, typeName := k.typeName, build := fun c => k.build (f c), assign := k.assign, advance := k.advance }

/-- The registry with all classes read in this way (/repo/src/base.cpp:216-249). -/
def overWorld (f : C' → C) (w : World C X S) : World C' X S :=
  { heap := w.heap.map (Option.map (over f)), infos := w.infos }

end Flame.Whole
