import Verif.Cavity.SpecAlone
import Verif.Machine.Model

/-! # Machines that are used again: the terms of C89 -/

namespace Flame.Cavity.Spec

open Flame.Linear (LCfg)
open Flame.Moment (MDat MSt)
open Flame.Mach (CView World Machine St Run propagate)

/-- The propagation passed element `j`, or tried to. -/
def Touched (R : Run LCfg MDat MSt) (j : Nat) : Prop := .visit j ∈ R.trace

/-- The propagation ended with an exception of element `j`. -/
def FailedAt (R : Run LCfg MDat MSt) (j : Nat) : Prop := R.err ≠ none ∧ R.trace.getLast? = some (.visit j)

/-- A machine with a history.  It was built from a lattice and has then been used for simulations, been reconfigured and been
observed, in any order.  `es` are the settings its elements should have by now: those of the lattice, with the entries exchanged for
which a reconfiguration was accepted.  `T` are the elements to be distrusted: those that have thrown an exception in a forward
simulation, and all that were touched by simulations that went backward or by a forward simulation that touched an element to
be distrusted; an accepted reconfiguration restores confidence. -/
inductive History (cv : CView LCfg) (w : World LCfg MDat MSt) : Machine LCfg MDat MSt → List LCfg → (Nat → Prop) → Prop
  | built {c m es} : Machine.new cv w c = .ok m → cv.elems c = .ok es → History cv w m es (fun _ => False)
  | forward {m es T R} (s : St MSt) (start : Nat) (max : Int) : History cv w m es T → 0 ≤ max → Complete s.payload →
      propagate m.elems s start max = some R → (∀ j, Touched R j → ¬ T j) →
      History cv w { m with elems := R.elems } es (fun j => T j ∨ FailedAt R j)
  | otherwise {m es T R} (s : St MSt) (start : Nat) (max : Int) : History cv w m es T → propagate m.elems s start max = some R →
      History cv w { m with elems := R.elems } es (fun j => T j ∨ Touched R j)
  | reconfigured {m es T m'} (i : Nat) (c : LCfg) : History cv w m es T → m.reconfigure cv w i c = (m', .ok ()) →
      History cv w m' (es.set i c) (fun j => T j ∧ j ≠ i)
  | refused {m es T m' o} (i : Nat) (c : LCfg) : History cv w m es T → m.reconfigure cv w i c = (m', o) → o ≠ .ok () →
      History cv w m' es T
  | observed {m es T e} (i : Nat) (o : Option Nat) : History cv w m es T → m.elems[i]? = some e →
      History cv w { m with elems := m.elems.set i { e with obs := o } } es T

end Flame.Cavity.Spec
