import Verif.Vaccel.Measure
import Verif.Machine.Spec
import Verif.Util.NdSpec

/-! # What a user of measurement and orbit records relies on -/

namespace Flame.Vaccel.Spec

open Flame.Mach (St Elem Cls passages)
open Flame.Arrays (Cell)
open Flame.Util (InShape)

variable {C X S : Type}

/-- Elements of the class neither redirect the beam nor turn it around; they may throw. -/
def Steady (k : Cls C X S) : Prop :=
  ∀ x s, (k.advance x s).2.1.nextElem = s.nextElem ∧ (k.advance x s).2.1.retreat = s.retreat

/-- The parameters of a state by name, and their values by index. -/
abbrev Shown (S : Type) := S → List (String × (List Nat → Option Cell))

/-- The value of a parameter at an index. -/
def ValueOf (shown : Shown S) (s : S) (param : String) (dims : List Nat) (c : Cell) : Prop :=
  ∃ f, (param, f) ∈ shown s ∧ f dims = some c

/-- `getArray` of states follows `shown`: the name, the type and the number of dimensions of an index are the same for all
states, names differ, `good` states have all of them, and what is found in memory is the value of the parameter. -/
structure Presents (v : Params S) (good : S → Prop) (shown : Shown S) : Prop where
  same : ∀ s s' idx a a', v.get s idx = .yes a → v.get s' idx = .yes a' →
    a.name = a'.name ∧ a.type = a'.type ∧ a.arr.dim.length = a'.arr.dim.length
  once : ∀ s i j a a', v.get s i = .yes a → v.get s j = .yes a' → a.name = a'.name → i = j
  has : ∀ s s' idx a, v.get s idx = .yes a → good s' → ∃ a', v.get s' idx = .yes a'
  val : ∀ s idx a, good s → v.get s idx = .yes a → ∃ f, (a.name, f) ∈ shown s ∧
    ∀ d, (InShape a.arr.dim d → f d = some (v.mem s (a.arr.raw d))) ∧ (¬ InShape a.arr.dim d → f d = none)
  num : ∀ s idx a d, good s → v.get s idx = .yes a → a.type = .double → InShape a.arr.dim d →
    ∃ x, v.mem s (a.arr.raw d) = .num x
  names : ∀ s, ((shown s).map (·.1)).Nodup

/-- `getArray` has a first index at which it ends. -/
def Complete (v : Params S) (s : S) : Prop :=
  ∃ N < 2 ^ 32, (∀ j < N, ∃ a, v.get s j = .yes a) ∧ ∀ j, N ≤ j → v.get s j = .no

/-- States have a parameter of this name that is a number and has so many dimensions. -/
def HasParam (W : World C X S) (param : String) (ndim : Nat) : Prop :=
  ∃ s k a, W.alloc = .ok s ∧ W.v.get s k = .yes a ∧ a.name = param ∧ a.type = .double ∧ a.arr.dim.length = ndim

/-- The last simulation of a history `ops` starts after `a`, in `qa`. -/
structure LastRun (W : World C X S) (q0 : Ioc C X S) (ops a : List (Op C)) (qa : Ioc C X S) : Prop where
  split : ∃ b, ops = a ++ .simulate :: b ∧ .simulate ∉ b
  start : q0.runs W a = some qa

/-- The states behind the elements in a simulation that begins with `s`: which element, and the state. -/
def behind (q : Ioc C X S) (s : S) : List (Nat × St S) := passages (2 ^ 31 - 1) q.sim.m.elems ⟨0, false, s⟩

/-- The simulation went through the beamline from beginning to end. -/
def Through (q : Ioc C X S) (s : S) : Prop := (behind q s).map (·.1) = List.range q.sim.m.elems.length

end Flame.Vaccel.Spec
