import Verif.Arrays.Model

/-!
# Output of states as unit tests

Model of `UnitTestObserver` in /repo/tools/cli.cpp.
-/

namespace Flame.Tools

open Flame.Util (Mem Info)
open Flame.Arrays (AType AInfo Got Cell)

/-- The loop of `lookup` (/repo/tools/cli.cpp:134-150) from index `i` on, for at most `fuel` rounds: `none` if it has not ended or is
undefined.  A number of type `size_t` must be a scalar; nothing with more than two dimensions is taken. -/
def lookupFrom (get : Nat → Got) : (fuel : Nat) → (i : Nat) → (String → Option Nat) → Option (String → Option Nat)
  | 0, _, _ => none
  | fuel + 1, i, L =>
    match get i with
    | .no => some L
    | .ub => none
    | .yes a =>
      if (a.type = .sizet ∧ a.arr.dim.length ≠ 0) ∨ a.arr.dim.length > 2 then lookupFrom get fuel (i + 1) L
      else lookupFrom get fuel (i + 1) (fun k => if k = a.name then some i else L k)

/-- The rest of `lookup` (/repo/tools/cli.cpp:152-160): `resize` makes zeros, which stay for names not found. -/
def indices (names : List String) (L : String → Option Nat) : List Nat := names.map (fun n => (L n).getD 0)

/-- What is printed for a parameter: a number, a list, a list of rows, or `None`.  The text of numbers is not modelled
(/repo/tools/cli.cpp:184-220). -/
inductive Printed
  | number (c : Cell)
  | list (l : List Cell)
  | rows (l : List (List Cell))
  | none

/-- The value of a parameter (/repo/tools/cli.cpp:184-220). -/
def printed (mem : Mem Cell) (a : Info) : Printed :=
  match a.dim with
  | [] => .number (mem a.ptr)
  | [n] => .list ((List.range n).map (fun i => mem (a.raw [i])))
  | [n, k] => .rows ((List.range n).map (fun i => (List.range k).map (fun j => mem (a.raw [i, j]))))
  | _ => .none

/-- The loop of `view` (/repo/tools/cli.cpp:176-222): names and values.  `none`: undefined behaviour. -/
def printAll (mem : Mem Cell) (get : Nat → Got) : List Nat → Option (List (String × Printed))
  | [] => some []
  | i :: is =>
    match get i with
    | .yes a => (printAll mem get is).map (fun r => (a.name, printed mem a.arr) :: r)
    | _ => Option.none

/-- `view` (/repo/tools/cli.cpp:163-224) of an observer that has the indices `known`: the indices afterwards and what is printed. -/
def utestView (names : List String) (fuel : Nat) (mem : Mem Cell) (get : Nat → Got) (known : List Nat) :
    Option (List Nat × List (String × Printed)) :=
  if known.length ≠ names.length then
    match lookupFrom get fuel 0 (fun _ => Option.none) with
    | Option.none => Option.none
    | some L => (printAll mem get (indices names L)).map (fun r => (indices names L, r))
  else (printAll mem get known).map (fun r => (known, r))

/-- All states an observer is shown, in order (`view` at /repo/tools/cli.cpp:163-224, called by `propagate`). -/
def utestViews (names : List String) (fuel : Nat) : List Nat → List (Mem Cell × (Nat → Got)) → Option (List (List (String × Printed)))
  | _, [] => some []
  | known, s :: ss =>
    match utestView names fuel s.1 s.2 known with
    | Option.none => Option.none
    | some (known, r) => (utestViews names fuel known ss).map (fun rs => r :: rs)

end Flame.Tools
