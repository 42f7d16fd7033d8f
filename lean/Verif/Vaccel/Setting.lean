import Mathlib.Algebra.Field.Basic

/-!
# Setting and readback records of the virtual accelerator

Model of /repo/vaccel/flameset.cpp:13-129.  Doubles are elements of a field `K`; configurations are maps from
names to values, of which only numbers matter (`Config::get<double>` and `set<double>`, see `Verif/Config`).
-/

namespace Flame.Vaccel

variable {K : Type} [Field K] [DecidableEq K] {Name Other : Type} [DecidableEq Name]

/-- Values of a configuration: numbers and others. -/
inductive Val (K Other : Type)
  | num (x : K)
  | other (o : Other)

/-- Configuration of an element. -/
abbrev Conf (K Other Name : Type) := Name → Option (Val K Other)

/-- `get<double>` (/repo/src/flame/config.h:121-129), `none` for its exceptions. -/
def Conf.getNum (c : Conf K Other Name) (p : Name) : Option K :=
  match c p with
  | some (.num x) => some x
  | _ => none

/-- `set<double>`. -/
def Conf.setNum (c : Conf K Other Name) (p : Name) (x : K) : Conf K Other Name :=
  fun q => if q = p then some (.num x) else c q

/-- The fields of an `ao` or `ai` record that take part in the conversion. -/
structure Rec (K : Type) where
  aslo : K
  aoff : K
  eslo : K
  eoff : K
  linr : Nat

/-- From the machine to the record (/repo/vaccel/flameset.cpp:47-50 and 119-122). -/
def Rec.toVal (r : Rec K) (x : K) : K :=
  let x := if r.aslo ≠ 0 then x * r.aslo else x
  let x := x + r.aoff
  if r.linr ≠ 0 ∧ r.eslo ≠ 0 then x * r.eslo + r.eoff else x

/-- From the record to the machine (/repo/vaccel/flameset.cpp:85-90). -/
def Rec.ofVal (r : Rec K) (v : K) : K :=
  let x := if r.linr ≠ 0 then (if r.eslo ≠ 0 then (v - r.eoff) / r.eslo else v) else v
  let x := x - r.aoff
  if r.aslo ≠ 0 then x / r.aslo else x

/-- A machine: the configurations of its elements. -/
abbrev Mach (K Other Name : Type) := List (Conf K Other Name)

/-- `Machine::reconfigure` (/repo/src/base.cpp:200-214; `Verif/Machine`): `accept` tells whether the element can be built
with the new configuration, otherwise an exception leaves the machine as it is. -/
def reconfigure (accept : Nat → Conf K Other Name → Bool) (m : Mach K Other Name) (i : Nat) (c : Conf K Other Name) :
    Option (Mach K Other Name) :=
  if i < m.length ∧ accept i c then some (m.set i c) else none

/-- `setting_init_a` (/repo/vaccel/flameset.cpp:13-65) from the element index on: the initial value of the record,
`none` if it stays unconnected. -/
def settingInit (r : Rec K) (m : Mach K Other Name) (i : Nat) (p : Name) : Option K :=
  match m[i]? with
  | none => none
  | some c => (c.getNum p).map r.toVal

/-- `setting_change_ao` (/repo/vaccel/flameset.cpp:79-108): the new machine, `none` for an alarm. -/
def settingChange (accept : Nat → Conf K Other Name → Bool) (r : Rec K) (v : K) (m : Mach K Other Name) (i : Nat)
    (p : Name) : Option (Mach K Other Name) :=
  match m[i]? with
  | none => none
  | some c => reconfigure accept m i (c.setNum p (r.ofVal v))

/-- `setting_readback_ai` (/repo/vaccel/flameset.cpp:110-129): the value of the record, `none` for an alarm. -/
def settingReadback (r : Rec K) (m : Mach K Other Name) (i : Nat) (p : Name) : Option K :=
  match m[i]? with
  | none => none
  | some c =>
    match c.getNum p with
    | none => none
    | some x =>
      let x := if r.aslo ≠ 0 then x * r.aslo else x
      let x := x + r.aoff
      some (if r.linr ≠ 0 ∧ r.eslo ≠ 0 then x * r.eslo + r.eoff else x)

end Flame.Vaccel
