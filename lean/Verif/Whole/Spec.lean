import Verif.Glps.EvalSpec
import Verif.Glps.PrintSpec
import Verif.Linear.Model
import Verif.Machine.Model

/-! # What is written in a lattice file, as numbers: the terms of C90 -/

namespace Flame.Whole.Spec

open Flame.Glps (Name CV Cf Val File IsCfgs)
open Flame.Linear (LVal)
open Flame.Mach (Machine propagate Err)

variable {N : Type}

/-- A value of an expression as a parameter of an element; `val x` is the number that the double `x` stands for. -/
inductive Reads (val : N → ℝ) : Val N → LVal → Prop
  | num (x : N) : Reads val (.num x) (.num (val x))
  | vec (xs : List N) : Reads val (.vec xs) (.vec (xs.map val))
  | str (s : Name) : Reads val (.str s) (.str (String.ofList s))
  | conf (c : Cf N) : Reads val (.conf c) .other

/-- Nothing is written, or the value that is. -/
def ReadsOpt (val : N → ℝ) : Option (Val N) → Option LVal → Prop
  | none, none => True
  | some v, some x => Reads val v x
  | _, _ => False

/-- The parameters of the element with label `n`, type `t` and properties `qs`: its name, its type, the property that was written, and if
there is none the variable of that name.  (Nobody asks for a parameter `elements`.) -/
structure Written (val : N → ℝ) (f : File N) (n t : Name) (qs : List (Name × Val N)) (p : String → Option LVal) : Prop where
  name : p "name" = some (.str (String.ofList n))
  type : p "type" = some (.str (String.ofList t))
  property : ∀ k v, k ≠ "name" → k ≠ "type" → k ≠ "elements" → qs.lookup k.toList = some v → ∃ x, p k = some x ∧ Reads val v x
  inherited : ∀ k, k ≠ "name" → k ≠ "type" → k ≠ "elements" → qs.lookup k.toList = none → ReadsOpt val (f.vars.lookup k.toList) (p k)

/-- The length of an element in the moment simulation: markers, monitors, correctors and strippers have none, the others that which is
written. -/
inductive Long (val : N → ℝ) (f : File N) (n : Name) : ℝ → Prop
  | thin {t : Name} {qs : List (Name × Val N)} (h : (n, t, qs) ∈ f.elems)
      (ht : t = "marker".toList ∨ t = "bpm".toList ∨ t = "orbtrim".toList ∨ t = "stripper".toList) : Long val f n 0
  | property {t : Name} {qs : List (Name × Val N)} {x : N} (h : (n, t, qs) ∈ f.elems)
      (ht : t ≠ "marker".toList ∧ t ≠ "bpm".toList ∧ t ≠ "orbtrim".toList ∧ t ≠ "stripper".toList)
      (hx : qs.lookup "L".toList = some (.num x)) : Long val f n (val x)
  | inherited {t : Name} {qs : List (Name × Val N)} {x : N} (h : (n, t, qs) ∈ f.elems)
      (ht : t ≠ "marker".toList ∧ t ≠ "bpm".toList ∧ t ≠ "orbtrim".toList ∧ t ≠ "stripper".toList)
      (hq : qs.lookup "L".toList = none) (hx : f.vars.lookup "L".toList = some (.num x)) : Long val f n (val x)
  | nothing {t : Name} {qs : List (Name × Val N)} (h : (n, t, qs) ∈ f.elems)
      (ht : t ≠ "marker".toList ∧ t ≠ "bpm".toList ∧ t ≠ "orbtrim".toList ∧ t ≠ "stripper".toList)
      (hq : ∀ x, qs.lookup "L".toList ≠ some (.num x)) (hx : qs.lookup "L".toList ≠ none ∨ ∀ x, f.vars.lookup "L".toList ≠ some (.num x)) :
      Long val f n 0

/-- No value of the lattice is itself a configuration (the function `parse` was not used). -/
def Flat (c : Cf N) : Prop :=
  (∀ k v, k ≠ "elements".toList → c.look k = some v → ¬ IsCfgs v) ∧
  ∀ es e k v, c.look "elements".toList = some (.cfgs es) → e ∈ es → k ≠ "elements".toList → e.look k = some v → ¬ IsCfgs v

/-- Two machines cannot be told apart by simulations: same simulation type, same names and types of the elements, and whatever beam is sent
through whatever range in whatever direction, the same result, the same exception if there is one, and the same calls of observers. -/
structure Alike {C X S : Type} (m m' : Machine C X S) : Prop where
  simtype : m'.simtype = m.simtype
  names : m'.elems.map (·.name) = m.elems.map (·.name)
  types : m'.elems.map (·.cls.typeName) = m.elems.map (·.cls.typeName)
  results : ∀ s start max, (propagate m'.elems s start max).map (fun r => (r.st, r.err, r.trace)) =
    (propagate m.elems s start max).map (fun r => (r.st, r.err, r.trace))

end Flame.Whole.Spec
