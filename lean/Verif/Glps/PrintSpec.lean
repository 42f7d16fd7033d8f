import Verif.Glps.Print
import Verif.Glps.LexSpec

/-!
# What a printed and reread configuration looks like
-/

namespace Flame.Glps

variable {N : Type}

/-- The text `w` of a number reads as exactly `x`, with or without a minus sign. -/
def Exact (a : Arith N) (strtod : Name → Option N) (w : Name) (x : N) : Prop :=
  (IsNum w ∧ strtod w = some x) ∨ ∃ u y, w = '-' :: u ∧ IsNum u ∧ strtod u = some y ∧ a.neg y = x

/-- A value that can be printed: numbers print exactly, strings have no quote or line break. -/
def Simple (a : Arith N) (strtod : Name → Option N) (fmt : N → Name) : CV N → Prop
  | .num x => Exact a strtod (fmt x) x
  | .vec xs => ∀ x ∈ xs, Exact a strtod (fmt x) x
  | .str s => StrOk s
  | .cfgs _ => False

/-- Nested configurations are not printed. -/
def IsCfgs : CV N → Prop
  | .cfgs _ => True
  | _ => False

instance (v : CV N) : Decidable (IsCfgs v) := by cases v <;> unfold IsCfgs <;> infer_instance

/-- The values that are not nested configurations. -/
def plainPart (m : SMap Name (CV N)) : SMap Name (CV N) := m.filter (fun p => ¬ IsCfgs p.2)

/-- Every own value of the configuration is a nested configuration or can be printed. -/
def Prints (a : Arith N) (strtod : Name → Option N) (fmt : N → Name) (m : SMap Name (CV N)) : Prop :=
  ∀ k v, m.find k = some v → IsCfgs v ∨ Simple a strtod fmt v

/-- Two lattices are the same as far as text can express: the same plain variables, including the
line name, and the same elements in the same order with the same plain properties; and the elements
answer every lookup of a name other than `elements`, of a plain value, in the same way. -/
structure SameLattice (c c' : Cf N) : Prop where
  vars : ∀ k, k ≠ "elements".toList → ∀ v, ¬ IsCfgs v → (c.look k = some v ↔ c'.look k = some v)
  elems : ∃ es es', c.look "elements".toList = some (.cfgs es) ∧ c'.look "elements".toList = some (.cfgs es') ∧
    List.Forall₂ (fun e e' => e'.own = plainPart e.own ∧
      ∀ k, k ≠ "elements".toList → ∀ v, ¬ IsCfgs v → (∀ w, e.own.find k = some w → ¬ IsCfgs w) →
        (e.look k = some v ↔ e'.look k = some v)) es es'

end Flame.Glps
