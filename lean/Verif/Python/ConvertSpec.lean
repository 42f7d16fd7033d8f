import Verif.Python.Convert
import Mathlib.Data.List.Forall2

/-!
# What a user expects of the conversion between Python objects and configurations
-/

namespace Flame.Python

open Flame.Glps (Name)

variable {N : Type}

/-- The item with this key and value. -/
def pair (k : Name) (v : Py N) : Py N := .tuple [.str k, v]

/-- An element: a dictionary or a list with these items. -/
def IsElem (e : Py N) (its : List (Py N)) : Prop :=
  e = .list its ∨ ∃ d, e = .dict d ∧ its = d.map (fun p => .tuple [p.1, p.2])

/-- The value `v` comes back as `v'`; `R` says the same of lists of items. -/
def SameVal (R : List (Py N) → List (Py N) → Prop) (v v' : Py N) : Prop :=
  (∃ x, v = .num x ∧ v' = .num x) ∨
  (∃ sh xs, v = .arr sh xs ∧ sh.length ≤ 2 ∧ v' = .arr [xs.length] xs) ∨
  (∃ s, v = .str s ∧ '\x00' ∉ s ∧ v' = .str s) ∨
  (∃ l l', (v = .list l ∨ v = .tuple l) ∧ v' = .list l' ∧
    List.Forall₂ (fun e e' => ∃ its its', IsElem e its ∧ e' = .list its' ∧ R its its') l l')

/-- The items come back as the second list: the same entries ordered by key, the values as in `SameVal`, in at most `n`
levels. -/
def Same : Nat → List (Py N) → List (Py N) → Prop
  | 0, _, _ => False
  | n + 1, its, out => ∃ ents ents' : List (Name × Py N),
      its = ents.map (fun p => pair p.1 p.2) ∧ out = ents'.map (fun p => pair p.1 p.2) ∧
      ents'.Pairwise (fun a b => a.1 < b.1) ∧
      ∃ mid : List (Name × Py N), ents'.Perm mid ∧ List.Forall₂ (fun a b => a.1 = b.1 ∧ SameVal (Same n) a.2 b.2) ents mid

/-- A value that can be converted. -/
def GoodVal (R : List (Py N) → Prop) (v : Py N) : Prop :=
  (∃ x, v = .num x) ∨ (∃ sh xs, v = .arr sh xs ∧ sh.length ≤ 2) ∨ (∃ s, v = .str s ∧ '\x00' ∉ s) ∨
  (∃ l, (v = .list l ∨ v = .tuple l) ∧ ∀ e ∈ l, ∃ its, IsElem e its ∧ R its)

/-- Items that can be converted: pairs with distinct keys, in at most `n` levels. -/
def Good : Nat → List (Py N) → Prop
  | 0, _ => False
  | n + 1, its => ∃ ents : List (Name × Py N), its = ents.map (fun p => pair p.1 p.2) ∧
      (ents.map (·.1)).Nodup ∧ (∀ p ∈ ents, '\x00' ∉ p.1) ∧ ∀ p ∈ ents, GoodVal (Good n) p.2

/-- There are at least `n` levels below these items. -/
def Nested : Nat → List (Py N) → Prop
  | 0, _ => True
  | n + 1, its => ∃ k l e its', (pair k (.list l) ∈ its ∨ pair k (.tuple l) ∈ its) ∧ e ∈ l ∧ IsElem e its' ∧ Nested n its'

end Flame.Python
