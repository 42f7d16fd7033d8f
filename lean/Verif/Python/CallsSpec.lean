import Verif.Python.ConvertSpec

/-!
# What a user expects of the calls from Python
-/

namespace Flame.Python

open Flame.Glps (Name CV Cf)

variable {N : Type}

/-- The text up to the first NUL. -/
def UpToNul (s t : Name) : Prop := '\x00' ∉ t ∧ (s = t ∨ ∃ r, s = t ++ '\x00' :: r)

/-- A number or a text, and the value meant by it. -/
def Scalar (v : Py N) (w : CV N) : Prop :=
  (∃ x, v = .num x ∧ w = .num x) ∨ (∃ s t, v = .str s ∧ UpToNul s t ∧ w = .str t)

/-- A value without nested elements and what is meant by it: a number, a text, an array, or no elements at all. -/
def Plain (v : Py N) (w : CV N) : Prop :=
  Scalar v w ∨ (∃ sh xs, v = .arr sh xs ∧ sh.length ≤ 2 ∧ w = .vec xs) ∨ ((v = .list [] ∨ v = .tuple []) ∧ w = .cfgs [])

/-- A dictionary of plain settings. -/
def PlainDict (d : List (Py N × Py N)) : Prop := ∀ p ∈ d, ∃ k w, p.1 = .str k ∧ '\x00' ∉ k ∧ Plain p.2 w

/-- `v` is the value of the entry for `k` that counts (a dictionary has at most one). -/
def Entry (d : List (Py N × Py N)) (k : Name) (v : Py N) : Prop :=
  ∃ a b, d = a ++ (.str k, v) :: b ∧ ∀ v', (.str k, v') ∉ b

/-- The settings `look` are those of `base` with the entries of `d` put in front. -/
def Override (d : List (Py N × Py N)) (base look : Name → Option (CV N)) : Prop :=
  (∀ k v, Entry d k v → ∃ w, Plain v w ∧ look k = some w) ∧ ∀ k, (∀ v, (.str k, v) ∉ d) → look k = base k

/-- No settings. -/
def noSettings : Name → Option (CV N) := fun _ => none

end Flame.Python
