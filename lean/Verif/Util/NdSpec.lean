import Mathlib.Data.List.Forall2

/-!
# Indices of an array
-/

namespace Flame.Util

/-- The valid indices of an array with the given dimensions. -/
def InShape (dim idx : List Nat) : Prop := List.Forall₂ (· < ·) idx dim

/-- The order of the indices in which the first one changes fastest. -/
def Before : List Nat → List Nat → Prop
  | i :: is, j :: js => Before is js ∨ (is = js ∧ i < j)
  | _, _ => False

/-- Addresses of the entries of an array: different valid indices have different addresses. -/
def Separate (dim : List Nat) (addr : List Nat → Int) : Prop :=
  ∀ i j, InShape dim i → InShape dim j → addr i = addr j → i = j

end Flame.Util
