import Mathlib.Data.List.Forall2

/-!
# Stepping through the indices of an array

Model of `ndindex_iterate` (/repo/src/flame/util.h:111-134).
-/

namespace Flame.Util

/-- `ndindex_iterate` (/repo/src/flame/util.h:113-119): only the first `ndim` entries of `index` and
`limit` are kept, so `ndim` is the length of the lists. -/
structure NdIter where
  done : Bool
  index : List Nat
  limit : List Nat
  deriving DecidableEq, Repr

/-- The constructor (/repo/src/flame/util.h:116-119). -/
def NdIter.start (lim : List Nat) : NdIter := ⟨false, lim.map (fun _ => 0), lim⟩

/-- The loop over the dimensions (/repo/src/flame/util.h:122-129): the new index, and whether the loop
ended without returning. -/
def bump : List Nat → List Nat → List Nat × Bool
  | i :: is, l :: ls => if i + 1 < l then ((i + 1) :: is, false) else (0 :: (bump is ls).1, (bump is ls).2)
  | _, _ => ([], true)

/-- `next` (/repo/src/flame/util.h:120-133). -/
def NdIter.next (s : NdIter) : NdIter :=
  if s.done then s
  else { s with index := (bump s.index s.limit).1, done := (bump s.index s.limit).2 }

/-- At most `n` rounds of the loop `for(; !it.done; it.next())` as used in
/repo/python/flame/modstate.cpp:121-129, 222-230: the indices seen by the body and the final iterator. -/
def loopN : Nat → NdIter → List (List Nat) × NdIter
  | 0, s => ([], s)
  | n + 1, s => if s.done then ([], s) else (s.index :: (loopN n s.next).1, (loopN n s.next).2)

/-- A number of rounds that suffices (`visits_done`). -/
def rounds (lim : List Nat) : Nat := (lim.map (max 1)).prod

/-- The indices seen by the loop. -/
def visits (lim : List Nat) : List (List Nat) := (loopN (rounds lim) (NdIter.start lim)).1

end Flame.Util
