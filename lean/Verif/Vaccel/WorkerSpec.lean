import Verif.Vaccel.Worker

/-!
# Executions of the virtual accelerator
-/

namespace Flame.Vaccel

/-- An endless execution: at every moment one step of some thread, or nothing. -/
structure Run (S : Type) where
  st : Nat → Sys S
  ev : Nat → Option (Ev S)
  init : ∃ cfg, st 0 = Sys.start cfg
  next : ∀ n, (ev n = none ∧ st (n + 1) = st n) ∨ ∃ e, ev n = some e ∧ step (st n) e = some (st (n + 1))

/-- Client threads inside a call go on sooner or later. -/
def Run.ClientsFair {S : Type} (r : Run S) : Prop :=
  ∀ n i, (r.st n).c i ≠ .idle → (r.st n).c i ≠ .sWait → ∃ m, n ≤ m ∧ r.ev m = some (.go i)

/-- If the simulation thread can go on again and again, it does so sooner or later. -/
def Run.WorkerFair {S : Type} (r : Run S) : Prop :=
  ∀ n, (∀ m, n ≤ m → ∃ k, m ≤ k ∧ (step (r.st k) .worker).isSome) → ∃ m, n ≤ m ∧ r.ev m = some .worker

/-- The states that can be reached. -/
inductive Reach {S : Type} : Sys S → Prop
  | start (cfg : S) : Reach (Sys.start cfg)
  | step {s s' : Sys S} {e : Ev S} (h : Reach s) (hs : step s e = some s') : Reach s'

end Flame.Vaccel
