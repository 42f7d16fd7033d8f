/-!
# The simulation thread of the virtual accelerator

Model of `Sim` (/repo/vaccel/flame.cpp:12-84) and of the calls that records make on it under its lock
(/repo/vaccel/flamedev.cpp:93-101, flameset.cpp:80-129, flamemeasure.cpp:112-151, flameorbit.cpp:110-190).
Any number of client threads.  Everything a thread does between two places where another thread can notice
is one step; the simulation itself and the calls on the event are steps of their own.  `epicsEvent` is a flag:
`signal` sets it, `wait` blocks until it is set and clears it.  `epicsMutex` has at most one owner.
-/

namespace Flame.Vaccel

/-- Where the simulation thread is in `Sim::run` (/repo/vaccel/flame.cpp:39-70). -/
inductive WPhase
  /-- before the guard (line 41) -/
  | start
  /-- at the test of the loop (line 42), lock held -/
  | top
  /-- in the simulation (lines 49-68), lock held -/
  | running
  /-- in `event.wait` (line 45), lock released -/
  | waiting
  /-- taking the lock back (line 44, destructor of `UnGuard`) -/
  | relock
  /-- thread ended -/
  | done
  deriving DecidableEq, Repr

/-- Where a client thread is. -/
inductive CPhase
  | idle
  /-- `write_do_sim`, lock taken (/repo/vaccel/flamedev.cpp:96) -/
  | locked
  /-- `queueSim`, `doSim` set, event not yet signalled (/repo/vaccel/flame.cpp:77) -/
  | marked
  /-- event signalled, lock still held (/repo/vaccel/flame.cpp:78) -/
  | signalled
  /-- `~Sim`, lock taken (/repo/vaccel/flame.cpp:32) -/
  | sLocked
  /-- `stop` set, lock released (/repo/vaccel/flame.cpp:34) -/
  | sSet
  /-- in `exitWait` (/repo/vaccel/flame.cpp:36) -/
  | sWait
  /-- another call holding the lock (settings, readback, measurements) -/
  | oLocked
  deriving DecidableEq, Repr

/-- Owners of the lock. -/
inductive Who
  | worker
  | client (i : Nat)
  deriving DecidableEq, Repr

/-- `Sim` (/repo/vaccel/flame.h:46-81) and its threads.  `cfg` stands for the settings of the machine.
Ghost: `req` counts the requests, `ans` is the number of requests made when the last simulation started, `sims`
counts the simulations, `simCfg` holds the settings at the start of the last simulation. -/
structure Sys (S : Type) where
  stop : Bool
  doSim : Bool
  event : Bool
  owner : Option Who
  w : WPhase
  c : Nat → CPhase
  cfg : S
  req : Nat
  ans : Nat
  sims : Nat
  simCfg : S

/-- The constructor (/repo/vaccel/flame.cpp:12-28). -/
def Sys.start {S : Type} (cfg : S) : Sys S :=
  ⟨false, false, false, none, .start, fun _ => .idle, cfg, 0, 0, 0, cfg⟩

/-- What can happen: a step of the simulation thread, a client entering one of the calls, a change of the settings
inside a call, the next step of a client inside a call. -/
inductive Ev (S : Type)
  | worker
  | request (i : Nat)
  | stopCall (i : Nat)
  | other (i : Nat)
  | change (i : Nat) (cfg : S)
  | go (i : Nat)
  deriving DecidableEq

variable {S : Type}

/-- Put client `i` into a phase. -/
def Sys.setC (s : Sys S) (i : Nat) (p : CPhase) : Sys S := { s with c := fun j => if j = i then p else s.c j }

/-- Entering a call: `Guard G(lock)`. -/
def Sys.enter (s : Sys S) (i : Nat) (p : CPhase) : Option (Sys S) :=
  match s.c i, s.owner with
  | .idle, none => some { s.setC i p with owner := some (.client i) }
  | _, _ => none

/-- A step of the simulation thread (/repo/vaccel/flame.cpp:39-70). -/
def Sys.workerStep (s : Sys S) : Option (Sys S) :=
  match s.w with
  -- lines 41, 44
  | .start | .relock =>
    match s.owner with
    | none => some { s with w := .top, owner := some .worker }
    | some _ => none
  -- lines 42-49
  | .top =>
    if s.stop then some { s with w := .done, owner := none }
    else if s.doSim then
      some { s with w := .running, doSim := false, ans := s.req, sims := s.sims + 1, simCfg := s.cfg }
    else some { s with w := .waiting, owner := none }
  -- lines 51-69
  | .running => some { s with w := .top }
  -- line 45
  | .waiting => if s.event then some { s with w := .relock, event := false } else none
  | .done => none

/-- The next step of a client. -/
def Sys.goStep (s : Sys S) (i : Nat) : Option (Sys S) :=
  match s.c i with
  | .idle => none
  -- /repo/vaccel/flame.cpp:72-84
  | .locked =>
    if s.doSim then some { s.setC i .idle with owner := none, req := s.req + 1 }
    else some { s.setC i .marked with doSim := true, req := s.req + 1 }
  | .marked => some { s.setC i .signalled with event := true }
  | .signalled => some { s.setC i .idle with owner := none }
  -- /repo/vaccel/flame.cpp:30-37
  | .sLocked => some { s.setC i .sSet with stop := true, owner := none }
  | .sSet => some { s.setC i .sWait with event := true }
  | .sWait => if s.w = .done then some (s.setC i .idle) else none
  | .oLocked => some { s.setC i .idle with owner := none }

/-- One step, `none` if it cannot happen now. -/
def step (s : Sys S) : Ev S → Option (Sys S)
  | .worker => s.workerStep
  | .request i => s.enter i .locked
  | .stopCall i => s.enter i .sLocked
  | .other i => s.enter i .oLocked
  -- /repo/vaccel/flameset.cpp:98-104
  | .change i cfg => if s.c i = .oLocked then some { s with cfg := cfg } else none
  | .go i => s.goStep i

end Flame.Vaccel
