import Verif.Vaccel.Setting
import Mathlib.Data.Real.Basic

/-!
# The records about the simulation itself

Model of the records `LastMsg`, `Runtime` and `Runcount` (/repo/vaccel/flamedev.cpp:45-83 and 105-151) and of the part of `Sim::run` that they look at
(/repo/vaccel/flame.cpp:47-68).  A run holds the lock from line 41 on and each of the first two readings takes it, so that runs and readings are
steps; that requests lead to runs is C46.  Times are real numbers.  Record processing is any sequence of steps: records are scanned after runs
(`io_aftersim`), but may be processed by anyone at any time.  Texts have no NUL characters.
-/

namespace Flame.Vaccel.Status

/-- What a run does: it starts and ends at some time, and fails with a message or not (/repo/vaccel/flame.cpp:49-65). -/
structure Ran where
  start : ℝ
  finish : ℝ
  failed : Option (List Char)

/-- The fields of `Sim` that describe runs (/repo/vaccel/flame.h:54, 62-64). -/
structure Sim where
  valid : Bool
  lastRun : ℝ
  lastDuration : ℝ
  lastMsg : List Char

/-- The constructor (/repo/vaccel/flame.cpp:12-28). -/
def Sim.new : Sim := ⟨false, 0, -1, []⟩

/-- One turn of the loop with `doSim` set (/repo/vaccel/flame.cpp:47-68). -/
def Sim.ran (s : Sim) (r : Ran) : Sim :=
  let s := match r.failed with
    | none => { s with valid := true }
    | some m => { s with lastMsg := m, valid := false }
  { s with lastRun := r.finish, lastDuration := r.finish - r.start }

/-- A waveform record of characters: its buffer of `nelm` characters and the number of valid ones. -/
structure Wave where
  buf : List Char
  nord : Nat

/-- What clients see of a waveform. -/
def Wave.shown (w : Wave) : List Char := w.buf.take w.nord

/-- `read_last_msg` (/repo/vaccel/flamedev.cpp:71-81).  `connected` is whether `dpvt` was set (`TRY`, /repo/vaccel/flame.h:100). -/
def readMsg (connected : Bool) (s : Sim) (w : Wave) : Wave :=
  if connected then
    let n := min w.buf.length s.lastMsg.length
    ⟨s.lastMsg.take n ++ w.buf.drop n, n⟩
  else w

/-- The fields of an `ai` record beside those of the conversion.  `devTime` is `tse == epicsTimeEventDeviceTime`. -/
structure Analog where
  conv : Rec ℝ
  devTime : Bool
  val : ℝ
  udf : Bool
  time : ℝ

/-- `read_global_runtime` (/repo/vaccel/flamedev.cpp:113-131). -/
noncomputable def readRuntime (connected : Bool) (s : Sim) (a : Analog) : Analog :=
  if connected then
    let x := s.lastDuration
    let x := if a.conv.aslo ≠ 0 then x * a.conv.aslo else x
    let x := x + a.conv.aoff
    let x := if a.conv.linr ≠ 0 ∧ a.conv.eslo ≠ 0 then x * a.conv.eslo + a.conv.eoff else x
    { a with val := x, udf := false, time := if a.devTime then s.lastRun else a.time }
  else a

/-- `read_count` (/repo/vaccel/flamedev.cpp:143-148): it does not look at `dpvt`.  `none`: overflow of the 32 bits. -/
def readCount (v : Int) : Option Int := if v + 1 < 2 ^ 31 then some (v + 1) else none

/-- `init_global` and the test of `init_global_wf` (/repo/vaccel/flamedev.cpp:45-69): connected or not. -/
def connects (sims : List String) (link : String) (charField : Bool) : Bool := charField && sims.contains link

/-- The simulation and one record of each kind. -/
structure Sys where
  sim : Sim
  msg : Wave
  time : Analog
  count : Int

/-- Steps: a run, and records that are processed. -/
inductive Op
  | run (r : Ran)
  | msg
  | time
  | count

/-- One step (see above).  `connected` is for the first two records. -/
noncomputable def Sys.step (connected : Bool) (q : Sys) : Op → Option Sys
  | .run r => some { q with sim := q.sim.ran r }
  | .msg => some { q with msg := readMsg connected q.sim q.msg }
  | .time => some { q with time := readRuntime connected q.sim q.time }
  | .count => (readCount q.count).map fun n => { q with count := n }

/-- Some steps, `none` for an overflow. -/
noncomputable def Sys.steps (connected : Bool) : Sys → List Op → Option Sys
  | q, [] => some q
  | q, o :: os => (q.step connected o).bind fun q => q.steps connected os

end Flame.Vaccel.Status
