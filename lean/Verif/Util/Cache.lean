/-!
# The cache of numeric tables

Model of `numeric_table_cache` (/repo/src/util.cpp:112-169) used by several threads while files change.
Opening and reading a file is one step; `C` is the content of a file, `parse` turns it into a table or
fails (`numeric_table::read`).  A fetch is cut into steps at the places where other threads or programs
can act: the first time stamp, taking the lock, reading, the second time stamp.  The fields marked ghost
are not in the code.
-/

namespace Flame.Util.Cache

/-- Files: modification time and content, `none` if missing. -/
abbrev Files (P C : Type) := P → Option (Nat × C)

/-- Where a thread is inside `fetch` (/repo/src/util.cpp:131-163); `start` (ghost) is the moment of the call. -/
inductive Phase (P T : Type)
  /-- not inside -/
  | idle
  /-- first time stamp taken (line 139), waiting for the lock (line 141) -/
  | waiting (p : P) (mtime : Nat) (start : Nat)
  /-- a miss (line 144), lock held, file not yet read -/
  | reading (p : P) (start : Nat)
  /-- file read (line 151), second time stamp not yet taken -/
  | stamping (p : P) (start : Nat) (t : T)

/-- A finished call: path, moment of the call (ghost), moment of the last `clear` (ghost), and the table or
an exception. -/
structure Ret (P T : Type) where
  path : P
  start : Nat
  cleared : Nat
  res : Option T

/-- The process and the file system.  `cache` is `Pvt::cache` (/repo/src/util.cpp:121-122), `busy` the owner
of `Pvt::lock` (line 113); `hist` (ghost) lists the states of the file system so far, the last one is the
current one; `cleared` (ghost) is the moment of the last `clear`. -/
structure Sys (P C T : Type) where
  files : Files P C
  cache : P → Option (Nat × T)
  busy : Option Nat
  phase : Nat → Phase P T
  hist : List (Files P C)
  cleared : Nat
  rets : List (Ret P T)

/-- Things that happen. -/
inductive Ev (P C : Type)
  | write (p : P) (v : Option (Nat × C))
  | call (i : Nat) (p : P)
  | enter (i : Nat)
  | load (i : Nat)
  | stamp (i : Nat)
  | clear

variable {P C T : Type} [DecidableEq P]

/-- The program start. -/
def Sys.start (files : Files P C) : Sys P C T := ⟨files, fun _ => none, none, fun _ => .idle, [files], 0, []⟩

/-- The current moment. -/
def Sys.now (s : Sys P C T) : Nat := s.hist.length - 1

/-- Time passes. -/
def Sys.tick (s : Sys P C T) : Sys P C T := { s with hist := s.hist ++ [s.files] }

/-- Put thread `i` into a phase. -/
def Sys.setPhase (s : Sys P C T) (i : Nat) (ph : Phase P T) : Sys P C T :=
  { s with phase := fun j => if j = i then ph else s.phase j }

/-- A call returns. -/
def Sys.ret (s : Sys P C T) (i : Nat) (p : P) (start : Nat) (r : Option T) : Sys P C T :=
  { s.setPhase i .idle with rets := s.rets ++ [⟨p, start, s.cleared, r⟩] }

/-- One step, `none` if it cannot happen now.  `abs`: the path is absolute. -/
def step (abs : P → Bool) (parse : C → Option T) (s : Sys P C T) : Ev P C → Option (Sys P C T)
  | .write p v => some { s with files := fun q => if q = p then v else s.files q }
  -- lines 133-139
  | .call i p =>
    match s.phase i with
    | .idle =>
      if abs p then
        match s.files p with
        | none => some (s.ret i p s.now none)
        | some (m, _) => some (s.setPhase i (.waiting p m s.now))
      else some (s.ret i p s.now none)
    | _ => none
  -- lines 141-144, 159-162
  | .enter i =>
    match s.phase i, s.busy with
    | .waiting p m st, none =>
      match s.cache p with
      | some (lastmod, t) =>
        if m > lastmod then some { s.setPhase i (.reading p st) with busy := some i }
        else some (s.ret i p st (some t))
      | none => some { s.setPhase i (.reading p st) with busy := some i }
    | _, _ => none
  -- lines 147-151
  | .load i =>
    match s.phase i with
    | .reading p st =>
      match (s.files p).bind (fun f => parse f.2) with
      | none => some { s.ret i p st none with busy := none }
      | some t => some (s.setPhase i (.stamping p st t))
    | _ => none
  -- lines 153-157, 162
  | .stamp i =>
    match s.phase i with
    | .stamping p st t =>
      match s.files p with
      | none => some { s.ret i p st none with busy := none }
      | some (m, _) =>
        some { s.ret i p st (some t) with busy := none, cache := fun q => if q = p then some (m, t) else s.cache q }
    | _ => none
  -- lines 165-169
  | .clear =>
    match s.busy with
    | none => some { s with cache := fun _ => none, cleared := s.now }
    | some _ => none

/-- Everything that can happen, one step after the other, as long as the condition `ok` on the steps is
met. -/
inductive Reach (abs : P → Bool) (parse : C → Option T) (ok : Sys P C T → Ev P C → Prop) : Sys P C T → Prop
  | start (files : Files P C) : Reach abs parse ok (Sys.start files)
  | step {s s' e} (h : Reach abs parse ok s) (ho : ok s e) (hs : step abs parse s e = some s') :
      Reach abs parse ok s'.tick

end Flame.Util.Cache
