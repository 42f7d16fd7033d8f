import Mathlib.Data.String.Basic

/-!
# The caches of parsed data files

Model of `ElementRFCavity::CavConfMap` (/repo/src/rf_cavity.cpp:22, 805-826) and of `CurveMap`
(/repo/src/moment_sup.cpp:18, 395-416).  Both map a text made of the path and the modification time to a parsed file and are
never emptied.  `C` is the content of a file and `parse` is `GLPSParser::parse_file`, a function of the content: other files the
text refers to are not represented.  Other programs may change files at any time, also between the moment the time stamp is
taken and the moment the file is read; opening and reading a file is one step.  One thread: neither map has a lock.
-/

namespace Flame.Util.Stamped

/-- Files: modification time in seconds and content, `none` if missing. -/
abbrev Disk (C : Type) := String → Option (Int × C)

/-- What the caller gets: the parsed file, an exception, or a null pointer that is dereferenced. -/
inductive Out (T : Type)
  | data (t : T)
  | refused
  | crash
  deriving DecidableEq

/-- `std::map<std::string, boost::shared_ptr<Config> >`; a null pointer is `none`. -/
abbrev Map (T : Type) := List (String × Option T)

/-- `find`. -/
def Map.find {T : Type} (k : String) : Map T → Option (Option T)
  | [] => none
  | (k', v) :: l => if k' = k then some v else Map.find k l

/-- The key (/repo/src/rf_cavity.cpp:808, /repo/src/moment_sup.cpp:398); `time_t` is written in decimal digits. -/
def key (p : String) (m : Int) : String := p ++ "|" ++ toString m

/-- The parsed data file of a generic cavity up to its first use (/repo/src/rf_cavity.cpp:807-829): `d1` are the files when the
time stamp is taken, `d2` when the file is read.  An exception of the parser is printed and swallowed (lines 815-821), the null
pointer is stored (line 822) and dereferenced (line 829). -/
def cavityFile {C T : Type} (parse : C → Option T) (p : String) (d1 d2 : Disk C) (m : Map T) : Map T × Out T :=
  match d1 p with
  | none => (m, .refused)
  | some (time, _) =>
    match m.find (key p time) with
    | some (some t) => (m, .data t)
    | some none => (m, .crash)
    | none =>
      match (d2 p).bind (fun f => parse f.2) with
      | some t => ((key p time, some t) :: m, .data t)
      | none => ((key p time, none) :: m, .crash)

/-- The parsed file of curves (/repo/src/moment_sup.cpp:395-416), likewise.  Here exceptions are passed on (lines 405-411). -/
def curveFile {C T : Type} (parse : C → Option T) (p : String) (d1 d2 : Disk C) (m : Map T) : Map T × Out T :=
  match d1 p with
  | none => (m, .refused)
  | some (time, _) =>
    match m.find (key p time) with
    | some (some t) => (m, .data t)
    | some none => (m, .crash)
    | none =>
      match (d2 p).bind (fun f => parse f.2) with
      | some t => ((key p time, some t) :: m, .data t)
      | none => (m, .refused)

/-- A finished call; `start` and `stop` (ghost) are the moments of the time stamp and of the end. -/
structure Ret (T : Type) where
  path : String
  start : Nat
  stop : Nat
  out : Out T

/-- The process and the files.  `past` (ghost) lists the states of the disk so far, the last one is the current one. -/
structure Sys (C T : Type) where
  disk : Disk C
  map : Map T
  past : List (Disk C)
  rets : List (Ret T)

/-- A file is written or removed. -/
structure Write (C : Type) where
  path : String
  val : Option (Int × C)

/-- Things that happen: somebody changes a file; a file is asked for, while others change files. -/
inductive Ev (C : Type)
  | write (w : Write C)
  | fetch (p : String) (during : List (Write C))

variable {C T : Type}

/-- The program start. -/
def Sys.start (d : Disk C) : Sys C T := ⟨d, [], [d], []⟩

/-- The current moment. -/
def Sys.now (s : Sys C T) : Nat := s.past.length - 1

/-- A file changes. -/
def Sys.write (s : Sys C T) (w : Write C) : Sys C T :=
  let d : Disk C := fun q => if q = w.path then w.val else s.disk q
  { s with
    disk := d
    past := s.past ++ [d] }

/-- One event; `fetch` is one of the two functions above. -/
def step (fetch : String → Disk C → Disk C → Map T → Map T × Out T) (s : Sys C T) : Ev C → Sys C T
  | .write w => s.write w
  | .fetch p during =>
    let s' := during.foldl Sys.write s
    let r := fetch p s.disk s'.disk s'.map
    { s' with
      map := r.1
      rets := s'.rets ++ [⟨p, s.now, s'.now, r.2⟩] }

/-- A history. -/
def run (fetch : String → Disk C → Disk C → Map T → Map T × Out T) (d : Disk C) (l : List (Ev C)) : Sys C T :=
  l.foldl (step fetch) (Sys.start d)

end Flame.Util.Stamped
