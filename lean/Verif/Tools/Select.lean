import Verif.Machine.Model
import Verif.Tools.Cli

/-!
# The command line tool: output format, selection of elements, simulation

Model of `main` and of the observer factories in /repo/tools/cli.cpp.
-/

namespace Flame.Tools

open Flame.Mach

variable {C X S : Type}

/-! ## output format -/

/-- A factory of observers (/repo/tools/cli.cpp:226-248, 264-298, 308-343): where text goes (`none`: the screen) and its level of
detail; the HDF5 file; the parameters to print. -/
inductive Format
  | txt (file : Option Str) (detail : Int)
  | hdf5 (file : Option Str)
  | utest (names : List Str)
  deriving DecidableEq

/-- Why a format is refused: the message at /repo/tools/cli.cpp:489-491, or `bad_lexical_cast`. -/
inductive FormatErr
  | unknown
  | badNumber
  deriving DecidableEq

/-- `cmd.substr(0, p.size())==p`, and the rest (/repo/tools/cli.cpp:276, 281, 319). -/
def stripPrefix : Str → Str → Option Str
  | [], r => some r
  | p :: ps, c :: cs => if p = c then stripPrefix ps cs else none
  | _ :: _, [] => none

/-- The options of `StreamObserver::Factory` (/repo/tools/cli.cpp:273-286).  `int` is `lexical_cast<int>`.  Options that are not
known give a warning.  Opening the file is not modelled. -/
def txtOptions (int : Str → Option Int) : List Str → Option Str → Int → Except FormatErr Format
  | [], file, detail => .ok (.txt file detail)
  | cmd :: cmds, file, detail =>
    match stripPrefix "file=".toList cmd with
    | some name => txtOptions int cmds (some name) detail
    | none =>
      if cmd = "verbose".toList then txtOptions int cmds file 1
      else
        match stripPrefix "verbose=".toList cmd with
        | some n =>
          match int n with
          | none => .error .badNumber
          | some d => txtOptions int cmds file d
        | none => txtOptions int cmds file detail

/-- The options of `H5Observer::Factory` (/repo/tools/cli.cpp:316-327). -/
def h5Options : List Str → Option Str → Format
  | [], file => .hdf5 file
  | cmd :: cmds, file =>
    match stripPrefix "file=".toList cmd with
    | some name => h5Options cmds (some name)
    | none => h5Options cmds file

/-- The options of `UnitTestObserver::Factory` (/repo/tools/cli.cpp:233-241). -/
def utestOptions (cmds : List Str) : List Str := cmds.filter (fun c => !c.contains '=')

/-- The choice of a factory (/repo/tools/cli.cpp:474-493); `h5` is `USE_HDF5`.  The list is never empty. -/
def parseFormat (h5 : Bool) (int : Str → Option Int) (s : Str) : Except FormatErr Format :=
  match tokenize s with
  | [] => .error .unknown
  | f :: cmds =>
    if f = "txt".toList then txtOptions int cmds none 1
    else if h5 = true ∧ f = "hdf5".toList then .ok (h5Options cmds none)
    else if f = "utest".toList then .ok (.utest (utestOptions cmds))
    else .error .unknown

/-! ## selection -/

/-- The options `--select-all`, `--select-type`, `--select-name`, `--select-last` (/repo/tools/cli.cpp:73-78). -/
structure Picks where
  all : Bool
  types : List String
  names : List String
  last : Bool

/-- `ObserverFactory::observe` (/repo/tools/cli.cpp:244-247, 289-292, 329-333): a new observer, the number `n`, or NULL. -/
def Format.observe (f : Format) (n : Nat) : Option Nat :=
  match f with
  | .hdf5 none => none
  | _ => some n

/-- Elements, and how many observers were asked for (/repo/tools/cli.cpp:501-552). -/
structure Sel (C X S : Type) where
  elems : List (Elem C X S)
  made : Nat

/-- `elem->set_observer(ofact->observe(sim, elem))` (/repo/tools/cli.cpp:504). -/
def Sel.give (f : Format) (q : Sel C X S) (i : Nat) : Sel C X S :=
  match q.elems[i]? with
  | none => q
  | some e => { elems := q.elems.set i { e with obs := f.observe q.made }, made := q.made + 1 }

/-- The same unless the element has an observer (/repo/tools/cli.cpp:518-521, 537-540, 548-551). -/
def Sel.offer (f : Format) (q : Sel C X S) (i : Nat) : Sel C X S :=
  match q.elems[i]? with
  | none => q
  | some e => if e.obs.isNone then q.give f i else q

/-- The selections (/repo/tools/cli.cpp:501-552).  The iterators give the elements through the maps of the machine. -/
def select (f : Format) (p : Picks) (m : Machine C X S) : Sel C X S :=
  let q : Sel C X S := ⟨m.elems, 0⟩
  let q := if p.all then (List.range m.elems.length).foldl (Sel.give f) q else q
  let q := p.types.foldl (fun q ty => (m.equalRangeType ty).foldl (Sel.offer f) q) q
  let q := p.names.foldl (fun q nm => (m.equalRange nm).foldl (Sel.offer f) q) q
  if p.last ∧ 0 < m.elems.length then q.offer f (m.elems.length - 1) else q

/-! ## simulation -/

/-- How the tool ends: what observers were shown in order, the last state and the exception, if any
(/repo/tools/cli.cpp:564-587). -/
structure Done (S : Type) where
  seen : List (Nat × Nat × St S)
  st : St S
  err : Option Err

/-- The calls of observers in a run (`view`, /repo/tools/cli.cpp:163, 257, 345). -/
def shownBy : List (Event S) → List (Nat × Nat × St S)
  | [] => []
  | .visit _ :: t => shownBy t
  | .view o i s :: t => (o, i, s) :: shownBy t

/-- The simulation (/repo/tools/cli.cpp:564-571): with `--timeit` twice.  `s` is the state from `allocState`; `max` is
`INT_MAX` unless given.  `none`: undefined behaviour. -/
def simulate (els : List (Elem C X S)) (s : St S) (max : Int) (timeit : Bool) : Option (Done S) :=
  match propagate els s 0 max with
  | none => none
  | some r =>
    match r.err with
    | some e => some ⟨shownBy r.trace, r.st, some e⟩
    | none =>
      if timeit then
        match propagate r.elems r.st 0 max with
        | none => none
        | some r' => some ⟨shownBy r.trace ++ shownBy r'.trace, r'.st, r'.err⟩
      else some ⟨shownBy r.trace, r.st, none⟩

/-- From the options to the end of the simulation, without messages (/repo/tools/cli.cpp:472-571). -/
def cliRun (f : Format) (p : Picks) (m : Machine C X S) (s : St S) (max : Int) (timeit : Bool) : Option (Done S) :=
  simulate (select f p m).elems s max timeit

end Flame.Tools
