import Verif.Tools.Loadcav
import Verif.Tools.Writer

/-!
# The kind of simulation stored in a data file, and the script that plots it

Model of `H5StateWriter::setAttr` (/repo/src/h5writer.cpp:236-253) as used by the command line tool (/repo/tools/cli.cpp:334-337), of the
script `h5plotsim.py` (/repo/tools/h5plotsim.py:1-68) and of the script `tlm2h5.py` (/repo/tools/tlm2h5.py:1-43).  Of a plot only the curves
are represented, panel by panel; an exception is `none`.  Simplifications: data sets have one or two dimensions where the plot needs them to; tables
are given as `loadtxt` reads them, with at least two rows and two columns (it drops dimensions of size one, and the scripts then fail);
`tlm2h5.py` starts with a file that is not there.
-/

namespace Flame.Plot

open Flame.Tools (Str comps)
open Flame.H5 (DSet)
open Flame.Arrays (Cell)

/-- The character that ends a string in C. -/
def nul : Char := Char.ofNat 0

/-- `H5StateWriter::setAttr` (/repo/src/h5writer.cpp:245-250): the bytes stored for the text `val`, a fixed number of them, at least 16.
`junk` is what the memory behind the text and its terminator holds; reading it is undefined behaviour in C++. -/
def stored (val : Str) (junk : Nat → Char) : Str :=
  (List.range (max 16 val.length)).map (fun i => if i < val.length then val.getD i nul else if i = val.length then nul else junk i)

/-- What NumPy makes of a text of a fixed number of bytes: NUL characters at its end are left out. -/
def strip (s : Str) : Str := (s.reverse.dropWhile (· = nul)).reverse

/-- An attribute as `h5py` gives it: bytes for a text of a fixed number of bytes, or a text. -/
inductive Attr
  | bytes (s : Str)
  | text (s : Str)

/-- A group: its attribute `sim_type`, and its data sets. -/
structure Grp where
  attr : Option Attr
  sets : String → Option DSet

/-- The groups of a file by their path. -/
abbrev File := List Str → Option Grp

/-- A number read from a data set; the fill value is zero. -/
def num : Option Cell → ℝ
  | some (.num x) => x
  | some (.nat n) => n
  | none => 0

/-- A data set with one dimension (/repo/tools/h5plotsim.py:24, 43). -/
def line (ds : DSet) : Option (List ℝ) :=
  match ds.dim with
  | [n] => some ((List.range n).map (fun k => num (ds.data [k])))
  | _ => none

/-- A column of a data set with two dimensions (/repo/tools/h5plotsim.py:28-30, 36-38, 51-53). -/
def column (ds : DSet) (i : Nat) : Option (List ℝ) :=
  match ds.dim with
  | [n, c] => if i < c then some ((List.range n).map (fun k => num (ds.data [k, i]))) else none
  | _ => none

/-- One curve of `plot`: both lists must have the same length. -/
def curve (x y : List ℝ) : Option (List (ℝ × ℝ)) := if x.length = y.length then some (x.zip y) else none

/-- A panel: its curves. -/
abbrev Panel := List (List (ℝ × ℝ))

/-- `show_vector` (/repo/tools/h5plotsim.py:22-40). -/
def showVector (g : Grp) : Option (List Panel) :=
  match g.sets "pos", g.sets "state" with
  | some pos, some state =>
    match line pos with
    | none => none
    | some x =>
      let c := fun i => (column state i).bind (curve x)
      match c 0, c 2, c 4, c 1, c 3, c 5 with
      | some c0, some c2, some c4, some c1, some c3, some c5 => some [[c0, c2, c4], [c1, c3, c5]]
      | _, _, _, _, _, _ => none
  | _, _ => none

/-- The curves of coordinate `i` (/repo/tools/h5plotsim.py:47-53). -/
def band (x : List ℝ) (avg rms : DSet) (i : Nat) : Option Panel :=
  match column avg i, column rms i with
  | some a, some r =>
    match curve x (List.zipWith (· + ·) a r), curve x a, curve x (List.zipWith (· - ·) a r) with
    | some p, some m, some n => some [p, m, n]
    | _, _, _ => none
  | _, _ => none

/-- `show_moment2` (/repo/tools/h5plotsim.py:42-55).  Arrays of different size cannot be added; where NumPy would stretch one of them, the curves
or columns after that fail. -/
def showMoment (g : Grp) : Option (List Panel) :=
  match g.sets "pos", g.sets "moment0_env", g.sets "moment0_rms" with
  | some pos, some avg, some rms =>
    match line pos with
    | none => none
    | some x => if avg.dim = rms.dim then (List.range 6).mapM (band x avg rms) else none
  | _, _, _ => none

/-- `showsim.get(simtype)(grp)` (/repo/tools/h5plotsim.py:61-66).  `get` without default gives `None`, which cannot be called.  Bytes are
the same as a text in Python 2 only. -/
def showsim (py3 : Bool) (g : Grp) : Option (List Panel) :=
  match g.attr with
  | none => none
  | some a =>
    let key := match a with
      | .bytes s => if py3 then none else some s
      | .text s => some s
    if key = some "Vector".toList then showVector g
    else if key = some "MomentMatrix".toList then showMoment g
    else none

/-- `partition(':')` (/repo/tools/h5plotsim.py:13). -/
def partition : Str → Str × Str
  | [] => ([], [])
  | c :: s => if c = ':' then ([], s) else ((c :: (partition s).1), (partition s).2)

/-- `h5plotsim.py` (/repo/tools/h5plotsim.py:13-68) with its argument. -/
def plotsim (py3 : Bool) (files : Str → Option File) (arg : Str) : Option (List Panel) :=
  match files (partition arg).1 with
  | none => none
  | some F =>
    match F (comps (partition arg).2) with
    | none => none
    | some g => showsim py3 g

/-- A table: numbers of rows and columns, and entries. -/
structure Table where
  rows : Nat
  cols : Nat
  entry : Nat → Nat → ℝ

/-- `create_dataset('pos', data=V[:,j])` (/repo/tools/tlm2h5.py:26, 42-43). -/
def oneColumn (t : Table) (j : Nat) : DSet :=
  ⟨.double, [t.rows], fun d => match d with
    | [k] => if k < t.rows then some (.num (t.entry k j)) else none
    | _ => none⟩

/-- A data set of seven columns, of which the last is not set (/repo/tools/tlm2h5.py:28-29, 35-36). -/
def sixColumns (t : Table) : DSet :=
  ⟨.double, [t.rows, 7], fun d => match d with
    | [k, i] => if k < t.rows ∧ i < 6 then some (.num (t.entry k (i + 1))) else none
    | _ => none⟩

/-- `tlm2h5.py` (/repo/tools/tlm2h5.py:18-43): the file it makes of the three tables, in a group if one is given, or `none` after an
exception.  The attribute goes to the root group.  Positions that differ are only reported (lines 32-33, 39-40).  The `print` statements are
a syntax error in Python 3.  Tables with another number of columns are taken as failing; a table with two columns, whose second
`h5py` may repeat six times, is not represented. -/
def pack (py3 : Bool) (group : Option Str) (cen rms rf : Option Table) : Option File :=
  match cen, rms, rf with
  | some cen, some rms, some rf =>
    if py3 ∨ cen.cols ≠ 7 ∨ rms.cols ≠ 7 ∨ rf.cols < 3 then none
    else
      let sets : String → Option DSet := fun n =>
        if n = "pos" then some (oneColumn cen 0)
        else if n = "moment0_env" then some (sixColumns cen)
        else if n = "moment0_rms" then some (sixColumns rms)
        else if n = "IonEk_env" then some (oneColumn rf 1)
        else if n = "phis_env" then some (oneColumn rf 2)
        else none
      match group with
      | none => some (fun p => if p = [] then some ⟨some (.text "MomentMatrix".toList), sets⟩ else none)
      | some g =>
        if comps g = [] then none
        else some (fun p =>
          if p = [] then some ⟨some (.text "MomentMatrix".toList), fun _ => none⟩
          else if p = comps g then some ⟨none, sets⟩
          else if p <+: comps g then some ⟨none, fun _ => none⟩
          else none)
  | _, _, _ => none

end Flame.Plot
