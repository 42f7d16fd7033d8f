import Verif.Tools.H5Spec

/-!
# Storing cavity data

Model of the script `h5loadcav.py` (/repo/tools/h5loadcav.py:1-44) on a disk with HDF5 files.  Simplifications: what `numpy.loadtxt` reads is given;
objects in a file have no attributes and no links; a file that is not there can be created or not, as given by a predicate.
-/

namespace Flame.Tools

/-- `str.split('/')` of Python. -/
def splitSlash : Str → List Str
  | [] => [[]]
  | c :: s =>
    if c = '/' then [] :: splitSlash s
    else
      match splitSlash s with
      | [] => [[c]]
      | h :: t => (c :: h) :: t

/-- `'/'.join` of Python. -/
def joinSlash : List Str → Str
  | [] => []
  | [a] => a
  | a :: b :: l => a ++ '/' :: joinSlash (b :: l)

/-- File, group and data set named by the argument (/repo/tools/h5loadcav.py:23-26); `none` is the error of line 25. -/
def cavArg (s : Str) : Option (Str × Str × Str) :=
  match splitSlash s with
  | f :: x :: l => some (f, joinSlash ((x :: l).dropLast), (x :: l).getLast (List.cons_ne_nil x l))
  | _ => none

/-- What a path in an HDF5 file leads to. -/
inductive Obj (D : Type)
  | group
  | data (d : D)
  deriving DecidableEq

/-- The objects of an HDF5 file below its root group. -/
abbrev H5F (D : Type) := List Str → Option (Obj D)

/-- What the disk has under a name: nothing, an HDF5 file, or something else. -/
inductive Disk (D : Type)
  | absent
  | h5 (F : H5F D)
  | other

/-- The components of a path as HDF5 reads it: empty ones and "." are left out. -/
def comps (g : Str) : List Str := (splitSlash g).filter (fun c => c ≠ [] ∧ c ≠ ['.'])

/-- `require_group` (/repo/tools/h5loadcav.py:36): missing groups are created, `none` if a data set is in the way. -/
def requireGroup {D : Type} (F : H5F D) (p : List Str) : Option (H5F D) :=
  if p.inits.tail.any (fun q => match F q with | some (.data _) => true | _ => false) then none
  else some (fun q => if q ∈ p.inits.tail then some .group else F q)

/-- `del G[hset]` (/repo/tools/h5loadcav.py:39): the object and what is below it. -/
def delObj {D : Type} (F : H5F D) (p : List Str) : H5F D := fun q => if p <+: q then none else F q

/-- What is done in an open file (/repo/tools/h5loadcav.py:36-40), and whether it succeeds; a change before an exception stays. -/
def storeIn {D : Type} (force : Bool) (g d : Str) (x : D) (F : H5F D) : H5F D × Bool :=
  match requireGroup F (comps g) with
  | none => (F, false)
  | some F =>
    if d = [] ∨ d = ['.'] then (F, false)
    else
      let p := comps g ++ [d]
      let F := if force && (F p).isSome then delObj F p else F
      if (F p).isSome then (F, false) else (fun q => if q = p then some (.data x) else F q, true)

/-- `main` (/repo/tools/h5loadcav.py:29-40) with the arguments of lines 23-26: the disk afterwards, and whether it succeeds.  `input` is what
`loadtxt` gives, `none` for an exception; `h5py.File(hfile, 'a')` creates the file if it is not there and `can` says so. -/
def loadcav {D : Type} (can : Str → Bool) (force : Bool) (spec : Str) (input : Option D) (disk : Str → Disk D) : (Str → Disk D) × Bool :=
  match cavArg spec, input with
  | some (f, g, d), some x =>
    let put := fun F : H5F D => (fun n => if n = f then .h5 (storeIn force g d x F).1 else disk n, (storeIn force g d x F).2)
    match disk f with
    | .other => (disk, false)
    | .absent => if can f then put (fun _ => none) else (disk, false)
    | .h5 F => put F
  | _, _ => (disk, false)

end Flame.Tools
