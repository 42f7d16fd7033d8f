import Verif.Tools.Writer

/-!
# Reading matrices from an HDF5 file

Model of `H5Loader::load` (/repo/src/h5loader.cpp:96-134) on the data sets of `Verif.Tools.Writer`.  Opening the file is in
`Flame.Tools` (`H5Spec`).  The two types of data sets that FLAME writes can both be converted to `double`; the conversion is
exact in the model.
-/

namespace Flame.H5

open Flame.Arrays (Cell)
open Flame.Mach (Err)

/-- `H5Loader::matrix_t` (/repo/src/flame/h5loader.h:34-38): the sizes and the storage. -/
structure Loaded where
  rows : Nat
  cols : Nat
  storage : List ℝ

/-- `operator()` of a row major matrix of uBLAS; `none` outside the matrix. -/
def Loaded.at (M : Loaded) (i j : Nat) : Option ℝ := if i < M.rows ∧ j < M.cols then M.storage[i * M.cols + j]? else none

/-- Result of `load`: a matrix, an exception, or undefined behaviour. -/
inductive LoadRes
  | ok (M : Loaded)
  | err (e : Err)
  | ub

/-- An entry as `double`; entries that were never written have the fill value zero. -/
def number : Option Cell → ℝ
  | some (.num x) => x
  | some (.nat n) => n
  | none => 0

/-- The index of entry number `k` of a data set in the order of the file, the last index fastest. -/
def nth : List Nat → Nat → List Nat
  | [], _ => []
  | _ :: ls, k => (k / ls.prod) :: nth ls (k % ls.prod)

/-- The sizes of the matrix (/repo/src/h5loader.cpp:109-114): `getSimpleExtentDims` overwrites as many entries of `{1, 1}` as
there are dimensions; `none` is the exception for more than two. -/
def extents : List Nat → Option (Nat × Nat)
  | [] => some (1, 1)
  | [a] => some (a, 1)
  | [a, b] => some (a, b)
  | _ => none

/-- `H5Loader::load` (/repo/src/h5loader.cpp:96-134).  All of the data set is read into consecutive places of the storage.
The expression `&storage[0]` is undefined if the matrix is empty. -/
def load (group : String → Option DSet) (name : String) : LoadRes :=
  match group name with
  | none => .err .runtime
  | some ds =>
    match extents ds.dim with
    | none => .err .runtime
    | some (r, c) =>
      if r * c = 0 then .ub
      else .ok ⟨r, c, (List.range (r * c)).map (fun k => number (ds.data (nth ds.dim k)))⟩

end Flame.H5
