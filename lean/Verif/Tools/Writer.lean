import Verif.Arrays.Model

/-!
# Recording states in an HDF5 file

Model of `H5StateWriter::prepare` and `H5StateWriter::append` (/repo/src/h5writer.cpp:122-234).  Of the HDF5 library a data
set is represented by its type, its dimensions and its entries.  Opening and closing the file are in `Flame.Tools`
(`H5Spec`); attributes are left out.
-/

namespace Flame.H5

open Flame.Util (Mem offset cStrides)
open Flame.Arrays (AType AInfo Got Cell)
open Flame.Mach (Err)

/-- Result of a call: normal return, exception, or undefined behaviour. -/
inductive Res
  | ok
  | err (e : Err)
  | ub
  deriving DecidableEq, Repr

/-- Whether an index lies in an array with the given dimensions. -/
def inside : List Nat → List Nat → Bool
  | [], [] => true
  | l :: ls, i :: is => decide (i < l) && inside ls is
  | _, _ => false

/-- What `H5::DataSet::extend` does: `H5Dset_extent`, which sets the dimensions (HDF5 since 1.8), or `H5Dextend`, which does
not make them smaller. -/
inductive Ext
  | set
  | grow
  deriving DecidableEq, Repr

/-- A data set: type, dimensions and entries; `none` is the fill value, zero. -/
structure DSet where
  type : AType
  dim : List Nat
  data : List Nat → Option Cell

/-- `DataSet::extend` (/repo/src/h5writer.cpp:207-215): entries outside the new dimensions are lost. -/
def DSet.extend (m : Ext) (ds : DSet) (shape : List Nat) : DSet :=
  let dim := match m with
    | .set => shape
    | .grow => List.zipWith max ds.dim shape
  { ds with
    dim := dim
    data := fun d => if inside dim d then ds.data d else none }

/-- `DataSet::write` to the hyperslab from `[row, 0...]` of the size `[1, shape]`, from a simple memory space of the same
size (/repo/src/h5writer.cpp:217-230): the entries are taken from consecutive addresses, the last index fastest. -/
def DSet.write (ds : DSet) (mem : Mem Cell) (ptr : Int) (row : Nat) (shape : List Nat) : DSet :=
  { ds with
    data := fun d =>
      match d with
      | [] => ds.data []
      | r :: d => if r = row ∧ inside shape d = true then some (mem (ptr + offset (cStrides shape) d)) else ds.data (r :: d) }

/-- `StateElement` (/repo/src/h5writer.cpp:22-28).  `dset` is the data set of this name. -/
structure Slot where
  idx : Nat
  info : AInfo
  nextrow : Nat

/-- `H5StateWriter::Pvt` (/repo/src/h5writer.cpp:31-35): the data sets of the group by name, and the elements. -/
structure Writer where
  group : String → Option DSet
  elements : List Slot

/-- `createDataSet` and `push_back` (/repo/src/h5writer.cpp:154-181).  The library refuses names that exist and chunks without
size. -/
def Writer.create (w : Writer) (idx : Nat) (a : AInfo) : Writer × Res :=
  if (w.group a.name).isSome ∨ 0 ∈ a.arr.dim then (w, .err .runtime)
  else
    ({ group := fun n => if n = a.name then some ⟨a.type, 0 :: a.arr.dim, fun _ => none⟩ else w.group n
       elements := w.elements ++ [⟨idx, a, 0⟩] }, .ok)

/-- The loop of `H5StateWriter::prepare` (/repo/src/h5writer.cpp:131-182) from index `idx` on, for at most `fuel` rounds
(`ub` if it has not ended).  All types are supported. -/
def Writer.prepareFrom (get : Nat → Got) : (fuel idx : Nat) → Writer → Writer × Res
  | 0, _, w => (w, .ub)
  | fuel + 1, idx, w =>
    match get idx with
    | .no => (w, .ok)
    | .ub => (w, .ub)
    | .yes a =>
      match w.create idx a with
      | (w, .ok) => prepareFrom get fuel (idx + 1) w
      | (w, r) => (w, r)

/-- `H5StateWriter::prepare` (/repo/src/h5writer.cpp:122-188). -/
def Writer.prepare (get : Nat → Got) (fuel : Nat) (w : Writer) : Writer × Res :=
  match w.prepareFrom get fuel 0 with
  | (w, .ok) => if w.elements.isEmpty then (w, .err .logic) else (w, .ok)
  | (w, r) => (w, r)

/-- One turn of the loop of `append` (/repo/src/h5writer.cpp:198-232) for the element number `k`.  A failing assertion is
undefined behaviour. -/
def Writer.appendOne (m : Ext) (mem : Mem Cell) (get : Nat → Got) (w : Writer) (k : Nat) : Writer × Res :=
  match w.elements[k]? with
  | none => (w, .ub)
  | some e =>
    match get e.idx with
    | .no => (w, .err .logic)
    | .ub => (w, .ub)
    | .yes a =>
      if e.info.arr.dim.length ≠ a.arr.dim.length ∨ e.info.type ≠ a.type then (w, .ub)
      else
        match w.group e.info.name with
        | none => (w, .err .runtime)
        | some ds =>
          ({ group := fun n =>
              if n = e.info.name then
                some ((ds.extend m ((e.nextrow + 1) :: a.arr.dim)).write mem a.arr.ptr e.nextrow a.arr.dim)
              else w.group n
             elements := w.elements.set k { e with nextrow := e.nextrow + 1 } }, .ok)

/-- The loop of `append` (/repo/src/h5writer.cpp:198-232) over the elements from number `k` on, of which there are `n`. -/
def Writer.appendFrom (m : Ext) (mem : Mem Cell) (get : Nat → Got) : (n k : Nat) → Writer → Writer × Res
  | 0, _, w => (w, .ok)
  | n + 1, k, w =>
    match w.appendOne m mem get k with
    | (w, .ok) => appendFrom m mem get n (k + 1) w
    | (w, r) => (w, r)

/-- `H5StateWriter::append` (/repo/src/h5writer.cpp:190-234). -/
def Writer.append (m : Ext) (fuel : Nat) (mem : Mem Cell) (get : Nat → Got) (w : Writer) : Writer × Res :=
  match (if w.elements.isEmpty then w.prepare get fuel else (w, .ok)) with
  | (w, .ok) => w.appendFrom m mem get w.elements.length 0
  | (w, r) => (w, r)

/-- Several states in turn; the first failure ends the recording. -/
def Writer.appendAll (m : Ext) (fuel : Nat) : List (Mem Cell × (Nat → Got)) → Writer → Writer × Res
  | [], w => (w, .ok)
  | s :: ss, w =>
    match w.append m fuel s.1 s.2 with
    | (w, .ok) => appendAll m fuel ss w
    | (w, r) => (w, r)

end Flame.H5
