import Verif.Model.NdArray

/-!
# Parts of datasets (`core_hdf5.hpp`, `app_serialize.hpp`)

The HDF5 library is modelled by its contract: a dataset is an extent and a value at every index, a
selection is a list of indexes in row-major order, and a transfer between memory and file pairs the
points of the two selections in that order.  A failing library call makes `detail::check`
(core_hdf5.hpp:90-104) throw `std::invalid_argument`.  Types are taken to agree (core_hdf5.hpp:757-767).
-/

namespace Verif.H5
open Verif Verif.Nd

variable {R : Nat} {α : Type}

/-- `core_hdf5.hpp:110-127` `hyperslab_t`. -/
structure Hyperslab where
  start : List Nat
  count : List Nat
  skips : List Nat
  block : List Nat

/-- The contents of a dataset of rank `R`.  The index type is larger than the extent; only the values
inside the extent are stored. -/
structure Dataset (R : Nat) (α : Type) where
  extent : Ix R
  data : Ix R → α

/-- The coordinates a hyperslab selects on one axis, increasing: `count` blocks of `block` adjacent
coordinates, `skips` apart.  The arithmetic of `hsize_t` is not reduced modulo `2^64`. -/
def axisPoints (start count skips block : Nat) : List Nat :=
  (List.range count).flatMap fun k => (List.range block).map fun b => start + k * skips + b

/-- The indexes with the given coordinates on each axis, in row-major order. -/
def product : {R : Nat} → (Fin R → List Nat) → List (Ix R)
  | 0, _ => [Fin.elim0]
  | _ + 1, l => (l 0).flatMap fun x => (product (Fin.tail l)).map fun i => Fin.cons x i

/-- All indexes of a shape, in row-major order: the selection `H5S_ALL`, and that of a new data space. -/
def allPoints (s : Ix R) : List (Ix R) := product fun a => List.range (s a)

/-- `core_hdf5.hpp:112-121, 397-406` `select` on a data space of rank `R`: the selected points.  The
library refuses a zero stride and overlapping blocks. -/
def select (R : Nat) (h : Hyperslab) : Outcome (List (Ix R)) :=
  if h.start.length ≠ R ∨ h.skips.length ≠ R ∨ h.count.length ≠ R ∨ h.block.length ≠ R then
    .throws .invalidArgument
  else if (List.range R).any fun a => decide (h.skips.getD a 0 = 0) ||
      (decide (1 < h.count.getD a 0) && decide (h.skips.getD a 0 < h.block.getD a 0)) then
    .throws .invalidArgument
  else .ok (product fun a : Fin R =>
    axisPoints (h.start.getD a 0) (h.count.getD a 0) (h.skips.getD a 0) (h.block.getD a 0))

/-- `app_serialize.hpp:171-181` `make_hdf5_hyperslab`. The shape of a region divides by its jumps. -/
def makeHyperslab (p : AccessPattern R) : Outcome Hyperslab :=
  if !p.JumpsOk then .ub
  else .ok ⟨List.ofFn p.start, List.ofFn p.shape, List.ofFn p.jumps, List.replicate R 1⟩

/-- Writing values to the points of a selection. -/
def store (data : Ix R → α) (l : List (Ix R × α)) : Ix R → α :=
  l.foldl (fun d q => Function.update d q.1 q.2) data

/-- `H5Dwrite` of a buffer to the selected points of the file: the numbers of points have to agree and
the selection has to lie within the extent. -/
def transferOut (D : Dataset R α) (buf : List α) (pts : List (Ix R)) : Outcome (Dataset R α) :=
  if buf.length ≠ pts.length then .throws .invalidArgument
  else if !(pts.all fun i => contains D.extent i) then .throws .invalidArgument
  else .ok { D with data := store D.data (pts.zip buf) }

/-- `H5Dread` of the selected points of the file into a buffer with `n` places. -/
def transferIn (D : Dataset R α) (n : Nat) (pts : List (Ix R)) : Outcome (List α) :=
  if n ≠ pts.length then .throws .invalidArgument
  else if !(pts.all fun i => contains D.extent i) then .throws .invalidArgument
  else .ok (pts.map D.data)

/-- `core_hdf5.hpp:694-703` `Dataset::write(value, fspace)` of an array held in memory
(app_serialize.hpp:194-220), whose elements lie in row-major order. -/
def writeArray {S : Nat} (D : Dataset R α) (A : Arr S α) (pts : List (Ix R)) : Outcome (Dataset R α) :=
  (readAll A (allPoints A.shape)).bind fun buf => transferOut D buf pts

/-- `core_hdf5.hpp:694-703` with 447-458: `Dataset::write(value, fspace)` of a number. -/
def writeScalar (D : Dataset R α) (v : α) (pts : List (Ix R)) : Outcome (Dataset R α) :=
  transferOut D [v] pts

/-- `core_hdf5.hpp:711-721` `Dataset::read<T>(fspace)` of an array: `prepare` (app_serialize.hpp:201,
219) makes an array of the extent of the space, whatever is selected in it. -/
def readArray (D : Dataset R α) (pts : List (Ix R)) : Outcome (Arr R α) :=
  (transferIn D (count D.extent) pts).bind fun buf => ofBuffer D.extent buf
where
  /-- `core_hdf5.hpp:354-357` `Dataspace::size`: the number of points of the extent. -/
  count (s : Ix R) : Nat := (allPoints s).length

/-- `core_hdf5.hpp:711-721` with 486-497: `Dataset::read<std::vector>(fspace)`. -/
def readVector (D : Dataset R α) (pts : List (Ix R)) : Outcome (List α) :=
  transferIn D (readArray.count D.extent) pts

/-- `core_hdf5.hpp:711-721` with 447-458: `Dataset::read<double>(fspace)`. -/
def readScalar (D : Dataset R α) (pts : List (Ix R)) : Outcome α :=
  (transferIn D 1 pts).bind fun
    | [v] => .ok v
    | _ => .ub

/-- `app_serialize.hpp:171-181` and `core_hdf5.hpp:397-406, 694-703` as in `subprog_partdom.cpp:131-135`:
writing an array to a region of a dataset.  The space is that of the dataset. -/
def writeRegion {S : Nat} (D : Dataset R α) (A : Arr S α) (p : AccessPattern R) : Outcome (Dataset R α) :=
  (makeHyperslab p).bind fun h => (select R h).bind fun pts => writeArray D A pts

/-- Reading a region of a dataset as an array. -/
def readRegion (D : Dataset R α) (p : AccessPattern R) : Outcome (Arr R α) :=
  (makeHyperslab p).bind fun h => (select R h).bind fun pts => readArray D pts

/-- Writing several arrays to several regions of a dataset, one after the other. -/
def writeRegions (D : Dataset R α) : List (Arr R α × AccessPattern R) → Outcome (Dataset R α)
  | [] => .ok D
  | (A, p) :: l => (writeRegion D A p).bind fun D' => writeRegions D' l

/-- `core_hdf5.hpp:739-753` `set_extent`: values outside the new extent are lost, new places hold the
fill value, which is zero (`H5Dset_extent`). -/
def setExtent [Zero α] (D : Dataset 1 α) (n : Nat) : Dataset 1 α :=
  ⟨fun _ => n, fun i => if i 0 < n ∧ i 0 < D.extent 0 then D.data i else 0⟩

/-- `subprog_sedov.cpp:517-530` `write_time_series` for one of the columns; `current` is the number of
times the task was performed before. -/
def appendSample [Zero α] (D : Dataset 1 α) (current : Nat) (v : α) : Outcome (Dataset 1 α) :=
  (select 1 ⟨[current], [1], [1], [1]⟩).bind fun pts => writeScalar (setExtent D (current + 1)) v pts

/-- `subprog_sedov.cpp:600-614` `prepare_filesystem`: a new column is empty. -/
def newColumn [Zero α] : Dataset 1 α := ⟨fun _ => 0, fun _ => 0⟩

/-- One column of the file of the time series after the writes of rows with the given numbers
(`subprog_sedov.cpp:517-530`); `v` is the entry of the column in a row. -/
def column {D : Type} [Zero α] (v : D → α) : List (Nat × D) → Dataset 1 α → Outcome (Dataset 1 α)
  | [], d => .ok d
  | (n, x) :: l, d => (appendSample d n (v x)).bind (column v l)

end Verif.H5
