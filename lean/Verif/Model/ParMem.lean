import Verif.Model.Raster
/-!
# The OpenMP loops at the level of single memory accesses

Every `#pragma omp parallel for` of the code (21 loops). A thread is a program of reads and writes of array elements; the threads of a
region run in any interleaving of these accesses (sequential consistency: programs without data races cannot tell the difference, and
the theorems show that there are none). Which thread runs which iterations, and in which order, is arbitrary.

Simplifications: variables that no iteration writes (sizes, NoData values, row pointers, headers) are parameters; array elements are
numbers; a conversion to the element type is a function `cast`. Two arrays that are separate allocations in the code (C41) are separate
objects here.
-/
namespace CCGL.Par

/-- The arrays that occur in the loops. `priv` are the private copies of a reduction variable, one for each thread. -/
inductive Obj
  | data | src | idx | stats | conv | raster | raster2 | posIdx | posRow | posCol | layer | values | values2 | rows | cols | priv
deriving DecidableEq, Repr

/-- An element of an array; `col` is 0 for one-dimensional arrays. -/
structure Addr where
  obj : Obj
  row : Int
  col : Int
deriving DecidableEq, Repr

abbrev Mem := Addr → ℚ

/-- What a thread still has to do. -/
inductive Prog
  | done
  | read (a : Addr) (k : ℚ → Prog)
  | write (a : Addr) (v : ℚ) (k : Prog)

/-- One program after the other. -/
def Prog.seq : Prog → Prog → Prog
  | .done, q => q
  | .read a k, q => .read a (fun v => (k v).seq q)
  | .write a v k, q => .write a v (k.seq q)

/-- A loop over a list of indices. -/
def forEach (l : List Nat) (body : Nat → Prog) : Prog := l.foldr (fun i p => (body i).seq p) .done

/-- The memory with one element changed. -/
def Mem.set (m : Mem) (a : Addr) (v : ℚ) : Mem := fun b => if b = a then v else m b

/-- A program running alone. -/
def Prog.run : Prog → Mem → Mem
  | .done, m => m
  | .read a k, m => (k (m a)).run m
  | .write a v k, m => k.run (m.set a v)

/-- An access: by whom, of what kind, where. -/
structure Event where
  thread : Nat
  isWrite : Bool
  addr : Addr

/-- The threads and the memory during a parallel region. -/
structure Conf where
  prog : Nat → Prog
  mem : Mem

/-- One access by one thread. -/
inductive Step : Conf → Event → Conf → Prop
  | read (c : Conf) (t : Nat) (a : Addr) (k : ℚ → Prog) (h : c.prog t = .read a k) :
      Step c ⟨t, false, a⟩ ⟨Function.update c.prog t (k (c.mem a)), c.mem⟩
  | write (c : Conf) (t : Nat) (a : Addr) (v : ℚ) (k : Prog) (h : c.prog t = .write a v k) :
      Step c ⟨t, true, a⟩ ⟨Function.update c.prog t k, c.mem.set a v⟩

/-- An execution, finished or not. -/
inductive Steps : Conf → List Event → Conf → Prop
  | nil (c : Conf) : Steps c [] c
  | cons {c c1 c2 : Conf} {e : Event} {tr : List Event} : Step c e c1 → Steps c1 tr c2 → Steps c (e :: tr) c2

/-- How the iterations `0 … n-1` of a loop are given to the threads. -/
structure Sched (n : Nat) where
  threads : Nat
  order : Nat → List Nat
  idle : ∀ t, threads ≤ t → order t = []
  nodup : ∀ t, (order t).Nodup
  lt : ∀ t i, i ∈ order t → i < n
  cover : ∀ i, i < n → ∃ t, i ∈ order t
  uniq : ∀ i t t', i ∈ order t → i ∈ order t' → t = t'

/-- `#pragma omp parallel for`: each thread runs its iterations one after the other. -/
def parFor {n : Nat} (s : Sched n) (body : Nat → Prog) : Nat → Prog := fun t => forEach (s.order t) body

/-- The private copy of the reduction variable. -/
def privAt (t : Nat) : Addr := ⟨.priv, t, 0⟩

/-- `#pragma omp parallel for reduction(+:v)`: the private copy starts with 0. -/
def parReduce {n : Nat} (s : Sched n) (body : Nat → Nat → Prog) : Nat → Prog := fun t =>
  if t < s.threads then .write (privAt t) 0 (forEach (s.order t) (body t)) else .done

/-! ## The loops -/

/-- utils_array.h:350-353 and 402-405: `data[i] = init`. -/
def fillBody (init : ℚ) (i : Nat) : Prog := .write ⟨.data, i, 0⟩ init .done

/-- utils_array.h:373-376: `data[i] = static_cast<T>(init_data[i])`. -/
def copyBody (cast : ℚ → ℚ) (i : Nat) : Prog := .read ⟨.src, i, 0⟩ fun v => .write ⟨.data, i, 0⟩ (cast v) .done

/-- utils_array.h:418-423: the rows of a two-dimensional copy. -/
def copy2Body (cast : ℚ → ℚ) (cols : Nat) (i : Nat) : Prog :=
  forEach (List.range cols) fun j => .read ⟨.src, i, j⟩ fun v => .write ⟨.data, i, j⟩ (cast v) .done

/-- data_raster.hpp:614-622 (and 637, 656, 675, 694, 713, 733, 752): cells for an integer GeoTIFF; `lo`, `hi` the range of the type,
`sent` the sentinel, `chg` whether NoData changes, thread `t`. -/
def convBody (lo hi sent nd : ℚ) (chg : Bool) (cast : ℚ → ℚ) (t i : Nat) : Prog :=
  .read ⟨.src, i, 0⟩ fun v =>
    if floatEqual v nd && chg then .write ⟨.conv, i, 0⟩ sent .done
    else .read ⟨.src, i, 0⟩ fun v1 =>
      if v1 < lo ∨ v1 > hi then
        .read (privAt t) fun c => .write (privAt t) (c + 1) <| .read ⟨.src, i, 0⟩ fun v2 => .write ⟨.conv, i, 0⟩ (cast v2) .done
      else .read ⟨.src, i, 0⟩ fun v2 => .write ⟨.conv, i, 0⟩ (cast v2) .done

/-- data_raster.hpp:767-768 and 773-774: cells for a floating-point GeoTIFF. -/
def convFloatBody (cast : ℚ → ℚ) (i : Nat) : Prog := .read ⟨.src, i, 0⟩ fun v => .write ⟨.conv, i, 0⟩ (cast v) .done

/-- data_raster.hpp:3456-3459: the first layer of a multi-layer raster. -/
def firstLayerBody (i : Nat) : Prog := .read ⟨.raster, i, 0⟩ fun v => .write ⟨.raster2, i, 0⟩ v .done

/-- data_raster.hpp:3624-3641 `AddOtherLayerRasterData`; `look` is the index of a cell in the other layer's array, which depends on the
two headers only (`Model/Coord.lean`). -/
def addOther (look : Int → Int → Option Int) (nd lnd : ℚ) (lyr : Nat) (row col cell : Int) : Prog :=
  match look row col with
  | none => .write ⟨.raster2, cell, lyr⟩ nd .done
  | some k => .read ⟨.layer, k, 0⟩ fun v => .write ⟨.raster2, cell, lyr⟩ (if floatEqual v lnd then nd else v) .done

/-- data_raster.hpp:3482-3489: a further layer, by stored positions. -/
def otherPosBody (look : Int → Int → Option Int) (nd lnd : ℚ) (lyr : Nat) (cols : Int) (i : Nat) : Prog :=
  .read ⟨.posIdx, i, 0⟩ fun k1 => .read ⟨.posIdx, i, 0⟩ fun k2 => addOther look nd lnd lyr (k1.floor / cols) (k2.floor % cols) i

/-- data_raster.hpp:3492-3502: a further layer, by rows; one iteration is a row. -/
def otherGridBody (look : Int → Int → Option Int) (nd lnd : ℚ) (lyr cols : Nat) (i : Nat) : Prog :=
  forEach (List.range cols) fun j => .read ⟨.raster2, ((i * cols + j : Nat) : Int), 0⟩ fun v =>
    if floatEqual nd v then .write ⟨.raster2, ((i * cols + j : Nat) : Int), lyr⟩ nd .done
    else addOther look nd lnd lyr i j ((i * cols + j : Nat) : Int)

/-- data_raster.hpp:3587-3591: one layer from GridFS. -/
def mongo1Body (cast : ℚ → ℚ) (i : Nat) : Prog :=
  .read ⟨.posIdx, i, 0⟩ fun k => .read ⟨.layer, k.floor, 0⟩ fun v => .write ⟨.raster, i, 0⟩ (cast v) .done

/-- data_raster.hpp:3599-3609: several layers from GridFS; `pos` is `include_nodata && !mask_pos_subset`. -/
def mongo2Body (pos : Bool) (lyrs : Nat) (i : Nat) : Prog :=
  let copy (k : Int) : Prog := forEach (List.range lyrs) fun j =>
    .read ⟨.layer, k * lyrs + j, 0⟩ fun v => .write ⟨.raster2, i, j⟩ v .done
  if pos then .read ⟨.posIdx, i, 0⟩ fun k => copy k.floor else copy i

/-- data_raster.hpp:3721-3733 `ReplaceNoData`, two-dimensional. -/
def replace2Body (nd rv : ℚ) (lyrs : Nat) (i : Nat) : Prog :=
  forEach (List.range lyrs) fun l => .read ⟨.raster2, i, l⟩ fun v =>
    if floatEqual v nd then .write ⟨.raster2, i, l⟩ rv .done else .done

/-- data_raster.hpp:3721-3733 `ReplaceNoData`, one-dimensional (one layer). -/
def replace1Body (nd rv : ℚ) (i : Nat) : Prog :=
  .read ⟨.raster, i, 0⟩ fun v => if floatEqual v nd then .write ⟨.raster, i, 0⟩ rv .done else .done

/-- data_raster.hpp:3864-3866: row, column and index of a stored cell; `pos_data_[i][0]`, `pos_data_[i][1]` are the objects `posRow` and
`posCol`. -/
def storePos (ncols : ℚ) (i : Nat) : Prog :=
  .read ⟨.rows, i, 0⟩ fun r => .write ⟨.posRow, i, 0⟩ r <|
  .read ⟨.cols, i, 0⟩ fun c => .write ⟨.posCol, i, 0⟩ c <|
  .read ⟨.rows, i, 0⟩ fun r => .read ⟨.cols, i, 0⟩ fun c => .write ⟨.posIdx, i, 0⟩ (r * ncols + c) .done

/-- data_raster.hpp:3852-3867: storing the valid cells, one layer. -/
def gather1Body (ncols : ℚ) (i : Nat) : Prog :=
  .read ⟨.values, i, 0⟩ fun v => .write ⟨.raster, i, 0⟩ v (storePos ncols i)

/-- data_raster.hpp:3852-3867: storing the valid cells, several layers. -/
def gather2Body (ncols : ℚ) (lyrs : Nat) (i : Nat) : Prog :=
  .read ⟨.values, i, 0⟩ fun v => .write ⟨.raster2, i, 0⟩ v <|
    (forEach (List.range (lyrs - 1)) fun l =>
      .read ⟨.values2, i, l⟩ fun v => .write ⟨.raster2, i, ((l + 1 : Nat) : Int)⟩ v .done).seq (storePos ncols i)

/-- utils_math.h:363-366 `Sum`. -/
def sumBody (t i : Nat) : Prog :=
  .read ⟨.src, i, 0⟩ fun v => .read (privAt t) fun s => .write (privAt t) (s + v) .done

/-- utils_math.h:373-377 `Sum` over selected indices. -/
def sumIdxBody (t i : Nat) : Prog :=
  .read ⟨.idx, i, 0⟩ fun j => .read ⟨.src, j.floor, 0⟩ fun v => .read (privAt t) fun s => .write (privAt t) (s + v) .done

/-- utils_math.h:399-404 `BasicStatistics`: squared deviations. -/
def devBody (ex mean : ℚ) (t i : Nat) : Prog :=
  .read ⟨.src, i, 0⟩ fun v =>
    if floatEqual v ex then .done
    else .read ⟨.src, i, 0⟩ fun v1 => .read ⟨.src, i, 0⟩ fun v2 => .read (privAt t) fun s =>
      .write (privAt t) (s + (v1 - mean) * (v2 - mean)) .done

/-- utils_math.h:447-452: squared deviations of layer `j`; the mean is read from `tmpstats[1][j]`. -/
def dev2Body (ex : ℚ) (j t i : Nat) : Prog :=
  .read ⟨.src, i, j⟩ fun v =>
    if floatEqual v ex then .done
    else .read ⟨.src, i, j⟩ fun v1 => .read ⟨.stats, 1, j⟩ fun m1 => .read ⟨.src, i, j⟩ fun v2 => .read ⟨.stats, 1, j⟩ fun m2 =>
      .read (privAt t) fun s => .write (privAt t) (s + (v1 - m1) * (v2 - m2)) .done

end CCGL.Par
