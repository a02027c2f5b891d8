import Verif.Model.Out
/-!
# Model of `clsRasterData` (`src/data_raster.hpp`): data, positions, cell accessors

Simplifications (stated once): cell values (`T`) are exact rationals, so `static_cast` between cell types
is the identity and there is no NaN; `int` arithmetic is unbounded; the header map `headers_` is a record
(all keys are created by `InitialHeader`, data_raster.cpp:105-119); messages are not modelled.
-/
namespace CCGL

/-- utils_math.h:140-143 `FloatEqual`: `Abs(v1 - v2) < 1e-32`. -/
def floatEqual (a b : ℚ) : Bool := decide (|a - b| < 1 / 10 ^ 32)

/-- basic.h:246 `NODATA_VALUE`. -/
def NODATA : ℚ := -9999

/-- The header map of a raster (data_raster.cpp:105-119 keys NROWS, NCOLS, CELLSIZE, XLLCENTER, YLLCENTER,
NODATA_VALUE, LAYERS, CELLSNUM). -/
structure Header where
  rows : Int
  cols : Int
  cellsize : ℚ
  xll : ℚ
  yll : ℚ
  noData : ℚ
  layers : Int
  cellsnum : Int
deriving Repr, DecidableEq

/-- The data members of `clsRasterData` (data_raster.hpp:1946-2001) used by the modelled functions.
The subset map and the statistics cache are modelled separately (`Model/Subset.lean`, `Model/Stats.lean`). -/
structure Raster where
  hdr : Header
  nCells : Int
  nLyrs : Int
  noData : ℚ
  dflt : ℚ
  is2d : Bool
  raster1 : Ptr ℚ
  raster2 : Ptr (List ℚ)
  posData : Ptr (Int × Int)
  posIdx : Ptr Int
  calcPos : Bool
  storePos : Bool
  useMaskExt : Bool
deriving Repr, DecidableEq

namespace Raster

/-- data_raster.hpp:1765-1771 `ValidateRasterData`. -/
def validData (r : Raster) : Bool :=
  (!r.is2d && r.raster1.isSome) || (r.is2d && r.raster2.isSome)

/-- data_raster.hpp:1776-1783 `ValidateRowCol`. -/
def validRowCol (r : Raster) (row col : Int) : Bool :=
  !((decide (row < 0) || decide (row ≥ r.hdr.rows)) || (decide (col < 0) || decide (col ≥ r.hdr.cols)))

/-- data_raster.hpp:1788-1796 `ValidateLayer`. -/
def validLayer (r : Raster) (lyr : Int) : Bool := !(decide (lyr ≤ 0) || decide (lyr > r.nLyrs))

/-- data_raster.hpp:1801-1807 `ValidateIndex`. -/
def validIndex (r : Raster) (idx : Int) : Bool := !(decide (idx < 0) || decide (idx ≥ r.nCells))

end Raster

/-- The binary search loop of data_raster.hpp:2558-2570; `Int.tdiv` is C++ division. -/
def bsearchLoop (p : Ptr Int) (target left right : Int) : Out Int :=
  if _h : left ≤ right then
    let middle := left + Int.tdiv (right - left) 2
    match readAt p middle with
    | .ok v =>
      if v > target then bsearchLoop p target left (middle - 1)
      else if v < target then bsearchLoop p target (middle + 1) right
      else .ok middle
    | .ub => .ub
    | .exn => .exn
  else .ok (-1)
termination_by (right - left + 1).toNat
decreasing_by
  · have := Int.tdiv_nonneg (a := right - left) (b := 2) (by omega) (by omega)
    have h2 : (right - left).tdiv 2 = (right - left) / 2 := Int.tdiv_eq_ediv_of_nonneg (by omega)
    omega
  · have h2 : (right - left).tdiv 2 = (right - left) / 2 := Int.tdiv_eq_ediv_of_nonneg (by omega)
    omega

namespace Raster

/-- data_raster.hpp:2541-2571 `GetPosition(row, col)`. -/
def getPosition (r : Raster) (row col : Int) : Out Int :=
  if !r.validData || !r.validRowCol row col then .ok (-2)
  else
    let idx := r.hdr.cols * row + col
    if !r.calcPos || r.posData.isNone || r.posIdx.isNone then .ok idx
    else bsearchLoop r.posIdx idx 0 (r.nCells - 1)

/-- `raster_2d_[idx][lyr - 1]` or `raster_[idx]` (e.g. data_raster.hpp:2699-2702, 2737-2739). -/
def readCell (r : Raster) (idx lyr : Int) : Out ℚ :=
  if r.is2d then do
    let row ← readAt r.raster2 idx
    readAt (some row) (lyr - 1)
  else readAt r.raster1 idx

/-- `raster_2d_[idx][lyr - 1] = v` or `raster_[idx] = v` (data_raster.hpp:2795-2799). -/
def writeCell (r : Raster) (idx lyr : Int) (v : ℚ) : Out Raster :=
  if r.is2d then do
    let row ← readAt r.raster2 idx
    let row' ← writeAt (some row) (lyr - 1) v
    match row' with
    | some l => do
      let d ← writeAt r.raster2 idx l
      return { r with raster2 := d }
    | none => .ub
  else do
    let d ← writeAt r.raster1 idx v
    return { r with raster1 := d }

/-- data_raster.hpp:2695-2703 `GetValueByIndex(cell_index, lyr)`. -/
def getValueByIndex (r : Raster) (idx lyr : Int) : Out ℚ :=
  if !r.validData || !r.validIndex idx || !r.validLayer lyr then .ok r.noData
  else r.readCell idx lyr

/-- data_raster.hpp:2725-2740 `GetValue(row, col, lyr)`. -/
def getValue (r : Raster) (row col lyr : Int) : Out ℚ :=
  if !r.validData || !r.validRowCol row col || !r.validLayer lyr then .ok r.noData
  else if r.calcPos && (r.posData.isSome || r.posIdx.isSome) then do
    let i ← r.getPosition row col
    if i < 0 then .ok r.noData else r.getValueByIndex i lyr
  else r.readCell (row * r.hdr.cols + col) lyr

/-- data_raster.hpp:1751-1753 `IsNoData(row, col, lyr)`. -/
def isNoData (r : Raster) (row col lyr : Int) : Out Bool := do
  let v ← r.getValue row col lyr
  return floatEqual v r.noData

/-- data_raster.hpp:2785-2802 `SetValue(row, col, value, lyr)`: the new object. -/
def setValue (r : Raster) (row col : Int) (v : ℚ) (lyr : Int) : Out Raster :=
  if !r.validData || !r.validRowCol row col || !r.validLayer lyr then .ok r
  else do
    let i ← r.getPosition row col
    if i = -1 then .ok r else r.writeCell i lyr v

/-! ## Constructors from memory -/

/-- data_raster.hpp:2027-2053 `InitializeRasterClass(is_2d)` for a signed/floating cell type
(`DefaultNoDataByType` = -9999); header values from `InitialHeader`, data_raster.cpp:105-119. -/
def init (is2d : Bool) : Raster :=
  { hdr := { rows := -9999, cols := -9999, cellsize := NODATA, xll := NODATA, yll := NODATA, noData := NODATA,
             layers := -9999, cellsnum := -9999 },
    nCells := -1, nLyrs := -1, noData := NODATA, dflt := NODATA, is2d := is2d,
    raster1 := none, raster2 := none, posData := none, posIdx := none,
    calcPos := false, storePos := false, useMaskExt := false }

/-- data_raster.hpp:2087-2106 constructor from a 1D array of `cols*rows` values (the length of the array
is not known to the constructor). -/
def ofArray1 (data : Ptr ℚ) (cols rows : Int) (nodata dx xll yll : ℚ) : Raster :=
  { init false with
    raster1 := data, noData := nodata, nCells := cols * rows, nLyrs := 1,
    hdr := { rows := rows, cols := cols, cellsize := dx, xll := xll, yll := yll, noData := nodata,
             layers := 1, cellsnum := cols * rows } }

/-- data_raster.hpp:2117-2136 constructor from a 2D array `data2d[cell][layer]`. -/
def ofArray2 (data : Ptr (List ℚ)) (cols rows nlayers : Int) (nodata dx xll yll : ℚ) : Raster :=
  { init true with
    raster2 := data, noData := nodata, nCells := cols * rows, nLyrs := nlayers,
    hdr := { rows := rows, cols := cols, cellsize := dx, xll := xll, yll := yll, noData := nodata,
             layers := nlayers, cellsnum := cols * rows } }

/-! ## Compaction -/

/-- Read layers `0 .. n-1` of the 2D cell `idx`, or the single value of a 1D cell
(data_raster.hpp:3812-3828). Layer 0 is read even if `n ≤ 0`. -/
def readLayers (r : Raster) (idx : Int) : Out (List ℚ) :=
  if r.is2d then (List.range (max r.nLyrs.toNat 1)).mapM (fun (l : Nat) => r.readCell idx ((l : Int) + 1))
  else do
    let v ← readAt r.raster1 idx
    return [v]

/-- All (row, col) pairs of the double loop data_raster.hpp:3809-3810, row by row. -/
def gridCells (rows cols : Int) : List (Int × Int) :=
  (List.range rows.toNat).flatMap (fun (i : Nat) =>
    (List.range cols.toNat).map (fun (j : Nat) => ((i : Int), (j : Int))))

/-- The collecting double loop data_raster.hpp:3809-3833: position and layers of each cell whose first
layer is not NoData. -/
def collectValid (r : Raster) : List (Int × Int) → Out (List ((Int × Int) × List ℚ))
  | [] => .ok []
  | rc :: cells => do
    let vs ← r.readLayers (rc.1 * r.hdr.cols + rc.2)
    let rest ← collectValid r cells
    if floatEqual (vs.headD 0) r.noData then return rest else return (rc, vs) :: rest

/-- Storing the collected positions into an `int*` that is normally null: a non-null array is kept
and overwritten from the front (data_raster.hpp:3849-3850, 3865; `Initialize1DArray` does nothing on
a non-null pointer). -/
def storeInto {α : Type} (old : Ptr α) (fresh : Ptr α) (vals : List α) : Out (Ptr α) :=
  match old with
  | some l => if vals.length ≤ l.length then .ok (some (vals ++ l.drop vals.length)) else .ub
  | none => match fresh with
    | some _ => .ok (some vals)
    | none => if vals = [] then .ok none else .ub

/-- data_raster.hpp:3801-3869 `CalculateValidPositionsFromGridData`. The parallel copy loop writes distinct
cells, so it is modelled by the resulting arrays. -/
def calcValidPositions (r : Raster) : Out Raster := do
  let vs ← r.collectValid (gridCells r.hdr.rows r.hdr.cols)
  let n : Int := vs.length
  if r.is2d && decide (r.nLyrs ≤ 0) && decide (n > 0) then .ub
  else do
    let pd ← storeInto r.posData (alloc2 n 2 (0 : Int) |>.map (fun _ => [])) (vs.map (·.1))
    let pi ← storeInto r.posIdx (alloc1 n (0 : Int)) (vs.map (fun x => x.1.1 * r.hdr.cols + x.1.2))
    return { r with
      nCells := n, hdr := { r.hdr with cellsnum := n },
      raster1 := if r.is2d then r.raster1 else
        (alloc1 n r.noData).map (fun _ => vs.map (fun x => x.2.headD 0)),
      raster2 := if r.is2d then (alloc2 n r.nLyrs r.noData).map (fun _ => vs.map (·.2)) else r.raster2,
      posData := pd, posIdx := pi, storePos := true, calcPos := true }

/-- data_raster.hpp:3872-3886 `MaskAndCalculateValidPosition` without a mask; the returned code is the
second component. -/
def calcNoMask (r : Raster) : Out (Raster × Int) :=
  if r.calcPos then
    if r.posData.isNone || r.posIdx.isNone then do
      let r' ← r.calcValidPositions
      return (r', 1)
    else .ok (r, 0)
  else
    let n := r.hdr.rows * r.hdr.cols
    .ok ({ r with nCells := n, hdr := { r.hdr with cellsnum := n } }, 0)

/-- data_raster.hpp:2804-2813 `SetCalcPositions` without a mask. -/
def setCalcPositions (r : Raster) : Out (Raster × Bool) :=
  if !r.validData then .ok (r, false)
  else if r.calcPos && (r.posData.isSome || r.posIdx.isSome) then .ok (r, false)
  else do
    let (r', code) ← ({ r with calcPos := true } : Raster).calcNoMask
    return (r', decide (code ≥ 0))

/-- data_raster.hpp:2658-2674 `GetRasterPositionData(int*, int**)`: cell number and index array. -/
def getPositionIdx (r : Raster) : Out (Raster × Int × Ptr Int) :=
  if r.posIdx.isSome then .ok (r, r.nCells, r.posIdx)
  else if !r.validData then .ok (r, -1, none)
  else do
    let r' ← r.calcValidPositions
    return (r', r'.nCells, r'.posIdx)

/-- data_raster.hpp:2640-2656 `GetRasterPositionData(int*, int***)`: cell number and (row, col) array. -/
def getPositionData (r : Raster) : Out (Raster × Int × Ptr (Int × Int)) :=
  if r.posData.isSome then .ok (r, r.nCells, r.posData)
  else if !r.validData then .ok (r, -1, none)
  else do
    let r' ← r.calcValidPositions
    return (r', r'.nCells, r'.posData)

end Raster
end CCGL

namespace CCGL

/-- `CVT_INT` of a floating value: truncation toward zero (basic.h:325). Values outside the `int` range
are not modelled. -/
def truncQ (q : ℚ) : Int := if 0 ≤ q then ⌊q⌋ else ⌈q⌉

namespace Raster

/-- The (cell, layer) pairs of the double loops data_raster.hpp:3722-3723 and 3748-3749 (layers from 0). -/
def cellLayers (r : Raster) : List (Int × Int) := gridCells r.nCells r.nLyrs

/-- A loop over all stored (cell, layer) pairs reading the value and possibly writing a new one. -/
def passCells (f : ℚ → Out (Option ℚ)) (r : Raster) : List (Int × Int) → Out Raster
  | [] => .ok r
  | il :: rest => do
    let x ← r.readCell il.1 (il.2 + 1)
    let y ← f x
    let r' ← (match y with
      | none => .ok r
      | some v => r.writeCell il.1 (il.2 + 1) v)
    passCells f r' rest

/-- data_raster.hpp:3719-3738 `ReplaceNoData(replacedv)`; the iterations of the parallel loop touch
distinct cells. -/
def replaceNoData (r : Raster) (v : ℚ) : Out Raster := do
  let r' ← passCells (fun x => .ok (if floatEqual x r.noData then some v else none)) r r.cellLayers
  return { r' with noData := v, dflt := v, hdr := { r'.hdr with noData := v } }

/-- `std::map<int, T>::find` on the table of `Reclassify`. -/
def lookupI (m : List (Int × ℚ)) (k : Int) : Option ℚ := (m.find? (fun e => e.1 = k)).map (·.2)

/-- data_raster.hpp:3740-3769 `Reclassify(reclass_map)`. `recls.count(curv) < 0` (line 3753) compares an
unsigned number with 0 and is never true, so an unmapped value reaches `recls.at(curv)` (line 3761, 3763),
which throws `std::out_of_range`. -/
def reclassify (r : Raster) (m : List (Int × ℚ)) : Out Raster :=
  passCells (fun x => match lookupI m (truncQ x) with
    | some v => .ok (some v)
    | none => .exn) r r.cellLayers

end Raster
end CCGL

namespace CCGL
namespace Raster

/-- data_raster.hpp:2209-2231 constructor from a mask and the values of its valid cells (1D), for a mask
without a mask of its own. The position arrays are shared with the mask; `calc_pos_` stays false
(line 2214). Returns the (possibly compacted) mask and the new raster; `len` is the length of `values`. -/
def ofMask1 (mask : Raster) (values : List ℚ) : Out (Raster × Raster) := do
  let (m1, n1, pd) ← mask.getPositionData
  let (m2, n2, pi) ← m1.getPositionIdx
  let r0 : Raster := { init false with
    nLyrs := 1, useMaskExt := true, posData := pd, posIdx := pi, nCells := n2 }
  let _ := n1
  if n2 ≠ (values.length : Int) then return (m2, r0)
  else return (m2, { r0 with
    raster1 := some values, dflt := m2.dflt, hdr := m2.hdr, noData := m2.noData })

/-- data_raster.hpp:2233-2254 the same for several layers, `values[cell][layer]`. `Initialize2DArray` with
a source array reads `values[0][0]` first (utils_array.h:416), undefined for no cells. -/
def ofMask2 (mask : Raster) (values : List (List ℚ)) (lyrs : Int) : Out (Raster × Raster) := do
  let (m1, n1, pd) ← mask.getPositionData
  let (m2, n2, pi) ← m1.getPositionIdx
  let r0 : Raster := { init true with
    nLyrs := lyrs, useMaskExt := true, posData := pd, posIdx := pi, nCells := n2 }
  let _ := n1
  if n2 ≠ (values.length : Int) then return (m2, r0)
  else if values = [] then .ub
  else return (m2, { r0 with
    raster2 := some values, hdr := { m2.hdr with layers := lyrs }, noData := m2.noData })

/-- Operations of a raster without mask that change it or hand out positions. -/
inductive Op where
  | setValue (row col : Int) (v : ℚ) (lyr : Int)
  | setCalcPositions
  | getPositionIdx
  | getPositionData
  | replaceNoData (v : ℚ)
  | reclassify (m : List (Int × ℚ))
  | getValue (row col lyr : Int)
  | getValueByIndex (i lyr : Int)
  | getPosition (row col : Int)
  | isNoData (row col lyr : Int)
deriving Repr

/-- One call on the object (results of queries are dropped, their undefined behaviour is not). -/
def step (r : Raster) : Op → Out Raster
  | .setValue row col v lyr => r.setValue row col v lyr
  | .setCalcPositions => do let x ← r.setCalcPositions; return x.1
  | .getPositionIdx => do let x ← r.getPositionIdx; return x.1
  | .getPositionData => do let x ← r.getPositionData; return x.1
  | .replaceNoData v => r.replaceNoData v
  | .reclassify m => r.reclassify m
  | .getValue row col lyr => do let _ ← r.getValue row col lyr; return r
  | .getValueByIndex i lyr => do let _ ← r.getValueByIndex i lyr; return r
  | .getPosition row col => do let _ ← r.getPosition row col; return r
  | .isNoData row col lyr => do let _ ← r.isNoData row col lyr; return r

/-- A history of calls. -/
def run (r : Raster) : List Op → Out Raster
  | [] => .ok r
  | op :: ops => do let r' ← r.step op; run r' ops

end Raster
end CCGL
