import Verif.Model.Output
/-!
# The 32-bit `int` arithmetic of `clsRasterData` (`src/data_raster.hpp`)

The other models compute with unbounded integers. Here the functions that compute cell numbers and lengths are written again with every `int` operation checked: a
result outside the range of `int` is undefined behaviour (signed overflow, or the conversion of a floating value out of range). Comparisons, array accesses and
everything else are as in `Model/Raster.lean`, `Model/Subset.lean` and `Model/Output.lean`. Conversions from `size_t` (`CVT_INT(values.size())`) are checked too.
-/
namespace CCGL
namespace I32
open Raster

/-- The largest `int` (64-bit Linux/GCC). -/
def intMax : Int := 2147483647

/-- A result of type `int`: undefined behaviour if it does not fit. -/
def chk (x : Int) : Out Int := if -2147483648 ≤ x ∧ x ≤ intMax then .ok x else .ub
def add (a b : Int) : Out Int := chk (a + b)
def sub (a b : Int) : Out Int := chk (a - b)
def mul (a b : Int) : Out Int := chk (a * b)

/-- `row * cols + col` (e.g. data_raster.hpp:2546, 2737, 3811, 3864). -/
def index (row cols col : Int) : Out Int := do
  let a ← mul row cols
  add a col

/-- The binary search loop data_raster.hpp:2558-2570: `left + ((right - left) / 2)`, `middle - 1`, `middle + 1`; `n` bounds the number of rounds. -/
def bsearch (p : Ptr Int) (target : Int) : Nat → Int → Int → Out Int
  | 0, _, _ => .ok (-1)
  | n + 1, left, right =>
    if left ≤ right then do
      let w ← sub right left
      let middle ← add left (Int.tdiv w 2)
      let v ← readAt p middle
      if v > target then do
        let right' ← sub middle 1
        bsearch p target n left right'
      else if v < target then do
        let left' ← add middle 1
        bsearch p target n left' right
      else return middle
    else return (-1)

/-- data_raster.hpp:2541-2571 `GetPosition(row, col)`. -/
def getPosition (r : Raster) (row col : Int) : Out Int :=
  if !r.validData || !r.validRowCol row col then .ok (-2)
  else do
    let idx ← index r.hdr.cols row col
    if !r.calcPos || r.posData.isNone || r.posIdx.isNone then return idx
    else do
      let right ← sub r.nCells 1
      bsearch r.posIdx idx (right + 1).toNat 0 right

/-- data_raster.hpp:2725-2740 `GetValue(row, col, lyr)`. -/
def getValue (r : Raster) (row col lyr : Int) : Out ℚ :=
  if !r.validData || !r.validRowCol row col || !r.validLayer lyr then .ok r.noData
  else if r.calcPos && (r.posData.isSome || r.posIdx.isSome) then do
    let i ← getPosition r row col
    if i < 0 then .ok r.noData else r.getValueByIndex i lyr
  else do
    let i ← index row r.hdr.cols col
    r.readCell i lyr

/-- data_raster.hpp:2785-2802 `SetValue(row, col, value, lyr)`. -/
def setValue (r : Raster) (row col : Int) (v : ℚ) (lyr : Int) : Out Raster :=
  if !r.validData || !r.validRowCol row col || !r.validLayer lyr then .ok r
  else do
    let i ← getPosition r row col
    if i = -1 then .ok r else r.writeCell i lyr v

/-- data_raster.hpp:2096 the number of cells in the constructor from a 1D array. -/
def ofArray1 (data : Ptr ℚ) (cols rows : Int) (nodata dx xll yll : ℚ) : Out Raster := do
  let _ ← mul cols rows
  return Raster.ofArray1 data cols rows nodata dx xll yll

/-- data_raster.hpp:2126 in the constructor from a 2D array. -/
def ofArray2 (data : Ptr (List ℚ)) (cols rows nlayers : Int) (nodata dx xll yll : ℚ) : Out Raster := do
  let _ ← mul cols rows
  return Raster.ofArray2 data cols rows nlayers nodata dx xll yll

/-- data_raster.hpp:1627 `GetDataLength`. -/
def getDataLength (r : Raster) : Out Int :=
  if r.nCells < 0 ∨ r.nLyrs < 0 then .ok (-1) else mul r.nCells r.nLyrs

/-- The collecting double loop data_raster.hpp:3809-3833. -/
def collectValid (r : Raster) : List (Int × Int) → Out (List ((Int × Int) × List ℚ))
  | [] => .ok []
  | rc :: cells => do
    let i ← index rc.1 r.hdr.cols rc.2
    let vs ← r.readLayers i
    let rest ← collectValid r cells
    if floatEqual (vs.headD 0) r.noData then return rest else return (rc, vs) :: rest

/-- data_raster.hpp:3801-3869 `CalculateValidPositionsFromGridData`: `n_cells_ = CVT_INT(values.size())`; the products `row * col` in the two calls of
`Initialize2DArray` (utils_array.h:394: `n_cells_ * n_lyrs_` for the cells of a 2D raster, `n_cells_ * 2` for the positions if there are none yet); `pos_idx_`. -/
def calcValidPositions (r : Raster) : Out Raster := do
  let vs ← collectValid r (gridCells r.hdr.rows r.hdr.cols)
  let n ← chk vs.length
  let _ ← (if r.is2d then mul n r.nLyrs else .ok 0 : Out Int)
  let _ ← (if r.posData.isNone then mul n 2 else .ok 0 : Out Int)
  let ids ← vs.mapM (fun x => index x.1.1 r.hdr.cols x.1.2)
  if r.is2d && decide (r.nLyrs ≤ 0) && decide (n > 0) then .ub
  else do
    let pd ← storeInto r.posData (alloc2 n 2 (0 : Int) |>.map (fun _ => [])) (vs.map (·.1))
    let pi ← storeInto r.posIdx (alloc1 n (0 : Int)) ids
    return { r with
      nCells := n, hdr := { r.hdr with cellsnum := n },
      raster1 := if r.is2d then r.raster1 else
        (alloc1 n r.noData).map (fun _ => vs.map (fun x => x.2.headD 0)),
      raster2 := if r.is2d then (alloc2 n r.nLyrs r.noData).map (fun _ => vs.map (·.2)) else r.raster2,
      posData := pd, posIdx := pi, storePos := true, calcPos := true }

/-- data_raster.hpp:3872-3886 `MaskAndCalculateValidPosition` without a mask. -/
def calcNoMask (r : Raster) : Out (Raster × Int) :=
  if r.calcPos then
    if r.posData.isNone || r.posIdx.isNone then do
      let r' ← calcValidPositions r
      return (r', 1)
    else .ok (r, 0)
  else do
    let n ← mul r.hdr.rows r.hdr.cols
    return ({ r with nCells := n, hdr := { r.hdr with cellsnum := n } }, 0)

/-- data_raster.hpp:2804-2813 `SetCalcPositions` without a mask. -/
def setCalcPositions (r : Raster) : Out (Raster × Bool) :=
  if !r.validData then .ok (r, false)
  else if r.calcPos && (r.posData.isSome || r.posIdx.isSome) then .ok (r, false)
  else do
    let (r', code) ← calcNoMask { r with calcPos := true }
    return (r', decide (code ≥ 0))

/-- data_raster.hpp:2640-2656 `GetRasterPositionData(int*, int***)`. -/
def getPositionData (r : Raster) : Out (Raster × Int × Ptr (Int × Int)) :=
  if r.posData.isSome then .ok (r, r.nCells, r.posData)
  else if !r.validData then .ok (r, -1, none)
  else do
    let r' ← calcValidPositions r
    return (r', r'.nCells, r'.posData)

/-- data_raster.hpp:2658-2674 `GetRasterPositionData(int*, int**)`. -/
def getPositionIdx (r : Raster) : Out (Raster × Int × Ptr Int) :=
  if r.posIdx.isSome then .ok (r, r.nCells, r.posIdx)
  else if !r.validData then .ok (r, -1, none)
  else do
    let r' ← calcValidPositions r
    return (r', r'.nCells, r'.posIdx)

/-- data_raster.hpp:3740-3769 `Reclassify`: `CVT_INT(raster_[i])` (line 3751) of a value out of the range of `int` is undefined. -/
def reclassify (r : Raster) (m : List (Int × ℚ)) : Out Raster :=
  passCells (fun x => do
    let k ← chk (truncQ x)
    match lookupI m k with
    | some v => .ok (some v)
    | none => .exn) r r.cellLayers

/-- One call on the object, as `Raster.step`; the accesses by cell number and `ReplaceNoData` compute no `int` but loop counters. -/
def step (r : Raster) : Op → Out Raster
  | .setValue row col v lyr => setValue r row col v lyr
  | .setCalcPositions => do let x ← setCalcPositions r; return x.1
  | .getPositionIdx => do let x ← getPositionIdx r; return x.1
  | .getPositionData => do let x ← getPositionData r; return x.1
  | .replaceNoData v => r.replaceNoData v
  | .reclassify m => reclassify r m
  | .getValue row col lyr => do let _ ← getValue r row col lyr; return r
  | .getValueByIndex i lyr => do let _ ← r.getValueByIndex i lyr; return r
  | .getPosition row col => do let _ ← getPosition r row col; return r
  | .isNoData row col lyr => do let _ ← getValue r row col lyr; return r

/-- A history of calls. -/
def run (r : Raster) : List Op → Out Raster
  | [] => .ok r
  | op :: ops => do let r' ← step r op; run r' ops

/-- data_raster.hpp:3312-3328 the numbers of the cells in the full-size array: `n_lyrs_ * (pos[idx][0] * n_cols + pos[idx][1]) + k`. -/
def streamItems (r : Raster) (lyrs : Int) (pos : Ptr (Int × Int)) : Out (List (Int × ℚ)) :=
  (gridCells r.nCells lyrs).mapM (fun il => do
    let p ← readAt pos il.1
    let i ← index p.1 r.hdr.cols p.2
    let j ← mul lyrs i
    let k ← add j il.2
    let v ← r.readCell il.1 (il.2 + 1)
    return (k, v))

/-- data_raster.hpp:3268-3346 `OutputToMongoDB`: `n_fullsize` (line 3298), `datalength` (lines 3308, 3314). -/
def outputStream (r : Raster) (incNodata : Bool) : Out StreamOut := do
  let (r, pos, direct) ←
    (if (r.posData.isSome || r.posIdx.isSome) && incNodata then do
      let (r1, _, pd) ← getPositionData r
      return (r1, pd, false)
    else return (r, none, true))
  let r ←
    (if (r.posData.isNone || r.posIdx.isNone) && !incNodata then do
      let (r1, _) ← setCalcPositions r
      let (r2, _, _) ← getPositionData r1
      return r2
    else return r)
  let nfull ← mul r.hdr.rows r.hdr.cols
  let hdr := if incNodata then { r.hdr with cellsnum := nfull } else r.hdr
  if direct then
    if r.is2d then do
      let _ ← readAt r.raster2 0
      let len ← mul r.nLyrs r.nCells
      return { raster := r, hdr := hdr, data := r.raster2.map List.flatten, len := len }
    else return { raster := r, hdr := hdr, data := r.raster1, len := r.nCells }
  else do
    let lyrs := if r.is2d then r.nLyrs else 1
    let len ← mul lyrs nfull
    let items ← streamItems r lyrs pos
    let d ← scatter (alloc1 len r.noData) items
    return { raster := r, hdr := hdr, data := d, len := len }

/-- data_raster.hpp:2352-2355 the group of a value: `CVT_INT(curv)`. -/
def groupOf (groups : IMap Int) (v : ℚ) : Out Int := do
  let k ← chk (truncQ v)
  return match groups.get k with
    | some g => g
    | none => k

/-- data_raster.hpp:2348-2383 the first loop of `BuildSubSet`. (`n_cells += 1` counts cells of the raster and is not checked.) -/
def buildLoop (r : Raster) (groups : IMap Int) : List Nat → IMap (Subset × List Int) → Out (IMap (Subset × List Int))
  | [], m => .ok m
  | vi :: rest, m => do
    let v ← r.getValueByIndex vi 1
    if floatEqual v r.noData then buildLoop r groups rest m
    else do
      let gv ← groupOf groups v
      let p ← readAt r.posIdx vi
      let m' := addCell m gv (Int.tdiv p r.hdr.cols) (Int.tmod p r.hdr.cols) vi
      if r.hdr.cols = 0 then .ub else buildLoop r groups rest m'

/-- data_raster.hpp:2384-2409 the arrays of one subset: `Initialize2DArray(n_cells, 2, …)`, `g_erow - g_srow + 1`, `g_ecol - g_scol + 1`, the local row and column,
`local_row * local_ncols + local_col`. -/
def finishSubset (r : Raster) (e : Subset × List Int) : Out Subset := do
  let s := e.1
  let g ← Raster.storeInto (alloc1 s.nCells (0 : Int)) none e.2
  let _ ← mul s.nCells 2
  let a ← sub s.erow s.srow
  let _ ← add a 1
  let b ← sub s.ecol s.scol
  let ncols ← add b 1
  let lp ← (List.range s.nCells.toNat).mapM (fun (k : Nat) => do
    let gi ← readAt g k
    let p ← readAt r.posIdx gi
    if r.hdr.cols = 0 then Out.ub
    else do
      let lr ← sub (Int.tdiv p r.hdr.cols) s.srow
      let lc ← sub (Int.tmod p r.hdr.cols) s.scol
      return (lr, lc))
  let li ← lp.mapM (fun rc => index rc.1 ncols rc.2)
  return { s with
    glob := g,
    localPos := (alloc2 s.nCells 2 (-1 : Int)).map (fun _ => lp),
    localIdx := (alloc1 s.nCells (-1 : Int)).map (fun _ => li) }

/-- data_raster.hpp:2337-2412 `BuildSubSet(groups)`. -/
def buildSubSet (rs : RasterS) (groups : IMap Int) : Out (RasterS × Bool) :=
  if !rs.ras.validData then .ok (rs, false)
  else do
    let (r, ok) ← (if rs.ras.posData.isNone || rs.ras.posIdx.isNone then setCalcPositions rs.ras
      else .ok (rs.ras, true) : Out (Raster × Bool))
    if !ok then .ok ({ rs with ras := r }, false)
    else if rs.subs ≠ [] then .ok ({ rs with ras := r }, true)
    else do
      let m ← buildLoop r groups (List.range r.nCells.toNat) []
      let subs ← m.mapM (fun (e : Int × (Subset × List Int)) => do
        let s ← finishSubset r e.2
        return (e.1, s))
      return ({ ras := r, subs := subs }, true)

/-- data_raster.hpp:3031-3111 `PrepareSubsetData`: the size of the box (lines 3060-3061), `nrows * ncols` (line 3065), `ncells * lyrs` (line 3066),
`j * lyrs + ilyr`. (The conversion of an original value to the key of `recls`, lines 3079-3082, is not checked here.) -/
def prepareSubsetData (r : Raster) (subId : Int) (s : Subset) (outOrigin includeNoData : Bool)
    (recls : IMap (List ℚ)) (dv : ℚ) : Out (Option (Ptr ℚ × Int × Int)) :=
  match reclsLyrs recls with
  | none => .ok none
  | some lr =>
    let lyrs := if outOrigin then (if lr > 0 then lr else r.nLyrs) else s.nLyrs
    if lyrs < 0 then .ok none
    else do
      let a ← sub s.erow s.srow
      let nrows ← add a 1
      let b ← sub s.ecol s.scol
      let ncols ← add b 1
      let ncells ← (if includeNoData then mul nrows ncols else .ok s.nCells : Out Int)
      let len ← mul ncells lyrs
      let items ← collectItems (fun (x : Int × Int) => do
        let j ← readAt s.localIdx x.1
        let v ← subValue r subId s outOrigin recls (defaultOf r dv) lyrs x.1 x.2
        let j' := if includeNoData then j else x.1
        let c ← mul j' lyrs
        let k ← add c x.2
        return v.map (fun v => (k, v))) (gridCells s.nCells lyrs)
      match items with
      | none => return none
      | some items => do
        let d ← scatter (alloc1 len r.noData) items
        return some (d, len, lyrs)

/-- data_raster.hpp:2923-3029 `PrepareCombSubsetData`: `gnrows * gncols` (line 2974), `gncells * lyrs` (line 2975), `tmprc * lyrs + ilyr` (lines 3006-3015).
(The conversion of an original value to the key of `recls` is not checked here.) -/
def prepareComb (rs : RasterS) (outOrigin includeNoData : Bool) (recls : IMap (List ℚ)) (dv : ℚ) : Out (Option (Ptr ℚ × Int × Int)) :=
  if rs.subs = [] then .ok none
  else match reclsLyrs recls with
  | none => .ok none
  | some lr => match subsetLyrs rs.subs (decide (recls = [])) with
    | none => .ok none
    | some ls =>
      let lyrs := if outOrigin then (if lr > 0 then lr else rs.ras.nLyrs)
        else (if ls < 0 ∧ lr > 0 then lr else ls)
      if lyrs < 0 then .ok none
      else
        let r := rs.ras
        do
          let gncells ← (if includeNoData then mul r.hdr.rows r.hdr.cols else .ok r.nCells : Out Int)
          let len ← mul gncells lyrs
          let items ← collectItems (fun (x : (Int × Subset × Bool) × (Int × Int)) => do
            let gidx ← readAt x.1.2.1.glob x.2.1
            let p ← readAt r.posIdx gidx
            let v ← combValue r x.1.1 x.1.2.1 outOrigin x.1.2.2 recls (defaultOf r dv) lyrs x.2.1 x.2.2
            let j := if includeNoData then p else gidx
            let a ← mul j lyrs
            let k ← add a x.2.2
            return v.map (fun v => (k, v))) (combCells rs.subs r.noData (defaultOf r dv) lyrs)
          match items with
          | none => return none
          | some items => do
            let d ← scatter (alloc1 len r.noData) items
            return some (d, len, lyrs)

end I32
end CCGL
