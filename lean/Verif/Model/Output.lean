import Verif.Model.Subset
import Verif.Model.Asc
/-!
# Model of the full-size output functions of `clsRasterData` (`src/data_raster.hpp`)

File names: only the number appended to the core name is kept (`none`: the given name itself). The disk is
not modelled: an ASCII file is its text, a GeoTIFF the array handed to `WriteSingleGeotiff` (whose own
conversion is `Model/Geotiff.lean`), a GridFS file the array handed to `WriteStreamDataAsGridfs`.
-/
namespace CCGL
namespace Raster

/-- data_raster.hpp:3168-3177 / 3193-3203: the cells of one row, with the running `index` (positions
known): the value of the storage cell `index` if its position is the current cell, else `fill`. -/
def ascScan (pos : Ptr (Int × Int)) (read : Int → Out ℚ) (fill : ℚ) (n : Int) :
    Int → List (Int × Int) → Out (List ℚ × Int)
  | index, [] => .ok ([], index)
  | index, rc :: cells =>
    if index < n then do
      let p ← readAt pos index
      if p.1 = rc.1 ∧ p.2 = rc.2 then do
        let v ← read index
        let (vs, e) ← ascScan pos read fill n (index + 1) cells
        return (v :: vs, e)
      else do
        let (vs, e) ← ascScan pos read fill n index cells
        return (fill :: vs, e)
    else do
      let (vs, e) ← ascScan pos read fill n index cells
      return (fill :: vs, e)

/-- The loop over the rows around it (data_raster.hpp:3166, 3192). -/
def ascScanRows (pos : Ptr (Int × Int)) (read : Int → Out ℚ) (fill : ℚ) (n : Int) :
    Int → List (List (Int × Int)) → Out (List (List ℚ))
  | _, [] => .ok []
  | index, row :: rows => do
    let (vs, e) ← ascScan pos read fill n index row
    let rest ← ascScanRows pos read fill n e rows
    return vs :: rest

/-- The cells of the grid, row by row. -/
def rowCells (rows cols : Int) : List (List (Int × Int)) :=
  (List.range rows.toNat).map (fun (i : Nat) =>
    (List.range cols.toNat).map (fun (j : Nat) => ((i : Int), (j : Int))))

/-- The rows written for layer `lyr` (0-based) of the raster: directly (lines 3169-3172, 3194-3197) or by
position. -/
def ascLayerRows (r : Raster) (direct : Bool) (pos : Ptr (Int × Int)) (fill : ℚ) (lyr : Int) :
    Out (List (List ℚ)) :=
  if direct then
    (rowCells r.hdr.rows r.hdr.cols).mapM (fun row =>
      row.mapM (fun rc => r.readCell (rc.1 * r.hdr.cols + rc.2) (lyr + 1)))
  else ascScanRows pos (fun i => r.readCell i (lyr + 1)) fill r.nCells 0 (rowCells r.hdr.rows r.hdr.cols)

/-- The text of one ASCII file: `WriteAscHeaders`, then the appended rows. -/
def ascFile (pr : ℚ → Str) (h : Header) (rows : List (List ℚ)) : Str :=
  ascHeaderText h ++ rows.flatMap (ascRowText pr)

/-- data_raster.hpp:3136-3210 `OutputAscFile` (all files can be opened): the object afterwards, the
returned flag and the files. The fill value of 2D rasters is the constant `NODATA_VALUE` (line 3176), that
of 1D rasters the raster's own (lines 3201-3202). `assert` (line 3148-3149) is checked as undefined. -/
def outputAsc (pr : ℚ → Str) (r : Raster) : Out (Raster × Bool × List (Option Int × Str)) := do
  let (r, pos, direct) ←
    (if r.posData.isSome || r.posIdx.isSome then do
      let (r1, _, pd) ← r.getPositionData
      let (r2, _, pi) ← r1.getPositionIdx
      if pd.isNone || pi.isNone then Out.ub else return (r2, pd, false)
    else return (r, none, true))
  if r.is2d then do
    let files ← (List.range r.nLyrs.toNat).mapM (fun (l : Nat) => do
      let rows ← r.ascLayerRows direct pos NODATA l
      return (some (l : Int), ascFile pr r.hdr rows))
    return (r, true, files)
  else do
    let rows ← r.ascLayerRows direct pos r.noData 0
    return (r, true, [(none, ascFile pr r.hdr rows)])

/-- data_raster.hpp:3226-3228, 3233-3235: the buffer is allocated if it does not exist yet. -/
def orAlloc (buf : Ptr ℚ) (n : Int) (v : ℚ) : Ptr ℚ :=
  match buf with
  | some b => some b
  | none => alloc1 n v

/-- The array prepared for one GeoTIFF file of layer `lyr` (0-based), data_raster.hpp:3225-3240, 3251-3257;
`buf` is the buffer of the previous layer, allocated for the first one. A 1D raster without positions
hands over its own array (line 3249). -/
def gdalLayer (r : Raster) (buf : Ptr ℚ) (lyr : Int) : Out (Ptr ℚ) := do
  let n := r.hdr.rows * r.hdr.cols
  let buf := orAlloc buf n r.noData
  if r.posData.isNone || r.posIdx.isNone then
    if r.is2d then do
      let items ← (List.range n.toNat).mapM (fun (gi : Nat) => do
        let v ← r.readCell gi (lyr + 1)
        return ((gi : Int), v))
      scatter buf items
    else .ok r.raster1
  else do
    let items ← (List.range r.nCells.toNat).mapM (fun (vi : Nat) => do
      let p ← readAt r.posIdx vi
      let v ← r.readCell vi (lyr + 1)
      return (p, v))
    scatter buf items

/-- The layers loop data_raster.hpp:3222-3246; `wr lyr` is the result of `WriteSingleGeotiff` for it. -/
def gdalLayers (r : Raster) (wr : Int → Bool) : Ptr ℚ → List Nat → Out (Bool × List (Option Int × Ptr ℚ))
  | _, [] => .ok (true, [])
  | buf, l :: ls => do
    let d ← r.gdalLayer buf l
    if wr l then do
      let (ok, files) ← gdalLayers r wr d ls
      return (ok, (some ((l : Int) + 1), d) :: files)
    else return (false, [])

/-- data_raster.hpp:3213-3264 `OutputFileByGdal`: the returned flag and the arrays that were written. -/
def outputGdal (r : Raster) (wr : Int → Bool) : Out (Bool × List (Option Int × Ptr ℚ)) :=
  if r.is2d then r.gdalLayers wr none (List.range r.nLyrs.toNat)
  else do
    let d ← r.gdalLayer none 0
    return if wr 0 then (true, [(none, d)]) else (false, [])

/-- What `OutputToMongoDB` hands to the stream writer. -/
structure StreamOut where
  raster : Raster
  hdr : Header
  data : Ptr ℚ
  len : Int

/-- The (storage cell, layer) values scattered into the full-size array, data_raster.hpp:3309-3314, 3325. -/
def streamItems (r : Raster) (lyrs : Int) (pos : Ptr (Int × Int)) : Out (List (Int × ℚ)) :=
  (gridCells r.nCells lyrs).mapM (fun il => do
    let p ← readAt pos il.1
    let v ← r.readCell il.1 (il.2 + 1)
    return (lyrs * (p.1 * r.hdr.cols + p.2) + il.2, v))

/-- data_raster.hpp:3268-3346 `OutputToMongoDB` with `out_origin` and a non-null `gfs`: what is written.
`raster_2d_[0]` (line 3305) is the pool of all rows if the array was made by `Initialize2DArray`
(utils_array.h:380-411), which is assumed; it is undefined for an array without rows. A 1D raster has one
layer, so lines 3317-3327 are the case `n_lyrs_ = 1`. -/
def outputStream (r : Raster) (incNodata : Bool) : Out StreamOut := do
  let (r, pos, direct) ←
    (if (r.posData.isSome || r.posIdx.isSome) && incNodata then do
      let (r1, _, pd) ← r.getPositionData
      return (r1, pd, false)
    else return (r, none, true))
  let r ←
    (if (r.posData.isNone || r.posIdx.isNone) && !incNodata then do
      let (r1, _) ← r.setCalcPositions
      let (r2, _, _) ← r1.getPositionData
      return r2
    else return r)
  let nfull := r.hdr.rows * r.hdr.cols
  let hdr := if incNodata then { r.hdr with cellsnum := nfull } else r.hdr
  if direct then
    if r.is2d then do
      let _ ← readAt r.raster2 0
      return { raster := r, hdr := hdr, data := r.raster2.map List.flatten, len := r.nLyrs * r.nCells }
    else return { raster := r, hdr := hdr, data := r.raster1, len := r.nCells }
  else do
    let lyrs := if r.is2d then r.nLyrs else 1
    let items ← r.streamItems lyrs pos
    let d ← scatter (alloc1 (lyrs * nfull) r.noData) items
    return { raster := r, hdr := hdr, data := d, len := lyrs * nfull }

end Raster

/-- data_raster.hpp:3125-3130: layer `l` of interleaved data. -/
def deinterleave (full : Ptr ℚ) (fsize lyrs : Int) (l : Nat) : Out (Ptr ℚ) := do
  let items ← (List.range fsize.toNat).mapM (fun (gi : Nat) => do
    let v ← readAt full (gi * lyrs + l)
    return ((gi : Int), v))
  scatter (alloc1 fsize NODATA) items

/-- data_raster.hpp:3113-3134 `OutputFullsizeToFiles`, `wr lyr` being the result of `WriteRasterToFile`
(skipped after a failure because of `flag && ...`): the flag and the arrays written. -/
def outputFullsize (full : Ptr ℚ) (fsize lyrs : Int) (wr : Int → Bool) :
    Out (Bool × List (Option Int × Ptr ℚ)) :=
  if full.isNone then .ok (false, [])
  else if lyrs < 1 then .ok (false, [])
  else if lyrs = 1 then .ok (if wr 0 then (true, [(none, full)]) else (false, []))
  else do
    let bufs ← (List.range lyrs.toNat).mapM (fun (l : Nat) => do
      let d ← deinterleave full fsize lyrs l
      return (l, d))
    let done := bufs.takeWhile (fun x => wr x.1)
    return (decide (done.length = bufs.length), done.map (fun x => (some ((x.1 : Int) + 1), x.2)))

end CCGL
