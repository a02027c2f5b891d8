import Verif.Model.AppMain
import Verif.Model.FileOut
import Verif.Model.MaskSubset
import Verif.Model.Coord
/-!
# The jobs of `apps/mask_rasterio.cpp` on files (`main`, lines 484-652)

All rasters are `DblRaster`. There is no connection to a database (`use_mongo` is false), messages are not modelled, numbers are exact
rationals; infinite and NaN default and NoData values are not modelled (`DVal.toQ`). The settings of all jobs are taken first (`Main.jobs`).
-/
namespace CCGL
namespace App
open Fs Disk Main

/-- What does not depend on the job: the behaviour of the disk, the text of a cell, the version of GDAL, rounding to `float`. -/
structure Sys where
  env : Env
  pr : ℚ → Str
  gdal64 : Bool
  rnd : ℚ → ℚ

/-- How a `DblRaster` with the given output type (`SetOutDataType`) writes its cells. -/
def Sys.fmt (sys : Sys) (ty : RDT) : Disk.Fmt := ⟨sys.pr, sys.gdal64, sys.rnd, .double, ty⟩

/-- data_raster.hpp:2150-2164 `Init(filename, calc_pos, mask, use_mask_ext, default_value)` with 2288-2324 `ConstructFromSingleFile`: the
object (`none`: null) and the mask afterwards (its positions may have been computed). -/
def initFile (d : Disk) (s : Str) (calcPos : Bool) (mask : Option RasterS) (useExt : Bool) (dflt : ℚ) :
    Out (Option RasterS × Option RasterS) :=
  match mask with
  | none => do
    let x ← readFromFile d s calcPos dflt
    return (x.map (fun r => ⟨r, []⟩), none)
  | some m =>
    if !fileExists d.fs s then .ok (none, some m)
    else do
      let x ← decode d s
      match x with
      | none => return (none, some m)
      | some y =>
        let z ← Raster.maskRasterS (fileRaster y calcPos useExt dflt) [] m
        return (if 0 ≤ z.1.code then some ⟨z.1.ras, z.2⟩ else none, some { m with ras := z.1.mask })

/-- data_raster.hpp:3464-3480 one of the other layers. A failing reader leaves an empty header, whose use throws (line 3626); that a raster
of NoData cells only goes on without using it is not modelled. -/
def readLayer (d : Disk) (s : Str) : Out (Header × Ptr ℚ) := do
  let x ← decode d s
  match x with
  | none => .exn
  | some y => return y

/-- data_raster.hpp:2186-2207 `Init(filenames, ...)` with 3430-3509 `ReadFromFiles`. While the first layer is masked `n_lyrs_` is already the
number of files; since `is_2draster` is still false, it is only copied to the subsets (line 3974) and the header, which is done here at the end. -/
def initFiles (d : Disk) (ss : List Str) (calcPos : Bool) (mask : Option RasterS) (useExt : Bool) (dflt : ℚ) :
    Out (Option RasterS × Option RasterS) :=
  if !filesExist d.fs ss then .ok (none, mask)
  else match ss with
    | [] => .ok (none, mask)
    | [s] => initFile d s calcPos mask useExt dflt
    | s :: rest => do
      let x ← initFile d s calcPos mask useExt dflt
      match x.1 with
      | none => return (none, x.2)
      | some rs =>
        let layers ← rest.mapM (readLayer d)
        let r ← rs.ras.addLayers layers
        return (some ⟨r, rs.subs.map (fun e => (e.1, { e.2 with nLyrs := (rest.length : Int) + 1 }))⟩, x.2)

/-- The reclassification table (`map<vint, vector<double>>`). -/
def tableOf (t : KvMap) : IMap (List ℚ) := t.foldl (fun m e => IMap.set m e.1 (e.2.map DVal.toQ)) []

/-- apps/mask_rasterio.cpp:501-511: `output_subset` and `output_all`. -/
def outSubset (mode : IOMode) : Bool := mode = .dec ∨ mode = .maskdec
def outAll (mode : IOMode) : Bool := mode = .mask ∨ mode = .maskdec

/-- apps/mask_rasterio.cpp:549-568: writing the raster of one job. Results are ignored. -/
def writeJob (sys : Sys) (mode : IOMode) (j : Job) (rs : RasterS) (d : Disk) : Out Disk :=
  if j.outFmt ≠ .sfile then .ok d
  else if j.recls then do
    let d1 ← (if outSubset mode then do
        let w ← outputSubsetToFile sys.env (sys.fmt j.type) d rs true false j.out (tableOf j.table) j.default.toQ
        return w.2
      else return d : Out Disk)
    if outAll mode then do
      let w ← outputSubsetToFile sys.env (sys.fmt j.type) d1 rs true true j.out (tableOf j.table) j.default.toQ
      return w.2
    else return d1
  else do
    let x ← (if outSubset mode then do
        let w ← outputToFile sys.env (sys.fmt j.type) d rs j.out false
        return (w.1, w.2.2)
      else return (rs, d) : Out (RasterS × Disk))
    if outAll mode then do
      let w ← outputToFile sys.env (sys.fmt j.type) x.2 x.1 j.out true
      return w.2.2
    else return x.2

/-- apps/mask_rasterio.cpp:526-598 one job of the modes MASK, DEC and MASKDEC: disk and mask afterwards. `Init` returning null is
dereferenced by line 535. -/
def layerJob (sys : Sys) (mode : IOMode) (st : Disk × Option RasterS) (j : Job) : Out (Disk × Option RasterS) :=
  if j.inFmt = .sfile ∧ filesExist st.1.fs j.inputs = true then do
    let x ← initFiles st.1 j.inputs false st.2 true j.default.toQ
    match x.1 with
    | none => .ub
    | some rs =>
      let r1 ← (if j.update then rs.ras.replaceNoData j.nodata.toQ else .ok rs.ras : Out Raster)
      let rs2 ← (if j.recls then do
          let y ← buildSubSet ⟨r1, rs.subs⟩ []
          return y.1
        else return ⟨r1, rs.subs⟩ : Out RasterS)
      let d' ← writeJob sys mode j rs2 st.1
      return (d', x.2)
  else .ok st

/-- apps/mask_rasterio.cpp:614-634: one file of a job of the mode COM (the number is converted to `int`). -/
def comOne (d : Disk) (subs : IMap Subset) (s : Str) : Out (IMap Subset) :=
  match splitDelim '_' (getCoreFileName d.fs s) with
  | [] => .ok subs
  | c :: _ =>
    let id := Int.bmod (isInt c).1 (2 ^ 32)
    if !(isInt c).2 then .ok subs
    else if (subs.get id).isNone then .ok subs
    else if !fileExists d.fs s then .ok subs
    else do
      let x ← readFromFile d s true NODATA
      match x with
      | none => return subs
      | some r => comFile subs (id, if r.validData && !r.is2d then (r.nCells, r.raster1) else (-1, none))

/-- apps/mask_rasterio.cpp:599-645 one job of the mode COM. -/
def comJob (sys : Sys) (st : Disk × RasterS) (j : Job) : Out (Disk × RasterS) := do
  let m : RasterS := { st.2 with ras := { st.2.ras with dflt := j.default.toQ } }
  let subs ← (if j.inFmt = .sfile then
      j.inputs.foldlM (comOne st.1) (m.subs.map (fun e => (e.1, { e.2 with usable := false })))
    else .ok (m.subs.map (fun e => (e.1, { e.2 with usable := false }))) : Out (IMap Subset))
  let m2 : RasterS := { m with subs := subs }
  if j.outFmt = .sfile then do
    let w ← outputToFile sys.env (sys.fmt j.type) st.1 m2 j.out false
    return (w.2.2, w.1)
  else return (st.1, m2)

/-- apps/mask_rasterio.cpp:484-499: the mask; `exit 3` if it exists and cannot be read. -/
def loadMask (d : Disk) (c : Cfg) : Out (Res (Option RasterS)) :=
  if c.maskPath = [] then .ok (.go none)
  else if c.maskFmt = .sfile ∧ fileExists d.fs c.maskPath = true then do
    let x ← initFile d c.maskPath false none true NODATA
    match x.1 with
    | none => return .exit 3
    | some m => return .go (some m)
  else .ok (.go none)

/-- apps/mask_rasterio.cpp:506: `BuildSubSet` of the mask. -/
def prepareMask (mode : IOMode) (mask : Option RasterS) : Out (Option RasterS) :=
  match mask with
  | none => .ok none
  | some m =>
    if mode = .mask then .ok (some m)
    else do
      let x ← buildSubSet m []
      return some x.1

/-- apps/mask_rasterio.cpp:518-651: all jobs; exit code and disk. -/
def runJobs (sys : Sys) (mode : IOMode) (mask : Option RasterS) (d : Disk) (js : List Job) : Out (Nat × Disk) :=
  if mode = .com then
    match mask with
    | none => .ok (if js = [] then 0 else 1, d)
    | some m => do
      let st ← js.foldlM (comJob sys) (d, m)
      return (0, st.1)
  else if mode = .unknown then .ok (0, d)
  else do
    let st ← js.foldlM (layerJob sys mode) (d, mask)
    return (0, st.1)

/-- apps/mask_rasterio.cpp:165-664 `main`: exit code and disk. `w` is the world as far as the configuration looks at it. -/
def run (sys : Sys) (w : World) (d : Disk) (args : List Str) : Out (Nat × Disk) := do
  let r ← configure w args
  match r with
  | .exit n => return (n, d)
  | .go c =>
    let js ← jobs c
    let m ← loadMask d c
    match m with
    | .exit n => return (n, d)
    | .go mask =>
      let mask' ← prepareMask c.mode mask
      runJobs sys c.mode mask' d js

end App
end CCGL
