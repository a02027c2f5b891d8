import Verif.Model.AppRun
import Verif.Model.GfsMask
/-!
# The jobs of `apps/mask_rasterio.cpp` with files in GridFS (`main`, lines 500-645)

As `Model/AppRun.lean`, with a connection (`use_mongo`) to one bucket, which nobody else changes while a job is running. Cells are `double`.
-/
namespace CCGL
namespace App
open Fs Disk Main Gfs

/-- The outcomes of the driver in one job: queries (`ok1`, `ok2`) and chunks (`rd`) when the input is read, the same for file number `i`
of the mode COM, removals and attempts to write the whole raster and the `i`-th subset. `own`, `core`: options (metadata) and name of the
object that is written, which are arbitrary here. -/
structure JobDb where
  ok1 : Nat → Bool
  ok2 : Nat → Bool
  rd : Bool
  cok1 : Nat → Nat → Bool
  cok2 : Nat → Nat → Bool
  crd : Nat → Bool
  rm : Nat → Bool
  att : Nat → Attempt
  rms : Nat → Nat → Bool
  atts : Nat → Nat → Attempt
  own : Opts
  core : Str

/-- apps/mask_rasterio.cpp:500, 513-525 the map `opts` of a job; `UpdateStringMap` keeps the keys in order. -/
def jobOpts (inc : Bool) (ty : RDT) : Opts :=
  [(kTypeOut, rdtToString ty.code), (kIncNodata, if inc then "TRUE".toList else "FALSE".toList)]

/-- data_raster.hpp:3513-3619 `ReadFromMongoDB` with a mask that may have subsets (3567-3578, and `maskRasterS`). The rest is
`Gfs.readFromMongoMask`. -/
def readFromMongoMaskS (rnd : ℚ → ℚ) (T : RDT) (ok1 : Nat → Bool) (rd : Bool) (ok2 : Nat → Bool) (st : Store) (name : Str)
    (calcPos : Bool) (mask : RasterS) (useMaskExt : Bool) (dflt : ℚ) (opts : Opts) : Out (Option RasterS × RasterS) := do
  let x ← readGridfs rnd T ok1 rd ok2 st name initialHeader initialStr (inOpts opts)
  match x with
  | none => return (none, mask)
  | some (cells, h, s) => do
    let hdr ← headerOf h
    let inc := !stringMatch ((s kIncNodata).getD []) "FALSE".toList
    let full ← mulInt hdr.rows hdr.cols
    let nd ← conv rnd .double T hdr.noData
    if inc && decide (hdr.cellsnum ≠ full) then return (none, mask)
    else do
      let cp := calcPos || decide (hdr.cellsnum ≠ full)
      let base : Raster := { Raster.init (decide (hdr.layers ≠ 1)) with
        hdr := hdr, noData := nd, nLyrs := hdr.layers, nCells := hdr.cellsnum, calcPos := cp, useMaskExt := useMaskExt,
        dflt := Raster.checkDefault dflt nd }
      if cp && useMaskExt && decide (hdr.cellsnum = validNumber mask.ras) then do
        let (m1, _, pd) ← mask.ras.getPositionData
        let (m2, n, pi) ← m1.getPositionIdx
        if !inc && (pd.isNone || pi.isNone) then return (none, { mask with ras := m2 })
        else do
          let d ← directData inc cells n hdr.layers pi
          return (some ⟨{ base with nCells := n, storePos := false, posData := pd, posIdx := pi, raster1 := d.1, raster2 := d.2 },
            mask.subs.map (fun e => (e.1, { e.2 with nLyrs := hdr.layers }))⟩, { mask with ras := m2 })
      else if !inc then return (none, mask)
      else do
        let r ← (if hdr.layers = 1 then .ok { base with raster1 := some cells }
          else do
            let rows ← interleaved cells hdr.cellsnum hdr.layers
            return { base with raster2 := some rows } : Out Raster)
        let z ← Raster.maskRasterS r [] mask
        return (if z.1.code ≥ 0 then some ⟨z.1.ras, z.2⟩ else none, { mask with ras := z.1.mask })

/-- apps/mask_rasterio.cpp:537-542 with data_raster.hpp:2272-2284 `Init(gfs, ...)`: the object (`none`: null) and the mask afterwards. -/
def initGfs (rnd : ℚ → ℚ) (jd : JobDb) (st : Store) (mask : Option RasterS) (name : Str) (dflt : ℚ) (opts : Opts) :
    Out (Option RasterS × Option RasterS) :=
  match mask with
  | none => do
    let x ← Gfs.readFromMongo rnd .double jd.ok1 jd.rd jd.ok2 st name false dflt opts
    return (x.map (fun r => ⟨r, []⟩), none)
  | some m => do
    let x ← readFromMongoMaskS rnd .double jd.ok1 jd.rd jd.ok2 st name false m true dflt opts
    return (x.1, some x.2)

/-- apps/mask_rasterio.cpp:569-596: writing the raster of one job to the bucket. Results are ignored. -/
noncomputable def writeJobDb (rnd : ℚ → ℚ) (inc : Bool) (mode : IOMode) (jd : JobDb) (j : Job) (noMask : Bool) (rs : RasterS) (st : Store) : Out Store :=
  let opts := jobOpts inc j.type
  if j.recls then do
    let s1 ← (if outSubset mode then do
        let w ← outputSubsets rnd .double jd.rms jd.atts st rs jd.own jd.core j.out opts inc true false (tableOf j.table) j.default.toQ
        return w.2.1
      else return st : Out Store)
    if outAll mode then do
      let w ← outputSubsets rnd .double (fun _ => jd.rm) (fun _ => jd.att) s1 rs jd.own jd.core j.out opts inc true true (tableOf j.table) j.default.toQ
      return w.2.1
    else return s1
  else do
    let x ← (if outSubset mode then do
        let y ← (if noMask then do
            let b ← buildSubSet rs []
            return b.1
          else return rs : Out RasterS)
        let w ← outputSubsets rnd .double jd.rms jd.atts st y jd.own jd.core j.out opts inc true false [] NODATA
        return (y, w.2.1)
      else return (rs, st) : Out (RasterS × Store))
    if outAll mode then do
      let w ← outputToMongo rnd .double jd.rm jd.att x.2 x.1.ras jd.own jd.core ("0_".toList ++ j.out) opts inc
      return w.2.2.1
    else return x.2

/-- apps/mask_rasterio.cpp:546-597: what is done with the raster of a job (`none`: null; a file has been dereferenced by line 535 then). -/
noncomputable def finishJobDb (sys : Sys) (inc : Bool) (mode : IOMode) (x : Disk × Store × Option RasterS) (jj : Job × JobDb)
    (y : Option RasterS × Option RasterS) : Out (Disk × Store × Option RasterS) :=
  match y.1 with
  | none => if jj.1.inFmt = .sfile then .ub else .ok (x.1, x.2.1, y.2)
  | some rs => do
    let r1 ← (if jj.1.update then rs.ras.replaceNoData jj.1.nodata.toQ else .ok rs.ras : Out Raster)
    let rs2 ← (if jj.1.recls then do
        let z ← buildSubSet ⟨r1, rs.subs⟩ []
        return z.1
      else return ⟨r1, rs.subs⟩ : Out RasterS)
    if jj.1.outFmt = .sfile then do
      let d' ← writeJob sys mode jj.1 rs2 x.1
      return (d', x.2.1, y.2)
    else if jj.1.outFmt = .gfs then do
      let st' ← writeJobDb sys.rnd inc mode jj.2 jj.1 x.2.2.isNone rs2 x.2.1
      return (x.1, st', y.2)
    else return (x.1, x.2.1, y.2)

/-- apps/mask_rasterio.cpp:526-597 one job of the modes MASK, DEC and MASKDEC: disk, bucket and mask afterwards. -/
noncomputable def layerJobDb (sys : Sys) (inc : Bool) (mode : IOMode) (x : Disk × Store × Option RasterS) (jj : Job × JobDb) :
    Out (Disk × Store × Option RasterS) :=
  if jj.1.inFmt = .sfile ∧ filesExist x.1.fs jj.1.inputs = true then do
    let y ← initFiles x.1 jj.1.inputs false x.2.2 true jj.1.default.toQ
    finishJobDb sys inc mode x jj y
  else if jj.1.inFmt = .gfs then do
    let name ← vecAt jj.1.inputs 0
    let y ← initGfs sys.rnd jj.2 x.2.1 x.2.2 name jj.1.default.toQ (jobOpts inc jj.1.type)
    finishJobDb sys inc mode x jj y
  else .ok x

/-- apps/mask_rasterio.cpp:614-636: file number `i` of a job of the mode COM in GridFS. -/
def comOneDb (rnd : ℚ → ℚ) (jd : JobDb) (d : Disk) (st : Store) (opts : Opts) (acc : Nat × IMap Subset) (s : Str) : Out (Nat × IMap Subset) :=
  match splitDelim '_' (getCoreFileName d.fs s) with
  | [] => .ok (acc.1 + 1, acc.2)
  | c :: _ =>
    let id := Int.bmod (isInt c).1 (2 ^ 32)
    if !(isInt c).2 then .ok (acc.1 + 1, acc.2)
    else match acc.2.get id with
      | none => .ok (acc.1 + 1, acc.2)
      | some sub => do
        let z ← readSubset rnd (jd.cok1 acc.1) (jd.crd acc.1) (jd.cok2 acc.1) st sub s opts
        return (acc.1 + 1, IMap.set acc.2 id z.1)

/-- apps/mask_rasterio.cpp:599-645 one job of the mode COM. -/
noncomputable def comJobDb (sys : Sys) (inc : Bool) (x : Disk × Store × RasterS) (jj : Job × JobDb) : Out (Disk × Store × RasterS) := do
  let j := jj.1
  let jd := jj.2
  let opts := jobOpts inc j.type
  let m : RasterS := { x.2.2 with ras := { x.2.2.ras with dflt := j.default.toQ } }
  let subs0 := m.subs.map (fun e => (e.1, { e.2 with usable := false }))
  let subs ← (if j.inFmt = .sfile then j.inputs.foldlM (comOne x.1) subs0
    else if j.inFmt = .gfs then do
      let z ← j.inputs.foldlM (comOneDb sys.rnd jd x.1 x.2.1 opts) (0, subs0)
      return z.2
    else .ok subs0 : Out (IMap Subset))
  let m2 : RasterS := { m with subs := subs }
  if j.outFmt = .sfile then do
    let w ← outputToFile sys.env (sys.fmt j.type) x.1 m2 j.out false
    return (w.2.2, x.2.1, w.1)
  else if j.outFmt = .gfs then do
    let w ← outputSubsets sys.rnd .double (fun _ => jd.rm) (fun _ => jd.att) x.2.1 m2 jd.own jd.core j.out opts inc false true [] NODATA
    return (x.1, w.2.1, m2)
  else return (x.1, x.2.1, m2)

/-- apps/mask_rasterio.cpp:518-651: all jobs; exit code, disk and bucket. -/
noncomputable def runJobsDb (sys : Sys) (inc : Bool) (mode : IOMode) (mask : Option RasterS) (d : Disk) (st : Store) (js : List (Job × JobDb)) :
    Out (Nat × Disk × Store) :=
  if mode = .com then
    match mask with
    | none => .ok (if js = [] then 0 else 1, d, st)
    | some m => do
      let x ← js.foldlM (comJobDb sys inc) (d, st, m)
      return (0, x.1, x.2.1)
  else if mode = .unknown then .ok (0, d, st)
  else do
    let x ← js.foldlM (layerJobDb sys inc mode) (d, st, mask)
    return (0, x.1, x.2.1)

end App
end CCGL
