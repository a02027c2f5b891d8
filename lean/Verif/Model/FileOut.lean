import Verif.Model.Fs
import Verif.Model.Output
import Verif.Model.Geotiff
import Verif.Model.Read
/-!
# Raster files on disk: `WriteRasterToFile`, `OutputFullsizeToFiles`, `OutputSubsetToFile`, `OutputToFile`, `ReadFromFile`

The directory tree is that of `Model/Fs.lean`; the contents of the raster files are the text of an ASCII file or what GDAL stores. The
behaviour of the operating system is a parameter (`Env`). GDAL is available. Simplifications: `ReadFromFile` is called without a
mask (writing does not look at the mask), `printf`-like
output of cells is the parameter `pr`, the cells read from an ASCII file are converted to the cell type by `DVal.toQ` (exact).
-/
namespace CCGL
namespace Disk
open Fs

/-- What a raster file holds. -/
inductive Content where
  | asc (text : Str)
  | tif (f : Gtiff.GFile)
deriving DecidableEq

/-- The tree and the contents of its files (`none`: anything else). -/
structure Disk where
  fs : FS
  data : Path → Option Content

/-- The environment: existing files that cannot be opened for writing; how many characters of the n-th text appended to a file reach
the disk (`none`: all); whether GDAL can create and write the file and what the file holds if not. -/
structure Env where
  ro : Path → Bool
  cut : Path → Nat → Option Nat
  gdal : Path → Bool
  junk : Path → Option Content

/-- How cells are written: text of a cell, GDAL version, rounding to `float`, cell type, type named in the options. -/
structure Fmt where
  pr : ℚ → Str
  gdal64 : Bool
  rnd : ℚ → ℚ
  src : RDT
  opt : RDT

/-- A function changed at one path. -/
def upd {β : Type} (f : Path → β) (p : Path) (x : β) : Path → β := fun q => if q = p then x else f q

/-- The path `open` uses for a text: its last name in an existing directory. -/
def target (fs : FS) (s : Str) : Option Path :=
  match s with
  | [] => none
  | c :: _ =>
    let cs := splitSlash '/' s
    match cs.getLast? with
    | none => none
    | some n =>
      if n = [] ∨ n = ['.'] ∨ n = ['.', '.'] then none else
      match fs.walk (if c = '/' then [] else fs.cwd) cs.dropLast with
      | none => none
      | some q => if fs.kindOf q = some .dir ∧ fs.kindOf (q ++ [n]) ≠ some .dir then some (q ++ [n]) else none

/-- The tree with the file `p` added. -/
def addFile (fs : FS) (p : Path) : FS := { fs with entries := fs.entries ++ [(p, .file)] }

/-- Appending to a content. -/
def appendTo (old : Option Content) (t : Str) : Option Content :=
  match old with
  | some (.asc s) => some (.asc (s ++ t))
  | _ => none

/-- `std::ofstream(name, app | out)`, writing `text`, closing: whether the file could be opened, and the disk. Errors while writing are
not noticed by the library. `i` counts the texts appended to the file by one call. -/
def appendText (env : Env) (d : Disk) (s : Str) (i : Nat) (text : Str) : Bool × Disk :=
  match target d.fs s with
  | none => (false, d)
  | some p =>
    let t := match env.cut p i with
      | none => text
      | some n => text.take n
    if (d.fs.kindOf p).isSome then
      if env.ro p then (false, d) else (true, { d with data := upd d.data p (appendTo (d.data p) t) })
    else if d.fs.deny p then (false, d)
    else (true, { fs := addFile d.fs p, data := upd d.data p (some (.asc t)) })

/-- data_raster.cpp:189-207 `WriteAscHeaders`: the old file is deleted (a failure is ignored), the header lines are appended. -/
def writeAscHeaders (env : Env) (d : Disk) (s : Str) (h : Header) : Bool × Disk :=
  let d1 : Disk := { d with fs := (deleteExistedFile d.fs s).2 }
  appendText env d1 (getAbsolutePath d1.fs s) 0 (ascHeaderText h)

/-- data_raster.hpp:340-347: the text appended after the header. -/
def ascBody (pr : ℚ → Str) (h : Header) (vals : Ptr ℚ) : Out Str := do
  let rows ← (List.range h.rows.toNat).mapM (fun (i : Nat) => do
    let vs ← ascRow vals h.cols i
    return ascRowText pr vs)
  return rows.flatten ++ nl

/-- data_raster.hpp:328-329, 793-794: the directory of the file is created if it does not exist. -/
def needDir (d : Disk) (s : Str) : Disk :=
  let dir := getPathFromFullName d.fs s
  if !pathExists d.fs dir then { d with fs := (makeDirectory d.fs dir).2 } else d

/-- data_raster.hpp:325-350 `WriteSingleAsc`. -/
def writeSingleAsc (env : Env) (fmt : Fmt) (d : Disk) (s : Str) (h : Header) (vals : Ptr ℚ) : Out (Bool × Disk) :=
  let abs := getAbsolutePath d.fs s
  let d1 := needDir d abs
  let w := writeAscHeaders env d1 abs h
  if !w.1 then .ok (false, w.2)
  else do
    let body ← ascBody fmt.pr h vals
    return appendText env w.2 abs 1 body

/-- data_raster.hpp:585-828 `WriteSingleGeotiff`. Refused conversions leave the disk as it is; an empty grid, for which GDAL creates no
file, is treated like one. -/
def writeSingleGeotiff (env : Env) (fmt : Fmt) (d : Disk) (s : Str) (h : Header) (vals : Ptr ℚ) : Out (Bool × Disk) := do
  let x ← Gtiff.writeGeotiff fmt.gdal64 true fmt.rnd fmt.src fmt.opt h vals
  match x with
  | none => return (false, d)
  | some f =>
    let d1 := needDir d s
    match target d1.fs s with
    | none => return (false, d1)
    | some p =>
      if env.gdal p then
        return (true, { fs := if (d1.fs.kindOf p).isSome then d1.fs else addFile d1.fs p, data := upd d1.data p (some (.tif f)) })
      else return (false, { d1 with data := upd d1.data p (env.junk p) })

/-- data_raster.hpp:112-113 the extensions. -/
def extAsc : Str := "asc".toList
def extTif : Str := "tif".toList

/-- data_raster.hpp:838-857 `WriteRasterToFile`. -/
def writeRaster (env : Env) (fmt : Fmt) (d : Disk) (s : Str) (h : Header) (vals : Ptr ℚ) : Out (Bool × Disk) :=
  if getPathFromFullName d.fs s = [] then .ok (false, d)
  else
    let abs := getAbsolutePath d.fs s
    let ty := getUpper (getSuffix d.fs abs)
    if stringMatch ty extAsc then writeSingleAsc env fmt d abs h vals
    else if stringMatch ty extTif then writeSingleGeotiff env fmt d abs h vals
    else writeSingleGeotiff env fmt d (replaceSuffix d.fs abs extTif) h vals

/-- The loop data_raster.hpp:3124-3131 over the layers `l, l+1, ...`: nothing is written any more after a failure. -/
def fullsizeLoop (env : Env) (fmt : Fmt) (full : Ptr ℚ) (fsize lyrs : Int) (name : Str) (h : Header) :
    Bool → List Nat → Disk → Out (Bool × Disk)
  | flag, [], d => .ok (flag, d)
  | flag, l :: ls, d => do
    let buf ← deinterleave full fsize lyrs l
    if flag then do
      let w ← writeRaster env fmt d (appendCoreFileNameInt d.fs name ((l : Int) + 1) '_') h buf
      fullsizeLoop env fmt full fsize lyrs name h w.1 ls w.2
    else fullsizeLoop env fmt full fsize lyrs name h false ls d

/-- data_raster.hpp:3113-3134 `OutputFullsizeToFiles`. -/
def fullsizeToFiles (env : Env) (fmt : Fmt) (d : Disk) (full : Ptr ℚ) (fsize lyrs : Int) (name : Str) (h : Header) : Out (Bool × Disk) :=
  if full.isNone then .ok (false, d)
  else if lyrs < 1 then .ok (false, d)
  else if lyrs = 1 then writeRaster env fmt d name h full
  else fullsizeLoop env fmt full fsize lyrs name h true (List.range lyrs.toNat) d

/-- data_raster.hpp:2900-2919 one subset: `none` if it is skipped, else header, array, cells and layers. -/
def subPayload (r : Raster) (k : Int) (s : Subset) (outOrigin : Bool) (recls : IMap (List ℚ)) (dv : ℚ) :
    Out (Option (Header × Ptr ℚ × Int × Int)) :=
  if !s.usable then .ok none
  else do
    let x ← prepareSubsetData r k s outOrigin true recls dv
    match x with
    | none => return none
    | some y =>
      if y.2.2 = 0 then .ub
      else return some ({ s.getHeader r.hdr.xll r.hdr.yll r.hdr.rows r.hdr.cellsize r.noData with
        layers := y.2.2, cellsnum := Int.tdiv y.2.1 y.2.2 }, y.1, Int.tdiv y.2.1 y.2.2, y.2.2)

/-- The loop data_raster.hpp:2899-2919 (`flag && OutputFullsizeToFiles(...)`). -/
def subLoop (env : Env) (fmt : Fmt) (r : Raster) (name : Str) (outOrigin : Bool) (recls : IMap (List ℚ)) (dv : ℚ) :
    Bool → IMap Subset → Disk → Out (Bool × Disk)
  | flag, [], d => .ok (flag, d)
  | flag, e :: l, d => do
    let x ← subPayload r e.1 e.2 outOrigin recls dv
    match x with
    | none => subLoop env fmt r name outOrigin recls dv flag l d
    | some y =>
      if flag then do
        let w ← fullsizeToFiles env fmt d y.2.1 y.2.2.1 y.2.2.2 (prefixCoreFileNameInt d.fs name e.1 '_') y.1
        subLoop env fmt r name outOrigin recls dv w.1 l w.2
      else subLoop env fmt r name outOrigin recls dv false l d

/-- data_raster.hpp:2871-2921 `OutputSubsetToFile` (`outname` not empty): result and disk. -/
def outputSubsetToFile (env : Env) (fmt : Fmt) (d : Disk) (rs : RasterS) (outOrigin comb : Bool) (name : Str) (recls : IMap (List ℚ))
    (dv : ℚ) : Out (Bool × Disk) :=
  if !rs.ras.validData then .ok (false, d)
  else if rs.subs = [] then .ok (false, d)
  else if comb then do
    let x ← prepareComb rs outOrigin true recls dv
    match x with
    | none => return (false, d)
    | some y =>
      if y.2.2 = 0 then .ub
      else
        let h : Header := { rs.ras.hdr with layers := y.2.2, cellsnum := Int.tdiv y.2.1 y.2.2 }
        fullsizeToFiles env fmt d y.1 (Int.tdiv y.2.1 y.2.2) y.2.2 (prefixCoreFileNameInt d.fs name 0 '_') h
  else subLoop env fmt rs.ras name outOrigin recls dv true rs.subs d

/-- The files of `OutputAscFile` (data_raster.hpp:3159-3206) one after another: header, then the rows; stops at a file that cannot be
opened. `fn`: the file names. -/
def ascFiles (env : Env) (pr : ℚ → Str) (h : Header) : List (Str × List (List ℚ)) → Disk → Bool × Disk
  | [], d => (true, d)
  | (fn, rows) :: l, d =>
    let w := writeAscHeaders env d fn h
    if !w.1 then (false, w.2)
    else
      let v := appendText env w.2 fn 1 (rows.flatMap (ascRowText pr))
      if !v.1 then (false, v.2) else ascFiles env pr h l v.2

/-- data_raster.hpp:3136-3210 `OutputAscFile`: the object afterwards, the result and the disk. The rows are those of
`Raster.ascLayerRows`; the names of the layers of a 2D raster are numbered from 0. -/
def outputAscFile (env : Env) (fmt : Fmt) (d : Disk) (r : Raster) (name : Str) : Out (Raster × Bool × Disk) := do
  let (r, pos, direct) ←
    (if r.posData.isSome || r.posIdx.isSome then do
      let (r1, _, pd) ← r.getPositionData
      let (r2, _, pi) ← r1.getPositionIdx
      if pd.isNone || pi.isNone then Out.ub else return (r2, pd, false)
    else return (r, none, true))
  let abs := getAbsolutePath d.fs name
  if r.is2d then
    if stringMatch (getPathFromFullName d.fs abs) [] then return (r, false, d)
    else do
      let files ← (List.range r.nLyrs.toNat).mapM (fun (l : Nat) => do
        let rows ← r.ascLayerRows direct pos NODATA l
        return (appendCoreFileNameInt d.fs abs (l : Int) '_', rows))
      return (r, ascFiles env fmt.pr r.hdr files d)
  else do
    let rows ← r.ascLayerRows direct pos r.noData 0
    return (r, ascFiles env fmt.pr r.hdr [(abs, rows)] d)

/-- The layers loop of `OutputFileByGdal` (data_raster.hpp:3222-3246). -/
def gdalFiles (env : Env) (fmt : Fmt) (r : Raster) (abs : Str) : Ptr ℚ → List Nat → Disk → Out (Bool × Disk)
  | _, [], d => .ok (true, d)
  | buf, l :: ls, d => do
    let b ← r.gdalLayer buf l
    let w ← writeSingleGeotiff env fmt d (appendCoreFileNameInt d.fs abs ((l : Int) + 1) '_') r.hdr b
    if w.1 then gdalFiles env fmt r abs b ls w.2 else return (false, w.2)

/-- data_raster.hpp:3213-3264 `OutputFileByGdal`. -/
def outputGdalFile (env : Env) (fmt : Fmt) (d : Disk) (r : Raster) (name : Str) : Out (Bool × Disk) :=
  let abs := getAbsolutePath d.fs name
  if r.is2d then
    if stringMatch (getPathFromFullName d.fs abs) [] then .ok (false, d)
    else gdalFiles env fmt r abs none (List.range r.nLyrs.toNat) d
  else do
    let b ← r.gdalLayer none 0
    writeSingleGeotiff env fmt d abs r.hdr b

/-- data_raster.hpp:2850-2869 `OutputToFile`: the object afterwards, the result and the disk. -/
def outputToFile (env : Env) (fmt : Fmt) (d : Disk) (rs : RasterS) (name : Str) (outOrigin : Bool) : Out (RasterS × Bool × Disk) :=
  if getPathFromFullName d.fs name = [] then .ok (rs, false, d)
  else
    let abs := getAbsolutePath d.fs name
    if !rs.ras.validData then .ok (rs, false, d)
    else if !outOrigin then do
      let w ← outputSubsetToFile env fmt d rs false true name [] NODATA
      return (rs, w)
    else
      let ty := getUpper (getSuffix d.fs abs)
      if stringMatch ty extAsc then do
        let x ← outputAscFile env fmt d rs.ras abs
        return ({ rs with ras := x.1 }, x.2)
      else do
        let w ← outputGdalFile env fmt d rs.ras (if stringMatch ty extTif then abs else replaceSuffix d.fs abs extTif)
        return (rs, w)

/-- The header map after reading an ASCII file (numbers as `double`). -/
def hdrOfAsc (h : AscHeader) : Header :=
  { rows := h.rows, cols := h.cols, cellsize := h.cellsize.toQ, xll := h.xll.toQ, yll := h.yll.toQ, noData := h.noData.toQ,
    layers := h.layers, cellsnum := h.cellsnum }

/-- The header entries before reading (data_raster.cpp:105-119). -/
def ascInit : AscHeader := ⟨-1, -1, .fin NODATA, .fin NODATA, .fin NODATA, .fin NODATA, -1, -1⟩

/-- data_raster.hpp:2296-2309 and 3465-3480: header and data of a file, read by `ReadAscFile` or `ReadRasterFileByGdal`; `none` if the reader
fails. A file that is not an ASCII grid cannot be read as one, a file that GDAL has not written is not modelled (`none`). -/
def decode (d : Disk) (s : Str) : Out (Option (Header × Ptr ℚ)) :=
  if stringMatch (getUpper (getSuffix d.fs s)) extAsc then
    match (d.fs.resolve (getAbsolutePath d.fs s)).bind d.data with
    | some (.asc t) => do
      let x ← readAsc DVal.toQ (some t) ascInit none
      return if x.1 then some (hdrOfAsc x.2.1, x.2.2) else none
    | _ => .ok none
  else
    match (d.fs.resolve s).bind d.data with
    | some (.tif f) => .ok (some ((Gtiff.readGeotiff f).1, some (Gtiff.readGeotiff f).2.1))
    | _ => .ok none

/-- data_raster.hpp:2310-2318: the object after the reader. -/
def fileRaster (x : Header × Ptr ℚ) (calcPos useMaskExt : Bool) (dflt : ℚ) : Raster :=
  { Raster.ofFile x.1 (x.2.getD []) calcPos useMaskExt dflt with raster1 := x.2 }

/-- data_raster.hpp:3418-3428 and 2288-2324 `ReadFromFile` on a new object, without mask (so `use_mask_ext_` is false, line 2064): `none`
for the result false. -/
def readFromFile (d : Disk) (s : Str) (calcPos : Bool) (dflt : ℚ) : Out (Option Raster) :=
  if !fileExists d.fs s then .ok none
  else do
    let x ← decode d s
    match x with
    | none => return none
    | some y =>
      let z ← (fileRaster y calcPos false dflt).calcNoMask
      return if 0 ≤ z.2 then some z.1 else none

end Disk
end CCGL
