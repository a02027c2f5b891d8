import Verif.Spec.FileOut
import Verif.Spec.MaskGeo
import Verif.Model.AppRun
/-!
# What the jobs of `mask_rasterio` have to deliver, in terms of the files on disk
-/
namespace CCGL
namespace App
namespace Spec
open Disk Disk.Spec CCGL.Spec Main

/-- A raster file that can be read, with at least one cell: header and values. -/
structure RasterFile (d : Disk) (s : Str) (h : Header) (v : Int → Int → ℚ) : Prop where
  reads : ReadsAs d s h v
  rows : 0 < h.rows
  cols : 0 < h.cols

/-- The grid with values `v` has a value (not NoData) in the cell. -/
def HasValue (h : Header) (v : Int → Int → ℚ) (row col : Int) : Prop :=
  h.grid.CellInside row col ∧ floatEqual (v row col) h.noData = false

/-- Cell (i, j) of the grid of `h` and cell (row, col) of the grid of `g` have the same centre. -/
def SameCell (h g : Header) (i j row col : Int) : Prop :=
  h.grid.CellInside i j ∧ h.grid.center i j = g.grid.center row col

/-- Some cell with a value of the mask lies on the raster. -/
def Overlaps (hM : Header) (vM : Int → Int → ℚ) (hR : Header) : Prop :=
  ∃ row col i j, HasValue hM vM row col ∧ SameCell hR hM i j row col

/-- The number taken for a cell with number `x` of a raster with NoData value `nd` if the default value is `dv`: NoData cells get the
default value, unless that is itself NoData or the general NoData value -9999, which means that no default value is given. -/
def filled (dv nd x : ℚ) : ℚ :=
  if floatEqual x nd = true ∧ floatEqual dv nd = false ∧ (floatEqual dv (-9999) = false ∨ floatEqual nd (-9999) = true) then dv else x

/-- The number of a cell if NoData `nd` is to be renamed to `new`. -/
def renamed (upd : Bool) (nd new x : ℚ) : ℚ := if upd = true ∧ floatEqual x nd = true then new else x

/-- The NoData value then. -/
def renamedNd (upd : Bool) (nd new : ℚ) : ℚ := if upd then new else nd

/-- `w` is the value of a cell (of the mask's grid) of the masked raster: the raster's own number (or default) where the mask has a value
and the raster has a cell, else NoData. -/
structure MaskedCell (hM : Header) (vM : Int → Int → ℚ) (hR : Header) (vR : Int → Int → ℚ) (dv : ℚ) (row col : Int) (w : ℚ) : Prop where
  taken : HasValue hM vM row col → ∀ i j, SameCell hR hM i j row col → w = filled dv hR.noData (vR i j)
  none : (¬ HasValue hM vM row col ∨ ¬ ∃ i j, SameCell hR hM i j row col) → w = hR.noData

/-- The file format can carry the numbers the job can produce. -/
structure Carried (fmt : Disk.Fmt) (suf : Str) (hR : Header) (vR : Int → Int → ℚ) (dv : ℚ) (upd : Bool) (new : ℚ) : Prop where
  cells : ∀ i j, hR.grid.CellInside i j → CarriesValue fmt suf (vR i j)
  nodata : CarriesValue fmt suf hR.noData
  dflt : CarriesValue fmt suf dv
  new : upd = true → CarriesValue fmt suf new

/-- A name for an output file in an existing directory, not a directory, which can be written. -/
structure OutName (env : Env) (fmt : Disk.Fmt) (d : Disk) (p : Fs.Path) (dt core suf : Str) : Prop where
  name : NameIn d.fs p dt core suf
  write : Writable env d.fs (p ++ [core ++ '.' :: suf])
  suf : IsAscSuffix suf ∨ (IsTifSuffix suf ∧ SameType fmt)

/-- What is known about a job in advance: its input file (path, header, values) and the path of its output file. -/
structure Plan where
  inp : Fs.Path
  hdr : Header
  val : Int → Int → ℚ
  out : Fs.Path

/-- A job on files with one input file, without reclassification, can be carried out: the input is a raster file, the output can be written and the
format can carry the header `h` (with the NoData value of the result) and the numbers. -/
structure FileJob (sys : Sys) (d : Disk) (h : Header) (j : Job) (pl : Plan) : Prop where
  fmts : j.inFmt = .sfile ∧ j.outFmt = .sfile ∧ j.recls = false
  input : ∃ s, j.inputs = [s] ∧ d.fs.resolve s = some pl.inp ∧ RasterFile d s pl.hdr pl.val
  output : ∃ p dt core suf, j.out = dt ++ core ++ '.' :: suf ∧ pl.out = p ++ [core ++ '.' :: suf] ∧
    OutName sys.env (sys.fmt j.type) d p dt core suf ∧ CarriesHeader suf { h with noData := renamedNd j.update pl.hdr.noData j.nodata.toQ } ∧
    Carried (sys.fmt j.type) suf pl.hdr pl.val j.default.toQ j.update j.nodata.toQ

/-- The output of the job: the input masked by the mask (`hM`, `vM`), on the grid of the mask. -/
def MaskedOutput (d : Disk) (hM : Header) (vM : Int → Int → ℚ) (j : Job) (pl : Plan) : Prop :=
  ∃ v, ReadsAs d j.out { hM with noData := renamedNd j.update pl.hdr.noData j.nodata.toQ } v ∧
    ∀ row col, hM.grid.CellInside row col → ∃ w, MaskedCell hM vM pl.hdr pl.val j.default.toQ row col w ∧
      v row col = renamed j.update pl.hdr.noData j.nodata.toQ w

/-- The output of the job if there is no mask: the input itself (NoData renamed if asked for). -/
def PlainOutput (d : Disk) (j : Job) (pl : Plan) : Prop :=
  ReadsAs d j.out { pl.hdr with noData := renamedNd j.update pl.hdr.noData j.nodata.toQ }
    (fun row col => renamed j.update pl.hdr.noData j.nodata.toQ (pl.val row col))

/-- No job writes to the input or the output of a later job. -/
def Apart (pls : List Plan) : Prop := pls.Pairwise (fun a b => a.out ≠ b.inp ∧ a.out ≠ b.out)

end Spec
end App
end CCGL
