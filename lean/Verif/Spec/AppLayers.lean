import Verif.Spec.AppRecls
/-!
# What jobs of `mask_rasterio` with several input files have to deliver
-/
namespace CCGL
namespace App
namespace Spec
open Disk Disk.Spec CCGL.Spec Main

/-- One of the input files after the first: name, header and values. -/
structure LayerFile where
  path : Str
  hdr : Header
  val : Int → Int → ℚ

/-- `w` is the value of a cell (of the grid of `hM`) in a further layer: where the grid with the values `vM` has a value and the file has a cell there, the
number of the file (its NoData value becomes `nd`), else `nd`. -/
structure LayerCell (hM : Header) (vM : Int → Int → ℚ) (nd : ℚ) (l : LayerFile) (row col : Int) (w : ℚ) : Prop where
  taken : HasValue hM vM row col → ∀ i j, SameCell l.hdr hM i j row col → w = if floatEqual (l.val i j) l.hdr.noData then nd else l.val i j
  none : (¬ HasValue hM vM row col ∨ ¬ ∃ i j, SameCell l.hdr hM i j row col) → w = nd

/-- Names for the files of `n` layers in an existing directory, which can be written; ASCII files are numbered from 0 (the number -9999 can be printed), GeoTIFF
files from 1. -/
structure OutLayers (env : Env) (fmt : Disk.Fmt) (d : Disk) (p : Fs.Path) (dt core suf : Str) (n : Nat) (first : Int) : Prop where
  name : NameIn d.fs p dt core suf
  nodir : d.fs.kindOf (p ++ [core ++ '.' :: suf]) ≠ some .dir
  write : ∀ l : Nat, l < n → Writable env d.fs (p ++ [core ++ '_' :: intToDec ((l : Int) + first) ++ '.' :: suf])
  suf : (IsAscSuffix suf ∧ first = 0 ∧ CarriesValue fmt suf (-9999)) ∨ (IsTifSuffix suf ∧ first = 1 ∧ SameType fmt)

/-- The files of the layers: file number `l` reads back as a raster with the header `h` (with the new NoData value). Each cell of it has a number allowed by `V l`
(NoData renamed if asked for), except that in an ASCII file the cells that are not in `K` (the cells with a value in the mask; without a mask: all cells) have the
number -9999, which is not the NoData value of the file if that is another one. -/
def LayersOut (d : Disk) (dt core suf : Str) (first : Int) (h : Header) (upd : Bool) (nd new : ℚ) (n : Nat) (K : Int → Int → Prop)
    (V : Nat → Int → Int → ℚ → Prop) : Prop :=
  ∀ l : Nat, l < n → ∃ v, ReadsAs d (dt ++ core ++ '_' :: intToDec ((l : Int) + first) ++ '.' :: suf) { h with noData := renamedNd upd nd new } v ∧
    ∀ row col, h.grid.CellInside row col →
      (K row col ∨ IsTifSuffix suf ∨ renamedNd upd nd new = -9999 → ∃ w, V l row col w ∧ v row col = renamed upd nd new w) ∧
      (¬ K row col → IsAscSuffix suf → v row col = -9999)

/-- The numbers of the layers of a masked job: the first is masked as usual, the others by `LayerCell`. -/
def MaskedLayers (hM : Header) (vM : Int → Int → ℚ) (hR : Header) (vR : Int → Int → ℚ) (dv : ℚ) (rest : List LayerFile) (l : Nat) (row col : Int) (w : ℚ) : Prop :=
  (l = 0 → MaskedCell hM vM hR vR dv row col w) ∧ ∀ k (hk : k < rest.length), l = k + 1 → LayerCell hM vM hR.noData rest[k] row col w

/-- The numbers of the layers of a job without mask: the first file as it is, the others where the first has a value. -/
def PlainLayers (hR : Header) (vR : Int → Int → ℚ) (rest : List LayerFile) (l : Nat) (row col : Int) (w : ℚ) : Prop :=
  (l = 0 → w = vR row col) ∧ ∀ k (hk : k < rest.length), l = k + 1 → LayerCell hR vR hR.noData rest[k] row col w

/-- What is known in advance about a job with several input files: the paths of all of them, header and values of the first, the others; directory, core and suffix of
the output and the number of its first layer. -/
structure LPlan where
  inps : List Fs.Path
  hdr : Header
  val : Int → Int → ℚ
  rest : List LayerFile
  dir : Fs.Path
  dt : Str
  core : Str
  suf : Str
  first : Int

/-- The files the job writes: one per layer. -/
def LPlan.targets (pl : LPlan) (q : Fs.Path) : Prop :=
  ∃ l : Nat, l < pl.rest.length + 1 ∧ q = pl.dir ++ [pl.core ++ '_' :: intToDec ((l : Int) + pl.first) ++ '.' :: pl.suf]

/-- A job on files with several input files, without reclassification, can be carried out: the inputs are raster files, the files of the layers can be written and the
format can carry the header `h` (with the NoData value of the result) and the numbers. -/
structure LayersJob (sys : Sys) (d : Disk) (h : Header) (j : Job) (pl : LPlan) : Prop where
  fmts : j.inFmt = .sfile ∧ j.outFmt = .sfile ∧ j.recls = false
  files : ∃ s, j.inputs = s :: pl.rest.map (·.path) ∧ RasterFile d s pl.hdr pl.val
  more : pl.rest ≠ [] ∧ ∀ l ∈ pl.rest, RasterFile d l.path l.hdr l.val
  paths : ∀ x ∈ j.inputs, ∃ q ∈ pl.inps, d.fs.resolve x = some q
  out : j.out = pl.dt ++ pl.core ++ '.' :: pl.suf
  write : OutLayers sys.env (sys.fmt j.type) d pl.dir pl.dt pl.core pl.suf (pl.rest.length + 1) pl.first
  header : CarriesHeader pl.suf { h with noData := renamedNd j.update pl.hdr.noData j.nodata.toQ }
  carried : Carried (sys.fmt j.type) pl.suf pl.hdr pl.val j.default.toQ j.update j.nodata.toQ
  carriedMore : ∀ l ∈ pl.rest, ∀ i k, l.hdr.grid.CellInside i k → CarriesValue (sys.fmt j.type) pl.suf (l.val i k)

/-- The first file of a job. -/
def firstHdr : RPlan ⊕ LPlan → Header
  | .inl pl => pl.hdr
  | .inr pl => pl.hdr

/-- A job of the mode MASK can be carried out (with one input file: `JobOk`; with several: `LayersJob`); `g` is the grid of the results. -/
def AnyOk (sys : Sys) (V : Job → RPlan → View) (g : Header → Header) (d : Disk) (j : Job) : RPlan ⊕ LPlan → Prop
  | .inl pl => JobOk sys d .mask (V j pl) j pl
  | .inr pl => LayersJob sys d (g pl.hdr) j pl

/-- The files a job writes. -/
def AnyTargets (V : Job → RPlan → View) (j : Job) : RPlan ⊕ LPlan → Fs.Path → Prop
  | .inl pl => JobTargets .mask (V j pl) j pl
  | .inr pl => pl.targets

/-- The files a job reads. -/
def AnyReads : RPlan ⊕ LPlan → Fs.Path → Prop
  | .inl pl => fun q => q = pl.inp
  | .inr pl => fun q => q ∈ pl.inps

/-- What a job leaves. -/
def AnyDone (V : Job → RPlan → View) (g : Header → Header) (K : Int → Int → Prop) (L : Job → LPlan → Nat → Int → Int → ℚ → Prop) (d : Disk) (j : Job) : RPlan ⊕ LPlan → Prop
  | .inl pl => JobDone d .mask (V j pl) j pl
  | .inr pl => LayersOut d pl.dt pl.core pl.suf pl.first (g pl.hdr) j.update pl.hdr.noData j.nodata.toQ (pl.rest.length + 1) K (L j pl)

end Spec
end App
end CCGL
