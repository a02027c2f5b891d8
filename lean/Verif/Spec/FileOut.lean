import Verif.Model.FileOut
import Verif.Lemmas.AscWrite
import Verif.Spec.Fs
import Verif.Props.GfsRaster
/-!
# Specification vocabulary for raster files on disk
-/
namespace CCGL
namespace Disk
namespace Spec
open Fs Fs.Spec

/-- The environment lets file `P` be written: it is no directory, an old file may be removed and replaced, the disk is not full. -/
structure Writable (env : Env) (fs : FS) (P : Path) : Prop where
  nodir : fs.kindOf P ≠ some .dir
  allow : fs.deny P = false
  rw : env.ro P = false
  cut : ∀ i, env.cut P i = none
  gdal : env.gdal P = true

/-- A file name in an existing directory: directory text, core name, dot, suffix. -/
structure NameIn (fs : FS) (p : Path) (dt core suf : Str) : Prop where
  wf : WF fs
  dir : DirText p dt
  core : '/' ∉ core
  suf : suf ≠ [] ∧ '.' ∉ suf ∧ '/' ∉ suf
  exist : fs.kindOf p = some .dir

/-- ASCII grid or GeoTIFF, by the suffix. -/
def IsAscSuffix (suf : Str) : Prop := CCGL.Spec.SameText suf "asc".toList
def IsTifSuffix (suf : Str) : Prop := CCGL.Spec.SameText suf "tif".toList

/-- The header of a grid can be carried by the file format: an ASCII file holds six significant digits. -/
def CarriesHeader (suf : Str) (h : Header) : Prop :=
  0 < h.rows ∧ 0 < h.cols ∧ (IsAscSuffix suf → h.rows * h.cols < 2 ^ 31 ∧ 0 ≤ h.cellsize ∧ |h.xll| < 10 ^ 38 ∧ |h.yll| < 10 ^ 38 ∧
    CCGL.Spec.SixSig h.xll ∧ CCGL.Spec.SixSig h.yll ∧ CCGL.Spec.SixSig h.cellsize ∧ CCGL.Spec.SixSig h.noData)

/-- A cell value can be carried by the file format: the text printed for it denotes it; bytes are not negative. -/
def CarriesValue (fmt : Fmt) (suf : Str) (v : ℚ) : Prop :=
  (IsAscSuffix suf → Prints fmt.pr id v) ∧ (IsTifSuffix suf → fmt.src = .uint8 → 0 ≤ v)

/-- The output type is the type of the cells (no conversion). -/
def SameType (fmt : Fmt) : Prop := fmt.src ≠ .unknown ∧ (fmt.opt = .unknown ∨ (fmt.opt = fmt.src ∧ fmt.opt ≠ .int8))

/-- Reading the file named `s` gives a raster with one layer on the grid of `h`, with its NoData value, and `v row col` at each cell
(if positions of valid cells are computed, NoData cells read as NoData; then the file must have a valid cell; if not, there is one
number for each cell). -/
def ReadsAs (d : Disk) (s : Str) (h : Header) (v : Int → Int → ℚ) : Prop :=
  ∀ (calcPos : Bool) (dflt : ℚ),
    (calcPos = true → ∃ row col, 0 ≤ row ∧ row < h.rows ∧ 0 ≤ col ∧ col < h.cols ∧ floatEqual (v row col) h.noData = false) →
    ∃ r', readFromFile d s calcPos dflt = .ok (some r') ∧ r'.hdr.rows = h.rows ∧ r'.hdr.cols = h.cols ∧ r'.hdr.cellsize = h.cellsize ∧
      r'.hdr.xll = h.xll ∧ r'.hdr.yll = h.yll ∧ r'.noData = h.noData ∧ r'.nLyrs = 1 ∧
      (calcPos = false → ∃ cells, r'.raster1 = some cells ∧ (cells.length : Int) = h.rows * h.cols) ∧
      ∀ row col, 0 ≤ row → row < h.rows → 0 ≤ col → col < h.cols →
        r'.getValue row col 1 = .ok (if calcPos = true ∧ floatEqual (v row col) h.noData = true then h.noData else v row col)

/-- The name of the file of one layer (without suffix): numbered from 1, not numbered if there is one layer. -/
def layerCore (core : Str) (lyrs : Int) (l : Nat) : Str := if lyrs = 1 then core else core ++ '_' :: intToDec ((l : Int) + 1)

/-- The name of the file of one subset (without suffix). -/
def subsetCore (k : Int) (core : Str) : Str := intToDec k ++ '_' :: core

/-- The name of the file of one layer of a raster written as a whole: not numbered if the raster is a single grid, numbered from `first`
if it has the layered form. -/
def wholeCore (core : Str) (layered : Bool) (first : Int) (l : Nat) : Str :=
  if layered then core ++ '_' :: intToDec ((l : Int) + first) else core

/-- The disk is unchanged at path `q`. -/
def SameAt (d d' : Disk) (q : Path) : Prop := d'.fs.kindOf q = d.fs.kindOf q ∧ d'.data q = d.data q

/-- The disk after the files with the given paths have been written, each new or replacing an old file: nothing else has changed. -/
structure Rewritten (d d' : Disk) (new : Path → Prop) : Prop where
  wf : WF d'.fs
  deny : d'.fs.deny = d.fs.deny
  cwd : d'.fs.cwd = d.fs.cwd
  file : ∀ q, new q → d'.fs.kindOf q = some .file
  same : ∀ q, ¬ new q → SameAt d d' q

/-- The operating system lets file `q` be written: an ASCII file, if it can be opened for writing and is there or can be created; a GeoTIFF file, if
GDAL writes it. -/
def Accepts (env : Env) (fs : FS) (suf : Str) (q : Path) : Prop :=
  (IsAscSuffix suf → env.ro q = false ∧ (fs.deny q = false ∨ fs.kindOf q ≠ none)) ∧ (IsTifSuffix suf → env.gdal q = true)

/-- The disk after some of the files with the given paths may have been written or removed: no directory and no other file has changed. -/
structure OnlyAt (d d' : Disk) (at_ : Path → Prop) : Prop where
  wf : WF d'.fs
  deny : d'.fs.deny = d.fs.deny
  cwd : d'.fs.cwd = d.fs.cwd
  dir : ∀ q, d'.fs.kindOf q = some .dir ↔ d.fs.kindOf q = some .dir
  same : ∀ q, ¬ at_ q → SameAt d d' q

end Spec
end Disk
end CCGL
