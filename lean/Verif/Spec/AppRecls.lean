import Verif.Spec.AppRun
import Verif.Spec.Subset
/-!
# What a reclassification job of `mask_rasterio` has to deliver, in terms of the files on disk
-/
namespace CCGL
namespace App
namespace Spec
open Disk Disk.Spec CCGL.Spec Main

open Classical in
/-- The value of a cell (of the mask's grid) of the masked raster: the raster's own number (or default) where the mask has a value and the
raster has a cell, else NoData. -/
noncomputable def maskedVal (hM : Header) (vM : Int → Int → ℚ) (hR : Header) (vR : Int → Int → ℚ) (dv : ℚ) (row col : Int) : ℚ :=
  if h : HasValue hM vM row col ∧ ∃ i j, SameCell hR hM i j row col then filled dv hR.noData (vR h.2.choose h.2.choose_spec.choose)
  else hR.noData

/-- The value for numbers the table does not list: the default value of the job; if none is given (-9999) the NoData value of the result. -/
def unlisted (dv : ℚ) (upd : Bool) (nd new : ℚ) : ℚ :=
  if floatEqual dv (-9999) = true ∧ (upd = true ∨ floatEqual nd (-9999) = false) then (if upd then new else nd) else dv

/-- Groups of cells: number of the group, row, column. -/
abbrev Groups := Int → Int → Int → Prop

/-- Some cell is in group `k`. -/
def Present (g : Groups) (k : Int) : Prop := ∃ row col, g k row col

/-- The cells with a value, grouped by their value (cut to an integer). -/
def byValue (h : Header) (v : Int → Int → ℚ) : Groups := fun k row col => HasValue h v row col ∧ truncQ (v row col) = k

/-- The groups of `g` that have at least one cell in `P`. -/
def having (g : Groups) (P : Int → Int → Prop) : Groups := fun k row col => g k row col ∧ ∃ row' col', g k row' col' ∧ P row' col'

/-- The smallest rectangle with all cells of `c`. -/
structure IsBox (c : Int → Int → Prop) (r0 r1 c0 c1 : Int) : Prop where
  inside : ∀ row col, c row col → r0 ≤ row ∧ row ≤ r1 ∧ c0 ≤ col ∧ col ≤ c1
  top : ∃ col, c r0 col
  bottom : ∃ col, c r1 col
  left : ∃ row, c row c0
  right : ∃ row, c row c1

/-- The grid of rows `r0` to `r1` and columns `c0` to `c1` of the grid of `h`, at its place. -/
def boxHeader (h : Header) (r0 r1 c0 c1 : Int) : Header :=
  { h with rows := r1 - r0 + 1, cols := c1 - c0 + 1, xll := h.xll + c0 * h.cellsize, yll := h.yll + ((h.rows - 1 - r1 : Int) : ℚ) * h.cellsize }

/-- The table of the job, as numbers. -/
def numTable (j : Job) : List (Int × List ℚ) := j.table.map (fun e => (e.1, e.2.map DVal.toQ))

/-- The file of layer `l` with the number `k` before its name. -/
def outFile (dt core suf : Str) (m k : Int) (l : Nat) : Str := dt ++ layerCore (subsetCore k core) m l ++ '.' :: suf
def outPath (p : Fs.Path) (core suf : Str) (m k : Int) (l : Nat) : Fs.Path := p ++ [layerCore (subsetCore k core) m l ++ '.' :: suf]

/-- One file per layer of the table on the whole grid: cells of a group have the table's value for their number, the others NoData. -/
def Combined (d : Disk) (name : Nat → Str) (m : Int) (h : Header) (v : Int → Int → ℚ) (g : Groups) (T : List (Int × List ℚ)) (fill : ℚ) : Prop :=
  ∀ l : Nat, (l : Int) < m → ∃ w, ReadsAs d (name l) h w ∧ ∀ row col, h.grid.CellInside row col →
    ((∃ k, g k row col) → w row col = tableValue T (truncQ (v row col)) l fill) ∧ ((¬ ∃ k, g k row col) → w row col = h.noData)

/-- One file per layer of the table on the smallest rectangle around the cells `c`. -/
def Single (d : Disk) (name : Nat → Str) (m : Int) (h : Header) (v : Int → Int → ℚ) (c : Int → Int → Prop) (T : List (Int × List ℚ)) (fill : ℚ) : Prop :=
  ∃ r0 r1 c0 c1, IsBox c r0 r1 c0 c1 ∧ ∀ l : Nat, (l : Int) < m → ∃ w, ReadsAs d (name l) (boxHeader h r0 r1 c0 c1) w ∧
    ∀ row col, r0 ≤ row → row ≤ r1 → c0 ≤ col → col ≤ c1 →
      (c row col → w (row - r0) (col - c0) = tableValue T (truncQ (v row col)) l fill) ∧ (¬ c row col → w (row - r0) (col - c0) = h.noData)

/-- The mode asks for the whole grid, for single files. -/
def WantsAll (mode : IOMode) : Prop := mode = .mask ∨ mode = .maskdec
def WantsSingle (mode : IOMode) : Prop := mode = .dec ∨ mode = .maskdec

/-- The files a reclassification job with groups `g` writes. -/
def Targets (mode : IOMode) (g : Groups) (p : Fs.Path) (core suf : Str) (m : Int) (q : Fs.Path) : Prop :=
  (WantsSingle mode ∧ ∃ k, ∃ l : Nat, Present g k ∧ (l : Int) < m ∧ q = outPath p core suf m k l) ∨
  (WantsAll mode ∧ (∃ k, Present g k) ∧ ∃ l : Nat, (l : Int) < m ∧ q = outPath p core suf m 0 l)

/-- The outputs of a job with a table of `m` layers can be written: names, formats, numbers. `h` is the header of the result, `g` the groups. -/
structure CanWrite (sys : Sys) (d : Disk) (mode : IOMode) (j : Job) (h : Header) (g : Groups) (fill : ℚ) (p : Fs.Path) (dt core suf : Str) (m : Int) : Prop where
  out : j.out = dt ++ core ++ '.' :: suf
  table : TableOf (numTable j) m
  keys : ((numTable j).map (·.1)).Nodup
  name : NameIn d.fs p dt core suf
  kind : IsAscSuffix suf ∨ (IsTifSuffix suf ∧ SameType (sys.fmt j.type))
  nodir : d.fs.kindOf (p ++ [core ++ '.' :: suf]) ≠ some .dir
  all : WantsAll mode → CarriesHeader suf h ∧ d.fs.kindOf (p ++ [subsetCore 0 core ++ '.' :: suf]) ≠ some .dir ∧
    ∀ l : Nat, (l : Int) < m → Writable sys.env d.fs (outPath p core suf m 0 l)
  single : WantsSingle mode → ∀ k, Present g k → (∀ r0 r1 c0 c1, IsBox (g k) r0 r1 c0 c1 → CarriesHeader suf (boxHeader h r0 r1 c0 c1)) ∧
    d.fs.kindOf (p ++ [subsetCore k core ++ '.' :: suf]) ≠ some .dir ∧
    ∀ l : Nat, (l : Int) < m → Writable sys.env d.fs (outPath p core suf m k l)
  vals : ∀ key l, CarriesValue (sys.fmt j.type) suf (tableValue (numTable j) key l fill)
  nodata : CarriesValue (sys.fmt j.type) suf h.noData

/-- The outputs of the job: the combined files and those of the groups, if the mode asks for them. If it asks for both, those of a group
with number 0 have the names of the combined files, which are written last. -/
structure ReclsOutput (d : Disk) (mode : IOMode) (j : Job) (h : Header) (v : Int → Int → ℚ) (g : Groups) (fill : ℚ) (dt core suf : Str) (m : Int) : Prop where
  all : WantsAll mode → (∃ k, Present g k) → Combined d (outFile dt core suf m 0) m h v g (numTable j) fill
  single : WantsSingle mode → ∀ k, Present g k → (WantsAll mode → k ≠ 0) →
    Single d (outFile dt core suf m k) m h v (g k) (numTable j) fill

/-- The raster of a job with input (`hR`, `vR`) if there is no mask: NoData renamed if asked for. -/
def plainHdr (j : Job) (hR : Header) : Header := { hR with noData := renamedNd j.update hR.noData j.nodata.toQ }
def plainVal (j : Job) (hR : Header) (vR : Int → Int → ℚ) (row col : Int) : ℚ := renamed j.update hR.noData j.nodata.toQ (vR row col)

/-- The raster of a job with input (`hR`, `vR`) and mask (`hM`, `vM`): on the grid of the mask. -/
def maskHdr (j : Job) (hM hR : Header) : Header := { hM with noData := renamedNd j.update hR.noData j.nodata.toQ }
noncomputable def maskVal (j : Job) (hM : Header) (vM : Int → Int → ℚ) (hR : Header) (vR : Int → Int → ℚ) (row col : Int) : ℚ :=
  renamed j.update hR.noData j.nodata.toQ (maskedVal hM vM hR vR j.default.toQ row col)

/-- The value of the job for numbers the table does not list. -/
def jobFill (j : Job) (hR : Header) : ℚ := unlisted j.default.toQ j.update hR.noData j.nodata.toQ

/-- The groups of a job in the modes DEC and MASKDEC with a mask: the groups of the mask on which the masked raster has a value somewhere. -/
def maskGroups (j : Job) (hM : Header) (vM : Int → Int → ℚ) (hR : Header) (vR : Int → Int → ℚ) : Groups :=
  having (byValue hM vM) (fun row col => floatEqual (maskedVal hM vM hR vR j.default.toQ row col) hR.noData = false)

/-- What is known about a job in advance: its input file (path, header, values), the parts of the name of its output and the number of layers
of its table. -/
structure RPlan where
  inp : Fs.Path
  hdr : Header
  val : Int → Int → ℚ
  dir : Fs.Path
  dt : Str
  core : Str
  suf : Str
  m : Int

/-- The raster of a job: header, values and groups. -/
structure View where
  hdr : Header
  val : Int → Int → ℚ
  grp : Groups

/-- Without mask; with a mask in the mode MASK; with a mask in the modes DEC and MASKDEC. -/
def plainView (j : Job) (pl : RPlan) : View := ⟨plainHdr j pl.hdr, plainVal j pl.hdr pl.val, byValue (plainHdr j pl.hdr) (plainVal j pl.hdr pl.val)⟩
noncomputable def maskView (hM : Header) (vM : Int → Int → ℚ) (j : Job) (pl : RPlan) : View :=
  ⟨maskHdr j hM pl.hdr, maskVal j hM vM pl.hdr pl.val, byValue (maskHdr j hM pl.hdr) (maskVal j hM vM pl.hdr pl.val)⟩
noncomputable def groupsView (hM : Header) (vM : Int → Int → ℚ) (j : Job) (pl : RPlan) : View :=
  ⟨maskHdr j hM pl.hdr, maskVal j hM vM pl.hdr pl.val, maskGroups j hM vM pl.hdr pl.val⟩

/-- A job on files with one input file can be carried out: the input is a raster file, the outputs can be written and the format can carry the
numbers. -/
structure JobOk (sys : Sys) (d : Disk) (mode : IOMode) (V : View) (j : Job) (pl : RPlan) : Prop where
  fmts : j.inFmt = .sfile ∧ j.outFmt = .sfile
  input : ∃ s, j.inputs = [s] ∧ d.fs.resolve s = some pl.inp ∧ RasterFile d s pl.hdr pl.val
  recls : j.recls = true → CanWrite sys d mode j V.hdr V.grp (jobFill j pl.hdr) pl.dir pl.dt pl.core pl.suf pl.m
  whole : j.recls = false → WantsAll mode → j.out = pl.dt ++ pl.core ++ '.' :: pl.suf ∧
    OutName sys.env (sys.fmt j.type) d pl.dir pl.dt pl.core pl.suf ∧ CarriesHeader pl.suf V.hdr ∧ CarriesValue (sys.fmt j.type) pl.suf V.hdr.noData ∧
    ∀ row col, V.hdr.grid.CellInside row col → CarriesValue (sys.fmt j.type) pl.suf (V.val row col)

/-- The files the job writes: those of the reclassification, or (if the mode asks for the whole grid) the one named in the job. -/
def JobTargets (mode : IOMode) (V : View) (j : Job) (pl : RPlan) (q : Fs.Path) : Prop :=
  (j.recls = true ∧ Targets mode V.grp pl.dir pl.core pl.suf pl.m q) ∨
  (j.recls = false ∧ WantsAll mode ∧ q = pl.dir ++ [pl.core ++ '.' :: pl.suf])

/-- What they hold afterwards. -/
structure JobDone (d : Disk) (mode : IOMode) (V : View) (j : Job) (pl : RPlan) : Prop where
  recls : j.recls = true → ReclsOutput d mode j V.hdr V.val V.grp (jobFill j pl.hdr) pl.dt pl.core pl.suf pl.m
  whole : j.recls = false → WantsAll mode → ReadsAs d j.out V.hdr V.val

/-- No job writes to the input or an output of a later job. -/
def ApartJobs (mode : IOMode) (V : Job → RPlan → View) (xs : List (Job × RPlan)) : Prop :=
  xs.Pairwise (fun a b => ∀ q, JobTargets mode (V a.1 a.2) a.1 a.2 q → q ≠ b.2.inp ∧ ¬ JobTargets mode (V b.1 b.2) b.1 b.2 q)

end Spec
end App
end CCGL
