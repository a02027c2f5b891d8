import Verif.Spec.AppReclsL
/-!
# What whole runs of `mask_rasterio` have to deliver, in every mode, for jobs with one or several input files and with or without a reclassification table
-/
namespace CCGL
namespace App
namespace Spec
open Disk Disk.Spec CCGL.Spec Main

/-- What is known in advance about a job with several input files: the paths of all of them, header and values of the first, the others; directory, core and suffix of
the output, the number of its first layer (without table) and the number of columns of the table. -/
structure MPlan where
  inps : List Fs.Path
  hdr : Header
  val : Int → Int → ℚ
  rest : List LayerFile
  dir : Fs.Path
  dt : Str
  core : Str
  suf : Str
  first : Int
  m : Int

/-- The first file and the output, as for a job with one input file. -/
def MPlan.head (pl : MPlan) : RPlan := ⟨[], pl.hdr, pl.val, pl.dir, pl.dt, pl.core, pl.suf, pl.m⟩

/-- A job on files with several input files can be carried out: the inputs are raster files, the outputs can be written and the format can carry header and numbers;
the table, if there is one, has at most as many columns as there are files. `V` is the raster of the first file. -/
structure ManyJob (sys : Sys) (d : Disk) (mode : IOMode) (V : View) (j : Job) (pl : MPlan) : Prop where
  fmts : j.inFmt = .sfile ∧ j.outFmt = .sfile
  files : ∃ s, j.inputs = s :: pl.rest.map (·.path) ∧ RasterFile d s pl.hdr pl.val
  more : pl.rest ≠ [] ∧ ∀ l ∈ pl.rest, RasterFile d l.path l.hdr l.val
  paths : ∀ x ∈ j.inputs, ∃ q ∈ pl.inps, d.fs.resolve x = some q
  recls : j.recls = true → pl.m ≤ pl.rest.length + 1 ∧ CanWrite sys d mode j V.hdr V.grp (jobFill j pl.hdr) pl.dir pl.dt pl.core pl.suf pl.m
  whole : j.recls = false → WantsAll mode → j.out = pl.dt ++ pl.core ++ '.' :: pl.suf ∧
    OutLayers sys.env (sys.fmt j.type) d pl.dir pl.dt pl.core pl.suf (pl.rest.length + 1) pl.first ∧
    CarriesHeader pl.suf V.hdr ∧ Carried (sys.fmt j.type) pl.suf pl.hdr pl.val j.default.toQ j.update j.nodata.toQ ∧
    ∀ l ∈ pl.rest, ∀ i k, l.hdr.grid.CellInside i k → CarriesValue (sys.fmt j.type) pl.suf (l.val i k)

/-- The files the job writes: those of the reclassification, or (if the mode asks for the whole grid) one per input file. -/
def ManyTargets (mode : IOMode) (V : View) (j : Job) (pl : MPlan) (q : Fs.Path) : Prop :=
  (j.recls = true ∧ Targets mode V.grp pl.dir pl.core pl.suf pl.m q) ∨
  (j.recls = false ∧ WantsAll mode ∧ ∃ l : Nat, l < pl.rest.length + 1 ∧ q = pl.dir ++ [pl.core ++ '_' :: intToDec ((l : Int) + pl.first) ++ '.' :: pl.suf])

/-- The numbers `L l` of file `l` at a cell, with NoData renamed if the job asks for it. -/
def renamedNum (j : Job) (hR : Header) (L : Nat → Int → Int → ℚ → Prop) (l : Nat) (row col : Int) (x : ℚ) : Prop :=
  ∃ w, L l row col w ∧ x = renamed j.update hR.noData j.nodata.toQ w

/-- What they hold afterwards; `L l` are the numbers of file `l` at a cell, `K` the cells with a value in the mask (see `LayersOut`). -/
structure ManyDone (d : Disk) (mode : IOMode) (V : View) (K : Int → Int → Prop) (L : Nat → Int → Int → ℚ → Prop) (j : Job) (pl : MPlan) : Prop where
  recls : j.recls = true → ReclsOutputL d mode j V.hdr (renamedNum j pl.hdr L) V.grp (jobFill j pl.hdr) pl.dt pl.core pl.suf pl.m
  whole : j.recls = false → WantsAll mode →
    LayersOut d pl.dt pl.core pl.suf pl.first V.hdr j.update pl.hdr.noData j.nodata.toQ (pl.rest.length + 1) K L

/-- A job of a run: one input file or several. -/
abbrev APlan := RPlan ⊕ MPlan

def APlan.first : APlan → Header
  | .inl pl => pl.hdr
  | .inr pl => pl.hdr
def APlan.others : APlan → List LayerFile
  | .inl _ => []
  | .inr pl => pl.rest
def APlan.reads : APlan → Fs.Path → Prop
  | .inl pl => fun q => q = pl.inp
  | .inr pl => fun q => q ∈ pl.inps

/-- The job can be carried out, the files it writes, what they hold afterwards. -/
def APlan.Ok (sys : Sys) (d : Disk) (mode : IOMode) (V : Job → RPlan → View) (j : Job) : APlan → Prop
  | .inl pl => JobOk sys d mode (V j pl) j pl
  | .inr pl => ManyJob sys d mode (V j pl.head) j pl
def APlan.Writes (mode : IOMode) (V : Job → RPlan → View) (j : Job) : APlan → Fs.Path → Prop
  | .inl pl => JobTargets mode (V j pl) j pl
  | .inr pl => ManyTargets mode (V j pl.head) j pl
def APlan.Done (d : Disk) (mode : IOMode) (V : Job → RPlan → View) (K : Int → Int → Prop) (L : Job → MPlan → Nat → Int → Int → ℚ → Prop) (j : Job) : APlan → Prop
  | .inl pl => JobDone d mode (V j pl) j pl
  | .inr pl => ManyDone d mode (V j pl.head) K (L j pl) j pl

/-- No job writes to an input or an output of a later job. -/
def ApartAll (mode : IOMode) (V : Job → RPlan → View) (xs : List (Job × APlan)) : Prop :=
  xs.Pairwise (fun a b => ∀ q, a.2.Writes mode V a.1 q → ¬ b.2.reads q ∧ ¬ b.2.Writes mode V b.1 q)

end Spec
end App
end CCGL
