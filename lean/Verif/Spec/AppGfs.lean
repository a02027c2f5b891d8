import Verif.Spec.AppRun
import Verif.Spec.GfsSubset
import Verif.Model.AppGfs
/-!
# What the jobs of `mask_rasterio` have to deliver if input or output are files in GridFS
-/
namespace CCGL
namespace App
namespace Spec
open Disk Gfs CCGL.Spec Main

/-- The numbers of the rows of a grid of `n` columns, one row after the other, are `cells`. -/
def RowByRow (h : Header) (v : Int → Int → ℚ) (cells : List ℚ) : Prop :=
  (cells.length : Int) = h.rows * h.cols ∧ ∀ row col, h.grid.CellInside row col → cells[(row * h.cols + col).toNat]? = some (v row col)

/-- Some of the five attempts to query the server succeeds. -/
def Answered (ok : Nat → Bool) : Prop := ∃ i, i < 5 ∧ ok i = true

/-- The bucket holds the grid (header `h`, one layer with the values `v`, at least one cell) under the name and the options: `ReadGridFsFile` finds it
whenever the server answers, with all its cells. -/
structure HoldsGrid (rnd : ℚ → ℚ) (st : Store) (name : Str) (opts : Opts) (h : Header) (v : Int → Int → ℚ) : Prop where
  header : StorableHeader { h with layers := 1, cellsnum := h.rows * h.cols }
  reads : ∀ ok1 ok2, Answered ok1 → Answered ok2 → ∃ cells hm sm,
    readGridfs rnd .double ok1 true ok2 st name initialHeader initialStr opts = .ok (some (cells, hm, sm)) ∧
    HeaderIs hm { h with layers := 1, cellsnum := h.rows * h.cols } ∧ sm "INCLUDE_NODATA".toList = some "TRUE".toList ∧ RowByRow h v cells

/-- The options of the application for its files: all cells, stored in the type. -/
def wholeOpts (ty : RDT) : Opts := [("DATATYPE_OUT".toList, rdtToString ty.code), ("INCLUDE_NODATA".toList, "TRUE".toList)]

/-- The only input of the job is a readable raster file or, if the server answers, a grid in the bucket under the options of the job. -/
inductive Input (sys : Sys) (d : Disk) (st : Store) (j : Job) (jd : JobDb) (h : Header) (v : Int → Int → ℚ) : Prop
  | file (s : Str) : j.inFmt = .sfile → j.inputs = [s] → RasterFile d s h v → Input sys d st j jd h v
  | bucket (name : Str) (more : List Str) : j.inFmt = .gfs → j.inputs = name :: more → HoldsGrid sys.rnd st name (wholeOpts j.type) h v →
      Answered jd.ok1 → Answered jd.ok2 → jd.rd = true → Input sys d st j jd h v

/-- The number fits the type in which the file is stored (and `double`). -/
def Fits (ty : RDT) (x : ℚ) : Prop := Representable .double x ∧ Representable ty x

/-- The numbers the job can produce fit the type. -/
structure FitsAll (ty : RDT) (hR : Header) (vR : Int → Int → ℚ) (dv : ℚ) (upd : Bool) (new : ℚ) : Prop where
  cells : ∀ i j, hR.grid.CellInside i j → Fits ty (vR i j)
  nodata : Fits ty hR.noData
  dflt : Fits ty dv
  new : upd = true → Fits ty new

/-- The name under which the application stores a whole raster. -/
def storedName (out : Str) : Str := "0_".toList ++ out

/-- The bucket can take the result of the job: usable name and options, a header that fits, a type the writer knows, a driver that does what
it reports, removals that work. Older files with the name and the two options of the job have the other options of the object too (else
they would be found instead). -/
structure BucketOut (st : Store) (j : Job) (jd : JobDb) (h : Header) : Prop where
  key : GoodKey ⟨storedName j.out, outOpts .double jd.own (wholeOpts j.type) true⟩
  header : StorableHeader { h with layers := 1, cellsnum := h.rows * h.cols }
  type : j.type ≠ .unknown ∧ j.type ≠ .uint64 ∧ j.type ≠ .int64
  rm : ∀ i, jd.rm i = true
  att : ∀ i, CleanAttempt (jd.att i)
  old : ∀ f ∈ st, Has f ⟨storedName j.out, wholeOpts j.type⟩ → Has f ⟨storedName j.out, outOpts .double jd.own (wholeOpts j.type) true⟩

end Spec
end App
end CCGL
