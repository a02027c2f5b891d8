import Verif.Spec.AppGfsDec
import Verif.Spec.AppLayers
/-!
# What jobs of `mask_rasterio` with several input files have to store in GridFS
-/
namespace CCGL
namespace App
namespace Spec
open Disk Gfs CCGL.Spec Main

/-- As `BucketOut`, for a file with `n` layers. -/
structure BucketLayers (st : Store) (j : Job) (jd : JobDb) (h : Header) (n : Nat) : Prop where
  key : GoodKey ⟨storedName j.out, outOpts .double jd.own (wholeOpts j.type) true⟩
  header : StorableHeader { h with layers := n, cellsnum := h.rows * h.cols }
  type : j.type ≠ .unknown ∧ j.type ≠ .uint64 ∧ j.type ≠ .int64
  rm : ∀ i, jd.rm i = true
  att : ∀ i, CleanAttempt (jd.att i)
  old : ∀ f ∈ st, Has f ⟨storedName j.out, wholeOpts j.type⟩ → Has f ⟨storedName j.out, outOpts .double jd.own (wholeOpts j.type) true⟩

/-- The numbers of all layers fit the type. -/
structure FitLayers (ty : RDT) (hR : Header) (vR : Int → Int → ℚ) (dv : ℚ) (upd : Bool) (new : ℚ) (rest : List LayerFile) : Prop where
  first : FitsAll ty hR vR dv upd new
  more : ∀ l ∈ rest, ∀ i k, l.hdr.grid.CellInside i k → Fits ty (l.val i k)

/-- One file with all `n` layers: each cell of layer `l` has a number allowed by `L l` (NoData `nd` renamed if asked for). -/
def InBucketLayers (sys : Sys) (st : Store) (j : Job) (h : Header) (nd : ℚ) (n : Nat) (L : Nat → Int → Int → ℚ → Prop) : Prop :=
  ∃ w : Nat → Int → Int → ℚ, (∀ row col, h.grid.CellInside row col → ∀ l : Nat, l < n → L l row col (w l row col)) ∧
    HoldsLayers sys.rnd st (storedName j.out) (wholeOpts j.type) { h with noData := renamedNd j.update nd j.nodata.toQ } n
      (fun l row col => renamed j.update nd j.nodata.toQ (w l row col))

/-- The job has changed the bucket at most under the name of its output; there is the file, if one of the first four attempts to store it succeeds, and
nothing otherwise. -/
structure StoredLayers (sys : Sys) (st st' : Store) (j : Job) (jd : JobDb) (h : Header) (nd : ℚ) (n : Nat) (L : Nat → Int → Int → ℚ → Prop) : Prop where
  others : ∀ R : Key, R.name ≠ storedName j.out → filesOf st' R = filesOf st R
  file : (∃ i, i < 4 ∧ (jd.att i).reported = true) → InBucketLayers sys st' j h nd n L
  none : (¬ ∃ i, i < 4 ∧ (jd.att i).reported = true) → filesOf st' ⟨storedName j.out, wholeOpts j.type⟩ = []

/-- The files of a job with several inputs: the first (header and numbers) and the others. -/
structure StackPlan where
  hdr : Header
  val : Int → Int → ℚ
  rest : List LayerFile

/-- A job of the mode MASK with several input files on the disk and output to GridFS, on the grid `h`; one of the first four attempts to store succeeds. -/
structure StackJob (d : Disk) (st : Store) (jj : Job × JobDb) (p : StackPlan) (h : Header) : Prop where
  fmt : jj.1.inFmt = .sfile ∧ jj.1.outFmt = .gfs ∧ jj.1.recls = false
  inputs : ∃ s, jj.1.inputs = s :: p.rest.map (·.path) ∧ RasterFile d s p.hdr p.val
  more : p.rest ≠ [] ∧ ∀ l ∈ p.rest, RasterFile d l.path l.hdr l.val
  out : BucketLayers st jj.1 jj.2 { h with noData := renamedNd jj.1.update p.hdr.noData jj.1.nodata.toQ } (p.rest.length + 1)
  fits : FitLayers jj.1.type p.hdr p.val jj.1.default.toQ jj.1.update jj.1.nodata.toQ p.rest
  done : ∃ i, i < 4 ∧ (jj.2.att i).reported = true

end Spec
end App
end CCGL
