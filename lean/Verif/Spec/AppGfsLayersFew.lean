import Verif.Spec.AppGfsLayers
import Verif.Spec.AppGfsFewDec
/-!
# What jobs of `mask_rasterio` with several input files have to store in GridFS without the NoData cells (`INCLUDE_NODATA FALSE`, C92)
-/
namespace CCGL
namespace App
namespace Spec
open Disk Gfs CCGL.Spec Main

/-- As `BucketLayers`, for files without NoData cells. -/
structure BucketLayersFew (st : Store) (j : Job) (jd : JobDb) (h : Header) (n : Nat) : Prop where
  key : GoodKey ⟨storedName j.out, outOpts .double jd.own (fewOpts j.type) false⟩
  header : StorableHeader { h with layers := n, cellsnum := h.rows * h.cols }
  type : j.type ≠ .unknown ∧ j.type ≠ .uint64 ∧ j.type ≠ .int64
  rm : ∀ i, jd.rm i = true
  att : ∀ i, CleanAttempt (jd.att i)
  old : ∀ f ∈ st, Has f ⟨storedName j.out, fewOpts j.type⟩ → Has f ⟨storedName j.out, outOpts .double jd.own (fewOpts j.type) false⟩

/-- One file with the `n` numbers of each of the cells `S`, row by row: the number of layer `l` is allowed by `L l` (NoData `nd` renamed if asked for). -/
def InBucketLayersFew (sys : Sys) (st : Store) (j : Job) (h : Header) (nd : ℚ) (n : Nat) (L : Nat → Int → Int → ℚ → Prop) (S : Int → Int → Prop) : Prop :=
  ∃ w : Nat → Int → Int → ℚ, (∀ row col, h.grid.CellInside row col → ∀ l : Nat, l < n → L l row col (w l row col)) ∧
    HoldsSome sys.rnd st (storedName j.out) (fewOpts j.type) { h with noData := renamedNd j.update nd j.nodata.toQ } n
      (fun l row col => renamed j.update nd j.nodata.toQ (w l row col)) S

/-- The job has changed the bucket at most under the name of its output; there is the file, if one of the first four attempts to store it succeeds, and
nothing otherwise. -/
structure StoredLayersFew (sys : Sys) (st st' : Store) (j : Job) (jd : JobDb) (h : Header) (nd : ℚ) (n : Nat) (L : Nat → Int → Int → ℚ → Prop)
    (S : Int → Int → Prop) : Prop where
  others : ∀ R : Key, R.name ≠ storedName j.out → filesOf st' R = filesOf st R
  file : (∃ i, i < 4 ∧ (jd.att i).reported = true) → InBucketLayersFew sys st' j h nd n L S
  none : (¬ ∃ i, i < 4 ∧ (jd.att i).reported = true) → filesOf st' ⟨storedName j.out, fewOpts j.type⟩ = []

/-- The cells that are stored without a mask: those where the first file (NoData renamed if asked for) is not NoData. -/
def plainCells (j : Job) (hR : Header) (vR : Int → Int → ℚ) : Int → Int → Prop :=
  NotNoData { hR with noData := renamedNd j.update hR.noData j.nodata.toQ } (fun row col => renamed j.update hR.noData j.nodata.toQ (vR row col))

/-- As `StackJob`, for files without NoData cells. -/
structure StackJobFew (d : Disk) (st : Store) (jj : Job × JobDb) (p : StackPlan) (h : Header) : Prop where
  fmt : jj.1.inFmt = .sfile ∧ jj.1.outFmt = .gfs ∧ jj.1.recls = false
  inputs : ∃ s, jj.1.inputs = s :: p.rest.map (·.path) ∧ RasterFile d s p.hdr p.val
  more : p.rest ≠ [] ∧ ∀ l ∈ p.rest, RasterFile d l.path l.hdr l.val
  out : BucketLayersFew st jj.1 jj.2 { h with noData := renamedNd jj.1.update p.hdr.noData jj.1.nodata.toQ } (p.rest.length + 1)
  fits : FitLayers jj.1.type p.hdr p.val jj.1.default.toQ jj.1.update jj.1.nodata.toQ p.rest
  done : ∃ i, i < 4 ∧ (jj.2.att i).reported = true

end Spec
end App
end CCGL
