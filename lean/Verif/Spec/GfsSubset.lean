import Verif.Model.GfsSubset
import Verif.Spec.Gfs
import Verif.Spec.Subset
/-!
# Specifications for subsets in GridFS
-/
namespace CCGL.Spec
open Gfs

/-- The header of the file of a subset: the rectangle of the subset within the grid of the raster. -/
def subsetHeader (r : Raster) (s : Subset) (inc : Bool) : Header :=
  { rows := s.erow - s.srow + 1, cols := s.ecol - s.scol + 1, cellsize := r.hdr.cellsize,
    xll := r.hdr.xll + s.scol * r.hdr.cellsize, yll := r.hdr.yll + (r.hdr.rows - 1 - s.erow : Int) * r.hdr.cellsize,
    noData := r.noData, layers := r.nLyrs,
    cellsnum := if inc then (s.erow - s.srow + 1) * (s.ecol - s.scol + 1) else s.nCells }

/-- The name of the file of subset `k`: its number, an underscore and the name. -/
def subsetFile (k : Int) (name : List Char) : List Char := intToDec k ++ "_".toList ++ name

/-- One of the four attempts to write the file of the `i`-th subset succeeds. -/
def Written (atts : Nat → Nat → Attempt) (i : Nat) : Prop := ∃ a, a < 4 ∧ (atts i a).reported = true

/-- All subsets are read from their files, in order; the `i`-th with the queries `ok1 i`, `ok2 i`. The results are ignored. -/
def loadAll (rnd : ℚ → ℚ) (ok1 ok2 : Int → Nat → Bool) (st : Store) (name : List Char) (ropts : List (List Char × List Char)) (rs : RasterS) :
    Out RasterS := do
  let subs ← rs.subs.mapM (fun (e : Int × Subset) => do
    let z ← readSubset rnd (ok1 e.1) true (ok2 e.1) st e.2 (subsetFile e.1 name) ropts
    return (e.1, z.1))
  return ⟨rs.ras, subs⟩

end CCGL.Spec
